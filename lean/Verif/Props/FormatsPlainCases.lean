import Verif.Props.FormatsPlain
import Verif.Proofs.MxxlField

/-! C83: density fields of the Millennium-XXL simulation; cases for C81 and C83. -/

namespace Verif

/-- Files written on machines with the other byte order are read, whether the product of the sizes is computed with 32 or with 64 bits. -/
theorem C83_foreign (bits : Nat) (hb : bits = 32 ∨ bits = 64) (C : Content) (slabs nn : Nat) (h1 : scalarInt C "isw_slabs_per_task".toList = slabs) (h2 : scalarInt C "nn".toList = nn)
    (hfit : (Files.mxxlField slabs nn).Fits C) : (Files.mxxlField slabs nn).ReadOn false C (mxxlField bits) :=
  mxxl_foreign bits hb C slabs nn h1 h2 hfit

/-- Files written on machines with the same byte order are never read. -/
theorem C83_native_defect (bits : Nat) (hb : bits = 32 ∨ bits = 64) (C : Content) (slabs nn : Nat) (h2 : scalarInt C "nn".toList = nn) (hfit : (Files.mxxlField slabs nn).Fits C)
    (hs0 : 0 < slabs) (hn0 : 0 < nn) (hn1 : nn ≤ 65535) (s : Bool) (rest : List Byte) : mxxlField bits s ((Files.mxxlField slabs nn).bytes (s != true) C ++ rest) = .error .ioError :=
  mxxl_native bits hb C slabs nn h2 hfit hs0 hn0 hn1 s rest

namespace ExPlain

def field : Content := sampleContent (Files.mxxlField 2 3) [("nn", 3), ("isw_slabs_per_task", 2)]

example : (Files.mxxlField 2 3).ReadOn false field (mxxlField 32) := C83_foreign 32 (Or.inl rfl) field 2 3 (by decide +kernel) (by decide +kernel) (Layout.fits_of _ _ (by decide +kernel))
example : mxxlField 64 true ((Files.mxxlField 2 3).bytes false field) = .error .ioError := by
  have := C83_native_defect 64 (Or.inr rfl) field 2 3 (by decide +kernel) (Layout.fits_of _ _ (by decide +kernel)) (by omega) (by omega) (by omega) true []
  simpa using this

/-- On a little endian machine, the grid of a big endian file -/
example : (match mxxlField 32 true ((Files.mxxlField 2 3).bytes true field) with
    | .ok f => (f.dataset true ((Files.mxxlField 2 3).bytes true field) "grid".toList).toOption.map (List.map leNat)
    | .error _ => none) = some ((List.range 18).map (fun i => 4001 + 7 * i)) := by decide +kernel

def desc : Content := sampleContent (Files.mpaSubDesc 3) [("TotNsubhalos", 3)]

example : (Files.mpaSubDesc 3).ReadOn true desc (fun s file => mpaSubDesc.parse s file) := C81_sub_desc desc 3 (by decide +kernel) (Layout.fits_of _ _ (by decide +kernel))

def xdesc : Content := sampleContent (Files.mxxlSubDesc 2) [("Nsubgroups", 2)]

example : (Files.mxxlSubDesc 2).ReadOn true xdesc (fun s file => mxxlSubDesc.parse s file) := C81_mxxl_sub_desc xdesc 2 (by decide +kernel) (Layout.fits_of _ _ (by decide +kernel))

def aux : Content := sampleContent (Files.mpaTreeAux 8 2 3 1 2) [("TotHalos", 2), ("Totunique", 3), ("Ntrees", 1), ("TotSnaps", 2)]

example : (Files.mpaTreeAux 8 2 3 1 2).ReadOn true aux (fun s file => (mpaTreeAux 8).parse s file) :=
  C81_tree_aux aux 8 2 3 1 2 (Or.inr rfl) (by decide +kernel) (by decide +kernel) (by decide +kernel) (by decide +kernel) (Layout.fits_of _ _ (by decide +kernel))

/-- Two halos -/
def treeHalo (name : String) : List Byte := match (Files.mpaHalo 8 true).find? (fun m => m.name == name) with
  | some m => (List.range m.count).flatMap (fun i => leBytes m.align (100 * name.length + i))
  | none => []

def tree : Content := fun name => if name = "HaloList".toList then [structBytes (fun _ => 99) treeHalo (Files.mpaHalo 8 true), structBytes (fun _ => 98) treeHalo (Files.mpaHalo 8 true)]
  else sampleContent (Files.mpaTree 8 true 2 2) [("Ntrees", 2), ("Nhalos", 2)] name

example : (Files.mpaTree 8 true 2 2).ReadOn true tree (fun s file => (mpaTree 8 true).parse s file) :=
  C81_tree tree 8 true 2 2 (Or.inr rfl) (by decide +kernel) (by decide +kernel) (Layout.fits_of _ _ (by decide +kernel))
example : (match (mpaTree 8 true).parse true ((Files.mpaTree 8 true 2 2).bytes false tree) with
    | .ok f => (f.dataset true ((Files.mpaTree 8 true 2 2).bytes false tree) "HaloList".toList).toOption.map (List.map (fun r => (recordField false (mpaHaloFields 8 true) r "MostBoundID").map leNat))
    | .error _ => none) = some [some 1100, some 1100] := by decide +kernel
example : ∀ m ∈ Files.mpaHalo 8 true, (treeHalo m.name).length = m.align * m.count := by decide +kernel

/-- A Rockstar file with one halo -/
def rockHalo (name : String) : List Byte := match (Files.rockstarHalo true false).find? (fun m => m.name == name) with
  | some m => (List.range m.count).flatMap (fun i => leBytes m.align (100 * name.length + i))
  | none => []

def rock : Content := fun name =>
  if name = "Halo".toList then [structBytes (fun _ => 99) rockHalo (Files.rockstarHalo true false)]
  else if name = "Header/num_halos".toList then [leBytes 8 1]
  else if name = "Header/num_particles".toList then [leBytes 8 5]
  else sampleContent (Files.rockstar true false 1 5) [("Header/format_revision", 2)] name

example : (Files.rockstar true false 1 5).ReadOn true rock (fun s file => (rockstarHalos false).parse s file) :=
  C81_rockstar rock false 1 5 2 (by decide +kernel) (by decide +kernel) (by decide +kernel) (Layout.fits_of _ _ (by decide +kernel))
example : ((Files.rockstar true false 1 5).bytes false rock).length = 256 + 264 + 40 := by decide +kernel
/-- `n_core` comes after a gap. -/
example : (match (rockstarHalos false).parse true ((Files.rockstar true false 1 5).bytes false rock) with
    | .ok f => (f.dataset true ((Files.rockstar true false 1 5).bytes false rock) "Halo".toList).toOption.map (List.map (fun r => (recordField true (rockstarFields true false) r "n_core").map leNat))
    | .error _ => none) = some [some 600] := by decide +kernel

/-- A structure with padding: three bytes after `a`, and seven at the end -/
example : structBytes (fun _ => 255) (fun name => if name = "a" then [1] else if name = "b" then [2, 3, 4, 5] else if name = "c" then [6, 7, 8, 9, 10, 11, 12, 13] else [14]) [⟨"a", 1, 1⟩, ⟨"b", 4, 1⟩, ⟨"c", 8, 1⟩, ⟨"d", 1, 1⟩] =
    [1, 255, 255, 255, 2, 3, 4, 5, 6, 7, 8, 9, 10, 11, 12, 13, 14, 255, 255, 255, 255, 255, 255, 255] := by decide +kernel

end ExPlain

end Verif
