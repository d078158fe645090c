import Verif.Spec.FormatLayouts

/-!
Files in the byte order of the machine which wrote them, and arrays of structures.
-/

namespace Verif

/-- Files with this layout and these contents, written on the same kind of machine (or, if `native` is false, on the other kind), are read correctly, whatever follows; nothing else is found in them, and `all_bytes_used()` tells whether anything follows. -/
def Layout.ReadOn (native : Bool) (C : Content) (L : Layout) (open_file : Bool → List Byte → Except Err BFile) : Prop :=
  ∀ (s : Bool) (rest : List Byte), ∃ f, open_file s (L.bytes (s != native) C ++ rest) = .ok f ∧
    (∀ sec ∈ L, ∀ r ∈ sec.rows, r.ReadBack s (L.bytes (s != native) C ++ rest) C f) ∧
    (∀ name, (∀ sec ∈ L, ∀ r ∈ sec.rows, ¬comps name <+: comps r.name) → f.dataset s (L.bytes (s != native) C ++ rest) name = .error .keyError) ∧ (allBytesUsed f.blocks (L.bytes (s != native) C ++ rest).length = true ↔ rest = [])

/-- A member of a C structure: name, size of the numbers, which is also the alignment, and their number -/
structure Member where
  name : String
  align : Nat
  count : Nat := 1
  deriving DecidableEq

/-- Memory of a structure, as laid out by a C compiler: each member comes at the next address which is a multiple of its alignment. `value` gives the bytes of each member and `pad` the bytes in between. -/
def structBody (pad : Nat → Byte) (value : String → List Byte) : List Byte → List Member → List Byte
  | acc, [] => acc
  | acc, m :: rest => structBody pad value (acc ++ (List.range ((m.align - acc.length % m.align) % m.align)).map pad ++ value m.name) rest

/-- Alignment of the structure: that of the member with the largest one -/
def structAlign (ms : List Member) : Nat := ((ms.map Member.align).max?).getD 1

/-- The whole structure, whose size is a multiple of its alignment -/
def structBytes (pad : Nat → Byte) (value : String → List Byte) (ms : List Member) : List Byte :=
  structBody pad value [] ms ++ (List.range ((structAlign ms - (structBody pad value [] ms).length % structAlign ms) % structAlign ms)).map pad

/-- The value has the size of the member. -/
def Member.Fits (value : String → List Byte) (m : Member) : Prop := (value m.name).length = m.align * m.count

/-- Size of a structure -/
def structSize (ms : List Member) : Nat := (structBytes (fun _ => 0) (fun name => match ms.find? (fun m => m.name == name) with | some m => List.replicate (m.align * m.count) 0 | none => []) ms).length

namespace Files

/-- An array of `n` structures with `width` bytes -/
def structs (width n : Nat) (name : String) : Row := ⟨name.toList, width, [n], false, none⟩

/-- Descendants of subhalos -/
def mpaSubDesc (n : Nat) : Layout := [⟨false, [one 4 "TotNsubhalos"]⟩, ⟨false, ["HaloIndex", "SnapNum"].map (col 4 n)⟩]

/-- Positions and velocities of particles along the trees -/
def mpaTreeAux (id halos unique trees snaps : Nat) : Layout := [
  ⟨false, ["TotHalos", "Totunique", "Ntrees", "TotSnaps"].map (one 4)⟩,
  ⟨false, ["CountID_Snap", "OffsetID_Snap"].map (col 4 snaps) ++ ["CountID_SnapTree", "OffsetID_SnapTree"].map (vec 4 snaps trees) ++ ["Nunique", "OffsetID_Halo"].map (col 4 halos) ++
    [col id unique "IDs", vec 4 unique 3 "Pos", vec 8 unique 3 "Vel"]⟩]

/-- `struct halo_data` -/
def mpaHalo (id : Nat) (masses : Bool) : List Member :=
  ["Descendant", "FirstProgenitor", "NextProgenitor", "FirstHaloInFOFgroup", "NextHaloInFOFgroup", "Len", "M_Mean200", "M_Crit200", "M_TopHat"].map (⟨·, 4, 1⟩) ++
  [⟨"Pos", 4, 3⟩, ⟨"Vel", 4, 3⟩, ⟨"VelDisp", 4, 1⟩, ⟨"VMax", 4, 1⟩, ⟨"Spin", 4, 3⟩, ⟨"MostBoundID", id, 1⟩] ++
  ["SnapNum", "FileNr", "SubhaloIndex", "SubhalohalfMass"].map (⟨·, 4, 1⟩) ++ (if masses then [⟨"SubMassTab", 4, 6⟩] else [])

/-- Merger trees -/
def mpaTree (id : Nat) (masses : Bool) (trees halos : Nat) : Layout := [
  ⟨false, ["Ntrees", "Nhalos"].map (one 4)⟩,
  ⟨false, [col 4 trees "NPerTree", structs (structSize (mpaHalo id masses)) halos "HaloList"]⟩]

/-- `struct halo` of Rockstar -/
def rockstarHalo (halfmass galaxies : Bool) : List Member :=
  [⟨"id", 8, 1⟩, ⟨"pos", 4, 6⟩, ⟨"corevel", 4, 3⟩, ⟨"bulkvel", 4, 3⟩] ++
  ["m", "r", "child_r", "vmax_r", "mgrav", "vmax", "rvmax", "rs", "klypin_rs", "vrms"].map (⟨·, 4, 1⟩) ++
  [⟨"J", 4, 3⟩, ⟨"energy", 4, 1⟩, ⟨"spin", 4, 1⟩, ⟨"alt_m", 4, 4⟩] ++ ["Xoff", "Voff", "b_to_a", "c_to_a"].map (⟨·, 4, 1⟩) ++ [⟨"A", 4, 3⟩] ++ ["b_to_a2", "c_to_a2"].map (⟨·, 4, 1⟩) ++ [⟨"A2", 4, 3⟩] ++
  ["bullock_spin", "kin_to_pot", "m_pe_b", "m_pe_d"].map (⟨·, 4, 1⟩) ++ (if halfmass then [⟨"halfmass_radius", 4, 1⟩] else []) ++
  ["num_p", "num_child_particles", "p_start", "desc", "flags", "n_core"].map (⟨·, 8, 1⟩) ++ ["min_pos_err", "min_vel_err", "min_bulkvel_err"].map (⟨·, 4, 1⟩) ++
  (if galaxies then ["type", "sm", "gas", "bh", "peak_density", "av_density"].map (⟨·, 4, 1⟩) else [])

/-- Rockstar halos: a header of 256 bytes, the halos and the IDs of their particles -/
def rockstar (halfmass galaxies : Bool) (halos particles : Nat) : Layout := [
  ⟨false, [head 8 [] "magic", head 8 [] "snap", head 8 [] "chunk", head 4 [] "scale", head 4 [] "om", head 4 [] "ol", head 4 [] "h0", head 4 [6] "bounds", head 8 [] "num_halos", head 8 [] "num_particles",
    head 4 [] "box_size", head 4 [] "particle_mass", head 8 [] "particle_type", head 4 [] "format_revision", head 12 [] "rockstar_version" false, head 144 [] "unused" false]⟩,
  ⟨false, [structs (structSize (rockstarHalo halfmass galaxies)) halos "Halo", col 8 particles "IDs"]⟩]

/-- Descendants of Millennium-XXL subhalos -/
def mxxlSubDesc (n : Nat) : Layout := [⟨false, [one 4 "Nsubgroups"]⟩, ⟨false, [col 8 n "SubMostBoundID", col 4 n "Desc_FileNr", col 4 n "Desc_SubIndex"]⟩]

/-- Slabs of a grid of the Millennium-XXL simulation -/
def mxxlField (slabs nn : Nat) : Layout := [
  ⟨true, [one 4 "NTask", one 8 "BoxSize", one 4 "nn", one 4 "isw_slabs_per_task"]⟩,
  ⟨true, [⟨"grid".toList, 4, [slabs, nn, nn], true, none⟩]⟩]

end Files

end Verif
