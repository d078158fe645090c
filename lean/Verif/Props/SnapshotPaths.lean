import Verif.Model.SnapshotPaths
import Verif.Proofs.FortranReaders

/-! C120: names of files in the Python readers. -/

namespace Verif.SnapshotPaths

open FortranReaders

theorem pctD_nat (n : Nat) : pctD (n : Int) = digitsOf n := by
  unfold pctD sign
  rw [if_neg (by omega), List.nil_append, Int.natAbs_natCast, decimal_eq]

theorem pctZero_nat (n : Nat) : pctZero 3 (n : Int) = threeDigits n := by
  unfold pctZero
  rw [pctD_nat, ← decimal_eq]
  unfold sign
  rw [if_neg (by omega), List.nil_append, Int.natAbs_natCast, ← decimal3_eq]
  rfl

theorem pctWidth3_nat (n : Nat) : pctWidth 3 3 (n : Int) = threeDigits n := by
  unfold pctWidth sign
  dsimp only
  rw [if_neg (by omega), List.nil_append, Int.natAbs_natCast, ← decimal3_eq]
  have : (3 - (List.replicate (3 - (decimal n).length) '0' ++ decimal n).length) = 0 := by simp; omega
  rw [this]
  rfl

theorem pctWidth2_nat {n : Nat} (h : n < 100) : pctWidth 2 2 (n : Int) = twoDigits n := by
  unfold pctWidth sign
  dsimp only
  rw [if_neg (by omega), List.nil_append, Int.natAbs_natCast]
  have : (2 - (List.replicate (2 - (decimal n).length) '0' ++ decimal n).length) = 0 := by simp; omega
  rw [this, ← iFormat2 h, iFormat_nat (digits_length2 h)]
  rfl

theorem storeParts_eq (k : Kind) : storeParts (k.itype : Int) = some k.store := by
  cases k <;> rfl

theorem prefix5 (l : Name) : "/data/milli".toList ++ l = "/data".toList ++ ("/milli".toList ++ l) := by
  rw [← List.append_assoc]
  rfl

/-- C120: `cosma_file_path` gives the place of each file in the data store in Durham, relative to the directory /data of the Fortran programs, for each of the five kinds of files, each output and each file number. -/
theorem C120_store (k : Kind) {isnap : Nat} (hs : isnap ≤ 63) (ifile : Nat) :
    ∃ p, cosmaFilePath k.itype isnap ifile = some p ∧ storePath k isnap ifile = "/data".toList ++ p := by
  have hm : (ifile + 3 * (63 - isnap)) % 14 < 100 := by omega
  have hi : ((ifile : Int) + 3 * (63 - (isnap : Int))).fmod 14 = (((ifile + 3 * (63 - isnap)) % 14 : Nat) : Int) := by
    rw [Int.fmod_eq_emod_of_nonneg _ (by omega)]
    omega
  unfold cosmaFilePath
  rw [storeParts_eq, hi, pctWidth2_nat hm, pctWidth2_nat (by omega), pctWidth3_nat, pctD_nat]
  refine ⟨_, rfl, ?_⟩
  unfold storePath
  simp only [List.append_assoc]
  rw [prefix5]

/-- C120: the Python and the Fortran programs look for the same file in the data store. -/
theorem C120_fortran (k : Kind) {isnap ifile : Nat} (hs : isnap ≤ 63) (hf : ifile < 1000) :
    ∃ p f, cosmaFilePath k.itype isnap ifile = some p ∧ filepath k.itype isnap ifile = .ok f ∧ trimBlanks f = "/data".toList ++ p := by
  obtain ⟨p, h1, h2⟩ := C120_store k hs ifile
  obtain ⟨f, f1, f2⟩ := filepath_eq k hs hf
  exact ⟨p, f, h1, f1, by rw [f2, h2]⟩

/-- C120: `open_file` of a Millennium snapshot opens the file in the directory which was given, or in the data store if this is "COSMA". -/
theorem C120_open (basedir basename : Name) (isnap ifile : Nat) :
    (basedir ≠ "COSMA".toList → openFileName basedir basename isnap ifile = .ok (ownPath (.snapshot basename) basedir isnap ifile)) ∧
    (basedir = "COSMA".toList → isnap ≤ 63 → ∃ p, openFileName basedir basename isnap ifile = .ok ("/gpfs/data/Millennium/".toList ++ p) ∧ storePath (.snapshot basename) isnap ifile = "/data".toList ++ p) := by
  constructor
  · intro h
    unfold openFileName
    rw [if_pos h]
    unfold snapName ownPath
    rw [pctZero_nat, pctD_nat]
    have : "/snapdir_".toList = "/".toList ++ ((Kind.snapshot basename).dir.toList ++ "_".toList) := by
      show "/snapdir_".toList = "/".toList ++ ("snapdir".toList ++ "_".toList)
      decide
    rw [this]
    simp only [List.append_assoc]
    rfl
  · intro h hs
    obtain ⟨p, h1, h2⟩ := C120_store (.snapshot basename) hs ifile
    refine ⟨p, ?_, h2⟩
    unfold openFileName
    rw [if_neg (not_not.2 h)]
    have h1 : cosmaFilePath 0 isnap ifile = some p := h1
    rw [h1]

/-- C120: different files have different names. -/
theorem C120_distinct {basedir basename : Name} {s f s' f' : Nat} (hs : if basedir = "COSMA".toList then s ≤ 63 ∧ s' ≤ 63 else s < 1000 ∧ s' < 1000)
    (h : openFileName basedir basename s f = openFileName basedir basename s' f') : s = s' ∧ f = f' := by
  by_cases hc : basedir = "COSMA".toList
  · rw [if_pos hc] at hs
    obtain ⟨p, h1, h2⟩ := (C120_open basedir basename s f).2 hc hs.1
    obtain ⟨p', h1', h2'⟩ := (C120_open basedir basename s' f').2 hc hs.2
    rw [h1, h1'] at h
    have hp : p = p' := List.append_cancel_left (Except.ok.inj h)
    apply storePath_inj (k := .snapshot basename) hs.1 hs.2
    rw [h2, h2', hp]
  · rw [if_neg hc] at hs
    rw [(C120_open basedir basename s f).1 hc, (C120_open basedir basename s' f').1 hc] at h
    exact ownPath_inj (k := .snapshot basename) hs.1 hs.2 (Except.ok.inj h)

/-- C120: names of files of P-Gadget3 and Gadget-4 -/
theorem C120_gadget (basedir basename stem : Name) (isnap ifile : Nat) :
    snapName basedir basename isnap ifile = basedir ++ "/snapdir_".toList ++ threeDigits isnap ++ "/".toList ++ basename ++ "_".toList ++ threeDigits isnap ++ ".".toList ++ digitsOf ifile ∧
    subtabName stem basedir isnap ifile = basedir ++ "/groups_".toList ++ threeDigits isnap ++ "/".toList ++ stem ++ "_".toList ++ threeDigits isnap ++ ".".toList ++ digitsOf ifile := by
  unfold snapName subtabName
  rw [pctZero_nat, pctD_nat]
  exact ⟨rfl, rfl⟩

/-! ### Examples -/

namespace ExSnapshotPaths

example : cosmaFilePath 2 63 511 = some "/milli07/d63/sub_tab/sub_tab_063.511".toList := by decide +kernel

example : openFileName "COSMA".toList "x".toList 9 3 = .ok "/gpfs/data/Millennium//milli11/d09/snapshot/snap_millennium_009.3".toList := by decide +kernel

example : openFileName "/virgo/data".toList "snap_millennium".toList 63 10 = .ok "/virgo/data/snapdir_063/snap_millennium_063.10".toList := by decide +kernel

/-- There is no other kind of files. -/
example : cosmaFilePath 5 63 0 = none := by decide +kernel

/-- An output after the last one: the remainder is not negative in Python. -/
example : cosmaFilePath 0 64 0 = some "/milli11/d64/snapshot/snap_millennium_064.0".toList := by decide +kernel

end ExSnapshotPaths

end Verif.SnapshotPaths
