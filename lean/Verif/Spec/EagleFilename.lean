import Mathlib.Data.List.Basic

/-!
What the names of EAGLE output files look like.
-/

namespace Verif

/-- A redshift label: `z`, three digits, `p`, three digits -/
def IsRedshiftLabel (z : List Char) : Prop :=
  ∃ w v : List Char, z = 'z' :: w ++ 'p' :: v ∧ w.length = 3 ∧ v.length = 3 ∧ (∀ c ∈ w, c.isDigit = true) ∧ (∀ c ∈ v, c.isDigit = true)

/-- Something in the place of a redshift label: the six digits may be any characters -/
def LooksLikeLabel (z : List Char) : Prop := ∃ w v : List Char, z = 'z' :: w ++ 'p' :: v ∧ w.length = 3 ∧ v.length = 3

/-- Decimal digits of `n` -/
def digitsOf (n : Nat) : List Char := (toString n).toList

/-- `n` with at least three digits -/
def threeDigits (n : Nat) : List Char := if n < 10 then '0' :: '0' :: digitsOf n else if n < 100 then '0' :: digitsOf n else digitsOf n

/-- The type of directory in which files of a type are stored -/
def eagleDirectory (basename : String) : Option String :=
  if basename = "eagle_subfind_tab" ∨ basename = "group_tab" then some "groups"
  else if basename = "eagle_subfind_snip_tab" ∨ basename = "group_snip_tab" then some "groups_snip"
  else if basename = "eagle_subfind_particles" then some "particledata"
  else if basename = "eagle_subfind_snip_particles" then some "particledata_snip"
  else if basename = "snapshot" ∨ basename = "snipshot" then some basename
  else none

/-- Name of the directory with label `z` -/
def eagleDirFor (dir : String) (isnap : Nat) (z : List Char) : List Char := dir.toList ++ ['_'] ++ threeDigits isnap ++ ['_'] ++ z

/-- Name of file `ifile` with label `z` -/
def eagleFileFor (basename : String) (isnap ifile : Nat) (z : List Char) : List Char :=
  basename.toList ++ ['_'] ++ threeDigits isnap ++ ['_'] ++ z ++ ['.'] ++ digitsOf ifile ++ ".hdf5".toList

/-- Path with label `z` -/
def eaglePath (basedir : List Char) (dir basename : String) (isnap ifile : Nat) (z : List Char) : List Char :=
  basedir ++ ['/'] ++ eagleDirFor dir isnap z ++ ['/'] ++ eagleFileFor basename isnap ifile z

/-- Every output which is present has the label `label basedir basename isnap` in the names of its directory and of its files; a directory has every name once. -/
structure OneLabel (fs : List Char → List (List Char × List Char)) (label : List Char → String → Nat → List Char) : Prop where
  nodup : ∀ b, (fs b).Nodup
  isLabel : ∀ b n s, IsRedshiftLabel (label b n s)
  only : ∀ b n dir s i z z', eagleDirectory n = some dir → LooksLikeLabel z → LooksLikeLabel z' →
    (eagleDirFor dir s z, eagleFileFor n s i z') ∈ fs b → z = label b n s ∧ z' = label b n s

/-- File `ifile` of the output is present, with the label it should have -/
def EaglePresent (fs : List Char → List (List Char × List Char)) (label : List Char → String → Nat → List Char) (b : List Char) (n : String) (s i : Nat) : Prop :=
  ∃ dir, eagleDirectory n = some dir ∧ (eagleDirFor dir s (label b n s), eagleFileFor n s i (label b n s)) ∈ fs b

end Verif
