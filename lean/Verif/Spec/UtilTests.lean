import Mathlib.Data.List.Basic

namespace Verif.UtilTests

/-- Group numbers of particles stored group by group: the number of each group as many times as it has members. -/
def numbersFrom : Nat → List Nat → List Int
  | _, [] => []
  | i, l :: rest => List.replicate l (i : Int) ++ numbersFrom (i + 1) rest

/-- Ranks in the group of particles stored group by group: 0, 1, ... for each group. -/
def memberRanks : List Nat → List Int
  | [] => []
  | l :: rest => (List.range l).map Int.ofNat ++ memberRanks rest

end Verif.UtilTests
