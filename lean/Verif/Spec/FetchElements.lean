import Verif.Lib.Np
import Verif.Lib.Dist

/-! What `fetch_elements` answers when the request contains invalid indexes (C18). -/

namespace Verif

variable {α : Type*}

/-- Rank `d` is asked for global index `x`, where rank `r` holds `n r` elements: the rank whose range contains it, the last
rank for everything beyond the end. Nobody is asked for a negative index. -/
def AskedFor (P : Nat) (n : Nat → Nat) (x : Int) (d : Nat) : Prop :=
  d < P ∧ (pre n d : Int) ≤ x ∧ (d + 1 < P → x < (pre n (d + 1) : Int))

/-- Number of negative indexes in a request. -/
def negatives (index : List Int) : Nat := (index.filter (fun i => decide (i < 0))).length

/-- The request is `s` in ascending order. Slot `k` of it is answered by rank `d` with `v` (`none`: the lookup fails): the
negative indexes are at the start of `s` but are not counted, so that the rank is the one asked for the index `negatives s`
places further on, while the index it looks up is the one in slot `k`. -/
def SlotAnswer (P : Nat) (arr : Nat → List α) (s : List Int) (k : Nat) (v : Option α) : Prop :=
  ∃ x y d, s[k]? = some x ∧ s[k + negatives s]? = some y ∧ AskedFor P (sizes arr) y d ∧
    v = pyGet? (arr d) (x - (pre (sizes arr) d : Int))

end Verif
