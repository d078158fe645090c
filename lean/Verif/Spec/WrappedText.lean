import Verif.Model.EagleFilename

/-! Words of a text -/

namespace Verif.WrappedText

/-- The words of a text: its longest parts without blanks -/
def words : Name → List Name
  | [] => []
  | c :: s =>
    if c = ' ' then words s
    else if s.head? = none ∨ s.head? = some ' ' then [c] :: words s
    else match words s with
      | [] => [[c]]
      | w :: ws => (c :: w) :: ws

/-- What a text says if blanks are left out -/
def letters (s : Name) : Name := s.filter (fun c => c ≠ ' ')

end Verif.WrappedText
