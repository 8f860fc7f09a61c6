import Verif.Spec.Repair

/-! # Texts that take long to match -/

namespace Verif.Spec

/-- `< ` repeated `m` times. -/
def brackets : Nat → Str
  | 0 => []
  | m + 1 => '<' :: ' ' :: brackets m

/-- A comment that is never closed, with such a text in it. -/
def openComment (m : Nat) : Str := c!"<!--" ++ brackets m

/-- How many times a character occurs in a text. -/
def occurrences (c : Char) (x : Str) : Nat := (x.filter (fun d => d == c)).length

end Verif.Spec
