import Verif.Spec.Xml
import Verif.Spec.Repair

/-! # What comes after the end of a document -/

namespace Verif.Spec.Xml

/-- The text ends with `>` and white space, like every XML document. -/
def EndsTag (x : Str) : Prop := ∃ a w, x = a ++ '>' :: w ∧ ∀ c ∈ w, blank c = true

/-- The parser only accepts such texts (of those on one line, others it does not get to see). -/
def Closed (env : Env) : Prop :=
  ∀ x d, (∀ c ∈ x, c ≠ '\n' ∧ c ≠ '\r') → env.parse x = .ok d → EndsTag x

/-- In all of the attempts the parser never complains about an invalid token. -/
def NoInvalidToken (env : Env) (x : Str) : Prop :=
  ∀ n y line offset, n < 5 → Consulted env x n y → env.parse y ≠ .error (.expat 4 line offset)

end Verif.Spec.Xml
