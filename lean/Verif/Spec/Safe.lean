import Verif.Spec.Renders
import Verif.Lemmas.Tex

/-! # Documents whose texts do not interfere with the nesting of the output -/

namespace Verif.Spec

/-- The characters that structure TeX input. -/
def texSpecials : List Char := ['\\', '{', '}', '%', '$', '#']

/-- A delimiter: a character that TeX accepts behind `\left`, and possibly more. -/
def SafeDelim (d : Str) : Prop :=
  ∃ c t, d = c :: t ∧ isSpace c = false ∧ c ≠ '\\' ∧ noDelim c = false ∧ ∀ x ∈ t, x ∉ texSpecials

/-- A fence with harmless delimiters and separators.  Around a table the delimiters must both be
given or both be missing. -/
def SafeFence (A : List (Str × Str)) (cs : List Node) : Prop :=
  (HasTable cs ∧ attr A c!"open" = c!"{" ∧ attr A c!"close" = c!"}") ∨
  ((attr A c!"open" = [] ∨ SafeDelim (attr A c!"open")) ∧
   (attr A c!"close" = [] ∨ SafeDelim (attr A c!"close")) ∧
   (∀ c ∈ attr A c!"separators", c ∉ texSpecials) ∧
   (HasTable cs → (attr A c!"open" = [] ↔ attr A c!"close" = [])))

/-- Nothing in this element interferes with nesting. -/
def SafeElem : Node → Prop
  | .elem tag A cs =>
    -- identifiers and operators: no special characters, but those with an entry of their own
    ((tag = c!"mi" ∨ tag = c!"mo") → (∀ c ∈ tokenData cs, c ∉ texSpecials) ∨
      ∃ c ∈ ['\\', '%', '$', '#'], split (tokenData cs) = [[c]]) ∧
    (tag = c!"mn" → ∀ c ∈ tokenData cs, c ∉ texSpecials) ∧
    (tag = c!"mtext" → ∀ c ∈ tokenData cs, c ≠ '{' ∧ c ≠ '}') ∧
    (tag = c!"mfenced" → SafeFence A cs) ∧
    (tag = c!"menclose" → attr A c!"notation" ∉ [c!"left", c!"right", c!"madruwb"])
  | _ => True

/-- Nothing in this node interferes with nesting. -/
def Safe (n : Node) : Prop := ∀ x ∈ elementsOf n, SafeElem x

end Verif.Spec
