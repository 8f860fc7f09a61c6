import Verif.Spec.Renders

/-!
# Other names for the same things

The letters and digits in the texts of `mi`, `mn` and `mo` replaced by others.
-/

namespace Verif.Spec

/-- Letters and digits become letters and digits. -/
def Names (π : Char → Char) : Prop := ∀ c, isAsciiAlnum c = true → isAsciiAlnum (π c) = true

/-- Other letters and digits; all other characters stay. -/
def renameChar (π : Char → Char) (c : Char) : Char := if isAsciiAlnum c then π c else c

/-- The text is a name or a number: it begins with a letter or a digit, apart from white space. -/
def IsName (t : Str) : Prop := ∃ c w, normalize t = c :: w ∧ isAsciiAlnum c = true

instance (t : Str) : Decidable (IsName t) :=
  match h : normalize t with
  | [] => isFalse fun ⟨_, _, h1, _⟩ => by rw [h] at h1; cases h1
  | c :: w => if hc : isAsciiAlnum c = true then isTrue ⟨c, w, h, hc⟩
    else isFalse fun ⟨_, _, h1, h2⟩ => by rw [h] at h1; cases h1; exact hc h2

/-- The children of a token: the text is renamed if it is a name or a number. -/
def renameToken (π : Char → Char) : List Node → List Node
  | .text t :: cs => .text (if IsName t then t.map (renameChar π) else t) :: cs
  | cs => cs

/-- The elements whose texts are renamed. -/
def nameTags : List Str := [c!"mi", c!"mn", c!"mo"]

mutual
/-- The same node with other names in it. -/
def rename (π : Char → Char) : Node → Node
  | .elem tag A cs => .elem tag A (if tag ∈ nameTags then renameToken π (renames π cs) else renames π cs)
  | n => n
/-- The same nodes with other names in them. -/
def renames (π : Char → Char) : List Node → List Node
  | [] => []
  | n :: ns => rename π n :: renames π ns
end

/-- A string in which some characters are marked. -/
abbrev Marked := List (Char × Bool)

/-- The marked characters replaced. -/
def fill (π : Char → Char) (u : Marked) : Str := u.map fun p => if p.2 then π p.1 else p.1

/-- Only letters and digits are marked. -/
def Fine (u : Marked) : Prop := ∀ p ∈ u, p.2 = true → isAsciiAlnum p.1 = true

end Verif.Spec
