import Verif.Spec.Repair
import Verif.Refine.Heap

/-! # Vocabulary for documents -/

namespace Verif.Spec

mutual
/-- All elements of a node in document order. -/
def elementsOf : Node → List Node
  | .elem tag attrs cs => .elem tag attrs cs :: elements cs
  | _ => []
/-- All elements of a document in document order. -/
def elements : List Node → List Node
  | [] => []
  | n :: ns => elementsOf n ++ elements ns
end

/-- An element named `math`. -/
def isMath : Node → Bool
  | .elem tag _ _ => tag == c!"math"
  | _ => false

/-- The `math` elements of a document in document order. -/
def maths (d : Doc) : List Node := (elements d).filter isMath

/-- The conversion of a single DOM element by the library in a process with an arbitrary heap:
build the element, construct its converter, run it. -/
def latexFrom (h : Heap) (n : Node) : Except Exc Str :=
  match buildElem n h with
  | (some e, h1) => (convertElem e h1).1
  | (none, _) => .ok []

/-- The conversion of a single DOM element on its own. -/
def latexOf (n : Node) : Except Exc Str := latexFrom Heap.empty n

/-- The LaTeX of a DOM element; `inTable`: it occurs below an `mtable`. -/
def latexIn (inTable : Bool) (n : Node) : Except Exc Str :=
  match toPElem n with
  | some e => pconv inTable e
  | none => .ok []

/-- Whitespace-normal: no whitespace at the ends, no whitespace but U+0020, no two blanks in a
row. -/
structure Normal (s : Str) : Prop where
  onlyBlanks : ∀ c ∈ s, isSpace c = true → c = ' '
  noDouble : ¬ c!"  " <:+: s
  noLeading : ∀ c t, s = c :: t → isSpace c = false
  noTrailing : ∀ c t, s = t ++ [c] → isSpace c = false

end Verif.Spec

namespace Verif
open Spec

/-- Converting an element from any heap gives the pure result. -/
theorem latexFrom_eq (h : Heap) (n : Node) : latexFrom h n = latexIn false n := by
  have hb := buildElem_spec n h false
  unfold latexFrom latexIn
  generalize buildElem n h = q at hb
  obtain ⟨e?, h1⟩ := q
  cases e? with
  | none => simp only at hb; rw [hb.2]
  | some e =>
    obtain ⟨_, h2, _, S, hw⟩ := hb
    simp only at h2 ⊢
    rw [h2]
    obtain ⟨h', e', _⟩ := convertElem_sim (S := S) (c0 := h1.cells) e (fun _ => False) false (WfE.toT e _ hw)
      (by simp) h1 ⟨fun _ _ => rfl, fun _ _ _ _ => rfl, fun _ h => h.elim⟩
    rw [e']

theorem latexOf_eq (n : Node) : latexOf n = latexIn false n := latexFrom_eq _ n

mutual
theorem mathElementsOf_eq (n : Node) : mathElementsOf n = (elementsOf n).filter isMath := by
  match n with
  | .text _ => rfl
  | .cdata _ => rfl
  | .comment _ => rfl
  | .pi _ _ => rfl
  | .elem tag attrs cs =>
    rw [mathElementsOf, elementsOf, mathElements_eq, List.filter_cons, isMath]
    by_cases h : tag = c!"math" <;> simp [h]
theorem mathElements_eq (ns : List Node) : mathElements ns = (elements ns).filter isMath := by
  match ns with
  | [] => rfl
  | n :: ns => rw [mathElements, elements, List.filter_append, mathElementsOf_eq, mathElements_eq ns]
end

end Verif
