import Verif.Spec.Renders

/-! # Which elements are rendered, and how many children they need -/

namespace Verif.Spec

/-- The tags with a fixed number of children. -/
def arities : Dict Nat :=
  [(c!"msup", 2), (c!"msub", 2), (c!"mfrac", 2), (c!"mroot", 2), (c!"mover", 2), (c!"munder", 2),
   (c!"msubsup", 3), (c!"munderover", 3)]

/-- The tags whose children are never rendered. -/
def leaves : List Str := [c!"mi", c!"mo", c!"mn", c!"mtext", c!"mphantom"]

/-- The complaint about an element, if it has the wrong number of children. -/
def violation : Node → Option Exc
  | .elem tag A cs =>
    match arities.find? (fun p => p.1 = tag) with
    | some p =>
      if (kids cs).length = p.2 then none
      else some (.invalidChildren tag p.2 (kids cs).length c!"exactly")
    | none =>
      if tag = c!"mmultiscripts" ∧ (kids cs).length < 3 then
        some (.invalidChildren tag 3 (kids cs).length c!"at least")
      else if tag = c!"maction" ∧ ¬ isToggle (attr A c!"actiontype") ∧ kids cs = [] then
        some .indexError
      else none
  | _ => none

/-- A pair as a list. -/
def pairList : Option (Node × Node) → List Node
  | none => []
  | some (p, q) => [p, q]

/-- The children that are rendered when the element is, in the order in which that happens. -/
def selected : Node → List Node
  | .elem tag A cs =>
    if tag ∈ leaves then []
    else if tag = c!"maction" ∧ ¬ isToggle (attr A c!"actiontype") then (kids cs).take 1
    else if tag = c!"mmultiscripts" then
      (kids cs).take 1 ++ pairList (prePair (kids cs)) ++ pairList (postPair (kids cs))
    else kids cs
  | _ => []

end Verif.Spec

namespace Verif
open Spec

theorem prePair_sub {ns : List Node} : ∀ n ∈ pairList (prePair ns), n ∈ ns := by
  intro n hn
  rcases ns with _ | ⟨x, _ | ⟨c1, _ | ⟨c2, _ | ⟨c3, rest⟩⟩⟩⟩
  · simp [prePair, pairList] at hn
  · simp [prePair, pairList] at hn
  · simp [prePair, pairList] at hn
  · simp [prePair, pairList] at hn
  · simp only [prePair] at hn
    split at hn
    · simp only [pairList, List.mem_cons, List.not_mem_nil, or_false] at hn
      rcases hn with rfl | rfl <;> simp
    · rcases rest with _ | ⟨c4, _ | ⟨c5, rest⟩⟩
      · simp [pairList] at hn
      · simp [pairList] at hn
      · simp only at hn
        split at hn
        · simp only [pairList, List.mem_cons, List.not_mem_nil, or_false] at hn
          rcases hn with rfl | rfl <;> simp
        · simp [pairList] at hn

theorem postPair_sub {ns : List Node} : ∀ n ∈ pairList (postPair ns), n ∈ ns := by
  intro n hn
  rcases ns with _ | ⟨x, _ | ⟨c1, _ | ⟨c2, rest⟩⟩⟩
  · simp [postPair, pairList] at hn
  · simp [postPair, pairList] at hn
  · simp [postPair, pairList] at hn
  · simp only [postPair] at hn
    split at hn
    · simp [pairList] at hn
    · simp only [pairList, List.mem_cons, List.not_mem_nil, or_false] at hn
      rcases hn with rfl | rfl <;> simp

theorem selected_sub {n m : Node} (h : m ∈ selected n) : m ∈ childElems n := by
  cases n with
  | elem tag A cs =>
    simp only [selected] at h
    simp only [childElems]
    split at h
    · simp at h
    · split at h
      · exact List.mem_of_mem_take h
      · split at h
        · simp only [List.mem_append] at h
          rcases h with (h | h) | h
          · exact List.mem_of_mem_take h
          · exact prePair_sub _ h
          · exact postPair_sub _ h
        · exact h
  | _ => simp [selected] at h

theorem sizeOf_selected {n m : Node} (h : m ∈ selected n) : sizeOf m < sizeOf n := by
  have h := selected_sub h
  cases n with
  | elem tag A cs =>
    have := List.sizeOf_lt_of_mem (List.mem_filter.1 h).1
    simp only [Node.elem.sizeOf_spec]
    omega
  | _ => simp [childElems] at h

end Verif

namespace Verif.Spec

/-- The elements that are rendered when `n` is, in the order in which their conversions start. -/
def evaluated (n : Node) : List Node :=
  n :: (selected n).attach.flatMap fun m => evaluated m.1
termination_by sizeOf n
decreasing_by exact sizeOf_selected m.2

end Verif.Spec

namespace Verif
open Spec

theorem evaluated_eq (n : Node) : evaluated n = n :: (selected n).flatMap evaluated := by
  rw [evaluated]
  congr 1
  simp [List.flatMap_subtype]

end Verif
