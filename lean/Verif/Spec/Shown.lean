import Verif.Spec.Arity

/-! # Visible parts of an element -/

namespace Verif.Spec

/-- `Shown n path m`: `m` is visible inside `n`; the path lists the elements from `n` down to the
parent of `m`.  Tokens and phantoms show none of their children, `maction` shows the selected
ones, and `mmultiscripts` shows the base and one pair of scripts on either side. -/
inductive Shown : Node → List Node → Node → Prop
  | self {n} : Shown n [] n
  | down {n c path m} : c ∈ selected n → Shown c path m → Shown n (n :: path) m

end Verif.Spec

namespace Verif.Spec

/-- The token elements. -/
def isToken (n : Node) : Bool :=
  tagIs c!"mi" n || tagIs c!"mo" n || tagIs c!"mn" n || tagIs c!"mtext" n

/-- The visible children in the order in which LaTeX prints them: the index of a root comes before
the radicand, the script of `mover` and `munder` before the base, prescripts before the base. -/
def printed : Node → List Node
  | .elem tag A cs =>
    if tag ∈ [c!"mroot", c!"mover", c!"munder"] then (kids cs).reverse
    else if tag = c!"mmultiscripts" then
      pairList (prePair (kids cs)) ++ (kids cs).take 1 ++ pairList (postPair (kids cs))
    else selected (.elem tag A cs)
  | _ => []

/-- The pieces occur in the text one after the other, without overlap. -/
inductive Scattered : List Str → Str → Prop
  | nil {g} : Scattered [] g
  | cons {g t ts s} : Scattered ts s → Scattered (t :: ts) (g ++ t ++ s)

/-- A text without its whitespace. -/
def ink (s : Str) : Str := s.filter fun c => !isSpace c

end Verif.Spec

namespace Verif
open Spec

theorem printed_selected {n m : Node} (h : m ∈ printed n) : m ∈ childElems n := by
  cases n with
  | elem tag A cs =>
    simp only [printed] at h
    split at h
    · exact List.mem_reverse.1 h
    · split at h
      · simp only [List.mem_append] at h
        rcases h with (h | h) | h
        · exact prePair_sub _ h
        · exact List.mem_of_mem_take h
        · exact postPair_sub _ h
      · exact selected_sub h
  | _ => simp [printed] at h

theorem sizeOf_printed {n m : Node} (h : m ∈ printed n) : sizeOf m < sizeOf n := by
  have h := printed_selected h
  cases n with
  | elem tag A cs =>
    have := List.sizeOf_lt_of_mem (List.mem_filter.1 h).1
    simp only [Node.elem.sizeOf_spec]
    omega
  | _ => simp [childElems] at h

end Verif

namespace Verif.Spec

/-- The visible tokens of an element in the order in which they are printed. -/
def shownTokens (n : Node) : List Node :=
  if isToken n then [n] else (printed n).attach.flatMap fun m => shownTokens m.1
termination_by sizeOf n
decreasing_by exact sizeOf_printed m.2

end Verif.Spec
