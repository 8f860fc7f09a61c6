import Verif.Lemmas.MeansCheck
import Verif.Props.Means

/-!
# C59 and C60 for documents that a program has looked at

The conditions of C59 and the items of C60 are computed by two programs, `check` and `meaning`.  If
they give an answer for an element, the answer is right for the LaTeX that the library writes.
-/

namespace Verif
open Spec

/-- **C59** If the checker says yes, then the result is a formula. -/
theorem C59_checked (env : Env) (x : Str) (d : Doc) (n : Node) (k : Nat)
    (hp : env.parse (prep x) = .ok d) (hm : maths d = [n]) (h : (check k false fresh n).isSome = true) :
    ∃ s, convert env x = .ok s ∧ Formula s := by
  obtain ⟨q, hq⟩ := Option.isSome_iff_exists.1 h
  refine C59_convert env x d hp (by simp [hm]) fun m h => ?_
  rw [hm, List.mem_singleton] at h
  exact ⟨q, h ▸ check_sound k hq⟩

/-- **C60** If items are computed for the `math` element, then the result is read as those items. -/
theorem C60_computed (env : Env) (x : Str) (d : Doc) (n : Node) (k : Nat) (v : List Item)
    (hp : env.parse (prep x) = .ok d) (hm : maths d = [n]) (h : meaning k false [] n = some v) :
    ∃ s, convert env x = .ok s ∧ ReadsAs s v :=
  C60_convert env x d n v hp hm (meaning_sound k h)

/-- A matrix of two rows in fences that are not written, and scripts on both sides of a letter. -/
def checkedMath : Node :=
  .elem c!"math" []
    [.elem c!"mfenced" []
      [.elem c!"mtable" []
        [.elem c!"mtr" [] [.elem c!"mtd" [] [tokenOf c!"mi" c!"x"], .elem c!"mtd" [] [tokenOf c!"mn" c!"1"]],
         .elem c!"mtr" [] [.elem c!"mtd" [] [tokenOf c!"mi" c!"α"], .elem c!"mtd" [] [tokenOf c!"mn" c!"2"]]]],
     .elem c!"mmultiscripts" []
      [tokenOf c!"mi" c!"X", tokenOf c!"mi" c!"d", tokenOf c!"mi" c!"c", .elem c!"mprescripts" [] [],
       tokenOf c!"mi" c!"b", tokenOf c!"mi" c!"a"]]

/-- What it stands for. -/
def checkedItems : List Item :=
  [.matrix c!"bmatrix"
    [[[.sym (.char 'x')], [.sym (.char '1')]], [[.sym (.word c!"alpha")], [.sym (.char '2')]]],
   .sym (.symb '_'), .sup (.group [.sym (.char 'b')]) [.sym (.char 'a')],
   .sup (.sub (.sym (.char 'X')) [.sym (.char 'd')]) [.sym (.char 'c')]]

theorem checked_meaning : ∃ v, meaning 9 false [] checkedMath = some v ∧ eqItems v checkedItems = true := by
  have : (match meaning 9 false [] checkedMath with
    | some v => eqItems v checkedItems
    | none => false) = true := by decide +kernel
  split at this
  · rename_i v h; exact ⟨v, h, this⟩
  · cases this

example : ∃ s, docResult [checkedMath] = .ok s ∧ ReadsAs s checkedItems := by
  obtain ⟨v, h, e⟩ := checked_meaning
  rw [← eqItems_sound e]
  exact C60_document _ _ _ rfl (meaning_sound 9 h)

example : docResult [checkedMath] =
    .ok c!"\\begin{bmatrix} x & 1 \\\\ \\alpha & 2 \\end{bmatrix} \\_{b}^{a}X_{d}^{c}" := by
  rw [docResult_eq]; decide +kernel

example : (check 9 false fresh checkedMath).isSome = true := by decide +kernel

/-- The program does not answer where the LaTeX cannot be read. -/
example : meaning 9 false [] (.elem c!"math" [] [.elem c!"mfenced" [(c!"open", c!"{")] [tokenOf c!"mn" c!"3"]]) =
    none := by decide +kernel

end Verif
