import Verif.Props.Adapter
import Verif.Props.Context
import Verif.Props.Layout
import Verif.Props.Commands
import Verif.Props.Nesting
import Verif.Props.Latex
import Verif.Props.Means
import Verif.Props.Shown
import Verif.Props.Size

/-!
# Further cases

Theorems of `Adapter`, `Context`, `Layout` and others, each applied to a concrete case that meets its hypotheses.
-/

namespace Verif.Cases
open Verif Verif.Spec

abbrev mi (s : Str) : Node := .elem c!"mi" [] [.text s]
abbrev mn (s : Str) : Node := .elem c!"mn" [] [.text s]
abbrev mo (s : Str) : Node := .elem c!"mo" [] [.text s]

/-- A parser that returns this document, whatever the text. -/
abbrev says (d : Doc) : Env := ⟨fun _ => .ok d, fun _ => false⟩

theorem says_parses (d : Doc) (x : Str) : ParsesTo (says d) x d := ⟨0, _, by decide, .first, rfl⟩

/-! ## Adapter -/

/-- Two texts, two parsers, one document. -/
example : convert (says (inMath (mi c!"x"))) c!"<math>" = convert (tableEnv [(c!"<m>", inMath (mi c!"x"))] (.other 3)) c!"<m>" :=
  C05_accepted_independent _ _ _ _ _ rfl rfl

/-- The second text is accepted. -/
example : convert (tableEnv [(c!"<math> ", inMath (mi c!"x"))] (.expat 3 1 0)) c!"<math> a>" = docResult (inMath (mi c!"x")) :=
  C06_first_success _ _ c!"<math> " 1 _ (by decide) (.next .first (e := .expat 3 1 0) rfl (.generic (by decide)
    (.cut (a := c!"<math>") (m := c!"a") (t := []) (by decide) (by decide) (by decide)))) rfl

/-- The parser complains about the second line of a text that has one only. -/
example : convert (tableEnv [] (.expat 4 2 0)) c!"<math" = .error .indexError :=
  C06_repair_fails _ _ c!"<math" 0 (.expat 4 2 0) (by decide) .first rfl ⟨2, 0, rfl, .inl (by decide)⟩

/-- What the parser says about `<b>` does not matter for `<a>`. -/
example : convert (tableEnv [(c!"<a>", inMath (mi c!"x")), (c!"<b>", [])] (.other 0)) c!"<a>" =
    convert (tableEnv [(c!"<a>", inMath (mi c!"x"))] (.other 1)) c!"<a>" := by
  refine C06_only_consulted _ _ _ fun n y _ h => ?_
  have key : n = 0 ∧ y = c!"<a>" := by
    induction h with
    | first => exact ⟨rfl, rfl⟩
    | next _ hp _ ih =>
      obtain ⟨_, rfl⟩ := ih (by omega)
      cases hp
  rw [key.2]
  rfl

/-- The second attempt ends with another exception. -/
example : ∃ env : Env, env.parse c!"<math> a>" = .error (.expat 3 1 0) ∧ convert env c!"<math> a>" = .error (.parserOther 5) := by
  let env : Env := ⟨fun s => if s = c!"<math> a>" then .error (.expat 3 1 0) else .error (.other 5), fun _ => false⟩
  refine ⟨env, rfl, C07_other_exceptions_propagate env _ c!"<math> " 1 5 (by decide) ?_ rfl⟩
  exact .next .first (e := .expat 3 1 0) rfl (.generic (by decide)
    (.cut (a := c!"<math>") (m := c!"a") (t := []) (by decide) (by decide) (by decide)))

/-- The parser of C09_damages_markup, and what happens. -/
example : convert ⟨fun s => if s = c!"<math><mi a>x</mi></math>" then .error (.expat 4 1 11)
    else .ok [.elem c!"mth" [] [mi c!"x"]], isAsciiAlnum⟩ c!"<math><mi a>x</mi></math>" = .ok [] :=
  C09_damages_markup _ rfl rfl

/-- The parser of C10_truncates_markup. -/
example : convert ⟨fun s => if s = c!"<math><mi id=\"1\">x</math>" then .error (.expat 7 1 20) else .ok (inMath (mi c!"y")), isAsciiAlnum⟩
    c!"<math><mi id=\"1\">x</math>" = docResult (inMath (mi c!"y")) :=
  C10_truncates_markup _ rfl _ rfl

/-- The word `q` at the reported position is deleted. -/
example : convert ⟨fun s => if s = c!"<m q>" then .error (.expat 4 1 3) else .ok (inMath (mi c!"y")), isAsciiAlnum⟩ c!"<m q>" =
    docResult (inMath (mi c!"y")) := by
  have hd : Deleted c!"q" c!"<m q>" c!"<m >" := (missing_sub_iff (by decide) _ _).1 (by decide +kernel)
  exact C09_invalid_token_repair _ _ c!"<m >" c!"q" 1 3 _ rfl (by decide)
    ⟨c!"<m ", [], c!"q", c!">", rfl, rfl, rfl, by decide, .inr ⟨c!"<m", rfl⟩, by decide, by decide, .inr ⟨[], .inr rfl⟩⟩ (by decide) hd (by decide) rfl

/-! ## Context -/

example : convert (says (inMath (.elem c!"mi" [(c!"id", c!"1")] [.text c!"x"]))) [] = convert (says (inMath (mi c!"x"))) [] := by
  refine C18_attributes _ _ _ _ _ _ (says_parses _ _) (says_parses _ _) (docRel_inMath (.base ⟨by decide, by decide, ?_⟩))
  intro k hk v
  simp [recognised] at hk
  subst hk
  simp

example : convert (says (inMath (.elem c!"msqrt" [] [.text c!"\n", mi c!"x"]))) [] = convert (says (inMath (.elem c!"msqrt" [] [mi c!"x", .comment c!"c"]))) [] :=
  C19_surroundings _ _ _ _ _ _ (says_parses _ _) (says_parses _ _) (docRel_inMath (.base ⟨rfl, by decide⟩))

example : convert (says (.comment c!"c" :: inMath (mi c!"x"))) [] = convert (says (inMath (mi c!"x"))) [] :=
  C19_prolog _ _ _ _ _ _ (says_parses _ _) (says_parses _ _) rfl

/-- A comment after the text is dropped, blanks at its ends too. -/
example : convert (says (inMath (.elem c!"mi" [] [.text c!" x\n", .comment c!"c"]))) [] = convert (says (inMath (mi c!"x"))) [] :=
  C20_first_child _ _ _ _ _ _ (says_parses _ _) (says_parses _ _) (docRel_inMath (.base (FirstOnly.mk (n := .text c!" x\n") (by decide))))

example : latexIn true (.elem c!"mspace" [(c!"width", c!"1em")] [.text c!"x"]) = .ok [] := C34_empty _ _ _ _ (by decide) rfl

example : convert (says (inMath (.elem c!"mphantom" [] [mi c!"x"]))) [] = convert (says (inMath (.elem c!"mphantom" [] [.elem c!"mfrac" [] []]))) [] := by
  refine C16_phantom _ _ _ _ _ _ (says_parses _ _) (says_parses _ _) (docRel_inMath (.base ⟨by decide, by decide, ?_⟩))
  simp [HasTable, elements, elementsOf, tagIs]

example : convert (says (inMath (.elem c!"maction" [(c!"actiontype", c!"tooltip")] [mi c!"x", mi c!"y"]))) [] =
    convert (says (inMath (.elem c!"maction" [(c!"actiontype", c!"tooltip")] [mi c!"x", .elem c!"mfrac" [] []]))) [] := by
  refine C17_unselected _ _ _ _ _ _ (says_parses _ _) (says_parses _ _) (docRel_inMath (.base (.mk (by decide) rfl rfl (by decide) (by decide) ?_
    (by constructor <;> (intro h; revert h; decide)))))
  simp [HasTable, elements, elementsOf, tagIs]

example : latexIn false (.elem c!"maction" [] [mi c!"x", .text c!" ", mi c!"y"]) = .ok c!"x \\Longrightarrow y" :=
  (C17_toggle false [] _ (.inr rfl) _).2 ⟨[c!"x", c!"y"], by decide +kernel, rfl⟩

example : convert (says [.elem c!"math" [] [mi c!"x", mi c!"y"]]) [] =
    convert (says [.elem c!"math" [] [mi c!"x", .elem c!"mrow" [] [mi c!"y"]]]) [] := by
  refine C33_grouping _ _ _ _ _ _ (says_parses _ _) (says_parses _ _) ⟨rfl, fun p hp => ?_⟩
  simp only [List.zip_cons_cons, List.zip_nil_left, List.mem_singleton] at hp
  subst hp
  exact .base (Grouped.mk (us := [_]) (vs := [_]) (ws := []) (.inr (by decide)) (by decide) (by decide))

/-! ## Layout -/

example : latexIn false (.elem c!"mfenced" [(c!"open", c!"[")] [mi c!"x", mi c!"y"]) = .ok c!"\\left[x,y\\right)" :=
  (C27_layout false _ _ (by decide) _).2 ⟨[c!"x", c!"y"], by unfold LatexAll; decide +kernel, by decide⟩

example : separated c!";,|" [c!"a", c!"b", c!"c"] = separated c!";," [c!"a", c!"b", c!"c"] :=
  C27_surplus c!";," c!"|" _ (by decide)

abbrev table1 : Node := .elem c!"mtable" [] [.elem c!"mtr" [] [.elem c!"mtd" [] [mn c!"1"]]]

example : latexIn false (.elem c!"mfenced" [] [table1]) = .ok (inEnv c!"bmatrix" [c!"1"]) :=
  C28_default_brackets false [] [table1] (by decide) rfl rfl _ (by unfold LatexAll; decide +kernel)

example : latexIn false (.elem c!"mfenced" [(c!"open", c!"{")] [table1]) =
    .ok (c!"\\left{" ++ inEnv c!"matrix" [c!"1"] ++ c!"\\right") :=
  C28_one_sided false [(c!"open", c!"{")] [table1] (by decide) (by decide) rfl _ (by unfold LatexAll; decide +kernel)

example : latexIn false (.elem c!"msup" [] [.elem c!"mrow" [] [mi c!"a", mi c!"b"], mn c!"2"]) = .ok c!"\\left(a b\\right)^{2}" :=
  (C30_compound false [] (.elem c!"mrow" [] [mi c!"a", mi c!"b"]) (mn c!"1") (mn c!"2") c!"a b" c!"1" c!"2" (by decide +kernel) (by decide +kernel) (by decide +kernel)
    (by unfold Compound; decide +kernel)).1 _ rfl

example : latexIn false (.elem c!"msubsup" [] [mi c!"a", mn c!"1", mn c!"2"]) = .ok c!"a_{1}^{2}" :=
  (C30_simple false [] (mi c!"a") (mn c!"1") (mn c!"2") c!"a" c!"1" c!"2" (by decide +kernel) (by decide +kernel) (by decide +kernel)
    (by unfold Compound; decide +kernel)).2.2 _ rfl

example : latexIn false (.elem c!"msup" [] [.elem c!"mstyle" [] [.elem c!"mrow" [] [mi c!"a", mi c!"b"]], mn c!"2"]) = .ok c!"a b^{2}" :=
  C30_wrapper false [] [] c!"mstyle" (by decide) _ _ rfl rfl c!"a b" c!"2" (by decide +kernel) (by decide +kernel)

example : latexIn false (.elem c!"mmultiscripts" [] [mi c!"a", mi c!"b", mi c!"c", mi c!"d", mi c!"e", mi c!"f", mi c!"g"]) =
    latexIn false (.elem c!"mmultiscripts" [(c!"id", c!"1")] [mi c!"a", mi c!"b", mi c!"c", mi c!"d", mi c!"e", mi c!"f"]) :=
  C31_first_six false _ _ _ _ rfl (by decide)

example : latexIn false (.elem c!"mmultiscripts" [] [mi c!"a", mi c!"b", mi c!"c", mi c!"d", mi c!"e"]) = .ok c!"a_{b}^{c}" :=
  C31_further_dropped false [] (mi c!"a") (mi c!"b") (mi c!"c") c!"a" c!"b" c!"c" [mi c!"d", mi c!"e"] _ rfl rfl
    (by intro y hy; cases hy; rfl) (by decide +kernel) (by decide +kernel) (by decide +kernel) (by decide)

example : latexIn false (.elem c!"mover" [] [mi c!"x", mo c!"^"]) = .ok c!"\\hat{x}" :=
  (C32_command false [] _ (mi c!"x") (mo c!"^") c!"x" c!"\\hat" rfl (by decide +kernel) (by decide +kernel) (by decide)).1

example : latexIn false (.elem c!"munder" [] [mi c!"x", mi c!"n"]) = .ok c!"\\underset{n}{x}" :=
  (C32_set false [] _ (mi c!"x") (mi c!"n") c!"x" c!"n" rfl (by decide +kernel) (by decide +kernel) (by decide)).2

example : latexIn false (.elem c!"mfrac" [(c!"linethickness", c!"0")] [mi c!"x", mi c!"y"]) = .ok c!"\\frac{x}{y}" :=
  C38_plain false _ _ (mi c!"x") (mi c!"y") c!"x" c!"y" rfl (by decide +kernel) (by decide +kernel) (by decide)

example : latexIn false (.elem c!"mfrac" [(c!"id", c!"1"), (c!"bevelled", c!"true")] [mn c!"12", mi c!"y"]) = .ok c!"\\left(12\\right)/y" :=
  C38_bevelled false [(c!"id", c!"1")] [] _ (mn c!"12") (mi c!"y") c!"12" c!"y" rfl (by decide +kernel) (by decide +kernel) c!"true" (by decide) (by decide)
    (by decide)

example : latexIn false (.elem c!"menclose" [(c!"notation", c!"left")] [mi c!"a", mi c!"b"]) = .ok c!"\\left|a b" :=
  (C42_one_sided false _ [c!"a", c!"b"] (by unfold LatexAll; decide +kernel)).1

/-! ## At the API -/

theorem says_convert (d : Doc) (x : Str) : convert (says d) x = docResult d := C05_accepted_never_repaired _ _ _ rfl

theorem no_maths : maths [] = [] := rfl

theorem text_maths (t : Str) (ns : List Node) : maths (.text t :: ns) = maths ns := rfl

abbrev safeText : Str :=
  c!"\\left[\\alpha;\\text{a }\\%\\text{ }\\acute{e};\\%\\right) \\begin{Bmatrix} x^{2} \\end{Bmatrix} \\overline{\\left.y\\right|}"

theorem safe_result : docResult [safeMath] = .ok safeText := by
  rw [docResult_eq]
  decide +kernel

example : Nested safeText := C13_document [safeMath] (by
  intro n hn
  rw [show maths [safeMath] = [safeMath] by simp [safeMath, maths_cons_elem, no_maths, text_maths], List.mem_singleton] at hn
  subst hn
  exact safeMath_safe) _ safe_result

example : Nested safeText := C13_convert (says [safeMath]) [] [safeMath] rfl (by
  intro n hn
  rw [show maths [safeMath] = [safeMath] by simp [safeMath, maths_cons_elem, no_maths, text_maths], List.mem_singleton] at hn
  subst hn
  exact safeMath_safe) _ ((says_convert _ _).trans safe_result)

example : ∀ w ∈ controlWords safeText, w ∈ vocabulary := C52_convert (says [safeMath]) [] [safeMath] rfl (by decide +kernel) (by
  intro n hn
  rw [show maths [safeMath] = [safeMath] by simp [safeMath, maths_cons_elem, no_maths, text_maths], List.mem_singleton] at hn
  subst hn
  exact safeMath_unglued) _ ((says_convert _ _).trans safe_result)

example : ∃ s, convert (says [properMath]) [] = .ok s ∧ Formula s := C59_convert (says [properMath]) [] [properMath] rfl (by decide +kernel) (by
  intro n hn
  rw [show maths [properMath] = [properMath] by simp [properMath, maths_cons_elem, no_maths, text_maths], List.mem_singleton] at hn
  subst hn
  exact ⟨_, check_sound 9 (q' := ⟨false, false⟩) (by decide +kernel)⟩)

example : ∃ s, convert (says [rootNode]) [] = .ok s ∧ ReadsAs s rootItems :=
  C60_convert (says [rootNode]) [] [rootNode] rootNode rootItems rfl (by simp [rootNode, tokenOf, sumNode, maths_cons_elem, no_maths, text_maths]) rootNode_means

/-- The LaTeX of the root index is in the output. -/
example : ∃ t, latexOf (mn c!"3") = .ok t ∧ normalize t <:+: c!"\\sqrt[3]{x} \\alpha \\text{if so}" :=
  C35_tokens (says [shownExample]) [] [shownExample] (says_parses _ _) _
    ((says_convert _ _).trans (by rw [docResult_eq]; decide +kernel)) shownExample (by simp [shownExample, maths_cons_elem]) _ _
    (.down (.head _) (.down (.tail _ (.head _)) .self)) rfl

abbrev innerExample : Node := .elem c!"math" [] [.elem c!"mtable" [] [.elem c!"mtr" [] [.elem c!"mtd" [] [table1]]]]

/-- A table in a table has an environment. -/
example : ∃ rows, LatexAll true (kids [.elem c!"mtr" [] [.elem c!"mtd" [] [mn c!"1"]]]) rows ∧
    normalize (c!"\\begin{matrix}" ++ join c!" \\\\\n" rows ++ c!"\\end{matrix}") <:+: c!"\\begin{matrix}1\\end{matrix}" := by
  obtain ⟨rows, h1, h2, _⟩ := C29_visible_tables (says [innerExample]) [] [innerExample] (says_parses _ _) c!"\\begin{matrix}1\\end{matrix}"
    ((says_convert _ _).trans (by rw [docResult_eq]; decide +kernel)) innerExample (by simp [innerExample, maths_cons_elem]) _ _ _
    (.down (.head _) (.down (.head _) (.down (.head _) (.down (.head _) .self))))
  exact ⟨rows, h1, h2 (.inl ⟨_, .tail _ (.head _), rfl⟩)⟩

example : (c!"\\frac{x}{y}" : Str).length ≤ 40 * size (.elem c!"mfrac" [] [mi c!"x", mi c!"y"]) :=
  C36_element false _ _ (by decide +kernel)

example : (c!"\\frac{x}{y}" : Str).length ≤ 40 * sizes (inMath (.elem c!"mfrac" [] [mi c!"x", mi c!"y"])) := by
  refine C36_linear (says _) [] _ (says_parses _ _) ?_ _ ((says_convert _ _).trans (by rw [docResult_eq]; decide +kernel))
  intro tag A cs h
  simp [inMath, mi, maths_cons_elem, no_maths, text_maths] at h
  simp [h, mi, maths_cons_elem, no_maths, text_maths]

end Verif.Cases
