import Verif.Props.Xml
import Verif.Props.Tables
import Verif.Props.Faults
import Verif.Props.Interrupted
import Verif.Props.Stopped

/-!
# Further cases of the theorems on texts, tables, faults and failures

Theorems of `Xml`, `Tables`, `Faults`, `Interrupted` and `Stopped`, each applied to a case that meets
its hypotheses.
-/

namespace Verif.Cases
open Spec Spec.Xml Stack

/-! ## Texts (`Xml`) -/

abbrev lessNode : Node := .elem c!"math" [] [.elem c!"mo" [] [.text c!"<"]]

theorem less_writable : Writable [lessNode] :=
  .elem (by decide) (by decide) (by unfold Distinct; decide)
    (.elem (by decide) (by decide) (by unfold Distinct; decide)
      (.text (by decide) (by decide) (by simp [NoText]) .nil) .nil) .nil

theorem less_document : Document (prep (write lessNode)) [lessNode] :=
  (C61_written xmlEnv C61_correct_parser_exists _ rfl less_writable).1

example (d : Doc) (h : Document (prep (write lessNode)) d) : d = [lessNode] := C61_unique _ _ _ h less_document

example (env : Env) (he : Correct env) : convert env c!"<math><mo>&lt;</mo></math>" = .ok c!"<" := by
  refine (C61_convert env he _ [lessNode] less_document).trans ?_
  rw [docResult_eq]
  decide +kernel

example (env : Env) (he : Correct env) :
    convert env c!"<math><mo>&lt;</mo></math>" = convert xmlEnv c!"<mml:math><mo>&lt;</mo></math>" :=
  C61_spelling env xmlEnv he C61_correct_parser_exists _ _ [lessNode] less_document less_document

example (env : Env) (he : Correct env) : convert env squareFile = convert xmlEnv squareFile :=
  C62_same_tree env xmlEnv he C61_correct_parser_exists _ _ _ squareFile_file squareFile_file (by decide +kernel)
    (by decide +kernel)

theorem prefixed_same (x : Str) : Prefixed x x := by
  induction x with
  | nil => exact .nil
  | cons c x ih => exact .copy c ih

/-- The file with a prefix on its last tag. -/
example (env : Env) (he : Correct env) : ∃ x, squareFile = x ++ c!"</math>\n" ∧
    convert env (x ++ c!"</mml:math>\n") = .ok c!"\\mathbf{\\alpha}^{2}" := by
  refine ⟨squareFile.take (squareFile.length - 8), by decide +kernel, ?_⟩
  rw [C62_prefixed env he squareNode squareFile _ squareFile_file (by decide +kernel) ?_, docResult_eq]
  · decide +kernel
  · have h : ∀ x : Str, Prefixed (x ++ c!"</math>\n") (x ++ c!"</mml:math>\n") := by
      intro x
      induction x with
      | nil => exact .closeTag (prefixed_same _)
      | cons c x ih => exact .copy c ih
    have e : squareFile = squareFile.take (squareFile.length - 8) ++ c!"</math>\n" := by decide +kernel
    have := h (squareFile.take (squareFile.length - 8))
    rw [← e] at this
    exact this

/-! ## Tables -/

example : ∃ cmd, (c!"´", cmd) ∈ accentToLtxCmd ∧ ∀ cmd', (c!"´", cmd') ∈ accentToLtxCmd → cmd' = cmd :=
  C39_accents c!"á" c!"a" c!"´" (by decide +kernel)

/-! ## Faults -/

example : convert oneEnv c!"<math><mi>x</mi></math>" = .ok c!"x" :=
  C68_no_wrong_result ⟨true, 0⟩ oneEnv _ (strike 15 true) 0 Heap.empty _ (by decide +kernel)

example : (faulty ⟨true, 0⟩ oneEnv c!"<math><mi>x</mi></math>" (strike 15 false) 0 Heap.empty).1 = .error (.fault ⟨0, false⟩) ∧
    (faulty ⟨true, 0⟩ oneEnv c!"<math><mi>x</mi></math>" (strike 15 false) 0 Heap.empty).2.1 = 16 :=
  C68_interrupts _ _ _ _ _ _ 15 ⟨0, false⟩ (by decide) (by decide +kernel) (by decide +kernel) rfl

example : (faulty ⟨true, 0⟩ oneEnv c!"<math><mi>x</mi></math>" (strike 15 true) 0 Heap.empty).1 =
      unlimited (docResult [.elem c!"math" [] [.elem c!"mi" [] [.text c!"x"]]]) ∨
    ∃ i f, strike 15 true i = some f ∧
      (faulty ⟨true, 0⟩ oneEnv c!"<math><mi>x</mi></math>" (strike 15 true) 0 Heap.empty).1 = .error (.fault f) :=
  C68_accepted _ _ _ _ _ _ _ rfl

/-! ## Threads that are stopped -/

set_option maxRecDepth 100000 in
/-- Of two threads the second is stopped; the first has the LaTeX of the root. -/
example (e : Exc) : ∃ as c, FaultyRun as ⟨(buildElem twoTables Heap.empty).2,
      [Job.render outerElem, .render innerElem].map Job.program⟩ c ∧ (∃ i, .fault i e ∈ as) ∧
    ∃ p, c.threads[0]? = some p ∧ ∀ r, p.result = some r → r = latexOf twoTables ∨ ∃ e, .fault 0 e ∈ as ∧ r = .error e := by
  obtain ⟨c, h1, h2⟩ := resultsOfF_run (as := [.step 0, .step 1, .fault 1 e, .step 0, .step 0, .step 0])
    (c := ⟨(buildElem twoTables Heap.empty).2, [Job.render outerElem, .render innerElem].map Job.program⟩)
    (rs := [some (.ok c!"\\begin{matrix}x\\end{matrix}"), some (.error e)]) (by rfl)
  have h3 := congrArg (·[0]?) h2
  simp at h3
  obtain ⟨p, hp, _⟩ := h3
  refine ⟨_, c, h1, ⟨1, by simp⟩, p, hp, fun r hr => ?_⟩
  refine C78_root _ _ twoTables_memory [.render outerElem, .render innerElem] ?_ _ _ h1 0 _ _ List.mem_cons_self rfl _ hp _ hr
  intro e he
  refine ⟨_, List.mem_cons_self, ?_⟩
  simp only [List.mem_cons, Job.render.injEq, List.not_mem_nil, or_false] at he
  rcases he with rfl | rfl
  · exact .self
  · exact innerElem_within

/-! ## Calls that fail -/

open Src in
/-- A program of two calls, the first of which is stopped at once. -/
example (env : Env) (stop : Exc) (r : Src.Res Src.Val) (T : Src.Store)
    (h : Attempts env stop [] [(c!"<math/>", .exc (.exc stop) []), (c!"<math/>", r)] T) :
    Seen (convert env c!"<math/>") r ∨ ∃ T, r = .exc (.exc stop) T :=
  C85_program env stop _ _ _ h (c!"<math/>", r) (by simp)

end Verif.Cases
