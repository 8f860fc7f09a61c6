import Verif.Lemmas.Matcher
import Verif.Props.Adapter

/-!
# The work of the pattern matcher (C72)

`matcherSteps env x`: how many steps the matcher of `re` takes in all while the text `x` is prepared,
parsed and repaired.
-/

namespace Verif
open Spec

/-- The steps of the matcher in `make_xml_to_mathml_adapter().convert(x)`. -/
def matcherSteps (env : Env) (x : Str) : Nat := (Adapter.fresh.domElementsC env x).2

/-- **C72** Counting does not change anything: the functions that count return what the others do. -/
theorem C72_same (env : Env) (a : Adapter) (x : Str) :
    (a.domElementsC env x).1 = a.domElements env x := a.domElementsC_fst env x

theorem steps_eq (env : Env) (x : Str) : ∃ n, n ≤ 24 * (x.length + 1) ∧
    matcherSteps env x = n + (mathmlElementsC env 5 none (prep x)).2 := by
  have h1 := lineBreaksC_le x
  have h2 := msWordC_le (removeLineBreaks x)
  have h3 : (removeLineBreaks x).length ≤ x.length := (Re.sub_sublist _ _).length_le
  have h4 : (removeLineBreaksC x).1 = removeLineBreaks x := Re.subC_fst ..
  have h5 : (removeMsWordPrefixesC (removeLineBreaks x)).1 = prep x := by
    rw [prep, ← removeLineBreaks_spec, ← removeMsWordPrefixes_spec]
    exact Re.subC_fst ..
  refine ⟨(removeLineBreaksC x).2 + (removeMsWordPrefixesC (removeLineBreaks x)).2, by omega, ?_⟩
  rw [matcherSteps, Adapter.domElementsC]
  simp only [h4, h5]

theorem countP_occurrences (c : Char) (x : Str) : x.countP (· == c) = occurrences c x :=
  List.countP_eq_length_filter ..

/-- **C72** A text that the parser accepts takes linearly many steps. -/
theorem C72_accepted (env : Env) (x : Str) (d : Doc) (h : env.parse (prep x) = .ok d) :
    matcherSteps env x ≤ 24 * (x.length + 1) := by
  obtain ⟨n, hn, he⟩ := steps_eq env x
  rw [he, mathmlElementsC, h]
  exact hn

/-- **C72** Whatever the parser does, the steps are bounded by the product of the length, of the number
of `<` and of the number of blanks, and the square of the length.  (`=` is not a word character.) -/
theorem C72_bound (env : Env) (he : env.isWord '=' = false) (x : Str) :
    matcherSteps env x ≤
      1200 * ((x.length + 1) * ((occurrences '<' x + 1) * (occurrences ' ' x + 1))) +
        150 * ((x.length + 1) * (x.length + 1)) := by
  obtain ⟨n, hn, hs⟩ := steps_eq env x
  have h1 := mathmlElementsC_le he 5 none (prep x) (prep_noLF x)
  have hp := prep_sublist x
  have h2 := Nat.mul_le_mul_left 5 (repairBound_mono hp.length_le (hp.countP_le (p := (· == '<')))
    (hp.countP_le (p := (· == ' '))))
  rw [hs]
  refine Nat.le_trans (Nat.add_le_add hn (Nat.le_trans h1 h2)) ?_
  rw [countP_occurrences, countP_occurrences]
  generalize x.length = N
  generalize occurrences '<' x = L
  generalize occurrences ' ' x = P
  rw [repairBound, passBound]
  have e1 : 6 * N + 13 ≤ 13 * (N + 1) := by omega
  have e2 := Nat.mul_le_mul_left L (Nat.add_le_add_left (Nat.mul_le_mul_left P e1) (2 * (N + 1)))
  have e3 : L * (2 * (N + 1) + P * (13 * (N + 1))) = 2 * ((N + 1) * L) + 13 * ((N + 1) * (L * P)) := by
    rw [Nat.mul_add, Nat.mul_left_comm L 2, Nat.mul_comm L (N + 1), Nat.mul_left_comm P 13,
      Nat.mul_left_comm L 13, Nat.mul_comm P (N + 1), Nat.mul_left_comm L (N + 1)]
  have e4 : (N + 1) * ((L + 1) * (P + 1)) = (N + 1) * (L * P) + (N + 1) * L + (N + 1) * P + (N + 1) := by
    simp only [Nat.mul_add, Nat.add_mul, Nat.mul_one, Nat.one_mul]
    omega
  have e5 : 2 * N + 11 ≤ 11 * (N + 1) := by omega
  have e6 := Nat.mul_le_mul_left (N + 1) e5
  have e7 : (N + 1) * (11 * (N + 1)) = 11 * ((N + 1) * (N + 1)) := Nat.mul_left_comm _ _ _
  have e8 : N + 1 ≤ (N + 1) * (N + 1) := Nat.le_mul_of_pos_left _ (Nat.succ_pos _)
  omega

/-- **C72** In particular at most cubically many. -/
theorem C72_cubic (env : Env) (he : env.isWord '=' = false) (x : Str) :
    matcherSteps env x ≤ 1350 * ((x.length + 1) * ((x.length + 1) * (x.length + 1))) := by
  have h1 := C72_bound env he x
  have h2 : occurrences '<' x ≤ x.length := List.length_filter_le _ _
  have h3 : occurrences ' ' x ≤ x.length := List.length_filter_le _ _
  have h4 := Nat.mul_le_mul_left (x.length + 1)
    (Nat.mul_le_mul (Nat.add_le_add_right h2 1) (Nat.add_le_add_right h3 1))
  have h5 : (x.length + 1) * (x.length + 1) ≤ (x.length + 1) * ((x.length + 1) * (x.length + 1)) :=
    Nat.le_mul_of_pos_left _ (Nat.succ_pos _)
  omega

theorem openComment_free (m : Nat) : '\n' ∉ openComment m ∧ '>' ∉ openComment m := by
  have := brackets_free m
  simp only [openComment, List.mem_append, not_or]
  exact ⟨⟨by decide, this.1⟩, ⟨by decide, this.2⟩⟩

theorem prep_openComment (m : Nat) : prep (openComment m) = openComment m := by
  have hb : ∀ m, dropMml (dropBreaks (brackets m)) = brackets m := by
    intro m
    induction m with
    | zero => rfl
    | succ m ih =>
      rw [brackets]
      simp only [dropBreaks, List.filter_cons] at *
      rw [if_pos (by decide), if_pos (by decide), dropMml_cons (by decide), dropMml_cons (by decide), ih]
  rw [prep, openComment]
  simp only [dropBreaks, List.filter_append] at *
  rw [show (c!"<!--".filter fun c => c != '\r' && c != '\n') = c!"<!--" from by decide]
  simp only [List.cons_append, List.nil_append]
  rw [dropMml_cons (by decide), dropMml_cons (by decide), dropMml_cons (by decide), dropMml_cons (by decide),
    hb]

theorem searchC_openComment (env : Env) (m : Nat) :
    ((genericPattern env).searchC (brackets m)).2 ≤ ((genericPattern env).searchC (openComment m)).2 := by
  have hf := (openComment_free m).2
  rw [openComment] at *
  simp only [List.cons_append, List.nil_append] at *
  have hs := fun s h => generic_search_fail env (s := s) h
  simp only [List.mem_cons, not_or] at hf
  rw [searchC_cons _ _ _ (hs _ (by simp only [List.mem_cons, not_or]; exact hf)),
    searchC_cons _ _ _ (hs _ (by simp only [List.mem_cons, not_or]; exact hf.2)),
    searchC_cons _ _ _ (hs _ (by simp only [List.mem_cons, not_or]; exact hf.2.2)),
    searchC_cons _ _ _ (hs _ (by simp only [List.mem_cons, not_or]; exact hf.2.2.2))]
  omega

theorem loop_openComment {env : Env} {m c l o : Nat} (hc : c ≠ 4)
    (h : env.parse (openComment m) = .error (.expat c l o)) (n : Nat) : ∀ exc,
    (mathmlElementsC env n exc (openComment m)).2 =
      n * ((genericPattern env).searchC (openComment m)).2 ∧
    (0 < n → (mathmlElementsC env n exc (openComment m)).1.1 = .error (.expat c l o)) := by
  have hf : fixErrorC env (openComment m) (.expat c l o) =
      (.ok (openComment m), ((genericPattern env).searchC (openComment m)).2) := by
    rw [fixErrorC, fixMissingAttributeC, fixMissingAttributeValueC, if_pos hc]
    simp only [ne_eq, not_true_eq_false, if_false]
    rw [genericLoopC]
    simp only [Re.searchC_fst, generic_search_fail env (openComment_free m).2, Bool.false_eq_true,
      if_false, Nat.zero_add]
  induction n with
  | zero =>
    intro exc
    refine ⟨?_, fun h => absurd h (Nat.lt_irrefl _)⟩
    cases exc <;> simp [mathmlElementsC]
  | succ n ih =>
    intro exc
    rw [mathmlElementsC, h]
    simp only [hf]
    obtain ⟨h1, h2⟩ := ih (some (ParseErr.expat c l o).toExc)
    rw [h1, Nat.add_mul]
    refine ⟨by omega, fun _ => ?_⟩
    cases n with
    | zero => rfl
    | succ n => exact h2 (Nat.succ_pos _)

/-- **C72** and cubically many steps do happen: for a comment that is not closed with `m` times `< ` in
it, which the parser rejects (expat: error 5, unclosed token; any error but 4 will do), the matcher takes
at least `m³` steps before the error is raised.  The text has `2 m + 4` characters. -/
theorem C72_attained (env : Env) (m c l o : Nat) (hc : c ≠ 4)
    (h : env.parse (openComment m) = .error (.expat c l o)) :
    (openComment m).length = 2 * m + 4 ∧
    convert env (openComment m) = .error (.expat c l o) ∧
    m * (m * m) ≤ matcherSteps env (openComment m) := by
  obtain ⟨h1, h2⟩ := loop_openComment hc h 5 none
  refine ⟨?_, ?_, ?_⟩
  · rw [openComment, List.length_append, brackets_length]
    exact Nat.add_comm _ _
  · apply convert_err
    rw [prep_openComment, ← mathmlElementsC_fst]
    exact h2 (by decide)
  · obtain ⟨n, _, hn⟩ := steps_eq env (openComment m)
    rw [hn, prep_openComment, h1]
    have h3 := searchC_openComment env m
    have h4 := searchC_brackets env m
    generalize ((genericPattern env).searchC (brackets m)).2 = a at *
    generalize ((genericPattern env).searchC (openComment m)).2 = b at *
    have h5 : m ≤ 1 ∨ 4 * m ≤ m * (m * m) := by
      by_cases hm : m ≤ 1
      · exact .inl hm
      · right
        rw [Nat.mul_comm 4]
        exact Nat.mul_le_mul_left _ (show 2 * 2 ≤ _ from Nat.mul_le_mul (by omega) (by omega))
    rcases h5 with h5 | h5
    · have : m * (m * m) ≤ 1 := by
        rcases (show m = 0 ∨ m = 1 by omega) with rfl | rfl <;> decide
      omega
    · omega

/-! ## Cases meeting the hypotheses -/

/-- A parser that rejects everything with the error expat has for a comment that is not closed. -/
def unclosedEnv : Env := ⟨fun _ => .error (.expat 5 1 0), isAsciiAlnum⟩

example : unclosedEnv.isWord '=' = false := by decide

example : openComment 3 = c!"<!--< < < " := by decide

example : matcherSteps unclosedEnv (openComment 3) = 883 := by decide +kernel

example : matcherSteps unclosedEnv (openComment 6) = 2781 := by decide +kernel

example : matcherSteps ⟨fun _ => .ok [], isAsciiAlnum⟩ (openComment 6) = 136 := by decide +kernel

end Verif
