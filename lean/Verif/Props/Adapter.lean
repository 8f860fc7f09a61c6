import Verif.Lemmas.Adapter

/-!
# Properties of the input side: preprocessing, parsing attempts, repair (C02, C03, C05–C10, C14)

The XML parser `env.parse` and the class `\w` are arbitrary throughout.
-/

namespace Verif
open Spec

/-! ## The loop of attempts -/

theorem mathmlElements_ok {env : Env} {n : Nat} {exc : Option Exc} {y : Str} {d : Doc}
    (h : env.parse y = .ok d) : (mathmlElements env (n + 1) exc y).1 = .ok (mathElements d) := by
  rw [mathmlElements, h]

theorem mathmlElements_next {env : Env} {n : Nat} {exc : Option Exc} {y z : Str} {e : ParseErr}
    (h : env.parse y = .error e) (hr : Repaired y e z) (hy : '\n' ∉ y) :
    mathmlElements env (n + 1) exc y = mathmlElements env n (some e.toExc) z := by
  rw [mathmlElements, h]
  simp only [fixError_ok hy |>.2 hr]

theorem mathmlElements_fails {env : Env} {n : Nat} {exc : Option Exc} {y : Str} {e : ParseErr}
    (h : env.parse y = .error e) (hr : RepairFails y e) (hy : '\n' ∉ y) :
    (mathmlElements env (n + 1) exc y).1 = .error .indexError := by
  rw [mathmlElements, h]
  simp only [(fixError_fails (env := env) hy).2 ⟨hr, rfl⟩]

theorem consulted_loop {env : Env} {x y : Str} {k : Nat} (h : Consulted env x k y) :
    ∀ n, ∃ exc, mathmlElements env (n + k) none (prep x) = mathmlElements env n exc y := by
  induction h with
  | first => intro n; exact ⟨none, rfl⟩
  | next h1 h2 h3 ih =>
    intro n
    obtain ⟨exc, h⟩ := ih (n + 1)
    exact ⟨_, by
      rw [Nat.add_right_comm] at h
      rw [← Nat.add_assoc, h, mathmlElements_next h2 h3 h1.noLF]⟩

theorem convert_err {env : Env} {x : Str} {e : Exc}
    (h : (mathmlElements env 5 none (prep x)).1 = .error e) : convert env x = .error e := by
  rw [convert, domElements_fst, h]

theorem convert_ok {env : Env} {x : Str} {d : Doc}
    (h : (mathmlElements env 5 none (prep x)).1 = .ok (mathElements d)) :
    convert env x = docResult d := by
  rw [docResult_eq]
  exact convert_of_domElements env x d (by rw [domElements_fst, h])

/-! ## C02 -/

/-- **C02** Inputs that agree up to CR and LF characters are converted alike. -/
theorem C02_line_breaks_irrelevant (env : Env) (x y : Str) (h : dropBreaks x = dropBreaks y) :
    convert env x = convert env y := by
  have : prep x = prep y := by rw [prep, prep, h]
  rw [convert, convert, domElements_fst, domElements_fst, this]

example : dropBreaks c!"<math>\r\n<mi\nx='1'/>\r</math>" = dropBreaks c!"<math><mix='1'/></math>" := by
  decide

/-! ## C03 -/

/-- **C03** Inserting `mml:` after any of the `<` and `</` changes nothing.  (No hypothesis on
the input is needed.) -/
theorem C03_word_prefix_transparent (env : Env) (x y : Str) (h : Prefixed x y) :
    convert env y = convert env x := by
  have : prep y = prep x := by
    rw [prep, prep]
    exact prefixed_dropMml _ (Nat.lt_succ_self _) (prefixed_dropBreaks h)
  rw [convert, convert, domElements_fst, domElements_fst, this]

example : Prefixed c!"<a></a>" c!"<mml:a></mml:a>" :=
  .openTag (.copy 'a' (.copy '>' (.closeTag (.copy 'a' (.copy '>' .nil)))))

/-! ## C05 -/

/-- **C05** If the parser accepts the preprocessed input, the result is a function of the
document alone. -/
theorem C05_accepted_never_repaired (env : Env) (x : Str) (d : Doc)
    (h : env.parse (prep x) = .ok d) : convert env x = docResult d :=
  convert_ok (mathmlElements_ok h)

/-- **C05**, comparing two parsers and two inputs. -/
theorem C05_accepted_independent (env env' : Env) (x x' : Str) (d : Doc)
    (h : env.parse (prep x) = .ok d) (h' : env'.parse (prep x') = .ok d) :
    convert env x = convert env' x' := by
  rw [C05_accepted_never_repaired env x d h, C05_accepted_never_repaired env' x' d h']

/-- A parser for the examples: accepts exactly the texts listed. -/
def tableEnv (table : List (Str × Doc)) (e : ParseErr) : Env :=
  ⟨fun s => match table.lookup s with | some d => .ok d | none => .error e, fun c => isAsciiAlnum c⟩

example : convert (tableEnv [(c!"<math/>", [.elem c!"math" [] []])] (.other 0)) c!"<mml:math\n/>" =
    .ok [] := by
  rw [C05_accepted_never_repaired _ _ [.elem c!"math" [] []] rfl, docResult_eq]
  decide +kernel

/-! ## C06 -/

/-- **C06** The first accepted one of the (at most five) consulted texts determines the result. -/
theorem C06_first_success (env : Env) (x y : Str) (n : Nat) (d : Doc) (hn : n < 5)
    (h : Consulted env x n y) (hp : env.parse y = .ok d) : convert env x = docResult d := by
  apply convert_ok
  obtain ⟨exc, he⟩ := consulted_loop h (4 - n + 1)
  rw [show 4 - n + 1 + n = 5 from by omega] at he
  rw [he, mathmlElements_ok hp]

/-- **C06** If the fifth text is rejected, its error is raised. -/
theorem C06_last_error (env : Env) (x y : Str) (e : ParseErr)
    (h : Consulted env x 4 y) (hp : env.parse y = .error e) (hr : ¬ RepairFails y e) :
    convert env x = .error e.toExc := by
  apply convert_err
  obtain ⟨exc, he⟩ := consulted_loop h 1
  rw [show 1 + 4 = 5 from rfl] at he
  rcases fixError_spec env h.noLF e with ⟨z, _, hz⟩ | ⟨_, hf⟩
  · rw [he, mathmlElements_next hp hz h.noLF]
    rfl
  · exact absurd hf hr

/-- **C06** If the repair of one of the five texts fails, that `IndexError` is raised. -/
theorem C06_repair_fails (env : Env) (x y : Str) (n : Nat) (e : ParseErr) (hn : n < 5)
    (h : Consulted env x n y) (hp : env.parse y = .error e) (hr : RepairFails y e) :
    convert env x = .error .indexError := by
  apply convert_err
  obtain ⟨exc, he⟩ := consulted_loop h (4 - n + 1)
  rw [show 4 - n + 1 + n = 5 from by omega] at he
  rw [he, mathmlElements_fails hp hr h.noLF]

/-- **C06** These three cases are exhaustive: some attempt among the first five decides. -/
theorem C06_exhaustive (env : Env) (x : Str) : ∃ n y, n < 5 ∧ Consulted env x n y ∧
    ((∃ d, env.parse y = .ok d) ∨ (∃ e, env.parse y = .error e ∧ RepairFails y e) ∨
     (n = 4 ∧ ∃ e, env.parse y = .error e ∧ ¬ RepairFails y e)) := by
  suffices H : ∀ k n y, n + k = 4 → Consulted env x n y → ∃ n y, n < 5 ∧ Consulted env x n y ∧
      ((∃ d, env.parse y = .ok d) ∨ (∃ e, env.parse y = .error e ∧ RepairFails y e) ∨
      (n = 4 ∧ ∃ e, env.parse y = .error e ∧ ¬ RepairFails y e)) from H 4 0 _ rfl .first
  intro k
  induction k with
  | zero =>
    intro n y hn h
    refine ⟨n, y, by omega, h, ?_⟩
    cases hp : env.parse y with
    | ok d => exact .inl ⟨d, rfl⟩
    | error e =>
      by_cases hr : RepairFails y e
      · exact .inr (.inl ⟨e, rfl, hr⟩)
      · exact .inr (.inr ⟨by omega, e, rfl, hr⟩)
  | succ k ih =>
    intro n y hn h
    cases hp : env.parse y with
    | ok d => exact ⟨n, y, by omega, h, .inl ⟨d, hp⟩⟩
    | error e =>
      rcases fixError_spec env h.noLF e with ⟨z, _, hz⟩ | ⟨_, hf⟩
      · exact ih (n + 1) z (by omega) (.next h hp hz)
      · exact ⟨n, y, by omega, h, .inr (.inl ⟨e, hp, hf⟩)⟩

/-- **C06** There is at most one text per attempt. -/
theorem C06_one_text_per_attempt (env : Env) (x y z : Str) (n : Nat) (h : Consulted env x n y)
    (h' : Consulted env x n z) : y = z := h.unique h'

theorem consulted_transfer {env env' : Env} {x : Str}
    (h : ∀ n y, n < 5 → Consulted env x n y → env'.parse y = env.parse y) {n : Nat} {y : Str}
    (hc : Consulted env x n y) : n < 5 → Consulted env' x n y := by
  induction hc with
  | first => intro _; exact .first
  | next h1 h2 h3 ih =>
    intro hn
    exact .next (ih (by omega)) (by rw [h _ _ (by omega) h1, h2]) h3

/-- **C06** The parser is consulted on these texts only: what it says elsewhere is irrelevant. -/
theorem C06_only_consulted (env env' : Env) (x : Str)
    (h : ∀ n y, n < 5 → Consulted env x n y → env'.parse y = env.parse y) :
    convert env' x = convert env x := by
  obtain ⟨n, y, hn, hc, hcase⟩ := C06_exhaustive env x
  have hc' := consulted_transfer h hc hn
  have hy := h n y hn hc
  rcases hcase with ⟨d, hp⟩ | ⟨e, hp, hr⟩ | ⟨rfl, e, hp, hr⟩
  · rw [C06_first_success env x y n d hn hc hp,
      C06_first_success env' x y n d hn hc' (by rw [hy, hp])]
  · rw [C06_repair_fails env x y n e hn hc hp hr,
      C06_repair_fails env' x y n e hn hc' (by rw [hy, hp]) hr]
  · rw [C06_last_error env x y e hc hp hr, C06_last_error env' x y e hc' (by rw [hy, hp]) hr]

/-- A run with one repair. -/
def demoEnv : Env := tableEnv [(c!"<math><mi>x", [.elem c!"math" [] [.elem c!"mi" [] [.text c!"x"]]])]
  (.expat 3 1 0)

example : Consulted demoEnv c!"<math><mi>x<" 0 c!"<math><mi>x<" ∧
    demoEnv.parse c!"<math><mi>x<" = .error (.expat 3 1 0) := ⟨.first, rfl⟩

example : ∃ y, Consulted demoEnv c!"<math> a>" 4 y ∧ demoEnv.parse y = .error (.expat 3 1 0) ∧
    ¬ RepairFails y (.expat 3 1 0) := by
  have hr : ∀ y, ¬ RepairFails y (.expat 3 1 0) := by
    rintro y ⟨l, o, h, _⟩; simp at h
  have h1 : Consulted demoEnv c!"<math> a>" 1 c!"<math> " :=
    .next .first (e := .expat 3 1 0) rfl (.generic (by decide)
      (.cut (a := c!"<math>") (m := c!"a") (t := []) (by decide) (by decide) (by decide)))
  have ht : Truncated c!"<math> " c!"<math> " := by
    have h := genericLoop_truncated demoEnv (x := c!"<math> ") (by decide)
    rwa [show genericLoop demoEnv c!"<math> " 5 c!"<math> " = c!"<math> " by decide +kernel] at h
  have h2 : Consulted demoEnv c!"<math> a>" 2 c!"<math> " :=
    .next h1 (e := .expat 3 1 0) rfl (.generic (by decide) ht)
  have h3 : Consulted demoEnv c!"<math> a>" 3 c!"<math> " :=
    .next h2 (e := .expat 3 1 0) rfl (.generic (by decide) ht)
  have h4 : Consulted demoEnv c!"<math> a>" 4 c!"<math> " :=
    .next h3 (e := .expat 3 1 0) rfl (.generic (by decide) ht)
  exact ⟨_, h4, rfl, hr _⟩

/-! ## C07 -/

theorem consulted_other {env : Env} {x y : Str} {n i : Nat} (h : Consulted env x n y)
    (hp : env.parse y = .error (.other i)) : ∀ k, Consulted env x (n + k) y
  | 0 => h
  | k + 1 => .next (consulted_other h hp k) hp .other

/-- **C07** An exception of the parser that is no `ExpatError`, at any of the five attempts, is
raised unchanged. -/
theorem C07_other_exceptions_propagate (env : Env) (x y : Str) (n i : Nat) (hn : n < 5)
    (h : Consulted env x n y) (hp : env.parse y = .error (.other i)) :
    convert env x = .error (.parserOther i) := by
  have h4 : Consulted env x 4 y := by
    have := consulted_other h hp (4 - n)
    rwa [show n + (4 - n) = 4 from by omega] at this
  refine C06_last_error env x y (.other i) h4 hp ?_
  rintro ⟨l, o, he, _⟩
  simp at he

/-- **C07** for the first attempt. -/
theorem C07_first_attempt (env : Env) (x : Str) (i : Nat)
    (hp : env.parse (prep x) = .error (.other i)) : convert env x = .error (.parserOther i) :=
  C07_other_exceptions_propagate env x _ 0 i (by omega) .first hp

example : convert ⟨fun _ => .error (.other 7), fun _ => true⟩ c!"<math>" = .error (.parserOther 7) :=
  C07_first_attempt _ _ 7 rfl

/-! ## C08 -/

/-- **C08** Every text given to the parser is a subsequence of the caller's input. -/
theorem C08_repair_only_deletes (env : Env) (x y : Str) (n : Nat) (h : Consulted env x n y) :
    y.Sublist x := h.sublist.trans (prep_sublist x)

example : c!"<math> ".Sublist c!"<math> a>" :=
  C08_repair_only_deletes demoEnv _ _ 1 (.next .first (e := .expat 3 1 0) rfl
    (.generic (by decide)
      (.cut (a := c!"<math>") (m := c!"a") (t := []) (by decide) (by decide) (by decide))))

/-! ## C09 -/

/-- **C09** The code-4 repair deletes exactly the unquoted occurrences of the word at the reported
position; if the parser accepts the outcome, that is what is converted. -/
theorem C09_invalid_token_repair (env : Env) (x z w : Str) (line offset : Nat) (d : Doc)
    (hp : env.parse (prep x) = .error (.expat 4 line offset)) (hl : line ≤ 1)
    (hw : WordAt (prep x) offset w) (hne : w ≠ []) (hd : Deleted w (prep x) z) (hz : z ≠ prep x)
    (hok : env.parse z = .ok d) : convert env x = docResult d :=
  C06_first_success env x z 1 d (by omega) (.next .first hp (.word hl hw hne hd hz)) hok

/-- **C09** The effect is well defined: for every word and text there is exactly one outcome. -/
theorem C09_effect_unique (w y : Str) (hw : w ≠ []) :
    ∃ z, Deleted w y z ∧ ∀ z', Deleted w y z' → z' = z :=
  ⟨_, (missing_sub_iff hw y _).1 rfl, fun z' h => ((missing_sub_iff hw y z').2 h).symm⟩

/-- **C09** The word is well defined: exactly one for every position inside the text. -/
theorem C09_word_unique (y : Str) (o : Nat) (h : o ≤ y.length) :
    ∃ w, WordAt y o w ∧ ∀ w', WordAt y o w' → w' = w := by
  obtain ⟨w, _, hw⟩ := getWord_some h
  exact ⟨w, hw, fun w' h' => h'.unique hw⟩

/-- **C09** The repair does not do what its documentation says: the attribute `a` in
`<math><mi a>x</mi></math>` also costs the letter of the element name `math`, so that nothing
is converted.  (The error position is the one expat reports.) -/
theorem C09_damages_markup (env : Env)
    (h1 : env.parse c!"<math><mi a>x</mi></math>" = .error (.expat 4 1 11))
    (h2 : env.parse c!"<mth><mi >x</mi></mth>" =
      .ok [.elem c!"mth" [] [.elem c!"mi" [] [.text c!"x"]]]) :
    convert env c!"<math><mi a>x</mi></math>" = .ok [] := by
  rw [C09_invalid_token_repair env c!"<math><mi a>x</mi></math>" c!"<mth><mi >x</mi></mth>" c!"a" 1 11 _ h1 (by decide)
    ⟨c!"<math><mi ", c!"a", [], c!">x</mi></math>", rfl, rfl, rfl, by decide, .inr ⟨c!"<math><mi", rfl⟩,
      by decide, by decide, .inr ⟨_, .inr rfl⟩⟩ (by decide)
    ((missing_sub_iff (by decide) _ _).1 (by decide +kernel)) (by decide) h2, docResult_eq]
  decide +kernel

/-! ## C10 -/

/-- **C10** After any other syntax error the generic repair is used, and it is the truncation of
`Spec.Truncated`. -/
theorem C10_generic_repair (env : Env) (x z : Str) (code line offset : Nat) (d : Doc)
    (hp : env.parse (prep x) = .error (.expat code line offset)) (hc : code ≠ 4)
    (ht : Truncated (prep x) z) (hok : env.parse z = .ok d) : convert env x = docResult d :=
  C06_first_success env x z 1 d (by omega) (.next .first hp (.generic hc ht)) hok

/-- **C10** Every text has exactly one truncation. -/
theorem C10_effect_unique (y : Str) : ∃ z, Truncated y z ∧ ∀ z', Truncated y z' → z' = z := by
  rcases generic_cases y with h | ⟨a, m, t, rfl, h1, h2, h3⟩
  · exact ⟨y, .unchanged h, fun z' h' => h'.unique (.unchanged h)⟩
  · exact ⟨_, .cut h1 h2 h3, fun z' h' => h'.unique (.cut h1 h2 h3)⟩

/-- **C10** The generic repair is not the removal of an attribute: after a mismatched tag it cuts
the end off the markup, from the attribute of the last start tag on. -/
theorem C10_truncates_markup (env : Env)
    (h1 : env.parse c!"<math><mi id=\"1\">x</math>" = .error (.expat 7 1 20)) (d : Doc)
    (h2 : env.parse c!"<math><mi " = .ok d) :
    convert env c!"<math><mi id=\"1\">x</math>" = docResult d :=
  C10_generic_repair env _ _ 7 1 20 d h1 (by decide)
    (.cut (a := c!"<math><mi") (m := c!"id=\"1\">x</math") (t := []) (by decide) (by decide)
      (by decide)) h2

/-! ## C14 -/

/-- A sequence of conversions by one adapter object; exceptions of earlier calls are caught by
the caller. -/
def Adapter.after (env : Env) (a : Adapter) : List Str → Adapter
  | [] => a
  | x :: xs => Adapter.after env (a.domElements env x).2 xs

/-- **C14** What an adapter object did before is irrelevant to what it returns or raises. -/
theorem C14_adapter_reuse (env : Env) (history : List Str) (a : Adapter) (x : Str) :
    ((a.after env history).domElements env x).1 = (Adapter.fresh.domElements env x).1 := by
  rw [domElements_fst, domElements_fst]

/-- The state of a process that uses the library: a shared adapter object and the heap of all
attribute dictionaries created so far. -/
structure Process where
  adapter : Adapter
  heap : Heap

/-- A conversion with the process-wide adapter and heap. -/
def Process.convert (env : Env) (p : Process) (x : Str) : Except Exc Str × Process :=
  let r := p.adapter.domElements env x
  match r.1 with
  | .error e => (.error e, ⟨r.2, p.heap⟩)
  | .ok nodes =>
    let q := renderNodes nodes p.heap
    (q.1, ⟨r.2, q.2⟩)

/-- The process after a list of conversions. -/
def Process.after (env : Env) (p : Process) : List Str → Process
  | [] => p
  | x :: xs => Process.after env (p.convert env x).2 xs

theorem mathmlElements_isMath {env : Env} : ∀ n exc x nodes,
    (mathmlElements env n exc x).1 = .ok nodes → ∃ d, nodes = mathElements d := by
  intro n
  induction n with
  | zero =>
    intro exc x nodes h
    rw [mathmlElements.eq_def] at h
    cases exc with
    | none => simp only [Except.ok.injEq] at h; exact ⟨[], h.symm⟩
    | some e => simp at h
  | succ n ih =>
    intro exc x nodes h
    rw [mathmlElements] at h
    cases hp : env.parse x with
    | ok d =>
      simp only [hp] at h
      simp only [Except.ok.injEq] at h
      exact ⟨d, h.symm⟩
    | error e =>
      simp only [hp] at h
      cases hf : fixError env x e with
      | error e' => simp only [hf] at h; simp at h
      | ok x' => simp only [hf] at h; exact ih _ _ _ h

/-- **C14** After any history of conversions in one process, on any adapter and with any
dictionaries left behind, a conversion gives what it gives in a fresh process. -/
theorem C14_history_independent (env : Env) (p : Process) (history : List Str) (x : Str) :
    ((p.after env history).convert env x).1 = convert env x := by
  generalize p.after env history = q
  have e1 := domElements_fst env q.adapter x
  have e2 := domElements_fst env Adapter.fresh x
  rw [← e2] at e1
  rw [Process.convert, Verif.convert]
  simp only [e1]
  cases h : (Adapter.fresh.domElements env x).1 with
  | error e => rfl
  | ok nodes =>
    obtain ⟨d, rfl⟩ := mathmlElements_isMath _ _ _ _ (e2 ▸ h)
    simp only
    rw [renderNodes_eq, renderNodes_eq]

example : ((Process.after demoEnv ⟨.fresh, .empty⟩ [c!"<math> a>", c!"<math><mi>x"]).convert demoEnv
    c!"<math><mi>x").1 = .ok c!"x" := by
  rw [C14_history_independent]
  rw [C05_accepted_never_repaired demoEnv _
    [.elem c!"math" [] [.elem c!"mi" [] [.text c!"x"]]] rfl, docResult_eq]
  decide +kernel

end Verif
