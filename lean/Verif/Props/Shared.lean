import Verif.Spec.Shared
import Verif.Props.Adapter

/-! # Threads that share an adapter object (C74) -/

namespace Verif
open Spec

theorem exec_attempts (env : Env) (n : Nat) (exc : Option Exc) (c : Str) :
    (attemptsP env n exc).exec c = mathmlElements env n exc c := by
  induction n generalizing exc c with
  | zero => cases exc <;> rfl
  | succ n ih =>
    rw [attemptsP, CellProg.exec, mathmlElements]
    cases env.parse c with
    | ok d => rfl
    | error e =>
      simp only [CellProg.exec]
      cases fixError env c e with
      | error e' => rfl
      | ok c' => exact ih _ _

/-- **C74** The program without interruption is the method of the model. -/
theorem C74_alone (env : Env) (a : Adapter) (x : Str) :
    (domElementsP env x).exec a.xml = ((a.domElements env x).1, (a.domElements env x).2.xml) := by
  simp only [domElementsP, CellProg.exec, Adapter.domElements, exec_attempts]

/-! ## Invariants -/

/-- If what is read satisfies `P`, then what is written does, and the result satisfies `Q`. -/
def KeepsCell (P : Str → Prop) (Q : Found → Prop) : CellProg Found → Prop
  | .ret r => Q r
  | .read k => ∀ c, P c → KeepsCell P Q (k c)
  | .write s p => P s ∧ KeepsCell P Q p

theorem KeepsCell.step {P : Str → Prop} {Q : Found → Prop} {p : CellProg Found} {c : Str} (h : KeepsCell P Q p)
    (hc : P c) : KeepsCell P Q (p.step c).1 ∧ P (p.step c).2 := by
  cases p with
  | ret r => exact ⟨h, hc⟩
  | read k => exact ⟨h c hc, hc⟩
  | write s p => exact ⟨h.2, h.1⟩

/-- All threads keep the invariant, and it holds or all of them begin with a write. -/
def Safely (P : Str → Prop) (Q : Found → Prop) (s : Shared) : Prop :=
  (∀ p ∈ s.threads, KeepsCell P Q p) ∧ (P s.cell ∨ ∀ p ∈ s.threads, ∃ t q, p = .write t q)

theorem Safely.stepBy {P : Str → Prop} {Q : Found → Prop} {s : Shared} (h : Safely P Q s) (i : Nat) :
    Safely P Q (s.stepBy i) := by
  rw [Shared.stepBy]
  cases hi : s.threads[i]? with
  | none => exact h
  | some p =>
    have hm : p ∈ s.threads := List.mem_of_getElem? hi
    have hp := h.1 p hm
    have key : KeepsCell P Q (p.step s.cell).1 ∧ P (p.step s.cell).2 := by
      rcases h.2 with h2 | h2
      · exact hp.step h2
      · obtain ⟨t, q, rfl⟩ := h2 p hm
        exact ⟨hp.2, hp.1⟩
    refine ⟨fun q hq => ?_, .inl key.2⟩
    rcases List.mem_or_eq_of_mem_set hq with hq | rfl
    · exact h.1 q hq
    · exact key.1

theorem Safely.run {P : Str → Prop} {Q : Found → Prop} {s : Shared} (h : Safely P Q s)
    (schedule : List Nat) : Safely P Q (s.run schedule) := by
  induction schedule generalizing s with
  | nil => exact h
  | cons i is ih => exact ih (h.stepBy i)

theorem ended_of {P : Str → Prop} {Q : Found → Prop} {env : Env} {cell : Str} {texts : List Str}
    (h : ∀ x ∈ texts, KeepsCell P Q (domElementsP env x)) {schedule : List Nat} {i : Nat} {r : Found}
    (hr : ((Shared.start env cell texts).run schedule).Ended i r) : Q r := by
  have h0 : Safely P Q (Shared.start env cell texts) := by
    constructor
    · intro p hp
      obtain ⟨x, hx, rfl⟩ := List.mem_map.1 hp
      exact h x hx
    · right
      intro p hp
      obtain ⟨x, hx, rfl⟩ := List.mem_map.1 hp
      exact ⟨_, _, rfl⟩
  exact (h0.run schedule).1 _ (List.mem_of_getElem? hr)

/-! ## What holds -/

theorem keeps_attempts {env : Env} {texts : List Str} (n : Nat) : ∀ exc, (n = 0 → exc ≠ none) →
    KeepsCell (fun c => '\n' ∉ c ∧ ∃ x ∈ texts, c.Sublist x)
      (fun r => ∀ els, r = .ok els → ∃ x ∈ texts, ∃ y d, y.Sublist x ∧ env.parse y = .ok d ∧
        els = mathElements d) (attemptsP env n exc) := by
  induction n with
  | zero =>
    intro exc h
    cases exc with
    | none => exact absurd rfl (h rfl)
    | some e => intro els he; cases he
  | succ n ih =>
    intro exc _ c hc
    obtain ⟨_, x, hx, hs⟩ := hc
    cases hp : env.parse c with
    | ok d =>
      simp only [hp]
      intro els he
      injection he with he
      exact ⟨x, hx, c, d, hs, hp, he.symm⟩
    | error e =>
      simp only [hp]
      intro c' hc'
      obtain ⟨hn, x', hx', hs'⟩ := hc'
      cases hf : fixError env c' e with
      | error e' => simp only [hf]; intro els he; cases he
      | ok c'' =>
        simp only [hf]
        have hsub := ((fixError_ok hn).1 hf).sublist
        exact ⟨⟨fun h => hn (hsub.subset h), x', hx', hsub.trans hs'⟩, ih _ (fun _ h => by cases h)⟩

/-- **C74** Whatever the threads do, a call that ends without an exception returns the elements of a text
that the parser accepts and that is left of one of the texts by deleting characters. -/
theorem C74_some_rest (env : Env) (cell : Str) (texts : List Str) (schedule : List Nat) (i : Nat)
    (els : List Node)
    (h : ((Shared.start env cell texts).run schedule).Ended i (.ok els)) :
    ∃ x ∈ texts, ∃ y d, y.Sublist x ∧ env.parse y = .ok d ∧ els = mathElements d := by
  refine ended_of (P := fun c => '\n' ∉ c ∧ ∃ x ∈ texts, c.Sublist x)
    (Q := fun r => ∀ els, r = .ok els → ∃ x ∈ texts, ∃ y d, y.Sublist x ∧ env.parse y = .ok d ∧
        els = mathElements d) ?_ h els rfl
  intro x hx
  refine ⟨⟨?_, x, hx, ?_⟩, ?_⟩
  · rw [removeLineBreaks_spec]; exact dropBreaks_noLF x
  · exact Re.sub_sublist _ _
  · rintro c ⟨hn, x', hx', hs⟩
    have hsub : (removeMsWordPrefixes c).Sublist c := Re.sub_sublist _ _
    exact ⟨⟨fun h => hn (hsub.subset h), x', hx', hsub.trans hs⟩,
      keeps_attempts 5 none (fun h => by cases h)⟩

/-- **C74** If the texts are on one line, without `mml:`, and accepted, then a call never fails, but it
returns the elements of one of the texts, not necessarily of its own. -/
theorem C74_some_text (env : Env) (cell : Str) (texts : List Str)
    (hn : ∀ x ∈ texts, dropBreaks x = x ∧ dropMml x = x) (hp : ∀ x ∈ texts, ∃ d, env.parse x = .ok d)
    (schedule : List Nat) (i : Nat) (r : Found)
    (h : ((Shared.start env cell texts).run schedule).Ended i r) :
    ∃ x ∈ texts, ∃ d, env.parse x = .ok d ∧ r = .ok (mathElements d) := by
  refine ended_of (P := fun c => c ∈ texts)
    (Q := fun r => ∃ x ∈ texts, ∃ d, env.parse x = .ok d ∧ r = .ok (mathElements d)) ?_ h
  intro x hx
  refine ⟨?_, fun c hc => ⟨?_, fun c' hc' => ?_⟩⟩
  · rw [removeLineBreaks_spec, (hn x hx).1]; exact hx
  · rw [removeMsWordPrefixes_spec, (hn c hc).2]; exact hc
  · obtain ⟨d, hd⟩ := hp c' hc'
    simp only [hd]
    exact ⟨c', hc', d, hd, rfl⟩

/-- **C74** In particular, threads that all convert the same such text do get what they should. -/
theorem C74_same_text (env : Env) (cell x : Str) (d : Doc) (k : Nat) (hn : dropBreaks x = x ∧ dropMml x = x)
    (hp : env.parse x = .ok d) (schedule : List Nat) (i : Nat) (r : Found)
    (h : ((Shared.start env cell (List.replicate k x)).run schedule).Ended i r) :
    r = (Adapter.fresh.domElements env x).1 := by
  obtain ⟨y, hy, d', hd', rfl⟩ := C74_some_text env cell (List.replicate k x)
    (fun y hy => by rw [(List.mem_replicate.1 hy).2]; exact hn)
    (fun y hy => ⟨d, by rw [(List.mem_replicate.1 hy).2]; exact hp⟩) schedule i r h
  rw [(List.mem_replicate.1 hy).2, hp] at hd'
  injection hd' with hd'
  have : prep x = x := by rw [prep, hn.1, hn.2]
  rw [domElements_fst, this, mathmlElements_ok hp, hd']

/-- The program ends after `n` of its steps. -/
def EndsIn : Nat → CellProg Found → Prop
  | _, .ret _ => True
  | 0, _ => False
  | n + 1, .read k => ∀ c, EndsIn n (k c)
  | n + 1, .write _ p => EndsIn n p

theorem EndsIn.step {n : Nat} {p : CellProg Found} {c : Str} (h : EndsIn (n + 1) p) :
    EndsIn n (p.step c).1 := by
  cases p with
  | ret r => cases n <;> trivial
  | read k => exact h c
  | write s p => exact h

theorem endsIn_attempts (env : Env) (n : Nat) (exc : Option Exc) : EndsIn (3 * n) (attemptsP env n exc) := by
  induction n generalizing exc with
  | zero => cases exc <;> trivial
  | succ n ih =>
    rw [attemptsP, show 3 * (n + 1) = 3 * n + 1 + 1 + 1 from by omega]
    intro c
    dsimp only
    cases env.parse c with
    | ok d => trivial
    | error e =>
      intro c'
      dsimp only
      cases fixError env c' e with
      | error e' => trivial
      | ok c'' => exact ih _

theorem run_ends {schedule : List Nat} : ∀ {s : Shared} {i n : Nat} {p : CellProg Found},
    s.threads[i]? = some p → EndsIn n p → n ≤ schedule.count i → ∃ r, (s.run schedule).Ended i r := by
  induction schedule with
  | nil =>
    intro s i n p hp h hn
    simp only [List.count_nil, Nat.le_zero] at hn
    subst hn
    cases p with
    | ret r => exact ⟨r, hp⟩
    | read k => exact h.elim
    | write t p => exact h.elim
  | cons j js ih =>
    intro s i n p hp h hn
    show ∃ r, ((s.stepBy j).run js).Ended i r
    by_cases hj : j = i
    · subst hj
      have h' : (s.stepBy j).threads[j]? = some (p.step s.cell).1 := by
        rw [Shared.stepBy, hp]
        have hlt : j < s.threads.length := (List.getElem?_eq_some_iff.1 hp).1
        simp [hlt]
      cases n with
      | zero =>
        refine ih (n := 0) h' ?_ (Nat.zero_le _)
        cases p with
        | ret r => trivial
        | read k => exact h.elim
        | write t p => exact h.elim
      | succ n =>
        refine ih h' h.step ?_
        rw [List.count_cons_self] at hn
        omega
    · have h' : (s.stepBy j).threads[i]? = some p := by
        rw [Shared.stepBy]
        cases s.threads[j]? with
        | none => exact hp
        | some q => simp [hj, hp]
      refine ih h' h ?_
      rw [List.count_cons_of_ne hj] at hn
      exact hn

/-- **C74** Every call ends after at most 18 steps of its own, whatever the other threads do. -/
theorem C74_ends (env : Env) (cell : Str) (texts : List Str) (schedule : List Nat) (i : Nat)
    (hi : i < texts.length) (h : 18 ≤ schedule.count i) :
    ∃ r, ((Shared.start env cell texts).run schedule).Ended i r := by
  refine run_ends (n := 18) (p := domElementsP env texts[i]) ?_ ?_ h
  · simp [Shared.start, hi]
  · intro c
    exact endsIn_attempts env 5 none

/-! ## What does not hold -/

/-- A parser that reads two texts, and one of them with prefixes. -/
def twoEnv : Env := tableEnv
  [(c!"<math>a</math>", [.elem c!"math" [] [.text c!"a"]]),
   (c!"<math>b</math>", [.elem c!"math" [] [.text c!"b"]]),
   (c!"<mml:math>a</mml:math>", [.elem c!"mml:math" [] [.text c!"a"]])] (.expat 2 1 0)

/-- **C74** A call may return the elements of the text of another thread: here the first one does. -/
theorem C74_other_text : ∃ schedule,
    ((Shared.start twoEnv [] [c!"<math>a</math>", c!"<math>b</math>"]).run schedule).Ended 0
      (Adapter.fresh.domElements twoEnv c!"<math>b</math>").1 ∧
    (Adapter.fresh.domElements twoEnv c!"<math>a</math>").1 ≠
      (Adapter.fresh.domElements twoEnv c!"<math>b</math>").1 := by
  refine ⟨[0, 0, 0, 1, 0], ?_, ?_⟩
  · rfl
  · intro h
    have h' : (Except.ok [Node.elem c!"math" [] [.text c!"a"]] : Found) =
      .ok [Node.elem c!"math" [] [.text c!"b"]] := h
    injection h' with h'
    simp at h'

/-- **C74** Even if both threads convert the same text, with prefixes, a call may find no formula. -/
theorem C74_prefix_lost : ∃ schedule,
    ((Shared.start twoEnv [] [c!"<mml:math>a</mml:math>", c!"<mml:math>a</mml:math>"]).run schedule).Ended 0
      (.ok []) ∧
    (Adapter.fresh.domElements twoEnv c!"<mml:math>a</mml:math>").1 =
      .ok [.elem c!"math" [] [.text c!"a"]] :=
  ⟨[0, 0, 0, 1, 0], rfl, rfl⟩

/-! ## Cases meeting the hypotheses -/

example : dropBreaks c!"<math>a</math>" = c!"<math>a</math>" ∧ dropMml c!"<math>a</math>" = c!"<math>a</math>" := by
  decide

example : ((Shared.start twoEnv [] (List.replicate 2 c!"<math>a</math>")).run [0, 1, 0, 1, 0, 1, 1, 0]).Ended 1
    (.ok [.elem c!"math" [] [.text c!"a"]]) := rfl

end Verif
