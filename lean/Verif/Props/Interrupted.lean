import Verif.Spec.Interrupted
import Verif.Props.Threads

/-!
# Faults while several threads are running (C78)
-/

namespace Verif
open Spec

theorem Safe.fault {Q : Nat → Except Exc Str → Prop} {c c' : Config} {Ws : Nat → World} {i : Nat} {e : Exc}
    (hs : Safe Q c Ws) (hQ : Q i (.error e)) (h : (Happening.fault i e).to c c') : Safe Q c' Ws := by
  obtain ⟨p, hp, -, rfl⟩ := h
  have hi : i < c.threads.length := by
    rw [List.getElem?_eq_some_iff] at hp; exact hp.1
  refine ⟨fun j q hq => ?_, fun j j' hj hj' => ?_⟩
  · by_cases e' : j = i
    · subst e'
      simp only [List.getElem?_set_self hi] at hq
      cases hq
      exact ⟨hQ, (hs.thread _ p hp).2⟩
    · simp only [List.getElem?_set_ne (Ne.symm e')] at hq
      exact hs.thread j q hq
  · simp only [List.length_set] at hj hj'
    exact hs.compat j j' hj hj'

theorem Safe.faultyRun {Q : Nat → Except Exc Str → Prop} {as : List Happening} {c c' : Config}
    (h : FaultyRun as c c') (hQ : ∀ i e, .fault i e ∈ as → Q i (.error e)) :
    ∀ {Ws : Nat → World}, Safe Q c Ws → ∃ Ws', Safe Q c' Ws' := by
  induction h with
  | nil => exact fun hs => ⟨_, hs⟩
  | @cons a as c c' c'' h1 _ ih =>
    intro Ws hs
    have ih := @ih fun i e he => hQ i e (List.mem_cons_of_mem _ he)
    cases a with
    | step i =>
      obtain ⟨Ws', hs'⟩ := hs.step h1
      exact ih hs'
    | fault i e => exact ih (hs.fault (hQ i e List.mem_cons_self) h1)

theorem Safe.weaken {Q Q' : Nat → Except Exc Str → Prop} {c : Config} {Ws : Nat → World}
    (hs : Safe Q c Ws) (h : ∀ i r, Q i r → Q' i r) : Safe Q' c Ws :=
  ⟨fun i p hp => ⟨(hs.thread i p hp).1.mono fun _ r => h i r, (hs.thread i p hp).2⟩, hs.compat⟩

/-- What a thread that has ended has got, faults or not. -/
theorem faulty_result {trees : List (Node × Elem)} {h : Heap} (hm : Memory trees h)
    {jobs : List Job} (hj : ∀ e, Job.render e ∈ jobs → ∃ t ∈ trees, Within e t.2)
    {as : List Happening} {c : Config} (hr : FaultyRun as ⟨h, jobs.map Job.program⟩ c)
    {i : Nat} {j : Job} (hi : jobs[i]? = some j)
    {p : Prog Str} (hp : c.threads[i]? = some p) {r : Except Exc Str} (hres : p.result = some r) :
    j.Expected trees h r ∨ ∃ e, .fault i e ∈ as ∧ r = .error e := by
  obtain ⟨W, hs⟩ := jobs_safe hm hj
  have hs := hs.weaken (Q' := fun i r => (∀ j, jobs[i]? = some j → j.Expected trees h r) ∨
    ∃ e, .fault i e ∈ as ∧ r = .error e) fun _ _ h => .inl h
  obtain ⟨Ws, hs⟩ := Safe.faultyRun hr (fun i e he => .inr ⟨e, he, rfl⟩) hs
  rcases hs.result hp hres with h1 | h1
  · exact .inl (h1 j hi)
  · exact .inr h1

/-- **C78** Whatever the schedule and whichever threads are ended by faults, a thread that has ended
its call of `MathMLToLaTeX().convert(text)` has got the result of the same call made alone, or a
fault of its own. -/
theorem C78_convert (trees : List (Node × Elem)) (h : Heap) (hm : Memory trees h)
    (jobs : List Job) (hj : ∀ e, Job.render e ∈ jobs → ∃ t ∈ trees, Within e t.2)
    (as : List Happening) (c : Config) (hr : FaultyRun as ⟨h, jobs.map Job.program⟩ c)
    (i : Nat) (env : Env) (text : Str) (hi : jobs[i]? = some (.call env text))
    (p : Prog Str) (hp : c.threads[i]? = some p) (r : Except Exc Str) (hres : p.result = some r) :
    r = convert env text ∨ ∃ e, .fault i e ∈ as ∧ r = .error e :=
  faulty_result hm hj hr hi hp hres

/-- **C78** So nobody gets a wrong result, and the faults of others do not matter. -/
theorem C78_unharmed (trees : List (Node × Elem)) (h : Heap) (hm : Memory trees h)
    (jobs : List Job) (hj : ∀ e, Job.render e ∈ jobs → ∃ t ∈ trees, Within e t.2)
    (as : List Happening) (c : Config) (hr : FaultyRun as ⟨h, jobs.map Job.program⟩ c)
    (i : Nat) (env : Env) (text : Str) (hi : jobs[i]? = some (.call env text))
    (p : Prog Str) (hp : c.threads[i]? = some p) (r : Except Exc Str) (hres : p.result = some r)
    (hu : (∃ s, r = .ok s) ∨ ∀ e, .fault i e ∉ as) : r = convert env text := by
  rcases C78_convert trees h hm jobs hj as c hr i env text hi p hp r hres with h1 | ⟨e, h1, h2⟩
  · exact h1
  · rcases hu with ⟨s, rfl⟩ | hu
    · cases h2
    · exact absurd h1 (hu e)

/-- **C78** The same for a thread that renders the root of a tree which others render as well: that
some of them were stopped half-way does not change what the tree is. -/
theorem C78_root (trees : List (Node × Elem)) (h : Heap) (hm : Memory trees h)
    (jobs : List Job) (hj : ∀ e, Job.render e ∈ jobs → ∃ t ∈ trees, Within e t.2)
    (as : List Happening) (c : Config) (hr : FaultyRun as ⟨h, jobs.map Job.program⟩ c)
    (i : Nat) (n : Node) (e : Elem) (ht : (n, e) ∈ trees) (hi : jobs[i]? = some (.render e))
    (p : Prog Str) (hp : c.threads[i]? = some p) (r : Except Exc Str) (hres : p.result = some r) :
    r = latexOf n ∨ ∃ e, .fault i e ∈ as ∧ r = .error e := by
  rcases faulty_result hm hj hr hi hp hres with h1 | h1
  · have h1 := h1 (n, e) ht .self
    obtain ⟨S, hS⟩ := hm.inv
    obtain ⟨_, g2, g3⟩ := hS _ ht
    obtain ⟨h', e', _⟩ := convertElem_sim (S := S) (c0 := h.cells) e (fun _ => False) false (WfE.toT e _ g2)
      (by simp) h ⟨fun _ _ => rfl, fun _ _ _ _ => rfl, fun _ h => h.elim⟩
    exact .inl (by rw [h1, e', latexOf_eq, latexIn, g3])
  · exact .inr h1

/-- **C78** The same for any element of a shared tree that is not inside a table. -/
theorem C78_outside_tables (trees : List (Node × Elem)) (h : Heap) (hm : Memory trees h)
    (jobs : List Job) (hj : ∀ e, Job.render e ∈ jobs → ∃ t ∈ trees, Within e t.2)
    (as : List Happening) (c : Config) (hr : FaultyRun as ⟨h, jobs.map Job.program⟩ c)
    (i : Nat) (t : Node × Elem) (ht : t ∈ trees) (e : Elem) (ho : Outside e t.2)
    (hi : jobs[i]? = some (.render e))
    (p : Prog Str) (hp : c.threads[i]? = some p) (r : Except Exc Str) (hres : p.result = some r) :
    r = (convertElem e h).1 ∨ ∃ e, .fault i e ∈ as ∧ r = .error e :=
  (faulty_result hm hj hr hi hp hres).imp (fun h1 => h1 t ht ho) id

/-! ## A table in a table -/

/-- Execute what happens. -/
def execF : List Happening → Config → Option Config
  | [], c => some c
  | .step i :: as, c =>
    match c.threads[i]? with
    | none => none
    | some p =>
      match p.step c.heap with
      | none => none
      | some q => execF as ⟨q.2, c.threads.set i q.1⟩
  | .fault i e :: as, c =>
    match c.threads[i]? with
    | none => none
    | some p =>
      match p.result with
      | none => execF as ⟨c.heap, c.threads.set i (.throw e)⟩
      | some _ => none

theorem execF_run : ∀ {as : List Happening} {c c' : Config}, execF as c = some c' → FaultyRun as c c'
  | [], c, c', h => by cases h; exact .nil
  | .step i :: as, c, c', h => by
    rw [execF] at h
    split at h
    · cases h
    · rename_i p hp
      split at h
      · cases h
      · rename_i q hq
        exact .cons (a := .step i) ⟨p, q.1, q.2, hp, hq, rfl⟩ (execF_run h)
  | .fault i e :: as, c, c', h => by
    rw [execF] at h
    split at h
    · cases h
    · rename_i p hp
      split at h
      · rename_i hq
        exact .cons (a := .fault i e) ⟨p, hp, hq, rfl⟩ (execF_run h)
      · cases h

/-- The results of the threads. -/
def resultsOfF (as : List Happening) (c : Config) : Option (List (Option (Except Exc Str))) :=
  match execF as c with
  | none => none
  | some c' => some (c'.threads.map Prog.result)

theorem resultsOfF_run {as : List Happening} {c : Config} {rs : List (Option (Except Exc Str))}
    (h : resultsOfF as c = some rs) : ∃ c', FaultyRun as c c' ∧ c'.threads.map Prog.result = rs := by
  unfold resultsOfF at h
  split at h
  · cases h
  · rename_i c' hc
    simp only [Option.some.injEq] at h
    exact ⟨c', execF_run hc, h⟩

set_option maxRecDepth 100000 in
/-- **C78** A fault can leave something behind for tables inside tables: a thread begins to render the
outer table and is stopped, and then the inner one is rendered with an environment of its own,
although nobody is rendering the outer one. -/
theorem C78_left_behind (e : Exc) : ∃ (trees : List (Node × Elem)) (h : Heap)
    (jobs : List Job), Memory trees h ∧ (∀ e, Job.render e ∈ jobs → ∃ t ∈ trees, Within e t.2) ∧
    (∃ k c, FaultyRun (.step 0 :: .fault 0 e :: List.replicate k (.step 1)) ⟨h, jobs.map Job.program⟩ c ∧
      c.threads.map Prog.result = [some (.error e), some (.ok c!"\\begin{matrix}x\\end{matrix}")]) ∧
    (∃ k c, FaultyRun (.fault 0 e :: List.replicate k (.step 1)) ⟨h, jobs.map Job.program⟩ c ∧
      c.threads.map Prog.result = [some (.error e), some (.ok c!"x")]) := by
  refine ⟨_, _, [.render outerElem, .render innerElem], twoTables_memory, ?_, ?_, ?_⟩
  · intro e he
    refine ⟨_, List.mem_cons_self, ?_⟩
    simp only [List.mem_cons, Job.render.injEq, List.not_mem_nil, or_false] at he
    rcases he with rfl | rfl
    · exact .self
    · exact innerElem_within
  · obtain ⟨c, h1, h2⟩ := resultsOfF_run (as := [.step 0, .fault 0 e, .step 1, .step 1])
      (c := ⟨(buildElem twoTables Heap.empty).2,
        [Job.render outerElem, .render innerElem].map Job.program⟩)
      (rs := [some (.error e), some (.ok c!"\\begin{matrix}x\\end{matrix}")]) (by rfl)
    exact ⟨2, c, h1, h2⟩
  · obtain ⟨c, h1, h2⟩ := resultsOfF_run (as := [.fault 0 e, .step 1, .step 1])
      (c := ⟨(buildElem twoTables Heap.empty).2,
        [Job.render outerElem, .render innerElem].map Job.program⟩)
      (rs := [some (.error e), some (.ok c!"x")]) (by rfl)
    exact ⟨2, c, h1, h2⟩

set_option maxRecDepth 100000 in
/-- A run that meets the hypotheses: of three threads two are stopped, one in the middle. -/
example (e e' : Exc) : ∃ c, FaultyRun
    [.step 0, .step 1, .fault 1 e, .step 0, .fault 2 e', .step 0, .step 0]
    ⟨(buildElem twoTables Heap.empty).2,
      [Job.render outerElem, .render innerElem, .call envY c!"<math>"].map Job.program⟩ c ∧
    c.threads.map Prog.result =
      [some (.ok c!"\\begin{matrix}x\\end{matrix}"), some (.error e), some (.error e')] :=
  resultsOfF_run (by rfl)

end Verif
