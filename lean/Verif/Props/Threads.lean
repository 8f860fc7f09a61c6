import Verif.Refine.RelySafe
import Verif.Props.Repeat

/-!
# Several threads (C53, C54)

`Run` lets the threads take their steps in any order (`Verif.Spec.Threads`).
-/

namespace Verif
open Spec

/-! ## Preparations -/

theorem mathmlElements_nodes (env : Env) : ∀ (n : Nat) (o : Option Exc) (x : Str) (ns : List Node),
    (mathmlElements env n o x).1 = .ok ns → ∃ d, ns = mathElements d := by
  intro n
  induction n with
  | zero =>
    intro o x ns h
    cases o with
    | some e => simp [mathmlElements] at h
    | none =>
      simp only [mathmlElements, Except.ok.injEq] at h
      exact ⟨[], h.symm⟩
  | succ n ih =>
    intro o x ns h
    rw [mathmlElements] at h
    split at h
    · rename_i d _
      simp only [Except.ok.injEq] at h
      exact ⟨d, h.symm⟩
    · split at h
      · simp at h
      · exact ih _ _ _ h

theorem convert_wp (env : Env) (x : Str) (W : World) :
    wp (Th.convert env x) (fun _ r => r = convert env x) W := by
  unfold Th.convert
  cases hd : (Adapter.domElements env Adapter.fresh x).1 with
  | error e => 
    have : convert env x = .error e := by unfold convert; rw [hd]
    rw [this]; rfl
  | ok ns =>
    obtain ⟨d, rfl⟩ : ∃ d, ns = mathElements d := mathmlElements_nodes _ _ _ _ _ hd
    rw [convert_of_domElements env x d hd]
    exact renderNodes_wp d W

/-- What is known about the trees built so far. -/
theorem Spec.Memory.inv {trees : List (Node × Elem)} {h : Heap} (hm : Memory trees h) :
    ∃ S, ∀ t ∈ trees, RefsIn 0 h.next t.2 ∧ WfE S false t.2 ∧
      toPElem t.1 = some (view h.cells t.2) := by
  induction hm with
  | start h => exact ⟨fun _ => True, by simp⟩
  | @build trees h h' n e _ hb ih =>
    obtain ⟨S, ih⟩ := ih
    have hs := buildElem_spec n h false
    rw [hb] at hs
    obtain ⟨⟨hle, hold⟩, hv, hr, S', hw⟩ := hs
    simp only at hv hr hw hle hold
    refine ⟨fun r => if r < h.next then S r else S' r, fun t ht => ?_⟩
    rcases List.mem_cons.1 ht with rfl | ht
    · refine ⟨RefsIn.mono (Nat.zero_le _) (Nat.le_refl _) _ hr, ?_, hv⟩
      refine WfE.congr (lo := h.next) (hi := h'.next) ?_ _ _ hr hw
      intro r h1 _
      rw [if_neg (by omega)]
    · obtain ⟨i1, i2, i3⟩ := ih t ht
      refine ⟨RefsIn.mono (Nat.le_refl _) hle _ i1, ?_, ?_⟩
      · refine WfE.congr (lo := 0) (hi := h.next) ?_ _ _ i1 i2
        intro r _ h2
        rw [if_pos h2]
      · rw [i3, view_congr (lo := 0) (hi := h.next) (fun r _ h2 => (hold r h2).symm) _ i1]

mutual
theorem RefsIn.refsP {lo hi : Nat} (e : Elem) (h : RefsIn lo hi e) : RefsP (· < hi) e := by
  obtain ⟨n, v, r, cs⟩ := e
  rw [RefsIn] at h
  rw [RefsP]
  exact ⟨h.1.2, RefsInL.refsP cs h.2⟩
theorem RefsInL.refsP {lo hi : Nat} (es : List Elem) (h : RefsInL lo hi es) :
    RefsPL (· < hi) es := by
  match es with
  | [] => simp [RefsPL]
  | e :: es =>
    rw [RefsInL] at h
    rw [RefsPL]
    exact ⟨RefsIn.refsP e h.1, RefsInL.refsP es h.2⟩
end

theorem Spec.Outside.wf {S : Nat → Prop} {e root : Elem} (h : Outside e root) :
    WfE S false root → WfE S false e := by
  induction h with
  | self => exact id
  | @child r c e' hn hc _ ih =>
    intro hb
    obtain ⟨n, v, r, cs⟩ := r
    have hn : n ≠ c!"mtable" := hn
    rw [WfE] at hb
    have h2 := hb.2
    rw [show (false || n == c!"mtable") = false by simpa using hn] at h2
    exact ih (WfEs.mem h2 hc)

theorem Spec.Outside.within {e root : Elem} (h : Outside e root) : Within e root := by
  induction h with
  | self => exact .self
  | child _ hc _ ih => exact .child hc ih

/-- The result that the job has on its own. -/
def Spec.Job.Expected (trees : List (Node × Elem)) (h : Heap) : Job → Except Exc Str → Prop
  | .call env x, r => r = convert env x
  | .render e, r => ∀ t ∈ trees, Outside e t.2 → r = (convertElem e h).1

theorem jobs_safe {trees : List (Node × Elem)} {h : Heap} (hm : Memory trees h)
    {jobs : List Job} (hj : ∀ e, Job.render e ∈ jobs → ∃ t ∈ trees, Within e t.2) :
    ∃ W, Safe (fun i r => ∀ j, jobs[i]? = some j → j.Expected trees h r)
      ⟨h, jobs.map Job.program⟩ fun _ => W := by
  obtain ⟨S, hS⟩ := hm.inv
  refine ⟨⟨(· < h.next), S, fun _ => False, h.cells⟩, fun i p hp => ⟨?_, ?_⟩, fun _ _ _ _ _ _ _ =>
    Iff.rfl⟩
  · simp only [List.getElem?_map, Option.map_eq_some_iff] at hp
    obtain ⟨j, hji, rfl⟩ := hp
    cases j with
    | call env x =>
      refine (convert_wp env x _).mono fun W' r hr j hj' => ?_
      rw [hji] at hj'
      cases hj'
      exact hr
    | render e =>
      obtain ⟨t, ht, hin⟩ := hj e (List.mem_of_getElem? hji)
      obtain ⟨h1, h2, _⟩ := hS t ht
      by_cases ho : ∃ t ∈ trees, Outside e t.2
      · obtain ⟨t', ht', ho⟩ := ho
        obtain ⟨g1, g2, _⟩ := hS t' ht'
        have hw := ho.wf g2
        have hd := ho.within.refs (RefsIn.refsP _ g1)
        have hs := gconvertElem_sim (W := ⟨(· < h.next), S, fun _ => False, h.cells⟩) e
          (fun _ => False) false hd hw (by simp)
        refine (hs _ fun _ h => h).mono fun W' r hr j hj' => ?_
        rw [hji] at hj'
        cases hj'
        intro t'' _ _
        obtain ⟨h', e', _⟩ := convertElem_sim (S := S) (c0 := h.cells) e (fun _ => False) false (WfE.toT e _ hw)
          (by simp) h ⟨fun _ _ => rfl, fun _ _ _ _ => rfl, fun _ h => h.elim⟩
        rw [e', hr.1]
      · obtain ⟨b, hb⟩ := hin.wfE h2
        refine (gsafe_convertElem (W := ⟨(· < h.next), S, fun _ => False, h.cells⟩) e b
          (hin.refs (RefsIn.refsP _ h1)) hb _).mono fun W' r _ j hj' => ?_
        rw [hji] at hj'
        cases hj'
        exact fun t ht hot => absurd ⟨t, ht, hot⟩ ho
  · exact ⟨fun _ hr => hr, fun _ _ _ => rfl, fun _ _ hF => hF.elim⟩

/-! ## Results -/

/-- **C53** Whatever the schedule, a thread that has returned from `MathMLToLaTeX().convert(text)`
has got the result of the same call made alone, even if other threads render parts of trees that
they share. -/
theorem C53_convert (trees : List (Node × Elem)) (h : Heap) (hm : Memory trees h)
    (jobs : List Job) (hj : ∀ e, Job.render e ∈ jobs → ∃ t ∈ trees, Within e t.2)
    (is : List Nat) (c : Config) (hr : Run is ⟨h, jobs.map Job.program⟩ c)
    (i : Nat) (env : Env) (text : Str) (hi : jobs[i]? = some (.call env text))
    (p : Prog Str) (hp : c.threads[i]? = some p) (r : Except Exc Str) (hres : p.result = some r) :
    r = convert env text := by
  obtain ⟨W, hs⟩ := jobs_safe hm hj
  obtain ⟨Ws, hs⟩ := hs.run hr
  exact hs.result hp hres _ hi

/-- **C54** Whatever the schedule and whatever the other threads do with the shared trees, a thread
that has rendered the root of a tree has got the LaTeX of its node. -/
theorem C54_root (trees : List (Node × Elem)) (h : Heap) (hm : Memory trees h)
    (jobs : List Job) (hj : ∀ e, Job.render e ∈ jobs → ∃ t ∈ trees, Within e t.2)
    (is : List Nat) (c : Config) (hr : Run is ⟨h, jobs.map Job.program⟩ c)
    (i : Nat) (n : Node) (e : Elem) (ht : (n, e) ∈ trees) (hi : jobs[i]? = some (.render e))
    (p : Prog Str) (hp : c.threads[i]? = some p) (r : Except Exc Str) (hres : p.result = some r) :
    r = latexOf n := by
  obtain ⟨W, hs⟩ := jobs_safe hm hj
  obtain ⟨Ws, hs⟩ := hs.run hr
  have h1 := hs.result hp hres _ hi (n, e) ht .self
  obtain ⟨S, hS⟩ := hm.inv
  obtain ⟨_, g2, g3⟩ := hS _ ht
  obtain ⟨h', e', _⟩ := convertElem_sim (S := S) (c0 := h.cells) e (fun _ => False) false (WfE.toT e _ g2)
    (by simp) h ⟨fun _ _ => rfl, fun _ _ _ _ => rfl, fun _ h => h.elim⟩
  rw [h1, e', latexOf_eq, latexIn, g3]

/-- **C54** The same for any element of a shared tree that is not inside a table: the result is the
one of rendering the element alone, before the threads started. -/
theorem C54_outside_tables (trees : List (Node × Elem)) (h : Heap) (hm : Memory trees h)
    (jobs : List Job) (hj : ∀ e, Job.render e ∈ jobs → ∃ t ∈ trees, Within e t.2)
    (is : List Nat) (c : Config) (hr : Run is ⟨h, jobs.map Job.program⟩ c)
    (i : Nat) (t : Node × Elem) (ht : t ∈ trees) (e : Elem) (ho : Outside e t.2)
    (hi : jobs[i]? = some (.render e))
    (p : Prog Str) (hp : c.threads[i]? = some p) (r : Except Exc Str) (hres : p.result = some r) :
    r = (convertElem e h).1 := by
  obtain ⟨W, hs⟩ := jobs_safe hm hj
  obtain ⟨Ws, hs⟩ := hs.run hr
  exact hs.result hp hres _ hi t ht ho

/-! ## Progress and termination -/

/-- **C53** No thread waits for another: as long as it has not finished it can take a step. -/
theorem C53_progress (c : Config) (i : Nat) (p : Prog Str) (hp : c.threads[i]? = some p) :
    (∃ r, p.result = some r) ∨ ∃ c', StepBy i c c' := by
  cases p with
  | pure a => exact .inl ⟨_, rfl⟩
  | throw e => exact .inl ⟨_, rfl⟩
  | alloc a k => exact .inr ⟨_, _, _, _, hp, rfl, rfl⟩
  | read r k => exact .inr ⟨_, _, _, _, hp, rfl, rfl⟩
  | setItem r key v p => exact .inr ⟨_, _, _, _, hp, rfl, rfl⟩

/-- A step of a program, in some memory. -/
def Sub (p' p : Prog Str) : Prop := ∃ h h', p.step h = some (p', h')

theorem acc_prog (p : Prog Str) : Acc Sub p := by
  induction p with
  | pure a => exact ⟨_, fun _ ⟨_, _, h⟩ => by cases h⟩
  | throw e => exact ⟨_, fun _ ⟨_, _, h⟩ => by cases h⟩
  | alloc a k ih => exact ⟨_, fun _ ⟨_, _, h⟩ => by cases h; exact ih _⟩
  | read r k ih => exact ⟨_, fun _ ⟨_, _, h⟩ => by cases h; exact ih _⟩
  | setItem r key v p ih => exact ⟨_, fun _ ⟨_, _, h⟩ => by cases h; exact ih⟩

/-- A step of some thread. -/
def SubL (ts' ts : List (Prog Str)) : Prop :=
  ∃ i p p', ts[i]? = some p ∧ Sub p' p ∧ ts' = ts.set i p'

theorem acc_cons {p : Prog Str} (hp : Acc Sub p) {ts : List (Prog Str)} (hts : Acc SubL ts) :
    Acc SubL (p :: ts) := by
  induction hp generalizing ts with
  | intro p _ ihp =>
    induction hts with
    | intro ts hts ih =>
      refine ⟨_, ?_⟩
      rintro _ ⟨i, q, q', hi, hq, rfl⟩
      cases i with
      | zero =>
        simp only [List.getElem?_cons_zero, Option.some.injEq] at hi
        subst hi
        rw [List.set_cons_zero]
        exact ihp q' hq ⟨ts, hts⟩
      | succ i =>
        rw [List.getElem?_cons_succ] at hi
        rw [List.set_cons_succ]
        exact ih _ ⟨i, q, q', hi, hq, rfl⟩

theorem acc_list (ts : List (Prog Str)) : Acc SubL ts := by
  induction ts with
  | nil =>
    refine ⟨_, ?_⟩
    rintro _ ⟨i, q, q', hi, _⟩
    simp at hi
  | cons p ts ih => exact acc_cons (acc_prog p) ih

theorem Spec.StepBy.sub {i : Nat} {c c' : Config} (h : StepBy i c c') : SubL c'.threads c.threads := by
  obtain ⟨p, p', h', hp, hs, rfl⟩ := h
  exact ⟨i, p, p', hp, ⟨_, _, hs⟩, rfl⟩

/-- **C53** Every execution of any threads comes to an end: there is no infinite schedule. -/
theorem C53_terminates (f : Nat → Config) : ¬ ∀ n, Step (f n) (f (n + 1)) := by
  suffices H : ∀ ts, Acc SubL ts → ∀ f : Nat → Config, (f 0).threads = ts →
      ¬ ∀ n, Step (f n) (f (n + 1)) from H _ (acc_list _) f rfl
  intro ts hacc
  induction hacc with
  | intro ts _ ih =>
    intro f h0 hf
    obtain ⟨i, hi⟩ := hf 0
    refine ih (f 1).threads (h0 ▸ hi.sub) (fun n => f (n + 1)) rfl fun n => hf (n + 1)

/-- **C53** From any configuration, some schedule leads to the end of all threads. -/
theorem C53_can_finish (c : Config) :
    ∃ is c', Run is c c' ∧ ∀ p ∈ c'.threads, ∃ r, p.result = some r := by
  suffices H : ∀ ts, Acc SubL ts → ∀ c : Config, c.threads = ts →
      ∃ is c', Run is c c' ∧ ∀ p ∈ c'.threads, ∃ r, p.result = some r from
    H _ (acc_list _) c rfl
  intro ts hacc
  induction hacc with
  | intro ts _ ih =>
    intro c hc
    by_cases hall : ∀ p ∈ c.threads, ∃ r, p.result = some r
    · exact ⟨[], c, .nil, hall⟩
    · have : ∃ p ∈ c.threads, ¬ ∃ r, p.result = some r :=
        Classical.byContradiction fun h => hall fun p hp =>
          Classical.byContradiction fun h' => h ⟨p, hp, h'⟩
      obtain ⟨p, hp, hn⟩ := this
      obtain ⟨i, hi⟩ := List.mem_iff_getElem?.1 hp
      rcases C53_progress c i p hi with h | ⟨c1, h1⟩
      · exact absurd h hn
      · obtain ⟨is, c', hrun, hend⟩ := ih c1.threads (hc ▸ h1.sub) c1 rfl
        exact ⟨i :: is, c', .cons h1 hrun, hend⟩

/-! ## Instances -/

/-- Execute a schedule. -/
def exec : List Nat → Config → Option Config
  | [], c => some c
  | i :: is, c =>
    match c.threads[i]? with
    | none => none
    | some p =>
      match p.step c.heap with
      | none => none
      | some q => exec is ⟨q.2, c.threads.set i q.1⟩

theorem exec_run : ∀ {is : List Nat} {c c' : Config}, exec is c = some c' → Run is c c'
  | [], c, c', h => by cases h; exact .nil
  | i :: is, c, c', h => by
    rw [exec] at h
    split at h
    · cases h
    · rename_i p hp
      split at h
      · cases h
      · rename_i q hq
        exact .cons ⟨p, q.1, q.2, hp, hq, rfl⟩ (exec_run h)

/-- The results of the threads after a schedule. -/
def resultsOf (is : List Nat) (c : Config) : Option (List (Option (Except Exc Str))) :=
  match exec is c with
  | none => none
  | some c' => some (c'.threads.map Prog.result)

theorem resultsOf_run {is : List Nat} {c : Config} {rs : List (Option (Except Exc Str))}
    (h : resultsOf is c = some rs) : ∃ c', Run is c c' ∧ c'.threads.map Prog.result = rs := by
  unfold resultsOf at h
  split at h
  · cases h
  · rename_i c' hc
    simp only [Option.some.injEq] at h
    exact ⟨c', exec_run hc, h⟩

/-- A table in a table. -/
def twoTables : Node := .elem c!"mtable" [] [.elem c!"mtr" [] [.elem c!"mtable" []
  [.elem c!"mtr" [] [.elem c!"mi" [] [.text c!"x"]]]]]

/-- The inner table of `twoTables`. -/
def innerElem : Elem := .mk c!"mtable" [] 2 [.mk c!"mtr" [] 3 [.mk c!"mi" c!"x" 4 []]]

/-- The root of `twoTables`. -/
def outerElem : Elem := .mk c!"mtable" [] 0 [.mk c!"mtr" [] 1 [innerElem]]

theorem twoTables_memory : Memory [(twoTables, outerElem)] (buildElem twoTables Heap.empty).2 :=
  .build (.start Heap.empty) (by rfl)

theorem innerElem_within : Within innerElem outerElem :=
  .child List.mem_cons_self (.child List.mem_cons_self .self)

/-- **C54** For a table inside a table the result does depend on the schedule: if another thread
starts to render the outer table in the meantime, the inner one gets a `matrix` environment. -/
theorem C54_inner_table_depends_on_schedule : ∃ (trees : List (Node × Elem)) (h : Heap)
    (jobs : List Job), Memory trees h ∧ (∀ e, Job.render e ∈ jobs → ∃ t ∈ trees, Within e t.2) ∧
    (∃ is c, Run is ⟨h, jobs.map Job.program⟩ c ∧ c.threads.map Prog.result =
      [some (.ok c!"\\begin{matrix}x\\end{matrix}"), some (.ok c!"x")]) ∧
    (∃ is c, Run is ⟨h, jobs.map Job.program⟩ c ∧ c.threads.map Prog.result =
      [some (.ok c!"\\begin{matrix}x\\end{matrix}"),
        some (.ok c!"\\begin{matrix}x\\end{matrix}")]) := by
  refine ⟨_, _, [.render outerElem, .render innerElem], twoTables_memory, ?_,
    ⟨[1, 1, 0, 0, 0, 0], resultsOf_run ?_⟩, ⟨[0, 1, 1, 0, 0, 0], resultsOf_run ?_⟩⟩
  · intro e he
    refine ⟨_, List.mem_cons_self, ?_⟩
    simp only [List.mem_cons, Job.render.injEq, List.not_mem_nil, or_false] at he
    rcases he with rfl | rfl
    · exact .self
    · exact innerElem_within
  · decide +kernel
  · decide +kernel

/-- A parser for one document. -/
def envY : Env where
  parse _ := .ok [.elem c!"math" [] [.elem c!"mi" [] [.text c!"y"]]]
  isWord _ := false

/-- A run that meets the hypotheses of C53 and C54: three threads, one of which calls the API while
the others render the two tables, with their steps interleaved. -/
example : ∃ (trees : List (Node × Elem)) (h : Heap) (jobs : List Job) (is : List Nat) (c : Config),
    Memory trees h ∧ (∀ e, Job.render e ∈ jobs → ∃ t ∈ trees, Within e t.2) ∧
    (twoTables, outerElem) ∈ trees ∧
    jobs = [.render outerElem, .render innerElem, .call envY c!"<math>"] ∧
    Run is ⟨h, jobs.map Job.program⟩ c ∧ c.threads.map Prog.result =
      [some (.ok c!"\\begin{matrix}x\\end{matrix}"),
        some (.ok c!"\\begin{matrix}x\\end{matrix}"), some (.ok c!"y")] := by
  obtain ⟨c, h1, h2⟩ := resultsOf_run (is := [0, 2, 1, 2, 0, 1, 2, 0, 0])
    (c := ⟨(buildElem twoTables Heap.empty).2,
      [Job.render outerElem, .render innerElem, .call envY c!"<math>"].map Job.program⟩)
    (rs := [some (.ok c!"\\begin{matrix}x\\end{matrix}"),
        some (.ok c!"\\begin{matrix}x\\end{matrix}"), some (.ok c!"y")]) (by decide +kernel)
  refine ⟨_, _, _, _, c, twoTables_memory, ?_, List.mem_cons_self, rfl, h1, h2⟩
  intro e he
  refine ⟨_, List.mem_cons_self, ?_⟩
  simp only [List.mem_cons, Job.render.injEq, List.not_mem_nil, or_false, reduceCtorEq] at he
  rcases he with rfl | rfl
  · exact .self
  · exact innerElem_within

/-- An element outside all tables, below the root. -/
example : Outside (.mk c!"mi" c!"x" 1 []) (.mk c!"mrow" [] 0 [.mk c!"mi" c!"x" 1 []]) :=
  .child (by decide) List.mem_cons_self .self

end Verif
