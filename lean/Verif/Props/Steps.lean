import Verif.Lemmas.Steps
import Verif.Props.Threads

/-!
# Every call finishes after a bounded number of its own steps (C63)

A step is one operation on an attribute dictionary, as in C53.  The other threads are arbitrary
programs, not only calls of the library.
-/

namespace Verif
open Spec Prog

theorem result_of_atMost {p : Prog Str} (h : AtMost p 0 fun _ => True) : ∃ r, p.result = some r := by
  cases p with
  | pure a => exact ⟨_, rfl⟩
  | throw e => exact ⟨_, rfl⟩
  | alloc a k => exact absurd h.1 (by omega)
  | read a k => exact absurd h.1 (by omega)
  | setItem r key v p => exact absurd h.1 (by omega)

theorem atLeast_of_result {p : Prog Str} {n : Nat} {r : Except Exc Str}
    (h : AtLeast p n fun _ => True) (hr : p.result = some r) : n = 0 := by
  cases p with
  | pure a => exact h.1
  | throw e => exact h.elim
  | alloc a k => cases hr
  | read a k => cases hr
  | setItem r key v p => cases hr

theorem atMost_run {α : Type} {p : Prog α} {n : Nat} {Q : α → Prop} (hp : AtMost p n Q) :
    ∀ {h h' : Heap} {a : α}, p.run h = (.ok a, h') → Q a := by
  induction p generalizing n with
  | pure a => intro h h' b e; cases e; exact hp
  | throw e => intro h h' b e; cases e
  | alloc a k ih => intro h h' b e; exact ih _ (hp.2 _) e
  | read r k ih => intro h h' b e; exact ih _ (hp.2 _) e
  | setItem r key v p ih => intro h h' b e; exact ih hp.2 e

theorem buildElem_bare {n : Node} {h h' : Heap} {e : Elem} (hb : buildElem n h = (some e, h')) :
    bareOf n = some e.bare := by
  have h1 := Th.run_buildElem n
  have h2 : (Th.buildElem n).run h = (.ok (some e), h') := by
    rw [h1]
    show (Except.ok (buildElem n h).1, (buildElem n h).2) = _
    rw [hb]
  exact (atMost_run (buildElem_atMost n) h2).symm

theorem convert_eq_renderNodes {env : Env} {x y : Str} {k : Nat} {d : Doc} (hk : k < 5)
    (hc : Consulted env x k y) (hp : env.parse y = .ok d) :
    Th.convert env x = Th.renderNodes (maths d) := by
  have : (Adapter.fresh.domElements env x).1 = .ok (mathElements d) := by
    rw [domElements_fst]
    obtain ⟨exc, he⟩ := consulted_loop hc (4 - k + 1)
    rw [show 4 - k + 1 + k = 5 from by omega] at he
    rw [he, mathmlElements_ok hp]
  unfold Th.convert
  rw [this, maths, ← mathElements_eq]

/-- **C63** A call that converts a document takes at most `stepsForDoc` steps of its own, whatever
the other threads do and however the steps are interleaved. -/
theorem C63_bound (h : Heap) (ts : List (Prog Str)) (i : Nat) (env : Env) (x : Str)
    (hi : ts[i]? = some (Job.call env x).program) (k : Nat) (y : Str) (d : Doc) (hk : k < 5)
    (hc : Consulted env x k y) (hp : env.parse y = .ok d)
    (is : List Nat) (c : Config) (hr : Run is ⟨h, ts⟩ c) : is.count i ≤ stepsForDoc d := by
  have ha : AtMost (Job.call env x).program (stepsForDoc d) fun _ => True := by
    rw [Job.program, convert_eq_renderNodes hk hc hp]
    exact renderNodes_atMost _
  obtain ⟨_, _, h, _⟩ := hr.atMost hi ha
  exact h

/-- **C63** After that many steps of its own it has returned or raised. -/
theorem C63_finished (h : Heap) (ts : List (Prog Str)) (i : Nat) (env : Env) (x : Str)
    (hi : ts[i]? = some (Job.call env x).program) (k : Nat) (y : Str) (d : Doc) (hk : k < 5)
    (hc : Consulted env x k y) (hp : env.parse y = .ok d)
    (is : List Nat) (c : Config) (hr : Run is ⟨h, ts⟩ c) (hn : stepsForDoc d ≤ is.count i) :
    ∃ p r, c.threads[i]? = some p ∧ p.result = some r := by
  have ha : AtMost (Job.call env x).program (stepsForDoc d) fun _ => True := by
    rw [Job.program, convert_eq_renderNodes hk hc hp]
    exact renderNodes_atMost _
  obtain ⟨p, hp, _, h⟩ := hr.atMost hi ha
  rw [show stepsForDoc d - is.count i = 0 by omega] at h
  obtain ⟨r, hr⟩ := result_of_atMost h
  exact ⟨p, r, hp, hr⟩

/-- **C63** The same for a thread that renders an element that has been built before. -/
theorem C63_render (trees : List (Node × Elem)) (h : Heap) (hm : Memory trees h) (n : Node) (e : Elem)
    (ht : (n, e) ∈ trees) (ts : List (Prog Str)) (i : Nat)
    (hi : ts[i]? = some (Job.render e).program) (is : List Nat) (c : Config)
    (hr : Run is ⟨h, ts⟩ c) : is.count i ≤ stepsFor n ∧
      (stepsFor n ≤ is.count i → ∃ p r, c.threads[i]? = some p ∧ p.result = some r) := by
  have hb : bareOf n = some e.bare := by
    clear hr
    induction hm with
    | start h => cases ht
    | @build trees h h' n' e' _ hb ih =>
      rcases List.mem_cons.1 ht with ht | ht
      · cases ht
        exact buildElem_bare hb
      · exact ih ht
  have ha : AtMost (Job.render e).program (stepsFor n) fun _ => True := by
    have := bareOf_cost n _ hb
    rw [Elem.bare_cost] at this
    exact (convertElem_atMost e).le (by omega)
  obtain ⟨p, hp, h1, h2⟩ := hr.atMost hi ha
  refine ⟨h1, fun h3 => ?_⟩
  rw [show stepsFor n - is.count i = 0 by omega] at h2
  obtain ⟨r, hr⟩ := result_of_atMost h2
  exact ⟨p, r, hp, hr⟩

/-- **C63** A call whose texts are all rejected takes no step at all that others could notice. -/
theorem C63_rejected (h : Heap) (ts : List (Prog Str)) (i : Nat) (env : Env) (x : Str)
    (hi : ts[i]? = some (Job.call env x).program)
    (hc : ∀ k y, k < 5 → Consulted env x k y → ∃ e, env.parse y = .error e)
    (is : List Nat) (c : Config) (hr : Run is ⟨h, ts⟩ c) : is.count i = 0 := by
  have he : ∃ e, (mathmlElements env 5 none (prep x)).1 = .error e := by
    obtain ⟨n, y, hn, hy, hcase⟩ := C06_exhaustive env x
    rcases hcase with ⟨d, hp⟩ | ⟨e, hp, hr⟩ | ⟨rfl, e, hp, hr⟩
    · obtain ⟨e, he⟩ := hc n y hn hy
      rw [he] at hp
      cases hp
    · obtain ⟨exc, he⟩ := consulted_loop hy (4 - n + 1)
      rw [show 4 - n + 1 + n = 5 from by omega] at he
      exact ⟨_, by rw [he, mathmlElements_fails hp hr hy.noLF]⟩
    · obtain ⟨exc, he⟩ := consulted_loop hy 1
      rcases fixError_spec env hy.noLF e with ⟨z, _, hz⟩ | ⟨_, hf⟩
      · exact ⟨e.toExc, by rw [show (5 : Nat) = 1 + 4 from rfl, he, mathmlElements_next hp hz hy.noLF]; rfl⟩
      · exact absurd hf hr
  obtain ⟨e, he⟩ := he
  have ha : AtMost (Job.call env x).program 0 fun _ => True := by
    rw [Job.program, Th.convert, domElements_fst, he]
    trivial
  obtain ⟨_, _, h, _⟩ := hr.atMost hi ha
  omega

/-- **C63** The pairs of tables: with `t` tables there are at most `t (t - 1) / 2` of them. -/
theorem C63_pairs (n : Node) : 2 * tablePairs n ≤ (tablesOf n).length * ((tablesOf n).length - 1) :=
  tablePairs_le n

/-- **C63** Without tables inside tables the number of steps is linear in the size. -/
theorem C63_linear (d : Doc) (h : ∀ n ∈ maths d, ∀ t ∈ tablesOf n, tablesInside t = []) :
    stepsForDoc d = 4 * ((maths d).map size).sum := by
  unfold stepsForDoc
  generalize maths d = ns at h
  induction ns with
  | nil => rfl
  | cons n ns ih =>
    rw [List.map_cons, List.sum_cons, List.map_cons, List.sum_cons,
      ih fun m hm => h m (List.mem_cons_of_mem _ hm), stepsFor]
    have : tablePairs n = 0 := by
      unfold tablePairs
      have : (tablesOf n).map (fun t => (tablesInside t).length) = (tablesOf n).map fun _ => 0 :=
        List.map_congr_left fun t ht => by rw [h n List.mem_cons_self t ht]; rfl
      rw [this]
      generalize tablesOf n = l
      induction l with
      | nil => rfl
      | cons _ _ ih => rw [List.map_cons, List.sum_cons, ih]
    omega

theorem nested_size (k : Nat) : size (tableTower k) = 15 * k + 5 := by
  induction k with
  | zero => rfl
  | succ k ih =>
    simp only [tableTower, size, sizes, attrsSize, ih, List.length_cons, List.length_nil]
    omega

/-- **C63** In general it is not: `k` nested tables have size linear in `k`, but a call cannot
finish in fewer than `k (k - 1) / 2` steps of its own. -/
theorem C63_quadratic (k : Nat) (h : Heap) (ts : List (Prog Str)) (i : Nat) (env : Env) (x : Str)
    (hi : ts[i]? = some (Job.call env x).program)
    (hp : env.parse (prep x) = .ok [.elem c!"math" [] [tableTower k]])
    (is : List Nat) (c : Config) (hr : Run is ⟨h, ts⟩ c) (p : Prog Str) (r : Except Exc Str)
    (hc : c.threads[i]? = some p) (hres : p.result = some r) :
    size (tableTower k) = 15 * k + 5 ∧ k * (k - 1) ≤ 2 * is.count i := by
  refine ⟨nested_size k, ?_⟩
  have hm : maths [.elem c!"math" [] [tableTower k]] = [.elem c!"math" [] [tableTower k]] := by
    have h0 : ∀ k, (elementsOf (tableTower k)).filter isMath = [] := by
      intro k
      induction k with
      | zero => rfl
      | succ k ih =>
        simp only [tableTower, elementsOf, elements, List.append_nil, List.filter_cons, ih, isMath]
        rfl
    simp only [maths, elements, elementsOf, List.append_nil, List.filter_cons, h0, isMath]
    rfl
  have ha : AtLeast (Job.call env x).program (nestedSteps k) fun _ => True := by
    rw [Job.program, convert_eq_renderNodes (by omega) .first hp, hm]
    exact renderNodes_nested k
  obtain ⟨p', hp', h⟩ := hr.atLeast hi ha
  rw [hc] at hp'
  cases hp'
  have := atLeast_of_result h hres
  have := nestedSteps_eq k
  omega

/-! ## Instances -/

/-- A parser for one document: a table in a table. -/
def envTower : Env where
  parse _ := .ok [.elem c!"math" [] [tableTower 2]]
  isWord _ := false

/-- The bound for it. -/
example : stepsForDoc [.elem c!"math" [] [tableTower 2]] = 4 * 40 + 1 := by decide +kernel

/-- The hypotheses of C63_bound, C63_finished and C63_quadratic: two threads convert the document, and
both finish after eleven steps: eight dictionaries are created, one is marked, and each table looks at
its own. -/
example : ∃ (ts : List (Prog Str)) (is : List Nat) (c : Config), Run is ⟨Heap.empty, ts⟩ c ∧
    ts[0]? = some (Job.call envTower c!"a").program ∧ ts[1]? = some (Job.call envTower c!"b").program ∧
    Consulted envTower c!"a" 0 (prep c!"a") ∧
    envTower.parse (prep c!"a") = .ok [.elem c!"math" [] [tableTower 2]] ∧
    c.threads.map Prog.result = [some (.ok c!"\\begin{matrix}1\\end{matrix}"),
      some (.ok c!"\\begin{matrix}1\\end{matrix}")] ∧ is.count 0 = 11 := by
  obtain ⟨c, h1, h2⟩ := resultsOf_run (is := [0, 1, 0, 1, 0, 0, 1, 1, 1, 1, 1, 0, 0, 0, 0, 0, 0, 1, 1, 1, 1, 0])
    (c := ⟨Heap.empty, [(Job.call envTower c!"a").program, (Job.call envTower c!"b").program]⟩)
    (rs := [some (.ok c!"\\begin{matrix}1\\end{matrix}"),
      some (.ok c!"\\begin{matrix}1\\end{matrix}")]) (by decide +kernel)
  exact ⟨_, _, c, h1, rfl, rfl, .first, rfl, h2, by decide⟩

/-- The hypothesis of C63_rejected. -/
example : ∃ env : Env, ∀ k y, k < 5 → Consulted env c!"<" k y → ∃ e, env.parse y = .error e :=
  ⟨⟨fun _ => .error (.other 0), fun _ => false⟩, fun _ _ _ _ => ⟨_, rfl⟩⟩

/-- The hypothesis of C63_linear, with a table that contains no table. -/
example : ∀ n ∈ maths [.elem c!"math" [] [tableTower 1]], ∀ t ∈ tablesOf n, tablesInside t = [] := by
  intro n hn t ht
  have hm : maths [.elem c!"math" [] [tableTower 1]] = [.elem c!"math" [] [tableTower 1]] := rfl
  rw [hm, List.mem_singleton] at hn
  subst hn
  have hm : tablesOf (.elem c!"math" [] [tableTower 1]) = [tableTower 1] := rfl
  rw [hm, List.mem_singleton] at ht
  subst ht
  rfl

end Verif
