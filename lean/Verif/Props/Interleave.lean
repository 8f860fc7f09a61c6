import Verif.Source.World
import Verif.Props.Source

/-!
# The source text, in several threads (C83)

Any number of threads call `MathMLToLaTeX.convert`, each with its own text.  Their operations may
come in any order, and between any two of them other code may do what it likes with other objects
(`Source/World.lean`).  A thread that starts later is one whose first operation comes later.
-/

namespace Verif.Src
open Spec

/-- A call of `MathMLToLaTeX.convert(x)`, as a list of operations; `n` bounds the depth of the
calls and the turns of the loops. -/
def conversion (env : Env) (n : Nat) (x : Str) : Steps Val :=
  callS env n MathMLToLaTeX_convert [.str x] []

/-- The threads are about to call, the objects `S` exist, and none is theirs. -/
def started (env : Env) (n : Nat) (xs : List Str) (S : Store) : World :=
  ⟨S, (· < S.length), xs.map (conversion env n)⟩

/-- The bound is large enough for the call on its own, in a fresh interpreter. -/
def Enough (env : Env) (n : Nat) (x : Str) : Prop := call env n MathMLToLaTeX_convert [.str x] [] [] ≠ .stuck

/-- **C83** There is a bound that is large enough for all the threads, and so is every larger one. -/
theorem C83_bound (env : Env) (xs : List Str) : ∃ k, ∀ n, k ≤ n → ∀ x ∈ xs, Enough env n x := by
  induction xs with
  | nil => exact ⟨0, fun _ _ _ h => by cases h⟩
  | cons x xs ih =>
    obtain ⟨k, hk⟩ := ih
    obtain ⟨r, ⟨k', hk'⟩, hs⟩ := ends env x []
    refine ⟨k + k', fun n hn y hy => ?_⟩
    rcases List.mem_cons.1 hy with rfl | hy
    · rw [Enough, hk' n (by omega)]
      intro e
      rw [e] at hs
      generalize convert env _ = c at hs
      cases hs
    · exact hk n (by omega) y hy

theorem started_inv (env : Env) (n : Nat) (xs : List Str) (S : Store) :
    Inv (xs.map fun x => ⟨conversion env n x, [], []⟩) (started env n xs S) := by
  have hs : ∀ {i : Nat} {s : Solo}, (xs.map fun x => (⟨conversion env n x, [], []⟩ : Solo))[i]? = some s →
      ∃ x, xs[i]? = some x ∧ s = ⟨conversion env n x, [], []⟩ := by
    intro i s h
    rw [List.getElem?_map, Option.map_eq_some_iff] at h
    obtain ⟨x, h1, h2⟩ := h
    exact ⟨x, h1, h2.symm⟩
  refine ⟨by simp [started], ?_, ?_, ?_, ?_, fun _ h => h⟩
  · intro i s t h1 h2
    obtain ⟨x, hx, rfl⟩ := hs h1
    rw [started, List.getElem?_map, hx] at h2
    cases h2
    exact sim_call env n _ _ _ _ _ _ (.cons (.same rfl) .nil) .nil
  · intro i s h1
    obtain ⟨x, hx, rfl⟩ := hs h1
    exact ⟨rfl, .nil, fun h => by simp at h⟩
  · intro i j s s' _ h1 _ a ha
    obtain ⟨x, hx, rfl⟩ := hs h1
    cases ha
  · intro i s h1 a ha
    obtain ⟨x, hx, rfl⟩ := hs h1
    cases ha

theorem Course.length {es : List Event} {W W' : World} (h : Course es W W') :
    W'.threads.length = W.threads.length := by
  induction h with
  | nil => rfl
  | cons h _ ih =>
    rw [ih]
    cases h with
    | thread _ => simp
    | other _ _ => rfl

/-- What is known of a thread at any time. -/
theorem thread_state {env : Env} {n : Nat} {xs : List Str} {S : Store} {es : List Event} {W : World}
    (hc : Course es (started env n xs S) W) {i : Nat} {x : Str} (hx : xs[i]? = some x) :
    ∃ t p S' ρ, W.threads[i]? = some t ∧ Sim VRel p ρ t ∧ SRel ρ S' W.store ∧
      p.run S' = call env n MathMLToLaTeX_convert [.str x] [] [] ∧
      p.cost S' + es.count (.thread i) = (conversion env n x).cost [] := by
  obtain ⟨gs, h1, h2⟩ := (started_inv env n xs S).course hc
  have hg : (xs.map fun x => (⟨conversion env n x, [], []⟩ : Solo))[i]? = some ⟨conversion env n x, [], []⟩ := by
    rw [List.getElem?_map, hx]
    rfl
  have hlt : i < W.threads.length := by
    rw [hc.length, started, List.length_map]
    exact (List.getElem?_eq_some_iff.1 hx).1
  have hlg : i < gs.length := by rw [h1.len]; exact hlt
  obtain ⟨r1, r2, _⟩ := h2.run hg (List.getElem?_eq_getElem hlg)
  refine ⟨W.threads[i], gs[i].prog, gs[i].store, gs[i].at, List.getElem?_eq_getElem hlt,
    h1.sim (List.getElem?_eq_getElem hlg) (List.getElem?_eq_getElem hlt), h1.rel (List.getElem?_eq_getElem hlg), ?_, r2⟩
  rw [r1]
  exact run_callS env n _ _ _ _

theorem enough_seen {env : Env} {n : Nat} {x : Str} (h : Enough env n x) :
    Seen (convert env x) (call env n MathMLToLaTeX_convert [.str x] [] []) := by
  obtain ⟨r, h1, h2⟩ := ends env x []
  rcases C80_fuel env x [] r h1 n with h3 | h3
  · exact absurd h3 h
  · rw [h3]
    exact h2

/-- The exception is the same at another address. -/
theorem Raised.move {ρ : List Nat} {S S' : Store} {v v' : Val} {e : Exc} (hr : Raised S v e) (hv : VRel ρ v v')
    (hS : SRel ρ S S') : Raised S' v' e := by
  cases e with
  | invalidChildren tag n m c =>
    obtain ⟨a, rfl, ha⟩ := hr
    cases hv with
    | same h => cases h
    | obj h =>
      obtain ⟨o', h1, h2⟩ := hS.get ha h
      refine ⟨_, rfl, ?_⟩
      rw [h1]
      cases h2 with
      | inst h3 =>
        cases h3 with
        | cons p1 h4 =>
          cases h4 with
          | cons p2 h5 =>
            cases h5
            cases p1
            cases p2
            rfl
  | _ =>
    cases hr
    cases hv
    rfl

/-- **C83** If a thread has returned, it has returned the string that the model gives for its text,
whatever the others did and in whatever order. -/
theorem C83_returns (env : Env) (n : Nat) (xs : List Str) (S : Store) (es : List Event) (W : World)
    (hc : Course es (started env n xs S) W) (i : Nat) (x : Str) (hx : xs[i]? = some x) (hn : Enough env n x)
    (v : Val) (hv : W.threads[i]? = some (.ret v)) : ∃ s, v = .str s ∧ convert env x = .ok s := by
  obtain ⟨t, p, S', ρ, h1, h2, _, h4, _⟩ := thread_state hc hx
  rw [hv] at h1
  cases h1
  have hs := enough_seen hn
  rw [← h4] at hs
  generalize convert env x = c at hs
  cases p with
  | ret u =>
    obtain ⟨_, e, hu⟩ := h2
    cases e
    cases hs
    cases hu
    exact ⟨_, rfl, rfl⟩
  | exc _ => obtain ⟨_, e, _⟩ := h2; cases e
  | stuck => cases h2
  | act _ _ => obtain ⟨_, _, e, _⟩ := h2; cases e

/-- **C83** If a thread has raised, the exception is the one that the model gives for its text. -/
theorem C83_raises (env : Env) (n : Nat) (xs : List Str) (S : Store) (es : List Event) (W : World)
    (hc : Course es (started env n xs S) W) (i : Nat) (x : Str) (hx : xs[i]? = some x) (hn : Enough env n x)
    (v : Val) (hv : W.threads[i]? = some (.exc v)) : ∃ e, convert env x = .error e ∧ Raised W.store v e := by
  obtain ⟨t, p, S', ρ, h1, h2, h3, h4, _⟩ := thread_state hc hx
  rw [hv] at h1
  cases h1
  have hs := enough_seen hn
  rw [← h4] at hs
  generalize convert env x = c at hs
  cases p with
  | exc u =>
    obtain ⟨_, e, hu⟩ := h2
    cases e
    cases hs with
    | exc hr => exact ⟨_, rfl, hr.move hu h3⟩
  | ret _ => obtain ⟨_, e, _⟩ := h2; cases e
  | stuck => cases h2
  | act _ _ => obtain ⟨_, _, e, _⟩ := h2; cases e

theorem Steps.cost_zero {α : Type} {p : Steps α} {S : Store} (h : p.cost S = 0) : ∀ g k, p ≠ .act g k := by
  intro g k e
  rw [e, Steps.cost] at h
  omega

/-- **C83** A thread is never stuck: it has returned, has raised, or can do its next operation, at
once and without waiting for another thread. -/
theorem C83_progress (env : Env) (n : Nat) (xs : List Str) (S : Store) (es : List Event) (W : World)
    (hc : Course es (started env n xs S) W) (i : Nat) (x : Str) (hx : xs[i]? = some x) (hn : Enough env n x) :
    (∃ v, W.threads[i]? = some (.ret v)) ∨ (∃ v, W.threads[i]? = some (.exc v)) ∨
      ∃ W', Happens (.thread i) W W' := by
  obtain ⟨t, p, S', ρ, h1, h2, _, h4, _⟩ := thread_state hc hx
  cases p with
  | ret _ => obtain ⟨_, rfl, _⟩ := h2; exact .inl ⟨_, h1⟩
  | exc _ => obtain ⟨_, rfl, _⟩ := h2; exact .inr (.inl ⟨_, h1⟩)
  | stuck => exact absurd h4.symm hn
  | act _ _ => obtain ⟨_, _, rfl, _⟩ := h2; exact .inr (.inr ⟨_, .thread h1⟩)

/-- **C83** A thread ends after exactly as many operations of its own as the call does alone in a
fresh interpreter: no order of events makes it do more, or fewer. -/
theorem C83_steps (env : Env) (n : Nat) (xs : List Str) (S : Store) (es : List Event) (W : World)
    (hc : Course es (started env n xs S) W) (i : Nat) (x : Str) (hx : xs[i]? = some x) (hn : Enough env n x) :
    es.count (.thread i) ≤ (conversion env n x).cost [] ∧
      (es.count (.thread i) = (conversion env n x).cost [] ↔
        (∃ v, W.threads[i]? = some (.ret v)) ∨ ∃ v, W.threads[i]? = some (.exc v)) := by
  obtain ⟨t, p, S', ρ, h1, h2, _, h4, h5⟩ := thread_state hc hx
  refine ⟨by omega, ?_⟩
  cases p with
  | ret _ =>
    obtain ⟨_, rfl, _⟩ := h2
    rw [Steps.cost] at h5
    exact ⟨fun _ => .inl ⟨_, h1⟩, fun _ => by omega⟩
  | exc _ =>
    obtain ⟨_, rfl, _⟩ := h2
    rw [Steps.cost] at h5
    exact ⟨fun _ => .inr ⟨_, h1⟩, fun _ => by omega⟩
  | stuck => exact absurd h4.symm hn
  | act _ _ =>
    obtain ⟨_, _, rfl, _⟩ := h2
    rw [Steps.cost] at h5
    refine ⟨fun h => by omega, ?_⟩
    rintro (⟨v, h⟩ | ⟨v, h⟩)
    · rw [h] at h1; cases h1
    · rw [h] at h1; cases h1

theorem Course.append {es es' : List Event} {W W' W'' : World} (h : Course es W W') (h' : Course es' W' W'') :
    Course (es ++ es') W W'' := by
  induction h with
  | nil => exact h'
  | cons h _ ih => exact .cons h (ih h')

/-- **C83** From any point, a thread that goes on alone ends. -/
theorem C83_can_finish (env : Env) (n : Nat) (xs : List Str) (S : Store) (es : List Event) (W : World)
    (hc : Course es (started env n xs S) W) (i : Nat) (x : Str) (hx : xs[i]? = some x) (hn : Enough env n x) :
    ∃ m W', Course (List.replicate m (.thread i)) W W' ∧
      ((∃ s, W'.threads[i]? = some (.ret (.str s)) ∧ convert env x = .ok s) ∨
        ∃ v e, W'.threads[i]? = some (.exc v) ∧ convert env x = .error e ∧ Raised W'.store v e) := by
  generalize hm : (conversion env n x).cost [] - es.count (.thread i) = m
  induction m generalizing es W with
  | zero =>
    refine ⟨0, W, .nil W, ?_⟩
    obtain ⟨h1, h2⟩ := C83_steps env n xs S es W hc i x hx hn
    rcases h2.1 (by omega) with ⟨v, h⟩ | ⟨v, h⟩
    · obtain ⟨s, rfl, hs⟩ := C83_returns env n xs S es W hc i x hx hn v h
      exact .inl ⟨s, h, hs⟩
    · obtain ⟨e, h1, h2⟩ := C83_raises env n xs S es W hc i x hx hn v h
      exact .inr ⟨v, e, h, h1, h2⟩
  | succ m ih =>
    rcases C83_progress env n xs S es W hc i x hx hn with h | h | ⟨W1, h1⟩
    · have := (C83_steps env n xs S es W hc i x hx hn).2.2 (.inl h)
      omega
    · have := (C83_steps env n xs S es W hc i x hx hn).2.2 (.inr h)
      omega
    · obtain ⟨m', W', h2, h3⟩ := ih (es ++ [.thread i]) W1 (hc.append (.cons h1 (.nil _))) (by
        rw [List.count_append, List.count_singleton_self]
        omega)
      exact ⟨m' + 1, W', .cons h1 h2, h3⟩

/-- **C83** No operation of a thread changes an object that is not of the threads. -/
theorem C83_others_untouched (env : Env) (n : Nat) (xs : List Str) (S : Store) (es : List Event) (W W' : World)
    (hc : Course es (started env n xs S) W) (i : Nat) (h : Happens (.thread i) W W') (a : Nat) (ha : W.foreign a) :
    W'.store[a]? = W.store[a]? := by
  obtain ⟨gs, h1, _⟩ := (started_inv env n xs S).course hc
  cases h with
  | @thread _ _ g k hi =>
    have hlt : i < gs.length := by rw [h1.len]; exact (List.getElem?_eq_some_iff.1 hi).1
    have hs := List.getElem?_eq_getElem hlt
    have hsim := h1.sim hs hi
    have hrel := h1.rel hs
    have hown := h1.own hs
    generalize gs[i] = s at hsim hrel hown
    obtain ⟨p, st, ρ⟩ := s
    cases p with
    | ret _ => obtain ⟨_, e, _⟩ := hsim; cases e
    | exc _ => obtain ⟨_, e, _⟩ := hsim; cases e
    | stuck => cases hsim
    | act g0 k0 =>
      obtain ⟨g', k', e, hsim⟩ := hsim
      cases e
      obtain ⟨ρ', m, _⟩ := hsim st W.store hrel
      exact m.keep a (h1.bound a ha) fun hm => hown a hm ha

/-- Two threads convert the square; whatever has happened, either can go on alone to its end. -/
example : ∃ n, ∀ (S : Store) (es : List Event) (W : World), Course es (started squareEnv n [c!"<math/>", c!"<math/>"] S) W →
    ∃ m W', Course (List.replicate m (.thread 1)) W W' ∧ W'.threads[1]? = some (.ret (.str c!"x^{2}")) := by
  obtain ⟨n, hn⟩ := C83_bound squareEnv [c!"<math/>", c!"<math/>"]
  refine ⟨n, fun S es W h => ?_⟩
  have hv : convert squareEnv c!"<math/>" = .ok c!"x^{2}" := by
    rw [C05_accepted_never_repaired squareEnv c!"<math/>" _ rfl, docResult_eq]
    decide +kernel
  obtain ⟨m, W', h1, h2⟩ := C83_can_finish squareEnv n _ S es W h 1 c!"<math/>" rfl
    (hn n (Nat.le_refl n) _ (by simp))
  refine ⟨m, W', h1, ?_⟩
  rcases h2 with ⟨s, h3, h4⟩ | ⟨v, e, _, h4, _⟩
  · rw [hv] at h4
    cases h4
    exact h3
  · rw [hv] at h4
    cases h4

/-! ## Threads that work on objects -/

/-- A call with arguments that are made of the caller's own objects: on its own it finds them in
the store `alone`, at the addresses in `args`; in the common store they are at `place`. -/
structure Call where
  f : Func
  alone : Store
  args : List Val
  kw : List (Ident × Val)
  place : List Nat
  args' : List Val
  kw' : List (Ident × Val)

/-- The objects of the call are in the common store. -/
structure Call.In (j : Call) (S : Store) : Prop where
  objects : SRel j.place j.alone S
  args : VRels j.place j.args j.args'
  kw : PRel j.place j.kw j.kw'

/-- The calls are about to be made; what is not theirs is of the others. -/
def calls (env : Env) (n : Nat) (js : List Call) (S : Store) : World :=
  ⟨S, fun a => a < S.length ∧ ∀ j ∈ js, a ∉ j.place, js.map fun j => callS env n j.f j.args' j.kw'⟩

/-- **C83** Any functions of the code base, called in several threads with arguments that share no
object: a thread that has ended has the result of the call done alone. -/
theorem C83_apart (env : Env) (n : Nat) (js : List Call) (S : Store) (hin : ∀ j ∈ js, j.In S)
    (hd : ∀ (i i' : Nat) (j j' : Call), i ≠ i' → js[i]? = some j → js[i']? = some j' → ∀ a ∈ j.place, a ∉ j'.place)
    (es : List Event) (W : World) (hc : Course es (calls env n js S) W) (i : Nat) (j : Call) (hj : js[i]? = some j) :
    (∀ v', W.threads[i]? = some (.ret v') → ∃ v S' ρ, call env n j.f j.args j.kw j.alone = .ok v S' ∧
      j.place <+: ρ ∧ VRel ρ v v' ∧ SRel ρ S' W.store) ∧
    (∀ v', W.threads[i]? = some (.exc v') → ∃ v S' ρ, call env n j.f j.args j.kw j.alone = .exc v S' ∧
      j.place <+: ρ ∧ VRel ρ v v' ∧ SRel ρ S' W.store) ∧
    (W.threads[i]? = some .stuck → call env n j.f j.args j.kw j.alone = .stuck) := by
  have hs : ∀ {i : Nat} {s : Solo}, (js.map fun j => (⟨callS env n j.f j.args j.kw, j.alone, j.place⟩ : Solo))[i]? =
      some s → ∃ j, js[i]? = some j ∧ s = ⟨callS env n j.f j.args j.kw, j.alone, j.place⟩ := by
    intro i s h
    rw [List.getElem?_map, Option.map_eq_some_iff] at h
    obtain ⟨x, h1, h2⟩ := h
    exact ⟨x, h1, h2.symm⟩
  have inv : Inv (js.map fun j => ⟨callS env n j.f j.args j.kw, j.alone, j.place⟩) (calls env n js S) := by
    refine ⟨by simp [calls], ?_, ?_, ?_, ?_, fun _ h => h.1⟩
    · intro i s t h1 h2
      obtain ⟨j, hx, rfl⟩ := hs h1
      rw [calls, List.getElem?_map, hx] at h2
      cases h2
      have := hin j (List.mem_of_getElem? hx)
      exact sim_call env n _ _ _ _ _ _ this.args this.kw
    · intro i s h1
      obtain ⟨j, hx, rfl⟩ := hs h1
      exact (hin j (List.mem_of_getElem? hx)).objects
    · intro i i' s s' hne h1 h2 a ha
      obtain ⟨j, hx, rfl⟩ := hs h1
      obtain ⟨j', hx', rfl⟩ := hs h2
      exact hd i i' j j' hne hx hx' a ha
    · intro i s h1 a ha hf
      obtain ⟨j, hx, rfl⟩ := hs h1
      exact hf.2 j (List.mem_of_getElem? hx) ha
  obtain ⟨gs, h1, h2⟩ := inv.course hc
  have hlt : i < W.threads.length := by
    rw [hc.length, calls, List.length_map]
    exact (List.getElem?_eq_some_iff.1 hj).1
  have hlg : i < gs.length := by rw [h1.len]; exact hlt
  have hg := List.getElem?_eq_getElem hlg
  obtain ⟨r1, _, r3⟩ := h2.run (s := ⟨callS env n j.f j.args j.kw, j.alone, j.place⟩)
    (by rw [List.getElem?_map, hj]; rfl) hg
  have hrel := h1.rel hg
  have hsim := fun t => h1.sim (t := t) hg
  rw [run_callS] at r1
  generalize gs[i] = s at hsim hrel r1 r3
  obtain ⟨p, st, ρ⟩ := s
  refine ⟨fun v' ht => ?_, fun v' ht => ?_, fun ht => ?_⟩
  · have := hsim _ ht
    cases p with
    | ret v => obtain ⟨_, e, hv⟩ := this; cases e; exact ⟨v, st, ρ, r1.symm, r3, hv, hrel⟩
    | exc _ => obtain ⟨_, e, _⟩ := this; cases e
    | stuck => cases this
    | act _ _ => obtain ⟨_, _, e, _⟩ := this; cases e
  · have := hsim _ ht
    cases p with
    | exc v => obtain ⟨_, e, hv⟩ := this; cases e; exact ⟨v, st, ρ, r1.symm, r3, hv, hrel⟩
    | ret _ => obtain ⟨_, e, _⟩ := this; cases e
    | stuck => cases this
    | act _ _ => obtain ⟨_, _, e, _⟩ := this; cases e
  · have := hsim _ ht
    cases p with
    | stuck => exact r1.symm
    | exc _ => obtain ⟨_, e, _⟩ := this; cases e
    | ret _ => obtain ⟨_, e, _⟩ := this; cases e
    | act _ _ => obtain ⟨_, _, e, _⟩ := this; cases e

/-- `Wrapper.__init__(self, "(", ")")` and `Wrapper.wrap(self, "x")`, each with a wrapper of its own; there
is also a list that is neither's. -/
def twoCalls : List Call := [
  ⟨Wrapper___init__, [.inst .Wrapper []], [.obj 0, .str c!"(", .str c!")"], [], [2], [.obj 2, .str c!"(", .str c!")"], []⟩,
  ⟨Wrapper_wrap, [.inst .Wrapper [(._open, .str c!"["), (._close, .str c!"]")]], [.obj 0, .str c!"x"], [], [0],
    [.obj 0, .str c!"x"], []⟩]

example (env : Env) (es : List Event) (W : World)
    (hc : Course es (calls env 1 twoCalls [.inst .Wrapper [(._open, .str c!"["), (._close, .str c!"]")], .list [], .inst .Wrapper []]) W)
    (v : Val) (h : W.threads[1]? = some (.ret v)) : v = .str c!"[x]" := by
  have hin : ∀ j ∈ twoCalls, j.In [.inst .Wrapper [(._open, .str c!"["), (._close, .str c!"]")], .list [], .inst .Wrapper []] := by
    intro j hj
    simp only [twoCalls, List.mem_cons, List.not_mem_nil, or_false] at hj
    rcases hj with rfl | rfl
    · refine ⟨⟨rfl, by simp, fun {a a' o} h1 h2 => ?_⟩, .cons (.obj rfl) (.cons (.same rfl) (.cons (.same rfl) .nil)), .nil⟩
      match a with
      | 0 => cases h1; cases h2; exact ⟨_, rfl, .inst .nil⟩
      | _ + 1 => cases h1
    · refine ⟨⟨rfl, by simp, fun {a a' o} h1 h2 => ?_⟩, .cons (.obj rfl) (.cons (.same rfl) .nil), .nil⟩
      match a with
      | 0 => cases h1; cases h2; exact ⟨_, rfl, .inst (.cons (.same rfl) (.cons (.same rfl) .nil))⟩
      | _ + 1 => cases h1
  have hd : ∀ (i i' : Nat) (j j' : Call), i ≠ i' → twoCalls[i]? = some j → twoCalls[i']? = some j' →
      ∀ a ∈ j.place, a ∉ j'.place := by
    intro i i' j j' hne h1 h2 a
    match i, i' with
    | 0, 0 => exact absurd rfl hne
    | 1, 1 => exact absurd rfl hne
    | 0, 1 => cases h1; cases h2; simp; omega
    | 1, 0 => cases h1; cases h2; simp; omega
    | _ + 2, _ => cases h1
    | _, _ + 2 => cases h2
  obtain ⟨u, S', ρ, h1, _, h2, _⟩ := (C83_apart env 1 twoCalls _ hin hd es W hc 1 _ rfl).1 v h
  cases h1
  cases h2
  rfl

end Verif.Src
