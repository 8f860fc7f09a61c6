import Verif.Props.Interleave

/-!
# Calls that come and go (C90)

A process in which calls of `MathMLToLaTeX.convert` are started at any time, in any thread, and in
which any call may be interrupted between two of its operations.  An interrupt is an exception
that `except Exception` does not catch (`KeyboardInterrupt`, `SystemExit`), so it ends the call;
adapter.py, lines 42–48, has the only `try` of the code base.  As in C83 other code may do what it likes with
other objects at any time.
-/

namespace Verif.Src.Live
open Spec

/-- What happens next.  Calls are numbered in the order in which they are started. -/
inductive Event where
  /-- a call with this text is started -/
  | start (x : Str)
  /-- the call with this number does its next operation -/
  | step (i : Nat)
  /-- the call with this number is interrupted, with this exception -/
  | interrupt (i : Nat) (v : Val)
  /-- somebody else does something -/
  | other

/-- One event. -/
inductive Happens (env : Env) (n : Nat) : Event → World → World → Prop
  | start {W : World} (x : Str) :
      Happens env n (.start x) W ⟨W.store, W.foreign, W.threads ++ [conversion env n x]⟩
  | step {W : World} {i : Nat} {g : Store → Store} {k : Store → Steps Val} (h : W.threads[i]? = some (.act g k)) :
      Happens env n (.step i) W ⟨g W.store, W.foreign, W.threads.set i (k W.store)⟩
  | interrupt {W : World} {i : Nat} {g : Store → Store} {k : Store → Steps Val} (h : W.threads[i]? = some (.act g k))
      {v : Val} (hv : plain v = true) :
      Happens env n (.interrupt i v) W ⟨W.store, W.foreign, W.threads.set i (.exc v)⟩
  | other {W : World} {S : Store} (hl : W.store.length ≤ S.length)
      (hs : ∀ a, a < W.store.length → ¬ W.foreign a → S[a]? = W.store[a]?) :
      Happens env n .other W ⟨S, fun a => W.foreign a ∨ W.store.length ≤ a ∧ a < S.length, W.threads⟩

/-- Events one after the other. -/
inductive Course (env : Env) (n : Nat) : List Event → World → World → Prop
  | nil (W : World) : Course env n [] W W
  | snoc {e : Event} {es : List Event} {W W' W'' : World} : Course env n es W W' → Happens env n e W' W'' →
      Course env n (es ++ [e]) W W''

/-- At first there are objects, none of them of a call, and no calls. -/
def initial (S : Store) : World := ⟨S, (· < S.length), []⟩

/-- The texts of the calls that are started. -/
def texts : List Event → List Str
  | [] => []
  | .start x :: es => x :: texts es
  | _ :: es => texts es

/-- How many operations the call with this number does. -/
def operations (i : Nat) : List Event → Nat
  | [] => 0
  | .step j :: es => operations i es + if i = j then 1 else 0
  | _ :: es => operations i es

/-- The call with this number is interrupted. -/
def Interrupted (i : Nat) (v : Val) (es : List Event) : Prop := .interrupt i v ∈ es

theorem texts_append (es es' : List Event) : texts (es ++ es') = texts es ++ texts es' := by
  induction es with
  | nil => rfl
  | cons e es ih => cases e <;> simp [texts, ih]

theorem operations_append (i : Nat) (es es' : List Event) :
    operations i (es ++ es') = operations i es + operations i es' := by
  induction es with
  | nil => simp [operations]
  | cons e es ih => cases e <;> simp [operations, ih] <;> omega

/-- What is known of a call at any time. -/
inductive Status (env : Env) (n : Nat) (es : List Event) (i : Nat) (x : Str) (s : Solo) : Prop
  | interrupted {v : Val} : Interrupted i v es → plain v = true → s.prog = .exc v →
      operations i es < (conversion env n x).cost [] → Status env n es i x s
  | alive : (∀ v, ¬ Interrupted i v es) → s.prog.run s.store = call env n MathMLToLaTeX_convert [.str x] [] [] →
      s.prog.cost s.store + operations i es = (conversion env n x).cost [] → Status env n es i x s

/-- The invariant. -/
structure Inv (env : Env) (n : Nat) (es : List Event) (gs : List Solo) (W : World) : Prop where
  inv : Src.Inv gs W
  len : gs.length = (texts es).length
  all : ∀ {i : Nat} {x : Str} {s : Solo}, (texts es)[i]? = some x → gs[i]? = some s → Status env n es i x s
  past : ∀ {i : Nat}, gs.length ≤ i → operations i es = 0 ∧ ∀ v, ¬ Interrupted i v es

theorem Inv.initial (env : Env) (n : Nat) (S : Store) : Inv env n [] [] (initial S) :=
  ⟨⟨rfl, fun h => by simp at h, fun h => by simp at h, fun _ h => by simp at h, fun h => by simp at h, fun _ h => h⟩, rfl,
    fun h => by simp [texts] at h, fun _ => ⟨rfl, fun _ h => by cases h⟩⟩

theorem append_cases {α : Type} {l : List α} {a b : α} {i : Nat} (h : (l ++ [a])[i]? = some b) :
    l[i]? = some b ∨ i = l.length ∧ b = a := by
  rcases Nat.lt_or_ge i l.length with hi | hi
  · rw [List.getElem?_append_left hi] at h
    exact .inl h
  · rw [List.getElem?_append_right hi] at h
    match hd : i - l.length with
    | 0 =>
      rw [hd] at h
      cases h
      exact .inr ⟨by omega, rfl⟩
    | m + 1 =>
      rw [hd] at h
      simp at h

theorem Inv.start {env : Env} {n : Nat} {es : List Event} {gs : List Solo} {W : World} (h : Inv env n es gs W) (x : Str) :
    Inv env n (es ++ [.start x]) (gs ++ [⟨conversion env n x, [], []⟩])
      ⟨W.store, W.foreign, W.threads ++ [conversion env n x]⟩ := by
  have hi := h.inv
  have hops : ∀ i, operations i (es ++ [.start x]) = operations i es := fun i => by simp [operations_append, operations]
  have hint : ∀ i v, Interrupted i v (es ++ [.start x]) ↔ Interrupted i v es := fun i v => by simp [Interrupted]
  refine ⟨⟨by simp [hi.len], ?_, ?_, ?_, ?_, hi.bound⟩, by simp [texts_append, texts, h.len], ?_, ?_⟩
  · intro i s t h1 h2
    rcases append_cases h1 with h1 | ⟨e1, rfl⟩
    · rcases append_cases h2 with h2 | ⟨e2, _⟩
      · exact hi.sim h1 h2
      · have := (List.getElem?_eq_some_iff.1 h1).1
        have := hi.len
        omega
    · rcases append_cases h2 with h2 | ⟨_, rfl⟩
      · have := (List.getElem?_eq_some_iff.1 h2).1
        have := hi.len
        omega
      · exact sim_call env n _ _ _ _ _ _ (.cons (.same rfl) .nil) .nil
  · intro i s h1
    rcases append_cases h1 with h1 | ⟨_, rfl⟩
    · exact hi.rel h1
    · exact ⟨rfl, .nil, fun h => by simp at h⟩
  · intro i j s s' hne h1 h2 a ha
    rcases append_cases h1 with h1 | ⟨_, rfl⟩
    · rcases append_cases h2 with h2 | ⟨_, rfl⟩
      · exact hi.apart hne h1 h2 a ha
      · simp
    · cases ha
  · intro i s h1 a ha
    rcases append_cases h1 with h1 | ⟨_, rfl⟩
    · exact hi.own h1 a ha
    · cases ha
  · intro i y s h1 h2
    rw [texts_append] at h1
    rcases append_cases (a := x) h1 with h1 | ⟨e1, e⟩
    · rcases append_cases h2 with h2 | ⟨e2, _⟩
      · cases h.all h1 h2 with
        | interrupted a hv b c => exact .interrupted ((hint _ _).2 a) hv b (by rw [hops]; exact c)
        | alive a b c => exact .alive (fun v hv => a v ((hint _ _).1 hv)) b (by rw [hops]; exact c)
      · have := (List.getElem?_eq_some_iff.1 h1).1
        have := h.len
        omega
    · rcases append_cases h2 with h2 | ⟨_, rfl⟩
      · have := (List.getElem?_eq_some_iff.1 h2).1
        have := h.len
        omega
      · subst e
        obtain ⟨p1, p2⟩ := h.past (i := i) (by rw [h.len]; omega)
        refine .alive (fun v hv => p2 v ((hint _ _).1 hv)) (run_callS env n _ _ _ _) ?_
        rw [hops, p1]
        rfl
  · intro i hl
    obtain ⟨p1, p2⟩ := h.past (i := i) (by simp at hl; omega)
    exact ⟨by rw [hops]; exact p1, fun v hv => p2 v ((hint _ _).1 hv)⟩

/-- What was interrupted has ended, so it does no further operation. -/
theorem Inv.live {env : Env} {n : Nat} {es : List Event} {gs : List Solo} {W : World} (h : Inv env n es gs W) {i : Nat}
    {g : Store → Store} {k : Store → Steps Val} (hi : W.threads[i]? = some (.act g k)) :
    ∃ s x, gs[i]? = some s ∧ (texts es)[i]? = some x ∧ (∀ v, ¬ Interrupted i v es) ∧
      (∃ g' k', s.prog = .act g' k') ∧ s.prog.run s.store = call env n MathMLToLaTeX_convert [.str x] [] [] ∧
      s.prog.cost s.store + operations i es = (conversion env n x).cost [] := by
  have hlt : i < gs.length := by
    rw [h.inv.len]
    exact (List.getElem?_eq_some_iff.1 hi).1
  have hs := List.getElem?_eq_getElem hlt
  have hx := List.getElem?_eq_getElem (l := texts es) (i := i) (by rw [← h.len]; exact hlt)
  have hsim := h.inv.sim hs hi
  have hact : ∃ g' k', (gs[i]).prog = .act g' k' := by
    generalize gs[i] = s at hsim
    obtain ⟨p, st, ρ⟩ := s
    cases p with
    | ret _ => obtain ⟨_, e, _⟩ := hsim; cases e
    | exc _ => obtain ⟨_, e, _⟩ := hsim; cases e
    | stuck => cases hsim
    | act g0 k0 => exact ⟨g0, k0, rfl⟩
  refine ⟨gs[i], _, hs, hx, ?_⟩
  cases h.all hx hs with
  | interrupted _ _ b _ =>
    obtain ⟨_, _, e⟩ := hact
    rw [e] at b
    cases b
  | alive a b c => exact ⟨a, hact, b, c⟩

theorem Inv.step {env : Env} {n : Nat} {es : List Event} {gs : List Solo} {W : World} (h : Inv env n es gs W) {i : Nat}
    {g : Store → Store} {k : Store → Steps Val} (hi : W.threads[i]? = some (.act g k)) :
    ∃ gs', Inv env n (es ++ [.step i]) gs' ⟨g W.store, W.foreign, W.threads.set i (k W.store)⟩ := by
  obtain ⟨s, x, hs, hx, hint, _, hrun, hcost⟩ := h.live hi
  obtain ⟨gs', h1, h2⟩ := h.inv.thread hi
  have hlen : gs'.length = gs.length := by rw [h1.len, h.inv.len]; simp
  have hint' : ∀ j v, Interrupted j v (es ++ [.step i]) ↔ Interrupted j v es := fun j v => by simp [Interrupted]
  have htext : texts (es ++ [.step i]) = texts es := by simp [texts_append, texts]
  refine ⟨gs', h1, by rw [htext, hlen, h.len], ?_, ?_⟩
  · intro j y s' hy hs'
    rw [htext] at hy
    have hlt : j < gs.length := by rw [← hlen]; exact (List.getElem?_eq_some_iff.1 hs').1
    obtain ⟨r1, r2, _⟩ := h2.run (List.getElem?_eq_getElem hlt) hs'
    by_cases e : j = i
    · subst e
      rw [List.getElem?_eq_getElem hlt] at hs
      cases hs
      rw [hx] at hy
      cases hy
      refine .alive (fun v hv => hint v ((hint' _ _).1 hv)) (r1.trans hrun) ?_
      rw [List.count_singleton_self] at r2
      simp only [operations_append, operations, if_true]
      omega
    · rw [List.count_singleton, if_neg (by simpa using fun e' => e e'.symm)] at r2
      have hops : operations j (es ++ [.step i]) = operations j es := by simp [operations_append, operations, e]
      cases h.all hy (List.getElem?_eq_getElem hlt) with
      | interrupted a hv b c =>
        refine .interrupted ((hint' _ _).2 a) hv ?_ (by rw [hops]; exact c)
        rw [b] at r1 r2
        cases hp : s'.prog with
        | ret _ => rw [hp] at r1; cases r1
        | exc _ =>
          rw [hp] at r1
          injection r1 with e _
          rw [e]
        | stuck => rw [hp] at r1; cases r1
        | act _ _ => rw [hp, Steps.cost, Steps.cost] at r2; omega
      | alive a b c =>
        refine .alive (fun v hv => a v ((hint' _ _).1 hv)) (r1.trans b) ?_
        rw [hops]
        omega
  · intro j hl
    have hne : j ≠ i := by
      have := (List.getElem?_eq_some_iff.1 hs).1
      omega
    obtain ⟨p1, p2⟩ := h.past (i := j) (by omega)
    exact ⟨by simp [operations_append, operations, hne, p1], fun v hv => p2 v ((hint' _ _).1 hv)⟩

theorem Inv.interrupt {env : Env} {n : Nat} {es : List Event} {gs : List Solo} {W : World} (h : Inv env n es gs W) {i : Nat}
    {g : Store → Store} {k : Store → Steps Val} (hi : W.threads[i]? = some (.act g k)) {v : Val} (hv : plain v = true) :
    ∃ gs', Inv env n (es ++ [.interrupt i v]) gs' ⟨W.store, W.foreign, W.threads.set i (.exc v)⟩ := by
  obtain ⟨s, x, hs, hx, hint, ⟨g', k', hact⟩, hrun, hcost⟩ := h.live hi
  have hlt : i < gs.length := (List.getElem?_eq_some_iff.1 hs).1
  have hset : ∀ {j : Nat} {s' : Solo}, (gs.set i ⟨.exc v, s.store, s.at⟩)[j]? = some s' →
      (j = i ∧ s' = ⟨.exc v, s.store, s.at⟩) ∨ (j ≠ i ∧ gs[j]? = some s') := by
    intro j s' hj
    by_cases e : i = j
    · subst e
      rw [List.getElem?_set_self hlt] at hj
      cases hj
      exact .inl ⟨rfl, rfl⟩
    · rw [List.getElem?_set_ne e] at hj
      exact .inr ⟨fun e' => e e'.symm, hj⟩
  have hback : ∀ {j : Nat} {s' : Solo}, (gs.set i ⟨.exc v, s.store, s.at⟩)[j]? = some s' →
      ∃ s0, gs[j]? = some s0 ∧ s'.store = s0.store ∧ s'.at = s0.at := by
    intro j s' hj
    rcases hset hj with ⟨rfl, rfl⟩ | ⟨_, hj⟩
    · exact ⟨s, hs, rfl, rfl⟩
    · exact ⟨s', hj, rfl, rfl⟩
  have hops : ∀ j, operations j (es ++ [.interrupt i v]) = operations j es := fun j => by
    simp [operations_append, operations]
  have hint' : ∀ j u, j ≠ i → (Interrupted j u (es ++ [.interrupt i v]) ↔ Interrupted j u es) := fun j u hj => by
    simp [Interrupted, hj]
  have htext : texts (es ++ [.interrupt i v]) = texts es := by simp [texts_append, texts]
  have hinv := h.inv
  refine ⟨gs.set i ⟨.exc v, s.store, s.at⟩, ⟨by simp [hinv.len], ?_, ?_, ?_, ?_, hinv.bound⟩, ?_, ?_, ?_⟩
  · intro j s' t h1 h2
    rcases hset h1 with ⟨rfl, rfl⟩ | ⟨hne, h1⟩
    · rw [List.getElem?_set_self (by rw [← hinv.len]; exact hlt)] at h2
      cases h2
      exact ⟨v, rfl, .same hv⟩
    · rw [List.getElem?_set_ne (fun e => hne e.symm)] at h2
      exact hinv.sim h1 h2
  · intro j s' h1
    obtain ⟨s0, h2, e1, e2⟩ := hback h1
    rw [e1, e2]
    exact hinv.rel h2
  · intro j j' s1 s2 hne h1 h2 a ha
    obtain ⟨t1, h3, _, e1⟩ := hback h1
    obtain ⟨t2, h4, _, e2⟩ := hback h2
    rw [e1] at ha
    rw [e2]
    exact hinv.apart hne h3 h4 a ha
  · intro j s' h1 a ha
    obtain ⟨s0, h2, _, e2⟩ := hback h1
    rw [e2] at ha
    exact hinv.own h2 a ha
  · rw [htext, List.length_set, h.len]
  · intro j y s' hy hs'
    rw [htext] at hy
    rcases hset hs' with ⟨rfl, rfl⟩ | ⟨hne, hs'⟩
    · rw [hx] at hy
      cases hy
      refine .interrupted (v := v) (by simp [Interrupted]) hv rfl ?_
      rw [hact, Steps.cost] at hcost
      rw [hops]
      omega
    · cases h.all hy hs' with
      | interrupted a hv b c => exact .interrupted ((hint' _ _ hne).2 a) hv b (by rw [hops]; exact c)
      | alive a b c => exact .alive (fun u hu => a u ((hint' _ _ hne).1 hu)) b (by rw [hops]; exact c)
  · intro j hl
    rw [List.length_set] at hl
    obtain ⟨p1, p2⟩ := h.past hl
    exact ⟨by rw [hops]; exact p1, fun u hu => p2 u ((hint' _ _ (by omega)).1 hu)⟩

theorem Inv.other {env : Env} {n : Nat} {es : List Event} {gs : List Solo} {W : World} (h : Inv env n es gs W)
    {S : Store} (hl : W.store.length ≤ S.length) (hs : ∀ a, a < W.store.length → ¬ W.foreign a → S[a]? = W.store[a]?) :
    Inv env n (es ++ [.other]) gs ⟨S, fun a => W.foreign a ∨ W.store.length ≤ a ∧ a < S.length, W.threads⟩ := by
  have hops : ∀ j, operations j (es ++ [.other]) = operations j es := fun j => by simp [operations_append, operations]
  have hint : ∀ j u, Interrupted j u (es ++ [.other]) ↔ Interrupted j u es := fun j u => by simp [Interrupted]
  have htext : texts (es ++ [.other]) = texts es := by simp [texts_append, texts]
  refine ⟨h.inv.other hl hs, by rw [htext, h.len], ?_, ?_⟩
  · intro j y s' hy hs'
    rw [htext] at hy
    cases h.all hy hs' with
    | interrupted a hv b c => exact .interrupted ((hint _ _).2 a) hv b (by rw [hops]; exact c)
    | alive a b c => exact .alive (fun u hu => a u ((hint _ _).1 hu)) b (by rw [hops]; exact c)
  · intro j hl
    obtain ⟨p1, p2⟩ := h.past hl
    exact ⟨by rw [hops]; exact p1, fun u hu => p2 u ((hint _ _).1 hu)⟩

theorem Inv.course {env : Env} {n : Nat} {es : List Event} {S : Store} {W : World} (hc : Course env n es (Live.initial S) W) :
    ∃ gs, Inv env n es gs W := by
  generalize hW : Live.initial S = W0 at hc
  induction hc with
  | nil => subst hW; exact ⟨[], .initial env n S⟩
  | snoc _ he ih =>
    obtain ⟨gs, h⟩ := ih hW
    cases he with
    | start x => exact ⟨_, h.start x⟩
    | step hi => exact h.step hi
    | interrupt hi hv => exact h.interrupt hi hv
    | other hl hs => exact ⟨_, h.other hl hs⟩

theorem _root_.Verif.Src.VRel.plain {ρ : List Nat} {v v' : Val} (h : VRel ρ v v') (hv : plain v = true) : v' = v := by
  cases h with
  | same _ => rfl
  | obj _ => cases hv
  | method _ => cases hv
  | bmethod _ => cases hv
  | seq _ => cases hv

/-- What is known of a call at any time. -/
theorem state {env : Env} {n : Nat} {es : List Event} {S : Store} {W : World} (hc : Course env n es (initial S) W)
    {i : Nat} {x : Str} (hx : (texts es)[i]? = some x) :
    ∃ t s, W.threads[i]? = some t ∧ Sim VRel s.prog s.at t ∧ SRel s.at s.store W.store ∧ Status env n es i x s := by
  obtain ⟨gs, h⟩ := Inv.course hc
  have hlt : i < gs.length := by
    rw [h.len]
    exact (List.getElem?_eq_some_iff.1 hx).1
  have hs := List.getElem?_eq_getElem hlt
  have ht := List.getElem?_eq_getElem (l := W.threads) (i := i) (by rw [← h.inv.len]; exact hlt)
  exact ⟨_, _, ht, h.inv.sim hs ht, h.inv.rel hs, h.all hx hs⟩

/-- **C90** There are as many calls as were started. -/
theorem C90_calls (env : Env) (n : Nat) (es : List Event) (S : Store) (W : World) (hc : Course env n es (initial S) W) :
    W.threads.length = (texts es).length := by
  obtain ⟨gs, h⟩ := Inv.course hc
  rw [← h.inv.len, h.len]

/-- **C90** At any time every call that was started has been interrupted, or has returned the string
that the model gives for its text, or has raised the exception that the model gives for its text,
or has an operation to do, and need not wait for anything. -/
theorem C90_outcome (env : Env) (n : Nat) (es : List Event) (S : Store) (W : World) (hc : Course env n es (initial S) W)
    (i : Nat) (x : Str) (hx : (texts es)[i]? = some x) (hn : Enough env n x) :
    (∃ v, Interrupted i v es ∧ W.threads[i]? = some (.exc v)) ∨
    ((∀ v, ¬ Interrupted i v es) ∧
      ((∃ s, W.threads[i]? = some (.ret (.str s)) ∧ convert env x = .ok s) ∨
        (∃ v e, W.threads[i]? = some (.exc v) ∧ convert env x = .error e ∧ Raised W.store v e) ∨
        ∃ W', Happens env n (.step i) W W')) := by
  obtain ⟨t, ⟨p, st, ρ⟩, h1, h2, h3, h4⟩ := state hc hx
  cases h4 with
  | @interrupted v a hv b _ =>
    simp only at b
    subst b
    obtain ⟨v', rfl, h5⟩ := h2
    refine .inl ⟨v, a, ?_⟩
    rw [h1, h5.plain hv]
  | alive a b _ =>
    refine .inr ⟨a, ?_⟩
    have hs := enough_seen hn
    simp only at b h2 h3
    rw [← b] at hs
    generalize convert env x = c at hs
    cases p with
    | ret u =>
      obtain ⟨_, rfl, hu⟩ := h2
      cases hs
      cases hu
      exact .inl ⟨_, h1, rfl⟩
    | exc u =>
      obtain ⟨_, rfl, hu⟩ := h2
      cases hs with
      | exc hr => exact .inr (.inl ⟨_, _, h1, rfl, hr.move hu h3⟩)
    | stuck => exact absurd b.symm hn
    | act _ _ => obtain ⟨_, _, rfl, _⟩ := h2; exact .inr (.inr ⟨_, .step h1⟩)

/-- **C90** A call that is not interrupted ends after exactly as many operations of its own as it does
alone in a fresh interpreter, and one that is interrupted has done fewer. -/
theorem C90_operations (env : Env) (n : Nat) (es : List Event) (S : Store) (W : World)
    (hc : Course env n es (initial S) W) (i : Nat) (x : Str) (hx : (texts es)[i]? = some x) (hn : Enough env n x) :
    operations i es ≤ (conversion env n x).cost [] ∧
    (operations i es = (conversion env n x).cost [] ↔ (∀ v, ¬ Interrupted i v es) ∧
        ((∃ v, W.threads[i]? = some (.ret v)) ∨ ∃ v, W.threads[i]? = some (.exc v))) := by
  obtain ⟨t, ⟨p, st, ρ⟩, h1, h2, h3, h4⟩ := state hc hx
  cases h4 with
  | interrupted a _ _ c => exact ⟨by omega, fun e => by omega, fun h => absurd a (h.1 _)⟩
  | alive a b c =>
    simp only at b c h2
    refine ⟨by omega, ?_⟩
    cases p with
    | ret _ =>
      obtain ⟨_, rfl, _⟩ := h2
      rw [Steps.cost] at c
      exact ⟨fun _ => ⟨a, .inl ⟨_, h1⟩⟩, fun _ => by omega⟩
    | exc _ =>
      obtain ⟨_, rfl, _⟩ := h2
      rw [Steps.cost] at c
      exact ⟨fun _ => ⟨a, .inr ⟨_, h1⟩⟩, fun _ => by omega⟩
    | stuck => exact absurd b.symm hn
    | act _ _ =>
      obtain ⟨_, _, rfl, _⟩ := h2
      rw [Steps.cost] at c
      refine ⟨fun h => by omega, ?_⟩
      rintro ⟨_, ⟨v, h⟩ | ⟨v, h⟩⟩
      · rw [h] at h1; cases h1
      · rw [h] at h1; cases h1

theorem Course.append {env : Env} {n : Nat} {es es' : List Event} {W W' W'' : World} (h : Course env n es W W')
    (h' : Course env n es' W' W'') : Course env n (es ++ es') W W'' := by
  induction h' with
  | nil => rw [List.append_nil]; exact h
  | snoc _ he ih => rw [← List.append_assoc]; exact .snoc (ih h) he

/-- **C90** From any point, a call that was not interrupted, if it goes on alone, ends with what the
model gives for its text. -/
theorem C90_can_finish (env : Env) (n : Nat) (es : List Event) (S : Store) (W : World)
    (hc : Course env n es (initial S) W) (i : Nat) (x : Str) (hx : (texts es)[i]? = some x) (hn : Enough env n x)
    (hi : ∀ v, ¬ Interrupted i v es) :
    ∃ m W', Course env n (List.replicate m (.step i)) W W' ∧
      ((∃ s, W'.threads[i]? = some (.ret (.str s)) ∧ convert env x = .ok s) ∨
        ∃ v e, W'.threads[i]? = some (.exc v) ∧ convert env x = .error e ∧ Raised W'.store v e) := by
  generalize hm : (conversion env n x).cost [] - operations i es = m
  induction m generalizing es W with
  | zero =>
    refine ⟨0, W, .nil W, ?_⟩
    obtain ⟨h1, h2⟩ := C90_operations env n es S W hc i x hx hn
    have h3 := (h2.1 (by omega)).2
    rcases C90_outcome env n es S W hc i x hx hn with ⟨v, h, _⟩ | ⟨_, h | h | ⟨_, h⟩⟩
    · exact absurd h (hi v)
    · exact .inl h
    · exact .inr h
    · cases h with
      | step h =>
        rcases h3 with ⟨v, h3⟩ | ⟨v, h3⟩
        · rw [h] at h3; cases h3
        · rw [h] at h3; cases h3
  | succ m ih =>
    rcases C90_outcome env n es S W hc i x hx hn with ⟨v, h, _⟩ | ⟨_, h | h | ⟨W1, h⟩⟩
    · exact absurd h (hi v)
    · exact ⟨0, W, .nil W, .inl h⟩
    · exact ⟨0, W, .nil W, .inr h⟩
    · obtain ⟨m', W', h2, h3⟩ := ih (es ++ [.step i]) W1 (.snoc hc h) (by simp [texts_append, texts, hx])
        (fun v hv => hi v (by simpa [Interrupted] using hv)) (by
          simp only [operations_append, operations, if_true]
          omega)
      refine ⟨m' + 1, W', ?_, h3⟩
      have : List.replicate (m' + 1) (Event.step i) = [.step i] ++ List.replicate m' (.step i) := rfl
      rw [this]
      exact Course.append (.snoc (.nil W) h) h2

/-- **C90** Whatever has happened, and whichever calls were interrupted and where: a call that is
started now, if it runs alone, ends with what the model gives for its text. -/
theorem C90_available (env : Env) (n : Nat) (es : List Event) (S : Store) (W : World)
    (hc : Course env n es (initial S) W) (x : Str) (hn : Enough env n x) :
    ∃ m W', Course env n (.start x :: List.replicate m (.step W.threads.length)) W W' ∧
      ((∃ s, W'.threads[W.threads.length]? = some (.ret (.str s)) ∧ convert env x = .ok s) ∨
        ∃ v e, W'.threads[W.threads.length]? = some (.exc v) ∧ convert env x = .error e ∧ Raised W'.store v e) := by
  have hl := C90_calls env n es S W hc
  have hs : Happens env n (.start x) W _ := .start x
  obtain ⟨gs, h⟩ := Inv.course hc
  obtain ⟨m, W', h1, h2⟩ := C90_can_finish env n (es ++ [.start x]) S _ (.snoc hc hs) W.threads.length x
    (by rw [texts_append, hl, List.getElem?_append_right (Nat.le_refl _), Nat.sub_self]; rfl) hn
    (fun v hv => (h.past (i := W.threads.length) (by rw [h.inv.len]; exact Nat.le_refl _)).2 v (by simpa [Interrupted] using hv))
  exact ⟨m, W', Course.append (.snoc (.nil W) hs) h1, h2⟩

/-- **C90** Nothing that happens to a call, not even its interruption, changes an object that is not of the
calls. -/
theorem C90_others_untouched (env : Env) (n : Nat) (es : List Event) (S : Store) (W W' : World)
    (hc : Course env n es (initial S) W) (e : Event) (he : e ≠ .other) (h : Happens env n e W W') (a : Nat)
    (ha : W.foreign a) : W'.store[a]? = W.store[a]? ∧ W'.foreign a := by
  obtain ⟨gs, hg⟩ := Inv.course hc
  cases h with
  | start _ => exact ⟨rfl, ha⟩
  | interrupt _ _ => exact ⟨rfl, ha⟩
  | other _ _ => exact absurd rfl he
  | @step _ i g k hi =>
    refine ⟨?_, ha⟩
    have h1 := hg.inv
    have hlt : i < gs.length := by rw [h1.len]; exact (List.getElem?_eq_some_iff.1 hi).1
    have hs := List.getElem?_eq_getElem hlt
    have hsim := h1.sim hs hi
    have hrel := h1.rel hs
    have hown := h1.own hs
    generalize gs[i] = s at hsim hrel hown
    obtain ⟨p, st, ρ⟩ := s
    cases p with
    | ret _ => obtain ⟨_, e, _⟩ := hsim; cases e
    | exc _ => obtain ⟨_, e, _⟩ := hsim; cases e
    | stuck => cases hsim
    | act g0 k0 =>
      obtain ⟨g', k', e, hsim⟩ := hsim
      cases e
      obtain ⟨ρ', m, _⟩ := hsim st W.store hrel
      exact m.keep a (h1.bound a ha) fun hm => hown a hm ha

/-- A call is started and interrupted after its first operation; the next call gives the square. -/
example : ∃ n, ∀ S, ∃ es W, Course squareEnv n es (initial S) W ∧ Interrupted 0 .none es ∧ operations 0 es = 1 ∧
    W.threads[1]? = some (.ret (.str c!"x^{2}")) := by
  obtain ⟨n, hn⟩ := C83_bound squareEnv [c!"<math/>"]
  have he : Enough squareEnv (n + 10) c!"<math/>" := hn (n + 10) (by omega) _ (by simp)
  refine ⟨n + 10, fun S => ?_⟩
  have hv : convert squareEnv c!"<math/>" = .ok c!"x^{2}" := by
    rw [C05_accepted_never_repaired squareEnv c!"<math/>" _ rfl, docResult_eq]
    decide +kernel
  obtain ⟨g, k, g', k', hp, hk⟩ : ∃ g k g' k', conversion squareEnv (n + 10) c!"<math/>" = .act g k ∧ k S = .act g' k' :=
    ⟨_, _, _, _, rfl, rfl⟩
  have c1 : Course squareEnv (n + 10) [.start c!"<math/>"] (initial S) _ := .snoc (.nil _) (.start _)
  have c2 := Course.snoc c1 (.step (i := 0) (g := g) (k := k) (by rw [hp]; rfl))
  have c3 := Course.snoc c2 (.interrupt (i := 0) (g := g') (k := k') (by rw [hp, ← hk]; rfl) (v := .none) rfl)
  obtain ⟨m, W', h1, h2⟩ := C90_available squareEnv (n + 10) _ S _ c3 c!"<math/>" he
  refine ⟨_, W', c3.append h1, by simp [Interrupted], ?_, ?_⟩
  · have : ∀ m, operations 0 (List.replicate m (.step 1)) = 0 := by
      intro m
      induction m with
      | zero => rfl
      | succ m ih => rw [List.replicate_succ, operations, ih]; rfl
    rw [operations_append]
    show 1 + operations 0 (List.replicate m (.step 1)) = 1
    rw [this]
  · rcases h2 with ⟨s, h3, h4⟩ | ⟨v, e, _, h4, _⟩
    · rw [hv] at h4
      cases h4
      exact h3
    · rw [hv] at h4
      cases h4

end Verif.Src.Live
