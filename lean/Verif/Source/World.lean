import Verif.Source.Sim

/-!
# Threads

Threads with one store.  At any time any thread may do its next operation; and other code, of which
nothing is known, may change objects that are not those of the threads, and create
new ones.
-/

set_option linter.unusedSectionVars false

namespace Verif.Src

/-- The store, the objects of the others, and what each thread still has to do. -/
structure World where
  store : Store
  foreign : Nat → Prop
  threads : List (Steps Val)

/-- What happens next. -/
inductive Event where
  /-- the thread with this number does an operation -/
  | thread (i : Nat)
  /-- somebody else does something -/
  | other
deriving DecidableEq

/-- One event. -/
inductive Happens : Event → World → World → Prop
  | thread {W : World} {i : Nat} {g : Store → Store} {k : Store → Steps Val} (h : W.threads[i]? = some (.act g k)) :
      Happens (.thread i) W ⟨g W.store, W.foreign, W.threads.set i (k W.store)⟩
  | other {W : World} {S : Store} (hl : W.store.length ≤ S.length)
      (hs : ∀ a, a < W.store.length → ¬ W.foreign a → S[a]? = W.store[a]?) :
      Happens .other W ⟨S, fun a => W.foreign a ∨ W.store.length ≤ a ∧ a < S.length, W.threads⟩

/-- Events one after the other. -/
inductive Course : List Event → World → World → Prop
  | nil (W : World) : Course [] W W
  | cons {e : Event} {es : List Event} {W W' W'' : World} : Happens e W W' → Course es W' W'' → Course (e :: es) W W''

/-- The number of operations that a program does if it is alone. -/
def Steps.cost {α : Type} : Steps α → Store → Nat
  | .ret _, _ => 0
  | .exc _, _ => 0
  | .stuck, _ => 0
  | .act g k, S => (k S).cost (g S) + 1

/-- A thread as it would be if it were alone, and where its objects are. -/
structure Solo where
  prog : Steps Val
  store : Store
  «at» : List Nat

/-- Each thread is as it would be if it were alone, and none has objects of another. -/
structure Inv (gs : List Solo) (W : World) : Prop where
  len : gs.length = W.threads.length
  sim : ∀ {i : Nat} {s : Solo} {t : Steps Val}, gs[i]? = some s → W.threads[i]? = some t → Sim VRel s.prog s.at t
  rel : ∀ {i : Nat} {s : Solo}, gs[i]? = some s → SRel s.at s.store W.store
  apart : ∀ {i j : Nat} {s s' : Solo}, i ≠ j → gs[i]? = some s → gs[j]? = some s' → ∀ a ∈ s.at, a ∉ s'.at
  own : ∀ {i : Nat} {s : Solo}, gs[i]? = some s → ∀ a ∈ s.at, ¬ W.foreign a
  bound : ∀ a, W.foreign a → a < W.store.length

/-- The same programs, some events later. -/
structure Later (es : List Event) (gs gs' : List Solo) : Prop where
  run : ∀ {i : Nat} {s s' : Solo}, gs[i]? = some s → gs'[i]? = some s' →
    s'.prog.run s'.store = s.prog.run s.store ∧
      s'.prog.cost s'.store + es.count (.thread i) = s.prog.cost s.store ∧ s.at <+: s'.at

theorem SRel.lt {ρ : List Nat} {S S' : Store} (h : SRel ρ S S') {a : Nat} (ha : a ∈ ρ) : a < S'.length := by
  obtain ⟨i, hi⟩ := List.getElem?_of_mem ha
  obtain ⟨_, o', _, h2, _⟩ := h.read hi
  exact (List.getElem?_eq_some_iff.1 h2).1

theorem SRel.same {ρ : List Nat} {S S' S'' : Store} (h : SRel ρ S S') (he : ∀ a ∈ ρ, S''[a]? = S'[a]?) : SRel ρ S S'' :=
  ⟨h.len, h.nodup, fun h1 h2 => by
    obtain ⟨o', h3, h4⟩ := h.get h1 h2
    exact ⟨o', by rw [he _ (List.mem_of_getElem? h2)]; exact h3, h4⟩⟩

theorem Inv.thread {gs : List Solo} {W : World} (h : Inv gs W) {i : Nat} {g : Store → Store} {k : Store → Steps Val}
    (hi : W.threads[i]? = some (.act g k)) :
    ∃ gs', Inv gs' ⟨g W.store, W.foreign, W.threads.set i (k W.store)⟩ ∧ Later [.thread i] gs gs' := by
  have hlt : i < gs.length := by
    rw [h.len]
    exact (List.getElem?_eq_some_iff.1 hi).1
  obtain ⟨s, hs⟩ : ∃ s, gs[i]? = some s := ⟨_, List.getElem?_eq_getElem hlt⟩
  have hsim := h.sim hs hi
  have hrel := h.rel hs
  obtain ⟨prog, st, ρ⟩ := s
  cases prog with
  | ret _ => obtain ⟨_, e, _⟩ := hsim; cases e
  | exc _ => obtain ⟨_, e, _⟩ := hsim; cases e
  | stuck => cases hsim
  | act g0 k0 =>
    obtain ⟨g', k', e, hsim⟩ := hsim
    cases e
    obtain ⟨ρ', m, r, q⟩ := hsim st W.store hrel
    have hset : ∀ {j : Nat} {s : Solo}, (gs.set i ⟨k0 st, g0 st, ρ'⟩)[j]? = some s →
        (j = i ∧ s = ⟨k0 st, g0 st, ρ'⟩) ∨ (j ≠ i ∧ gs[j]? = some s) := by
      intro j s hj
      by_cases e : i = j
      · subst e
        rw [List.getElem?_set_self hlt] at hj
        cases hj
        exact .inl ⟨rfl, rfl⟩
      · rw [List.getElem?_set_ne e] at hj
        exact .inr ⟨fun e' => e e'.symm, hj⟩
    have hnew : ∀ {j : Nat} {s : Solo}, j ≠ i → gs[j]? = some s → ∀ a ∈ s.at, a ∉ ρ' := by
      intro j s hj hs' a ha hm
      rcases m.fresh a hm with h1 | h1
      · exact h.apart hj hs' hs a ha h1
      · exact absurd ((h.rel hs').lt ha) (by omega)
    refine ⟨gs.set i ⟨k0 st, g0 st, ρ'⟩, ⟨by simp [h.len], ?_, ?_, ?_, ?_, ?_⟩, ⟨?_⟩⟩
    · intro j s t hj ht
      rcases hset hj with ⟨rfl, rfl⟩ | ⟨hne, hj⟩
      · rw [List.getElem?_set_self (by rw [← h.len]; exact hlt)] at ht
        cases ht
        exact q
      · rw [List.getElem?_set_ne (fun e => hne e.symm)] at ht
        exact h.sim hj ht
    · intro j s hj
      rcases hset hj with ⟨rfl, rfl⟩ | ⟨hne, hj⟩
      · exact r
      · refine (h.rel hj).same fun a ha => m.keep a ((h.rel hj).lt ha) (h.apart hne hj hs a ha)
    · intro j j' s s' hne hj hj' a ha
      rcases hset hj with ⟨e1, e2⟩ | ⟨h1, hj1⟩
      · subst e1 e2
        rcases hset hj' with ⟨e3, _⟩ | ⟨h2, hj2⟩
        · exact absurd e3.symm hne
        · exact fun hm => hnew h2 hj2 a hm ha
      · rcases hset hj' with ⟨e3, e4⟩ | ⟨h2, hj2⟩
        · subst e3 e4
          exact hnew h1 hj1 a ha
        · exact h.apart hne hj1 hj2 a ha
    · intro j s hj a ha hf
      rcases hset hj with ⟨rfl, rfl⟩ | ⟨_, hj⟩
      · rcases m.fresh a ha with h1 | h1
        · exact h.own hs a h1 hf
        · exact absurd (h.bound a hf) (by omega)
      · exact h.own hj a ha hf
    · intro a ha
      have := h.bound a ha
      have := m.grow
      show a < (g W.store).length
      omega
    · intro j s s' hj hj'
      rcases hset hj' with ⟨rfl, rfl⟩ | ⟨hne, hj'⟩
      · rw [hs] at hj
        cases hj
        exact ⟨rfl, by rw [List.count_singleton_self]; rfl, m.ext⟩
      · rw [hj] at hj'
        cases hj'
        refine ⟨rfl, ?_, List.prefix_refl _⟩
        rw [List.count_singleton, if_neg (by simpa using fun e => hne e.symm)]
        rfl

theorem Inv.other {gs : List Solo} {W : World} (h : Inv gs W) {S : Store} (hl : W.store.length ≤ S.length)
    (hs : ∀ a, a < W.store.length → ¬ W.foreign a → S[a]? = W.store[a]?) :
    Inv gs ⟨S, fun a => W.foreign a ∨ W.store.length ≤ a ∧ a < S.length, W.threads⟩ := by
  refine ⟨h.len, h.sim, fun hi => (h.rel hi).same fun a ha => hs a ((h.rel hi).lt ha) (h.own hi a ha), h.apart, ?_, ?_⟩
  · intro i s hi a ha hf
    rcases hf with hf | hf
    · exact h.own hi a ha hf
    · have := (h.rel hi).lt ha
      omega
  · intro a ha
    rcases ha with ha | ha
    · have := h.bound a ha
      show a < S.length
      omega
    · exact ha.2

theorem Later.refl (gs : List Solo) : Later [] gs gs :=
  ⟨fun h h' => by rw [h] at h'; cases h'; exact ⟨rfl, rfl, List.prefix_refl _⟩⟩

theorem Inv.course {gs : List Solo} {W W' : World} {es : List Event} (h : Inv gs W) (hc : Course es W W') :
    ∃ gs', Inv gs' W' ∧ Later es gs gs' := by
  induction hc generalizing gs with
  | nil W => exact ⟨gs, h, .refl gs⟩
  | @cons e es W W1 W2 he _ ih =>
    have key : ∃ g1, Inv g1 W1 ∧ Later [e] gs g1 := by
      cases he with
      | thread hi => exact h.thread hi
      | other hl hs =>
        refine ⟨gs, h.other hl hs, ⟨fun h h' => ?_⟩⟩
        rw [h] at h'
        cases h'
        refine ⟨rfl, ?_, List.prefix_refl _⟩
        rw [List.count_singleton, if_neg (by simp)]
        rfl
    obtain ⟨g1, h1, l1⟩ := key
    obtain ⟨g2, h2, l2⟩ := ih h1
    refine ⟨g2, h2, ⟨fun {i s s'} hi hi' => ?_⟩⟩
    have hlt : i < W2.threads.length := by rw [← h2.len]; exact (List.getElem?_eq_some_iff.1 hi').1
    have hlen : gs.length = g1.length := by
      rw [h.len, h1.len]
      cases he with
      | thread _ => simp
      | other _ _ => rfl
    have hlt1 : i < g1.length := by rw [← hlen]; exact (List.getElem?_eq_some_iff.1 hi).1
    obtain ⟨p1, p2, p3⟩ := l1.run hi (List.getElem?_eq_getElem hlt1)
    obtain ⟨q1, q2, q3⟩ := l2.run (List.getElem?_eq_getElem hlt1) hi'
    refine ⟨q1.trans p1, ?_, p3.trans q3⟩
    rw [← p2, ← q2, show e :: es = [e] ++ es from rfl, List.count_append]
    omega

end Verif.Src
