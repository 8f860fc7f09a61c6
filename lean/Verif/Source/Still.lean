import Verif.Source.Writes
import Verif.Source.World

/-!
# Calls that leave what they share as it is

Several calls that work on the same objects.  If each of them, made alone, leaves these objects as they are when it
ends, then it has left them so all the time: what can be changed (`Alt`) is never changed
back.  So the calls do not notice each other.
-/

set_option linter.unusedSectionVars false

namespace Verif.Src.Writes

/-- No attribute that may be set again. -/
def Firm : Obj → Prop
  | .inst _ fs => ∀ x ∈ loose, look x fs = none
  | _ => True

/-- A firm object that is changed is not changed back. -/
theorem Alt.back {o o' : Obj} (hf : Firm o) (h : Alt o o') (h' : Alt o' o) : o' = o := by
  cases h with
  | list vs => rfl
  | dict d => rfl
  | marked d =>
    generalize he : Obj.dict d = o at h'
    generalize he' : Obj.dict (Dict.set d mark (.str mark)) = o' at h'
    cases h' with
    | list _ => cases he
    | dict _ => rfl
    | marked d' =>
      cases he'
      rw [set_twice]
    | inst _ _ _ => cases he
  | inst c h1 h2 =>
    rcases h2 with rfl | ⟨x, hx, h2⟩
    · rfl
    · cases h' with
      | inst _ g1 g2 =>
        rcases g2 with rfl | ⟨y, hy, g2⟩
        · rfl
        · exact absurd (hf y hy) g2

/-! ## Values and what they are related to -/

mutual
theorem vrel_unique {ρ : List Nat} {v v1 v2 : Val} (h1 : VRel ρ v v1) (h2 : VRel ρ v v2) : v1 = v2 := by
  cases h1 with
  | obj a1 =>
    cases h2 with
    | obj a2 => rw [a1] at a2; cases a2; rfl
    | same hp => cases hp
  | method a1 =>
    cases h2 with
    | method a2 => rw [vrel_unique a1 a2]
    | same hp => cases hp
  | bmethod a1 =>
    cases h2 with
    | bmethod a2 => rw [vrel_unique a1 a2]
    | same hp => cases hp
  | seq a1 =>
    cases h2 with
    | seq a2 => rw [vrels_unique a1 a2]
    | same hp => cases hp
  | same hp =>
    cases h2 with
    | same _ => rfl
    | obj _ => cases hp
    | method _ => cases hp
    | bmethod _ => cases hp
    | seq _ => cases hp
theorem vrels_unique {ρ : List Nat} {v v1 v2 : List Val} (h1 : VRels ρ v v1) (h2 : VRels ρ v v2) : v1 = v2 := by
  cases h1 with
  | nil => cases h2; rfl
  | cons a1 b1 =>
    cases h2 with
    | cons a2 b2 => rw [vrel_unique a1 a2, vrels_unique b1 b2]
end

theorem prel_unique {κ : Type} {ρ : List Nat} {l l1 l2 : List (κ × Val)} (h1 : PRel ρ l l1) (h2 : PRel ρ l l2) : l1 = l2 := by
  induction h1 generalizing l2 with
  | nil => cases h2; rfl
  | cons hv _ ih =>
    cases h2 with
    | cons hv' h2 => rw [vrel_unique hv hv', ih h2]

theorem orel_unique {ρ : List Nat} {o o1 o2 : Obj} (h1 : ORel ρ o o1) (h2 : ORel ρ o o2) : o1 = o2 := by
  cases h1 with
  | list a1 => cases h2 with | list a2 => rw [vrels_unique a1 a2]
  | dict a1 => cases h2 with | dict a2 => rw [prel_unique a1 a2]
  | inst a1 => cases h2 with | inst a2 => rw [prel_unique a1 a2]

/-- The end of a gentle program. -/
theorem gentle_end {α : Type} {N : Nat} {Q : α → Prop} : ∀ {p : Steps α} {S : Store}, Gentle N Q p → N ≤ S.length → GoodS S →
    (∀ v S', p.run S = .ok v S' → Turned N S S') ∧ (∀ v S', p.run S = .exc v S' → Turned N S S')
  | .ret _, S, _, _, _ => ⟨fun _ _ h => (by cases h; exact .refl _ _), fun _ _ h => (by cases h)⟩
  | .exc _, S, _, _, _ => ⟨fun _ _ h => (by cases h), fun _ _ h => (by cases h; exact .refl _ _)⟩
  | .stuck, S, _, _, _ => ⟨fun _ _ h => (by cases h), fun _ _ h => (by cases h)⟩
  | .act g k, S, hp, hl, hS => by
    obtain ⟨t, h2, h3⟩ := hp S hl hS
    have ih := gentle_end h3 (Nat.le_trans hl t.grow) h2
    exact ⟨fun v S' h => t.trans (ih.1 v S' h), fun v S' h => t.trans (ih.2 v S' h)⟩

/-! ## Calls -/

/-- A call of a function, and how deep the calls that it makes may go. -/
structure Job where
  n : Nat
  f : Func
  args : List Val
  kw : List (Ident × Val)

/-- The program that is executed. -/
def Job.prog (env : Env) (j : Job) : Steps Val := callS env j.n j.f j.args j.kw

/-- The call, made alone in the store `S`, ends and has left everything in it as it was. -/
def Job.Leaves (env : Env) (S : Store) (j : Job) : Prop :=
  ∃ v S', (call env j.n j.f j.args j.kw S = .ok v S' ∨ call env j.n j.f j.args j.kw S = .exc v S') ∧
    ∀ a, a < S.length → S'[a]? = S[a]?

/-- The code of the function passes the check for changes, and no method that makes changes is handed over. -/
def Job.Fair (j : Job) : Prop := okFunc j.f = true ∧ (∀ v ∈ j.args, Good v) ∧ ∀ p ∈ j.kw, Good p.2

/-- A call that was started: what was called, with which arguments in the common store, how many operations it has done, and
what it still has to do, unless it was interrupted. -/
structure Started where
  job : Job
  ops : Nat
  rest : Option (Steps Val)

/-- The store, the objects of other code, and the calls. -/
structure Shop where
  store : Store
  others : Nat → Prop
  calls : List Started

/-- What may happen next.  The shared objects, which are `S` when they are alone, are at the addresses in `ρ`. -/
inductive Goes (env : Env) (S : Store) (ρ : List Nat) : Shop → Shop → Prop
  /-- a call is started, in the common store with the arguments `args` and `kw` -/
  | start {W : Shop} {j : Job} {args : List Val} {kw : List (Ident × Val)} (hf : j.Fair) (hl : j.Leaves env S)
      (ha : VRels ρ j.args args) (hk : PRel ρ j.kw kw) :
      Goes env S ρ W ⟨W.store, W.others, W.calls ++ [⟨j, 0, some (callS env j.n j.f args kw)⟩]⟩
  /-- a call does its next operation -/
  | step {W : Shop} {i : Nat} {j : Job} {m : Nat} {g : Store → Store} {k : Store → Steps Val}
      (h : W.calls[i]? = some ⟨j, m, some (.act g k)⟩) :
      Goes env S ρ W ⟨g W.store, W.others, W.calls.set i ⟨j, m + 1, some (k W.store)⟩⟩
  /-- a call is interrupted -/
  | interrupt {W : Shop} {i : Nat} {j : Job} {m : Nat} {p : Steps Val} (h : W.calls[i]? = some ⟨j, m, some p⟩) :
      Goes env S ρ W ⟨W.store, W.others, W.calls.set i ⟨j, m, none⟩⟩
  /-- other code makes objects and changes its objects -/
  | other {W : Shop} {S' : Store} (hl : W.store.length ≤ S'.length)
      (hs : ∀ a, a < W.store.length → ¬ W.others a → S'[a]? = W.store[a]?) :
      Goes env S ρ W ⟨S', fun a => W.others a ∨ W.store.length ≤ a ∧ a < S'.length, W.calls⟩

/-- What may have happened since the store was `T` and there were no calls. -/
inductive Went (env : Env) (S : Store) (ρ : List Nat) (T : Store) : Shop → Prop
  | nil : Went env S ρ T ⟨T, fun a => a < T.length ∧ a ∉ ρ, []⟩
  | snoc {W W' : Shop} : Went env S ρ T W → Goes env S ρ W W' → Went env S ρ T W'

/-! ## The invariant -/

/-- A call as it would be if it were alone. -/
structure Lone (env : Env) (S : Store) (ρ : List Nat) (c : Started) (s : Solo) : Prop where
  leaves : c.job.Leaves env S
  base : ρ <+: s.at
  still : ∀ a, a < S.length → s.store[a]? = S[a]?
  long : S.length ≤ s.store.length
  good : GoodS s.store
  gentle : Gentle S.length Good s.prog
  run : s.prog.run s.store = call env c.job.n c.job.f c.job.args c.job.kw S
  cost : s.prog.cost s.store + c.ops = (c.job.prog env).cost S
  sim : ∀ {p : Steps Val}, c.rest = some p → Sim VRel s.prog s.at p

/-- All of them, with nothing in common but the shared objects. -/
structure Hold (env : Env) (S : Store) (ρ : List Nat) (T : Store) (gs : List Solo) (W : Shop) : Prop where
  len : gs.length = W.calls.length
  lone : ∀ {i : Nat} {s : Solo} {c : Started}, gs[i]? = some s → W.calls[i]? = some c → Lone env S ρ c s
  rel : ∀ {i : Nat} {s : Solo}, gs[i]? = some s → SRel s.at s.store W.store
  apart : ∀ {i j : Nat} {s s' : Solo}, i ≠ j → gs[i]? = some s → gs[j]? = some s' → ∀ a ∈ s.at, a ∈ s'.at → a ∈ ρ
  own : ∀ {i : Nat} {s : Solo}, gs[i]? = some s → ∀ a ∈ s.at, ¬ W.others a
  bound : ∀ a, W.others a → a < W.store.length
  mine : ∀ a ∈ ρ, ¬ W.others a
  same : ∀ a ∈ ρ, W.store[a]? = T[a]?

section
variable {env : Env} {S : Store} {ρ : List Nat} {T : Store}

/-- Alone, the next operation leaves the shared objects as they are. -/
theorem Lone.next {c : Started} {s : Solo} (hF : ∀ o ∈ S, Firm o) (h : Lone env S ρ c s) {g : Store → Store}
    {k : Store → Steps Val} (hp : s.prog = .act g k) :
    (∀ a, a < S.length → (g s.store)[a]? = S[a]?) ∧ S.length ≤ (g s.store).length ∧ GoodS (g s.store) ∧
      Gentle S.length Good (k s.store) := by
  have hg := h.gentle
  rw [hp] at hg
  obtain ⟨t, g1, g2⟩ := hg s.store h.long h.good
  have hl : S.length ≤ (g s.store).length := Nat.le_trans h.long t.grow
  refine ⟨fun a ha => ?_, hl, g1, g2⟩
  have hr := h.run
  rw [hp] at hr
  obtain ⟨v, S', hv, hS'⟩ := h.leaves
  have t' : Turned S.length (g s.store) S' := by
    have he := gentle_end g2 hl g1
    rcases hv with hv | hv
    · exact he.1 v S' (hr.trans hv)
    · exact he.2 v S' (hr.trans hv)
  have ho : S[a]? = some S[a] := List.getElem?_eq_getElem ha
  obtain ⟨o', h1, h2⟩ := t.alt ha ((h.still a ha).trans ho)
  obtain ⟨o'', h3, h4⟩ := t'.alt ha h1
  rw [hS' a ha, ho] at h3
  cases h3
  rw [h1, ho, Alt.back (hF _ (List.getElem_mem ha)) h2 h4]

/-- So it does in the common store. -/
theorem shared_same (hT : SRel ρ S T) {ρ' : List Nat} {S' W : Store} (hp : ρ <+: ρ') (hr : SRel ρ' S' W)
    (hs : ∀ a, a < S.length → S'[a]? = S[a]?) : ∀ a ∈ ρ, W[a]? = T[a]? := by
  intro a ha
  obtain ⟨i, hi⟩ := List.getElem?_of_mem ha
  obtain ⟨o, o', h1, h2, h3⟩ := hT.read hi
  have hlt : i < S.length := (List.getElem?_eq_some_iff.1 h1).1
  obtain ⟨o2, h4, h5⟩ := hr.get ((hs i hlt).trans h1) (get_prefix hp hi)
  rw [h2, h4, orel_unique h5 (h3.mono hp)]

theorem set_cases {α : Type} {l : List α} {i j : Nat} {a b : α} (h : (l.set i a)[j]? = some b) :
    j = i ∧ b = a ∨ j ≠ i ∧ l[j]? = some b := by
  by_cases e : i = j
  · subst e
    have hlt : i < l.length := by
      have := (List.getElem?_eq_some_iff.1 h).1
      rwa [List.length_set] at this
    rw [List.getElem?_set_self hlt] at h
    cases h
    exact .inl ⟨rfl, rfl⟩
  · rw [List.getElem?_set_ne e] at h
    exact .inr ⟨fun e' => e e'.symm, h⟩

theorem snoc_cases {α : Type} {l : List α} {a b : α} {i : Nat} (h : (l ++ [a])[i]? = some b) :
    l[i]? = some b ∨ i = l.length ∧ b = a := by
  rcases Nat.lt_or_ge i l.length with hi | hi
  · rw [List.getElem?_append_left hi] at h
    exact .inl h
  · rw [List.getElem?_append_right hi] at h
    match hd : i - l.length with
    | 0 =>
      rw [hd] at h
      cases h
      exact .inr ⟨by omega, rfl⟩
    | m + 1 =>
      rw [hd] at h
      simp at h

theorem hold_step (hF : ∀ o ∈ S, Firm o) (hT : SRel ρ S T) {gs : List Solo} {W : Shop} (H : Hold env S ρ T gs W)
    {i : Nat} {j : Job} {m : Nat} {g : Store → Store} {k : Store → Steps Val}
    (hi : W.calls[i]? = some ⟨j, m, some (.act g k)⟩) :
    ∃ gs', Hold env S ρ T gs' ⟨g W.store, W.others, W.calls.set i ⟨j, m + 1, some (k W.store)⟩⟩ := by
  have hlt : i < gs.length := by
    rw [H.len]
    exact (List.getElem?_eq_some_iff.1 hi).1
  obtain ⟨s, hs⟩ : ∃ s, gs[i]? = some s := ⟨_, List.getElem?_eq_getElem hlt⟩
  have hlone := H.lone hs hi
  have hsim := hlone.sim rfl
  have hrel := H.rel hs
  obtain ⟨prog, st, ρi⟩ := s
  cases prog with
  | ret _ => obtain ⟨_, e, _⟩ := hsim; cases e
  | exc _ => obtain ⟨_, e, _⟩ := hsim; cases e
  | stuck => cases hsim
  | act g0 k0 =>
    obtain ⟨g', k', e, hsim⟩ := hsim
    cases e
    obtain ⟨ρ', mv, r, q⟩ := hsim st W.store hrel
    obtain ⟨n1, n2, n3, n4⟩ := hlone.next hF rfl
    have hbase : ρ <+: ρ' := hlone.base.trans mv.ext
    have hsh : ∀ a ∈ ρ, (g W.store)[a]? = T[a]? := shared_same hT hbase r n1
    have hnew : ∀ {j : Nat} {s : Solo}, j ≠ i → gs[j]? = some s → ∀ a ∈ s.at, a ∈ ρ' → a ∈ ρ := by
      intro j s hj hs' a ha hm
      rcases mv.fresh a hm with h1 | h1
      · exact H.apart hj hs' hs a ha h1
      · exact absurd ((H.rel hs').lt ha) (by omega)
    refine ⟨gs.set i ⟨k0 st, g0 st, ρ'⟩, by simp [H.len], ?_, ?_, ?_, ?_, ?_, H.mine, hsh⟩
    · intro i' s c h1 h2
      rcases set_cases h1 with ⟨rfl, rfl⟩ | ⟨hne, h1⟩
      · rcases set_cases h2 with ⟨_, rfl⟩ | ⟨hne, _⟩
        · exact ⟨hlone.leaves, hbase, n1, n2, n3, n4, hlone.run, by have := hlone.cost; simp only [Steps.cost] at this ⊢; omega,
            fun e => by cases e; exact q⟩
        · exact absurd rfl hne
      · rcases set_cases h2 with ⟨e, _⟩ | ⟨_, h2⟩
        · exact absurd e hne
        · exact H.lone h1 h2
    · intro i' s h1
      rcases set_cases h1 with ⟨rfl, rfl⟩ | ⟨hne, h1⟩
      · exact r
      · refine (H.rel h1).same fun a ha => ?_
        by_cases hm : a ∈ ρ
        · rw [hsh a hm, H.same a hm]
        · exact mv.keep a ((H.rel h1).lt ha) fun h => hm (H.apart hne h1 hs a ha h)
    · intro i1 i2 s1 s2 hne h1 h2 a ha ha'
      rcases set_cases h1 with ⟨e1, e2⟩ | ⟨hn1, h1⟩
      · subst e1 e2
        rcases set_cases h2 with ⟨e3, _⟩ | ⟨hn2, h2⟩
        · exact absurd e3.symm hne
        · exact hnew hn2 h2 a ha' ha
      · rcases set_cases h2 with ⟨e3, e4⟩ | ⟨hn2, h2⟩
        · subst e3 e4
          rcases set_cases ‹(gs.set _ _)[i1]? = some s1› with ⟨e, _⟩ | ⟨_, h1⟩
          · exact absurd e hn1
          · exact hnew hn1 h1 a ha ha'
        · exact H.apart hne h1 h2 a ha ha'
    · intro i' s h1 a ha hf
      rcases set_cases h1 with ⟨rfl, rfl⟩ | ⟨_, h1⟩
      · rcases mv.fresh a ha with h | h
        · exact H.own hs a h hf
        · exact absurd (H.bound a hf) (by omega)
      · exact H.own h1 a ha hf
    · intro a ha
      have := H.bound a ha
      have := mv.grow
      show a < (g W.store).length
      omega

theorem hold (hG : GoodS S) (hF : ∀ o ∈ S, Firm o) (hT : SRel ρ S T) {W : Shop} (h : Went env S ρ T W) :
    ∃ gs, Hold env S ρ T gs W := by
  induction h with
  | nil =>
    exact ⟨[], rfl, fun h => by simp at h, fun h => by simp at h, fun _ h => by simp at h, fun h => by simp at h,
      fun _ h => h.1, fun _ h h' => h'.2 h, fun _ _ => rfl⟩
  | @snoc W W' _ hh ih =>
    obtain ⟨gs, H⟩ := ih
    cases hh with
    | @start j args kw hf hl ha hk =>
      have hrel : SRel ρ S W.store := hT.same fun a h => H.same a h
      refine ⟨gs ++ [⟨j.prog env, S, ρ⟩], by simp [H.len], ?_, ?_, ?_, ?_, H.bound, H.mine, H.same⟩
      · intro i s c h1 h2
        rcases snoc_cases h1 with h1 | ⟨e1, rfl⟩
        · rcases snoc_cases h2 with h2 | ⟨e2, _⟩
          · exact H.lone h1 h2
          · have := (List.getElem?_eq_some_iff.1 h1).1
            have := H.len
            omega
        · rcases snoc_cases h2 with h2 | ⟨_, rfl⟩
          · have := (List.getElem?_eq_some_iff.1 h2).1
            have := H.len
            omega
          · exact ⟨hl, List.prefix_refl _, fun _ _ => rfl, Nat.le_refl _, hG,
              gentle_call env S.length j.n _ _ _ (ready_func hf.1 hf.2.1 hf.2.2), run_callS env j.n _ _ _ _, rfl,
              fun e => by cases e; exact sim_call env j.n _ _ _ _ _ _ ha hk⟩
      · intro i s h1
        rcases snoc_cases h1 with h1 | ⟨_, rfl⟩
        · exact H.rel h1
        · exact hrel
      · intro i i' s s' hne h1 h2 a ha ha'
        rcases snoc_cases h1 with h1 | ⟨_, rfl⟩
        · rcases snoc_cases h2 with h2 | ⟨_, rfl⟩
          · exact H.apart hne h1 h2 a ha ha'
          · exact ha'
        · exact ha
      · intro i s h1 a ha
        rcases snoc_cases h1 with h1 | ⟨_, rfl⟩
        · exact H.own h1 a ha
        · exact H.mine a ha
    | step hi => exact hold_step hF hT H hi
    | interrupt hi =>
      refine ⟨gs, by simp [H.len], ?_, H.rel, H.apart, H.own, H.bound, H.mine, H.same⟩
      intro i s c h1 h2
      rcases set_cases h2 with ⟨rfl, rfl⟩ | ⟨_, h2⟩
      · have h := H.lone h1 hi
        exact ⟨h.leaves, h.base, h.still, h.long, h.good, h.gentle, h.run, h.cost, fun e => by cases e⟩
      · exact H.lone h1 h2
    | @other S' hl hs =>
      have hlt : ∀ a ∈ ρ, a < W.store.length := fun a ha => by
        have h1 := H.same a ha
        have h2 := hT.lt ha
        rw [List.getElem?_eq_getElem h2] at h1
        exact (List.getElem?_eq_some_iff.1 h1).1
      refine ⟨gs, H.len, H.lone, fun h1 => (H.rel h1).same fun a ha => hs a ((H.rel h1).lt ha) (H.own h1 a ha), H.apart,
        ?_, ?_, ?_, fun a ha => by rw [hs a (hlt a ha) (H.mine a ha), H.same a ha]⟩
      · intro i s h1 a ha hf
        rcases hf with hf | hf
        · exact H.own h1 a ha hf
        · have := (H.rel h1).lt ha
          omega
      · intro a ha
        rcases ha with ha | ha
        · have := H.bound a ha
          show a < S'.length
          omega
        · exact ha.2
      · intro a ha hf
        rcases hf with hf | hf
        · exact H.mine a ha hf
        · have := hlt a ha
          omega
end

end Verif.Src.Writes
