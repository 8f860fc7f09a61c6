import Verif.Source.Still
import Verif.Source.Veil

/-!
# Calls that mark what they share

Several calls that work on the same objects, and set the mark of some dictionaries among them.
No call looks at a mark before it has set it, so it makes no difference to it whether another call has
set it already.  To say so, the calls are made alone in a store `P` where these dictionaries have
`junk` for the mark: if a call ends there, it has not looked at it.
-/

set_option linter.unusedSectionVars false

namespace Verif.Src.Writes.Marking

/-- A dictionary with `junk` for the mark. -/
def Open (o : Obj) : Prop := ∃ d, o = .dict d ∧ Dict.get? d mark = some junk

/-- The object with the mark. -/
def marked : Obj → Obj
  | .dict d => .dict (Dict.set d mark (.str mark))
  | o => o

/-- The object is as it was, or its mark has been set. -/
def Late (p o : Obj) : Prop := o = p ∨ Open p ∧ o = marked p

/-- The object `p` is `o`, or `o` is a dictionary without the mark and `p` has `junk` for it. -/
def Blur (p o : Obj) : Prop := p = o ∨ ∃ d, Dict.get? d mark = none ∧ o = .dict d ∧ p = .dict (Dict.set d mark junk)

/-- So are all objects. -/
structure Blurred (P S : Store) : Prop where
  len : P.length = S.length
  get : ∀ {a : Nat} {p o : Obj}, P[a]? = some p → S[a]? = some o → Blur p o

/-- The call, made alone in the store `P`, ends and has set marks at most. -/
def Marks (env : Env) (P : Store) (j : Job) : Prop :=
  ∃ v S', (call env j.n j.f j.args j.kw P = .ok v S' ∨ call env j.n j.f j.args j.kw P = .exc v S') ∧
    ∀ {a : Nat} {p : Obj}, P[a]? = some p → ∃ o, S'[a]? = some o ∧ Late p o

/-- What may happen next.  The shared objects are at the addresses in `ρ`; when they are alone they are like `P`, except for the marks. -/
inductive Goes (env : Env) (P : Store) (ρ : List Nat) : Shop → Shop → Prop
  /-- a call is started, in the common store with the arguments `args` and `kw` -/
  | start {W : Shop} {j : Job} {args : List Val} {kw : List (Ident × Val)} (hf : j.Fair) (hl : Marks env P j)
      (ha : VRels ρ j.args args) (hk : PRel ρ j.kw kw) :
      Goes env P ρ W ⟨W.store, W.others, W.calls ++ [⟨j, 0, some (callS env j.n j.f args kw)⟩]⟩
  /-- a call does its next operation -/
  | step {W : Shop} {i : Nat} {j : Job} {m : Nat} {g : Store → Store} {k : Store → Steps Val}
      (h : W.calls[i]? = some ⟨j, m, some (.act g k)⟩) :
      Goes env P ρ W ⟨g W.store, W.others, W.calls.set i ⟨j, m + 1, some (k W.store)⟩⟩
  /-- a call is interrupted -/
  | interrupt {W : Shop} {i : Nat} {j : Job} {m : Nat} {p : Steps Val} (h : W.calls[i]? = some ⟨j, m, some p⟩) :
      Goes env P ρ W ⟨W.store, W.others, W.calls.set i ⟨j, m, none⟩⟩
  /-- other code makes objects and changes its objects -/
  | other {W : Shop} {S' : Store} (hl : W.store.length ≤ S'.length)
      (hs : ∀ a, a < W.store.length → ¬ W.others a → S'[a]? = W.store[a]?) :
      Goes env P ρ W ⟨S', fun a => W.others a ∨ W.store.length ≤ a ∧ a < S'.length, W.calls⟩
  /-- other code sets the mark of a shared dictionary which has `junk` for it in `P`, or which has the mark -/
  | mark {W : Shop} {i a : Nat} {p : Obj} {d : Dict Val} (hr : ρ[i]? = some a) (hp : P[i]? = some p) (ha : W.store[a]? = some (.dict d))
      (ho : Open p ∨ Dict.get? d mark = some (.str mark)) :
      Goes env P ρ W ⟨W.store.set a (.dict (Dict.set d mark (.str mark))), W.others, W.calls⟩

/-- What may have happened since the store was `T` and there were no calls. -/
inductive Went (env : Env) (P : Store) (ρ : List Nat) (T : Store) : Shop → Prop
  | nil : Went env P ρ T ⟨T, fun a => a < T.length ∧ a ∉ ρ, []⟩
  | snoc {W W' : Shop} : Went env P ρ T W → Goes env P ρ W W' → Went env P ρ T W'

/-! ## Marks -/

theorem Late.alt {p o : Obj} (h : Late p o) : Alt p o := by
  rcases h with rfl | ⟨⟨d, rfl, _⟩, rfl⟩
  · exact .refl _
  · exact .marked d

theorem Late.between {p o q : Obj} (hf : Firm p) (h : Alt p o) (h' : Alt o q) (hq : Late p q) : Late p o := by
  rcases hq with rfl | hq
  · exact .inl (Alt.back hf h h')
  · obtain ⟨⟨d, rfl, hd⟩, _⟩ := hq
    generalize he : Obj.dict d = p at h
    cases h with
    | list _ => cases he
    | dict _ => exact .inl rfl
    | marked _ =>
      cases he
      exact .inr ⟨⟨d, rfl, hd⟩, rfl⟩
    | inst _ _ _ => cases he

theorem marked_twice (o : Obj) : marked (marked o) = marked o := by
  cases o with
  | dict d => simp only [marked, set_twice]
  | _ => rfl

theorem ORel.marked {ρ : List Nat} {o o' : Obj} (h : ORel ρ o o') : ORel ρ (marked o) (marked o') := by
  cases h with
  | list h => exact .list h
  | dict h => exact .dict (h.dictSet _ (.same rfl))
  | inst h => exact .inst h

/-- When one call sets a mark, the others do not notice. -/
theorem keep {p m m' li lj : Obj} {ρi ρj : List Nat} (hf : Firm p) (ha : Alt m m') (hi : Late p li) (vi : Veil.ORel ρi li m')
    (hj : Late p lj) (vj : Veil.ORel ρj lj m) : Veil.ORel ρj lj m' ∧
      (m' = m ∨ m' = marked m ∧ (Open p ∨ ∃ d, m = .dict d ∧ Dict.get? d mark = some (.str mark))) := by
  cases ha with
  | list vs => exact ⟨vj, .inl rfl⟩
  | dict d => exact ⟨vj, .inl rfl⟩
  | marked e =>
    cases vj with
    | @dict d _ hd =>
      by_cases ho : Open p
      · refine ⟨.dict ?_, .inr ⟨rfl, .inl ho⟩⟩
        rcases hj with rfl | ⟨_, h2⟩
        · obtain ⟨_, h1, h2⟩ := ho
          cases h1
          intro k
          rw [Dict.get?_set]
          split
          · next hk => rw [hk, h2]; exact .veil
          · exact hd k
        · obtain ⟨d0, rfl, _⟩ := ho
          cases h2
          have := hd.dictSet mark (v := .str mark) (v' := .str mark) (.same rfl)
          rwa [set_twice] at this
      · rcases hi with rfl | ⟨h, _⟩
        · rcases hj with h | ⟨h, _⟩
          · subst h
            cases vi with
            | dict hd' =>
              have h1 := hd' mark
              rw [Dict.get?_set, if_pos rfl] at h1
              have h2 : Dict.get? d mark = some (.str mark) := by
                cases hg : Dict.get? d mark with
                | none => rw [hg] at h1; cases h1
                | some v =>
                  by_cases hv : v = junk
                  · subst hv
                    exact absurd ⟨d, rfl, hg⟩ ho
                  · rw [hg] at h1
                    cases h1 with
                    | some h3 =>
                      cases h3 with
                      | same _ => rfl
                      | junk => exact absurd rfl hv
                    | veil => exact absurd rfl hv
              have h3 : Dict.get? e mark = some (.str mark) := by
                have h4 := hd mark
                rw [h2] at h4
                generalize Dict.get? e mark = o at h4
                cases h4 with
                | some h5 => cases h5; rfl
              refine ⟨.dict fun k => ?_, .inr ⟨rfl, .inr ⟨e, rfl, h3⟩⟩⟩
              rw [Dict.get?_set]
              split
              · next hk => rw [hk, h2]; exact .some (.same rfl)
              · exact hd k
          · exact absurd h ho
        · exact absurd h ho
  | inst c h g =>
    rcases g with rfl | ⟨x, hx, g⟩
    · exact ⟨vj, .inl rfl⟩
    · cases vj with
      | inst hd =>
        have hp : ∀ {c : Ident} {fs : List (Ident × Val)} {q : Obj}, Late p q → q = .inst c fs → p = .inst c fs := by
          rintro c fs q (rfl | ⟨⟨d, rfl, _⟩, rfl⟩) e
          · exact e
          · cases e
        have e1 := hp hj rfl
        subst e1
        cases vi with
        | inst hd' =>
          have e2 := hp hi rfl
          cases e2
          have hl := hd'.look x
          rw [hf x hx] at hl
          generalize look x _ = y at hl g
          cases hl
          exact absurd rfl g

/-! ## Objects that are alone -/

mutual
theorem vself {ρ : List Nat} {v v' : Val} (h : VRel ρ v v') : Veil.VRel (List.range ρ.length) v v := by
  cases h with
  | obj h => exact .obj (List.getElem?_range (List.getElem?_eq_some_iff.1 h).1)
  | method h => exact .method (vself h)
  | bmethod h => exact .bmethod (vself h)
  | seq h => exact .seq (vselfs h)
  | same h => exact .same h
theorem vselfs {ρ : List Nat} {v v' : List Val} (h : VRels ρ v v') : Veil.VRels (List.range ρ.length) v v := by
  cases h with
  | nil => exact .nil
  | cons h h' => exact .cons (vself h) (vselfs h')
end

theorem pself {κ : Type} {ρ : List Nat} {l l' : List (κ × Val)} (h : PRel ρ l l') : Veil.PRel (List.range ρ.length) l l := by
  induction h with
  | nil => exact .nil
  | cons hv _ ih => exact .cons (vself hv) ih

theorem dself {ρ : List Nat} {d d' : Dict Val} (h : PRel ρ d d') : Veil.DRel (List.range ρ.length) d d := by
  intro k
  have hk := h.dictGet k
  generalize Dict.get? d k = o at hk ⊢
  generalize Dict.get? d' k = o' at hk
  cases hk with
  | none => exact .none
  | some hv => exact .some (vself hv)

theorem Blur.veil {ρ : List Nat} {p o o' : Obj} (hb : Blur p o) (h : ORel ρ o o') : Veil.ORel (List.range ρ.length) p o := by
  rcases hb with rfl | ⟨d, _, rfl, rfl⟩
  · cases h with
    | list h => exact .list (vselfs h)
    | dict h => exact .dict (dself h)
    | inst h => exact .inst (pself h)
  · cases h with
    | dict h =>
      refine .dict fun k => ?_
      rw [Dict.get?_set]
      split
      · exact .veil
      · exact dself h k

theorem mem_set {d : Dict Val} {k : Str} {v : Val} {p : Str × Val} (h : p ∈ Dict.set d k v) : p ∈ d ∨ p = (k, v) := by
  unfold Dict.set at h
  split at h
  · obtain ⟨q, hq, e⟩ := List.mem_map.1 h
    split at e
    · exact .inr e.symm
    · exact .inl (e ▸ hq)
  · rcases List.mem_append.1 h with h | h
    · exact .inl h
    · exact .inr (List.mem_singleton.1 h)

theorem Blur.good {p o : Obj} (hb : Blur p o) (h : GoodO o) : GoodO p := by
  rcases hb with rfl | ⟨d, _, rfl, rfl⟩
  · exact h
  · intro q hq
    rcases mem_set hq with hq | rfl
    · exact h q hq
    · simp [junk, Good]

theorem Blur.firm {p o : Obj} (hb : Blur p o) (h : Firm o) : Firm p := by
  rcases hb with rfl | ⟨d, _, rfl, rfl⟩
  · exact h
  · trivial

theorem Blurred.both {P S : Store} (h : Blurred P S) {p : Obj} (hp : p ∈ P) : ∃ o ∈ S, Blur p o := by
  obtain ⟨a, ha⟩ := List.getElem?_of_mem hp
  have hlt : a < S.length := by
    rw [← h.len]
    exact (List.getElem?_eq_some_iff.1 ha).1
  exact ⟨S[a], List.getElem_mem hlt, h.get ha (List.getElem?_eq_getElem hlt)⟩

theorem Blurred.good {P S : Store} (h : Blurred P S) (hG : GoodS S) : GoodS P := fun p hp => by
  obtain ⟨o, ho, hb⟩ := h.both hp
  exact hb.good (hG o ho)

theorem Blurred.firm {P S : Store} (h : Blurred P S) (hF : ∀ o ∈ S, Firm o) : ∀ p ∈ P, Firm p := fun p hp => by
  obtain ⟨o, ho, hb⟩ := h.both hp
  exact hb.firm (hF o ho)

theorem Blurred.veil {P S T : Store} {ρ : List Nat} (h : Blurred P S) (hT : SRel ρ S T) :
    Veil.SRel (List.range P.length) P S := by
  refine ⟨List.length_range, List.nodup_range, fun {a a' p} h1 h2 => ?_⟩
  have hlt := (List.getElem?_eq_some_iff.1 h1).1
  rw [List.getElem?_range hlt] at h2
  cases h2
  obtain ⟨o, hs⟩ : ∃ o, S[a]? = some o := ⟨_, List.getElem?_eq_getElem (h.len ▸ hlt)⟩
  obtain ⟨a', hr⟩ : ∃ a', ρ[a]? = some a' := ⟨_, List.getElem?_eq_getElem (by rw [hT.len, ← h.len]; exact hlt)⟩
  obtain ⟨o', _, ho⟩ := hT.get hs hr
  have := (h.get h1 hs).veil ho
  rw [hT.len, ← h.len] at this
  exact ⟨_, hs, this⟩

/-! ## The invariant -/

/-- A call as it would be if it were alone: with `junk` for the marks (`lo`), and with the marks that have been set (`s`). -/
structure Lone (env : Env) (P : Store) (ρ : List Nat) (c : Started) (lo s : Solo) : Prop where
  marks : Marks env P c.job
  lbase : List.range P.length <+: lo.at
  base : ρ <+: s.at
  late : ∀ {a : Nat} {p : Obj}, P[a]? = some p → ∃ o, lo.store[a]? = some o ∧ Late p o
  llong : P.length ≤ lo.store.length
  lgood : GoodS lo.store
  lgentle : Gentle P.length Good lo.prog
  long : P.length ≤ s.store.length
  good : GoodS s.store
  gentle : Gentle P.length Good s.prog
  run : lo.prog.run lo.store = call env c.job.n c.job.f c.job.args c.job.kw P
  cost : lo.prog.cost lo.store + c.ops = (c.job.prog env).cost P
  veil : Veil.Sim Veil.VRel lo.prog lo.at s.prog
  vrel : Veil.SRel lo.at lo.store s.store
  sim : ∀ {p : Steps Val}, c.rest = some p → Sim VRel s.prog s.at p

/-- All of them; `M` are the shared objects as they are now. -/
structure Hold (env : Env) (P : Store) (ρ : List Nat) (T M : Store) (gs : List (Solo × Solo)) (W : Shop) : Prop where
  len : gs.length = W.calls.length
  lone : ∀ {i : Nat} {q : Solo × Solo} {c : Started}, gs[i]? = some q → W.calls[i]? = some c → Lone env P ρ c q.1 q.2
  rel : ∀ {i : Nat} {q : Solo × Solo}, gs[i]? = some q → SRel q.2.at q.2.store W.store
  share : ∀ {i : Nat} {q : Solo × Solo}, gs[i]? = some q → ∀ a, a < P.length → q.2.store[a]? = M[a]?
  apart : ∀ {i j : Nat} {q q' : Solo × Solo}, i ≠ j → gs[i]? = some q → gs[j]? = some q' → ∀ a ∈ q.2.at, a ∈ q'.2.at → a ∈ ρ
  own : ∀ {i : Nat} {q : Solo × Solo}, gs[i]? = some q → ∀ a ∈ q.2.at, ¬ W.others a
  bound : ∀ a, W.others a → a < W.store.length
  mine : ∀ a ∈ ρ, ¬ W.others a
  mlen : M.length = P.length
  basis : Veil.SRel (List.range P.length) P M
  mgood : GoodS M
  here : SRel ρ M W.store
  since : ∀ {i a : Nat} {o : Obj}, ρ[i]? = some a → T[a]? = some o → ∃ o', W.store[a]? = some o' ∧
    (o' = o ∨ o' = marked o ∧ ((∃ p, P[i]? = some p ∧ Open p) ∨ ∃ d, o = .dict d ∧ Dict.get? d mark = some (.str mark)))

section
variable {env : Env} {P : Store} {ρ : List Nat} {T : Store}

theorem Lone.alive {c : Started} {lo s : Solo} (h : Lone env P ρ c lo s) : lo.prog.run lo.store ≠ .stuck := by
  obtain ⟨v, S', h1, _⟩ := h.marks
  rw [h.run]
  rcases h1 with h1 | h1 <;> rw [h1] <;> intro e <;> cases e

/-- Alone, the next operation sets marks at most. -/
theorem Lone.next {c : Started} {lo s : Solo} (hF : ∀ o ∈ P, Firm o) (h : Lone env P ρ c lo s) {g : Store → Store}
    {k : Store → Steps Val} (hp : lo.prog = .act g k) :
    (∀ {a : Nat} {p : Obj}, P[a]? = some p → ∃ o, (g lo.store)[a]? = some o ∧ Late p o) ∧ P.length ≤ (g lo.store).length ∧
      GoodS (g lo.store) ∧ Gentle P.length Good (k lo.store) := by
  have hg := h.lgentle
  rw [hp] at hg
  obtain ⟨t, g1, g2⟩ := hg lo.store h.llong h.lgood
  have hl : P.length ≤ (g lo.store).length := Nat.le_trans h.llong t.grow
  refine ⟨fun {a p} ha => ?_, hl, g1, g2⟩
  have hr := h.run
  rw [hp] at hr
  obtain ⟨v, S', hv, hS'⟩ := h.marks
  have t' : Turned P.length (g lo.store) S' := by
    have he := gentle_end g2 hl g1
    rcases hv with hv | hv
    · exact he.1 v S' (hr.trans hv)
    · exact he.2 v S' (hr.trans hv)
  have hlt := (List.getElem?_eq_some_iff.1 ha).1
  obtain ⟨o, h1, h2⟩ := h.late ha
  obtain ⟨o', h3, h4⟩ := t.alt hlt h1
  obtain ⟨o'', h5, h6⟩ := t'.alt hlt h3
  obtain ⟨o3, h7, h8⟩ := hS' ha
  rw [h5] at h7
  cases h7
  exact ⟨o', h3, Late.between (hF _ (List.mem_of_getElem? ha)) (h2.alt.trans h4) h6 h8⟩

theorem nodup_at {l : List Nat} (h : l.Nodup) {i j x : Nat} (hi : l[i]? = some x) (hj : l[j]? = some x) : i = j := by
  obtain ⟨i1, j1⟩ := List.getElem?_eq_some_iff.1 hi
  obtain ⟨i2, j2⟩ := List.getElem?_eq_some_iff.1 hj
  exact (List.getElem_inj h).1 (j1.trans j2.symm)

/-- The store of a call, with the shared objects as they are now. -/
def over (M st : Store) : Store := M ++ st.drop M.length

theorem over_old {M st : Store} {a : Nat} (h : a < M.length) : (over M st)[a]? = M[a]? := List.getElem?_append_left h

theorem over_new {M st : Store} {a : Nat} (h : ¬ a < M.length) : (over M st)[a]? = st[a]? := by
  rw [over, List.getElem?_append_right (by omega), List.getElem?_drop]
  congr 1
  omega

theorem over_length {M st : Store} (h : M.length ≤ st.length) : (over M st).length = st.length := by
  rw [over, List.length_append, List.length_drop]
  omega

theorem over_good {M st : Store} (h : GoodS M) (h' : GoodS st) : GoodS (over M st) := by
  intro o ho
  rcases List.mem_append.1 ho with ho | ho
  · exact h o ho
  · exact h' o (List.mem_of_mem_drop ho)

/-- What one operation of a call does: it changes no object of others, and sets marks at most. -/
structure Effect (P : Store) (ρ : List Nat) (W : Shop) (S' : Store) : Prop where
  grow : W.store.length ≤ S'.length
  rest : ∀ a, W.others a → S'[a]? = W.store[a]?
  shared : ∀ {i a : Nat}, ρ[i]? = some a → ∃ p o o', P[i]? = some p ∧ W.store[a]? = some o ∧ S'[a]? = some o' ∧
    (o' = o ∨ o' = marked o ∧ (Open p ∨ ∃ d, o = .dict d ∧ Dict.get? d mark = some (.str mark)))

theorem hold_step (hF : ∀ o ∈ P, Firm o) {M : Store} {gs : List (Solo × Solo)} {W : Shop} (H : Hold env P ρ T M gs W)
    {i : Nat} {j : Job} {m : Nat} {g : Store → Store} {k : Store → Steps Val}
    (hi : W.calls[i]? = some ⟨j, m, some (.act g k)⟩) :
    (∃ M' gs', Hold env P ρ T M' gs' ⟨g W.store, W.others, W.calls.set i ⟨j, m + 1, some (k W.store)⟩⟩) ∧ Effect P ρ W (g W.store) := by
  have hlt : i < gs.length := by
    rw [H.len]
    exact (List.getElem?_eq_some_iff.1 hi).1
  obtain ⟨⟨lo, s⟩, hs⟩ : ∃ q, gs[i]? = some q := ⟨_, List.getElem?_eq_getElem hlt⟩
  have hlone : Lone env P ρ _ lo s := H.lone hs hi
  have hsim := hlone.sim rfl
  have hrel : SRel s.at s.store W.store := H.rel hs
  have hveil := hlone.veil
  have hvrel := hlone.vrel
  have halive := hlone.alive
  have hshare : ∀ a, a < P.length → s.store[a]? = M[a]? := H.share hs
  obtain ⟨prog, st, ρi⟩ := s
  cases prog with
  | ret _ => obtain ⟨_, e, _⟩ := hsim; cases e
  | exc _ => obtain ⟨_, e, _⟩ := hsim; cases e
  | stuck => cases hsim
  | act g0 k0 =>
    obtain ⟨g', k', e, hsim⟩ := hsim
    cases e
    obtain ⟨ρ', mv, r, q⟩ := hsim st W.store hrel
    obtain ⟨lprog, lst, lρ⟩ := lo
    obtain ⟨gl, kl, rfl, ρl, mvl, rl, ql⟩ : ∃ gl kl, lprog = .act gl kl ∧ ∃ ρl, Moves lρ ρl st (g0 st) ∧
        Veil.SRel ρl (gl lst) (g0 st) ∧ Veil.Sim Veil.VRel (kl lst) ρl (k0 st) := by
      cases lprog with
      | ret _ => obtain ⟨_, e, _⟩ := hveil; cases e
      | exc _ => obtain ⟨_, e, _⟩ := hveil; cases e
      | stuck => exact absurd rfl halive
      | act gl kl =>
        have hk : kl lst ≠ .stuck := fun e => halive (by
          show (kl lst).run (gl lst) = .stuck
          rw [e]
          rfl)
        rcases hveil with h | ⟨_, _, e, h⟩
        · exact absurd (h lst) hk
        · cases e
          rcases h lst st hvrel with h | ⟨ρl, h1, h2, h3⟩
          · exact absurd h hk
          · exact ⟨gl, kl, rfl, ρl, h1, h2, h3⟩
    obtain ⟨n1, n2, n3, n4⟩ := hlone.next hF rfl
    obtain ⟨t, t1, t2⟩ := hlone.gentle st hlone.long hlone.good
    have hbase : ρ <+: ρ' := hlone.base.trans mv.ext
    have hlbase : List.range P.length <+: ρl := hlone.lbase.trans mvl.ext
    have hlen : P.length ≤ (g0 st).length := Nat.le_trans hlone.long t.grow
    have hρ : ρ.length = P.length := by rw [H.here.len, H.mlen]
    have hM : ((g0 st).take P.length).length = P.length := by rw [List.length_take]; omega
    have hMget : ∀ {a : Nat}, a < P.length → ((g0 st).take P.length)[a]? = (g0 st)[a]? := fun h => List.getElem?_take_of_lt h
    generalize (g0 st).take P.length = M' at hM hMget ⊢
    -- the shared objects
    have turn : ∀ {a : Nat} {p m : Obj}, P[a]? = some p → M[a]? = some m → ∃ m', M'[a]? = some m' ∧
        (m' = m ∨ m' = marked m ∧ (Open p ∨ ∃ d, m = .dict d ∧ Dict.get? d mark = some (.str mark))) ∧
        ∀ {lj : Obj} {ρj : List Nat}, Late p lj → Veil.ORel ρj lj m → Veil.ORel ρj lj m' := by
      intro a p m hp hm
      have ha := (List.getElem?_eq_some_iff.1 hp).1
      obtain ⟨m', h1, h2⟩ := t.alt ha ((hshare a ha).trans hm)
      obtain ⟨li, h3, h4⟩ := n1 hp
      obtain ⟨_, h5, h6⟩ := rl.get h3 (get_prefix hlbase (List.getElem?_range ha))
      rw [h1] at h5
      cases h5
      have hf := hF _ (List.mem_of_getElem? hp)
      refine ⟨m', (hMget ha).trans h1, ?_, fun hj vj => (keep hf h2 h4 h6 hj vj).1⟩
      obtain ⟨o, b1, b2⟩ := H.basis.get hp (List.getElem?_range ha)
      rw [hm] at b1
      cases b1
      exact (keep hf h2 h4 h6 (.inl rfl) b2).2
    have turnW : ∀ {a a' : Nat} {m m' o : Obj}, ρ[a]? = some a' → M[a]? = some m → M'[a]? = some m' → W.store[a']? = some o →
        (m' = m ∨ m' = marked m) → ∃ o', (g W.store)[a']? = some o' ∧ (m' = m ∧ o' = o ∨ m' = marked m ∧ o' = marked o) := by
      intro a a' m m' o hr hm hm' ho hc
      have ha : a < P.length := by
        rw [← hρ]
        exact (List.getElem?_eq_some_iff.1 hr).1
      have hr' := get_prefix hlone.base hr
      obtain ⟨o1, h1, h2⟩ := hrel.get ((hshare a ha).trans hm) hr'
      rw [ho] at h1
      cases h1
      obtain ⟨o', h3, h4⟩ := r.get ((hMget ha).symm.trans hm') (get_prefix hbase hr)
      have h5 := h2.mono mv.ext
      refine ⟨o', h3, ?_⟩
      rcases hc with rfl | rfl
      · exact .inl ⟨rfl, orel_unique h4 h5⟩
      · exact .inr ⟨rfl, orel_unique h4 (ORel.marked h5)⟩
    have both : ∀ {a a' : Nat} {m : Obj}, ρ[a]? = some a' → M[a]? = some m → ∃ p o m' o', P[a]? = some p ∧ W.store[a']? = some o ∧
        M'[a]? = some m' ∧ (g W.store)[a']? = some o' ∧ (m' = m ∧ o' = o ∨ m' = marked m ∧ o' = marked o) ∧
        (m' = m ∨ m' = marked m ∧ (Open p ∨ ∃ d, m = .dict d ∧ Dict.get? d mark = some (.str mark))) := by
      intro a a' m hr hm
      have ha : a < P.length := by
        rw [← hρ]
        exact (List.getElem?_eq_some_iff.1 hr).1
      have hp : P[a]? = some P[a] := List.getElem?_eq_getElem ha
      obtain ⟨o, h1, _⟩ := H.here.get hm hr
      obtain ⟨m', h2, h3, _⟩ := turn hp hm
      obtain ⟨o', h4, h5⟩ := turnW hr hm h2 h1 (h3.imp_right And.left)
      exact ⟨_, o, m', o', hp, h1, h2, h4, h5, h3⟩
    have move : ∀ {ρj : List Nat} {m m' o o' : Obj}, (m' = m ∧ o' = o ∨ m' = marked m ∧ o' = marked o) → ORel ρj m o → ORel ρj m' o' := by
      rintro ρj m m' o o' (⟨rfl, rfl⟩ | ⟨rfl, rfl⟩) h
      · exact h
      · exact ORel.marked h
    have hnew : ∀ {j : Nat} {q : Solo × Solo}, j ≠ i → gs[j]? = some q → ∀ a ∈ q.2.at, a ∈ ρ' → a ∈ ρ := by
      intro j q hj hs' a ha hm
      rcases mv.fresh a hm with h1 | h1
      · exact H.apart hj hs' hs a ha h1
      · exact absurd ((H.rel hs').lt ha) (by omega)
    let f : Solo × Solo → Solo × Solo := fun q => (q.1, ⟨q.2.prog, over M' q.2.store, q.2.at⟩)
    have old : ∀ {i' : Nat} {q : Solo × Solo}, ((gs.map f).set i (⟨kl lst, gl lst, ρl⟩, ⟨k0 st, g0 st, ρ'⟩))[i']? = some q →
        i' = i ∧ q = (⟨kl lst, gl lst, ρl⟩, ⟨k0 st, g0 st, ρ'⟩) ∨ i' ≠ i ∧ ∃ q0, gs[i']? = some q0 ∧ q = f q0 := by
      intro i' q h
      rcases set_cases h with h | ⟨h1, h2⟩
      · exact .inl h
      · rw [List.getElem?_map, Option.map_eq_some_iff] at h2
        obtain ⟨q0, h3, h4⟩ := h2
        exact .inr ⟨h1, q0, h3, h4.symm⟩
    have eff : ∀ {i' a : Nat}, ρ[i']? = some a → ∃ p o o', P[i']? = some p ∧ W.store[a]? = some o ∧ (g W.store)[a]? = some o' ∧
        (o' = o ∨ o' = marked o ∧ (Open p ∨ ∃ d, o = .dict d ∧ Dict.get? d mark = some (.str mark))) := by
      intro i' a h1
      have ha : i' < P.length := by
        rw [← hρ]
        exact (List.getElem?_eq_some_iff.1 h1).1
      have hm : M[i']? = some (M[i']'(by rw [H.mlen]; exact ha)) := List.getElem?_eq_getElem _
      obtain ⟨p, o2, m', o', h5, h6, _, h7, h8, h9⟩ := both h1 hm
      refine ⟨p, o2, o', h5, h6, h7, ?_⟩
      rcases h8 with ⟨_, rfl⟩ | ⟨e1, rfl⟩
      · exact .inl rfl
      · obtain ⟨o3, h11, h12⟩ := H.here.get hm h1
        rw [h6] at h11
        cases h11
        rcases h9 with e2 | ⟨_, h9 | ⟨d, e3, h10⟩⟩
        · -- the mark was there
          left
          rw [e2] at e1
          have h13 := ORel.marked h12
          rw [← e1] at h13
          exact orel_unique h13 h12
        · exact .inr ⟨rfl, .inl h9⟩
        · rw [e3] at h12
          cases h12 with
          | dict hd =>
            have h13 := hd.dictGet mark
            rw [h10] at h13
            refine .inr ⟨rfl, .inr ⟨_, rfl, ?_⟩⟩
            generalize Dict.get? _ mark = y at h13
            cases h13 with
            | some h14 => cases h14; rfl
    refine ⟨⟨M', (gs.map f).set i (⟨kl lst, gl lst, ρl⟩, ⟨k0 st, g0 st, ρ'⟩), by simp [H.len], ?_, ?_, ?_, ?_, ?_, ?_, H.mine, hM, ?_, ?_, ?_, ?_⟩, mv.grow, fun a ha => ?_, eff⟩
    · intro i' q' c h0 h2
      rcases old h0 with ⟨rfl, rfl⟩ | ⟨hne, ⟨l', s'⟩, h1, rfl⟩
      · rcases set_cases h2 with ⟨_, rfl⟩ | ⟨hne, _⟩
        · exact ⟨hlone.marks, hlbase, hbase, n1, n2, n3, n4, hlen, t1, t2, hlone.run,
            by have := hlone.cost; simp only [Steps.cost] at this ⊢; omega, ql, rl, fun e => by cases e; exact q⟩
        · exact absurd rfl hne
      · rcases set_cases h2 with ⟨e, _⟩ | ⟨_, h2⟩
        · exact absurd e hne
        · have l : Lone env P ρ c l' s' := H.lone (q := (l', s')) h1 h2
          have hl' : M'.length ≤ s'.store.length := by rw [hM]; exact l.long
          have hMg : GoodS M' := by
            intro o ho
            obtain ⟨a, ha⟩ := List.getElem?_of_mem ho
            have hlt := (List.getElem?_eq_some_iff.1 ha).1
            rw [hM] at hlt
            rw [hMget hlt] at ha
            exact t1 o (List.mem_of_getElem? ha)
          refine ⟨l.marks, l.lbase, l.base, l.late, l.llong, l.lgood, l.lgentle, ?_, over_good hMg l.good, l.gentle, l.run, l.cost,
            l.veil, ?_, l.sim⟩
          · rw [over_length hl']; exact l.long
          · refine ⟨l.vrel.len, l.vrel.nodup, fun {a a' o} g1 g2 => ?_⟩
            obtain ⟨o', g3, g4⟩ := l.vrel.get g1 g2
            by_cases ha : a' < P.length
            · have e := nodup_at l.vrel.nodup g2 (get_prefix l.lbase (List.getElem?_range ha))
              subst e
              have hp : P[a]? = some P[a] := List.getElem?_eq_getElem ha
              obtain ⟨o2, g5, g6⟩ := l.late hp
              rw [g1] at g5
              cases g5
              obtain ⟨m', h3, _, h5⟩ := turn hp ((H.share h1 a ha).symm.trans g3)
              exact ⟨m', by rw [over_old (by rw [hM]; exact ha)]; exact h3, h5 g6 g4⟩
            · exact ⟨o', by rw [over_new (by rw [hM]; exact ha)]; exact g3, g4⟩
    · intro i' q' h0
      rcases old h0 with ⟨rfl, rfl⟩ | ⟨hne, ⟨l', s'⟩, h1, rfl⟩
      · exact r
      · have R : SRel s'.at s'.store W.store := H.rel (q := (l', s')) h1
        have hc : i' < W.calls.length := by
          rw [← H.len]
          exact (List.getElem?_eq_some_iff.1 h1).1
        have l : Lone env P ρ _ l' s' := H.lone (q := (l', s')) h1 (List.getElem?_eq_getElem hc)
        have hl' : M'.length ≤ s'.store.length := by rw [hM]; exact l.long
        refine ⟨?_, R.nodup, fun {a a' o} g1 g2 => ?_⟩
        · show s'.at.length = (over M' s'.store).length
          rw [over_length hl']; exact R.len
        · replace g1 : (over M' s'.store)[a]? = some o := g1
          replace g2 : s'.at[a]? = some a' := g2
          by_cases ha : a < P.length
          · rw [over_old (by rw [hM]; exact ha)] at g1
            have hr : ρ[a]? = some a' := by
              have e : ρ[a]? = some (ρ[a]'(by rw [hρ]; exact ha)) := List.getElem?_eq_getElem _
              rw [e, ← get_prefix l.base e, g2]
            have hm : M[a]? = some (M[a]'(by rw [H.mlen]; exact ha)) := List.getElem?_eq_getElem _
            obtain ⟨p, o1, m', o', _, h3, h4, h5, h6, _⟩ := both hr hm
            rw [g1] at h4
            cases h4
            obtain ⟨o2, h7, h8⟩ := R.get ((H.share h1 a ha).trans hm) g2
            rw [h3] at h7
            cases h7
            exact ⟨o', h5, move h6 h8⟩
          · rw [over_new (by rw [hM]; exact ha)] at g1
            obtain ⟨o', h3, h4⟩ := R.get g1 g2
            have hmem : a' ∈ s'.at := List.mem_of_getElem? g2
            refine ⟨o', ?_, h4⟩
            rw [← h3]
            refine mv.keep a' (R.lt hmem) fun h => ?_
            have hin := H.apart hne h1 hs a' hmem h
            obtain ⟨b, hb⟩ := List.getElem?_of_mem hin
            have e := nodup_at R.nodup g2 (get_prefix l.base hb)
            have := (List.getElem?_eq_some_iff.1 hb).1
            omega
    · intro i' q' h1 a ha
      rcases old h1 with ⟨rfl, rfl⟩ | ⟨hne, ⟨l', s'⟩, h1, rfl⟩
      · exact (hMget ha).symm
      · exact over_old (by rw [hM]; exact ha)
    · intro i1 i2 q1 q2 hne h1 h2 a ha ha'
      rcases old h1 with ⟨e1, e2⟩ | ⟨hn1, q3, g1, rfl⟩
      · subst e1 e2
        rcases old h2 with ⟨e3, _⟩ | ⟨hn2, q3, g2, rfl⟩
        · exact absurd e3.symm hne
        · exact hnew hn2 g2 a ha' ha
      · rcases old h2 with ⟨e3, e4⟩ | ⟨hn2, q4, g2, rfl⟩
        · subst e4
          exact hnew hn1 g1 a ha ha'
        · exact H.apart hne g1 g2 a ha ha'
    · intro i' q' h1 a ha hf
      rcases old h1 with ⟨rfl, rfl⟩ | ⟨_, q3, g1, rfl⟩
      · rcases mv.fresh a ha with h | h
        · exact H.own hs a h hf
        · exact absurd (H.bound a hf) (by omega)
      · exact H.own g1 a ha hf
    · intro a ha
      have := H.bound a ha
      have := mv.grow
      show a < (g W.store).length
      omega
    · refine ⟨List.length_range, List.nodup_range, fun {a a' p} h1 h2 => ?_⟩
      obtain ⟨m, h3, h4⟩ := H.basis.get h1 h2
      have ha := (List.getElem?_eq_some_iff.1 h1).1
      rw [List.getElem?_range ha] at h2
      cases h2
      obtain ⟨m', h5, _, h6⟩ := turn h1 h3
      exact ⟨m', h5, h6 (.inl rfl) h4⟩
    · intro o ho
      obtain ⟨a, ha⟩ := List.getElem?_of_mem ho
      have hlt := (List.getElem?_eq_some_iff.1 ha).1
      rw [hM] at hlt
      rw [hMget hlt] at ha
      exact t1 o (List.mem_of_getElem? ha)
    · refine ⟨by rw [hρ, hM], H.here.nodup, fun {a a' o} h1 h2 => ?_⟩
      have ha : a < P.length := by
        rw [← hρ]
        exact (List.getElem?_eq_some_iff.1 h2).1
      have hm : M[a]? = some (M[a]'(by rw [H.mlen]; exact ha)) := List.getElem?_eq_getElem _
      obtain ⟨p, o1, m', o', _, h3, h4, h5, h6, _⟩ := both h2 hm
      rw [h1] at h4
      cases h4
      obtain ⟨o2, h7, h8⟩ := H.here.get hm h2
      rw [h3] at h7
      cases h7
      exact ⟨o', h5, move h6 h8⟩
    · intro i' a o h1 h2
      obtain ⟨o1, h3, h4⟩ := H.since h1 h2
      obtain ⟨p, o2, o', h5, h6, h7, h8⟩ := eff h1
      rw [h3] at h6
      cases h6
      refine ⟨o', h7, ?_⟩
      rcases h8 with rfl | ⟨rfl, h8⟩
      · exact h4
      · rcases h4 with rfl | ⟨rfl, h4⟩
        · exact .inr ⟨rfl, h8.imp (fun h => ⟨p, h5, h⟩) id⟩
        · rw [marked_twice]
          exact .inr ⟨rfl, h4⟩
    · exact mv.keep a (H.bound a ha) fun h => H.own hs a h ha

/-- The mark of a shared dictionary is set. -/
theorem keep_open {p m lj : Obj} {ρj : List Nat} (ho : Open p) (hj : Late p lj) (vj : Veil.ORel ρj lj m) : Veil.ORel ρj lj (marked m) := by
  obtain ⟨d0, rfl, h2⟩ := ho
  rcases hj with rfl | ⟨_, rfl⟩
  · cases vj with
    | dict hd =>
      refine .dict fun k => ?_
      rw [Dict.get?_set]
      split
      · next hk => rw [hk, h2]; exact .veil
      · exact hd k
  · unfold marked at vj
    cases vj with
    | dict hd =>
      refine .dict ?_
      have := hd.dictSet mark (v := .str mark) (v' := .str mark) (.same rfl)
      rwa [set_twice] at this

/-- It is set where it was. -/
theorem keep_same {lj : Obj} {d : Dict Val} {ρj : List Nat} (hd : Dict.get? d mark = some (.str mark)) (vj : Veil.ORel ρj lj (.dict d)) :
    Veil.ORel ρj lj (marked (.dict d)) := by
  cases vj with
  | dict h =>
    refine .dict fun k => ?_
    rw [Dict.get?_set]
    split
    · next hk =>
      have := h k
      rw [hk, hd] at this
      rw [hk]
      exact this
    · exact h k

theorem hold_mark {M : Store} {gs : List (Solo × Solo)} {W : Shop} (H : Hold env P ρ T M gs W) {i a : Nat} {p : Obj} {d : Dict Val}
    (hr : ρ[i]? = some a) (hp : P[i]? = some p) (ha : W.store[a]? = some (.dict d)) (ho : Open p ∨ Dict.get? d mark = some (.str mark)) :
    ∃ M' gs', Hold env P ρ T M' gs' ⟨W.store.set a (.dict (Dict.set d mark (.str mark))), W.others, W.calls⟩ := by
  have hρ : ρ.length = P.length := by rw [H.here.len, H.mlen]
  have hi := (List.getElem?_eq_some_iff.1 hp).1
  obtain ⟨m, hm⟩ : ∃ m, M[i]? = some m := ⟨_, List.getElem?_eq_getElem (by rw [H.mlen]; exact hi)⟩
  have hM : (M.set i (marked m)).length = P.length := by rw [List.length_set, H.mlen]
  have hself : (M.set i (marked m))[i]? = some (marked m) := List.getElem?_set_self (by rw [H.mlen]; exact hi)
  have hother : ∀ {b : Nat}, b ≠ i → (M.set i (marked m))[b]? = M[b]? := fun h => List.getElem?_set_ne (fun e => h e.symm)
  generalize M.set i (marked m) = M' at hM hself hother
  have hw : (W.store.set a (.dict (Dict.set d mark (.str mark))))[a]? = some (marked (.dict d)) :=
    List.getElem?_set_self (List.getElem?_eq_some_iff.1 ha).1
  have hwo : ∀ {b : Nat}, b ≠ a → (W.store.set a (.dict (Dict.set d mark (.str mark))))[b]? = W.store[b]? := fun h => List.getElem?_set_ne (fun e => h e.symm)
  have hwl : (W.store.set a (.dict (Dict.set d mark (.str mark)))).length = W.store.length := List.length_set
  generalize W.store.set a (.dict (Dict.set d mark (.str mark))) = U at hw hwo hwl
  have hMg : GoodS M' := by
    intro o ho
    obtain ⟨b, hb⟩ := List.getElem?_of_mem ho
    by_cases e : b = i
    · subst e
      rw [hself] at hb
      cases hb
      have := H.mgood m (List.mem_of_getElem? hm)
      cases m with
      | dict d' =>
        intro q hq
        rcases mem_set hq with hq | rfl
        · exact this q hq
        · trivial
      | _ => exact this
    · rw [hother e] at hb
      exact H.mgood o (List.mem_of_getElem? hb)
  -- the shared objects in the store of a call
  have turn : ∀ {b : Nat} {p' m' : Obj}, P[b]? = some p' → M[b]? = some m' → ∃ m'', M'[b]? = some m'' ∧
      ∀ {lj : Obj} {ρj : List Nat}, Late p' lj → Veil.ORel ρj lj m' → Veil.ORel ρj lj m'' := by
    intro b p' m' h1 h2
    by_cases e : b = i
    · subst e
      rw [hp] at h1
      rw [hm] at h2
      cases h1
      cases h2
      refine ⟨_, hself, fun hj vj => ?_⟩
      rcases ho with ho | ho
      · exact keep_open ho hj vj
      · obtain ⟨o, g1, g2⟩ := H.here.get hm hr
        rw [ha] at g1
        cases g1
        cases g2 with
        | @dict dm _ g2 =>
          refine keep_same ?_ vj
          have g3 := g2.dictGet mark
          rw [ho] at g3
          generalize Dict.get? dm mark = y at g3
          cases g3 with
          | some g4 => cases g4; rfl
    · exact ⟨m', by rw [hother e]; exact h2, fun _ h => h⟩
  have relate : ∀ {ρj : List Nat} {R : Store}, ρ <+: ρj → M.length ≤ R.length → SRel ρj R W.store → (∀ b, b < P.length → R[b]? = M[b]?) → SRel ρj (over M' R) U := by
    intro ρj R hpre hl h hsh
    refine ⟨by rw [over_length (by rw [hM, ← H.mlen]; exact hl)]; exact h.len, h.nodup, fun {b b' o} g1 g2 => ?_⟩
    by_cases e : b = i
    · subst e
      have : b' = a := Option.some.inj (g2.symm.trans (get_prefix hpre hr))
      subst this
      rw [over_old (by rw [hM]; exact hi), hself] at g1
      cases g1
      obtain ⟨o, g3, g4⟩ := h.get ((hsh b hi).trans hm) g2
      rw [ha] at g3
      cases g3
      exact ⟨_, hw, ORel.marked g4⟩
    · have hne : b' ≠ a := fun e' => e (nodup_at h.nodup g2 (e' ▸ get_prefix hpre hr))
      have g1' : R[b]? = some o := by
        by_cases hb : b < P.length
        · rw [over_old (by rw [hM]; exact hb), hother e, ← hsh b hb] at g1
          exact g1
        · rw [over_new (by rw [hM]; exact hb)] at g1
          exact g1
      obtain ⟨o', g3, g4⟩ := h.get g1' g2
      exact ⟨o', by rw [hwo hne]; exact g3, g4⟩
  let f : Solo × Solo → Solo × Solo := fun q => (q.1, ⟨q.2.prog, over M' q.2.store, q.2.at⟩)
  have old : ∀ {i' : Nat} {q : Solo × Solo}, (gs.map f)[i']? = some q → ∃ q0, gs[i']? = some q0 ∧ q = f q0 := by
    intro i' q h
    rw [List.getElem?_map, Option.map_eq_some_iff] at h
    obtain ⟨q0, h3, h4⟩ := h
    exact ⟨q0, h3, h4.symm⟩
  refine ⟨M', gs.map f, by simp [H.len], ?_, ?_, ?_, ?_, ?_, ?_, H.mine, hM, ?_, hMg, ?_, ?_⟩
  · intro i' q' c h0 h2
    obtain ⟨⟨l', s'⟩, h1, rfl⟩ := old h0
    have l : Lone env P ρ c l' s' := H.lone (q := (l', s')) h1 h2
    have hl' : M'.length ≤ s'.store.length := by rw [hM]; exact l.long
    refine ⟨l.marks, l.lbase, l.base, l.late, l.llong, l.lgood, l.lgentle, ?_, over_good hMg l.good, l.gentle, l.run, l.cost,
      l.veil, ?_, l.sim⟩
    · rw [over_length hl']; exact l.long
    · refine ⟨l.vrel.len, l.vrel.nodup, fun {b b' o} g1 g2 => ?_⟩
      obtain ⟨o', g3, g4⟩ := l.vrel.get g1 g2
      by_cases hb : b' < P.length
      · have e := nodup_at l.vrel.nodup g2 (get_prefix l.lbase (List.getElem?_range hb))
        subst e
        have hp' : P[b]? = some P[b] := List.getElem?_eq_getElem hb
        obtain ⟨o2, g5, g6⟩ := l.late hp'
        rw [g1] at g5
        cases g5
        obtain ⟨m', h3, h5⟩ := turn hp' ((H.share h1 b hb).symm.trans g3)
        exact ⟨m', by rw [over_old (by rw [hM]; exact hb)]; exact h3, h5 g6 g4⟩
      · exact ⟨o', by rw [over_new (by rw [hM]; exact hb)]; exact g3, g4⟩
  · intro i' q' h0
    obtain ⟨⟨l', s'⟩, h1, rfl⟩ := old h0
    have hc : i' < W.calls.length := by
      rw [← H.len]
      exact (List.getElem?_eq_some_iff.1 h1).1
    have l : Lone env P ρ _ l' s' := H.lone (q := (l', s')) h1 (List.getElem?_eq_getElem hc)
    exact relate l.base (by rw [H.mlen]; exact l.long) (H.rel (q := (l', s')) h1) (H.share (q := (l', s')) h1)
  · intro i' q' h0 b hb
    obtain ⟨⟨l', s'⟩, h1, rfl⟩ := old h0
    exact over_old (by rw [hM]; exact hb)
  · intro i1 i2 q1 q2 hne h1 h2 b hb hb'
    obtain ⟨q3, g1, rfl⟩ := old h1
    obtain ⟨q4, g2, rfl⟩ := old h2
    exact H.apart hne g1 g2 b hb hb'
  · intro i' q' h1 b hb hf
    obtain ⟨q3, g1, rfl⟩ := old h1
    exact H.own g1 b hb hf
  · intro b hb
    show b < U.length
    rw [hwl]
    exact H.bound b hb
  · refine ⟨List.length_range, List.nodup_range, fun {b b' p'} h1 h2 => ?_⟩
    obtain ⟨m', h3, h4⟩ := H.basis.get h1 h2
    have hb := (List.getElem?_eq_some_iff.1 h1).1
    rw [List.getElem?_range hb] at h2
    cases h2
    obtain ⟨m'', h5, h6⟩ := turn h1 h3
    exact ⟨m'', h5, h6 (.inl rfl) h4⟩
  · have := relate (List.prefix_refl ρ) (Nat.le_refl _) H.here fun _ _ => rfl
    have e : over M' M = M' := by
      unfold over
      rw [List.drop_eq_nil_of_le (by rw [hM, H.mlen]; exact Nat.le_refl _), List.append_nil]
    rwa [e] at this
  · intro i' b o h1 h2
    obtain ⟨o1, h3, h4⟩ := H.since h1 h2
    by_cases e : b = a
    · subst e
      have e' := nodup_at H.here.nodup h1 hr
      subst e'
      rw [ha] at h3
      cases h3
      refine ⟨_, hw, .inr ?_⟩
      rcases h4 with rfl | ⟨e1, h4⟩
      · exact ⟨rfl, ho.imp (fun ho => ⟨p, hp, ho⟩) fun ho => ⟨d, rfl, ho⟩⟩
      · rw [e1, marked_twice]
        exact ⟨rfl, h4⟩
    · exact ⟨o1, by rw [hwo e]; exact h3, h4⟩

theorem hold {S : Store} (hG : GoodS S) (hF : ∀ o ∈ S, Firm o) (hT : SRel ρ S T) (hB : Blurred P S) {W : Shop} (h : Went env P ρ T W) :
    ∃ M gs, Hold env P ρ T M gs W := by
  have hF' := hB.firm hF
  have hG' := hB.good hG
  induction h with
  | nil =>
    exact ⟨S, [], rfl, fun h => by simp at h, fun h => by simp at h, fun h => by simp at h, fun _ h => by simp at h,
      fun h => by simp at h, fun _ h => h.1, fun _ h h' => h'.2 h, hB.len.symm, hB.veil hT, hG, hT, fun _ h => ⟨_, h, .inl rfl⟩⟩
  | @snoc W W' _ hh ih =>
    obtain ⟨M, gs, H⟩ := ih
    have hρ : ρ.length = P.length := by rw [H.here.len, H.mlen]
    cases hh with
    | @start j args kw hf hl ha hk =>
      refine ⟨M, gs ++ [(⟨j.prog env, P, List.range P.length⟩, ⟨j.prog env, M, ρ⟩)], by simp [H.len], ?_, ?_, ?_, ?_, ?_, H.bound, H.mine,
        H.mlen, H.basis, H.mgood, H.here, H.since⟩
      · intro i s c h1 h2
        rcases snoc_cases h1 with h1 | ⟨e1, rfl⟩
        · rcases snoc_cases h2 with h2 | ⟨e2, _⟩
          · exact H.lone h1 h2
          · have := (List.getElem?_eq_some_iff.1 h1).1
            have := H.len
            omega
        · rcases snoc_cases h2 with h2 | ⟨_, rfl⟩
          · have := (List.getElem?_eq_some_iff.1 h2).1
            have := H.len
            omega
          · have gen := gentle_call env P.length j.n _ _ _ (ready_func hf.1 hf.2.1 hf.2.2)
            have va := vselfs ha
            have vk := pself hk
            rw [hρ] at va vk
            exact ⟨hl, List.prefix_refl _, List.prefix_refl _, fun h => ⟨_, h, .inl rfl⟩, Nat.le_refl _, hG', gen,
              Nat.le_of_eq H.mlen.symm, H.mgood, gen, run_callS env j.n _ _ _ _, rfl,
              Veil.sim_call env j.n _ _ _ _ _ _ va vk, H.basis,
              fun e => by cases e; exact sim_call env j.n _ _ _ _ _ _ ha hk⟩
      · intro i s h1
        rcases snoc_cases h1 with h1 | ⟨_, rfl⟩
        · exact H.rel h1
        · exact H.here
      · intro i s h1
        rcases snoc_cases h1 with h1 | ⟨_, rfl⟩
        · exact H.share h1
        · exact fun _ _ => rfl
      · intro i i' s s' hne h1 h2 a ha ha'
        rcases snoc_cases h1 with h1 | ⟨_, rfl⟩
        · rcases snoc_cases h2 with h2 | ⟨_, rfl⟩
          · exact H.apart hne h1 h2 a ha ha'
          · exact ha'
        · exact ha
      · intro i s h1 a ha
        rcases snoc_cases h1 with h1 | ⟨_, rfl⟩
        · exact H.own h1 a ha
        · exact H.mine a ha
    | step hi => exact (hold_step hF' H hi).1
    | interrupt hi =>
      refine ⟨M, gs, by simp [H.len], ?_, H.rel, H.share, H.apart, H.own, H.bound, H.mine, H.mlen, H.basis, H.mgood, H.here, H.since⟩
      intro i s c h1 h2
      rcases set_cases h2 with ⟨rfl, rfl⟩ | ⟨_, h2⟩
      · have h := H.lone h1 hi
        exact ⟨h.marks, h.lbase, h.base, h.late, h.llong, h.lgood, h.lgentle, h.long, h.good, h.gentle, h.run, h.cost, h.veil, h.vrel,
          fun e => by cases e⟩
      · exact H.lone h1 h2
    | mark hr hp ho ha => exact hold_mark H hr hp ho ha
    | @other S' hl hs =>
      have hsame : ∀ a ∈ ρ, S'[a]? = W.store[a]? := fun a ha => hs a (H.here.lt ha) (H.mine a ha)
      refine ⟨M, gs, H.len, H.lone, fun h1 => (H.rel h1).same fun a ha => hs a ((H.rel h1).lt ha) (H.own h1 a ha), H.share, H.apart,
        ?_, ?_, ?_, H.mlen, H.basis, H.mgood, H.here.same hsame, fun h1 h2 => ?_⟩
      · intro i s h1 a ha hf
        rcases hf with hf | hf
        · exact H.own h1 a ha hf
        · have := (H.rel h1).lt ha
          omega
      · intro a ha
        rcases ha with ha | ha
        · have := H.bound a ha
          show a < S'.length
          omega
        · exact ha.2
      · intro a ha hf
        rcases hf with hf | hf
        · exact H.mine a ha hf
        · have := H.here.lt ha
          omega
      · obtain ⟨o', h3, h4⟩ := H.since h1 h2
        exact ⟨o', (hsame _ (List.mem_of_getElem? h1)).trans h3, h4⟩
end

end Verif.Src.Writes.Marking
