import Verif.Source.Marking

/-!
# Calls that share different objects

In `Source/Marking` all calls share the same objects from the beginning.  Here each call shares objects of its own choice, as they are when it starts,
so also objects that other calls have made.  For each call, all other calls are other code in the sense of `Source/Marking`.
-/

namespace Verif.Src.Writes.Marking

/-- A call, the objects `S` that it shares with others, their addresses `ρ`, what it may rely on (`P`: the objects with `junk` for the marks that may be
set meanwhile), the store `T` in which it was started, and which addresses are those of others. -/
structure Seat where
  S : Store
  P : Store
  ρ : List Nat
  T : Store
  others : Nat → Prop
  call : Started

/-- The common store and the calls. -/
structure Party where
  store : Store
  seats : List Seat

/-- The call expects that the dictionary at `a` may get the mark. -/
def Expects (P : Store) (ρ : List Nat) (a : Nat) : Prop := ∃ (i : Nat) (p : Obj), ρ[i]? = some a ∧ P[i]? = some p ∧ Open p

def Flagged (U : Store) (a : Nat) : Prop := ∃ d, U[a]? = some (.dict d) ∧ Dict.get? d mark = some (.str mark)

/-- Which objects a call may share while the call `s` is there: those that `s` shares, and those of others, not those that only `s` has.  Two calls that share a
dictionary agree on whether it may get the mark, unless it has the mark. -/
structure Near (U P : Store) (ρ : List Nat) (s : Seat) : Prop where
  known : ∀ a ∈ ρ, a ∈ s.ρ ∨ s.others a
  mine : ∀ a ∈ s.ρ, Expects P ρ a → Expects s.P s.ρ a ∨ Flagged U a
  theirs : ∀ a ∈ ρ, Expects s.P s.ρ a → Expects P ρ a ∨ Flagged U a

/-- For the call, the objects that others have made are those of others. -/
def Seat.see (l l' : Nat) (s : Seat) : Seat := { s with others := fun a => s.others a ∨ l ≤ a ∧ a < l' }

/-- What happens. -/
inductive Does (env : Env) : Party → Party → Prop
  /-- a call is started -/
  | begin {U : Store} {seats : List Seat} {S P : Store} {ρ : List Nat} {j : Job} {args : List Val} {kw : List (Ident × Val)}
      (hG : GoodS S) (hF : ∀ o ∈ S, Firm o) (hT : SRel ρ S U) (hB : Blurred P S) (hf : j.Fair) (hl : Marks env P j)
      (ha : VRels ρ j.args args) (hk : PRel ρ j.kw kw) (hn : ∀ s ∈ seats, Near U P ρ s) :
      Does env ⟨U, seats⟩ ⟨U, seats ++ [⟨S, P, ρ, U, fun a => a < U.length ∧ a ∉ ρ, ⟨j, 0, some (callS env j.n j.f args kw)⟩⟩]⟩
  /-- a call does its next operation -/
  | step {U : Store} {left right : List Seat} {s : Seat} {j : Job} {m : Nat} {g : Store → Store} {k : Store → Steps Val}
      (h : s.call = ⟨j, m, some (.act g k)⟩) :
      Does env ⟨U, left ++ s :: right⟩ ⟨g U, left.map (Seat.see U.length (g U).length) ++
        { s with call := ⟨j, m + 1, some (k U)⟩ } :: right.map (Seat.see U.length (g U).length)⟩
  /-- a call that has ended leaves, or one that is interrupted; its objects are then those of others -/
  | leave {U : Store} {left right : List Seat} {s : Seat} : Does env ⟨U, left ++ s :: right⟩ ⟨U, left ++ right⟩
  /-- other code makes objects and changes its objects -/
  | other {U U' : Store} {seats : List Seat} (hl : U.length ≤ U'.length)
      (hs : ∀ s ∈ seats, ∀ a, a < U.length → ¬ s.others a → U'[a]? = U[a]?) :
      Does env ⟨U, seats⟩ ⟨U', seats.map (Seat.see U.length U'.length)⟩

/-- What may have happened since the store was `T` and there were no calls. -/
inductive Did (env : Env) (T : Store) : Party → Prop
  | nil : Did env T ⟨T, []⟩
  | snoc {W W' : Party} : Did env T W → Does env W W' → Did env T W'

/-! ## Each call alone -/

theorem Went.others {env : Env} {P T : Store} {ρ : List Nat} {U U' : Store} {others : Nat → Prop} {cs : List Started}
    (h : Went env P ρ T ⟨U, others, cs⟩) (hl : U.length ≤ U'.length)
    (hs : ∀ a, a < U.length → ¬ others a → U'[a]? = U[a]? ∨ ∃ (i : Nat) (p : Obj) (d : Dict Val), ρ[i]? = some a ∧ P[i]? = some p ∧ U[a]? = some (.dict d) ∧
      U'[a]? = some (.dict (Dict.set d mark (.str mark))) ∧ (Open p ∨ Dict.get? d mark = some (.str mark))) :
    Went env P ρ T ⟨U', fun a => others a ∨ U.length ≤ a ∧ a < U'.length, cs⟩ := by
  have key : ∀ L : List Nat, ∃ V, Went env P ρ T ⟨V, others, cs⟩ ∧ V.length = U.length ∧
      (∀ a, a < U.length → a ∈ L → ¬ others a → V[a]? = U'[a]?) ∧ ∀ a, a ∉ L → V[a]? = U[a]? := by
    intro L
    induction L with
    | nil => exact ⟨U, h, rfl, fun a _ h => (List.not_mem_nil h).elim, fun _ _ => rfl⟩
    | cons b L ih =>
      obtain ⟨V, h1, h2, h3, h4⟩ := ih
      by_cases hb : b ∉ L ∧ b < U.length ∧ ¬ others b
      · obtain ⟨hb, hbl, hbo⟩ := hb
        have e := h4 b hb
        rcases hs b hbl hbo with h5 | ⟨i, p, d, g1, g2, g3, g4, g5⟩
        · refine ⟨V, h1, h2, fun a ha hm ho => ?_, fun a ha => h4 a fun hm => ha (List.mem_cons_of_mem _ hm)⟩
          rcases List.mem_cons.1 hm with rfl | hm
          · rw [e, h5]
          · exact h3 a ha hm ho
        · have hw := h1.snoc (.mark g1 g2 (d := d) (by rw [← g3]; exact e) g5)
          refine ⟨_, hw, by simp [h2], fun a ha hm ho => ?_, fun a ha => ?_⟩
          · by_cases e' : a = b
            · subst e'
              show (V.set a _)[a]? = _
              rw [List.getElem?_set_self (by rw [h2]; exact hbl), g4]
            · show (V.set b _)[a]? = _
              rw [List.getElem?_set_ne (Ne.symm e')]
              exact h3 a ha ((List.mem_cons.1 hm).resolve_left e') ho
          · show (V.set b _)[a]? = _
            rw [List.getElem?_set_ne (fun e' : b = a => ha (by rw [e']; exact List.mem_cons_self))]
            exact h4 a fun hm => ha (List.mem_cons_of_mem _ hm)
      · refine ⟨V, h1, h2, fun a ha hm ho => ?_, fun a ha => h4 a fun hm => ha (List.mem_cons_of_mem _ hm)⟩
        rcases List.mem_cons.1 hm with rfl | hm
        · by_cases hm : a ∈ L
          · exact h3 a ha hm ho
          · exact absurd ⟨hm, ha, ho⟩ hb
        · exact h3 a ha hm ho
  obtain ⟨V, h1, h2, h3, _⟩ := key (List.range U.length)
  have := h1.snoc (.other (S' := U') (by show V.length ≤ _; omega) fun a ha ho =>
    (h3 a (by rw [← h2]; exact ha) (List.mem_range.2 (by rw [← h2]; exact ha)) ho).symm)
  simp only [h2] at this
  exact this

/-- The call has what it needs, and for it the others are other code. -/
structure Well (env : Env) (U : Store) (s : Seat) : Prop where
  good : GoodS s.S
  firm : ∀ o ∈ s.S, Firm o
  rel : SRel s.ρ s.S s.T
  blur : Blurred s.P s.S
  went : Went env s.P s.ρ s.T ⟨U, s.others, [s.call]⟩

/-- What is only for `s` is for `t` an object of others, and a mark that `s` may set is one that `t` expects, or it is set. -/
structure Apart (U : Store) (s t : Seat) : Prop where
  own : ∀ a, a < U.length → a ∉ s.ρ → ¬ s.others a → t.others a
  mark : ∀ a, Expects s.P s.ρ a → t.others a ∨ Expects t.P t.ρ a ∨ Flagged U a

def Both (U : Store) (s t : Seat) : Prop := Apart U s t ∧ Apart U t s

theorem Well.mine {env : Env} {U : Store} {s : Seat} (h : Well env U s) {a : Nat} (ha : a ∈ s.ρ) : ¬ s.others a ∧ a < U.length ∧
    ∃ (i : Nat) (p : Obj), s.ρ[i]? = some a ∧ s.P[i]? = some p := by
  obtain ⟨M, gs, H⟩ := hold h.good h.firm h.rel h.blur h.went
  obtain ⟨i, hi⟩ := List.mem_iff_getElem?.1 ha
  have hlt : i < s.P.length := by
    have := (List.getElem?_eq_some_iff.1 hi).1
    rw [H.here.len, H.mlen] at this
    exact this
  exact ⟨H.mine a ha, H.here.lt ha, i, _, hi, List.getElem?_eq_getElem hlt⟩

theorem Expects.mem {P : Store} {ρ : List Nat} {a : Nat} (h : Expects P ρ a) : a ∈ ρ := by
  obtain ⟨i, _, h, _⟩ := h
  exact List.mem_of_getElem? h

theorem Well.effect {env : Env} {U : Store} {s : Seat} (h : Well env U s) {j : Job} {m : Nat} {g : Store → Store} {k : Store → Steps Val}
    (hc : s.call = ⟨j, m, some (.act g k)⟩) : Effect s.P s.ρ ⟨U, s.others, [s.call]⟩ (g U) := by
  obtain ⟨M, gs, H⟩ := hold h.good h.firm h.rel h.blur h.went
  exact (hold_step (h.blur.firm h.firm) H (i := 0) (by rw [hc]; rfl)).2

/-- How `t` sees an operation of `s`. -/
theorem seen_by {env : Env} {U U' : Store} {s t : Seat} (hs : Well env U s) (ht : Well env U t) (hb : Both U s t)
    (he : Effect s.P s.ρ ⟨U, s.others, [s.call]⟩ U') (a : Nat) (ha : a < U.length) (ho : ¬ t.others a) :
    U'[a]? = U[a]? ∨ ∃ (i : Nat) (p : Obj) (d : Dict Val), t.ρ[i]? = some a ∧ t.P[i]? = some p ∧ U[a]? = some (.dict d) ∧
      U'[a]? = some (.dict (Dict.set d mark (.str mark))) ∧ (Open p ∨ Dict.get? d mark = some (.str mark)) := by
  by_cases h1 : s.others a
  · exact .inl (he.rest a h1)
  by_cases h2 : a ∈ s.ρ
  · have h3 : a ∈ t.ρ := Classical.byContradiction fun h3 => h1 (hb.2.own a ha h3 ho)
    obtain ⟨i, hi⟩ := List.mem_iff_getElem?.1 h2
    obtain ⟨_, _, i', p', g1, g2⟩ := ht.mine h3
    obtain ⟨p, o, o', e1, e2, e3, e4⟩ := he.shared hi
    replace e2 : U[a]? = some o := e2
    rcases e4 with rfl | ⟨rfl, e4⟩
    · exact .inl (e3.trans e2.symm)
    · cases o with
      | dict d =>
        right
        rcases e4 with e4 | ⟨_, e5, e6⟩
        · rcases hb.1.mark a ⟨i, p, hi, e1, e4⟩ with h4 | ⟨i2, p2, f1, f2, f3⟩ | ⟨d', f1, f2⟩
          · exact absurd h4 ho
          · exact ⟨i2, p2, d, f1, f2, e2, e3, .inl f3⟩
          · rw [e2] at f1
            cases f1
            exact ⟨i', p', d, g1, g2, e2, e3, .inr f2⟩
        · cases e5
          exact ⟨i', p', d, g1, g2, e2, e3, .inr e6⟩
      | _ => exact .inl (e3.trans e2.symm)
  · exact absurd (hb.1.own a ha h2 h1) ho

theorem Effect.stays {env : Env} {U U' : Store} {s : Seat} (_hs : Well env U s) (he : Effect s.P s.ρ ⟨U, s.others, [s.call]⟩ U') {a : Nat} (ha : a ∈ s.ρ)
    (h : Flagged U a) : Flagged U' a := by
  obtain ⟨i, hi⟩ := List.mem_iff_getElem?.1 ha
  obtain ⟨p, o, o', e1, e2, e3, e4⟩ := he.shared hi
  obtain ⟨d, h1, h2⟩ := h
  replace e2 : U[a]? = some o := e2
  rw [h1] at e2
  cases e2
  rcases e4 with rfl | ⟨rfl, _⟩
  · exact ⟨d, e3, h2⟩
  · exact ⟨_, e3, by rw [Dict.get?_set, if_pos rfl]⟩

/-- The same, later. -/
theorem Apart.later {U U' : Store} {s t : Seat} (h : Apart U s t) (hm : ∀ a ∈ s.ρ, Flagged U a → Flagged U' a) :
    Apart U' (s.see U.length U'.length) (t.see U.length U'.length) where
  own := fun a ha h1 h2 => by
    by_cases hlt : a < U.length
    · exact .inl (h.own a hlt h1 fun h3 => h2 (.inl h3))
    · exact .inr ⟨by omega, ha⟩
  mark := fun a ha => (h.mark a ha).imp .inl (Or.imp_right (hm a (Expects.mem ha)))

structure Fine (env : Env) (W : Party) : Prop where
  well : ∀ s ∈ W.seats, Well env W.store s
  apart : W.seats.Pairwise (Both W.store)

theorem fine {env : Env} {T : Store} {W : Party} (h : Did env T W) : Fine env W := by
  induction h with
  | nil => exact ⟨fun s h => (List.not_mem_nil h).elim, List.Pairwise.nil⟩
  | @snoc W W' _ hd ih =>
    cases hd with
    | @begin U seats S P ρ j args kw hG hF hT hB hf hl ha hk hn =>
      refine ⟨fun s hs => ?_, ?_⟩
      · rcases List.mem_append.1 hs with hs | hs
        · exact ih.well s hs
        · rw [List.mem_singleton.1 hs]
          exact ⟨hG, hF, hT, hB, Went.nil.snoc (.start hf hl ha hk)⟩
      · refine List.pairwise_append.2 ⟨ih.apart, List.pairwise_singleton _ _, fun s hs t ht => ?_⟩
        rw [List.mem_singleton.1 ht]
        have h1 := hn s hs
        have h2 := ih.well s hs
        refine ⟨⟨fun a ha h3 h4 => ⟨ha, fun h5 => (h1.known a h5).elim h3 h4⟩, fun a ha => ?_⟩,
          ⟨fun a ha h3 h4 => absurd ⟨ha, h3⟩ h4, fun a ha => ?_⟩⟩
        · by_cases h3 : a ∈ ρ
          · exact .inr (h1.theirs a h3 ha)
          · exact .inl ⟨(h2.mine (Expects.mem ha)).2.1, h3⟩
        · rcases h1.known a (Expects.mem ha) with h3 | h3
          · exact .inr (h1.mine a h3 ha)
          · exact .inl h3
    | @step U left right s j m g k hc =>
      have hs : Well env U s := ih.well s (by simp)
      have he := hs.effect hc
      obtain ⟨p1, p2, p3⟩ := List.pairwise_append.1 ih.apart
      obtain ⟨p4, p5⟩ := List.pairwise_cons.1 p2
      have hb : ∀ t, t ∈ left ∨ t ∈ right → Well env U t ∧ Both U s t := by
        rintro t (h | h)
        · exact ⟨ih.well t (by simp [h]), (p3 t h s (by simp)).symm⟩
        · exact ⟨ih.well t (by simp [h]), p4 t h⟩
      have hm : ∀ t, t ∈ left ∨ t ∈ right → ∀ a ∈ t.ρ, Flagged U a → Flagged (g U) a := by
        intro t h a ha hk
        obtain ⟨h1, h2⟩ := hb t h
        obtain ⟨h3, h4, _⟩ := h1.mine ha
        rcases seen_by hs h1 h2 he a h4 h3 with h5 | ⟨_, _, d, _, _, _, h5, _⟩
        · obtain ⟨d, h6, h7⟩ := hk
          exact ⟨d, h5.trans h6, h7⟩
        · exact ⟨_, h5, by rw [Dict.get?_set, if_pos rfl]⟩
      have hw : ∀ t, t ∈ left ∨ t ∈ right → Well env (g U) (t.see U.length (g U).length) := by
        intro t h
        obtain ⟨h1, h2⟩ := hb t h
        exact ⟨h1.good, h1.firm, h1.rel, h1.blur, h1.went.others he.grow (seen_by hs h1 h2 he)⟩
      have hp : ∀ t, t ∈ left ∨ t ∈ right → Both (g U) { s with call := ⟨j, m + 1, some (k U)⟩ } (t.see U.length (g U).length) := by
        intro t h
        obtain ⟨h1, h2, h3⟩ := hb t h
        refine ⟨⟨fun a ha g1 g2 => ?_, fun a ha => ?_⟩, ⟨fun a ha g1 g2 => ?_, fun a ha => ?_⟩⟩
        · by_cases hlt : a < U.length
          · exact .inl (h2.own a hlt g1 g2)
          · exact .inr ⟨by omega, ha⟩
        · exact (h2.mark a ha).imp .inl (Or.imp_right (he.stays hs (Expects.mem ha)))
        · by_cases hlt : a < U.length
          · exact h3.own a hlt g1 fun g3 => g2 (.inl g3)
          · exact absurd (.inr ⟨by omega, ha⟩) g2
        · exact (h3.mark a ha).imp id (Or.imp_right (hm t h a (Expects.mem ha)))
      have hq : ∀ l : List Seat, (∀ t ∈ l, t ∈ left ∨ t ∈ right) → l.Pairwise (Both U) → (l.map (Seat.see U.length (g U).length)).Pairwise (Both (g U)) := by
        intro l hl hb
        exact List.pairwise_map.2 (hb.imp_of_mem fun {x y} h1 h2 hb => ⟨hb.1.later (hm x (hl x h1)), hb.2.later (hm y (hl y h2))⟩)
      refine ⟨fun t ht => ?_, List.pairwise_append.2 ⟨hq left (fun _ h => .inl h) p1, List.pairwise_cons.2 ⟨fun t ht => ?_,
        hq right (fun _ h => .inr h) p5⟩, fun x hx y hy => ?_⟩⟩
      · rcases List.mem_append.1 ht with ht | ht
        · obtain ⟨t, h1, rfl⟩ := List.mem_map.1 ht
          exact hw t (.inl h1)
        · rcases List.mem_cons.1 ht with rfl | ht
          · have := hs.went.snoc (.step (i := 0) (by rw [hc]; rfl))
            exact ⟨hs.good, hs.firm, hs.rel, hs.blur, this⟩
          · obtain ⟨t, h1, rfl⟩ := List.mem_map.1 ht
            exact hw t (.inr h1)
      · obtain ⟨t, h1, rfl⟩ := List.mem_map.1 ht
        exact hp t (.inr h1)
      · obtain ⟨x, h1, rfl⟩ := List.mem_map.1 hx
        rcases List.mem_cons.1 hy with rfl | hy
        · exact (hp x (.inl h1)).symm
        · obtain ⟨y, h2, rfl⟩ := List.mem_map.1 hy
          have hb := p3 x h1 y (List.mem_cons_of_mem _ h2)
          exact ⟨hb.1.later (hm x (.inl h1)), hb.2.later (hm y (.inr h2))⟩
    | @leave U left right s =>
      refine ⟨fun t ht => ih.well t ?_, ?_⟩
      · rcases List.mem_append.1 ht with ht | ht
        · exact List.mem_append_left _ ht
        · exact List.mem_append_right _ (List.mem_cons_of_mem _ ht)
      · exact ih.apart.sublist ((List.sublist_cons_self s right).append_left left)
    | @other U U' seats hl hs =>
      refine ⟨fun t ht => ?_, ?_⟩
      · obtain ⟨t, h1, rfl⟩ := List.mem_map.1 ht
        have h2 := ih.well t h1
        exact ⟨h2.good, h2.firm, h2.rel, h2.blur, h2.went.others hl fun a ha ho => .inl (hs t h1 a ha ho)⟩
      · refine List.pairwise_map.2 (ih.apart.imp_of_mem fun {s t} h1 h2 hb => ?_)
        have hm : ∀ s ∈ seats, ∀ a ∈ s.ρ, Flagged U a → Flagged U' a := fun s h a ha ⟨d, g1, g2⟩ =>
          ⟨d, (hs s h a ((ih.well s h).mine ha).2.1 ((ih.well s h).mine ha).1).trans g1, g2⟩
        exact ⟨hb.1.later (hm s h1), hb.2.later (hm t h2)⟩

end Verif.Src.Writes.Marking
