import Verif.Source.Marking
import Verif.Props.Together

/-!
# Threads that mark the same tables (C94)

Any number of calls, as for C92.  But here they may set the mark of dictionaries that they share, as converting an element does with the tables
inside its tables.  The shared objects are described as for C92: `S` are these objects when they are alone, and in
the common store `T` they are at the addresses `ρ`.  In `P` some of the dictionaries of `S` have got a value for the mark with which
nothing can be done; each of the calls, made alone in `P`, ends, which it cannot do if it looks at such a value before it
has put the mark in its place.
-/

namespace Verif.Src.Writes.Marking
open Spec

section
variable {env : Env} {P S T : Store} {ρ : List Nat} (hG : GoodS S) (hF : ∀ o ∈ S, Firm o) (hT : SRel ρ S T) (hB : Blurred P S)
  {W : Shop} (h : Went env P ρ T W)
include hG hF hT hB h

/-- **C94** At any moment the shared objects are as they were in the beginning, except that dictionaries may have got the mark: those
that have no usable one in `P`. -/
theorem C94_objects {i a : Nat} {o : Obj} (hi : ρ[i]? = some a) (ha : T[a]? = some o) : ∃ o', W.store[a]? = some o' ∧
    (o' = o ∨ o' = marked o ∧ ((∃ p, P[i]? = some p ∧ Open p) ∨ ∃ d, o = .dict d ∧ Dict.get? d mark = some (.str mark))) := by
  obtain ⟨M, gs, H⟩ := hold hG hF hT hB h
  exact H.since hi ha

theorem lone_of {i : Nat} {c : Started} (hc : W.calls[i]? = some c) : ∃ lo s, Lone env P ρ c lo s ∧ SRel s.at s.store W.store := by
  obtain ⟨M, gs, H⟩ := hold hG hF hT hB h
  have hlt : i < gs.length := by
    rw [H.len]
    exact (List.getElem?_eq_some_iff.1 hc).1
  have hs : gs[i]? = some gs[i] := List.getElem?_eq_getElem hlt
  exact ⟨_, _, H.lone hs hc, H.rel hs⟩

/-- **C94** A call that has returned has returned what it returns when it is made alone in `P`. -/
theorem C94_returns {i m : Nat} {j : Job} {v : Val} (hc : W.calls[i]? = some ⟨j, m, some (.ret v)⟩) :
    ∃ u S1 w S2 σ ρ', call env j.n j.f j.args j.kw P = .ok u S1 ∧ Veil.VRel σ u w ∧ Veil.SRel σ S1 S2 ∧ VRel ρ' w v ∧ SRel ρ' S2 W.store := by
  obtain ⟨⟨lp, S1, σ⟩, ⟨p, S2, ρ'⟩, l, r⟩ := lone_of hG hF hT hB h hc
  have hs := l.sim rfl
  have hv := l.veil
  have hr := l.run
  have hal := l.alive
  cases p with
  | ret w =>
    obtain ⟨_, e, hw⟩ := hs
    cases e
    cases lp with
    | ret u =>
      obtain ⟨_, e, hu⟩ := hv
      cases e
      exact ⟨u, S1, w, S2, σ, ρ', hr.symm, hu, l.vrel, hw, r⟩
    | exc _ => obtain ⟨_, e, _⟩ := hv; cases e
    | stuck => exact absurd rfl hal
    | act g k =>
      rcases hv with hv | ⟨_, _, e, _⟩
      · refine absurd ?_ hal
        show (k S1).run (g S1) = .stuck
        rw [hv S1]
        rfl
      · cases e
  | exc _ => obtain ⟨_, e, _⟩ := hs; cases e
  | stuck => cases hs
  | act _ _ => obtain ⟨_, _, e, _⟩ := hs; cases e

/-- **C94** A call that has raised has raised what it raises when it is made alone in `P`. -/
theorem C94_raises {i m : Nat} {j : Job} {v : Val} (hc : W.calls[i]? = some ⟨j, m, some (.exc v)⟩) :
    ∃ u S1 w S2 σ ρ', call env j.n j.f j.args j.kw P = .exc u S1 ∧ Veil.VRel σ u w ∧ Veil.SRel σ S1 S2 ∧ VRel ρ' w v ∧ SRel ρ' S2 W.store := by
  obtain ⟨⟨lp, S1, σ⟩, ⟨p, S2, ρ'⟩, l, r⟩ := lone_of hG hF hT hB h hc
  have hs := l.sim rfl
  have hv := l.veil
  have hr := l.run
  have hal := l.alive
  cases p with
  | exc w =>
    obtain ⟨_, e, hw⟩ := hs
    cases e
    cases lp with
    | exc u =>
      obtain ⟨_, e, hu⟩ := hv
      cases e
      exact ⟨u, S1, w, S2, σ, ρ', hr.symm, hu, l.vrel, hw, r⟩
    | ret _ => obtain ⟨_, e, _⟩ := hv; cases e
    | stuck => exact absurd rfl hal
    | act g k =>
      rcases hv with hv | ⟨_, _, e, _⟩
      · refine absurd ?_ hal
        show (k S1).run (g S1) = .stuck
        rw [hv S1]
        rfl
      · cases e
  | ret _ => obtain ⟨_, e, _⟩ := hs; cases e
  | stuck => cases hs
  | act _ _ => obtain ⟨_, _, e, _⟩ := hs; cases e

/-- **C94** A call does no more operations than when it is made alone, and no fewer unless it is interrupted: as long as it
has not done them all it can go on. -/
theorem C94_operations {i m : Nat} {j : Job} {p : Option (Steps Val)} (hc : W.calls[i]? = some ⟨j, m, p⟩) :
    m ≤ (callS env j.n j.f j.args j.kw).cost P ∧
      ∀ q, p = some q → ((∃ g k, q = .act g k) ↔ m < (callS env j.n j.f j.args j.kw).cost P) := by
  obtain ⟨⟨lp, S1, σ⟩, ⟨s, S2, ρ'⟩, l, r⟩ := lone_of hG hF hT hB h hc
  have hcost : lp.cost S1 + m = (callS env j.n j.f j.args j.kw).cost P := l.cost
  refine ⟨by omega, ?_⟩
  rintro q rfl
  have hs : Sim VRel s ρ' q := l.sim rfl
  have hv : Veil.Sim Veil.VRel lp σ s := l.veil
  have hal : lp.run S1 ≠ .stuck := l.alive
  cases lp with
  | ret u =>
    obtain ⟨_, rfl, _⟩ := hv
    obtain ⟨_, rfl, _⟩ := hs
    simp only [Steps.cost] at hcost
    exact ⟨(by rintro ⟨_, _, e⟩; cases e), fun h => by omega⟩
  | exc u =>
    obtain ⟨_, rfl, _⟩ := hv
    obtain ⟨_, rfl, _⟩ := hs
    simp only [Steps.cost] at hcost
    exact ⟨(by rintro ⟨_, _, e⟩; cases e), fun h => by omega⟩
  | stuck => exact absurd rfl hal
  | act g k =>
    rcases hv with hv | ⟨_, _, rfl, _⟩
    · refine absurd ?_ hal
      show (k S1).run (g S1) = .stuck
      rw [hv S1]
      rfl
    · obtain ⟨g', k', e, _⟩ := hs
      simp only [Steps.cost] at hcost
      exact ⟨fun _ => by omega, fun _ => ⟨g', k', e⟩⟩

/-- **C94** No call gets stuck. -/
theorem C94_not_stuck {i m : Nat} {j : Job} : W.calls[i]? ≠ some ⟨j, m, some .stuck⟩ := by
  intro hc
  obtain ⟨⟨lp, S1, σ⟩, ⟨s, S2, ρ'⟩, l, r⟩ := lone_of hG hF hT hB h hc
  have hs : Sim VRel s ρ' .stuck := l.sim rfl
  have hv : Veil.Sim Veil.VRel lp σ s := l.veil
  have hal : lp.run S1 ≠ .stuck := l.alive
  cases s with
  | ret _ => obtain ⟨_, e, _⟩ := hs; cases e
  | exc _ => obtain ⟨_, e, _⟩ := hs; cases e
  | act _ _ => obtain ⟨_, _, e, _⟩ := hs; cases e
  | stuck =>
    cases lp with
    | ret _ => obtain ⟨_, e, _⟩ := hv; cases e
    | exc _ => obtain ⟨_, e, _⟩ := hv; cases e
    | stuck => exact absurd rfl hal
    | act g k =>
      rcases hv with hv | ⟨_, _, e, _⟩
      · refine absurd ?_ hal
        show (k S1).run (g S1) = .stuck
        rw [hv S1]
        rfl
      · cases e
end

/-- The exception is the same. -/
theorem _root_.Verif.Src.Raised.unveil {σ : List Nat} {S S' : Store} {v v' : Val} {e : Exc} (hr : Raised S v e) (hv : Veil.VRel σ v v')
    (hS : Veil.SRel σ S S') : Raised S' v' e := by
  cases e with
  | invalidChildren tag n m c =>
    obtain ⟨a, rfl, ha⟩ := hr
    cases hv with
    | same h => cases h
    | obj h =>
      obtain ⟨o', h1, h2⟩ := hS.get ha h
      refine ⟨_, rfl, ?_⟩
      rw [h1]
      cases h2 with
      | inst h3 =>
        cases h3 with
        | cons p1 h4 =>
          cases h4 with
          | cons p2 h5 =>
            cases h5
            cases p1
            cases p2
            rfl
  | _ =>
    cases hr
    cases hv
    rfl

section
variable {env : Env} {P S T : Store} {ρ : List Nat} (hG : GoodS S) (hF : ∀ o ∈ S, Firm o) (hT : SRel ρ S T) (hB : Blurred P S)
  {W : Shop} (h : Went env P ρ T W)
include hG hF hT hB h

/-- What a call that has ended has given, if made alone in `P` it gives what the model says. -/
theorem seen_of {i m : Nat} {j : Job} {x : Except Exc Str} (hx : ∀ r, call env j.n j.f j.args j.kw P = r → r ≠ .stuck → Seen x r) :
    (∀ v, W.calls[i]? = some ⟨j, m, some (.ret v)⟩ → Seen x (.ok v W.store)) ∧
    (∀ v, W.calls[i]? = some ⟨j, m, some (.exc v)⟩ → Seen x (.exc v W.store)) := by
  refine ⟨fun v hc => ?_, fun v hc => ?_⟩
  · obtain ⟨u, S1, w, S2, σ, ρ', h1, h2, h3, h4, h5⟩ := C94_returns hG hF hT hB h hc
    have hs := hx _ h1 (fun e => by cases e)
    cases hs with
    | ok s _ =>
      cases h2
      cases h4
      exact .ok s _
  · obtain ⟨u, S1, w, S2, σ, ρ', h1, h2, h3, h4, h5⟩ := C94_raises hG hF hT hB h hc
    have hs := hx _ h1 (fun e => by cases e)
    cases hs with
    | exc hr => exact .exc ((hr.unveil h2 h3).move h4 h5)

/-- **C94** Among the others, a conversion of a text gives what the model gives for the text. -/
theorem C94_convert {x : Str} {i n m : Nat} :
    (∀ v, W.calls[i]? = some ⟨⟨n, MathMLToLaTeX_convert, [.str x], []⟩, m, some (.ret v)⟩ → Seen (convert env x) (.ok v W.store)) ∧
    (∀ v, W.calls[i]? = some ⟨⟨n, MathMLToLaTeX_convert, [.str x], []⟩, m, some (.exc v)⟩ → Seen (convert env x) (.exc v W.store)) := by
  refine seen_of hG hF hT hB h ?_
  rintro r rfl hn
  obtain ⟨r, h1, h2⟩ := ends env x P
  rcases C80_fuel env x P r h1 n with h3 | h3
  · exact absurd h3 hn
  · dsimp only
    rw [h3]
    exact h2
end

/-- **C94** A call that leaves the objects as they are may be one of the calls; so may a conversion of a text. -/
theorem C94_leaves {env : Env} {P : Store} {j : Job} (h : j.Leaves env P) : Marks env P j := by
  obtain ⟨v, S', h1, h2⟩ := h
  exact ⟨v, S', h1, fun {a p} ha => ⟨p, (h2 a (List.getElem?_eq_some_iff.1 ha).1).trans ha, .inl rfl⟩⟩

/-! ## Trees of elements -/

/-- All dictionaries of `S` are dictionaries of strings, as `h` says, and those in `Q` have no mark yet. -/
structure Bare (S : Store) (h : Heap) (Q : Nat → Prop) : Prop where
  dicts : ∀ a d, S[a]? = some (.dict d) → Described S h a
  bare : ∀ r, Q r → Described S h r ∧ Dict.get? (h.cells r) c!"innerTable" = none

/-- The element may be converted while the dictionaries in `Q` are being marked: the tables inside its tables are in `Q`, unless they have the mark,
and none of its other elements has a dictionary in `Q`. -/
structure Free (h : Heap) (Q : Nat → Prop) (x : Elem) : Prop where
  unshared : Unshared x
  inner : ∀ r, TableIn false x true r → Q r ∨ Dict.set (h.cells r) c!"innerTable" c!"innerTable" = h.cells r
  outer : ∀ r, TableIn false x false r → ¬ Q r
  other : ∀ n v r cs, Within (.mk n v r cs) x → n ≠ c!"mtable" → ¬ Q r

/-- The objects of `S`, with a value of no use for the mark in the dictionaries in `Q`. -/
noncomputable def blur (h : Heap) (Q : Nat → Prop) (S : Store) : Store :=
  open Classical in S.mapIdx fun a o => if Q a then .dict (spoiled (h.cells a)) else o

theorem spoiled_eq {A : Attrs} (h : Dict.get? A innerTable = none) : spoiled A = Dict.set (dictVal A) innerTable junk := by
  have h1 : ((dictVal A).any fun p => p.1 == innerTable) = false := any_of_get (by rw [get_dictVal, h]; rfl)
  unfold spoiled Dict.set
  rw [if_neg (by simp [h1])]

section
variable {S : Store} {h0 : Heap} {Q : Nat → Prop}

theorem blur_in {a : Nat} {o : Obj} (ha : S[a]? = some o) (hQ : Q a) : (blur h0 Q S)[a]? = some (.dict (spoiled (h0.cells a))) := by
  simp [blur, ha, hQ]

theorem blur_out {a : Nat} (hQ : ¬ Q a) : (blur h0 Q S)[a]? = S[a]? := by
  simp [blur, hQ]

/-- **C94** They are the same objects but for the marks. -/
theorem C94_blurred (hb : Bare S h0 Q) : Blurred (blur h0 Q S) S where
  len := by simp [blur]
  get := fun {a p o} h1 h2 => by
    by_cases hQ : Q a
    · obtain ⟨h3, h4⟩ := hb.bare a hQ
      rw [blur_in h2 hQ] at h1
      cases h1
      unfold Described at h3
      rw [h2] at h3
      cases h3
      refine .inr ⟨dictVal (h0.cells a), ?_, rfl, ?_⟩
      · show Dict.get? (dictVal (h0.cells a)) innerTable = none
        rw [get_dictVal, show innerTable = c!"innerTable" from rfl, h4]
        rfl
      · rw [spoiled_eq h4]
        rfl
    · rw [blur_out hQ, h2] at h1
      cases h1
      exact .inl rfl

/-- The dictionaries of the model, of which those in `Q` have no usable mark. -/
def dom (S : Store) (h0 : Heap) (Q : Nat → Prop) : Dom := ⟨fun r => Described S h0 r ∧ ¬ Q r, Described S h0, fun _ h => h.1⟩

theorem dom_dicts (hb : Bare S h0 Q) : Dicts id (dom S h0 Q) h0 (blur h0 Q S) where
  get := fun r hr => (blur_out hr.2).trans hr.1
  inj := fun _ _ _ _ e => e
  cell := fun r hr => by
    by_cases hQ : Q r
    · exact .inr ⟨(hb.bare r hQ).2, blur_in hr hQ⟩
    · exact .inl ((blur_out hQ).trans hr)

theorem blur_ext (hb : Bare S h0 Q) : Ext S (blur h0 Q S) := by
  refine ⟨by simp [blur], fun {a o} ha hd => ?_⟩
  by_cases hQ : Q a
  · have h1 := (hb.bare a hQ).1
    unfold Described at h1
    rw [ha] at h1
    cases h1
    cases hd
  · exact (blur_out hQ).trans ha

mutual
theorem below_of (e : Elem) (h1 : Every (Described S h0) e) (h2 : ∀ n v r cs, Within (.mk n v r cs) e → n ≠ c!"mtable" → ¬ Q r) :
    Below (dom S h0 Q) e := by
  obtain ⟨n, v, r, cs⟩ := e
  unfold Every at h1
  unfold Below
  exact ⟨h1.1, fun hn => ⟨h1.1, h2 _ _ _ _ .self hn⟩,
    belows_of cs h1.2 fun c hc n v r cs' hw => h2 n v r cs' (.child hc hw)⟩
theorem belows_of (es : List Elem) (h1 : EveryL (Described S h0) es)
    (h2 : ∀ c ∈ es, ∀ n v r cs, Within (.mk n v r cs) c → n ≠ c!"mtable" → ¬ Q r) : BelowL (dom S h0 Q) es := by
  match es with
  | [] => unfold BelowL; trivial
  | e :: es =>
    unfold EveryL at h1
    unfold BelowL
    exact ⟨below_of e h1.1 (h2 e List.mem_cons_self), belows_of es h1.2 fun c hc => h2 c (List.mem_cons_of_mem _ hc)⟩
end

mutual
theorem ripe_of (e : Elem) (h1 : Every (Described S h0) e) (h2 : ∀ n v r cs, Within (.mk n v r cs) e → n ≠ c!"mtable" → ¬ Q r)
    (h3 : ∀ r, TableIn false e false r → ¬ Q r) : Ripe (dom S h0 Q) e := by
  obtain ⟨n, v, r, cs⟩ := e
  unfold Every at h1
  unfold Ripe
  refine ⟨⟨h1.1, ?_⟩, fun hn => ?_, belows_of cs h1.2 fun c hc n v r cs' hw => h2 n v r cs' (.child hc hw)⟩
  · by_cases hn : n = c!"mtable"
    · subst hn
      exact h3 r .here
    · exact h2 _ _ _ _ .self hn
  · exact ripes_of cs h1.2 (fun c hc n v r cs' hw => h2 n v r cs' (.child hc hw)) fun c hc r hr => h3 r (.inOther hn hc hr)
theorem ripes_of (es : List Elem) (h1 : EveryL (Described S h0) es)
    (h2 : ∀ c ∈ es, ∀ n v r cs, Within (.mk n v r cs) c → n ≠ c!"mtable" → ¬ Q r)
    (h3 : ∀ c ∈ es, ∀ r, TableIn false c false r → ¬ Q r) : RipeL (dom S h0 Q) es := by
  match es with
  | [] => unfold RipeL; trivial
  | e :: es =>
    unfold EveryL at h1
    unfold RipeL
    exact ⟨ripe_of e h1.1 (h2 e List.mem_cons_self) (h3 e List.mem_cons_self),
      ripes_of es h1.2 (fun c hc => h2 c (List.mem_cons_of_mem _ hc)) fun c hc => h3 c (List.mem_cons_of_mem _ hc)⟩
end

/-- Converting an element, where marks may be missing. -/
theorem run_fresh {env : Env} {N : Dom} {S : Store} {H : Heap} {x : Elem} {ad a : Nat}
    (h1 : S[ad]? = some (.inst .MathMLElementToLatexConverterAdapter [])) (hi : IsElem id N.all S x a) (hd : Dicts id N H S) (hN : Ripe N x) :
    ∃ r, Gives env useCode [.obj ad, .obj a] S r ∧ Agrees id N S (convertElem x H) r := by
  obtain ⟨name, value, r, cs⟩ := x
  unfold IsElem at hi
  obtain ⟨_, la, as, h2, h3, h4⟩ := hi
  have he := Ext.app S (choiceObjs ad name)
  have hat : At id N H (S ++ choiceObjs ad name) ad a name value r cs la as :=
    ⟨look_old _ h1, look_old _ h2, look_old _ h3, hN.self, h4.mono he, hd.app _⟩
  have kid : ∀ (N : Dom) (x : Elem), x ∈ cs → Ripe N x → ElemOK env N (2 * deeps cs + 12) x := fun N x hx hN =>
    ElemOK.le (elemOK x hN) (by
      have := deep_le_deeps hx
      omega)
  obtain ⟨_, ⟨c, S1, H1, act, cls, f, fs, rfl, m1, m2, m3, m4, m5, m6, m7, Pr, m9, m8⟩, hk⟩ :=
    made (env := env) (B := 2 * deeps cs) hat (by omega) (classify name)
      (fun hK x hx => kid _ x hx (hN.kids (by rintro rfl; exact hK rfl) x hx)) (fun _ x hx => kid _ x hx (hN.inTable x hx))
  have hch := run_choice h1 h2 hk
  obtain ⟨r', h7, k, hk'⟩ := (m8 S1 H1 (.refl _) m9).runs
  have hcv : convertElem (.mk name value r cs) H = act H1 := by
    rw [convertElem, toConv, Stack.M_bind_ok m1]
  refine ⟨r', ⟨2 * deeps cs + 15 + k, fun n hn => ?_⟩, ?_⟩
  · obtain ⟨n, rfl⟩ : ∃ m, n = m + 1 := ⟨n - 1, by omega⟩
    replace hch := hch n (by omega)
    replace hk' := hk' n (by omega)
    rcases h7 with ⟨s, H', h', _, rfl, _⟩ | ⟨e, H', v, h', _, rfl, _⟩
    · dsimp only at hk'
      sym [useCode] [h1, hch, m3, m4, m5, m7, hk']
    · dsimp only at hk'
      sym [useCode] [h1, hch, m3, m4, m5, m7, hk']
  · rw [hcv]
    exact (h7.less (N := N) rfl fun _ h => .inl h).mono (he.trans m2)

theorem again_convert (e : Elem) : Again (convertElem e) (convertElem e) := by
  unfold convertElem
  refine (again_toConv e).bind' (fun H a ha H' => ?_) fun H K a b _ ha hb => again_converter e ha hb
  exact (again_converter e ha ha).marks H'

/-- In the model, no other dictionary is changed. -/
theorem only_inner {x : Elem} (hx : Free h0 Q x) {r : Nat} (hr : ¬ Q r) : (convertElem x h0).2.cells r = h0.cells r := by
  by_cases ht : TableIn false x true r
  · have hh := (hx.inner r ht).resolve_left hr
    rcases ((again_convert x).marks h0).cells r with e | e
    · exact e
    · exact e.trans hh
  · obtain ⟨h', e, hi⟩ := convertElem_sim (S := TableIn false x true) (c0 := h0.cells) x (fun _ => False) false hx.unshared.wfT (by simp) h0
      ⟨fun _ _ => rfl, fun _ _ _ _ => rfl, fun _ h => h.elim⟩
    rw [e]
    exact hi.frame r ht

theorem run_free {env : Env} (hb : Bare S h0 Q) {x : Elem} (hx : Free h0 Q x) {ad b : Nat} (hs : Stands S h0 x b)
    (had : S[ad]? = some (.inst .MathMLElementToLatexConverterAdapter [])) :
    ∃ r, Gives env useCode [.obj ad, .obj b] (blur h0 Q S) r ∧ Agrees id (dom S h0 Q) (blur h0 Q S) (convertElem x h0) r :=
  run_fresh (N := dom S h0 Q) ((blur_ext hb).get had rfl) (hs.isElem.mono (blur_ext hb)) (dom_dicts hb)
    (ripe_of x hs.isElem.every hx.other hx.outer)

/-- A call that ends with no other dictionaries changed may be one of the calls. -/
theorem marks_end {env : Env} (hG : GoodS S) (hb : Bare S h0 Q) {f : Func} {args : List Val} (hf : okFunc f = true)
    (hg : ∀ v ∈ args, Good v) {r : Res Val} (hr : Gives env f args (blur h0 Q S) r) {H : Heap} (hH : ∀ r, ¬ Q r → H.cells r = h0.cells r)
    (ha : ∃ v S', (r = .ok v S' ∨ r = .exc v S') ∧ Ext (blur h0 Q S) S' ∧ Dicts id (dom S h0 Q) H S') :
    ∃ k, ∀ n, k ≤ n → Marks env (blur h0 Q S) ⟨n, f, args, []⟩ ∧ Job.Fair ⟨n, f, args, []⟩ := by
  obtain ⟨k, hk⟩ := hr
  have hl : ∀ u ∈ ([] : List (Ident × Val)), Good u.2 := fun _ h => by cases h
  refine ⟨k, fun n hn => ⟨?_, hf, hg, hl⟩⟩
  have gen := gentle_call env (blur h0 Q S).length n f args [] (ready_func hf hg hl)
  have hend := gentle_end gen (Nat.le_refl _) ((C94_blurred hb).good hG)
  rw [run_callS, hk n hn] at hend
  have key : ∀ S', Turned (blur h0 Q S).length (blur h0 Q S) S' → Ext (blur h0 Q S) S' → Dicts id (dom S h0 Q) H S' →
      ∀ {a : Nat} {p : Obj}, (blur h0 Q S)[a]? = some p → ∃ o, S'[a]? = some o ∧ Late p o := by
    intro S' t he hd a p hp
    obtain ⟨o, h1, h2⟩ := t.alt (List.getElem?_eq_some_iff.1 hp).1 hp
    refine ⟨o, h1, ?_⟩
    cases h2 with
    | list vs => exact .inl rfl
    | dict d => exact .inl rfl
    | marked d =>
      by_cases hQ : Q a
      · obtain ⟨h3, h4⟩ := hb.bare a hQ
        rw [blur_in h3 hQ] at hp
        cases hp
        refine .inr ⟨⟨_, rfl, ?_⟩, rfl⟩
        rw [spoiled_eq h4]
        show Dict.get? (Dict.set _ innerTable junk) innerTable = _
        rw [Dict.get?_set, if_pos rfl]
      · rw [blur_out hQ] at hp
        have h3 := hb.dicts a d hp
        have h4 := hd.get a ⟨h3, hQ⟩
        rw [hH a hQ] at h4
        unfold Described at h3
        rw [hp] at h3
        cases h3
        rw [show id a = a from rfl, h1] at h4
        exact .inl (Option.some.inj h4)
    | inst c g1 g2 =>
      have := he.get hp rfl
      rw [h1] at this
      exact .inl (Option.some.inj this)
  unfold Marks
  dsimp only
  rw [hk n hn]
  obtain ⟨v, S', rfl | rfl, g3, g4⟩ := ha
  · exact ⟨_, _, .inl rfl, key S' (hend.1 _ _ rfl) g3 g4⟩
  · exact ⟨_, _, .inr rfl, key S' (hend.2 _ _ rfl) g3 g4⟩

/-- A call that does what converting such an element does may be one of the calls. -/
theorem marks_of {env : Env} (hG : GoodS S) (hb : Bare S h0 Q) {x : Elem} (hx : Free h0 Q x) {f : Func} {args : List Val} (hf : okFunc f = true)
    (hg : ∀ v ∈ args, Good v) {r : Res Val} (hr : Gives env f args (blur h0 Q S) r)
    (ha : Agrees id (dom S h0 Q) (blur h0 Q S) (convertElem x h0) r) :
    ∃ k, ∀ n, k ≤ n → Marks env (blur h0 Q S) ⟨n, f, args, []⟩ ∧ Job.Fair ⟨n, f, args, []⟩ := by
  refine marks_end hG hb hf hg hr (fun _ => only_inner hx) ?_
  rcases ha with ⟨s, H', h', g1, rfl, g3, g4⟩ | ⟨e, H', v, h', g1, rfl, g3⟩
  · exact ⟨_, _, .inl rfl, g3, by rw [g1]; exact g4⟩
  · exact ⟨_, _, .inr rfl, g3.ext, by rw [g1]; exact g3.dicts⟩

/-- Such a call gets what the model says. -/
theorem sees_of {env : Env} {T : Store} {ρ : List Nat} (hG : GoodS S) (hF : ∀ o ∈ S, Firm o) (hT : SRel ρ S T) (hb : Bare S h0 Q)
    {W : Shop} (h : Went env (blur h0 Q S) ρ T W) {x : Elem} {f : Func} {args : List Val} {r : Res Val} (h1 : Gives env f args (blur h0 Q S) r)
    (h2 : Agrees id (dom S h0 Q) (blur h0 Q S) (convertElem x h0) r) {i n m : Nat} :
    (∀ v, W.calls[i]? = some ⟨⟨n, f, args, []⟩, m, some (.ret v)⟩ → Seen (convertElem x h0).1 (.ok v W.store)) ∧
    (∀ v, W.calls[i]? = some ⟨⟨n, f, args, []⟩, m, some (.exc v)⟩ → Seen (convertElem x h0).1 (.exc v W.store)) := by
  refine seen_of hG hF hT (C94_blurred hb) h ?_
  have hseen : Seen (convertElem x h0).1 r := by
    rcases h2 with ⟨s, H', h', g1, rfl, _⟩ | ⟨e, H', v, h', g1, rfl, g3⟩
    · rw [g1]; exact .ok s _
    · rw [g1]; exact .exc g3.raised
  exact fuel_of h1 hseen n

/-- **C94** Converting such an element, with any adapter, may be one of the calls. -/
theorem C94_use {env : Env} (hG : GoodS S) (hb : Bare S h0 Q) {x : Elem} (hx : Free h0 Q x) {ad b : Nat} (hs : Stands S h0 x b)
    (had : S[ad]? = some (.inst .MathMLElementToLatexConverterAdapter [])) :
    ∃ k, ∀ n, k ≤ n → Marks env (blur h0 Q S) ⟨n, useCode, [.obj ad, .obj b], []⟩ ∧ Job.Fair ⟨n, useCode, [.obj ad, .obj b], []⟩ := by
  obtain ⟨r, hr, ha⟩ := run_free (env := env) hb hx hs had
  refine marks_of hG hb hx (by decide +kernel) (fun v hv => ?_) hr ha
  simp only [List.mem_cons, List.not_mem_nil, or_false] at hv
  rcases hv with rfl | rfl <;> trivial

/-- **C94** Whatever the others do, and whichever marks they have set, a thread that converts such an element gets the LaTeX that the element has on its own, or the
exception. -/
theorem C94_element {env : Env} {T : Store} {ρ : List Nat} (hG : GoodS S) (hF : ∀ o ∈ S, Firm o) (hT : SRel ρ S T) (hb : Bare S h0 Q)
    {W : Shop} (h : Went env (blur h0 Q S) ρ T W) {x : Elem} (hx : Free h0 Q x) {ad b : Nat} (hs : Stands S h0 x b)
    (had : S[ad]? = some (.inst .MathMLElementToLatexConverterAdapter [])) {i n m : Nat} :
    (∀ v, W.calls[i]? = some ⟨⟨n, useCode, [.obj ad, .obj b], []⟩, m, some (.ret v)⟩ → Seen (convertElem x h0).1 (.ok v W.store)) ∧
    (∀ v, W.calls[i]? = some ⟨⟨n, useCode, [.obj ad, .obj b], []⟩, m, some (.exc v)⟩ → Seen (convertElem x h0).1 (.exc v W.store)) := by
  obtain ⟨r, h1, h2⟩ := run_free (env := env) hb hx hs had
  exact sees_of hG hF hT hb h h1 h2

/-- **C94** Meanwhile nothing happens to the objects but this: the tables in `Q` get the mark.  (A mark may also be set where it is already.) -/
theorem C94_only_marks {env : Env} {T : Store} {ρ : List Nat} (hG : GoodS S) (hF : ∀ o ∈ S, Firm o) (hT : SRel ρ S T) (hb : Bare S h0 Q)
    {W : Shop} (h : Went env (blur h0 Q S) ρ T W) {i a : Nat} {o : Obj} (hi : ρ[i]? = some a) (ha : T[a]? = some o) :
    ∃ o', W.store[a]? = some o' ∧ (o' = o ∨ ∃ d, o = .dict d ∧ o' = .dict (Dict.set d c!"innerTable" (.str c!"innerTable")) ∧
      (Q i ∨ Dict.get? d c!"innerTable" = some (.str c!"innerTable"))) := by
  obtain ⟨o', h1, h2⟩ := C94_objects hG hF hT (C94_blurred hb) h hi ha
  refine ⟨o', h1, h2.imp id ?_⟩
  rintro ⟨rfl, ⟨p, h3, d, rfl, h4⟩ | ⟨d, rfl, h3⟩⟩
  · have hlt : i < S.length := by
      rw [← hT.len]
      exact (List.getElem?_eq_some_iff.1 hi).1
    obtain ⟨o2, g1, g2⟩ := hT.get (List.getElem?_eq_getElem hlt) hi
    rw [ha] at g1
    cases g1
    have hs : S[i]? = some S[i] := List.getElem?_eq_getElem hlt
    by_cases hQ : Q i
    · have g3 := (hb.bare i hQ).1
      unfold Described at g3
      rw [hs] at g3
      rw [Option.some.inj g3] at g2
      cases g2 with
      | dict _ => exact ⟨_, rfl, rfl, .inl hQ⟩
    · rw [blur_out hQ] at h3
      have g3 := hb.dicts i d h3
      unfold Described at g3
      rw [h3] at g3
      cases g3
      rw [show Dict.get? (List.map _ (h0.cells i)) mark = Dict.get? (dictVal (h0.cells i)) mark from rfl, get_dictVal] at h4
      cases hg : Dict.get? (h0.cells i) mark with
      | none => rw [hg] at h4; cases h4
      | some _ => rw [hg] at h4; cases h4
  · exact ⟨d, rfl, rfl, .inr h3⟩

/-- **C94** If the element is that of a document, then the LaTeX is that of the document. -/
theorem C94_document {env : Env} {T : Store} {ρ : List Nat} (hG : GoodS S) (hF : ∀ o ∈ S, Firm o) (hT : SRel ρ S T) (hb : Bare S h0 Q)
    {W : Shop} (h : Went env (blur h0 Q S) ρ T W) {x : Elem} (hx : Free h0 Q x) {ad b : Nat} (hs : Stands S h0 x b)
    (had : S[ad]? = some (.inst .MathMLElementToLatexConverterAdapter [])) {d : Node} {e' : Elem} {h0' h1 : Heap}
    (hd : buildElem d h0' = (some e', h1)) (hsame : SameTree h0 h1 x e') {i n m : Nat} :
    (∀ v, W.calls[i]? = some ⟨⟨n, useCode, [.obj ad, .obj b], []⟩, m, some (.ret v)⟩ → Seen (latexOf d) (.ok v W.store)) ∧
    (∀ v, W.calls[i]? = some ⟨⟨n, useCode, [.obj ad, .obj b], []⟩, m, some (.exc v)⟩ → Seen (latexOf d) (.exc v W.store)) := by
  rw [← C76_document d x e' h0 h0' h1 h0 [] hd hx.unshared hsame .start]
  exact C94_element hG hF hT hb h hx hs had
end

/-- The objects are adapters, elements, their lists of children and their dictionaries. -/
def Plain (S : Store) : Prop :=
  ∀ o ∈ S, o = .inst .MathMLElementToLatexConverterAdapter [] ∨
    (∃ n v la d, o = .inst .GenericMathMLElement [(._name, .str n), (._value, .str v), (._children, .obj la), (._attributes, .obj d)]) ∨
    (∃ as : List Nat, o = .list (as.map .obj)) ∨ ∃ A : Attrs, o = .dict (A.map fun p => (p.1, .str p.2))

/-- **C94** Such objects meet the conditions on the shared objects. -/
theorem C94_plain {S : Store} (h : Plain S) : GoodS S ∧ ∀ o ∈ S, Firm o := by
  have key : ∀ o ∈ S, GoodO o ∧ Firm o := by
    intro o ho
    rcases h o ho with rfl | ⟨n, v, la, d, rfl⟩ | ⟨as, rfl⟩ | ⟨A, rfl⟩
    · simp [GoodO, Firm, loose, look]
    · simp [GoodO, Good, Firm, loose, look]
    · refine ⟨fun v hv => ?_, trivial⟩
      obtain ⟨a, _, rfl⟩ := List.mem_map.1 hv
      trivial
    · refine ⟨fun p hp => ?_, trivial⟩
      obtain ⟨q, _, rfl⟩ := List.mem_map.1 hp
      trivial
  exact ⟨fun o ho => (key o ho).1, fun o ho => (key o ho).2⟩

/-! ## Examples -/

/-- The inner table of the table has no mark, and the dictionary of the outer one is another. -/
theorem shelf_bare : Bare shelf Heap.empty (· = 1) where
  dicts := by
    intro a d h
    match a, h with
    | 1, _ | 4, _ => exact rfl
    | 0, h | 2, h | 3, h | 5, h | 6, h => cases h
  bare := by
    rintro r rfl
    exact ⟨rfl, rfl⟩

theorem shelf_free : Free Heap.empty (· = 1) shelfElem where
  unshared := shelf_unshared
  inner := fun r h => by
    rcases shelf_tables h with ⟨h, _⟩ | ⟨_, h⟩
    · cases h
    · exact .inl h
  outer := fun r h => by
    rcases shelf_tables h with ⟨_, h⟩ | ⟨h, _⟩
    · omega
    · cases h
  other := fun n v r cs h hn => by
    cases h with
    | self => exact absurd rfl hn
    | child hc h =>
      have hc := List.mem_singleton.1 hc
      subst hc
      cases h with
      | self => exact absurd rfl hn
      | child hc _ => cases hc

theorem shelf_own : GoodS shelf ∧ (∀ o ∈ shelf, Firm o) ∧ ∀ (a : Nat) (o : Obj), shelf[a]? = some o → OwnO (· < shelf.length) o := by
  have h : ∀ o ∈ shelf, GoodO o ∧ Firm o ∧ OwnO (· < 7) o := by
    intro o ho
    simp only [shelf, List.mem_cons, List.not_mem_nil, or_false] at ho
    rcases ho with rfl | rfl | rfl | rfl | rfl | rfl | rfl <;> simp [GoodO, Good, Firm, loose, look, OwnO, OwnV]
  exact ⟨fun o ho => (h o ho).1, fun o ho => (h o ho).2.1, fun a o ho => (h o (List.mem_of_getElem? ho)).2.2⟩

/-- The condition on the shared objects is met. -/
example : Plain shelf := by
  intro o ho
  simp only [shelf, List.mem_cons, List.not_mem_nil, or_false] at ho
  rcases ho with rfl | rfl | rfl | rfl | rfl | rfl | rfl
  · exact .inl rfl
  · exact .inr (.inr (.inr ⟨[], rfl⟩))
  · exact .inr (.inr (.inl ⟨[], rfl⟩))
  · exact .inr (.inl ⟨_, _, _, _, rfl⟩)
  · exact .inr (.inr (.inr ⟨[], rfl⟩))
  · exact .inr (.inr (.inl ⟨[3], rfl⟩))
  · exact .inr (.inl ⟨_, _, _, _, rfl⟩)

/-- Let a call do all its operations. -/
theorem Went.run {env : Env} {P T : Store} {ρ : List Nat} {i : Nat} {j : Job} {others : Nat → Prop} :
    ∀ {p : Steps Val} {cs : List Started} {m : Nat} {U : Store}, Went env P ρ T ⟨U, others, cs⟩ → cs[i]? = some ⟨j, m, some p⟩ →
    ∃ m' R q, Went env P ρ T ⟨R, others, cs.set i ⟨j, m', some q⟩⟩ ∧ ((∃ v, q = .ret v) ∨ (∃ v, q = .exc v) ∨ q = .stuck)
  | .act g k, cs, m, U, h, hi => by
    have h' := h.snoc (.step (i := i) hi)
    have hlt := (List.getElem?_eq_some_iff.1 hi).1
    obtain ⟨m', R, q, h2, h3⟩ := Went.run (i := i) h' (List.getElem?_set_self hlt)
    refine ⟨m', R, q, ?_, h3⟩
    rwa [List.set_set] at h2
  | .ret v, cs, m, U, h, hi => by
    refine ⟨m, U, .ret v, ?_, .inl ⟨v, rfl⟩⟩
    obtain ⟨hlt, hi⟩ := List.getElem?_eq_some_iff.1 hi
    rw [← hi, List.set_getElem_self]
    exact h
  | .exc v, cs, m, U, h, hi => by
    refine ⟨m, U, .exc v, ?_, .inr (.inl ⟨v, rfl⟩)⟩
    obtain ⟨hlt, hi⟩ := List.getElem?_eq_some_iff.1 hi
    rw [← hi, List.set_getElem_self]
    exact h
  | .stuck, cs, m, U, h, hi => by
    refine ⟨m, U, .stuck, ?_, .inr (.inr rfl)⟩
    obtain ⟨hlt, hi⟩ := List.getElem?_eq_some_iff.1 hi
    rw [← hi, List.set_getElem_self]
    exact h

/-- Two threads convert the table in a table, which no one has converted before.  The second begins when the first has begun; then both do all their operations, and both get the
same LaTeX. -/
example (env : Env) : ∃ W n m m' v, Went env (blur Heap.empty (· = 1) shelf) (List.range 7) shelf W ∧
    W.calls = [⟨⟨n, useCode, [.obj 0, .obj 6], []⟩, m, some (.ret v)⟩, ⟨⟨n, useCode, [.obj 0, .obj 6], []⟩, m', some (.ret v)⟩] ∧
    v = .str c!"\\begin{matrix}\\end{matrix}" := by
  obtain ⟨hG, hF, hO⟩ := shelf_own
  have hT : SRel (List.range 7) shelf shelf := srel_all hO
  have hx : (convertElem shelfElem Heap.empty).1 = .ok c!"\\begin{matrix}\\end{matrix}" := by decide +kernel
  have ha : VRels (List.range 7) [.obj 0, .obj 6] [.obj 0, .obj 6] := .cons (.obj rfl) (.cons (.obj rfl) .nil)
  obtain ⟨n, hn⟩ := C94_use (env := env) hG shelf_bare shelf_free (ad := 0) shelf_stands rfl
  obtain ⟨hl, hf⟩ := hn n (Nat.le_refl n)
  have w1 := (Went.nil (env := env) (P := blur Heap.empty (· = 1) shelf) (ρ := List.range 7) (T := shelf)).snoc (.start hf hl ha .nil)
  have w2 := w1.snoc (.start hf hl ha .nil)
  obtain ⟨m, R, q, w3, hq⟩ := w2.run (i := 0) rfl
  obtain ⟨m', R', q', w4, hq'⟩ := w3.run (i := 1) rfl
  have hB := C94_blurred shelf_bare
  have key : ∀ {W : Shop}, Went env (blur Heap.empty (· = 1) shelf) (List.range 7) shelf W → ∀ {i m : Nat} {q : Steps Val},
      W.calls[i]? = some ⟨⟨n, useCode, [.obj 0, .obj 6], []⟩, m, some q⟩ → ((∃ v, q = .ret v) ∨ (∃ v, q = .exc v) ∨ q = .stuck) →
      q = .ret (.str c!"\\begin{matrix}\\end{matrix}") := by
    intro W w i m q hc hq
    have hs := C94_element hG hF hT shelf_bare w shelf_free (ad := 0) shelf_stands rfl (i := i) (n := n) (m := m)
    rw [hx] at hs
    rcases hq with ⟨v, rfl⟩ | ⟨v, rfl⟩ | rfl
    · have := hs.1 v hc
      cases this
      rfl
    · have := hs.2 v hc
      cases this
    · exact absurd hc (C94_not_stuck hG hF hT hB w)
  refine ⟨_, n, m, m', _, w4, ?_, rfl⟩
  rw [← key w4 (i := 0) rfl hq]
  have e := key w4 (i := 1) rfl hq'
  rw [← key w4 (i := 0) rfl hq] at e
  rw [e]
  rfl

/-- **C94** A table inside a table must not be converted on its own meanwhile: what that gives depends on whether the outer table has been converted before. -/
theorem C94_inner_table_depends (env : Env) : ∃ S' S1 S2, Stands shelf Heap.empty (.mk c!"mtable" [] 1 []) 3 ∧ Within (.mk c!"mtable" [] 1 []) shelfElem ∧
    Gives env useCode [.obj 0, .obj 3] shelf (.ok (.str []) S1) ∧
    Gives env useCode [.obj 0, .obj 6] shelf (.ok (.str c!"\\begin{matrix}\\end{matrix}") S') ∧
    Gives env useCode [.obj 0, .obj 3] S' (.ok (.str c!"\\begin{matrix}\\end{matrix}") S2) := by
  have hs : Stands shelf Heap.empty (.mk c!"mtable" [] 1 []) 3 := .mk (as := []) rfl rfl rfl .nil
  have hd := described shelf Heap.empty
  have use : ∀ {S : Store} {H : Heap} {x : Elem} {a : Nat} {s : Str}, Ext shelf S → IsElem id (Described shelf Heap.empty) S x a →
      Dicts id (Described shelf Heap.empty) H S → (convertElem x H).1 = .ok s →
      ∃ S', Gives env useCode [.obj 0, .obj a] S (.ok (.str s) S') ∧ Ext S S' ∧ Dicts id (Described shelf Heap.empty) (convertElem x H).2 S' := by
    intro S H x a s he hi hd hx
    obtain ⟨r, h1, h2⟩ := run_fresh (env := env) (N := Dom.whole (Described shelf Heap.empty)) (ad := 0) (he.get (h := shelf) rfl rfl) hi hd hi.ripe
    rcases h2 with ⟨s', H', h', g1, rfl, g3, g4⟩ | ⟨e, H', v, h', g1, rfl, g3⟩
    · rw [g1] at hx ⊢
      cases hx
      exact ⟨h', h1, g3, g4⟩
    · rw [g1] at hx
      cases hx
  obtain ⟨S1, u1, _, _⟩ := use (.refl _) hs.isElem hd (s := []) (by decide +kernel)
  obtain ⟨S', u2, e2, d2⟩ := use (.refl _) shelf_stands.isElem hd (s := c!"\\begin{matrix}\\end{matrix}") (by decide +kernel)
  obtain ⟨S2, u3, _, _⟩ := use e2 (hs.isElem.mono e2) d2 (s := c!"\\begin{matrix}\\end{matrix}") (by decide +kernel)
  exact ⟨S', S1, S2, hs, .child List.mem_cons_self .self, u1, u2, u3⟩

end Verif.Src.Writes.Marking
