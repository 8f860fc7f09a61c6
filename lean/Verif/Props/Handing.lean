import Verif.Source.Party
import Verif.Source.Pull
import Verif.Props.Anew

/-!
# Threads that hand over what they have made (C97)

As for C94 and C95, but each call shares objects of its own choice, as they are when it starts: also converters that other threads have made meanwhile.
-/

namespace Verif.Src.Writes.Marking
open Spec

section
variable {env : Env} {T : Store} {W : Party} (h : Did env T W) {s : Seat} (hs : s ∈ W.seats)
include h hs

/-- **C97** For each call, what the others do is what other code does in C94. -/
theorem C97_others : GoodS s.S ∧ (∀ o ∈ s.S, Firm o) ∧ SRel s.ρ s.S s.T ∧ Blurred s.P s.S ∧
    Went env s.P s.ρ s.T ⟨W.store, s.others, [s.call]⟩ := by
  have := (fine h).well s hs
  exact ⟨this.good, this.firm, this.rel, this.blur, this.went⟩

/-- **C97** At every moment the objects that a call shares are as when it started, except that marks may have been set where it expects that. -/
theorem C97_objects {i a : Nat} {o : Obj} (hi : s.ρ[i]? = some a) (ha : s.T[a]? = some o) : ∃ o', W.store[a]? = some o' ∧
    (o' = o ∨ o' = marked o ∧ ((∃ p, s.P[i]? = some p ∧ Open p) ∨ ∃ d, o = .dict d ∧ Dict.get? d mark = some (.str mark))) := by
  obtain ⟨hG, hF, hT, hB, w⟩ := C97_others h hs
  exact C94_objects hG hF hT hB w hi ha

/-- **C97** No call gets stuck. -/
theorem C97_not_stuck {j : Job} {m : Nat} : s.call ≠ ⟨j, m, some .stuck⟩ := by
  obtain ⟨hG, hF, hT, hB, w⟩ := C97_others h hs
  intro e
  exact C94_not_stuck hG hF hT hB w (i := 0) (by rw [e]; rfl)

/-- **C97** A conversion of a text gives what the text gives. -/
theorem C97_convert {x : Str} {n m : Nat} :
    (∀ v, s.call = ⟨⟨n, MathMLToLaTeX_convert, [.str x], []⟩, m, some (.ret v)⟩ → Seen (convert env x) (.ok v W.store)) ∧
    (∀ v, s.call = ⟨⟨n, MathMLToLaTeX_convert, [.str x], []⟩, m, some (.exc v)⟩ → Seen (convert env x) (.exc v W.store)) := by
  obtain ⟨hG, hF, hT, hB, w⟩ := C97_others h hs
  have := C94_convert hG hF hT hB w (x := x) (i := 0) (n := n) (m := m)
  exact ⟨fun v e => this.1 v (by rw [e]; rfl), fun v e => this.2 v (by rw [e]; rfl)⟩

section
variable {h0 : Heap} {Q : Nat → Prop} (hP : s.P = blur h0 Q s.S) (hb : Bare s.S h0 Q) {x : Elem} (hx : Free h0 Q x) {ad b : Nat}
  (hst : Stands s.S h0 x b) (had : s.S[ad]? = some (.inst .MathMLElementToLatexConverterAdapter []))
include hP hb hx hst had

/-- **C97** Whoever converts an element gets the LaTeX that the element has on its own, or the exception. -/
theorem C97_element {n m : Nat} :
    (∀ v, s.call = ⟨⟨n, useCode, [.obj ad, .obj b], []⟩, m, some (.ret v)⟩ → Seen (convertElem x h0).1 (.ok v W.store)) ∧
    (∀ v, s.call = ⟨⟨n, useCode, [.obj ad, .obj b], []⟩, m, some (.exc v)⟩ → Seen (convertElem x h0).1 (.exc v W.store)) := by
  obtain ⟨hG, hF, hT, hB, w⟩ := C97_others h hs
  rw [hP] at w
  have := C94_element hG hF hT hb w hx hst had (i := 0) (n := n) (m := m)
  exact ⟨fun v e => this.1 v (by rw [e]; rfl), fun v e => this.2 v (by rw [e]; rfl)⟩

/-- **C97** Whoever calls `convert` on a converter of the element gets the same. -/
theorem C97_render {c : Nat} (hc : Holds s.S h0 x b ad c) {n m : Nat} :
    (∀ v, s.call = ⟨⟨n, renderCode, [.obj c], []⟩, m, some (.ret v)⟩ → Seen (convertElem x h0).1 (.ok v W.store)) ∧
    (∀ v, s.call = ⟨⟨n, renderCode, [.obj c], []⟩, m, some (.exc v)⟩ → Seen (convertElem x h0).1 (.exc v W.store)) := by
  obtain ⟨hG, hF, hT, hB, w⟩ := C97_others h hs
  rw [hP] at w
  have := C95_element hG hF hT hb w hx hst had hc (i := 0) (n := n) (m := m)
  exact ⟨fun v e => this.1 v (by rw [e]; rfl), fun v e => this.2 v (by rw [e]; rfl)⟩
end
end

/-! ## Making a converter -/

theorem every_within {D : Nat → Prop} {n v : Str} {r : Nat} {cs : List Elem} {e : Elem} (h : Within (.mk n v r cs) e) : Every D e → D r := by
  generalize hy : Elem.mk n v r cs = y at h
  induction h with
  | self =>
    subst hy
    intro h
    unfold Every at h
    exact h.1
  | @child e c e' hc _ ih =>
    intro h
    obtain ⟨n', v', r', cs'⟩ := e
    unfold Every at h
    refine ih hy ?_
    have key : ∀ {l : List Elem}, EveryL D l → ∀ c ∈ l, Every D c := by
      intro l
      induction l with
      | nil => intro _ c hc; cases hc
      | cons a l ih =>
        intro h c hc
        unfold EveryL at h
        rcases List.mem_cons.1 hc with rfl | hc
        · exact h.1
        · exact ih h.2 c hc
    exact key h.2 c hc

theorem tabs_list {l : List Elem} {c : Elem} {s : Nat} (hc : c ∈ l) (h : tabs c s) : tabsL l s := by
  induction l with
  | nil => cases hc
  | cons a l ih =>
    unfold tabsL
    rcases List.mem_cons.1 hc with rfl | hc
    · exact .inl h
    · exact .inr (ih hc)

theorem tabs_within {v : Str} {r : Nat} {cs : List Elem} {e : Elem} (h : Within (.mk c!"mtable" v r cs) e) : tabs e r := by
  generalize hy : Elem.mk c!"mtable" v r cs = y at h
  induction h with
  | self =>
    subst hy
    unfold tabs
    exact .inl ⟨rfl, rfl⟩
  | @child e c e' hc _ ih =>
    obtain ⟨n', v', r', cs'⟩ := e
    unfold tabs
    exact .inr (tabs_list hc (ih hy))

mutual
theorem ownV_mono {P Q : Nat → Prop} (h : ∀ a, P a → Q a) : ∀ v : Val, OwnV P v → OwnV Q v
  | .obj a, hv => by simpa only [OwnV] using h a hv.addr
  | .method v _ _, hv => by
    rw [OwnV] at hv ⊢
    exact ownV_mono h v hv
  | .bmethod v _, hv => by
    rw [OwnV] at hv ⊢
    exact ownV_mono h v hv
  | .seq vs, hv => by
    rw [OwnV] at hv ⊢
    exact ownVs_mono h vs hv
  | .none, _ | .bool _, _ | .int _, _ | .str _, _ | .func _, _ | .cls _, _ | .builtin _, _ | .module _, _ | .static _ _, _ | .enum _ _, _ | .table _, _ |
    .record _, _ | .document _, _ | .node _, _ | .nodeMap _, _ | .nodeAttr _ _, _ | .exc _, _ | .pattern _, _ | .matched, _ => by simp only [OwnV]

theorem ownVs_mono {P Q : Nat → Prop} (h : ∀ a, P a → Q a) : ∀ vs : List Val, OwnVs P vs → OwnVs Q vs
  | [], _ => by simp only [OwnVs]
  | v :: vs, hv => by
    rw [OwnVs] at hv ⊢
    exact ⟨ownV_mono h v hv.1, ownVs_mono h vs hv.2⟩
end

theorem own_mono {P Q : Nat → Prop} (h : ∀ a, P a → Q a) : ∀ o : Obj, OwnO P o → OwnO Q o
  | .list _, ho => fun v hv => ownV_mono h v (ho v hv)
  | .dict _, ho => fun p hp => ownV_mono h p.2 (ho p hp)
  | .inst _ _, ho => fun p hp => ownV_mono h p.2 (ho p hp)

theorem simple_own {ρ : List Nat} {v v' : Val} (h : VRel ρ v v') (hs : SimpleV v') : OwnV (· ∈ ρ) v' := by
  cases v' with
  | obj a =>
    cases h with
    | same h => cases h
    | obj h =>
      simp only [OwnV]
      exact List.mem_of_getElem? h
  | str _ => simp only [OwnV]
  | _ => exact hs.elim

theorem simples_own {ρ : List Nat} : ∀ {l l' : List Val}, VRels ρ l l' → (∀ v ∈ l', SimpleV v) → ∀ v ∈ l', OwnV (· ∈ ρ) v
  | _, _, .nil, _, _, hv => (List.not_mem_nil hv).elim
  | _, _, .cons h1 h2, hs, v, hv => by
    rcases List.mem_cons.1 hv with rfl | hv
    · exact simple_own h1 (hs _ List.mem_cons_self)
    · exact simples_own h2 (fun v hv => hs v (List.mem_cons_of_mem _ hv)) v hv

theorem fields_own {κ : Type} {ρ : List Nat} : ∀ {l l' : List (κ × Val)}, PRel ρ l l' → (∀ p ∈ l', SimpleV p.2) → ∀ p ∈ l', OwnV (· ∈ ρ) p.2
  | _, _, .nil, _, _, hv => (List.not_mem_nil hv).elim
  | _, _, .cons h1 h2, hs, v, hv => by
    rcases List.mem_cons.1 hv with rfl | hv
    · exact simple_own h1 (hs _ List.mem_cons_self)
    · exact fields_own h2 (fun v hv => hs v (List.mem_cons_of_mem _ hv)) v hv

theorem object_own {ρ : List Nat} {o o' : Obj} (h : ORel ρ o o') (hs : SimpleO o') : OwnO (· ∈ ρ) o' := by
  cases h with
  | list h => exact simples_own h hs
  | dict _ => exact hs.elim
  | inst h => exact fields_own h hs

/-- Where a mark may be set. -/
theorem open_blur {S : Store} {h : Heap} {Q : Nat → Prop} (hb : Bare S h Q) {i : Nat} {p : Obj} (hp : (blur h Q S)[i]? = some p) : Open p ↔ Q i := by
  refine ⟨fun ho => ?_, fun hQ => ?_⟩
  · refine Classical.byContradiction fun hQ => ?_
    obtain ⟨d, rfl, h4⟩ := ho
    rw [blur_out hQ] at hp
    have g3 := hb.dicts i d hp
    unfold Described at g3
    rw [hp] at g3
    cases g3
    rw [show Dict.get? (List.map _ (h.cells i)) mark = Dict.get? (dictVal (h.cells i)) mark from rfl, get_dictVal] at h4
    cases hg : Dict.get? (h.cells i) mark with
    | none => rw [hg] at h4; cases h4
    | some _ => rw [hg] at h4; cases h4
  · rw [blur_in (hb.bare i hQ).1 hQ] at hp
    cases hp
    refine ⟨_, rfl, ?_⟩
    rw [spoiled_eq (hb.bare i hQ).2]
    show Dict.get? (Dict.set _ innerTable junk) innerTable = _
    rw [Dict.get?_set, if_pos rfl]

theorem expects_blur {S : Store} {h : Heap} {Q : Nat → Prop} (hb : Bare S h Q) {ρ : List Nat} {a : Nat} :
    Expects (blur h Q S) ρ a ↔ ∃ i : Nat, ρ[i]? = some a ∧ Q i := by
  refine ⟨fun ⟨i, p, h1, h2, h3⟩ => ⟨i, h1, (open_blur hb h2).1 h3⟩, fun ⟨i, h1, h2⟩ => ?_⟩
  have := blur_in (h0 := h) (hb.bare i h2).1 h2
  exact ⟨i, _, h1, this, (open_blur hb this).2 h2⟩

/-- What making a converter gives. -/
theorem make_gives {env : Env} {S : Store} {h0 : Heap} {Q : Nat → Prop} (hb : Bare S h0 Q) {x : Elem} (hx : Free h0 Q x) {ad b : Nat}
    (hs : Stands S h0 x b) (had : S[ad]? = some (.inst .MathMLElementToLatexConverterAdapter [])) :
    ∃ c S1, Gives env createCode [.obj ad, .obj b] (blur h0 Q S) (.ok (.obj c) S1) ∧ Converter S1 (h0.cells x.aref) b ad c (classify x.name) ∧
      (x.name = c!"mtable" → ∀ y ∈ x.children, ∀ v r cs, Within (.mk c!"mtable" v r cs) y → Described S h0 r ∧ Flagged S1 r) := by
  obtain ⟨name, value, r, cs⟩ := x
  have hev := hs.isElem.every
  have hN := ripe_of _ hs.isElem.every hx.other hx.outer
  have hi := hs.isElem.mono (blur_ext hb)
  have hd := dom_dicts hb
  have h1 : (blur h0 Q S)[ad]? = some adapterObj := (blur_ext hb).get had rfl
  unfold IsElem at hi
  obtain ⟨hr, la, as, h2, h3, h4⟩ := hi
  have he := Ext.app (blur h0 Q S) (choiceObjs ad name)
  have hat : At id (dom S h0 Q) h0 (blur h0 Q S ++ choiceObjs ad name) ad b name value r cs la as :=
    ⟨look_old _ h1, look_old _ h2, look_old _ h3, hN.self, h4.mono he, hd.app _⟩
  have gives : ∀ {c : Nat} {S1 : Store} {k : Nat}, (∀ n, k ≤ n → apply ⟨env, call env n, n⟩ (convVal ad (classify name))
      [.obj b] [] (blur h0 Q S ++ choiceObjs ad name) = .ok (.obj c) S1) → Gives env createCode [.obj ad, .obj b] (blur h0 Q S) (.ok (.obj c) S1) := by
    intro c S1 k hk
    have hch := run_choice h1 h2 hk
    refine ⟨k + 4, fun n hn => ?_⟩
    obtain ⟨n, rfl⟩ : ∃ m, n = m + 1 := ⟨n - 1, by omega⟩
    replace hch := hch n (by omega)
    sym [createCode] [h1, hch]
  by_cases hK : classify name = .mtable
  · have hn := classify_table hK
    subst hn
    rw [hK] at gives
    obtain ⟨_, ⟨c, S1, H1, rfl, q1, q2, q3, q4⟩, hk⟩ := created_table (env := env) (B := deeps cs) hat (Nat.le_refl _)
    refine ⟨c, S1, gives hk, q4, fun _ y hy v s cs' hw => ?_⟩
    have hD : Described S h0 s := every_within (.child (e := .mk c!"mtable" value r cs) hy hw) hev
    have g1 := q3.get s (.inr ⟨tabs_list hy (tabs_within hw), hD⟩)
    have g2 : HasMark H1 innerTable s := flags_marks cs q1 s (.inr ⟨y, hy, v, cs', hw⟩)
    refine ⟨hD, _, g1, ?_⟩
    rw [get_dictVal, ← g2, Dict.get?_set, if_pos (show mark = innerTable from rfl)]
    rfl
  · obtain ⟨_, ⟨c, S1, rfl, q1, q2⟩, hk⟩ := created (env := env) hat hK
    exact ⟨c, S1, gives hk, q2, fun hn => absurd (by subst hn; rfl) hK⟩

/-- A call may share what `s` shares, as far as `t` is concerned. -/
theorem near {env : Env} {U : Store} {s t : Seat} (hs : Well env U s) (ht : Well env U t) (hb : Both U s t) : Near U s.P s.ρ t where
  known := fun a ha => Classical.byContradiction fun hn =>
    (hs.mine ha).1 (hb.2.own a (hs.mine ha).2.1 (fun h => hn (.inl h)) fun h => hn (.inr h))
  mine := fun a ha he => (hb.1.mark a he).resolve_left (ht.mine ha).1
  theirs := fun a ha he => (hb.2.mark a he).resolve_left (hs.mine ha).1

/-- A call that has returned, with where its objects are. -/
theorem returned {env : Env} {S P T : Store} {ρ : List Nat} (hG : GoodS S) (hF : ∀ o ∈ S, Firm o) (hT : SRel ρ S T) (hB : Blurred P S) {W : Shop}
    (h : Went env P ρ T W) {i m : Nat} {j : Job} {v : Val} (hc : W.calls[i]? = some ⟨j, m, some (.ret v)⟩) :
    ∃ u S1 w S2 σ ρ', call env j.n j.f j.args j.kw P = .ok u S1 ∧ Veil.VRel σ u w ∧ Veil.SRel σ S1 S2 ∧ VRel ρ' w v ∧ SRel ρ' S2 W.store ∧
      List.range P.length <+: σ ∧ ρ <+: ρ' ∧ ∀ a ∈ ρ', ¬ W.others a := by
  obtain ⟨M, gs, H⟩ := hold hG hF hT hB h
  have hlt : i < gs.length := by
    rw [H.len]
    exact (List.getElem?_eq_some_iff.1 hc).1
  have hg : gs[i]? = some gs[i] := List.getElem?_eq_getElem hlt
  have l := H.lone hg hc
  have r := H.rel hg
  have ho := H.own hg
  generalize gs[i] = q at l r ho
  obtain ⟨⟨lp, S1, σ⟩, ⟨p, S2, ρ'⟩⟩ := q
  have hs := l.sim rfl
  have hv := l.veil
  have hr := l.run
  have hal := l.alive
  cases p with
  | ret w =>
    obtain ⟨_, e, hw⟩ := hs
    cases e
    cases lp with
    | ret u =>
      obtain ⟨_, e, hu⟩ := hv
      cases e
      exact ⟨u, S1, w, S2, σ, ρ', hr.symm, hu, l.vrel, hw, r, l.lbase, l.base, ho⟩
    | exc _ => obtain ⟨_, e, _⟩ := hv; cases e
    | stuck => exact absurd rfl hal
    | act g k =>
      rcases hv with hv | ⟨_, _, e, _⟩
      · refine absurd ?_ hal
        show (k S1).run (g S1) = .stuck
        rw [hv S1]
        rfl
      · cases e
  | exc _ => obtain ⟨_, e, _⟩ := hs; cases e
  | stuck => cases hs
  | act _ _ => obtain ⟨_, _, e, _⟩ := hs; cases e

/-- **C97** Making a converter raises nothing. -/
theorem C97_making {env : Env} {T : Store} {W : Party} (h : Did env T W) {s : Seat} (hmem : s ∈ W.seats) {h0 : Heap} {Q : Nat → Prop}
    (hP : s.P = blur h0 Q s.S) (hb : Bare s.S h0 Q) {x : Elem} (hx : Free h0 Q x) {ad b : Nat} (hs : Stands s.S h0 x b)
    (had : s.S[ad]? = some (.inst .MathMLElementToLatexConverterAdapter [])) {n m : Nat} {v : Val} :
    s.call ≠ ⟨⟨n, createCode, [.obj ad, .obj b], []⟩, m, some (.exc v)⟩ := by
  obtain ⟨hG, hF, hT, hB, w⟩ := C97_others h hmem
  obtain ⟨c0, S0, ⟨k, hk⟩, _, _⟩ := make_gives (env := env) hb hx hs had
  intro hc
  obtain ⟨u, S1, _, _, _, _, g1, _⟩ := C94_raises hG hF hT hB w (i := 0) (m := m) (v := v) (j := ⟨n, createCode, [.obj ad, .obj b], []⟩) (by rw [hc]; rfl)
  replace g1 : call env n createCode [.obj ad, .obj b] [] s.P = .exc u S1 := g1
  have e1 := hk (max k n) (Nat.le_max_left _ _)
  rw [← hP, call_mono (by rw [g1]; intro e; cases e) (Nat.le_max_right k n), g1] at e1
  cases e1

/-- A mark that was expected and is no longer is set. -/
theorem flagged_now {env : Env} {T : Store} {W : Party} (h : Did env T W) {s : Seat} (hmem : s ∈ W.seats) {h0 : Heap} {Q : Nat → Prop}
    (hb : Bare s.S h0 Q) {M : Store} {h' : Heap} {Q' : Nat → Prop} (m3 : SRel s.ρ M W.store) (m4 : Bare M h' Q')
    (m8 : ∀ r, Q r → ¬ Q' r → h'.cells r = Dict.set (h0.cells r) c!"innerTable" c!"innerTable") {i a : Nat} (h2 : s.ρ[i]? = some a) (h3 : Q i) (h4 : ¬ Q' i) :
    Flagged W.store a := by
  have hT := (C97_others h hmem).2.2.1
  have h5 := m8 i h3 h4
  have hi : i < M.length := by
    rw [← m3.len]
    exact (List.getElem?_eq_some_iff.1 h2).1
  obtain ⟨o1, f1, f2⟩ := hT.get (hb.bare i h3).1 h2
  obtain ⟨d1, rfl⟩ : ∃ d, o1 = .dict d := by cases f2 with | dict _ => exact ⟨_, rfl⟩
  obtain ⟨o2, f3, f4⟩ := C97_objects h hmem h2 f1
  obtain ⟨d2, rfl⟩ : ∃ d, o2 = .dict d := by
    rcases f4 with rfl | ⟨rfl, _⟩
    · exact ⟨_, rfl⟩
    · exact ⟨_, rfl⟩
  have f5 : M[i]? = some M[i] := List.getElem?_eq_getElem hi
  obtain ⟨o3, f6, f7⟩ := m3.get f5 h2
  rw [f3] at f6
  cases f6
  generalize M[i] = o at f5 f7
  cases f7 with
  | @dict d3 _ f7 =>
  have f8 := m4.dicts i d3 f5
  unfold Described at f8
  rw [f5] at f8
  cases f8
  refine ⟨d2, f3, ?_⟩
  have f9 := f7.dictGet mark
  rw [show Dict.get? (List.map _ (h'.cells i)) mark = Dict.get? (dictVal (h'.cells i)) mark from rfl, get_dictVal, h5, Dict.get?_set,
    if_pos (show mark = c!"innerTable" from rfl)] at f9
  generalize Dict.get? d2 mark = o at f9
  cases f9 with
  | some f9 => cases f9; rfl

theorem anew_near {env : Env} {T : Store} {W : Party} (h : Did env T W) {s : Seat} (hmem : s ∈ W.seats) {h0 : Heap} {Q : Nat → Prop}
    (hb : Bare s.S h0 Q) {M : Store} {h' : Heap} {Q' : Nat → Prop} (m3 : SRel s.ρ M W.store) (m4 : Bare M h' Q') (m6 : ∀ r, Q' r → Q r)
    (m8 : ∀ r, Q r → ¬ Q' r → h'.cells r = Dict.set (h0.cells r) c!"innerTable" c!"innerTable") {t : Seat} (hn : Near W.store (blur h0 Q s.S) s.ρ t) :
    Near W.store (blur h' Q' M) s.ρ t where
  known := hn.known
  mine := fun a ha he => by
    obtain ⟨i, h1, h2⟩ := (expects_blur m4).1 he
    exact hn.mine a ha ((expects_blur hb).2 ⟨i, h1, m6 i h2⟩)
  theirs := fun a ha he => by
    rcases hn.theirs a ha he with h1 | h1
    · obtain ⟨i, h2, h3⟩ := (expects_blur hb).1 h1
      by_cases h4 : Q' i
      · exact .inl ((expects_blur m4).2 ⟨i, h2, h4⟩)
      · exact .inr (flagged_now h hmem hb m3 m4 m8 h2 h3 h4)
    · exact .inr h1

/-- **C97** A thread that has made a converter may hand it over.  The objects it shares, as they are then, together with the converter, meet the conditions for
sharing them again: the converter is a converter of the element, and all elements and converters are still what they were, with the same LaTeX.
A call that shares all this may start while the other calls are running. -/
theorem C97_made {env : Env} {T U : Store} {left right : List Seat} {s : Seat} (h : Did env T ⟨U, left ++ s :: right⟩) {h0 : Heap} {Q : Nat → Prop}
    (hP : s.P = blur h0 Q s.S) (hb : Bare s.S h0 Q) (hd : ∀ r, Described s.S h0 r → DistinctNames (h0.cells r)) {x : Elem} (hx : Free h0 Q x)
    {ad b : Nat} (hs : Stands s.S h0 x b) (had : s.S[ad]? = some (.inst .MathMLElementToLatexConverterAdapter [])) {n m : Nat} {v : Val}
    (hc : s.call = ⟨⟨n, createCode, [.obj ad, .obj b], []⟩, m, some (.ret v)⟩) :
    ∃ (S' : Store) (h' : Heap) (Q' : Nat → Prop) (ρ' : List Nat) (c c' : Nat), v = .obj c' ∧ ρ'[c]? = some c' ∧ s.ρ <+: ρ' ∧
      GoodS S' ∧ (∀ o ∈ S', Firm o) ∧ SRel ρ' S' U ∧ Bare S' h' Q' ∧ (∀ r, Described S' h' r → DistinctNames (h'.cells r)) ∧
      Holds S' h' x b ad c ∧
      (∀ y, Free h0 Q y → Free h' Q' y ∧ (convertElem y h').1 = (convertElem y h0).1) ∧
      (∀ y a, Stands s.S h0 y a → Stands S' h' y a) ∧
      (∀ y a ad' d, Free h0 Q y → Holds s.S h0 y a ad' d → Holds S' h' y a ad' d) ∧
      (∀ a : Nat, s.S[a]? = some (.inst .MathMLElementToLatexConverterAdapter []) → S'[a]? = some (.inst .MathMLElementToLatexConverterAdapter [])) ∧
      ∀ t ∈ left ++ right, Near U (blur h' Q' S') ρ' t := by
  have hmem : s ∈ left ++ s :: right := by simp
  have hfine := fine h
  have hwell : Well env U s := hfine.well s hmem
  obtain ⟨hG, hF, hT, hB, w⟩ := C97_others h hmem
  -- what was made
  obtain ⟨c0, S0, k1, k2, k3⟩ := make_gives (env := env) hb hx hs had
  obtain ⟨u, S1, u2, S2, σ, ρ2, g1, g2, g3, g4, g5, g6, g7, g8⟩ := returned hG hF hT hB w (i := 0) (j := ⟨n, createCode, [.obj ad, .obj b], []⟩) (m := m) (v := v)
    (by rw [hc]; rfl)
  replace g5 : SRel ρ2 S2 U := g5
  have e : (Res.ok u S1 : Res Val) = .ok (.obj c0) S0 := by
    obtain ⟨k, hk⟩ := k1
    have e1 := hk (max k n) (Nat.le_max_left _ _)
    rw [← e1, ← hP, ← g1]
    refine (call_mono ?_ (Nat.le_max_right k n)).symm
    show call env n createCode [.obj ad, .obj b] [] s.P ≠ _
    replace g1 : call env n createCode [.obj ad, .obj b] [] s.P = _ := g1
    rw [g1]
    intro e
    cases e
  cases e
  cases g2 with
  | same h => cases h
  | @obj _ c1 g2 =>
  cases g4 with
  | same h => cases h
  | @obj _ c' g4 =>
  rw [hP] at w
  obtain ⟨M, h', Q', m1, m2, m3, m4, m5, m6, m7, m8, m9, m10, m11, m12⟩ := C96_anew hG hF hT hb hd w
  replace m3 : SRel s.ρ M U := m3
  have hlen : s.S.length = s.P.length := by rw [hP]; simp [blur]
  have at_lo : ∀ {a : Nat} {o : Obj}, s.S[a]? = some o → ∃ a', s.ρ[a]? = some a' ∧ σ[a]? = some a ∧ ρ2[a]? = some a' := by
    intro a o ha
    have hlt := (List.getElem?_eq_some_iff.1 ha).1
    have h1 : s.ρ[a]? = some (s.ρ[a]'(by rw [hT.len]; exact hlt)) := List.getElem?_eq_getElem _
    exact ⟨_, h1, get_prefix g6 (List.getElem?_range (by rw [← hlen]; exact hlt)), get_prefix g7 h1⟩
  obtain ⟨ad', a1, a2, a3⟩ := at_lo had
  obtain ⟨ob, hob⟩ : ∃ o, s.S[b]? = some o := by cases hs with | mk h _ _ _ => exact ⟨_, h⟩
  obtain ⟨b', b1, b2, b3⟩ := at_lo hob
  have hconv : Converter U (h0.cells x.aref) b' ad' c' (classify x.name) := Converter.move (Converter.unveil k2 g3 b2 a2 g2) g5 b3 a3 g4
  obtain ⟨L, l1, l2, l4, l3⟩ := pieces hconv
  have mem_b : b' ∈ s.ρ := List.mem_of_getElem? b1
  have mem_ad : ad' ∈ s.ρ := List.mem_of_getElem? a1
  obtain ⟨A, O, f, p1, p2, p3, p4, p5⟩ := pull m3 L fun a ha => by
    obtain ⟨o, q1, q2, _⟩ := l2 a ha
    refine ⟨o, q1, own_mono (fun y hy => ?_) o q2⟩
    rcases hy with rfl | rfl | hy
    · exact .inl mem_b
    · exact .inl mem_ad
    · exact .inr hy
  have hpre : s.ρ <+: s.ρ ++ A := List.prefix_append _ _
  have f_old : ∀ {i a : Nat}, s.ρ[i]? = some a → f a = i := fun {i a} hi =>
    nodup_at p1.nodup (p3 a (.inl (List.mem_of_getElem? hi))) (get_prefix hpre hi)
  have nodict : ∀ {a : Nat} {d : Dict Val}, (M ++ O)[a]? = some (.dict d) → M[a]? = some (.dict d) := by
    intro a d ha
    by_cases hlt : a < M.length
    · rwa [List.getElem?_append_left hlt] at ha
    · rw [List.getElem?_append_right (by omega)] at ha
      obtain ⟨a', ha', o', q1, q2⟩ := p5 _ (List.mem_of_getElem? ha)
      obtain ⟨o, q3, _, _, q4⟩ := l2 a' ha'
      rw [q1] at q3
      cases q3
      have := (q4 f).2.2
      rw [← q2] at this
      cases this
  have desc : ∀ {r : Nat}, Described (M ++ O) h' r ↔ Described M h' r := by
    intro r
    exact ⟨fun h => nodict h, fun h => look_old O h⟩
  have hext : Ext M (M ++ O) := .app M O
  refine ⟨M ++ O, h', Q', s.ρ ++ A, f c', c', rfl, p3 c' (.inr l1), hpre, ?_, ?_, p1, ⟨fun a d ha => ?_, fun r hr => ?_⟩, fun r hr => m5 r (desc.1 hr), ⟨?_, ?_⟩, m9,
    fun y a hy => ?_, fun y a ad' d hy hh => ?_, fun a ha => hext.get (m12 a ha) rfl, fun t ht => ?_⟩
  · intro o ho
    rcases List.mem_append.1 ho with ho | ho
    · exact m1 o ho
    · obtain ⟨a', ha', o', q1, rfl⟩ := p5 _ ho
      obtain ⟨o, q3, _, _, q4⟩ := l2 a' ha'
      rw [q1] at q3
      cases q3
      exact (q4 f).1
  · intro o ho
    rcases List.mem_append.1 ho with ho | ho
    · exact m2 o ho
    · obtain ⟨a', ha', o', q1, rfl⟩ := p5 _ ho
      obtain ⟨o, q3, _, _, q4⟩ := l2 a' ha'
      rw [q1] at q3
      cases q3
      exact (q4 f).2.1
  · exact desc.2 (m4.dicts a d (nodict ha))
  · exact ⟨desc.2 (m4.bare r hr).1, (m4.bare r hr).2⟩
  · have hq : ¬ Q x.aref := by
      obtain ⟨n, v, r, cs⟩ := x
      by_cases hn : n = c!"mtable"
      · subst hn
        exact hx.outer r .here
      · exact hx.other n v r cs .self hn
    have := l3 f (M ++ O) p4
    rw [f_old b1, f_old a1] at this
    rw [m7 _ hq]
    exact this
  · intro hn y hy v r cs hw
    obtain ⟨hD, d, d1, d2⟩ := k3 hn y hy v r cs hw
    obtain ⟨r', r1, r2, r3⟩ := at_lo hD
    -- the mark, in the store
    obtain ⟨o1, t1, t2⟩ := g3.get d1 r2
    cases t2 with
    | @dict _ d' t2 =>
    have t3 := t2 mark
    rw [d2] at t3
    have t4 : Dict.get? d' mark = some (.str mark) := by
      generalize Dict.get? d' mark = o at t3
      cases t3 with
      | some t3 => cases t3; rfl
    obtain ⟨o2, t5, t6⟩ := g5.get t1 r3
    cases t6 with
    | @dict _ d2 t6 =>
    have t7 := t6.dictGet mark
    rw [t4] at t7
    have t8 : Dict.get? d2 mark = some (.str mark) := by
      generalize Dict.get? d2 mark = o at t7
      cases t7 with
      | some t7 => cases t7; rfl
    have hDM : Described M h' r := every_within (.child (e := x) hy hw) (m10 x b hs).isElem.every
    obtain ⟨o3, t9, t10⟩ := m3.get hDM r1
    rw [t5] at t9
    cases t9
    cases t10 with
    | dict t10 =>
    have t11 := t10.dictGet mark
    rw [t8] at t11
    refine set_present (m5 r hDM) ?_
    rw [show Dict.get? (List.map _ (h'.cells r)) mark = Dict.get? (dictVal (h'.cells r)) mark from rfl, get_dictVal] at t11
    generalize hg : Dict.get? (h'.cells r) mark = o at t11
    cases o with
    | none => cases t11
    | some w =>
      cases t11 with
      | some t11 =>
        cases t11
        rfl
  · exact stands_later hext (fun r hr => desc.2 hr) (m10 y a hy)
  · have := m11 y a ad' d hy hh
    exact ⟨this.object.mono hext, this.marked⟩
  · have hbt : Both U s t := by
      have hp := hfine.apart
      obtain ⟨_, p2, p3⟩ := List.pairwise_append.1 hp
      rcases List.mem_append.1 ht with ht | ht
      · exact (p3 t ht s (by simp)).symm
      · exact (List.pairwise_cons.1 p2).1 t ht
    have ht' : Well env U t := hfine.well t (by
      rcases List.mem_append.1 ht with ht | ht
      · exact List.mem_append_left _ ht
      · exact List.mem_append_right _ (List.mem_cons_of_mem _ ht))
    have newO : ∀ a ∈ A, t.others a := by
      intro a ha
      obtain ⟨q1, q2⟩ := p2 a ha
      have q3 : a ∈ ρ2 := l4 (· ∈ ρ2) (List.mem_of_getElem? g4) (fun a o ha ho hso => by
        obtain ⟨i, hi⟩ := List.mem_iff_getElem?.1 ha
        have hlt : i < S2.length := by
          rw [← g5.len]
          exact (List.getElem?_eq_some_iff.1 hi).1
        obtain ⟨o', e1, e2⟩ := g5.get (List.getElem?_eq_getElem hlt) hi
        rw [ho] at e1
        cases e1
        exact object_own e2 hso) a q1
      exact hbt.1.own a (g5.lt q3) q2 (g8 a q3)
    have hb' : Bare (M ++ O) h' Q' := ⟨fun a d ha => desc.2 (m4.dicts a d (nodict ha)), fun r hr => ⟨desc.2 (m4.bare r hr).1, (m4.bare r hr).2⟩⟩
    have inM : ∀ {i : Nat}, Q' i → i < s.ρ.length := by
      intro i hi
      have := (m4.bare i hi).1
      rw [m3.len]
      exact (List.getElem?_eq_some_iff.1 this).1
    have hn := near hwell ht' hbt
    rw [hP] at hn
    refine ⟨fun a ha => ?_, fun a ha he => ?_, fun a ha he => ?_⟩
    · rcases List.mem_append.1 ha with ha | ha
      · exact hn.known a ha
      · exact .inr (newO a ha)
    · obtain ⟨i, h1, h2⟩ := (expects_blur hb').1 he
      refine hn.mine a ha ((expects_blur hb).2 ⟨i, ?_, m6 i h2⟩)
      rwa [List.getElem?_append_left (inM h2)] at h1
    · rcases List.mem_append.1 ha with ha | ha
      · rcases hn.theirs a ha he with h1 | h1
        · obtain ⟨i, h2, h3⟩ := (expects_blur hb).1 h1
          by_cases h4 : Q' i
          · exact .inl ((expects_blur hb').2 ⟨i, get_prefix hpre h2, h4⟩)
          · exact .inr (flagged_now h hmem hb m3 m4 m8 h2 h3 h4)
        · exact .inr h1
      · exact absurd (newO a ha) (ht'.mine (Expects.mem he)).1

/-- **C97** So another thread may then call `convert` on the converter, also while other calls are running, and C97_render says what that gives: the LaTeX of the element. -/
theorem C97_handed {env : Env} {T U : Store} {left right : List Seat} {s : Seat} (h : Did env T ⟨U, left ++ s :: right⟩) {h0 : Heap} {Q : Nat → Prop}
    (hP : s.P = blur h0 Q s.S) (hb : Bare s.S h0 Q) (hd : ∀ r, Described s.S h0 r → DistinctNames (h0.cells r)) {x : Elem} (hx : Free h0 Q x)
    {ad b : Nat} (hs : Stands s.S h0 x b) (had : s.S[ad]? = some (.inst .MathMLElementToLatexConverterAdapter [])) {n m : Nat} {v : Val}
    (hc : s.call = ⟨⟨n, createCode, [.obj ad, .obj b], []⟩, m, some (.ret v)⟩) :
    ∃ k0, ∀ k, k0 ≤ k → ∃ (t : Seat) (c : Nat), Did env T ⟨U, (left ++ right) ++ [t]⟩ ∧
      t.call = ⟨⟨k, renderCode, [.obj c], []⟩, 0, some (callS env k renderCode [v] [])⟩ ∧
      ∃ (h' : Heap) (Q' : Nat → Prop), t.P = blur h' Q' t.S ∧ Bare t.S h' Q' ∧ Free h' Q' x ∧ Stands t.S h' x b ∧
        t.S[ad]? = some (.inst .MathMLElementToLatexConverterAdapter []) ∧ Holds t.S h' x b ad c ∧ (convertElem x h').1 = (convertElem x h0).1 := by
  obtain ⟨S', h', Q', ρ', c, c', rfl, g1, g2, g3, g4, g5, g6, g7, g8, g9, g10, g11, g12, g13⟩ := C97_made h hP hb hd hx hs had hc
  obtain ⟨k0, hk0⟩ := C95_render (env := env) g3 g6 (g9 x hx).1 (g10 x b hs) (g12 ad had) g8
  refine ⟨k0, fun k hk => ⟨_, c, (h.snoc .leave).snoc (.begin (j := ⟨k, renderCode, [.obj c], []⟩) g3 g4 g5 (C94_blurred g6) (hk0 k hk).2 (hk0 k hk).1
    (.cons (.obj g1) .nil) .nil g13), rfl, h', Q', rfl, g6, (g9 x hx).1, g10 x b hs, g12 ad had, g8, (g9 x hx).2⟩⟩

/-- **C97** At any time others may start calls with the objects that a call shares, as they are then. -/
theorem C97_again {env : Env} {T U : Store} {left right : List Seat} {s : Seat} (h : Did env T ⟨U, left ++ s :: right⟩) {h0 : Heap} {Q : Nat → Prop}
    (hP : s.P = blur h0 Q s.S) (hb : Bare s.S h0 Q) (hd : ∀ r, Described s.S h0 r → DistinctNames (h0.cells r)) :
    ∃ (S' : Store) (h' : Heap) (Q' : Nat → Prop), GoodS S' ∧ (∀ o ∈ S', Firm o) ∧ SRel s.ρ S' U ∧ Bare S' h' Q' ∧
      (∀ r, Described S' h' r → DistinctNames (h'.cells r)) ∧
      (∀ y, Free h0 Q y → Free h' Q' y ∧ (convertElem y h').1 = (convertElem y h0).1) ∧
      (∀ y a, Stands s.S h0 y a → Stands S' h' y a) ∧
      (∀ y a ad' d, Free h0 Q y → Holds s.S h0 y a ad' d → Holds S' h' y a ad' d) ∧
      (∀ a : Nat, s.S[a]? = some (.inst .MathMLElementToLatexConverterAdapter []) → S'[a]? = some (.inst .MathMLElementToLatexConverterAdapter [])) ∧
      ∀ t ∈ left ++ s :: right, Near U (blur h' Q' S') s.ρ t := by
  have hmem : s ∈ left ++ s :: right := by simp
  have hfine := fine h
  have hwell : Well env U s := hfine.well s hmem
  obtain ⟨hG, hF, hT, hB, w⟩ := C97_others h hmem
  have hn : ∀ t ∈ left ++ s :: right, Near U s.P s.ρ t := by
    intro t ht
    obtain ⟨_, p2, p3⟩ := List.pairwise_append.1 hfine.apart
    have ht' : Well env U t := hfine.well t ht
    rcases List.mem_append.1 ht with ht | ht
    · exact near hwell ht' (p3 t ht s (by simp)).symm
    · rcases List.mem_cons.1 ht with rfl | ht
      · exact ⟨fun _ h => .inl h, fun _ _ h => .inl h, fun _ _ h => .inl h⟩
      · exact near hwell ht' ((List.pairwise_cons.1 p2).1 t ht)
  rw [hP] at w
  obtain ⟨M, h', Q', m1, m2, m3, m4, m5, m6, m7, m8, m9, m10, m11, m12⟩ := C96_anew hG hF hT hb hd w
  refine ⟨M, h', Q', m1, m2, m3, m4, m5, m9, m10, m11, m12, fun t ht => ?_⟩
  have hn := hn t ht
  rw [hP] at hn
  exact anew_near h hmem hb m3 m4 m6 m8 hn

/-! ## An example -/

/-- Let a call do all its operations. -/
theorem Did.run {env : Env} {T : Store} {j : Job} : ∀ {p : Steps Val} {left right : List Seat} {s : Seat} {m : Nat} {U : Store},
    Did env T ⟨U, left ++ s :: right⟩ → s.call = ⟨j, m, some p⟩ →
    ∃ (m' : Nat) (R : Store) (q : Steps Val) (f : Seat → Seat), Did env T ⟨R, left.map f ++ { s with call := ⟨j, m', some q⟩ } :: right.map f⟩ ∧
      (∀ t, ∃ o, f t = { t with others := o }) ∧ ((∃ v, q = .ret v) ∨ (∃ v, q = .exc v) ∨ q = .stuck)
  | .act g k, left, right, s, m, U, h, hc => by
    obtain ⟨m', R, q, f, h1, h2, h3⟩ := Did.run (h.snoc (.step hc)) rfl
    refine ⟨m', R, q, f ∘ Seat.see U.length (g U).length, ?_, fun t => ?_, h3⟩
    · rw [← List.map_map, ← List.map_map]
      exact h1
    · obtain ⟨o, e⟩ := h2 (t.see U.length (g U).length)
      exact ⟨o, e⟩
  | .ret v, left, right, s, m, U, h, hc => by
    refine ⟨m, U, .ret v, id, ?_, fun t => ⟨_, rfl⟩, .inl ⟨v, rfl⟩⟩
    rw [List.map_id, List.map_id, ← hc]
    exact h
  | .exc v, left, right, s, m, U, h, hc => by
    refine ⟨m, U, .exc v, id, ?_, fun t => ⟨_, rfl⟩, .inr (.inl ⟨v, rfl⟩)⟩
    rw [List.map_id, List.map_id, ← hc]
    exact h
  | .stuck, left, right, s, m, U, h, hc => by
    refine ⟨m, U, .stuck, id, ?_, fun t => ⟨_, rfl⟩, .inr (.inr rfl)⟩
    rw [List.map_id, List.map_id, ← hc]
    exact h

/-- One thread begins to convert the table in a table, which no one has converted before.  Another makes a converter of the table and hands it over.  A third calls `convert` on the
converter.  The first and the third do all their operations, and both get the same LaTeX. -/
example (env : Env) : ∃ (W : Party) (s t : Seat) (n k c m m' : Nat) (v : Val), Did env shelf W ∧ W.seats = [s, t] ∧
    s.call = ⟨⟨n, useCode, [.obj 0, .obj 6], []⟩, m, some (.ret v)⟩ ∧ t.call = ⟨⟨k, renderCode, [.obj c], []⟩, m', some (.ret v)⟩ ∧
    v = .str c!"\\begin{matrix}\\end{matrix}" := by
  obtain ⟨hG, hF, hO⟩ := shelf_own
  have hT : SRel (List.range 7) shelf shelf := srel_all hO
  have hx : (convertElem shelfElem Heap.empty).1 = .ok c!"\\begin{matrix}\\end{matrix}" := by decide +kernel
  have ha : VRels (List.range 7) [.obj 0, .obj 6] [.obj 0, .obj 6] := .cons (.obj rfl) (.cons (.obj rfl) .nil)
  have hB := C94_blurred shelf_bare
  have hd : ∀ r, Described shelf Heap.empty r → DistinctNames (Heap.empty.cells r) := fun r _ => .nil
  obtain ⟨n, hn⟩ := C94_use (env := env) hG shelf_bare shelf_free (ad := 0) shelf_stands rfl
  obtain ⟨n2, hn2⟩ := C95_make (env := env) hG shelf_bare shelf_free (ad := 0) shelf_stands rfl
  obtain ⟨hl, hf⟩ := hn n (Nat.le_refl n)
  obtain ⟨hl2, hf2⟩ := hn2 n2 (Nat.le_refl n2)
  have d1 := (Did.nil (env := env) (T := shelf)).snoc (.begin hG hF hT hB hf hl ha .nil (fun _ h => (List.not_mem_nil h).elim))
  have d2 := d1.snoc (.begin hG hF hT hB hf2 hl2 ha .nil fun t ht => by
    rw [List.mem_singleton.1 ht]
    exact ⟨fun _ h => .inl h, fun _ _ h => .inl h, fun _ _ h => .inl h⟩)
  -- the second makes a converter
  obtain ⟨m2, U, q, f, d3, hf3, hq⟩ := Did.run (left := [_]) (right := []) d2 rfl
  obtain ⟨v, rfl⟩ : ∃ v, q = .ret v := by
    rcases hq with hq | ⟨v, rfl⟩ | rfl
    · exact hq
    · exact absurd rfl (C97_making d3 (List.mem_append_right _ List.mem_cons_self) rfl shelf_bare shelf_free (ad := 0) shelf_stands rfl)
    · exact absurd rfl (C97_not_stuck d3 (List.mem_append_right _ List.mem_cons_self))
  -- the third gets it
  obtain ⟨k, hk⟩ := C97_handed (left := [_]) (right := []) d3 rfl shelf_bare hd shelf_free (ad := 0) shelf_stands rfl rfl
  obtain ⟨t, c, d4, e1, h', Q', e2, e3, e4, e5, e6, e7, e8⟩ := hk k (Nat.le_refl k)
  obtain ⟨o1, g1⟩ := hf3 ⟨shelf, blur Heap.empty (· = 1) shelf, List.range 7, shelf, fun a => a < shelf.length ∧ a ∉ List.range 7,
    ⟨⟨n, useCode, [.obj 0, .obj 6], []⟩, 0, some (callS env n useCode [.obj 0, .obj 6] [])⟩⟩
  replace d4 : Did env shelf ⟨U, [f _] ++ t :: []⟩ := d4
  rw [g1] at d4
  obtain ⟨m3, U3, q3, f3, d5, hf5, hq3⟩ := Did.run d4 e1
  obtain ⟨o3, g3⟩ := hf5 ⟨shelf, blur Heap.empty (· = 1) shelf, List.range 7, shelf, o1,
    ⟨⟨n, useCode, [.obj 0, .obj 6], []⟩, 0, some (callS env n useCode [.obj 0, .obj 6] [])⟩⟩
  replace d5 : Did env shelf ⟨U3, [f3 _] ++ [_]⟩ := d5
  rw [g3] at d5
  obtain ⟨m4, U4, q4, f4, d6, hf6, hq4⟩ := Did.run (left := []) (right := [_]) d5 rfl
  obtain ⟨o4, g4⟩ := hf6 { t with call := ⟨⟨k, renderCode, [.obj c], []⟩, m3, some q3⟩ }
  replace d6 : Did env shelf ⟨U4, [_, f4 _]⟩ := d6
  rw [g4] at d6
  have r4 : q4 = .ret (.str c!"\\begin{matrix}\\end{matrix}") := by
    have hs := C97_element d6 List.mem_cons_self rfl shelf_bare shelf_free (ad := 0) shelf_stands rfl (n := n) (m := m4)
    rw [hx] at hs
    rcases hq4 with ⟨v, rfl⟩ | ⟨v, rfl⟩ | rfl
    · have := hs.1 v rfl
      cases this
      rfl
    · have := hs.2 v rfl
      cases this
    · exact absurd rfl (C97_not_stuck d6 List.mem_cons_self)
  have r3 : q3 = .ret (.str c!"\\begin{matrix}\\end{matrix}") := by
    have hs := C97_render d6 (List.mem_cons_of_mem _ List.mem_cons_self) e2 e3 e4 e5 e6 e7 (n := k) (m := m3)
    rw [e8, hx] at hs
    rcases hq3 with ⟨v, rfl⟩ | ⟨v, rfl⟩ | rfl
    · have := hs.1 v rfl
      cases this
      rfl
    · have := hs.2 v rfl
      cases this
    · exact absurd rfl (C97_not_stuck d6 (List.mem_cons_of_mem _ List.mem_cons_self))
  exact ⟨_, _, _, n, k, c, m4, m3, _, d6, rfl, by rw [r4], by rw [r3], rfl⟩

end Verif.Src.Writes.Marking
