import Verif.Props.Holding

/-!
# Shared trees at any later time (C96)

At any time while threads share trees as for C94 and C95, with some of the marks set already, the shared objects meet the conditions of C94 and
C95 as they are then.  So from then on these may be applied again.
-/

namespace Verif.Src.Writes.Marking
open Spec

section
variable {S : Store} {h0 : Heap} {Q R : Nat → Prop}

/-- The attributes of `h`, where the dictionaries in `R` have got the mark. -/
noncomputable def flagged (h : Heap) (R : Nat → Prop) : Heap :=
  open Classical in { h with cells := fun r => if R r then Dict.set (h.cells r) c!"innerTable" c!"innerTable" else h.cells r }

/-- The objects of `S`, where the dictionaries in `R` have got the mark. -/
noncomputable def tagged (R : Nat → Prop) (S : Store) : Store :=
  open Classical in S.mapIdx fun a o => if R a then marked o else o

theorem flagged_in {r : Nat} (h : R r) : (flagged h0 R).cells r = Dict.set (h0.cells r) c!"innerTable" c!"innerTable" := by
  simp [flagged, h]

theorem flagged_out {r : Nat} (h : ¬ R r) : (flagged h0 R).cells r = h0.cells r := by
  simp [flagged, h]

theorem tagged_in {a : Nat} {o : Obj} (ha : S[a]? = some o) (h : R a) : (tagged R S)[a]? = some (marked o) := by
  simp [tagged, ha, h]

theorem tagged_out {a : Nat} (h : ¬ R a) : (tagged R S)[a]? = S[a]? := by
  simp [tagged, h]

theorem flag_twice (A : Attrs) : Dict.set (Dict.set A c!"innerTable" c!"innerTable") c!"innerTable" c!"innerTable" =
    Dict.set A c!"innerTable" c!"innerTable" := Dict.set_set _ _ _

theorem marked_dictVal (A : Attrs) : marked (.dict (dictVal A)) = .dict (dictVal (Dict.set A c!"innerTable" c!"innerTable")) :=
  congrArg Obj.dict (set_dictVal A _ _)

theorem set_present {β : Type} {k : Str} {v : β} : ∀ {d : Dict β}, (d.map Prod.fst).Nodup → Dict.get? d k = some v → Dict.set d k v = d := by
  intro d hd hg
  have hm := (Dict.get?_iff hd k v).1 hg
  have ha : (d.any fun p => p.1 == k) = true := List.any_eq_true.2 ⟨_, hm, by simp⟩
  unfold Dict.set
  rw [if_pos ha]
  refine (List.map_congr_left (g := id) fun p hp => ?_).trans (List.map_id d)
  obtain ⟨k', w⟩ := p
  by_cases hk : k' = k
  · subst hk
    have := (Dict.get?_iff hd k' w).2 hp
    rw [hg] at this
    cases this
    simp
  · simp [hk]

theorem set_distinct {A : Attrs} (k v : Str) (h : DistinctNames A) : DistinctNames (Dict.set A k v) := by
  unfold DistinctNames Dict.set at *
  split
  · rw [List.map_map, List.map_congr_left (g := Prod.fst)]
    · exact h
    · intro p _
      simp only [Function.comp]
      split
      · next h => simpa using h.symm
      · rfl
  · next hn =>
    rw [List.map_append, List.nodup_append]
    refine ⟨h, by simp, ?_⟩
    rintro a ha b hb rfl
    obtain ⟨p, hp, rfl⟩ := List.mem_map.1 ha
    simp only [List.map_cons, List.map_nil, List.mem_singleton] at hb
    exact hn (List.any_eq_true.2 ⟨p, hp, by simp [hb]⟩)

theorem prel_keys {κ : Type} {ρ : List Nat} : ∀ {l l' : List (κ × Val)}, PRel ρ l l' → l'.map Prod.fst = l.map Prod.fst
  | _, _, .nil => rfl
  | _, _, .cons _ h => by simp [prel_keys h]

theorem described_later {r : Nat} (h : Described S h0 r) : Described (tagged R S) (flagged h0 R) r := by
  by_cases hR : R r
  · have h1 := tagged_in h hR
    unfold Described
    rw [h1, flagged_in hR]
    exact congrArg some (marked_dictVal _)
  · unfold Described
    rw [tagged_out hR, flagged_out hR]
    exact h

theorem ext_later (hR : ∀ r, R r → Described S h0 r) : Ext S (tagged R S) := by
  refine ⟨by simp [tagged], fun {a o} ha hd => ?_⟩
  by_cases h : R a
  · have h1 := hR a h
    unfold Described at h1
    rw [ha] at h1
    cases h1
    cases hd
  · rw [tagged_out h, ha]

theorem bare_later (hb : Bare S h0 Q) (hR : ∀ r, R r → Q r) : Bare (tagged R S) (flagged h0 R) fun r => Q r ∧ ¬ R r where
  dicts := fun a d ha => by
    by_cases h : R a
    · exact described_later (hb.bare a (hR a h)).1
    · rw [tagged_out h] at ha
      exact described_later (hb.dicts a d ha)
  bare := fun r hr => ⟨described_later (hb.bare r hr.1).1, by rw [flagged_out hr.2]; exact (hb.bare r hr.1).2⟩

theorem free_later {x : Elem} (hR : ∀ r, R r → Q r) (hx : Free h0 Q x) : Free (flagged h0 R) (fun r => Q r ∧ ¬ R r) x where
  unshared := hx.unshared
  inner := fun r h => by
    by_cases hr : R r
    · right
      rw [flagged_in hr, flag_twice]
    · rw [flagged_out hr]
      exact (hx.inner r h).imp (⟨·, hr⟩) id
  outer := fun r h hq => hx.outer r h hq.1
  other := fun n v r cs h hn hq => hx.other n v r cs h hn hq.1

theorem latex_later {x : Elem} (hR : ∀ r, R r → Q r) (hx : Free h0 Q x) : (convertElem x (flagged h0 R)).1 = (convertElem x h0).1 := by
  have hw : WfT (fun r => TableIn false x true r ∨ R r) false x :=
    wfT_of x false (fun _ h => .inl h) fun r h2 h1 => h1.elim (fun h1 => hx.unshared r h1 h2) fun h1 => hx.outer r h2 (hR r h1)
  have hs := convertElem_sim (c0 := h0.cells) x (fun _ => False) false hw (by simp)
  obtain ⟨h1, e1, _⟩ := hs h0 ⟨fun _ _ => rfl, fun _ _ _ _ => rfl, fun _ h => h.elim⟩
  have ha : ∀ r, Agree ((flagged h0 R).cells r) (h0.cells r) := by
    intro r k d hk
    by_cases hr : R r
    · rw [flagged_in hr]
      unfold Attrs.getD
      rw [Dict.get?_set, if_neg (show k ≠ c!"innerTable" from hk)]
    · rw [flagged_out hr]
  obtain ⟨h2, e2, _⟩ := hs (flagged h0 R) ⟨fun r h => flagged_out fun hr => h (.inr hr), ha, fun _ h => h.elim⟩
  rw [e1, e2]
end

/-- **C96** At any time the shared objects, as they are then, meet the conditions of C94 and C95 again, with some of the tables in `Q` marked and
the others in `Q` still.  The elements may still be converted, and their LaTeX is the same; converters for them are converters for them. -/
theorem C96_anew {env : Env} {S T : Store} {h0 : Heap} {Q : Nat → Prop} {ρ : List Nat} (hG : GoodS S) (hF : ∀ o ∈ S, Firm o)
    (hT : SRel ρ S T) (hb : Bare S h0 Q) (hd : ∀ r, Described S h0 r → DistinctNames (h0.cells r)) {W : Shop} (h : Went env (blur h0 Q S) ρ T W) :
    ∃ (S' : Store) (h' : Heap) (Q' : Nat → Prop), GoodS S' ∧ (∀ o ∈ S', Firm o) ∧ SRel ρ S' W.store ∧ Bare S' h' Q' ∧
      (∀ r, Described S' h' r → DistinctNames (h'.cells r)) ∧
      (∀ r, Q' r → Q r) ∧ (∀ r, ¬ Q r → h'.cells r = h0.cells r) ∧
      (∀ r, Q r → ¬ Q' r → h'.cells r = Dict.set (h0.cells r) c!"innerTable" c!"innerTable") ∧
      (∀ x, Free h0 Q x → Free h' Q' x ∧ (convertElem x h').1 = (convertElem x h0).1) ∧
      (∀ x b, Stands S h0 x b → Stands S' h' x b) ∧
      (∀ x b ad c, Free h0 Q x → Holds S h0 x b ad c → Holds S' h' x b ad c) ∧
      ∀ a : Nat, S[a]? = some (.inst .MathMLElementToLatexConverterAdapter []) → S'[a]? = some (.inst .MathMLElementToLatexConverterAdapter []) := by
  let R : Nat → Prop := fun i => ∃ a o, ρ[i]? = some a ∧ T[a]? = some o ∧ W.store[a]? ≠ some o
  have key : ∀ {i a : Nat} {o : Obj}, ρ[i]? = some a → T[a]? = some o →
      (R i → Q i ∧ W.store[a]? = some (marked o)) ∧ (¬ R i → W.store[a]? = some o) := by
    intro i a o hi ha
    refine ⟨fun hr => ?_, fun hr => ?_⟩
    · obtain ⟨a', o', h1, h2, h3⟩ := hr
      rw [hi] at h1
      cases h1
      rw [ha] at h2
      cases h2
      obtain ⟨o', h4, rfl | ⟨d, rfl, rfl, h5⟩⟩ := C94_only_marks hG hF hT hb h hi ha
      · exact absurd h4 h3
      · refine ⟨h5.resolve_right fun h6 => h3 ?_, h4⟩
        have hlt : i < S.length := by
          rw [← hT.len]
          exact (List.getElem?_eq_some_iff.1 hi).1
        have hs : S[i]? = some S[i] := List.getElem?_eq_getElem hlt
        obtain ⟨o2, g1, g2⟩ := hT.get hs hi
        rw [ha] at g1
        cases g1
        generalize S[i] = o at hs g2
        cases g2 with
        | @dict d0 _ g2 =>
          have g3 := hb.dicts i d0 hs
          have g4 := hd i g3
          unfold Described at g3
          rw [hs] at g3
          cases g3
          rw [h4, set_present _ h6]
          rw [prel_keys g2, List.map_map]
          exact g4
    · refine Classical.byContradiction fun h1 => hr ⟨a, o, hi, ha, h1⟩
  have hRQ : ∀ r, R r → Q r := by
    intro r hr
    obtain ⟨a, o, h1, h2, _⟩ := id hr
    exact ((key h1 h2).1 hr).1
  have hRD : ∀ r, R r → Described S h0 r := fun r hr => (hb.bare r (hRQ r hr)).1
  refine ⟨tagged R S, flagged h0 R, fun r => Q r ∧ ¬ R r, ?_, ?_, ?_, bare_later hb hRQ, fun r h => ?_, fun r h => h.1, fun r h => ?_, fun r h h' => ?_,
    fun x hx => ⟨free_later hRQ hx, latex_later hRQ hx⟩, fun x b => stands_later (ext_later hRD) (fun r => described_later), fun x b ad c hx hc => ?_,
    fun a ha => (ext_later hRD).get ha rfl⟩
  · intro o ho
    obtain ⟨a, ha⟩ := List.mem_iff_getElem?.1 ho
    by_cases hR : R a
    · have h1 : Described (tagged R S) (flagged h0 R) a := described_later (hRD a hR)
      unfold Described at h1
      rw [ha] at h1
      cases h1
      intro p hp
      obtain ⟨q, _, rfl⟩ := List.mem_map.1 hp
      trivial
    · rw [tagged_out hR] at ha
      exact hG o (List.mem_of_getElem? ha)
  · intro o ho
    obtain ⟨a, ha⟩ := List.mem_iff_getElem?.1 ho
    by_cases hR : R a
    · have h1 : Described (tagged R S) (flagged h0 R) a := described_later (hRD a hR)
      unfold Described at h1
      rw [ha] at h1
      cases h1
      trivial
    · rw [tagged_out hR] at ha
      exact hF o (List.mem_of_getElem? ha)
  · refine ⟨by simp [tagged, hT.len], hT.nodup, fun {a a'} {o} ha hr => ?_⟩
    by_cases hR : R a
    · have h1 := hRD a hR
      unfold Described at h1
      rw [tagged_in h1 hR] at ha
      cases ha
      obtain ⟨o', h2, h3⟩ := hT.get h1 hr
      exact ⟨_, ((key hr h2).1 hR).2, ORel.marked h3⟩
    · rw [tagged_out hR] at ha
      obtain ⟨o', h1, h2⟩ := hT.get ha hr
      exact ⟨o', (key hr h1).2 hR, h2⟩
  · by_cases hR : R r
    · rw [flagged_in hR]
      exact set_distinct _ _ (hd r (hRD r hR))
    · rw [flagged_out hR]
      refine hd r ?_
      unfold Described at h ⊢
      rw [tagged_out hR, flagged_out hR] at h
      exact h
  · exact flagged_out fun hr => h (hRQ r hr)
  · exact flagged_in (Classical.byContradiction fun hr => h' ⟨h, hr⟩)
  · have h1 : ¬ R x.aref := by
      obtain ⟨n, v, r, cs⟩ := x
      intro hr
      by_cases hn : n = c!"mtable"
      · subst hn
        exact hx.outer r .here (hRQ r hr)
      · exact hx.other n v r cs .self hn (hRQ r hr)
    refine ⟨?_, fun hn y hy v r cs hw => ?_⟩
    · rw [flagged_out h1]
      exact hc.object.mono (ext_later hRD)
    · by_cases hr : R r
      · rw [flagged_in hr, flag_twice]
      · rw [flagged_out hr]
        exact hc.marked hn y hy v r cs hw

/-- Some code has set the mark of the inner table of the shelf.  The outer table may still be converted, and nothing is left to be marked. -/
example (env : Env) : ∃ W, Went env (blur Heap.empty (· = 1) shelf) (List.range 7) shelf W ∧ W.store ≠ shelf ∧
    (∀ r, Described shelf Heap.empty r → DistinctNames (Heap.empty.cells r)) ∧
    ∃ (S' : Store) (h' : Heap) (Q' : Nat → Prop), SRel (List.range 7) S' W.store ∧ Bare S' h' Q' ∧ Free h' Q' shelfElem ∧ Stands S' h' shelfElem 6 ∧
      (convertElem shelfElem h').1 = .ok c!"\\begin{matrix}\\end{matrix}" := by
  obtain ⟨hG, hF, hO⟩ := shelf_own
  have hT : SRel (List.range 7) shelf shelf := srel_all hO
  have hx : (convertElem shelfElem Heap.empty).1 = .ok c!"\\begin{matrix}\\end{matrix}" := by decide +kernel
  have hd : ∀ r, Described shelf Heap.empty r → DistinctNames (Heap.empty.cells r) := fun r _ => .nil
  have w := (Went.nil (env := env) (P := blur Heap.empty (· = 1) shelf) (ρ := List.range 7) (T := shelf)).snoc
    (.mark (i := 1) (a := 1) rfl (blur_in (S := shelf) rfl rfl) (d := []) rfl (.inl ⟨_, rfl, rfl⟩))
  refine ⟨_, w, fun e => ?_, hd, ?_⟩
  · have := congrArg (fun s : Store => s[1]?) e
    cases this
  · obtain ⟨S', h', Q', _, _, h1, h2, _, _, _, _, h3, h4, _, _⟩ := C96_anew hG hF hT shelf_bare hd w
    exact ⟨S', h', Q', h1, h2, (h3 _ shelf_free).1, h4 _ _ shelf_stands, ((h3 _ shelf_free).2).trans hx⟩

end Verif.Src.Writes.Marking
