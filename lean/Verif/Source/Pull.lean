import Verif.Source.Converters
import Verif.Source.Marking
import Verif.Source.Part

/-!
# Converters in other stores

The objects of a converter, with other addresses, are a converter again; and objects of a store can be added to the shared ones.
-/

namespace Verif.Src.Writes.Marking

/-- A value that is an object or a string. -/
def SimpleV : Val → Prop
  | .obj _ => True
  | .str _ => True
  | _ => False

/-- A list or an instance with such values. -/
def SimpleO : Obj → Prop
  | .list vs => ∀ v ∈ vs, SimpleV v
  | .dict _ => False
  | .inst _ fs => ∀ p ∈ fs, SimpleV p.2

/-- The objects of a converter. -/
theorem pieces {U : Store} {A : Attrs} {b ad c : Nat} {K : Kind} (h : Converter U A b ad c K) :
    ∃ L : List Nat, c ∈ L ∧ (∀ a ∈ L, ∃ o, U[a]? = some o ∧ OwnO (fun x => x = b ∨ x = ad ∨ x ∈ L) o ∧ SimpleO o ∧
      ∀ f, GoodO (renO f o) ∧ Firm (renO f o) ∧ isDict (renO f o) = false) ∧
      (∀ X : Nat → Prop, X c → (∀ a o, X a → U[a]? = some o → SimpleO o → OwnO X o) → ∀ a ∈ L, X a) ∧
      ∀ (f : Nat → Nat) (V : Store), (∀ a ∈ L, ∀ o, U[a]? = some o → V[f a]? = some (renO f o)) → Converter V A (f b) (f ad) (f c) K := by
  cases K
  all_goals unfold Converter at h; dsimp only at h
  case mfenced =>
    obtain ⟨sp, h1, h2⟩ := h
    refine ⟨[c, sp], by simp, ?_, fun X hc hX => ?_, fun f V hV => ?_⟩
    rotate_left
    · have := hX c _ hc h1 (by simp [SimpleO, SimpleV])
      simp only [OwnO, OwnV, List.mem_cons, List.not_mem_nil, or_false, forall_eq_or_imp, forall_eq] at this
      simp [hc, this]
    rotate_left
    · intro a ha
      simp only [List.mem_cons, List.not_mem_nil, or_false] at ha
      rcases ha with rfl | rfl
      · refine ⟨_, h1, ?_, ?_, fun f => ⟨?_, ?_, rfl⟩⟩ <;> simp [OwnO, OwnV, SimpleO, SimpleV, renO, renV, GoodO, Good, Firm, loose, look]
      · have e : ∀ (f : Nat → Nat) (l : List Str), renVs f (l.map .str) = l.map .str := by
          intro f l
          induction l with
          | nil => rfl
          | cons s l ih => simp [renVs, renV, ih]
        refine ⟨_, h2, ?_, ?_, fun f => ⟨?_, ?_, rfl⟩⟩
        · intro v hv
          obtain ⟨s, _, rfl⟩ := List.mem_map.1 hv
          simp [OwnV]
        · intro v hv
          obtain ⟨s, _, rfl⟩ := List.mem_map.1 hv
          trivial
        · rw [renO, e]
          intro v hv
          obtain ⟨s, _, rfl⟩ := List.mem_map.1 hv
          trivial
        · trivial
    · have e : ∀ (f : Nat → Nat) (l : List Str), renVs f (l.map .str) = l.map .str := by
        intro f l
        induction l with
        | nil => rfl
        | cons s l ih => simp [renVs, renV, ih]
      refine ⟨f sp, hV c (by simp) _ h1, ?_⟩
      have := hV sp (by simp) _ h2
      rw [renO, e] at this
      exact this
  all_goals first
    | (refine ⟨[c], by simp, ?_, fun X hc _ => by simp [hc], fun f V hV => hV c (by simp) _ h⟩
       intro a ha
       rw [List.mem_singleton.1 ha]
       refine ⟨_, h, ?_, ?_, fun f => ⟨?_, ?_, rfl⟩⟩ <;> simp [OwnO, OwnV, SimpleO, SimpleV, renO, renV, GoodO, Good, Firm, loose, look])
    | (obtain ⟨w, h1, h2⟩ := h
       have own : ∀ X : Nat → Prop, X c → (∀ a o, X a → U[a]? = some o → SimpleO o → OwnO X o) → ∀ a ∈ [c, w], X a := by
         intro X hc hX
         have := hX c _ hc h1 (by simp [SimpleO, SimpleV])
         simp only [OwnO, OwnV, List.mem_cons, List.not_mem_nil, or_false, forall_eq_or_imp, forall_eq] at this
         simp [hc, this]
       refine ⟨[c, w], by simp, ?_, own, fun f V hV => ⟨f w, hV c (by simp) _ h1, hV w (by simp) _ h2⟩⟩
       intro a ha
       simp only [List.mem_cons, List.not_mem_nil, or_false] at ha
       rcases ha with rfl | rfl
       · refine ⟨_, h1, ?_, ?_, fun f => ⟨?_, ?_, rfl⟩⟩ <;> simp [OwnO, OwnV, SimpleO, SimpleV, renO, renV, GoodO, Good, Firm, loose, look]
       · refine ⟨_, h2, ?_, ?_, fun f => ⟨?_, ?_, rfl⟩⟩ <;> simp [OwnO, OwnV, SimpleO, SimpleV, renO, renV, GoodO, Good, Firm, loose, look])
    | (obtain ⟨u, w, h1, h2, h3⟩ := h
       have own : ∀ X : Nat → Prop, X c → (∀ a o, X a → U[a]? = some o → SimpleO o → OwnO X o) → ∀ a ∈ [c, u, w], X a := by
         intro X hc hX
         have e1 := hX c _ hc h1 (by simp [SimpleO, SimpleV])
         simp only [OwnO, OwnV, List.mem_cons, List.not_mem_nil, or_false, forall_eq_or_imp, forall_eq] at e1
         have e2 : X u := by simp [e1]
         have e3 := hX u _ e2 h2 (by simp [SimpleO, SimpleV])
         simp only [OwnO, OwnV, List.mem_cons, List.not_mem_nil, or_false, forall_eq_or_imp, forall_eq] at e3
         simp [hc, e1, e3]
       refine ⟨[c, u, w], by simp, ?_, own, fun f V hV => ⟨f u, f w, hV c (by simp) _ h1, hV u (by simp) _ h2, hV w (by simp) _ h3⟩⟩
       intro a ha
       simp only [List.mem_cons, List.not_mem_nil, or_false] at ha
       rcases ha with rfl | rfl | rfl
       · refine ⟨_, h1, ?_, ?_, fun f => ⟨?_, ?_, rfl⟩⟩ <;> simp [OwnO, OwnV, SimpleO, SimpleV, renO, renV, GoodO, Good, Firm, loose, look]
       · refine ⟨_, h2, ?_, ?_, fun f => ⟨?_, ?_, rfl⟩⟩ <;> simp [OwnO, OwnV, SimpleO, SimpleV, renO, renV, GoodO, Good, Firm, loose, look]
       · refine ⟨_, h3, ?_, ?_, fun f => ⟨?_, ?_, rfl⟩⟩ <;> simp [OwnO, OwnV, SimpleO, SimpleV, renO, renV, GoodO, Good, Firm, loose, look])

/-! ## The same converter elsewhere -/

section
variable {ρ : List Nat}

theorem simple_v {v v' : Val} (hv : SimpleV v) (h : VRel ρ v v') : v' = renV (fun a => ρ.getD a 0) v := by
  cases v with
  | obj a =>
    cases h with
    | obj h => simp [renV, List.getD, h]
    | same h => cases h
  | str s =>
    cases h
    rfl
  | _ => exact hv.elim

theorem simple_p {κ : Type} : ∀ {l l' : List (κ × Val)}, (∀ p ∈ l, SimpleV p.2) → PRel ρ l l' → l' = l.map fun p => (p.1, renV (fun a => ρ.getD a 0) p.2)
  | _, _, _, .nil => rfl
  | _, _, hl, .cons h h' => by
    rw [List.map_cons, ← simple_p (fun p hp => hl p (List.mem_cons_of_mem _ hp)) h', ← simple_v (hl _ List.mem_cons_self) h]

theorem simple_vs : ∀ {l l' : List Val}, (∀ v ∈ l, SimpleV v) → VRels ρ l l' → l' = renVs (fun a => ρ.getD a 0) l
  | _, _, _, .nil => by rw [renVs]
  | _, _, hl, .cons h h' => by
    rw [renVs, ← simple_vs (fun p hp => hl p (List.mem_cons_of_mem _ hp)) h', ← simple_v (hl _ List.mem_cons_self) h]

theorem simple_o {o o' : Obj} (ho : SimpleO o) (h : ORel ρ o o') : o' = renO (fun a => ρ.getD a 0) o := by
  cases h with
  | list h => rw [simple_vs ho h, renO]
  | dict h => exact ho.elim
  | inst h => rw [simple_p ho h, renO]

theorem veiled_v {v v' : Val} (hv : SimpleV v) (h : Veil.VRel ρ v v') : v' = renV (fun a => ρ.getD a 0) v := by
  cases v with
  | obj a =>
    cases h with
    | obj h => simp [renV, List.getD, h]
    | same h => cases h
  | str s =>
    cases h
    rfl
  | _ => exact hv.elim

theorem veiled_p {κ : Type} : ∀ {l l' : List (κ × Val)}, (∀ p ∈ l, SimpleV p.2) → Veil.PRel ρ l l' → l' = l.map fun p => (p.1, renV (fun a => ρ.getD a 0) p.2)
  | _, _, _, .nil => rfl
  | _, _, hl, .cons h h' => by
    rw [List.map_cons, ← veiled_p (fun p hp => hl p (List.mem_cons_of_mem _ hp)) h', ← veiled_v (hl _ List.mem_cons_self) h]

theorem veiled_vs : ∀ {l l' : List Val}, (∀ v ∈ l, SimpleV v) → Veil.VRels ρ l l' → l' = renVs (fun a => ρ.getD a 0) l
  | _, _, _, .nil => by rw [renVs]
  | _, _, hl, .cons h h' => by
    rw [renVs, ← veiled_vs (fun p hp => hl p (List.mem_cons_of_mem _ hp)) h', ← veiled_v (hl _ List.mem_cons_self) h]

theorem veiled_o {o o' : Obj} (ho : SimpleO o) (h : Veil.ORel ρ o o') : o' = renO (fun a => ρ.getD a 0) o := by
  cases h with
  | list h => rw [veiled_vs ho h, renO]
  | dict h => exact ho.elim
  | inst h => rw [veiled_p ho h, renO]

theorem getD_at {a a' : Nat} (h : ρ[a]? = some a') : ρ.getD a 0 = a' := by simp [List.getD, h]

theorem Converter.move {S U : Store} {A : Attrs} {b ad c b' ad' c' : Nat} {K : Kind} (h : Converter S A b ad c K) (hr : SRel ρ S U)
    (h1 : ρ[b]? = some b') (h2 : ρ[ad]? = some ad') (h3 : ρ[c]? = some c') : Converter U A b' ad' c' K := by
  obtain ⟨L, _, hL, _, hp⟩ := pieces h
  have := hp (fun a => ρ.getD a 0) U fun a ha o ho => by
    obtain ⟨o', g1, _, g2, _⟩ := hL a ha
    rw [ho] at g1
    cases g1
    have hlt : a < ρ.length := by
      rw [hr.len]
      exact (List.getElem?_eq_some_iff.1 ho).1
    have ha' : ρ[a]? = some ρ[a] := List.getElem?_eq_getElem hlt
    obtain ⟨o', g3, g4⟩ := hr.get ho ha'
    rw [getD_at ha', g3, simple_o g2 g4]
  rwa [getD_at h1, getD_at h2, getD_at h3] at this

theorem Converter.unveil {S U : Store} {A : Attrs} {b ad c b' ad' c' : Nat} {K : Kind} (h : Converter S A b ad c K) (hr : Veil.SRel ρ S U)
    (h1 : ρ[b]? = some b') (h2 : ρ[ad]? = some ad') (h3 : ρ[c]? = some c') : Converter U A b' ad' c' K := by
  obtain ⟨L, _, hL, _, hp⟩ := pieces h
  have := hp (fun a => ρ.getD a 0) U fun a ha o ho => by
    obtain ⟨o', g1, _, g2, _⟩ := hL a ha
    rw [ho] at g1
    cases g1
    have hlt : a < ρ.length := by
      rw [hr.len]
      exact (List.getElem?_eq_some_iff.1 ho).1
    have ha' : ρ[a]? = some ρ[a] := List.getElem?_eq_getElem hlt
    obtain ⟨o', g3, g4⟩ := hr.get ho ha'
    rw [getD_at ha', g3, veiled_o g2 g4]
  rwa [getD_at h1, getD_at h2, getD_at h3] at this
end

/-! ## More shared objects -/

section
variable {ρ : List Nat} (hn : ρ.Nodup)
include hn

mutual
theorem vrel_left {v v' w : Val} (h1 : VRel ρ v w) (h2 : VRel ρ v' w) : v = v' := by
  cases h1 with
  | obj a1 =>
    cases h2 with
    | obj a2 => rw [nodup_at hn a1 a2]
    | same hp => cases hp
  | method a1 =>
    cases h2 with
    | method a2 => rw [vrel_left a1 a2]
    | same hp => cases hp
  | bmethod a1 =>
    cases h2 with
    | bmethod a2 => rw [vrel_left a1 a2]
    | same hp => cases hp
  | seq a1 =>
    cases h2 with
    | seq a2 => rw [vrels_left a1 a2]
    | same hp => cases hp
  | same hp =>
    cases h2 with
    | obj _ => cases hp
    | method _ => cases hp
    | bmethod _ => cases hp
    | seq _ => cases hp
    | same _ => rfl
theorem vrels_left {v v' w : List Val} (h1 : VRels ρ v w) (h2 : VRels ρ v' w) : v = v' := by
  cases h1 with
  | nil => cases h2; rfl
  | cons a1 b1 =>
    cases h2 with
    | cons a2 b2 => rw [vrel_left a1 a2, vrels_left b1 b2]
end

theorem prel_left {κ : Type} : ∀ {v v' w : List (κ × Val)}, PRel ρ v w → PRel ρ v' w → v = v'
  | _, _, _, .nil, .nil => rfl
  | _, _, _, .cons h g, .cons h' g' => by rw [vrel_left hn h h', prel_left g g']

theorem orel_left {o o' w : Obj} (h : ORel ρ o w) (h' : ORel ρ o' w) : o = o' := by
  cases h with
  | list h => cases h' with | list h' => rw [vrels_left hn h h']
  | dict h => cases h' with | dict h' => rw [prel_left hn h h']
  | inst h => cases h' with | inst h' => rw [prel_left hn h h']
end

open Classical in
/-- Objects that refer to each other and to the shared ones only can be shared, too. -/
theorem pull {ρ : List Nat} {M U : Store} (hr : SRel ρ M U) (L : List Nat)
    (hL : ∀ a ∈ L, ∃ o, U[a]? = some o ∧ OwnO (fun x => x ∈ ρ ∨ x ∈ L) o) :
    ∃ (A : List Nat) (O : Store) (f : Nat → Nat), SRel (ρ ++ A) (M ++ O) U ∧ (∀ a ∈ A, a ∈ L ∧ a ∉ ρ) ∧
      (∀ a, a ∈ ρ ∨ a ∈ L → (ρ ++ A)[f a]? = some a) ∧ (∀ a ∈ L, ∀ o, U[a]? = some o → (M ++ O)[f a]? = some (renO f o)) ∧
      ∀ o ∈ O, ∃ a ∈ L, ∃ o', U[a]? = some o' ∧ o = renO f o' := by
  have hA : ∀ a, a ∈ (List.range U.length).filter (fun a => decide (a ∈ L ∧ a ∉ ρ)) ↔ a ∈ L ∧ a ∉ ρ := by
    intro a
    rw [List.mem_filter, List.mem_range, decide_eq_true_iff]
    refine ⟨fun h => h.2, fun h => ⟨?_, h⟩⟩
    obtain ⟨o, h1, _⟩ := hL a h.1
    exact (List.getElem?_eq_some_iff.1 h1).1
  have hAn : ((List.range U.length).filter (fun a => decide (a ∈ L ∧ a ∉ ρ))).Nodup := List.nodup_range.filter _
  generalize (List.range U.length).filter (fun a => decide (a ∈ L ∧ a ∉ ρ)) = A at hA hAn
  have hnd : (ρ ++ A).Nodup := List.nodup_append.2 ⟨hr.nodup, hAn, fun x hx y hy e => ((hA y).1 hy).2 (e ▸ hx)⟩
  have hex : ∀ a, a ∈ ρ ∨ a ∈ L → ∃ i : Nat, (ρ ++ A)[i]? = some a := by
    intro a ha
    apply List.getElem?_of_mem
    by_cases h : a ∈ ρ
    · exact List.mem_append_left _ h
    · exact List.mem_append_right _ ((hA a).2 ⟨ha.resolve_left h, h⟩)
  let f : Nat → Nat := fun a => if h : ∃ i : Nat, (ρ ++ A)[i]? = some a then h.choose else 0
  have hf : ∀ a, a ∈ ρ ∨ a ∈ L → (ρ ++ A)[f a]? = some a := by
    intro a ha
    have h := hex a ha
    show (ρ ++ A)[if h : ∃ i : Nat, (ρ ++ A)[i]? = some a then h.choose else 0]? = some a
    rw [dif_pos h]
    exact h.choose_spec
  clear_value f
  have hrel : SRel (ρ ++ A) (M ++ A.map fun a => renO f (U[a]?.getD (.list []))) U := by
    refine ⟨by simp [hr.len], hnd, fun {i a o} h1 h2 => ?_⟩
    by_cases hi : i < ρ.length
    · rw [List.getElem?_append_left hi] at h2
      rw [List.getElem?_append_left (by rw [← hr.len]; exact hi)] at h1
      obtain ⟨o', h3, h4⟩ := hr.get h1 h2
      exact ⟨o', h3, h4.mono (List.prefix_append _ _)⟩
    · rw [List.getElem?_append_right (by omega)] at h2
      rw [List.getElem?_append_right (by rw [← hr.len]; omega), List.getElem?_map, ← hr.len, h2] at h1
      cases h1
      have ha := (hA a).1 (List.mem_of_getElem? h2)
      obtain ⟨o, h3, h4⟩ := hL a ha.1
      refine ⟨o, h3, ?_⟩
      dsimp only
      rw [h3]
      exact orel_ren hf o h4
  refine ⟨A, _, f, hrel, fun a ha => (hA a).1 ha, hf, fun a ha o ho => ?_, fun o ho => ?_⟩
  · have h1 := hf a (.inr ha)
    have hlt := (List.getElem?_eq_some_iff.1 h1).1
    rw [hrel.len] at hlt
    have h2 := List.getElem?_eq_getElem hlt
    obtain ⟨o', h3, h4⟩ := hrel.get h2 h1
    rw [ho] at h3
    cases h3
    obtain ⟨o', h5, h6⟩ := hL a ha
    rw [ho] at h5
    cases h5
    rw [h2, orel_left hnd h4 (orel_ren hf o h6)]
  · obtain ⟨a, ha, rfl⟩ := List.mem_map.1 ho
    have ha := (hA a).1 ha
    obtain ⟨o, h3, h4⟩ := hL a ha.1
    exact ⟨a, ha.1, o, h3, by rw [h3]; rfl⟩

end Verif.Src.Writes.Marking
