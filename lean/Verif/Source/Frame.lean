import Verif.Source.Semantics

/-!
# Only what can be reached is changed

`P` is a set of addresses that contains all addresses beyond the store `S`.  If the
arguments of a call refer to objects in `P` only, and so do the objects in `P`, then the call
leaves all other objects of `S` as they are, and what it returns or raises refers to
objects in `P` only.  This holds of every function of the fragment.
-/

set_option linter.unusedSectionVars false

namespace Verif.Src

mutual
/-- The value refers to objects in `P` only. -/
def OwnV (P : Nat → Prop) : Val → Prop
  | .obj a => P a
  | .method v _ _ => OwnV P v
  | .bmethod v _ => OwnV P v
  | .seq vs => OwnVs P vs
  | _ => True
/-- So do all the values. -/
def OwnVs (P : Nat → Prop) : List Val → Prop
  | [] => True
  | v :: vs => OwnV P v ∧ OwnVs P vs
end

theorem ownVs_iff {P : Nat → Prop} : ∀ {vs : List Val}, OwnVs P vs ↔ ∀ v ∈ vs, OwnV P v
  | [] => by simp [OwnVs]
  | v :: vs => by simp [OwnVs, ownVs_iff (vs := vs)]

theorem OwnV.addr {P : Nat → Prop} {a : Nat} (h : OwnV P (.obj a)) : P a := by
  simpa only [OwnV] using h

/-- The object refers to objects in `P` only. -/
def OwnO (P : Nat → Prop) : Obj → Prop
  | .list vs => ∀ v ∈ vs, OwnV P v
  | .dict d => ∀ p ∈ d, OwnV P p.2
  | .inst _ fs => ∀ p ∈ fs, OwnV P p.2

/-- So do the local variables. -/
def OwnL (P : Nat → Prop) (l : List (Ident × Val)) : Prop := ∀ p ∈ l, OwnV P p.2

/-- The objects in `P` refer to objects in `P` only, and the others are as in `S`. -/
structure Frame (P : Nat → Prop) (S h : Store) : Prop where
  length : S.length ≤ h.length
  own : ∀ a o, h[a]? = some o → P a → OwnO P o
  same : ∀ a, a < S.length → ¬ P a → h[a]? = S[a]?

/-- The result keeps to `P`. -/
def Kept {α : Type} (P : Nat → Prop) (S : Store) (Q : α → Prop) : Res α → Prop
  | .ok a h => Q a ∧ Frame P S h
  | .exc v h => OwnV P v ∧ Frame P S h
  | .stuck => True

/-- So does the outcome of a statement. -/
def KeptO (P : Nat → Prop) (S : Store) : Out → Prop
  | .next l h => OwnL P l ∧ Frame P S h
  | .ret v h => OwnV P v ∧ Frame P S h
  | .cont l h => OwnL P l ∧ Frame P S h
  | .exc v l h => OwnV P v ∧ OwnL P l ∧ Frame P S h
  | .stuck => True

section
variable {P : Nat → Prop} {S : Store} (hP : ∀ a, S.length ≤ a → P a)

theorem Kept.bind {α β : Type} {Q : α → Prop} {R : β → Prop} {r : Res α} {f : α → Store → Res β}
    (hr : Kept P S Q r) (hf : ∀ a h, Q a → Frame P S h → Kept P S R (f a h)) : Kept P S R (r.bind f) := by
  cases r with
  | ok a h => exact hf a h hr.1 hr.2
  | exc v h => exact hr
  | stuck => trivial

theorem Kept.out {α : Type} {Q : α → Prop} {r : Res α} {l : Locals} {f : α → Store → Out} (hl : OwnL P l)
    (hr : Kept P S Q r) (hf : ∀ a h, Q a → Frame P S h → KeptO P S (f a h)) : KeptO P S (r.out l f) := by
  cases r with
  | ok a h => exact hf a h hr.1 hr.2
  | exc v h => exact ⟨hr.1, hl, hr.2⟩
  | stuck => trivial

theorem KeptO.andThen {o : Out} {f : Locals → Store → Out} (ho : KeptO P S o)
    (hf : ∀ l h, OwnL P l → Frame P S h → KeptO P S (f l h)) : KeptO P S (o.andThen f) := by
  cases o with
  | next l h => exact hf l h ho.1 ho.2
  | _ => exact ho

theorem KeptO.result {o : Out} (ho : KeptO P S o) : Kept P S (OwnV P) o.result := by
  cases o with
  | next l h => exact ⟨by simp [OwnV], ho.2⟩
  | ret v h => exact ho
  | cont l h => trivial
  | exc v l h => exact ⟨ho.1, ho.2.2⟩
  | stuck => trivial

theorem Kept.of {α : Type} {Q : α → Prop} {o : Option α} {h : Store} (hf : Frame P S h)
    (ho : ∀ a, o = some a → Q a) : Kept P S Q (Res.of o h) := by
  cases o with
  | none => trivial
  | some a => exact ⟨ho a rfl, hf⟩

theorem Frame.new (hP : ∀ a, S.length ≤ a → P a) {o : Obj} {h : Store} (hf : Frame P S h) (ho : OwnO P o) :
    Kept P S (OwnV P) (new o h) := by
  refine ⟨by simp only [OwnV]; exact hP _ hf.length, by simp; have := hf.length; omega, fun a o' ha hpa => ?_, fun a ha hn => ?_⟩
  · by_cases h1 : a < h.length
    · rw [List.getElem?_append_left h1] at ha
      exact hf.own a o' ha hpa
    · rw [List.getElem?_append_right (by omega)] at ha
      rw [List.getElem?_singleton] at ha
      split at ha
      · cases ha; exact ho
      · cases ha
  · rw [List.getElem?_append_left (by have := hf.length; omega)]
    exact hf.same a ha hn

theorem Frame.set {o : Obj} {h : Store} {a : Nat} (hf : Frame P S h) (ha : P a) (ho : OwnO P o) :
    Frame P S (h.set a o) := by
  refine ⟨by simpa using hf.length, fun b o' hb hpb => ?_, fun b hb hn => ?_⟩
  · by_cases e : a = b
    · subst e
      rw [List.getElem?_set] at hb
      simp only [if_true] at hb
      split at hb
      · cases hb; exact ho
      · cases hb
    · rw [List.getElem?_set_ne e] at hb
      exact hf.own b o' hb hpb
  · rw [List.getElem?_set_ne (fun e : a = b => hn (e ▸ ha))]
    exact hf.same b hb hn

theorem OwnL.look {l : List (Ident × Val)} (hl : OwnL P l) {x : Ident} {v : Val} (h : look x l = some v) :
    OwnV P v := by
  induction l with
  | nil => cases h
  | cons p l ih =>
    obtain ⟨y, w⟩ := p
    unfold Verif.Src.look at h
    split at h
    · cases h; exact hl (y, v) List.mem_cons_self
    · exact ih (fun p hp => hl p (List.mem_cons_of_mem _ hp)) h

theorem OwnL.cons {l : List (Ident × Val)} (hl : OwnL P l) {x : Ident} {v : Val} (hv : OwnV P v) :
    OwnL P ((x, v) :: l) := by
  intro p hp
  rcases List.mem_cons.1 hp with h | h
  · rw [h]; exact hv
  · exact hl p h

theorem OwnL.setField {l : List (Ident × Val)} (hl : OwnL P l) {x : Ident} {v : Val} (hv : OwnV P v) :
    OwnL P (setField x v l) := by
  induction l with
  | nil => exact OwnL.cons hl hv
  | cons p l ih =>
    obtain ⟨y, w⟩ := p
    have hl' : OwnL P l := fun p hp => hl p (List.mem_cons_of_mem _ hp)
    unfold Verif.Src.setField
    split
    · exact hl'.cons hv
    · exact (ih hl').cons (hl (y, w) List.mem_cons_self)

theorem OwnL.unset {l : List (Ident × Val)} (hl : OwnL P l) (x : Ident) : OwnL P (unset x l) :=
  fun p hp => hl p (List.mem_filter.1 hp).1

theorem own_get {d : Dict Val} (hd : ∀ p ∈ d, OwnV P p.2) {k : Str} {v : Val} (h : Dict.get? d k = some v) :
    OwnV P v := by
  induction d with
  | nil => cases h
  | cons p d ih =>
    obtain ⟨k', w⟩ := p
    unfold Dict.get? at h
    split at h
    · next hw => cases h; exact ih (fun p hp => hd p (List.mem_cons_of_mem _ hp)) hw
    · split at h
      · cases h; exact hd (k', v) List.mem_cons_self
      · cases h

theorem own_set {d : Dict Val} (hd : ∀ p ∈ d, OwnV P p.2) (k : Str) {v : Val} (hv : OwnV P v) :
    ∀ p ∈ Dict.set d k v, OwnV P p.2 := by
  intro p hp
  unfold Dict.set at hp
  split at hp
  · obtain ⟨q, hq, rfl⟩ := List.mem_map.1 hp
    split
    · exact hv
    · exact hd q hq
  · rcases List.mem_append.1 hp with h | h
    · exact hd p h
    · rw [List.mem_singleton.1 h]; exact hv

theorem own_dictOf : ∀ (ks : List Str) (vs : List Val) (d : Dict Val), (∀ v ∈ vs, OwnV P v) →
    (∀ p ∈ d, OwnV P p.2) → ∀ p ∈ dictOf ks vs d, OwnV P p.2
  | [], _, d, _, hd => by unfold dictOf; exact hd
  | _ :: _, [], d, _, hd => by unfold dictOf; exact hd
  | k :: ks, v :: vs, d, hv, hd => by
    unfold dictOf
    exact own_dictOf ks vs _ (fun w hw => hv w (List.mem_cons_of_mem _ hw))
      (own_set hd k (hv v List.mem_cons_self))

theorem own_index {vs : List Val} (hv : ∀ v ∈ vs, OwnV P v) {i : Int} {v : Val} (h : pyIndex vs i = some v) :
    OwnV P v := by
  unfold pyIndex at h
  repeat' (split at h)
  · exact hv v (List.mem_of_getElem? h)
  · exact hv v (List.mem_of_getElem? h)
  · cases h

theorem own_iterate {h : Store} (hf : Frame P S h) {v : Val} (hv : OwnV P v) {vs : List Val}
    (hi : iterate h v = some vs) : ∀ w ∈ vs, OwnV P w := by
  unfold iterate at hi
  split at hi
  · cases hi
    intro w hw
    obtain ⟨c, _, rfl⟩ := List.mem_map.1 hw
    simp [OwnV]
  · cases hi
    simp only [OwnV] at hv
    exact ownVs_iff.1 hv
  · next a =>
    split at hi
    · next hl =>
      cases hi
      exact hf.own _ _ hl (by simpa only [OwnV] using hv)
    · cases hi
  · cases hi

theorem own_nodes {α : Type} (f : α → Val) (hf : ∀ a, OwnV P (f a)) (xs : List α) : OwnVs P (xs.map f) := by
  rw [ownVs_iff]
  intro v hv
  obtain ⟨a, _, rfl⟩ := List.mem_map.1 hv
  exact hf a

theorem own_global {x : Ident} {v : Val} (h : global x = some v) : OwnV P v := by
  unfold global at h
  repeat' (split at h)
  all_goals first
    | (cases h; simp [OwnV]; done)
    | cases h

theorem own_tableGet {t : Ident} {k : Str} {v : Val} (h : tableGet t k = some v) : OwnV P v := by
  unfold tableGet at h
  split at h
  all_goals first
    | (obtain ⟨_, _, rfl⟩ := Option.map_eq_some_iff.1 h; simp [OwnV]; done)
    | cases h

theorem kept_item {v k : Val} {h : Store} (hf : Frame P S h) (hv : OwnV P v) :
    Kept P S (OwnV P) (item v k h) := by
  unfold item
  split
  · split
    · exact ⟨by simp [OwnV], hf⟩
    · exact ⟨by simp [OwnV], hf⟩
  · split
    · next hl =>
      split
      · next hi => exact ⟨own_index (hf.own _ _ hl (by simpa only [OwnV] using hv)) hi, hf⟩
      · exact ⟨by simp [OwnV], hf⟩
    · trivial
  · split
    · next hl =>
      split
      · next hi =>
        split
        · exact ⟨own_get (hf.own _ _ hl (by simpa only [OwnV] using hv)) hi, hf⟩
        · trivial
      · exact ⟨by simp [OwnV], hf⟩
    · trivial
  · trivial

theorem kept_libAttr {v : Val} {a : Ident} {h : Store} (hf : Frame P S h) (hv : OwnV P v) :
    Kept P S (OwnV P) (libAttr v a h) := by
  unfold libAttr
  repeat' split
  all_goals first
    | trivial
    | (refine ⟨?_, hf⟩; simp [OwnV]; done)
    | (refine ⟨?_, hf⟩; simp only [OwnV]; exact own_nodes _ (fun _ => by simp [OwnV]) _)
    | (refine Kept.of hf fun w hw => ?_
       obtain ⟨_, _, rfl⟩ := Option.map_eq_some_iff.1 hw
       simp [OwnV]; done)

theorem kept_libMethod (hP : ∀ a, S.length ≤ a → P a) {v : Val} {m : Ident} {args : List Val} {h : Store}
    (hf : Frame P S h) (hv : OwnV P v) (ha : ∀ w ∈ args, OwnV P w) :
    Kept P S (OwnV P) (libMethod v m args h) := by
  have hmap : ∀ ss : List Str, OwnO P (.list (ss.map .str)) := by
    intro ss w hw
    obtain ⟨s, _, rfl⟩ := List.mem_map.1 hw
    simp [OwnV]
  unfold libMethod
  split
  · exact ⟨by simp [OwnV], hf⟩
  · exact hf.new hP (hmap _)
  · exact hf.new hP (hmap _)
  · split
    · exact ⟨by simp [OwnV], hf⟩
    · trivial
  · refine ⟨?_, hf⟩
    cases h1 : tableGet _ _ with
    | none => simp [OwnV]
    | some w => exact own_tableGet h1
  · refine ⟨?_, hf⟩
    cases h1 : tableGet _ _ with
    | none => exact ha _ (by simp)
    | some w => exact own_tableGet h1
  · split
    · refine ⟨?_, hf⟩
      simp only [OwnV]
      exact own_nodes _ (fun _ => by simp [OwnV]) _
    · trivial
  · refine ⟨?_, hf⟩
    simp only [OwnV]
    exact own_nodes _ (fun _ => by simp [OwnV]) _
  · refine Kept.of hf fun w hw => ?_
    obtain ⟨_, _, rfl⟩ := Option.map_eq_some_iff.1 hw
    simp [OwnV]
  · split
    · next hl =>
      refine ⟨?_, hf⟩
      cases h1 : Dict.get? _ _ with
      | none => simp [OwnV]
      | some w => exact own_get (hf.own _ _ hl (by simpa only [OwnV] using hv)) h1
    · trivial
  · split
    · next hl =>
      refine ⟨?_, hf⟩
      cases h1 : Dict.get? _ _ with
      | none => exact ha _ (by simp)
      | some w => exact own_get (hf.own _ _ hl (by simpa only [OwnV] using hv)) h1
    · trivial
  · split
    · next hl =>
      have hp := hv.addr
      refine ⟨by simp [OwnV], hf.set hp fun w hw => ?_⟩
      rcases List.mem_append.1 hw with h1 | h1
      · exact hf.own _ _ hl hp w h1
      · rw [List.mem_singleton.1 h1]; exact ha _ (by simp)
    · trivial
  · trivial

theorem kept_builtin (hP : ∀ a, S.length ≤ a → P a) {env : Env} {f : Ident} {args : List Val} {h : Store}
    (hf : Frame P S h) (ha : ∀ w ∈ args, OwnV P w) : Kept P S (OwnV P) (builtin env f args h) := by
  unfold builtin found
  repeat' split
  all_goals first
    | trivial
    | (refine ⟨?_, hf⟩; simp [OwnV]; done)
    | (refine ⟨?_, hf⟩; simp only [OwnV]; exact own_nodes _ (fun _ => by simp [OwnV]) _)
    | (refine Kept.of hf fun w hw => ?_
       obtain ⟨_, _, rfl⟩ := Option.map_eq_some_iff.1 hw
       first
        | (simp [OwnV]; done)
        | (split <;> simp [OwnV]; done)
        | (dsimp only; split <;> simp [OwnV]; done))
    | (rename_i hi; exact hf.new hP (own_iterate hf (ha _ (by simp)) hi))

/-- A context that keeps to `P`. -/
def KeepsTo (P : Nat → Prop) (S : Store) (C : Ctx) : Prop :=
  ∀ f args kw h, (∀ v ∈ args, OwnV P v) → OwnL P kw → Frame P S h → Kept P S (OwnV P) (C.call f args kw h)

variable {C : Ctx} (hC : KeepsTo P S C)

theorem kept_getAttr (hC : KeepsTo P S C) {v : Val} {a : Ident} {h : Store} (hf : Frame P S h) (hv : OwnV P v) :
    Kept P S (OwnV P) (getAttr C v a h) := by
  unfold getAttr
  split
  · split
    · trivial
    · exact ⟨by simpa only [OwnV] using hv, hf⟩
    · exact ⟨by simpa only [OwnV] using hv, hf⟩
    · next hl =>
      have hfs : OwnL P _ := hf.own _ _ hl (by simpa only [OwnV] using hv)
      split
      · exact hC _ _ _ _ (by intro w hw; rw [List.mem_singleton.1 hw]; exact hv) (by intro p hp; cases hp) hf
      · split
        · next h1 => exact ⟨hfs.look h1, hf⟩
        · exact ⟨by simpa only [OwnV] using hv, hf⟩
      · exact ⟨by simp [OwnV], hf⟩
      · exact Kept.of hf fun w hw => hfs.look hw
  · split
    · exact ⟨by simp [OwnV], hf⟩
    · trivial
    · exact kept_libAttr hf hv
  · exact kept_libAttr hf hv

theorem kept_apply (hP : ∀ a, S.length ≤ a → P a) (hC : KeepsTo P S C) {f : Val} {args : List Val}
    {kw : List (Ident × Val)} {h : Store} (hf : Frame P S h) (hv : OwnV P f) (ha : ∀ w ∈ args, OwnV P w)
    (hk : OwnL P kw) : Kept P S (OwnV P) (apply C f args kw h) := by
  have hcons : ∀ v, OwnV P v → ∀ w ∈ v :: args, OwnV P w := by
    intro v hv w hw
    rcases List.mem_cons.1 hw with h1 | h1
    · rw [h1]; exact hv
    · exact ha w h1
  unfold apply
  split
  · refine Kept.bind (hf.new hP (by intro p hp; cases hp)) fun self h hs hf => ?_
    split
    · exact Kept.bind (hC _ _ _ _ (hcons _ hs) hk hf) fun _ _ _ hf => ⟨hs, hf⟩
    · split
      · exact ⟨hs, hf⟩
      · trivial
  · split
    · exact hC _ _ _ _ ha hk hf
    · trivial
  · have hself := hv
    simp only [OwnV] at hself
    split
    · split
      · split
        · next hl =>
          have hp := hself.addr
          have hfs : OwnL P _ := hf.own _ _ hl hp
          exact ⟨by simp [OwnV], hf.set hp (hfs.setField (ha _ (by simp)))⟩
        · trivial
      · trivial
    · split
      · exact hC _ _ _ _ (hcons _ hself) hk hf
      · trivial
  · split
    · exact hC _ _ _ _ ha hk hf
    · trivial
  · split
    · exact kept_libMethod hP hf (by simpa only [OwnV] using hv) ha
    · trivial
  · split
    · exact kept_builtin hP hf ha
    · trivial
  · trivial

theorem kept_compRes {p : Locals → Store → Res Bool} {q : Locals → Store → Res Val}
    (hp : ∀ l h, OwnL P l → Frame P S h → Kept P S (fun _ => True) (p l h))
    (hq : ∀ l h, OwnL P l → Frame P S h → Kept P S (OwnV P) (q l h)) (x : Ident) {l : Locals} (hl : OwnL P l) :
    ∀ vs, (∀ v ∈ vs, OwnV P v) → ∀ h, Frame P S h → Kept P S (fun ws => ∀ w ∈ ws, OwnV P w) (compRes p q x l vs h)
  | [], _, h, hf => ⟨by simp, hf⟩
  | v :: vs, hv, h, hf => by
    have hl' : OwnL P ((x, v) :: l) := hl.cons (hv v List.mem_cons_self)
    have hv' := fun w hw => hv w (List.mem_cons_of_mem v hw)
    unfold compRes
    refine Kept.bind (hp _ _ hl' hf) fun b h _ hf => ?_
    split
    · refine Kept.bind (hq _ _ hl' hf) fun w h hw hf => ?_
      refine Kept.bind (kept_compRes hp hq x hl vs hv' h hf) fun ws h hws hf => ⟨?_, hf⟩
      intro u hu
      rcases List.mem_cons.1 hu with h1 | h1
      · rw [h1]; exact hw
      · exact hws u h1
    · exact kept_compRes hp hq x hl vs hv' h hf

theorem kept_anyRes {q : Locals → Store → Res Val}
    (hq : ∀ l h, OwnL P l → Frame P S h → Kept P S (OwnV P) (q l h)) (x : Ident) {l : Locals} (hl : OwnL P l) :
    ∀ vs, (∀ v ∈ vs, OwnV P v) → ∀ h, Frame P S h → Kept P S (OwnV P) (anyRes q x l vs h)
  | [], _, h, hf => ⟨by simp [OwnV], hf⟩
  | v :: vs, hv, h, hf => by
    unfold anyRes
    refine Kept.bind (hq _ _ (hl.cons (hv v List.mem_cons_self)) hf) fun b h _ hf => ?_
    split
    · exact ⟨by simp [OwnV], hf⟩
    · exact kept_anyRes hq x hl vs (fun w hw => hv w (List.mem_cons_of_mem v hw)) h hf
    · trivial

theorem own_zip {ks : List Ident} {vs : List Val} (hv : ∀ v ∈ vs, OwnV P v) : OwnL P (ks.zip vs) :=
  fun _ hp => hv _ (List.of_mem_zip hp).2

mutual
theorem kept_eval (hP : ∀ a, S.length ≤ a → P a) (hC : KeepsTo P S C) : ∀ (e : Expr) (l : Locals) (h : Store),
    OwnL P l → Frame P S h → Kept P S (OwnV P) (eval C e l h)
  | .none, _, _, _, hf => ⟨by simp [OwnV], hf⟩
  | .bool _, _, _, _, hf => ⟨by simp [OwnV], hf⟩
  | .int _, _, _, _, hf => ⟨by simp [OwnV], hf⟩
  | .str _, _, _, _, hf => ⟨by simp [OwnV], hf⟩
  | .name x, l, h, hl, hf => by
    unfold eval
    split
    · next h1 => exact ⟨hl.look h1, hf⟩
    · exact Kept.of hf fun v hv => own_global hv
  | .attr e a, l, h, hl, hf => by
    unfold eval
    exact Kept.bind (kept_eval hP hC e l h hl hf) fun v h hv hf => kept_getAttr hC hf hv
  | .super base a, l, h, hl, hf => by
    unfold eval
    split
    · trivial
    · next h1 =>
      have hs := hl.look h1
      split
      · exact ⟨by simpa only [OwnV] using hs, hf⟩
      · split
        · exact ⟨by simpa only [OwnV] using hs, hf⟩
        · trivial
  | .item e k, l, h, hl, hf => by
    unfold eval
    exact Kept.bind (kept_eval hP hC e l h hl hf) fun v h hv hf =>
      Kept.bind (kept_eval hP hC k l h hl hf) fun k h _ hf => kept_item hf hv
  | .slice e lo hi, l, h, hl, hf => by
    unfold eval
    refine Kept.bind (kept_eval hP hC e l h hl hf) fun v h hv hf =>
      Kept.bind (kept_eval hP hC lo l h hl hf) fun i h _ hf =>
      Kept.bind (kept_eval hP hC hi l h hl hf) fun j h _ hf => ?_
    split
    · exact ⟨by simp [OwnV], hf⟩
    · trivial
  | .call f args ks vs, l, h, hl, hf => by
    unfold eval
    exact Kept.bind (kept_eval hP hC f l h hl hf) fun f h hv hf =>
      Kept.bind (kept_evals hP hC args l h hl hf) fun args h ha hf =>
      Kept.bind (kept_evals hP hC vs l h hl hf) fun vs h hvs hf => kept_apply hP hC hf hv ha (own_zip hvs)
  | .fstr parts, l, h, hl, hf => by
    unfold eval
    refine Kept.bind (kept_evals hP hC parts l h hl hf) fun vs h _ hf => Kept.of hf fun v hv => ?_
    obtain ⟨_, _, rfl⟩ := Option.map_eq_some_iff.1 hv
    simp [OwnV]
  | .list es, l, h, hl, hf => by
    unfold eval
    exact Kept.bind (kept_evals hP hC es l h hl hf) fun vs h hv hf => hf.new hP hv
  | .dict ks es, l, h, hl, hf => by
    unfold eval
    exact Kept.bind (kept_evals hP hC es l h hl hf) fun vs h hv hf =>
      hf.new hP (own_dictOf ks vs [] hv (by intro p hp; cases hp))
  | .comp elt x it conds, l, h, hl, hf => by
    unfold eval
    refine Kept.bind (kept_eval hP hC it l h hl hf) fun v h hv hf => ?_
    split
    · trivial
    · next hi =>
      exact Kept.bind (kept_compRes (kept_holds hP hC conds) (kept_eval hP hC elt) x hl _ (own_iterate hf hv hi) h hf)
        fun ws h hw hf => hf.new hP hw
  | .anyGen elt x it, l, h, hl, hf => by
    unfold eval
    refine Kept.bind (kept_eval hP hC it l h hl hf) fun v h hv hf => ?_
    split
    · trivial
    · next hi => exact kept_anyRes (kept_eval hP hC elt) x hl _ (own_iterate hf hv hi) h hf
  | .not e, l, h, hl, hf => by
    unfold eval
    refine Kept.bind (kept_eval hP hC e l h hl hf) fun v h hv hf => Kept.of hf fun v hv => ?_
    obtain ⟨_, _, rfl⟩ := Option.map_eq_some_iff.1 hv
    simp [OwnV]
  | .and a b, l, h, hl, hf => by
    unfold eval
    refine Kept.bind (kept_eval hP hC a l h hl hf) fun v h hv hf => ?_
    split
    · exact kept_eval hP hC b l h hl hf
    · exact ⟨hv, hf⟩
    · trivial
  | .or a b, l, h, hl, hf => by
    unfold eval
    refine Kept.bind (kept_eval hP hC a l h hl hf) fun v h hv hf => ?_
    split
    · exact ⟨hv, hf⟩
    · exact kept_eval hP hC b l h hl hf
    · trivial
  | .ite c a b, l, h, hl, hf => by
    unfold eval
    refine Kept.bind (kept_eval hP hC c l h hl hf) fun v h hv hf => ?_
    split
    · exact kept_eval hP hC a l h hl hf
    · exact kept_eval hP hC b l h hl hf
    · trivial
  | .cmp op a b, l, h, hl, hf => by
    unfold eval
    refine Kept.bind (kept_eval hP hC a l h hl hf) fun v h hv hf =>
      Kept.bind (kept_eval hP hC b l h hl hf) fun w h hw hf => Kept.of hf fun v hv => ?_
    obtain ⟨_, _, rfl⟩ := Option.map_eq_some_iff.1 hv
    simp [OwnV]
  | .add a b, l, h, hl, hf => by
    unfold eval
    refine Kept.bind (kept_eval hP hC a l h hl hf) fun v h hv hf =>
      Kept.bind (kept_eval hP hC b l h hl hf) fun w h hw hf => ?_
    split
    · exact ⟨by simp [OwnV], hf⟩
    · exact ⟨by simp [OwnV], hf⟩
    · trivial
  | .sub a b, l, h, hl, hf => by
    unfold eval
    refine Kept.bind (kept_eval hP hC a l h hl hf) fun v h hv hf =>
      Kept.bind (kept_eval hP hC b l h hl hf) fun w h hw hf => ?_
    split
    · exact ⟨by simp [OwnV], hf⟩
    · trivial
theorem kept_evals (hP : ∀ a, S.length ≤ a → P a) (hC : KeepsTo P S C) : ∀ (es : List Expr) (l : Locals) (h : Store),
    OwnL P l → Frame P S h → Kept P S (fun vs => ∀ v ∈ vs, OwnV P v) (evals C es l h)
  | [], _, _, _, hf => ⟨by simp, hf⟩
  | e :: es, l, h, hl, hf => by
    unfold evals
    refine Kept.bind (kept_eval hP hC e l h hl hf) fun v h hv hf =>
      Kept.bind (kept_evals hP hC es l h hl hf) fun vs h hvs hf => ⟨?_, hf⟩
    intro u hu
    rcases List.mem_cons.1 hu with h1 | h1
    · rw [h1]; exact hv
    · exact hvs u h1
theorem kept_holds (hP : ∀ a, S.length ≤ a → P a) (hC : KeepsTo P S C) : ∀ (es : List Expr) (l : Locals) (h : Store),
    OwnL P l → Frame P S h → Kept P S (fun _ => True) (holds C es l h)
  | [], _, _, _, hf => ⟨trivial, hf⟩
  | e :: es, l, h, hl, hf => by
    unfold holds
    refine Kept.bind (kept_eval hP hC e l h hl hf) fun v h hv hf => ?_
    split
    · exact kept_holds hP hC es l h hl hf
    · exact ⟨trivial, hf⟩
    · trivial
end

theorem kept_whileOut {c : Locals → Store → Res Val} {b : Locals → Store → Out}
    (hc : ∀ l h, OwnL P l → Frame P S h → Kept P S (OwnV P) (c l h))
    (hb : ∀ l h, OwnL P l → Frame P S h → KeptO P S (b l h)) :
    ∀ (n : Nat) (l : Locals) (h : Store), OwnL P l → Frame P S h → KeptO P S (whileOut c b n l h)
  | 0, _, _, _, _ => trivial
  | n + 1, l, h, hl, hf => by
    unfold whileOut
    refine Kept.out hl (hc l h hl hf) fun v h _ hf => ?_
    split
    · have h1 := hb l h hl hf
      split
      · next e => rw [e] at h1; exact kept_whileOut hc hb n _ _ h1.1 h1.2
      · next e => rw [e] at h1; exact kept_whileOut hc hb n _ _ h1.1 h1.2
      · exact h1
    · exact ⟨hl, hf⟩
    · trivial

theorem kept_forOut {bind : Nat → Val → Locals → Locals} {b : Locals → Store → Out}
    (hbind : ∀ i v l, OwnV P v → OwnL P l → OwnL P (bind i v l))
    (hb : ∀ l h, OwnL P l → Frame P S h → KeptO P S (b l h)) :
    ∀ (vs : List Val) (i : Nat) (l : Locals) (h : Store), (∀ v ∈ vs, OwnV P v) → OwnL P l → Frame P S h →
      KeptO P S (forOut bind b i vs l h)
  | [], _, _, _, _, hl, hf => ⟨hl, hf⟩
  | v :: vs, i, l, h, hv, hl, hf => by
    unfold forOut
    have h1 := hb _ h (hbind i v l (hv v List.mem_cons_self) hl) hf
    have hv' := fun w hw => hv w (List.mem_cons_of_mem v hw)
    split
    · next e => rw [e] at h1; exact kept_forOut hbind hb vs _ _ _ hv' h1.1 h1.2
    · next e => rw [e] at h1; exact kept_forOut hbind hb vs _ _ _ hv' h1.1 h1.2
    · exact h1

mutual
theorem kept_exec (hP : ∀ a, S.length ≤ a → P a) (hC : KeepsTo P S C) : ∀ (s : Stmt) (l : Locals) (h : Store),
    OwnL P l → Frame P S h → KeptO P S (exec C s l h)
  | .assign x e, l, h, hl, hf => by
    unfold exec
    exact Kept.out hl (kept_eval hP hC e l h hl hf) fun v h hv hf => ⟨hl.cons hv, hf⟩
  | .setAttr o a e, l, h, hl, hf => by
    unfold exec
    refine Kept.out hl (kept_eval hP hC e l h hl hf) fun v h hv hf =>
      Kept.out hl (kept_eval hP hC o l h hl hf) fun o h ho hf => ?_
    split
    · split
      · next hi =>
        have hp := ho.addr
        have hfs : OwnL P _ := hf.own _ _ hi hp
        exact ⟨hl, hf.set hp (hfs.setField hv)⟩
      · trivial
    · trivial
  | .setItem o k e, l, h, hl, hf => by
    unfold exec
    refine Kept.out hl (kept_eval hP hC e l h hl hf) fun v h hv hf =>
      Kept.out hl (kept_eval hP hC o l h hl hf) fun o h ho hf =>
      Kept.out hl (kept_eval hP hC k l h hl hf) fun k h _ hf => ?_
    split
    · split
      · next hi =>
        have hp := ho.addr
        exact ⟨hl, hf.set hp (own_set (hf.own _ _ hi hp) _ hv)⟩
      · trivial
    · trivial
  | .expr e, l, h, hl, hf => by
    unfold exec
    exact Kept.out hl (kept_eval hP hC e l h hl hf) fun v h hv hf => ⟨hl, hf⟩
  | .ret e, l, h, hl, hf => by
    unfold exec
    exact Kept.out hl (kept_eval hP hC e l h hl hf) fun v h hv hf => ⟨hv, hf⟩
  | .raise e, l, h, hl, hf => by
    unfold exec
    exact Kept.out hl (kept_eval hP hC e l h hl hf) fun v h hv hf => ⟨hv, hl, hf⟩
  | .ite c a b, l, h, hl, hf => by
    unfold exec
    refine Kept.out hl (kept_eval hP hC c l h hl hf) fun v h hv hf => ?_
    split
    · exact kept_execs hP hC a l h hl hf
    · exact kept_execs hP hC b l h hl hf
    · trivial
  | .while c body, l, h, hl, hf => by
    unfold exec
    exact kept_whileOut (kept_eval hP hC c) (kept_execs hP hC body) _ l h hl hf
  | .for x it body, l, h, hl, hf => by
    unfold exec
    refine Kept.out hl (kept_eval hP hC it l h hl hf) fun v h hv hf => ?_
    split
    · trivial
    · next hi =>
      exact kept_forOut (fun _ _ _ hv hl => hl.cons hv) (kept_execs hP hC body) _ _ _ _ (own_iterate hf hv hi) hl hf
  | .forEnum i x it body, l, h, hl, hf => by
    unfold exec
    refine Kept.out hl (kept_eval hP hC it l h hl hf) fun v h hv hf => ?_
    split
    · trivial
    · next hi =>
      exact kept_forOut (fun _ _ _ hv hl => (hl.cons (by simp [OwnV])).cons hv) (kept_execs hP hC body) _ _ _ _
        (own_iterate hf hv hi) hl hf
  | .tryExcept body x handler, l, h, hl, hf => by
    unfold exec
    have h1 := kept_execs hP hC body l h hl hf
    split
    · next e =>
      rw [e] at h1
      have h2 := kept_execs hP hC handler _ _ (h1.2.1.cons (x := x) h1.1) h1.2.2
      split
      · next e => rw [e] at h2; exact ⟨h2.1.unset x, h2.2⟩
      · next e => rw [e] at h2; exact ⟨h2.1.unset x, h2.2⟩
      · next e => rw [e] at h2; exact ⟨h2.1, h2.2.1.unset x, h2.2.2⟩
      · exact h2
    · exact h1
  | .continue, l, h, hl, hf => ⟨hl, hf⟩
  | .pass, l, h, hl, hf => ⟨hl, hf⟩
theorem kept_execs (hP : ∀ a, S.length ≤ a → P a) (hC : KeepsTo P S C) : ∀ (ss : List Stmt) (l : Locals) (h : Store),
    OwnL P l → Frame P S h → KeptO P S (execs C ss l h)
  | [], l, h, hl, hf => ⟨hl, hf⟩
  | s :: ss, l, h, hl, hf => by
    unfold execs
    exact KeptO.andThen (kept_exec hP hC s l h hl hf) fun l h hl hf => kept_execs hP hC ss l h hl hf
end

theorem own_bindParams : ∀ (ps : List (Ident × Option Str)) (args : List Val) (kw : List (Ident × Val)) (l : Locals),
    (∀ v ∈ args, OwnV P v) → OwnL P kw → bindParams ps args kw = some l → OwnL P l
  | [], [], _, l, _, _, h => by cases h; intro p hp; cases hp
  | [], _ :: _, _, l, _, _, h => by cases h
  | (x, d) :: ps, v :: vs, kw, l, ha, hk, h => by
    unfold bindParams at h
    obtain ⟨l', h1, rfl⟩ := Option.map_eq_some_iff.1 h
    exact (own_bindParams ps vs kw l' (fun w hw => ha w (List.mem_cons_of_mem v hw)) hk h1).cons (ha v List.mem_cons_self)
  | (x, d) :: ps, [], kw, l, ha, hk, h => by
    unfold bindParams at h
    split at h
    · next h2 =>
      obtain ⟨l', h1, rfl⟩ := Option.map_eq_some_iff.1 h
      exact (own_bindParams ps [] kw l' ha hk h1).cons (hk.look h2)
    · obtain ⟨l', h1, rfl⟩ := Option.map_eq_some_iff.1 h
      exact (own_bindParams ps [] kw l' ha hk h1).cons (by simp [OwnV])
    · cases h

/-- Every call keeps to `P`. -/
theorem kept_call (hP : ∀ a, S.length ≤ a → P a) (env : Env) : ∀ (n : Nat) (f : Func) (args : List Val)
    (kw : List (Ident × Val)) (h : Store), (∀ v ∈ args, OwnV P v) → OwnL P kw → Frame P S h →
    Kept P S (OwnV P) (call env n f args kw h)
  | 0, _, _, _, _, _, _, _ => trivial
  | n + 1, f, args, kw, h, ha, hk, hf => by
    unfold call
    split
    · trivial
    · next hb =>
      exact KeptO.result (kept_execs hP (C := ⟨env, call env n, n⟩) (kept_call hP env n) f.body _ h
        (own_bindParams _ _ _ _ ha hk hb) hf)
end

end Verif.Src
