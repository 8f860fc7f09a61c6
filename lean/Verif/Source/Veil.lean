import Verif.Refine.Heap
import Verif.Source.Sim
import Verif.Source.Refine

/-!
# Marks that are not looked at

The same program in two stores, where a dictionary of the first has `junk` as the value of a
key, and the dictionary of the second has any value or no value for that key.  As long as the
first program does not look at that value (it would then be stuck, because `junk` is not a
value that an operation accepts), the second does the same.
-/

set_option linter.unusedSectionVars false

namespace Verif.Src.Veil

mutual
/-- The same value, with the addresses changed by `ρ`, or any value in place of `junk`. -/
inductive VRel (ρ : List Nat) : Val → Val → Prop
  | obj {a a' : Nat} : ρ[a]? = some a' → VRel ρ (.obj a) (.obj a')
  | method {v v' : Val} {c m : Ident} : VRel ρ v v' → VRel ρ (.method v c m) (.method v' c m)
  | bmethod {v v' : Val} {m : Ident} : VRel ρ v v' → VRel ρ (.bmethod v m) (.bmethod v' m)
  | seq {vs vs' : List Val} : VRels ρ vs vs' → VRel ρ (.seq vs) (.seq vs')
  | same {v : Val} : plain v = true → VRel ρ v v
  | junk {v' : Val} : VRel ρ (.module .self) v'
/-- The same values. -/
inductive VRels (ρ : List Nat) : List Val → List Val → Prop
  | nil : VRels ρ [] []
  | cons {v v' : Val} {vs vs' : List Val} : VRel ρ v v' → VRels ρ vs vs' → VRels ρ (v :: vs) (v' :: vs')
end

/-- The same values with the same names. -/
inductive PRel {κ : Type} (ρ : List Nat) : List (κ × Val) → List (κ × Val) → Prop
  | nil : PRel ρ [] []
  | cons {k : κ} {v v' : Val} {l l' : List (κ × Val)} : VRel ρ v v' → PRel ρ l l' →
      PRel ρ ((k, v) :: l) ((k, v') :: l')

/-- What a key of a dictionary has. -/
inductive GRel (ρ : List Nat) : Option Val → Option Val → Prop
  | none : GRel ρ none none
  | some {v v' : Val} : VRel ρ v v' → GRel ρ (some v) (some v')
  | veil {o : Option Val} : GRel ρ (some (.module .self)) o

/-- The same dictionary, except where the first has `junk`. -/
def DRel (ρ : List Nat) (d d' : Dict Val) : Prop := ∀ k, GRel ρ (Dict.get? d k) (Dict.get? d' k)

/-- The same object. -/
inductive ORel (ρ : List Nat) : Obj → Obj → Prop
  | list {vs vs' : List Val} : VRels ρ vs vs' → ORel ρ (.list vs) (.list vs')
  | dict {d d' : Dict Val} : DRel ρ d d' → ORel ρ (.dict d) (.dict d')
  | inst {c : Ident} {fs fs' : List (Ident × Val)} : PRel ρ fs fs' → ORel ρ (.inst c fs) (.inst c fs')

/-- The objects of the first store are in the second. -/
structure SRel (ρ : List Nat) (S S' : Store) : Prop where
  len : ρ.length = S.length
  nodup : ρ.Nodup
  get : ∀ {a a' : Nat} {o : Obj}, S[a]? = some o → ρ[a]? = some a' → ∃ o', S'[a']? = some o' ∧ ORel ρ o o'

/-! ## More objects -/

mutual
theorem VRel.mono {ρ ρ' : List Nat} (h : ρ <+: ρ') {v v' : Val} (hv : VRel ρ v v') : VRel ρ' v v' := by
  cases hv with
  | obj ha => exact .obj (get_prefix h ha)
  | method hv => exact .method (hv.mono h)
  | bmethod hv => exact .bmethod (hv.mono h)
  | seq hv => exact .seq (hv.mono h)
  | same hp => exact .same hp
  | junk => exact .junk
theorem VRels.mono {ρ ρ' : List Nat} (h : ρ <+: ρ') {vs vs' : List Val} (hv : VRels ρ vs vs') : VRels ρ' vs vs' := by
  cases hv with
  | nil => exact .nil
  | cons hv hvs => exact .cons (hv.mono h) (hvs.mono h)
end

theorem PRel.mono {κ : Type} {ρ ρ' : List Nat} (h : ρ <+: ρ') {l l' : List (κ × Val)} (hl : PRel ρ l l') :
    PRel ρ' l l' := by
  induction hl with
  | nil => exact .nil
  | cons hv _ ih => exact .cons (hv.mono h) ih

theorem DRel.mono {ρ ρ' : List Nat} (h : ρ <+: ρ') {d d' : Dict Val} (hd : DRel ρ d d') : DRel ρ' d d' := by
  intro k
  have hk := hd k
  generalize Dict.get? d k = o at hk ⊢
  generalize Dict.get? d' k = o' at hk ⊢
  cases hk with
  | none => exact .none
  | some hv => exact .some (hv.mono h)
  | veil => exact .veil

theorem ORel.mono {ρ ρ' : List Nat} (h : ρ <+: ρ') {o o' : Obj} (ho : ORel ρ o o') : ORel ρ' o o' := by
  cases ho with
  | list hv => exact .list (hv.mono h)
  | dict hv => exact .dict (hv.mono h)
  | inst hv => exact .inst (hv.mono h)

/-! ## Reading -/

section
variable {ρ : List Nat} {S S' : Store}

theorem SRel.read (h : SRel ρ S S') {a a' : Nat} (ha : ρ[a]? = some a') :
    ∃ o o', S[a]? = some o ∧ S'[a']? = some o' ∧ ORel ρ o o' := by
  have hl : a < S.length := by
    rw [← h.len]
    exact (List.getElem?_eq_some_iff.1 ha).1
  obtain ⟨o', h1, h2⟩ := h.get (List.getElem?_eq_getElem hl) ha
  exact ⟨_, o', List.getElem?_eq_getElem hl, h1, h2⟩

theorem VRels.length {vs vs' : List Val} (h : VRels ρ vs vs') : vs.length = vs'.length := by
  match h with
  | .nil => rfl
  | .cons _ h => rw [List.length_cons, List.length_cons, h.length]

theorem VRels.isEmpty {vs vs' : List Val} (h : VRels ρ vs vs') : vs.isEmpty = vs'.isEmpty := by
  cases h <;> rfl

theorem PRel.isEmpty {κ : Type} {l l' : List (κ × Val)} (h : PRel ρ l l') : l.isEmpty = l'.isEmpty := by
  cases h <;> rfl

/-- The second result is that of the first, if there is one. -/
inductive LeRel {α β : Type} (Q : α → β → Prop) : Option α → Option β → Prop
  | none {o : Option β} : LeRel Q none o
  | some {a : α} {b : β} : Q a b → LeRel Q (some a) (some b)

theorem LeRel.refl {α : Type} (o : Option α) : LeRel Eq o o := by
  cases o with
  | none => exact .none
  | some a => exact .some rfl

theorem VRels.get {vs vs' : List Val} (h : VRels ρ vs vs') (i : Nat) : OptRel (VRel ρ) vs[i]? vs'[i]? := by
  match h, i with
  | .nil, _ => exact .none
  | .cons hv _, 0 => exact .some hv
  | .cons _ h, i + 1 => exact h.get i

theorem VRels.index {vs vs' : List Val} (h : VRels ρ vs vs') (i : Int) : OptRel (VRel ρ) (pyIndex vs i) (pyIndex vs' i) := by
  unfold pyIndex
  rw [h.length]
  split
  · exact h.get _
  · split
    · exact h.get _
    · exact .none

theorem VRels.append {vs vs' ws ws' : List Val} (h : VRels ρ vs vs') (h' : VRels ρ ws ws') :
    VRels ρ (vs ++ ws) (vs' ++ ws') := by
  match h with
  | .nil => exact h'
  | .cons hv h => exact .cons hv (h.append h')

theorem vrels_same {α : Type} (f : α → Val) (hf : ∀ a, plain (f a) = true) : ∀ xs : List α, VRels ρ (xs.map f) (xs.map f)
  | [] => .nil
  | x :: xs => .cons (.same (hf x)) (vrels_same f hf xs)

theorem PRel.look {l l' : List (Ident × Val)} (h : PRel ρ l l') (x : Ident) : OptRel (VRel ρ) (look x l) (look x l') := by
  induction h with
  | nil => exact .none
  | cons hv _ ih =>
    unfold Verif.Src.look
    split
    · exact .some hv
    · exact ih

theorem PRel.setField {l l' : List (Ident × Val)} (h : PRel ρ l l') (x : Ident) {v v' : Val} (hv : VRel ρ v v') :
    PRel ρ (setField x v l) (setField x v' l') := by
  induction h with
  | nil => exact .cons hv .nil
  | cons hw hl ih =>
    unfold Verif.Src.setField
    split
    · exact .cons hv hl
    · exact .cons hw ih

theorem PRel.unset {l l' : List (Ident × Val)} (h : PRel ρ l l') (x : Ident) : PRel ρ (unset x l) (unset x l') := by
  induction h with
  | nil => exact .nil
  | @cons k v v' l l' hv hl ih =>
    unfold Verif.Src.unset at ih ⊢
    by_cases hk : k = x
    · rw [List.filter_cons_of_neg (by simp [hk]), List.filter_cons_of_neg (by simp [hk])]
      exact ih
    · rw [List.filter_cons_of_pos (by simp [hk]), List.filter_cons_of_pos (by simp [hk])]
      exact .cons hv ih

theorem PRel.zip : ∀ (ks : List Ident) {vs vs' : List Val}, VRels ρ vs vs' → PRel ρ (ks.zip vs) (ks.zip vs')
  | [], _, _, _ => by simp only [List.zip_nil_left]; exact .nil
  | k :: ks, _, _, h => by
    cases h with
    | nil => exact .nil
    | cons hv h => exact .cons hv (PRel.zip ks h)

theorem drel_nil : DRel ρ [] [] := fun _ => .none

theorem DRel.dictSet {d d' : Dict Val} (h : DRel ρ d d') (k : Str) {v v' : Val} (hv : VRel ρ v v') :
    DRel ρ (Dict.set d k v) (Dict.set d' k v') := by
  intro k'
  rw [Dict.get?_set, Dict.get?_set]
  split
  · exact .some hv
  · exact h k'

theorem drel_dictOf : ∀ (ks : List Str) {vs vs' : List Val} {d d' : Dict Val}, VRels ρ vs vs' → DRel ρ d d' →
    DRel ρ (dictOf ks vs d) (dictOf ks vs' d')
  | [], _, _, _, _, _, hd => by unfold Verif.Src.dictOf; exact hd
  | k :: ks, _, _, _, _, hv, hd => by
    cases hv with
    | nil => unfold Verif.Src.dictOf; exact hd
    | cons hw hv =>
      unfold Verif.Src.dictOf
      exact drel_dictOf ks hv (hd.dictSet k hw)

theorem prel_bindParams : ∀ (ps : List (Ident × Option Str)) {args args' : List Val} {kw kw' : List (Ident × Val)},
    VRels ρ args args' → PRel ρ kw kw' → OptRel (PRel ρ) (bindParams ps args kw) (bindParams ps args' kw')
  | [], _, _, _, _, ha, _ => by
    cases ha with
    | nil => exact .some .nil
    | cons _ _ => exact .none
  | (x, d) :: ps, _, _, kw, kw', ha, hk => by
    cases ha with
    | cons hv ha =>
      unfold bindParams
      have ih := prel_bindParams ps ha hk
      generalize bindParams ps _ kw = o at ih ⊢
      generalize bindParams ps _ kw' = o' at ih ⊢
      cases ih with
      | none => exact .none
      | some h => exact .some (.cons hv h)
    | nil =>
      unfold bindParams
      have ih := prel_bindParams ps .nil hk
      have hl := hk.look x
      generalize bindParams ps _ kw = o at ih ⊢
      generalize bindParams ps _ kw' = o' at ih ⊢
      generalize Verif.Src.look x kw = y at hl ⊢
      generalize Verif.Src.look x kw' = y' at hl ⊢
      cases hl with
      | some hv =>
        cases ih with
        | none => exact .none
        | some h => exact .some (.cons hv h)
      | none =>
        cases d with
        | none => exact .none
        | some s =>
          cases ih with
          | none => exact .none
          | some h => exact .some (.cons (.same rfl) h)

theorem VRel.isText {v v' : Val} (h : VRel ρ v v') (ht : isText v = true) : v' = v := by
  cases h with
  | same _ => rfl
  | _ => cases ht

theorem get_of_mem {d : Dict Val} {p : Str × Val} (h : p ∈ d) : ∃ v, Dict.get? d p.1 = some v := by
  induction d with
  | nil => cases h
  | cons q d ih =>
    unfold Dict.get?
    cases h1 : Dict.get? d p.1 with
    | some w => exact ⟨w, rfl⟩
    | none =>
      rcases List.mem_cons.1 h with rfl | h2
      · exact ⟨p.2, by simp⟩
      · obtain ⟨v, hv⟩ := ih h2
        rw [h1] at hv
        cases hv

theorem dictTrue_rel {d d' : Dict Val} (h : DRel ρ d d') : LeRel Eq (dictTrue d) (dictTrue d') := by
  unfold dictTrue
  split
  · next ht =>
    rw [List.all_eq_true] at ht
    have hg : ∀ k, Dict.get? d' k = Dict.get? d k := fun k => by
      have hk := h k
      cases h1 : Dict.get? d k with
      | none =>
        rw [h1] at hk
        generalize Dict.get? d' k = o at hk
        cases hk
        rfl
      | some v =>
        obtain ⟨p, hp, rfl⟩ := mem_of_get h1
        have h2 := ht p hp
        rw [h1] at h2
        have h3 : Verif.Src.isText v = true := h2
        rw [h1] at hk
        generalize Dict.get? d' p.1 = o at hk
        cases hk with
        | some hv => rw [hv.isText h3]
        | veil => cases h3
    have he : d'.isEmpty = d.isEmpty := by
      cases d with
      | nil =>
        cases d' with
        | nil => rfl
        | cons p d' =>
          obtain ⟨v, hv⟩ := get_of_mem (List.mem_cons_self (a := p) (l := d'))
          rw [hg] at hv
          cases hv
      | cons p d =>
        cases d' with
        | nil =>
          obtain ⟨v, hv⟩ := get_of_mem (List.mem_cons_self (a := p) (l := d))
          rw [← hg] at hv
          cases hv
        | cons p d' => rfl
    have ha : (d'.all fun p => ((Dict.get? d' p.1).map Verif.Src.isText).getD true) = true := by
      rw [List.all_eq_true]
      intro p _
      rw [hg]
      cases h1 : Dict.get? d p.1 with
      | none => rfl
      | some v =>
        obtain ⟨q, hq, e⟩ := mem_of_get h1
        have h2 := ht q hq
        rw [e, h1] at h2
        exact h2
    rw [if_pos ha, he]
    exact .some rfl
  · exact .none
where
  mem_of_get {d : Dict Val} {k : Str} {v : Val} (h : Dict.get? d k = some v) : ∃ p ∈ d, p.1 = k := by
    match d with
    | [] => cases h
    | q :: d =>
      unfold Dict.get? at h
      cases h1 : Dict.get? d k with
      | some w =>
        obtain ⟨p, hp, e⟩ := mem_of_get h1
        exact ⟨p, List.mem_cons_of_mem _ hp, e⟩
      | none =>
        rw [h1] at h
        simp only at h
        split at h
        · next e => exact ⟨q, List.mem_cons_self, by simpa using e⟩
        · cases h

theorem dictHas_rel {d d' : Dict Val} (h : DRel ρ d d') (k : Str) : LeRel Eq (dictHas d k) (dictHas d' k) := by
  have ho := h k
  unfold dictHas
  generalize Dict.get? d k = o at ho
  generalize Dict.get? d' k = o' at ho
  cases ho with
  | none => exact .some rfl
  | some hv =>
    simp only
    split
    · next ht =>
      rw [hv.isText ht, if_pos ht]
      exact .some rfl
    · exact .none
  | veil => exact .none

theorem truthy_rel (h : SRel ρ S S') {v v' : Val} (hv : VRel ρ v v') : LeRel Eq (truthy S v) (truthy S' v') := by
  cases hv with
  | obj ha =>
    obtain ⟨o, o', h1, h2, h3⟩ := h.read ha
    simp only [truthy, h1, h2]
    cases h3 with
    | list hv => simp only [hv.isEmpty]; exact .some rfl
    | dict hv => exact dictTrue_rel hv
    | inst _ => exact .some rfl
  | method _ => exact .none
  | bmethod _ => exact .none
  | seq _ => exact .none
  | junk => exact .none
  | @same v hp => cases v <;> first | exact LeRel.refl _ | cases hp

theorem equal_rel {v v' w w' : Val} (hv : VRel ρ v v') (hw : VRel ρ w w') : LeRel Eq (equal v w) (equal v' w') := by
  cases hv with
  | @same v hp =>
    cases hw with
    | same hp => exact LeRel.refl _
    | _ => cases v <;> exact .none
  | _ => exact .none

theorem iterate_rel (h : SRel ρ S S') {v v' : Val} (hv : VRel ρ v v') :
    LeRel (VRels ρ) (iterate S v) (iterate S' v') := by
  cases hv with
  | obj ha =>
    obtain ⟨o, o', h1, h2, h3⟩ := h.read ha
    simp only [iterate, h1, h2]
    cases h3 with
    | list hv => exact .some hv
    | dict hv => exact .none
    | inst _ => exact .none
  | method _ => exact .none
  | bmethod _ => exact .none
  | seq hv => exact .some hv
  | junk => exact .none
  | @same v hp =>
    cases v with
    | str s => exact .some (vrels_same _ (fun _ => rfl) s)
    | _ => first | exact .none | cases hp

theorem strings_rel {vs vs' : List Val} (h : VRels ρ vs vs') : LeRel Eq (strings vs) (strings vs') := by
  match h with
  | .nil => exact .some rfl
  | .cons hv h =>
    have ih := strings_rel h
    cases hv with
    | same hp =>
      rename_i v _ _
      cases v with
      | str s =>
        simp only [strings]
        generalize strings _ = o at ih ⊢
        generalize strings _ = o' at ih ⊢
        cases ih with
        | none => exact .none
        | some e => subst e; exact .some rfl
      | _ => exact .none
    | _ => exact .none

theorem format_rel {v v' : Val} (h : VRel ρ v v') : LeRel Eq (format v) (format v') := by
  cases h with
  | same _ => exact LeRel.refl _
  | _ => exact .none

theorem formats_rel {vs vs' : List Val} (h : VRels ρ vs vs') : LeRel Eq (formats vs) (formats vs') := by
  match h with
  | .nil => exact .some rfl
  | .cons hv h =>
    have ih := formats_rel h
    have hf := format_rel hv
    unfold formats
    generalize formats _ = o at ih ⊢
    generalize formats _ = o' at ih ⊢
    generalize format _ = p at hf ⊢
    generalize format _ = p' at hf ⊢
    cases hf with
    | none => exact .none
    | some e =>
      subst e
      cases ih with
      | none => exact .none
      | some e => subst e; exact .some rfl

theorem member_rel {v v' : Val} (hv : VRel ρ v v') {ws ws' : List Val} (h : VRels ρ ws ws') :
    LeRel Eq (member v ws) (member v' ws') := by
  match h with
  | .nil => exact .some rfl
  | .cons hw h =>
    have ih := member_rel hv h
    have he := equal_rel hv hw
    unfold member
    generalize equal _ _ = p at he ⊢
    generalize equal _ _ = p' at he ⊢
    cases he with
    | none => exact .none
    | some e =>
      subst e
      split
      · exact .some rfl
      · exact ih
      · exact .none

theorem LeRel.not {o o' : Option Bool} (h : LeRel Eq o o') : LeRel Eq (o.map (!·)) (o'.map (!·)) := by
  cases h with
  | none => exact .none
  | some e => subst e; exact .some rfl

theorem compare_rel (h : SRel ρ S S') (op : Cmp) {v v' w w' : Val} (hv : VRel ρ v v') (hw : VRel ρ w w') :
    LeRel Eq (compare S op v w) (compare S' op v' w') := by
  have hin : LeRel Eq (compare.isIn S v w) (compare.isIn S' v' w') := by
    unfold compare.isIn
    cases hw with
    | obj ha =>
      obtain ⟨o, o', h1, h2, h3⟩ := h.read ha
      simp only [h1, h2]
      cases h3 with
      | list hl => exact member_rel hv hl
      | dict hd =>
        cases hv with
        | @same v hp => cases v <;> first | exact .none | (exact dictHas_rel hd _)
        | _ => exact .none
      | inst _ => exact .none
    | @same w hp => cases w <;> first | exact .none | cases hp
    | _ => exact .none
  have hints : ∀ f, LeRel Eq (compare.ints v w f) (compare.ints v' w' f) := by
    intro f
    unfold compare.ints
    cases hv with
    | @same v hp =>
      cases hw with
      | same _ => exact LeRel.refl _
      | _ => cases v <;> exact .none
    | _ => exact .none
  unfold compare
  cases op with
  | eq => exact equal_rel hv hw
  | ne => exact (equal_rel hv hw).not
  | isNot =>
    cases hv with
    | @same v hp =>
      cases hw with
      | same _ => exact LeRel.refl _
      | _ => cases v <;> exact .none
    | _ => exact .none
  | mem => exact hin
  | notMem => exact hin.not
  | _ => exact hints _
end

/-! ## Operations -/

/-- The same result, and only own objects changed. -/
def RRel {α β : Type} (Q : List Nat → α → β → Prop) (ρ : List Nat) (S' : Store) : Res α → Res β → Prop
  | .ok a h, .ok b h' => ∃ ρ', Moves ρ ρ' S' h' ∧ SRel ρ' h h' ∧ Q ρ' a b
  | .exc v h, .exc v' h' => ∃ ρ', Moves ρ ρ' S' h' ∧ SRel ρ' h h' ∧ VRel ρ' v v'
  | .stuck, _ => True
  | _, _ => False

section
variable {ρ : List Nat} {S S' : Store}

theorem SRel.ok {α β : Type} {Q : List Nat → α → β → Prop} {a : α} {b : β} (h : SRel ρ S S') (hq : Q ρ a b) :
    RRel Q ρ S' (.ok a S) (.ok b S') :=
  ⟨ρ, .refl ρ S', h, hq⟩

theorem SRel.exc {α β : Type} {Q : List Nat → α → β → Prop} {v v' : Val} (h : SRel ρ S S') (hq : VRel ρ v v') :
    RRel Q ρ S' (.exc v S) (.exc v' S') :=
  ⟨ρ, .refl ρ S', h, hq⟩

theorem SRel.of {α β : Type} {Q : List Nat → α → β → Prop} {a : Option α} {b : Option β} (h : SRel ρ S S')
    (hq : LeRel (Q ρ) a b) : RRel Q ρ S' (.of a S) (.of b S') := by
  cases hq with
  | none => trivial
  | some hq => exact h.ok hq

theorem optRel_eq {α β : Type} {Q : β → β → Prop} (f : α → β) (hf : ∀ a, Q (f a) (f a)) {o o' : Option α}
    (h : LeRel Eq o o') : LeRel Q (o.map f) (o'.map f) := by
  cases h with
  | none => exact .none
  | some e => subst e; exact .some (hf _)

theorem SRel.new (h : SRel ρ S S') {o o' : Obj} (ho : ORel ρ o o') : RRel VRel ρ S' (new o S) (new o' S') := by
  have hp : ρ <+: ρ ++ [S'.length] := List.prefix_append _ _
  have hlt : ∀ a ∈ ρ, a < S'.length := by
    intro a ha
    obtain ⟨i, hi⟩ := List.getElem?_of_mem ha
    obtain ⟨_, o', _, h2, _⟩ := h.read hi
    exact (List.getElem?_eq_some_iff.1 h2).1
  refine ⟨ρ ++ [S'.length], ⟨hp, by simp, fun a ha _ => List.getElem?_append_left ha, fun a ha => ?_⟩,
    ⟨by simp [h.len], ?_, fun {a a' o1} h1 h2 => ?_⟩, .obj ?_⟩
  · rcases List.mem_append.1 ha with h1 | h1
    · exact .inl h1
    · rw [List.mem_singleton.1 h1]; exact .inr (Nat.le_refl _)
  · rw [List.nodup_append]
    refine ⟨h.nodup, by simp, fun a ha b hb => ?_⟩
    rw [List.mem_singleton.1 hb]
    have := hlt a ha
    omega
  · by_cases hlt' : a < S.length
    · rw [List.getElem?_append_left hlt'] at h1
      rw [List.getElem?_append_left (by rw [h.len]; exact hlt')] at h2
      obtain ⟨o2, h3, h4⟩ := h.get h1 h2
      exact ⟨o2, by rw [List.getElem?_append_left (List.getElem?_eq_some_iff.1 h3).1]; exact h3, h4.mono hp⟩
    · rw [List.getElem?_append_right (by omega)] at h1
      rw [List.getElem?_append_right (by rw [h.len]; omega)] at h2
      rw [List.getElem?_singleton] at h1 h2
      split at h1
      · cases h1
        split at h2
        · cases h2
          exact ⟨o', by simp, ho.mono hp⟩
        · cases h2
      · cases h1
  · rw [← h.len]
    simp

theorem SRel.set (h : SRel ρ S S') {a a' : Nat} (ha : ρ[a]? = some a') {o o' : Obj} (ho : ORel ρ o o') :
    Moves ρ ρ S' (S'.set a' o') ∧ SRel ρ (S.set a o) (S'.set a' o') := by
  have hm : a' ∈ ρ := List.mem_of_getElem? ha
  refine ⟨⟨List.prefix_refl ρ, by simp, fun b _ hn => ?_, fun _ h => .inl h⟩, by simp [h.len], h.nodup, fun {b b' o1} h1 h2 => ?_⟩
  · rw [List.getElem?_set_ne]
    intro e
    exact hn (e ▸ hm)
  · obtain ⟨_, o2, g1, g2, g3⟩ := h.read ha
    by_cases e : a = b
    · subst e
      rw [ha] at h2
      cases h2
      rw [List.getElem?_set_self (List.getElem?_eq_some_iff.1 g1).1] at h1
      cases h1
      exact ⟨o', List.getElem?_set_self (List.getElem?_eq_some_iff.1 g2).1, ho⟩
    · rw [List.getElem?_set_ne e] at h1
      obtain ⟨o3, h3, h4⟩ := h.get h1 h2
      refine ⟨o3, ?_, h4⟩
      rw [List.getElem?_set_ne]
      · exact h3
      · intro e'
        subst e'
        obtain ⟨i1, j1⟩ := List.getElem?_eq_some_iff.1 ha
        obtain ⟨i2, j2⟩ := List.getElem?_eq_some_iff.1 h2
        exact e ((List.getElem_inj h.nodup).1 (j1.trans j2.symm))

theorem putField_rel (h : SRel ρ S S') {r r' : Nat} (hr : ρ[r]? = some r') (a : Ident) {v v' : Val} (hv : VRel ρ v v') :
    RRel (fun _ _ _ => True) ρ S' (putField r a v S) (putField r' a v' S') := by
  obtain ⟨o, o', h1, h2, h3⟩ := h.read hr
  unfold putField
  rw [h1, h2]
  cases h3 with
  | inst hf =>
    obtain ⟨m, s⟩ := h.set hr (.inst (c := _) (hf.setField a hv))
    exact ⟨ρ, m, s, trivial⟩
  | _ => trivial

theorem putItem_rel (h : SRel ρ S S') {r r' : Nat} (hr : ρ[r]? = some r') (k : Str) {v v' : Val} (hv : VRel ρ v v') :
    RRel (fun _ _ _ => True) ρ S' (putItem r k v S) (putItem r' k v' S') := by
  obtain ⟨o, o', h1, h2, h3⟩ := h.read hr
  unfold putItem
  rw [h1, h2]
  cases h3 with
  | dict hf =>
    obtain ⟨m, s⟩ := h.set hr (.dict (hf.dictSet k hv))
    exact ⟨ρ, m, s, trivial⟩
  | _ => trivial

theorem item_rel (h : SRel ρ S S') {v v' k k' : Val} (hv : VRel ρ v v') (hk : VRel ρ k k') :
    RRel VRel ρ S' (item v k S) (item v' k' S') := by
  cases hv with
  | obj ha =>
    obtain ⟨o, o', h1, h2, h3⟩ := h.read ha
    cases hk with
    | @same k hp =>
      cases k with
      | int i =>
        simp only [item, h1, h2]
        cases h3 with
        | list hl =>
          simp only
          have hi := hl.index i
          generalize pyIndex _ i = x at hi ⊢
          generalize pyIndex _ i = x' at hi ⊢
          cases hi with
          | none => exact h.exc (.same rfl)
          | some hv => exact h.ok hv
        | _ => trivial
      | str k =>
        simp only [item, h1, h2]
        cases h3 with
        | dict hl =>
          simp only
          have hi := hl k
          generalize Dict.get? _ k = x at hi ⊢
          generalize Dict.get? _ k = x' at hi ⊢
          cases hi with
          | none => exact h.exc (.same rfl)
          | some hv =>
            simp only
            split
            · next ht =>
              have e := hv.isText ht
              subst e
              rw [if_pos ht]
              exact h.ok hv
            · trivial
          | veil => trivial
        | _ => trivial
      | _ => trivial
    | _ => trivial
  | @same v hp =>
    cases v with
    | str s =>
      cases hk with
      | @same k _ =>
        cases k with
        | int i =>
          simp only [item]
          cases pyIndex s i with
          | none => exact h.exc (.same rfl)
          | some c => exact h.ok (.same rfl)
        | _ => trivial
      | _ => trivial
    | obj a => cases hp
    | _ => trivial
  | _ => trivial

theorem libAttr_rel (h : SRel ρ S S') {v v' : Val} (hv : VRel ρ v v') (a : Ident) :
    RRel VRel ρ S' (libAttr v a S) (libAttr v' a S') := by
  cases hv with
  | @same v hp =>
    cases v with
    | str s => exact h.ok (.bmethod (.same rfl))
    | table t => exact h.ok (.bmethod (.same rfl))
    | document d => exact h.ok (.bmethod (.same rfl))
    | nodeMap as => exact h.ok (.bmethod (.same rfl))
    | pattern p => exact h.ok (.bmethod (.same rfl))
    | record fs => exact h.of (optRel_eq _ (fun _ => .same rfl) (LeRel.refl _))
    | obj _ => cases hp
    | method _ _ _ => cases hp
    | bmethod _ _ => cases hp
    | seq _ => cases hp
    | node n =>
      unfold libAttr
      repeat' split
      all_goals first
        | trivial
        | exact h.ok (.same rfl)
        | exact h.ok (.seq (vrels_same _ (fun _ => rfl) _))
        | simp_all
    | _ =>
      unfold libAttr
      repeat' split
      all_goals first
        | trivial
        | exact h.ok (.same rfl)
        | simp_all
  | _ => trivial

theorem GRel.getD {o o' : Option Val} (h : GRel ρ o o') {w w' : Val} (hw : VRel ρ w w') :
    VRel ρ (o.getD w) (o'.getD w') := by
  cases h with
  | none => exact hw
  | some h => exact h
  | veil => exact .junk

theorem libMethod_rel (h : SRel ρ S S') {v v' : Val} (hv : VRel ρ v v') (m : Ident) {args args' : List Val}
    (ha : VRels ρ args args') : RRel VRel ρ S' (libMethod v m args S) (libMethod v' m args' S') := by
  have hmap : ∀ ss : List Str, ORel ρ (.list (ss.map .str)) (.list (ss.map .str)) := fun ss =>
    .list (vrels_same _ (fun _ => rfl) ss)
  have hget : ∀ (t : Ident) (k : Str) (w w' : Val), VRel ρ w w' →
      VRel ρ ((tableGet t k).getD w) ((tableGet t k).getD w') := by
    intro t k w w' hw
    cases ht : tableGet t k with
    | none => exact hw
    | some u =>
      refine .same ?_
      unfold tableGet at ht
      split at ht
      all_goals first
        | (obtain ⟨_, _, rfl⟩ := Option.map_eq_some_iff.1 ht; rfl)
        | cases ht
  unfold libMethod
  split
  · cases hv; cases ha
    exact h.ok (.same rfl)
  · cases hv; cases ha
    exact h.new (hmap _)
  · cases hv
    obtain _ | ⟨h1, h2⟩ := ha
    cases h1; cases h2
    exact h.new (hmap _)
  · cases hv
    obtain _ | ⟨h1, h2⟩ := ha
    cases h2
    simp only
    have hi := iterate_rel h h1
    generalize iterate S _ = x at hi ⊢
    generalize iterate S' _ = x' at hi ⊢
    cases hi with
    | none => trivial
    | some hv =>
      simp only [Option.bind]
      have hs := strings_rel hv
      generalize strings _ = y at hs ⊢
      generalize strings _ = y' at hs ⊢
      cases hs with
      | none => trivial
      | some e => subst e; exact h.ok (.same rfl)
  · cases hv
    obtain _ | ⟨h1, h2⟩ := ha
    cases h1; cases h2
    exact h.ok (hget _ _ _ _ (.same rfl))
  · cases hv
    obtain _ | ⟨h1, h2⟩ := ha
    obtain _ | ⟨h3, h4⟩ := h2
    cases h1; cases h4
    exact h.ok (hget _ _ _ _ h3)
  · cases hv
    obtain _ | ⟨h1, h2⟩ := ha
    cases h1; cases h2
    simp only
    split
    · exact h.ok (.seq (vrels_same _ (fun _ => rfl) _))
    · trivial
  · cases hv; cases ha
    exact h.ok (.seq (vrels_same _ (fun _ => rfl) _))
  · cases hv
    obtain _ | ⟨h1, h2⟩ := ha
    obtain _ | ⟨h3, h4⟩ := h2
    cases h1; cases h3; cases h4
    exact h.of (optRel_eq _ (fun _ => .same rfl) (LeRel.refl _))
  · cases hv with
    | same hp => cases hp
    | obj hr =>
      obtain _ | ⟨h1, h2⟩ := ha
      cases h1; cases h2
      obtain ⟨o, o', g1, g2, g3⟩ := h.read hr
      simp only [g1, g2]
      cases g3 with
      | dict hd => exact h.ok ((hd _).getD (.same rfl))
      | _ => trivial
  · cases hv with
    | same hp => cases hp
    | obj hr =>
      obtain _ | ⟨h1, h2⟩ := ha
      obtain _ | ⟨h3, h4⟩ := h2
      cases h1; cases h4
      obtain ⟨o, o', g1, g2, g3⟩ := h.read hr
      simp only [g1, g2]
      cases g3 with
      | dict hd => exact h.ok ((hd _).getD h3)
      | _ => trivial
  · cases hv with
    | same hp => cases hp
    | obj hr =>
      obtain _ | ⟨h1, h2⟩ := ha
      cases h2
      obtain ⟨o, o', g1, g2, g3⟩ := h.read hr
      simp only [g1, g2]
      cases g3 with
      | list hl =>
        obtain ⟨m, s⟩ := h.set hr (.list (hl.append (.cons h1 .nil)))
        exact ⟨ρ, m, s, .same rfl⟩
      | _ => trivial
  · trivial

theorem anyOf_rel (h : SRel ρ S S') {vs vs' : List Val} (hv : VRels ρ vs vs') : LeRel Eq (anyOf S vs) (anyOf S' vs') := by
  match hv with
  | .nil => exact .some rfl
  | .cons hw hv =>
    have ih := anyOf_rel h hv
    have ht := truthy_rel h hw
    unfold anyOf
    generalize truthy _ _ = p at ht ⊢
    generalize truthy _ _ = p' at ht ⊢
    cases ht with
    | none => exact .none
    | some e =>
      subst e
      split
      · exact .some rfl
      · exact ih
      · exact .none

theorem lengthOf_rel (h : SRel ρ S S') {v v' : Val} (hv : VRel ρ v v') : LeRel Eq (lengthOf S v) (lengthOf S' v') := by
  have hi := iterate_rel h hv
  have key : LeRel Eq ((iterate S v).map List.length) ((iterate S' v').map List.length) := by
    generalize iterate S v = x at hi ⊢
    generalize iterate S' v' = x' at hi ⊢
    cases hi with
    | none => exact .none
    | some hv => exact .some hv.length
  cases hv with
  | @same v hp =>
    cases v with
    | str s => exact .some rfl
    | _ => exact key
  | junk => exact .none
  | _ => exact key

theorem found_rel (b : Bool) : VRel ρ (found b) (found b) := by
  cases b <;> exact .same rfl

theorem asPattern_rel (env : Env) (i m : Bool) {v v' : Val} (hv : VRel ρ v v') : LeRel Eq (asPattern env i m v) (asPattern env i m v') := by
  cases hv with
  | same _ => exact LeRel.refl _
  | _ => exact .none

theorem LeRel.map {α β : Type} (f : α → β) {o o' : Option α} (h : LeRel Eq o o') : LeRel Eq (o.map f) (o'.map f) := by
  cases h with
  | none => exact .none
  | some e => subst e; exact .some rfl

theorem LeRel.bind {α β : Type} (f : α → Option β) {o o' : Option α} (h : LeRel Eq o o') :
    LeRel Eq (o.bind f) (o'.bind f) := by
  cases h with
  | none => exact .none
  | some e => subst e; exact LeRel.refl _

theorem builtin_rel (env : Env) (h : SRel ρ S S') (f : Ident) {args args' : List Val} (ha : VRels ρ args args') :
    RRel VRel ρ S' (builtin env f args S) (builtin env f args' S') := by
  have hs : ∀ {α : Type} (g : α → Val) (_ : ∀ a, VRel ρ (g a) (g a)) {o o' : Option α}, LeRel Eq o o' →
      RRel VRel ρ S' (.of (o.map g) S) (.of (o'.map g) S') :=
    fun g hg _ _ he => h.of (optRel_eq g hg he)
  unfold builtin
  split
  · obtain _ | ⟨h1, h2⟩ := ha
    cases h2
    exact hs _ (fun _ => .same rfl) ((lengthOf_rel h h1).bind _)
  · obtain _ | ⟨h1, h2⟩ := ha
    cases h2
    simp only
    have hi := iterate_rel h h1
    generalize iterate S _ = x at hi ⊢
    generalize iterate S' _ = x' at hi ⊢
    cases hi with
    | none => trivial
    | some hv => exact h.new (.list hv)
  · obtain _ | ⟨h1, h2⟩ := ha
    cases h2
    refine hs _ (fun _ => .same rfl) ?_
    have hi := iterate_rel h h1
    generalize iterate S _ = x at hi ⊢
    generalize iterate S' _ = x' at hi ⊢
    cases hi with
    | none => exact .none
    | some hv => exact anyOf_rel h hv
  · obtain _ | ⟨h1, h2⟩ := ha
    cases h2
    exact hs _ (fun _ => .same rfl) (truthy_rel h h1)
  · obtain _ | ⟨h1, h2⟩ := ha
    obtain _ | ⟨h3, h4⟩ := h2
    cases h1; cases h3; cases h4
    simp only
    split <;> exact h.ok (.same rfl)
  · obtain _ | ⟨h1, h2⟩ := ha
    cases h1; cases h2
    exact h.ok (.seq (vrels_same _ (fun _ => rfl) _))
  · obtain _ | ⟨h1, h2⟩ := ha
    cases h1; cases h2
    simp only
    split
    · exact h.ok (.same rfl)
    · exact h.exc (.same rfl)
  · obtain _ | ⟨h1, h2⟩ := ha
    cases h2
    exact hs _ (fun _ => .same rfl) (asPattern_rel env _ _ h1)
  · obtain _ | ⟨h1, h2⟩ := ha
    obtain _ | ⟨h3, h4⟩ := h2
    cases h3; cases h4
    exact hs _ (fun _ => .same rfl) (asPattern_rel env _ _ h1)
  · obtain _ | ⟨h1, h2⟩ := ha
    obtain _ | ⟨h3, h4⟩ := h2
    cases h3; cases h4
    exact hs _ (fun _ => found_rel _) ((asPattern_rel env _ _ h1).bind _)
  · obtain _ | ⟨h1, h2⟩ := ha
    obtain _ | ⟨h3, h4⟩ := h2
    cases h3; cases h4
    exact hs _ (fun _ => found_rel _) (asPattern_rel env _ _ h1)
  · obtain _ | ⟨h1, h2⟩ := ha
    obtain _ | ⟨h3, h4⟩ := h2
    obtain _ | ⟨h5, h6⟩ := h4
    cases h3; cases h5; cases h6
    exact hs _ (fun _ => found_rel _) (asPattern_rel env _ _ h1)
  · obtain _ | ⟨h1, h2⟩ := ha
    obtain _ | ⟨h3, h4⟩ := h2
    obtain _ | ⟨h5, h6⟩ := h4
    cases h3; cases h5; cases h6
    exact hs _ (fun _ => .same rfl) ((asPattern_rel env _ _ h1).bind _)
  · obtain _ | ⟨h1, h2⟩ := ha
    cases h1; cases h2
    exact h.ok (.same rfl)
  · trivial
end

/-- The second program does the same as the first, in any store in which its objects are as in
the first, as long as the first is not stuck. -/
def Sim {α β : Type} (Q : List Nat → α → β → Prop) : Steps α → List Nat → Steps β → Prop
  | .ret a, ρ, p => ∃ b, p = .ret b ∧ Q ρ a b
  | .exc v, ρ, p => ∃ v', p = .exc v' ∧ VRel ρ v v'
  | .stuck, _, _ => True
  | .act g k, ρ, p => (∀ S, k S = .stuck) ∨ ∃ g' k', p = .act g' k' ∧ ∀ S S', SRel ρ S S' → k S = .stuck ∨
      ∃ ρ', Moves ρ ρ' S' (g' S') ∧ SRel ρ' (g S) (g' S') ∧ Sim Q (k S) ρ' (k' S')

theorem Sim.ret {α β : Type} {Q : List Nat → α → β → Prop} {a : α} {b : β} {ρ : List Nat} (h : Q ρ a b) :
    Sim Q (.ret a) ρ (.ret b) := ⟨b, rfl, h⟩

theorem Sim.stuck {α β : Type} {Q : List Nat → α → β → Prop} {ρ : List Nat} :
    {p : Steps β} → Sim Q (.stuck : Steps α) ρ p := fun {_} => trivial

theorem Sim.doom {α β : Type} {Q : List Nat → α → β → Prop} {ρ : List Nat} {f : Store → Res α} {p : Steps β}
    (h : ∀ S, f S = .stuck) : Sim Q (.prim f) ρ p := by
  refine .inl fun S => ?_
  simp only [h S]

theorem Sim.exc {α β : Type} {Q : List Nat → α → β → Prop} {v v' : Val} {ρ : List Nat} (h : VRel ρ v v') :
    Sim Q (.exc v : Steps α) ρ (.exc v' : Steps β) := ⟨v', rfl, h⟩

theorem Sim.of {α β : Type} {Q : List Nat → α → β → Prop} {ρ : List Nat} {o : Option α} {o' : Option β}
    (h : LeRel (Q ρ) o o') : Sim Q (.of o) ρ (.of o') := by
  cases h with
  | none => exact .stuck
  | some h => exact .ret h

theorem Sim.prim {α β : Type} {Q : List Nat → α → β → Prop} {ρ : List Nat} {f : Store → Res α} {f' : Store → Res β}
    (h : ∀ S S', SRel ρ S S' → RRel Q ρ S' (f S) (f' S')) : Sim Q (.prim f) ρ (.prim f') := by
  refine .inr ⟨_, _, rfl, fun S S' hS => ?_⟩
  have hr := h S S' hS
  cases h1 : f S with
  | ok a g =>
    cases h2 : f' S' with
    | ok b g' =>
      rw [h1, h2] at hr
      obtain ⟨ρ', m, s, q⟩ := hr
      simp only [h1]
      exact .inr ⟨ρ', m, s, .ret q⟩
    | _ => rw [h1, h2] at hr; exact hr.elim
  | exc v g =>
    cases h2 : f' S' with
    | exc b g' =>
      rw [h1, h2] at hr
      obtain ⟨ρ', m, s, q⟩ := hr
      simp only [h1]
      exact .inr ⟨ρ', m, s, .exc q⟩
    | _ => rw [h1, h2] at hr; exact hr.elim
  | stuck =>
    exact .inl (by simp only [h1])

theorem Sim.bind {α β γ δ : Type} {Q : List Nat → α → β → Prop} {R : List Nat → γ → δ → Prop} {f : α → Steps γ}
    {f' : β → Steps δ} : ∀ {p : Steps α} {ρ : List Nat} {p' : Steps β}, Sim Q p ρ p' →
    (∀ ρ' a b, ρ <+: ρ' → Q ρ' a b → Sim R (f a) ρ' (f' b)) → Sim R (p.bind f) ρ (p'.bind f')
  | .ret a, ρ, _, ⟨b, rfl, h⟩, hf => hf ρ a b (List.prefix_refl ρ) h
  | .exc v, ρ, _, ⟨v', rfl, h⟩, _ => .exc h
  | .stuck, _, _, _, _ => .stuck
  | .act g k, ρ, _, hs, hf => by
    rcases hs with h | ⟨g', k', rfl, h⟩
    · exact .inl fun S => by simp only [h S]; rfl
    · refine .inr ⟨g', _, rfl, fun S S' hS => ?_⟩
      rcases h S S' hS with h | ⟨ρ', m, s, q⟩
      · exact .inl (by simp only [h]; rfl)
      · exact .inr ⟨ρ', m, s, Sim.bind q fun ρ'' a b hp => hf ρ'' a b (m.ext.trans hp)⟩

/-- The same end of a statement. -/
inductive FRel (ρ : List Nat) : Flow → Flow → Prop
  | next {l l' : Locals} : PRel ρ l l' → FRel ρ (.next l) (.next l')
  | ret {v v' : Val} : VRel ρ v v' → FRel ρ (.ret v) (.ret v')
  | cont {l l' : Locals} : PRel ρ l l' → FRel ρ (.cont l) (.cont l')
  | exc {v v' : Val} {l l' : Locals} : VRel ρ v v' → PRel ρ l l' → FRel ρ (.exc v l) (.exc v' l')

theorem Sim.out {α β : Type} {Q : List Nat → α → β → Prop} {f : α → Steps Flow} {f' : β → Steps Flow} {l l' : Locals} :
    ∀ {p : Steps α} {ρ : List Nat} {p' : Steps β}, PRel ρ l l' → Sim Q p ρ p' →
    (∀ ρ' a b, ρ <+: ρ' → PRel ρ' l l' → Q ρ' a b → Sim FRel (f a) ρ' (f' b)) → Sim FRel (p.out l f) ρ (p'.out l' f')
  | .ret a, ρ, _, hl, ⟨b, rfl, h⟩, hf => hf ρ a b (List.prefix_refl ρ) hl h
  | .exc v, ρ, _, hl, ⟨v', rfl, h⟩, _ => .ret (.exc h hl)
  | .stuck, _, _, _, _, _ => .stuck
  | .act g k, ρ, _, hl, hs, hf => by
    rcases hs with h | ⟨g', k', rfl, h⟩
    · exact .inl fun S => by simp only [h S]; rfl
    · refine .inr ⟨g', _, rfl, fun S S' hS => ?_⟩
      rcases h S S' hS with h | ⟨ρ', m, s, q⟩
      · exact .inl (by simp only [h]; rfl)
      · exact .inr ⟨ρ', m, s, Sim.out (hl.mono m.ext) q fun ρ'' a b hp => hf ρ'' a b (m.ext.trans hp)⟩

theorem Sim.result : ∀ {p : Steps Flow} {ρ : List Nat} {p' : Steps Flow}, Sim FRel p ρ p' → Sim VRel p.result ρ p'.result
  | .ret a, ρ, _, ⟨b, rfl, h⟩ => by
    cases h with
    | next _ => exact .ret (.same rfl)
    | ret h => exact .ret h
    | cont _ => exact .stuck
    | exc h _ => exact .exc h
  | .exc v, ρ, _, ⟨v', rfl, h⟩ => .stuck
  | .stuck, _, _, _ => .stuck
  | .act g k, ρ, _, hs => by
    rcases hs with h | ⟨g', k', rfl, h⟩
    · exact .inl fun S => by simp only [h S]; rfl
    · refine .inr ⟨g', _, rfl, fun S S' hS => ?_⟩
      rcases h S S' hS with h | ⟨ρ', m, s, q⟩
      · exact .inl (by simp only [h]; rfl)
      · exact .inr ⟨ρ', m, s, Sim.result q⟩

section
variable {ρ : List Nat}

theorem sim_test {v v' : Val} (hv : VRel ρ v v') : Sim (fun _ => Eq) (test v) ρ (test v') :=
  .prim fun S S' hS => by
    have ht := truthy_rel hS hv
    exact hS.of ht

theorem sim_elems {v v' : Val} (hv : VRel ρ v v') : Sim VRels (elems v) ρ (elems v') :=
  .prim fun _ _ hS => hS.of (iterate_rel hS hv)

theorem sim_peek {r r' : Nat} (hr : ρ[r]? = some r') : Sim ORel (peek r) ρ (peek r') :=
  .prim fun S S' hS => by
    obtain ⟨o, o', h1, h2, h3⟩ := hS.read hr
    rw [h1, h2]
    exact hS.ok h3

/-- A context in which calls are related. -/
def SimC (C : SCtx) : Prop := ∀ (f : Func) (args args' : List Val) (kw kw' : List (Ident × Val)) (ρ : List Nat),
  VRels ρ args args' → PRel ρ kw kw' → Sim VRel (C.call f args kw) ρ (C.call f args' kw')

variable {C : SCtx} (hC : SimC C)
include hC

theorem sim_getAttr {v v' : Val} (hv : VRel ρ v v') (a : Ident) : Sim VRel (getAttrS C v a) ρ (getAttrS C v' a) := by
  have hlib : Sim VRel (.prim (libAttr v a)) ρ (.prim (libAttr v' a)) := .prim fun _ _ hS => libAttr_rel hS hv a
  unfold getAttrS
  cases hv with
  | obj hr =>
    refine Sim.bind (sim_peek hr) fun ρ' o o' hp ho => ?_
    have hv' := VRel.obj (get_prefix hp hr)
    cases ho with
    | list _ => exact .ret (.bmethod hv')
    | dict _ => exact .ret (.bmethod hv')
    | inst hf =>
      simp only
      rename_i c fs fs'
      rcases findMethod c a with _ | ⟨c', d, f⟩
      · have hl := hf.look a
        generalize look a fs = x at hl ⊢
        generalize look a fs' = x' at hl ⊢
        cases hl with
        | none => exact .stuck
        | some h => exact .ret h
      · cases d with
        | prop => exact hC _ _ _ _ _ _ (.cons hv' .nil) .nil
        | plain =>
          simp only
          have hl := hf.look a
          generalize look a fs = x at hl ⊢
          generalize look a fs' = x' at hl ⊢
          cases hl with
          | none => exact .ret (.method hv')
          | some h => exact .ret h
        | static => exact .ret (.same rfl)
  | @same v hp =>
    cases v with
    | cls c =>
      simp only
      rcases findMethod c a with _ | ⟨c', d, f⟩
      · exact hlib
      · cases d with
        | static => exact .ret (.same rfl)
        | _ => exact .stuck
    | obj _ => cases hp
    | _ => exact hlib
  | junk => exact .doom fun _ => rfl
  | _ => exact .doom fun _ => rfl

theorem sim_apply {f f' : Val} (hf : VRel ρ f f') {args args' : List Val} (ha : VRels ρ args args')
    {kw kw' : List (Ident × Val)} (hk : PRel ρ kw kw') : Sim VRel (applyS C f args kw) ρ (applyS C f' args' kw') := by
  unfold applyS
  cases hf with
  | obj _ => exact .stuck
  | seq _ => exact .stuck
  | junk => exact .stuck
  | method hs =>
    rename_i self self' c m
    simp only
    split
    · split
      · cases hk
        obtain _ | ⟨h1, h2⟩ := ha
        cases h2
        cases hs with
        | same hp => cases hp
        | obj hr =>
          exact Sim.bind (.prim fun _ _ hS => putField_rel hS hr .args h1) fun _ _ _ _ _ => .ret (.same rfl)
      · exact .stuck
    · cases methodIn c m with
      | none => exact .stuck
      | some f => exact hC _ _ _ _ _ _ (.cons hs ha) hk
  | bmethod hs =>
    cases hk with
    | nil => exact .prim fun _ _ hS => libMethod_rel hS hs _ ha
    | cons _ _ => exact .stuck
  | @same f hp =>
    cases f with
    | cls c =>
      refine Sim.bind (.prim fun _ _ hS => hS.new (.inst .nil)) fun ρ' self self' hp hs => ?_
      rcases findMethod c .__init__ with _ | ⟨c', d, f⟩
      · cases ha with
        | nil =>
          cases hk with
          | nil => exact .ret hs
          | cons _ _ => exact .stuck
        | cons _ _ => exact .stuck
      · exact Sim.bind (hC _ _ _ _ _ _ (.cons hs (ha.mono hp)) (hk.mono hp)) fun ρ'' _ _ hp' _ => .ret (hs.mono hp')
    | func f =>
      simp only
      cases look f functions with
      | none => exact .stuck
      | some f => exact hC _ _ _ _ _ _ ha hk
    | static c m =>
      simp only
      cases methodIn c m with
      | none => exact .stuck
      | some f => exact hC _ _ _ _ _ _ ha hk
    | builtin f =>
      cases hk with
      | nil => exact .prim fun _ _ hS => builtin_rel _ hS _ ha
      | cons _ _ => exact .stuck
    | method _ _ _ => cases hp
    | bmethod _ _ => cases hp
    | _ => exact .stuck
omit hC

/-! ## Expressions -/

theorem sim_comp {p p' : Locals → Steps Bool} {q q' : Locals → Steps Val}
    (hp : ∀ ρ l l', PRel ρ l l' → Sim (fun _ => Eq) (p l) ρ (p' l'))
    (hq : ∀ ρ l l', PRel ρ l l' → Sim VRel (q l) ρ (q' l')) (x : Ident) :
    ∀ {vs vs' : List Val} {ρ : List Nat} {l l' : Locals}, PRel ρ l l' → VRels ρ vs vs' →
      Sim VRels (compS p q x l vs) ρ (compS p' q' x l' vs')
  | [], _, ρ, l, l', hl, hv => by
    cases hv
    exact .ret .nil
  | v :: vs, _, ρ, l, l', hl, hv => by
    obtain _ | ⟨h1, h2⟩ := hv
    unfold compS
    refine Sim.bind (hp _ _ _ (.cons h1 hl)) fun ρ1 b b' e1 hb => ?_
    subst hb
    split
    · refine Sim.bind (hq _ _ _ (.cons (h1.mono e1) (hl.mono e1))) fun ρ2 w w' e2 hw => ?_
      exact Sim.bind (sim_comp hp hq x (hl.mono (e1.trans e2)) (h2.mono (e1.trans e2))) fun ρ3 ws ws' e3 hws =>
        .ret (.cons (hw.mono e3) hws)
    · exact sim_comp hp hq x (hl.mono e1) (h2.mono e1)

theorem sim_any {q q' : Locals → Steps Val} (hq : ∀ ρ l l', PRel ρ l l' → Sim VRel (q l) ρ (q' l')) (x : Ident) :
    ∀ {vs vs' : List Val} {ρ : List Nat} {l l' : Locals}, PRel ρ l l' → VRels ρ vs vs' →
      Sim VRel (anyS q x l vs) ρ (anyS q' x l' vs')
  | [], _, ρ, l, l', hl, hv => by
    cases hv
    exact .ret (.same rfl)
  | v :: vs, _, ρ, l, l', hl, hv => by
    obtain _ | ⟨h1, h2⟩ := hv
    unfold anyS
    refine Sim.bind (hq _ _ _ (.cons h1 hl)) fun ρ1 w w' e1 hw => ?_
    refine Sim.bind (sim_test hw) fun ρ2 b b' e2 hb => ?_
    subst hb
    split
    · exact .ret (.same rfl)
    · exact sim_any hq x (hl.mono (e1.trans e2)) (h2.mono (e1.trans e2))

mutual
theorem sim_eval (hC : SimC C) : ∀ (e : Expr) (ρ : List Nat) (l l' : Locals), PRel ρ l l' → Sim VRel (evalS C e l) ρ (evalS C e l')
  | .none, _, _, _, _ => .ret (.same rfl)
  | .bool _, _, _, _, _ => .ret (.same rfl)
  | .int _, _, _, _, _ => .ret (.same rfl)
  | .str _, _, _, _, _ => .ret (.same rfl)
  | .name x, ρ, l, l', hl => by
    unfold evalS
    have h := hl.look x
    generalize look x l = y at h ⊢
    generalize look x l' = y' at h ⊢
    cases h with
    | none =>
      refine .of ?_
      cases hg : global x with
      | none => exact .none
      | some v => exact .some (.same (global_plain hg))
    | some h => exact .ret h
  | .attr e a, ρ, l, l', hl => by
    unfold evalS
    exact Sim.bind (sim_eval hC e ρ l l' hl) fun ρ1 v v' _ hv => sim_getAttr hC hv a
  | .super b a, ρ, l, l', hl => by
    unfold evalS
    have h := hl.look .self
    generalize look .self l = y at h ⊢
    generalize look .self l' = y' at h ⊢
    cases h with
    | none => exact .stuck
    | some h =>
      simp only
      split
      · exact .ret (.method h)
      · rcases findMethod b a with _ | ⟨c', d, f⟩
        · exact .stuck
        · cases d with
          | plain => exact .ret (.method h)
          | _ => exact .stuck
  | .item e k, ρ, l, l', hl => by
    unfold evalS
    exact Sim.bind (sim_eval hC e ρ l l' hl) fun ρ1 v v' e1 hv =>
      Sim.bind (sim_eval hC k ρ1 l l' (hl.mono e1)) fun ρ2 k k' e2 hk =>
        .prim fun _ _ hS => item_rel hS (hv.mono e2) hk
  | .slice e lo hi, ρ, l, l', hl => by
    unfold evalS
    refine Sim.bind (sim_eval hC e ρ l l' hl) fun ρ1 v v' e1 hv =>
      Sim.bind (sim_eval hC lo ρ1 l l' (hl.mono e1)) fun ρ2 i i' e2 hj =>
      Sim.bind (sim_eval hC hi ρ2 l l' (hl.mono (e1.trans e2))) fun ρ3 j j' e3 hk => ?_
    split
    · cases hv; cases hj; cases hk
      exact .ret (.same rfl)
    · exact .stuck
  | .call f args ks vs, ρ, l, l', hl => by
    unfold evalS
    exact Sim.bind (sim_eval hC f ρ l l' hl) fun ρ1 f f' e1 hf =>
      Sim.bind (sim_evals hC args ρ1 l l' (hl.mono e1)) fun ρ2 as as' e2 ha =>
      Sim.bind (sim_evals hC vs ρ2 l l' (hl.mono (e1.trans e2))) fun ρ3 vs vs' e3 hv =>
        sim_apply hC (hf.mono (e2.trans e3)) (ha.mono e3) (.zip ks hv)
  | .fstr parts, ρ, l, l', hl => by
    unfold evalS
    exact Sim.bind (sim_evals hC parts ρ l l' hl) fun ρ1 vs vs' e1 hv =>
      .of (optRel_eq _ (fun _ => .same rfl) (formats_rel hv))
  | .list es, ρ, l, l', hl => by
    unfold evalS
    exact Sim.bind (sim_evals hC es ρ l l' hl) fun ρ1 vs vs' e1 hv => .prim fun _ _ hS => hS.new (.list hv)
  | .dict ks es, ρ, l, l', hl => by
    unfold evalS
    exact Sim.bind (sim_evals hC es ρ l l' hl) fun ρ1 vs vs' e1 hv =>
      .prim fun _ _ hS => hS.new (.dict (drel_dictOf ks hv drel_nil))
  | .comp elt x it conds, ρ, l, l', hl => by
    unfold evalS
    exact Sim.bind (sim_eval hC it ρ l l' hl) fun ρ1 v v' e1 hv =>
      Sim.bind (sim_elems hv) fun ρ2 vs vs' e2 hvs =>
      Sim.bind (sim_comp (sim_holds hC conds) (sim_eval hC elt) x (hl.mono (e1.trans e2)) hvs) fun ρ3 ws ws' e3 hw =>
        .prim fun _ _ hS => hS.new (.list hw)
  | .anyGen elt x it, ρ, l, l', hl => by
    unfold evalS
    exact Sim.bind (sim_eval hC it ρ l l' hl) fun ρ1 v v' e1 hv =>
      Sim.bind (sim_elems hv) fun ρ2 vs vs' e2 hvs => sim_any (sim_eval hC elt) x (hl.mono (e1.trans e2)) hvs
  | .not e, ρ, l, l', hl => by
    unfold evalS
    refine Sim.bind (sim_eval hC e ρ l l' hl) fun ρ1 v v' e1 hv =>
      Sim.bind (sim_test hv) fun ρ2 b b' e2 hb => ?_
    subst hb
    exact .ret (.same rfl)
  | .and a b, ρ, l, l', hl => by
    unfold evalS
    refine Sim.bind (sim_eval hC a ρ l l' hl) fun ρ1 v v' e1 hv =>
      Sim.bind (sim_test hv) fun ρ2 c c' e2 hb => ?_
    subst hb
    split
    · exact sim_eval hC b ρ2 l l' (hl.mono (e1.trans e2))
    · exact .ret (hv.mono e2)
  | .or a b, ρ, l, l', hl => by
    unfold evalS
    refine Sim.bind (sim_eval hC a ρ l l' hl) fun ρ1 v v' e1 hv =>
      Sim.bind (sim_test hv) fun ρ2 c c' e2 hb => ?_
    subst hb
    split
    · exact .ret (hv.mono e2)
    · exact sim_eval hC b ρ2 l l' (hl.mono (e1.trans e2))
  | .ite c a b, ρ, l, l', hl => by
    unfold evalS
    refine Sim.bind (sim_eval hC c ρ l l' hl) fun ρ1 v v' e1 hv =>
      Sim.bind (sim_test hv) fun ρ2 c c' e2 hb => ?_
    subst hb
    split
    · exact sim_eval hC a ρ2 l l' (hl.mono (e1.trans e2))
    · exact sim_eval hC b ρ2 l l' (hl.mono (e1.trans e2))
  | .cmp op a b, ρ, l, l', hl => by
    unfold evalS
    exact Sim.bind (sim_eval hC a ρ l l' hl) fun ρ1 v v' e1 hv =>
      Sim.bind (sim_eval hC b ρ1 l l' (hl.mono e1)) fun ρ2 w w' e2 hw =>
        .prim fun _ _ hS => hS.of (optRel_eq _ (fun _ => .same rfl) (compare_rel hS op (hv.mono e2) hw))
  | .add a b, ρ, l, l', hl => by
    unfold evalS
    refine Sim.bind (sim_eval hC a ρ l l' hl) fun ρ1 v v' e1 hv =>
      Sim.bind (sim_eval hC b ρ1 l l' (hl.mono e1)) fun ρ2 w w' e2 hw => ?_
    split
    · cases hv; cases hw
      exact .ret (.same rfl)
    · cases hv; cases hw
      exact .ret (.same rfl)
    · exact .stuck
  | .sub a b, ρ, l, l', hl => by
    unfold evalS
    refine Sim.bind (sim_eval hC a ρ l l' hl) fun ρ1 v v' e1 hv =>
      Sim.bind (sim_eval hC b ρ1 l l' (hl.mono e1)) fun ρ2 w w' e2 hw => ?_
    split
    · cases hv; cases hw
      exact .ret (.same rfl)
    · exact .stuck
theorem sim_evals (hC : SimC C) : ∀ (es : List Expr) (ρ : List Nat) (l l' : Locals), PRel ρ l l' →
    Sim VRels (evalsS C es l) ρ (evalsS C es l')
  | [], _, _, _, _ => .ret .nil
  | e :: es, ρ, l, l', hl => by
    unfold evalsS
    exact Sim.bind (sim_eval hC e ρ l l' hl) fun ρ1 v v' e1 hv =>
      Sim.bind (sim_evals hC es ρ1 l l' (hl.mono e1)) fun ρ2 vs vs' e2 hvs => .ret (.cons (hv.mono e2) hvs)
theorem sim_holds (hC : SimC C) : ∀ (es : List Expr) (ρ : List Nat) (l l' : Locals), PRel ρ l l' →
    Sim (fun _ => Eq) (holdsS C es l) ρ (holdsS C es l')
  | [], _, _, _, _ => .ret rfl
  | e :: es, ρ, l, l', hl => by
    unfold holdsS
    refine Sim.bind (sim_eval hC e ρ l l' hl) fun ρ1 v v' e1 hv =>
      Sim.bind (sim_test hv) fun ρ2 b b' e2 hb => ?_
    subst hb
    split
    · exact sim_holds hC es ρ2 l l' (hl.mono (e1.trans e2))
    · exact .ret rfl
end

/-! ## Statements -/

theorem sim_while {c c' : Locals → Steps Val} {b b' : Locals → Steps Flow}
    (hc : ∀ ρ l l', PRel ρ l l' → Sim VRel (c l) ρ (c' l')) (hb : ∀ ρ l l', PRel ρ l l' → Sim FRel (b l) ρ (b' l')) :
    ∀ (n : Nat) (ρ : List Nat) (l l' : Locals), PRel ρ l l' → Sim FRel (whileS c b n l) ρ (whileS c' b' n l')
  | 0, _, _, _, _ => .stuck
  | n + 1, ρ, l, l', hl => by
    unfold whileS
    refine Sim.out hl (hc ρ l l' hl) fun ρ1 v v' e1 hl hv => ?_
    refine Sim.out hl (sim_test hv) fun ρ2 x x' e2 hl hx => ?_
    subst hx
    split
    · refine Sim.bind (hb ρ2 l l' hl) fun ρ3 o o' e3 ho => ?_
      cases ho with
      | next h => exact sim_while hc hb n ρ3 _ _ h
      | cont h => exact sim_while hc hb n ρ3 _ _ h
      | ret h => exact .ret (.ret h)
      | exc h h' => exact .ret (.exc h h')
    · exact .ret (.next hl)

theorem sim_for {bind : Nat → Val → Locals → Locals} {b b' : Locals → Steps Flow}
    (hbind : ∀ ρ i v v' l l', VRel ρ v v' → PRel ρ l l' → PRel ρ (bind i v l) (bind i v' l'))
    (hb : ∀ ρ l l', PRel ρ l l' → Sim FRel (b l) ρ (b' l')) :
    ∀ (vs vs' : List Val) (i : Nat) (ρ : List Nat) (l l' : Locals), VRels ρ vs vs' → PRel ρ l l' →
      Sim FRel (forS bind b i vs l) ρ (forS bind b' i vs' l')
  | [], _, _, _, _, _, hv, hl => by
    cases hv
    exact .ret (.next hl)
  | v :: vs, _, i, ρ, l, l', hv, hl => by
    obtain _ | ⟨h1, h2⟩ := hv
    unfold forS
    refine Sim.bind (hb ρ _ _ (hbind ρ i _ _ l l' h1 hl)) fun ρ1 o o' e1 ho => ?_
    cases ho with
    | next h => exact sim_for hbind hb vs _ _ ρ1 _ _ (h2.mono e1) h
    | cont h => exact sim_for hbind hb vs _ _ ρ1 _ _ (h2.mono e1) h
    | ret h => exact .ret (.ret h)
    | exc h h' => exact .ret (.exc h h')

mutual
theorem sim_exec (hC : SimC C) : ∀ (s : Stmt) (ρ : List Nat) (l l' : Locals), PRel ρ l l' → Sim FRel (execS C s l) ρ (execS C s l')
  | .assign x e, ρ, l, l', hl => by
    unfold execS
    exact Sim.out hl (sim_eval hC e ρ l l' hl) fun ρ1 v v' e1 hl hv => .ret (.next (.cons hv hl))
  | .setAttr o a e, ρ, l, l', hl => by
    unfold execS
    refine Sim.out hl (sim_eval hC e ρ l l' hl) fun ρ1 v v' e1 hl hv =>
      Sim.out hl (sim_eval hC o ρ1 l l' hl) fun ρ2 o o' e2 hl ho => ?_
    cases ho with
    | obj hr =>
      exact Sim.out hl (.prim fun _ _ hS => putField_rel hS hr a (hv.mono e2)) fun ρ3 _ _ e3 hl _ => .ret (.next hl)
    | @same o hp =>
      cases o with
      | obj _ => cases hp
      | _ => exact .stuck
    | _ => exact .stuck
  | .setItem o k e, ρ, l, l', hl => by
    unfold execS
    refine Sim.out hl (sim_eval hC e ρ l l' hl) fun ρ1 v v' e1 hl hv =>
      Sim.out hl (sim_eval hC o ρ1 l l' hl) fun ρ2 o o' e2 hl ho =>
      Sim.out hl (sim_eval hC k ρ2 l l' hl) fun ρ3 k k' e3 hl hk => ?_
    cases ho with
    | obj hr =>
      cases hk with
      | @same k hp =>
        cases k with
        | str k =>
          exact Sim.out hl (.prim fun _ _ hS => putItem_rel hS (get_prefix e3 hr) k (hv.mono (e2.trans e3)))
            fun ρ3 _ _ e3 hl _ => .ret (.next hl)
        | _ => exact .stuck
      | _ => exact .stuck
    | @same o hp =>
      cases o with
      | obj _ => cases hp
      | _ => exact .stuck
    | _ => exact .stuck
  | .expr e, ρ, l, l', hl => by
    unfold execS
    exact Sim.out hl (sim_eval hC e ρ l l' hl) fun ρ1 v v' e1 hl hv => .ret (.next hl)
  | .ret e, ρ, l, l', hl => by
    unfold execS
    exact Sim.out hl (sim_eval hC e ρ l l' hl) fun ρ1 v v' e1 hl hv => .ret (.ret hv)
  | .raise e, ρ, l, l', hl => by
    unfold execS
    exact Sim.out hl (sim_eval hC e ρ l l' hl) fun ρ1 v v' e1 hl hv => .ret (.exc hv hl)
  | .ite c a b, ρ, l, l', hl => by
    unfold execS
    refine Sim.out hl (sim_eval hC c ρ l l' hl) fun ρ1 v v' e1 hl hv =>
      Sim.out hl (sim_test hv) fun ρ2 x x' e2 hl hx => ?_
    subst hx
    split
    · exact sim_execs hC a ρ2 l l' hl
    · exact sim_execs hC b ρ2 l l' hl
  | .while c body, ρ, l, l', hl => by
    unfold execS
    exact sim_while (sim_eval hC c) (sim_execs hC body) _ ρ l l' hl
  | .for x it body, ρ, l, l', hl => by
    unfold execS
    exact Sim.out hl (sim_eval hC it ρ l l' hl) fun ρ1 v v' e1 hl hv =>
      Sim.out hl (sim_elems hv) fun ρ2 vs vs' e2 hl hvs =>
        sim_for (fun _ _ _ _ _ _ hv hl => .cons hv hl) (sim_execs hC body) _ _ 0 ρ2 l l' hvs hl
  | .forEnum i x it body, ρ, l, l', hl => by
    unfold execS
    exact Sim.out hl (sim_eval hC it ρ l l' hl) fun ρ1 v v' e1 hl hv =>
      Sim.out hl (sim_elems hv) fun ρ2 vs vs' e2 hl hvs =>
        sim_for (bind := fun n v l => (x, v) :: (i, .int n) :: l)
          (fun _ _ _ _ _ _ hv hl => .cons hv (.cons (.same rfl) hl)) (sim_execs hC body) _ _ 0 ρ2 l l' hvs hl
  | .tryExcept body x handler, ρ, l, l', hl => by
    unfold execS
    refine Sim.bind (sim_execs hC body ρ l l' hl) fun ρ1 o o' e1 ho => ?_
    cases ho with
    | exc h1 h2 =>
      refine Sim.bind (sim_execs hC handler ρ1 _ _ (.cons h1 h2)) fun ρ2 o o' e2 ho => ?_
      cases ho with
      | next h => exact .ret (.next (h.unset x))
      | ret h => exact .ret (.ret h)
      | cont h => exact .ret (.cont (h.unset x))
      | exc h h' => exact .ret (.exc h (h'.unset x))
    | next h => exact .ret (.next h)
    | ret h => exact .ret (.ret h)
    | cont h => exact .ret (.cont h)
  | .continue, _, _, _, hl => .ret (.cont hl)
  | .pass, _, _, _, hl => .ret (.next hl)
theorem sim_execs (hC : SimC C) : ∀ (ss : List Stmt) (ρ : List Nat) (l l' : Locals), PRel ρ l l' →
    Sim FRel (execsS C ss l) ρ (execsS C ss l')
  | [], _, _, _, hl => .ret (.next hl)
  | s :: ss, ρ, l, l', hl => by
    unfold execsS Steps.andThen
    refine Sim.bind (sim_exec hC s ρ l l' hl) fun ρ1 o o' e1 ho => ?_
    cases ho with
    | next h => exact sim_execs hC ss ρ1 _ _ h
    | ret h => exact .ret (.ret h)
    | cont h => exact .ret (.cont h)
    | exc h h' => exact .ret (.exc h h')
end

/-- Every call does the same alone and among others. -/
theorem sim_call (env : Env) : ∀ n : Nat, SimC ⟨env, callS env n, n⟩
  | 0, _, _, _, _, _, _, _, _ => .stuck
  | n + 1, f, args, args', kw, kw', ρ, ha, hk => by
    show Sim VRel (callS env (n + 1) f args kw) ρ (callS env (n + 1) f args' kw')
    unfold callS
    have h := prel_bindParams f.params ha hk
    generalize bindParams f.params args kw = x at h ⊢
    generalize bindParams f.params args' kw' = x' at h ⊢
    cases h with
    | none => exact .stuck
    | some h => exact Sim.result (sim_execs (sim_call env n) f.body ρ _ _ h)
end

end Verif.Src.Veil
