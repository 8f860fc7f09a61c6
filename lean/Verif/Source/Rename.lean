import Verif.Source.Steps

/-!
# Objects at other addresses

The same program in two stores: in the first it is alone, in the second there are also
objects of others.  The list `ρ` says where its objects are: the object at `a` in the first
store is at `ρ[a]` in the second.  Related values go in, related values come out, and the
objects of the others stay as they are.
-/

set_option linter.unusedSectionVars false

namespace Verif.Src

/-- Values without addresses. -/
def plain : Val → Bool
  | .obj _ => false
  | .method _ _ _ => false
  | .bmethod _ _ => false
  | .seq _ => false
  | _ => true

mutual
/-- The same value, with the addresses changed by `ρ`. -/
inductive VRel (ρ : List Nat) : Val → Val → Prop
  | obj {a a' : Nat} : ρ[a]? = some a' → VRel ρ (.obj a) (.obj a')
  | method {v v' : Val} {c m : Ident} : VRel ρ v v' → VRel ρ (.method v c m) (.method v' c m)
  | bmethod {v v' : Val} {m : Ident} : VRel ρ v v' → VRel ρ (.bmethod v m) (.bmethod v' m)
  | seq {vs vs' : List Val} : VRels ρ vs vs' → VRel ρ (.seq vs) (.seq vs')
  | same {v : Val} : plain v = true → VRel ρ v v
/-- The same values. -/
inductive VRels (ρ : List Nat) : List Val → List Val → Prop
  | nil : VRels ρ [] []
  | cons {v v' : Val} {vs vs' : List Val} : VRel ρ v v' → VRels ρ vs vs' → VRels ρ (v :: vs) (v' :: vs')
end

/-- The same values with the same names. -/
inductive PRel {κ : Type} (ρ : List Nat) : List (κ × Val) → List (κ × Val) → Prop
  | nil : PRel ρ [] []
  | cons {k : κ} {v v' : Val} {l l' : List (κ × Val)} : VRel ρ v v' → PRel ρ l l' →
      PRel ρ ((k, v) :: l) ((k, v') :: l')

/-- The same object. -/
inductive ORel (ρ : List Nat) : Obj → Obj → Prop
  | list {vs vs' : List Val} : VRels ρ vs vs' → ORel ρ (.list vs) (.list vs')
  | dict {d d' : Dict Val} : PRel ρ d d' → ORel ρ (.dict d) (.dict d')
  | inst {c : Ident} {fs fs' : List (Ident × Val)} : PRel ρ fs fs' → ORel ρ (.inst c fs) (.inst c fs')

/-- The objects of the first store are in the second. -/
structure SRel (ρ : List Nat) (S S' : Store) : Prop where
  len : ρ.length = S.length
  nodup : ρ.Nodup
  get : ∀ {a a' : Nat} {o : Obj}, S[a]? = some o → ρ[a]? = some a' → ∃ o', S'[a']? = some o' ∧ ORel ρ o o'

/-- What the second program may do to the second store: change its own objects and create new
ones, which are then its own. -/
structure Moves (ρ ρ' : List Nat) (S h : Store) : Prop where
  ext : ρ <+: ρ'
  grow : S.length ≤ h.length
  keep : ∀ a, a < S.length → a ∉ ρ → h[a]? = S[a]?
  fresh : ∀ a, a ∈ ρ' → a ∈ ρ ∨ S.length ≤ a

/-! ## More objects -/

theorem get_prefix {ρ ρ' : List Nat} (h : ρ <+: ρ') {a a' : Nat} (ha : ρ[a]? = some a') : ρ'[a]? = some a' := by
  obtain ⟨t, rfl⟩ := h
  exact look_old t ha
where
  look_old {ρ : List Nat} (t : List Nat) {a a' : Nat} (h : ρ[a]? = some a') : (ρ ++ t)[a]? = some a' := by
    rw [List.getElem?_append_left (List.getElem?_eq_some_iff.1 h).1]
    exact h

mutual
theorem VRel.mono {ρ ρ' : List Nat} (h : ρ <+: ρ') {v v' : Val} (hv : VRel ρ v v') : VRel ρ' v v' := by
  cases hv with
  | obj ha => exact .obj (get_prefix h ha)
  | method hv => exact .method (hv.mono h)
  | bmethod hv => exact .bmethod (hv.mono h)
  | seq hv => exact .seq (hv.mono h)
  | same hp => exact .same hp
theorem VRels.mono {ρ ρ' : List Nat} (h : ρ <+: ρ') {vs vs' : List Val} (hv : VRels ρ vs vs') : VRels ρ' vs vs' := by
  cases hv with
  | nil => exact .nil
  | cons hv hvs => exact .cons (hv.mono h) (hvs.mono h)
end

theorem PRel.mono {κ : Type} {ρ ρ' : List Nat} (h : ρ <+: ρ') {l l' : List (κ × Val)} (hl : PRel ρ l l') :
    PRel ρ' l l' := by
  induction hl with
  | nil => exact .nil
  | cons hv _ ih => exact .cons (hv.mono h) ih

theorem ORel.mono {ρ ρ' : List Nat} (h : ρ <+: ρ') {o o' : Obj} (ho : ORel ρ o o') : ORel ρ' o o' := by
  cases ho with
  | list hv => exact .list (hv.mono h)
  | dict hv => exact .dict (hv.mono h)
  | inst hv => exact .inst (hv.mono h)

theorem Moves.refl (ρ : List Nat) (S : Store) : Moves ρ ρ S S :=
  ⟨List.prefix_refl ρ, Nat.le_refl _, fun _ _ _ => rfl, fun _ h => .inl h⟩

/-! ## Reading -/

section
variable {ρ : List Nat} {S S' : Store}

theorem SRel.read (h : SRel ρ S S') {a a' : Nat} (ha : ρ[a]? = some a') :
    ∃ o o', S[a]? = some o ∧ S'[a']? = some o' ∧ ORel ρ o o' := by
  have hl : a < S.length := by
    rw [← h.len]
    exact (List.getElem?_eq_some_iff.1 ha).1
  obtain ⟨o', h1, h2⟩ := h.get (List.getElem?_eq_getElem hl) ha
  exact ⟨_, o', List.getElem?_eq_getElem hl, h1, h2⟩

theorem VRels.length {vs vs' : List Val} (h : VRels ρ vs vs') : vs.length = vs'.length := by
  match h with
  | .nil => rfl
  | .cons _ h => rw [List.length_cons, List.length_cons, h.length]

theorem VRels.isEmpty {vs vs' : List Val} (h : VRels ρ vs vs') : vs.isEmpty = vs'.isEmpty := by
  cases h <;> rfl

theorem PRel.isEmpty {κ : Type} {l l' : List (κ × Val)} (h : PRel ρ l l') : l.isEmpty = l'.isEmpty := by
  cases h <;> rfl

/-- Two results that may be missing. -/
inductive OptRel {α β : Type} (Q : α → β → Prop) : Option α → Option β → Prop
  | none : OptRel Q none none
  | some {a : α} {b : β} : Q a b → OptRel Q (some a) (some b)

theorem VRels.get {vs vs' : List Val} (h : VRels ρ vs vs') (i : Nat) : OptRel (VRel ρ) vs[i]? vs'[i]? := by
  match h, i with
  | .nil, _ => exact .none
  | .cons hv _, 0 => exact .some hv
  | .cons _ h, i + 1 => exact h.get i

theorem VRels.index {vs vs' : List Val} (h : VRels ρ vs vs') (i : Int) : OptRel (VRel ρ) (pyIndex vs i) (pyIndex vs' i) := by
  unfold pyIndex
  rw [h.length]
  split
  · exact h.get _
  · split
    · exact h.get _
    · exact .none

theorem VRels.append {vs vs' ws ws' : List Val} (h : VRels ρ vs vs') (h' : VRels ρ ws ws') :
    VRels ρ (vs ++ ws) (vs' ++ ws') := by
  match h with
  | .nil => exact h'
  | .cons hv h => exact .cons hv (h.append h')

theorem vrels_same {α : Type} (f : α → Val) (hf : ∀ a, plain (f a) = true) : ∀ xs : List α, VRels ρ (xs.map f) (xs.map f)
  | [] => .nil
  | x :: xs => .cons (.same (hf x)) (vrels_same f hf xs)

theorem PRel.look {l l' : List (Ident × Val)} (h : PRel ρ l l') (x : Ident) : OptRel (VRel ρ) (look x l) (look x l') := by
  induction h with
  | nil => exact .none
  | cons hv _ ih =>
    unfold Verif.Src.look
    split
    · exact .some hv
    · exact ih

theorem PRel.setField {l l' : List (Ident × Val)} (h : PRel ρ l l') (x : Ident) {v v' : Val} (hv : VRel ρ v v') :
    PRel ρ (setField x v l) (setField x v' l') := by
  induction h with
  | nil => exact .cons hv .nil
  | cons hw hl ih =>
    unfold Verif.Src.setField
    split
    · exact .cons hv hl
    · exact .cons hw ih

theorem PRel.unset {l l' : List (Ident × Val)} (h : PRel ρ l l') (x : Ident) : PRel ρ (unset x l) (unset x l') := by
  induction h with
  | nil => exact .nil
  | @cons k v v' l l' hv hl ih =>
    unfold Verif.Src.unset at ih ⊢
    by_cases hk : k = x
    · rw [List.filter_cons_of_neg (by simp [hk]), List.filter_cons_of_neg (by simp [hk])]
      exact ih
    · rw [List.filter_cons_of_pos (by simp [hk]), List.filter_cons_of_pos (by simp [hk])]
      exact .cons hv ih

theorem PRel.zip : ∀ (ks : List Ident) {vs vs' : List Val}, VRels ρ vs vs' → PRel ρ (ks.zip vs) (ks.zip vs')
  | [], _, _, _ => by simp only [List.zip_nil_left]; exact .nil
  | k :: ks, _, _, h => by
    cases h with
    | nil => exact .nil
    | cons hv h => exact .cons hv (PRel.zip ks h)

theorem PRel.dictGet {d d' : Dict Val} (h : PRel ρ d d') (k : Str) : OptRel (VRel ρ) (Dict.get? d k) (Dict.get? d' k) := by
  induction h with
  | nil => exact .none
  | @cons k' v v' l l' hv hl ih =>
    unfold Dict.get?
    cases h1 : Dict.get? l k with
    | none =>
      rw [h1] at ih
      cases h2 : Dict.get? l' k with
      | none =>
        simp only
        split
        · exact .some hv
        · exact .none
      | some w => rw [h2] at ih; cases ih
    | some w =>
      rw [h1] at ih
      cases h2 : Dict.get? l' k with
      | none => rw [h2] at ih; cases ih
      | some w' =>
        rw [h2] at ih
        exact ih

theorem PRel.any {d d' : Dict Val} (h : PRel ρ d d') (k : Str) :
    (d.any fun p => p.1 == k) = d'.any fun p => p.1 == k := by
  induction h with
  | nil => rfl
  | cons _ _ ih => rw [List.any_cons, List.any_cons, ih]

theorem PRel.dictSet {d d' : Dict Val} (h : PRel ρ d d') (k : Str) {v v' : Val} (hv : VRel ρ v v') :
    PRel ρ (Dict.set d k v) (Dict.set d' k v') := by
  unfold Dict.set
  rw [h.any k]
  split
  · next h1 =>
    clear h1
    induction h with
    | nil => exact .nil
    | cons hw _ ih =>
      rw [List.map_cons, List.map_cons]
      simp only
      split
      · exact .cons hv ih
      · exact .cons hw ih
  · next h1 =>
    clear h1
    induction h with
    | nil => exact .cons hv .nil
    | cons hw _ ih => exact .cons hw ih

theorem PRel.dictOf : ∀ (ks : List Str) {vs vs' : List Val} {d d' : Dict Val}, VRels ρ vs vs' → PRel ρ d d' →
    PRel ρ (dictOf ks vs d) (dictOf ks vs' d')
  | [], _, _, _, _, _, hd => by unfold Verif.Src.dictOf; exact hd
  | k :: ks, _, _, _, _, hv, hd => by
    cases hv with
    | nil => unfold Verif.Src.dictOf; exact hd
    | cons hw hv =>
      unfold Verif.Src.dictOf
      exact PRel.dictOf ks hv (hd.dictSet k hw)

theorem prel_bindParams : ∀ (ps : List (Ident × Option Str)) {args args' : List Val} {kw kw' : List (Ident × Val)},
    VRels ρ args args' → PRel ρ kw kw' → OptRel (PRel ρ) (bindParams ps args kw) (bindParams ps args' kw')
  | [], _, _, _, _, ha, _ => by
    cases ha with
    | nil => exact .some .nil
    | cons _ _ => exact .none
  | (x, d) :: ps, _, _, kw, kw', ha, hk => by
    cases ha with
    | cons hv ha =>
      unfold bindParams
      have ih := prel_bindParams ps ha hk
      generalize bindParams ps _ kw = o at ih ⊢
      generalize bindParams ps _ kw' = o' at ih ⊢
      cases ih with
      | none => exact .none
      | some h => exact .some (.cons hv h)
    | nil =>
      unfold bindParams
      have ih := prel_bindParams ps .nil hk
      have hl := hk.look x
      generalize bindParams ps _ kw = o at ih ⊢
      generalize bindParams ps _ kw' = o' at ih ⊢
      generalize Verif.Src.look x kw = y at hl ⊢
      generalize Verif.Src.look x kw' = y' at hl ⊢
      cases hl with
      | some hv =>
        cases ih with
        | none => exact .none
        | some h => exact .some (.cons hv h)
      | none =>
        cases d with
        | none => exact .none
        | some s =>
          cases ih with
          | none => exact .none
          | some h => exact .some (.cons (.same rfl) h)

theorem VRel.isText {v v' : Val} (h : VRel ρ v v') : isText v = isText v' := by
  cases h <;> rfl

theorem dictTrue_rel {d d' : Dict Val} (h : PRel ρ d d') : dictTrue d = dictTrue d' := by
  have hg : ∀ k, (Dict.get? d k).map Verif.Src.isText = (Dict.get? d' k).map Verif.Src.isText := fun k => by
    have ho := h.dictGet k
    generalize Dict.get? d k = o at ho
    generalize Dict.get? d' k = o' at ho
    cases ho with
    | none => rfl
    | some hv => rw [Option.map_some, Option.map_some, hv.isText]
  have ha : (d.all fun p => ((Dict.get? d p.1).map Verif.Src.isText).getD true) =
      d'.all fun p => ((Dict.get? d' p.1).map Verif.Src.isText).getD true := by
    simp only [hg]
    have hf : ∀ f : Str → Bool, (d.all fun p => f p.1) = d'.all fun p => f p.1 := fun f => by
      clear hg
      induction h with
      | nil => rfl
      | cons hv _ ih => rw [List.all_cons, List.all_cons, ih]
    exact hf fun k => ((Dict.get? d' k).map Verif.Src.isText).getD true
  unfold dictTrue
  rw [ha, h.isEmpty]

theorem dictHas_rel {d d' : Dict Val} (h : PRel ρ d d') (k : Str) : dictHas d k = dictHas d' k := by
  have ho := h.dictGet k
  unfold dictHas
  generalize Dict.get? d k = o at ho
  generalize Dict.get? d' k = o' at ho
  cases ho with
  | none => rfl
  | some hv => simp only [hv.isText]

theorem truthy_rel (h : SRel ρ S S') {v v' : Val} (hv : VRel ρ v v') : truthy S v = truthy S' v' := by
  cases hv with
  | obj ha =>
    obtain ⟨o, o', h1, h2, h3⟩ := h.read ha
    simp only [truthy, h1, h2]
    cases h3 with
    | list hv => simp only [hv.isEmpty]
    | dict hv => exact dictTrue_rel hv
    | inst _ => rfl
  | method _ => rfl
  | bmethod _ => rfl
  | seq _ => rfl
  | @same v hp => cases v <;> first | rfl | cases hp

theorem equal_rel {v v' w w' : Val} (hv : VRel ρ v v') (hw : VRel ρ w w') : equal v w = equal v' w' := by
  cases hv with
  | @same v hp =>
    cases hw with
    | same hp => rfl
    | _ => cases v <;> rfl
  | _ => rfl

theorem iterate_rel (h : SRel ρ S S') {v v' : Val} (hv : VRel ρ v v') :
    OptRel (VRels ρ) (iterate S v) (iterate S' v') := by
  cases hv with
  | obj ha =>
    obtain ⟨o, o', h1, h2, h3⟩ := h.read ha
    simp only [iterate, h1, h2]
    cases h3 with
    | list hv => exact .some hv
    | dict hv => exact .none
    | inst _ => exact .none
  | method _ => exact .none
  | bmethod _ => exact .none
  | seq hv => exact .some hv
  | @same v hp =>
    cases v with
    | str s => exact .some (vrels_same _ (fun _ => rfl) s)
    | _ => first | exact .none | cases hp

theorem strings_rel {vs vs' : List Val} (h : VRels ρ vs vs') : strings vs = strings vs' := by
  match h with
  | .nil => rfl
  | .cons hv h =>
    cases hv with
    | same hp =>
      rename_i v _ _
      cases v <;> simp only [strings, strings_rel h]
    | _ => rfl

theorem formats_rel {vs vs' : List Val} (h : VRels ρ vs vs') : formats vs = formats vs' := by
  match h with
  | .nil => rfl
  | .cons hv h =>
    unfold formats
    rw [formats_rel h]
    cases hv <;> rfl

theorem member_rel {v v' : Val} (hv : VRel ρ v v') {ws ws' : List Val} (h : VRels ρ ws ws') :
    member v ws = member v' ws' := by
  match h with
  | .nil => rfl
  | .cons hw h =>
    unfold member
    rw [equal_rel hv hw, member_rel hv h]

theorem compare_rel (h : SRel ρ S S') (op : Cmp) {v v' w w' : Val} (hv : VRel ρ v v') (hw : VRel ρ w w') :
    compare S op v w = compare S' op v' w' := by
  have hin : compare.isIn S v w = compare.isIn S' v' w' := by
    unfold compare.isIn
    cases hw with
    | obj ha =>
      obtain ⟨o, o', h1, h2, h3⟩ := h.read ha
      simp only [h1, h2]
      cases h3 with
      | list hl => exact member_rel hv hl
      | dict hd =>
        cases hv with
        | @same v hp => cases v <;> first | rfl | (exact dictHas_rel hd _)
        | _ => rfl
      | inst _ => rfl
    | @same w hp => cases w <;> first | rfl | cases hp
    | _ => rfl
  have hints : ∀ f, compare.ints v w f = compare.ints v' w' f := by
    intro f
    unfold compare.ints
    cases hv with
    | @same v hp =>
      cases hw with
      | same _ => rfl
      | _ => cases v <;> rfl
    | _ => rfl
  unfold compare
  cases op with
  | eq => exact equal_rel hv hw
  | ne => simp only [equal_rel hv hw]
  | isNot =>
    cases hv with
    | @same v hp =>
      cases hw with
      | same _ => rfl
      | _ => cases v <;> rfl
    | _ => rfl
  | mem => exact hin
  | notMem => simp only [hin]
  | _ => exact hints _
end

/-! ## Operations -/

/-- The same result, and only own objects changed. -/
def RRel {α β : Type} (Q : List Nat → α → β → Prop) (ρ : List Nat) (S' : Store) : Res α → Res β → Prop
  | .ok a h, .ok b h' => ∃ ρ', Moves ρ ρ' S' h' ∧ SRel ρ' h h' ∧ Q ρ' a b
  | .exc v h, .exc v' h' => ∃ ρ', Moves ρ ρ' S' h' ∧ SRel ρ' h h' ∧ VRel ρ' v v'
  | .stuck, .stuck => True
  | _, _ => False

section
variable {ρ : List Nat} {S S' : Store}

theorem SRel.ok {α β : Type} {Q : List Nat → α → β → Prop} {a : α} {b : β} (h : SRel ρ S S') (hq : Q ρ a b) :
    RRel Q ρ S' (.ok a S) (.ok b S') :=
  ⟨ρ, .refl ρ S', h, hq⟩

theorem SRel.exc {α β : Type} {Q : List Nat → α → β → Prop} {v v' : Val} (h : SRel ρ S S') (hq : VRel ρ v v') :
    RRel Q ρ S' (.exc v S) (.exc v' S') :=
  ⟨ρ, .refl ρ S', h, hq⟩

theorem SRel.of {α β : Type} {Q : List Nat → α → β → Prop} {a : Option α} {b : Option β} (h : SRel ρ S S')
    (hq : OptRel (Q ρ) a b) : RRel Q ρ S' (.of a S) (.of b S') := by
  cases hq with
  | none => trivial
  | some hq => exact h.ok hq

theorem optRel_eq {α β : Type} {Q : β → β → Prop} (f : α → β) (hf : ∀ a, Q (f a) (f a)) {o o' : Option α} (h : o = o') :
    OptRel Q (o.map f) (o'.map f) := by
  subst h
  cases o with
  | none => exact .none
  | some a => exact .some (hf a)

theorem SRel.new (h : SRel ρ S S') {o o' : Obj} (ho : ORel ρ o o') : RRel VRel ρ S' (new o S) (new o' S') := by
  have hp : ρ <+: ρ ++ [S'.length] := List.prefix_append _ _
  have hlt : ∀ a ∈ ρ, a < S'.length := by
    intro a ha
    obtain ⟨i, hi⟩ := List.getElem?_of_mem ha
    obtain ⟨_, o', _, h2, _⟩ := h.read hi
    exact (List.getElem?_eq_some_iff.1 h2).1
  refine ⟨ρ ++ [S'.length], ⟨hp, by simp, fun a ha _ => List.getElem?_append_left ha, fun a ha => ?_⟩,
    ⟨by simp [h.len], ?_, fun {a a' o1} h1 h2 => ?_⟩, .obj ?_⟩
  · rcases List.mem_append.1 ha with h1 | h1
    · exact .inl h1
    · rw [List.mem_singleton.1 h1]; exact .inr (Nat.le_refl _)
  · rw [List.nodup_append]
    refine ⟨h.nodup, by simp, fun a ha b hb => ?_⟩
    rw [List.mem_singleton.1 hb]
    have := hlt a ha
    omega
  · by_cases hlt' : a < S.length
    · rw [List.getElem?_append_left hlt'] at h1
      rw [List.getElem?_append_left (by rw [h.len]; exact hlt')] at h2
      obtain ⟨o2, h3, h4⟩ := h.get h1 h2
      exact ⟨o2, by rw [List.getElem?_append_left (List.getElem?_eq_some_iff.1 h3).1]; exact h3, h4.mono hp⟩
    · rw [List.getElem?_append_right (by omega)] at h1
      rw [List.getElem?_append_right (by rw [h.len]; omega)] at h2
      rw [List.getElem?_singleton] at h1 h2
      split at h1
      · cases h1
        split at h2
        · cases h2
          exact ⟨o', by simp, ho.mono hp⟩
        · cases h2
      · cases h1
  · rw [← h.len]
    simp

theorem SRel.set (h : SRel ρ S S') {a a' : Nat} (ha : ρ[a]? = some a') {o o' : Obj} (ho : ORel ρ o o') :
    Moves ρ ρ S' (S'.set a' o') ∧ SRel ρ (S.set a o) (S'.set a' o') := by
  have hm : a' ∈ ρ := List.mem_of_getElem? ha
  refine ⟨⟨List.prefix_refl ρ, by simp, fun b _ hn => ?_, fun _ h => .inl h⟩, by simp [h.len], h.nodup, fun {b b' o1} h1 h2 => ?_⟩
  · rw [List.getElem?_set_ne]
    intro e
    exact hn (e ▸ hm)
  · obtain ⟨_, o2, g1, g2, g3⟩ := h.read ha
    by_cases e : a = b
    · subst e
      rw [ha] at h2
      cases h2
      rw [List.getElem?_set_self (List.getElem?_eq_some_iff.1 g1).1] at h1
      cases h1
      exact ⟨o', List.getElem?_set_self (List.getElem?_eq_some_iff.1 g2).1, ho⟩
    · rw [List.getElem?_set_ne e] at h1
      obtain ⟨o3, h3, h4⟩ := h.get h1 h2
      refine ⟨o3, ?_, h4⟩
      rw [List.getElem?_set_ne]
      · exact h3
      · intro e'
        subst e'
        obtain ⟨i1, j1⟩ := List.getElem?_eq_some_iff.1 ha
        obtain ⟨i2, j2⟩ := List.getElem?_eq_some_iff.1 h2
        exact e ((List.getElem_inj h.nodup).1 (j1.trans j2.symm))

theorem putField_rel (h : SRel ρ S S') {r r' : Nat} (hr : ρ[r]? = some r') (a : Ident) {v v' : Val} (hv : VRel ρ v v') :
    RRel (fun _ _ _ => True) ρ S' (putField r a v S) (putField r' a v' S') := by
  obtain ⟨o, o', h1, h2, h3⟩ := h.read hr
  unfold putField
  rw [h1, h2]
  cases h3 with
  | inst hf =>
    obtain ⟨m, s⟩ := h.set hr (.inst (c := _) (hf.setField a hv))
    exact ⟨ρ, m, s, trivial⟩
  | _ => trivial

theorem putItem_rel (h : SRel ρ S S') {r r' : Nat} (hr : ρ[r]? = some r') (k : Str) {v v' : Val} (hv : VRel ρ v v') :
    RRel (fun _ _ _ => True) ρ S' (putItem r k v S) (putItem r' k v' S') := by
  obtain ⟨o, o', h1, h2, h3⟩ := h.read hr
  unfold putItem
  rw [h1, h2]
  cases h3 with
  | dict hf =>
    obtain ⟨m, s⟩ := h.set hr (.dict (hf.dictSet k hv))
    exact ⟨ρ, m, s, trivial⟩
  | _ => trivial

theorem item_rel (h : SRel ρ S S') {v v' k k' : Val} (hv : VRel ρ v v') (hk : VRel ρ k k') :
    RRel VRel ρ S' (item v k S) (item v' k' S') := by
  cases hv with
  | obj ha =>
    obtain ⟨o, o', h1, h2, h3⟩ := h.read ha
    cases hk with
    | @same k hp =>
      cases k with
      | int i =>
        simp only [item, h1, h2]
        cases h3 with
        | list hl =>
          simp only
          have hi := hl.index i
          generalize pyIndex _ i = x at hi ⊢
          generalize pyIndex _ i = x' at hi ⊢
          cases hi with
          | none => exact h.exc (.same rfl)
          | some hv => exact h.ok hv
        | _ => trivial
      | str k =>
        simp only [item, h1, h2]
        cases h3 with
        | dict hl =>
          simp only
          have hi := hl.dictGet k
          generalize Dict.get? _ k = x at hi ⊢
          generalize Dict.get? _ k = x' at hi ⊢
          cases hi with
          | none => exact h.exc (.same rfl)
          | some hv =>
            simp only [hv.isText]
            split
            · exact h.ok hv
            · trivial
        | _ => trivial
      | _ => trivial
    | _ => trivial
  | @same v hp =>
    cases v with
    | str s =>
      cases hk with
      | @same k _ =>
        cases k with
        | int i =>
          simp only [item]
          cases pyIndex s i with
          | none => exact h.exc (.same rfl)
          | some c => exact h.ok (.same rfl)
        | _ => trivial
      | _ => trivial
    | obj a => cases hp
    | _ => trivial
  | _ => trivial

theorem libAttr_rel (h : SRel ρ S S') {v v' : Val} (hv : VRel ρ v v') (a : Ident) :
    RRel VRel ρ S' (libAttr v a S) (libAttr v' a S') := by
  cases hv with
  | @same v hp =>
    cases v with
    | str s => exact h.ok (.bmethod (.same rfl))
    | table t => exact h.ok (.bmethod (.same rfl))
    | document d => exact h.ok (.bmethod (.same rfl))
    | nodeMap as => exact h.ok (.bmethod (.same rfl))
    | pattern p => exact h.ok (.bmethod (.same rfl))
    | record fs => exact h.of (optRel_eq _ (fun _ => .same rfl) rfl)
    | obj _ => cases hp
    | method _ _ _ => cases hp
    | bmethod _ _ => cases hp
    | seq _ => cases hp
    | node n =>
      unfold libAttr
      repeat' split
      all_goals first
        | trivial
        | exact h.ok (.same rfl)
        | exact h.ok (.seq (vrels_same _ (fun _ => rfl) _))
        | simp_all
    | _ =>
      unfold libAttr
      repeat' split
      all_goals first
        | trivial
        | exact h.ok (.same rfl)
        | simp_all
  | _ => trivial

theorem OptRel.getD {o o' : Option Val} (h : OptRel (VRel ρ) o o') {w w' : Val} (hw : VRel ρ w w') :
    VRel ρ (o.getD w) (o'.getD w') := by
  cases h with
  | none => exact hw
  | some h => exact h

theorem libMethod_rel (h : SRel ρ S S') {v v' : Val} (hv : VRel ρ v v') (m : Ident) {args args' : List Val}
    (ha : VRels ρ args args') : RRel VRel ρ S' (libMethod v m args S) (libMethod v' m args' S') := by
  have hmap : ∀ ss : List Str, ORel ρ (.list (ss.map .str)) (.list (ss.map .str)) := fun ss =>
    .list (vrels_same _ (fun _ => rfl) ss)
  have hget : ∀ (t : Ident) (k : Str) (w w' : Val), VRel ρ w w' →
      VRel ρ ((tableGet t k).getD w) ((tableGet t k).getD w') := by
    intro t k w w' hw
    cases ht : tableGet t k with
    | none => exact hw
    | some u =>
      refine .same ?_
      unfold tableGet at ht
      split at ht
      all_goals first
        | (obtain ⟨_, _, rfl⟩ := Option.map_eq_some_iff.1 ht; rfl)
        | cases ht
  unfold libMethod
  split
  · cases hv; cases ha
    exact h.ok (.same rfl)
  · cases hv; cases ha
    exact h.new (hmap _)
  · cases hv
    obtain _ | ⟨h1, h2⟩ := ha
    cases h1; cases h2
    exact h.new (hmap _)
  · cases hv
    obtain _ | ⟨h1, h2⟩ := ha
    cases h2
    simp only
    have hi := iterate_rel h h1
    generalize iterate S _ = x at hi ⊢
    generalize iterate S' _ = x' at hi ⊢
    cases hi with
    | none => trivial
    | some hv =>
      simp only [Option.bind]
      rw [strings_rel hv]
      split
      · exact h.ok (.same rfl)
      · trivial
  · cases hv
    obtain _ | ⟨h1, h2⟩ := ha
    cases h1; cases h2
    exact h.ok (hget _ _ _ _ (.same rfl))
  · cases hv
    obtain _ | ⟨h1, h2⟩ := ha
    obtain _ | ⟨h3, h4⟩ := h2
    cases h1; cases h4
    exact h.ok (hget _ _ _ _ h3)
  · cases hv
    obtain _ | ⟨h1, h2⟩ := ha
    cases h1; cases h2
    simp only
    split
    · exact h.ok (.seq (vrels_same _ (fun _ => rfl) _))
    · trivial
  · cases hv; cases ha
    exact h.ok (.seq (vrels_same _ (fun _ => rfl) _))
  · cases hv
    obtain _ | ⟨h1, h2⟩ := ha
    obtain _ | ⟨h3, h4⟩ := h2
    cases h1; cases h3; cases h4
    exact h.of (optRel_eq _ (fun _ => .same rfl) rfl)
  · cases hv with
    | same hp => cases hp
    | obj hr =>
      obtain _ | ⟨h1, h2⟩ := ha
      cases h1; cases h2
      obtain ⟨o, o', g1, g2, g3⟩ := h.read hr
      simp only [g1, g2]
      cases g3 with
      | dict hd => exact h.ok ((hd.dictGet _).getD (.same rfl))
      | _ => trivial
  · cases hv with
    | same hp => cases hp
    | obj hr =>
      obtain _ | ⟨h1, h2⟩ := ha
      obtain _ | ⟨h3, h4⟩ := h2
      cases h1; cases h4
      obtain ⟨o, o', g1, g2, g3⟩ := h.read hr
      simp only [g1, g2]
      cases g3 with
      | dict hd => exact h.ok ((hd.dictGet _).getD h3)
      | _ => trivial
  · cases hv with
    | same hp => cases hp
    | obj hr =>
      obtain _ | ⟨h1, h2⟩ := ha
      cases h2
      obtain ⟨o, o', g1, g2, g3⟩ := h.read hr
      simp only [g1, g2]
      cases g3 with
      | list hl =>
        obtain ⟨m, s⟩ := h.set hr (.list (hl.append (.cons h1 .nil)))
        exact ⟨ρ, m, s, .same rfl⟩
      | _ => trivial
  · next x1 x2 x3 x4 x5 x6 x7 x8 x9 x10 x11 x12 =>
    split
    · cases hv; cases ha
      exact (x1 _ rfl rfl rfl).elim
    · cases hv; cases ha
      exact (x2 _ rfl rfl rfl).elim
    · cases hv
      obtain _ | ⟨h1, h2⟩ := ha
      cases h1; cases h2
      exact (x3 _ _ rfl rfl rfl).elim
    · cases hv
      obtain _ | ⟨h1, h2⟩ := ha
      cases h2
      exact (x4 _ _ rfl rfl rfl).elim
    · cases hv
      obtain _ | ⟨h1, h2⟩ := ha
      cases h1; cases h2
      exact (x5 _ _ rfl rfl rfl).elim
    · cases hv
      obtain _ | ⟨h1, h2⟩ := ha
      obtain _ | ⟨h3, h4⟩ := h2
      cases h1; cases h4
      exact (x6 _ _ _ rfl rfl rfl).elim
    · cases hv
      obtain _ | ⟨h1, h2⟩ := ha
      cases h1; cases h2
      exact (x7 _ _ rfl rfl rfl).elim
    · cases hv; cases ha
      exact (x8 _ rfl rfl rfl).elim
    · cases hv
      obtain _ | ⟨h1, h2⟩ := ha
      obtain _ | ⟨h3, h4⟩ := h2
      cases h1; cases h3; cases h4
      exact (x9 _ _ _ rfl rfl rfl).elim
    · cases hv with
      | same hp => cases hp
      | obj hr =>
        obtain _ | ⟨h1, h2⟩ := ha
        cases h1; cases h2
        exact (x10 _ _ rfl rfl rfl).elim
    · cases hv with
      | same hp => cases hp
      | obj hr =>
        obtain _ | ⟨h1, h2⟩ := ha
        obtain _ | ⟨h3, h4⟩ := h2
        cases h1; cases h4
        exact (x11 _ _ _ rfl rfl rfl).elim
    · cases hv with
      | same hp => cases hp
      | obj hr =>
        obtain _ | ⟨h1, h2⟩ := ha
        cases h2
        exact (x12 _ _ rfl rfl rfl).elim
    · trivial

theorem anyOf_rel (h : SRel ρ S S') {vs vs' : List Val} (hv : VRels ρ vs vs') : anyOf S vs = anyOf S' vs' := by
  match hv with
  | .nil => rfl
  | .cons hw hv =>
    unfold anyOf
    rw [truthy_rel h hw, anyOf_rel h hv]

theorem lengthOf_rel (h : SRel ρ S S') {v v' : Val} (hv : VRel ρ v v') : lengthOf S v = lengthOf S' v' := by
  have key : (iterate S v).map List.length = (iterate S' v').map List.length := by
    have hi := iterate_rel h hv
    generalize iterate S v = x at hi ⊢
    generalize iterate S' v' = x' at hi ⊢
    cases hi with
    | none => rfl
    | some hv => simp only [Option.map_some, hv.length]
  cases hv with
  | @same v hp =>
    cases v with
    | str s => rfl
    | _ => exact key
  | _ => exact key

theorem found_rel (b : Bool) : VRel ρ (found b) (found b) := by
  cases b <;> exact .same rfl

theorem asPattern_rel (env : Env) (i m : Bool) {v v' : Val} (hv : VRel ρ v v') : asPattern env i m v = asPattern env i m v' := by
  cases hv <;> rfl

theorem builtin_rel (env : Env) (h : SRel ρ S S') (f : Ident) {args args' : List Val} (ha : VRels ρ args args') :
    RRel VRel ρ S' (builtin env f args S) (builtin env f args' S') := by
  have hs : ∀ {α : Type} (g : α → Val) (_ : ∀ a, VRel ρ (g a) (g a)) {o o' : Option α}, o = o' →
      RRel VRel ρ S' (.of (o.map g) S) (.of (o'.map g) S') :=
    fun g hg _ _ he => h.of (optRel_eq g hg he)
  unfold builtin
  split
  · obtain _ | ⟨h1, h2⟩ := ha
    cases h2
    exact hs _ (fun _ => .same rfl) (by rw [lengthOf_rel h h1])
  · obtain _ | ⟨h1, h2⟩ := ha
    cases h2
    simp only
    have hi := iterate_rel h h1
    generalize iterate S _ = x at hi ⊢
    generalize iterate S' _ = x' at hi ⊢
    cases hi with
    | none => trivial
    | some hv => exact h.new (.list hv)
  · obtain _ | ⟨h1, h2⟩ := ha
    cases h2
    refine hs _ (fun _ => .same rfl) ?_
    have hi := iterate_rel h h1
    generalize iterate S _ = x at hi ⊢
    generalize iterate S' _ = x' at hi ⊢
    cases hi with
    | none => rfl
    | some hv => exact anyOf_rel h hv
  · obtain _ | ⟨h1, h2⟩ := ha
    cases h2
    exact hs _ (fun _ => .same rfl) (truthy_rel h h1)
  · obtain _ | ⟨h1, h2⟩ := ha
    obtain _ | ⟨h3, h4⟩ := h2
    cases h1; cases h3; cases h4
    simp only
    split <;> exact h.ok (.same rfl)
  · obtain _ | ⟨h1, h2⟩ := ha
    cases h1; cases h2
    exact h.ok (.seq (vrels_same _ (fun _ => rfl) _))
  · obtain _ | ⟨h1, h2⟩ := ha
    cases h1; cases h2
    simp only
    split
    · exact h.ok (.same rfl)
    · exact h.exc (.same rfl)
  · obtain _ | ⟨h1, h2⟩ := ha
    cases h2
    exact hs _ (fun _ => .same rfl) (asPattern_rel env _ _ h1)
  · obtain _ | ⟨h1, h2⟩ := ha
    obtain _ | ⟨h3, h4⟩ := h2
    cases h3; cases h4
    exact hs _ (fun _ => .same rfl) (asPattern_rel env _ _ h1)
  · obtain _ | ⟨h1, h2⟩ := ha
    obtain _ | ⟨h3, h4⟩ := h2
    cases h3; cases h4
    exact hs _ (fun _ => found_rel _) (by rw [asPattern_rel env _ _ h1])
  · obtain _ | ⟨h1, h2⟩ := ha
    obtain _ | ⟨h3, h4⟩ := h2
    cases h3; cases h4
    exact hs _ (fun _ => found_rel _) (by rw [asPattern_rel env _ _ h1])
  · obtain _ | ⟨h1, h2⟩ := ha
    obtain _ | ⟨h3, h4⟩ := h2
    obtain _ | ⟨h5, h6⟩ := h4
    cases h3; cases h5; cases h6
    exact hs _ (fun _ => found_rel _) (by rw [asPattern_rel env _ _ h1])
  · obtain _ | ⟨h1, h2⟩ := ha
    obtain _ | ⟨h3, h4⟩ := h2
    obtain _ | ⟨h5, h6⟩ := h4
    cases h3; cases h5; cases h6
    exact hs _ (fun _ => .same rfl) (by rw [asPattern_rel env _ _ h1])
  · obtain _ | ⟨h1, h2⟩ := ha
    cases h1; cases h2
    exact h.ok (.same rfl)
  · next x1 x2 x3 x4 x5 x6 x7 x8 x9 x10 x11 x12 x13 x14 =>
    split
    · obtain _ | ⟨h1, h2⟩ := ha
      cases h2
      exact (x1 _ rfl rfl).elim
    · obtain _ | ⟨h1, h2⟩ := ha
      cases h2
      exact (x2 _ rfl rfl).elim
    · obtain _ | ⟨h1, h2⟩ := ha
      cases h2
      exact (x3 _ rfl rfl).elim
    · obtain _ | ⟨h1, h2⟩ := ha
      cases h2
      exact (x4 _ rfl rfl).elim
    · obtain _ | ⟨h1, h2⟩ := ha
      obtain _ | ⟨h3, h4⟩ := h2
      cases h1; cases h3; cases h4
      exact (x5 _ rfl rfl).elim
    · obtain _ | ⟨h1, h2⟩ := ha
      cases h1; cases h2
      exact (x6 _ rfl rfl).elim
    · obtain _ | ⟨h1, h2⟩ := ha
      cases h1; cases h2
      exact (x7 _ rfl rfl).elim
    · obtain _ | ⟨h1, h2⟩ := ha
      cases h2
      exact (x8 _ rfl rfl).elim
    · obtain _ | ⟨h1, h2⟩ := ha
      obtain _ | ⟨h3, h4⟩ := h2
      cases h3; cases h4
      exact (x9 _ rfl rfl).elim
    · obtain _ | ⟨h1, h2⟩ := ha
      obtain _ | ⟨h3, h4⟩ := h2
      cases h3; cases h4
      exact (x10 _ _ rfl rfl).elim
    · obtain _ | ⟨h1, h2⟩ := ha
      obtain _ | ⟨h3, h4⟩ := h2
      cases h3; cases h4
      exact (x11 _ _ rfl rfl).elim
    · obtain _ | ⟨h1, h2⟩ := ha
      obtain _ | ⟨h3, h4⟩ := h2
      obtain _ | ⟨h5, h6⟩ := h4
      cases h3; cases h5; cases h6
      exact (x12 _ _ rfl rfl).elim
    · obtain _ | ⟨h1, h2⟩ := ha
      obtain _ | ⟨h3, h4⟩ := h2
      obtain _ | ⟨h5, h6⟩ := h4
      cases h3; cases h5; cases h6
      exact (x13 _ _ _ rfl rfl).elim
    · obtain _ | ⟨h1, h2⟩ := ha
      cases h1; cases h2
      exact (x14 _ rfl rfl).elim
    · trivial
end

end Verif.Src
