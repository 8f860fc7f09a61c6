import Verif.Spec.Renders
import Verif.Lemmas.Tokens

/-! # The conversion of DOM elements, as an equation on DOM nodes -/

namespace Verif
open Spec

/-- Induction over DOM nodes. -/
theorem Node.induct {P : Node → Prop}
    (elem : ∀ tag A cs, (∀ n ∈ cs, P n) → P (.elem tag A cs))
    (other : ∀ n, n.isElem = false → P n) (n : Node) : P n := by
  refine Node.rec (motive_1 := P) (motive_2 := fun ns => ∀ n ∈ ns, P n)
    (fun tag A cs h => elem tag A cs h) (fun _ => other _ rfl) (fun _ => other _ rfl)
    (fun _ => other _ rfl) (fun _ _ => other _ rfl) (by simp) ?_ n
  intro n ns hn hns m hm
  rcases List.mem_cons.1 hm with rfl | hm
  · exact hn
  · exact hns m hm

/-- The element of a DOM element. -/
def elemOf (n : Node) : PElem := (toPElem n).getD (.mk [] [] [] [])

theorem toPElems_eq (cs : List Node) : toPElems cs = (kids cs).map elemOf := by
  induction cs with
  | nil => rfl
  | cons n ns ih =>
    rw [toPElems]
    cases n with
    | elem tag A cs =>
      have : kids (.elem tag A cs :: ns) = .elem tag A cs :: kids ns := rfl
      rw [this, List.map_cons, ← ih]
      rfl
    | text _ => simpa [toPElem, kids, Node.isElem] using ih
    | cdata _ => simpa [toPElem, kids, Node.isElem] using ih
    | comment _ => simpa [toPElem, kids, Node.isElem] using ih
    | pi _ _ => simpa [toPElem, kids, Node.isElem] using ih

theorem latexIn_elemOf {n : Node} (h : n.isElem = true) (b : Bool) :
    latexIn b n = pconv b (elemOf n) := by
  cases n <;> simp [Node.isElem] at h
  simp [latexIn, elemOf, toPElem]

theorem mem_kids {n : Node} {cs : List Node} : n ∈ kids cs ↔ n ∈ cs ∧ n.isElem = true := by
  simp [kids]

/-- The children with the outcomes of their conversions. -/
def outcomes (b : Bool) (ns : List Node) : List PKid := ns.map fun n => (elemOf n, latexIn b n)

/-- The conversion of an element in terms of that of its element children. -/
theorem latexIn_elem (b : Bool) (tag : Str) (A : List (Str × Str)) (cs : List Node) :
    latexIn b (.elem tag A cs) = pnode (classify tag) b tag (strip (tokenData cs))
      (convertAttributes A) (outcomes (b || tag == c!"mtable") (kids cs)) := by
  rw [latexIn_elemOf rfl]
  show pconv b ((toPElem _).getD _) = _
  rw [toPElem, Option.getD_some, pconv_mk, elementValue_eq, toPElems_eq, List.map_map]
  congr 1
  apply List.map_congr_left
  intro n hn
  simp only [Function.comp_def, latexIn_elemOf (mem_kids.1 hn).2]

theorem elemOf_children (n : Node) : (elemOf n).children = (childElems n).map elemOf := by
  cases n with
  | elem tag A cs => simp [elemOf, toPElem, PElem.children, childElems, toPElems_eq]
  | _ => rfl

theorem elemOf_name_pre (n : Node) : ((elemOf n).name == c!"mprescripts") = isPre n := by
  cases n <;> rfl

theorem outcomes_length (b : Bool) (ns : List Node) : (outcomes b ns).length = ns.length := by
  simp [outcomes]

theorem outcomes_map_fst (b : Bool) (ns : List Node) : (outcomes b ns).map (·.1) = ns.map elemOf := by
  simp [outcomes]

/-! ## Presence of tables -/

mutual
theorem pHasRel1_iff (t : Str) (n : Node) (h : n.isElem = true) :
    pHasRel1 t (elemOf n) = (elementsOf n).any (tagIs t) := by
  match n, h with
  | .elem tag A cs, _ =>
    show pHasRel1 t ((toPElem _).getD _) = _
    rw [toPElem, Option.getD_some, pHasRel1, elementsOf, List.any_cons, tagIs, pHasRel_iff]
theorem pHasRel_iff (t : Str) (ns : List Node) :
    pHasRel t (toPElems ns) = (elements ns).any (tagIs t) := by
  match ns with
  | [] => rfl
  | n :: ns =>
    have ih := pHasRel_iff t ns
    rw [elements, List.any_append, ← ih]
    match n with
    | .elem tag A cs =>
      have := pHasRel1_iff t (.elem tag A cs) rfl
      rw [← this]
      rfl
    | .text _ => rfl
    | .cdata _ => rfl
    | .comment _ => rfl
    | .pi _ _ => rfl
end

theorem hasTable_iff (cs : List Node) :
    pHasRel c!"mtable" ((kids cs).map elemOf) = true ↔ HasTable cs := by
  rw [← toPElems_eq, pHasRel_iff, List.any_eq_true]
  rfl

/-! ## Tags -/

theorem structured_classify : ∀ p ∈ dispatchTable, p.2 ≠ .spacing → p.1 ∈ structured := by
  decide +kernel

theorem classify_spacing_iff (tag : Str) : classify tag = .spacing ↔ tag ∉ structured := by
  constructor
  · intro h hm
    have : ∀ t ∈ structured, classify t ≠ .spacing := by decide +kernel
    exact this tag hm h
  · intro h
    by_cases e : classify tag = .spacing
    · exact e
    · exact absurd (structured_classify _ (classify_mem rfl e) e) h

/-- The class of an element determines its tag, except for rows and `munder`/`mover`. -/
theorem classify_tag {tag : Str} {k : Kind} (h : classify tag = k) (hk : k ≠ .spacing) (t : Str)
    (ht : ∀ p ∈ dispatchTable, p.2 = k → p.1 = t) : tag = t :=
  ht _ (classify_mem h hk) rfl

/-! ## Sequences -/

theorem seqAll_outcomes (b : Bool) : ∀ (ns : List Node) (ss : List Str),
    seqAll (outcomes b ns) = .ok ss ↔
      ns.length = ss.length ∧ ∀ p ∈ ns.zip ss, latexIn b p.1 = .ok p.2 := by
  intro ns
  induction ns with
  | nil =>
    intro ss
    cases ss <;> simp [outcomes, seqAll]
  | cons n ns ih =>
    intro ss
    have hu : seqAll (outcomes b (n :: ns)) =
        (do let s ← latexIn b n; let ss ← seqAll (outcomes b ns); return s :: ss) := rfl
    rw [hu]
    cases hn : latexIn b n with
    | error e =>
      constructor
      · intro h; exact absurd h (by simp [bind, Except.bind])
      · rintro ⟨h1, h2⟩
        cases ss with
        | nil => simp at h1
        | cons s ss =>
          have := h2 (n, s) (by simp)
          rw [hn] at this; simp at this
    | ok s =>
      cases hs : seqAll (outcomes b ns) with
      | error e =>
        constructor
        · intro h; exact absurd h (by simp [bind, Except.bind])
        · rintro ⟨h1, h2⟩
          cases ss with
          | nil => simp at h1
          | cons s' ss =>
            have := (ih ss).2 ⟨by simpa using h1, fun p hp => h2 p (by simp [hp])⟩
            rw [hs] at this; simp at this
      | ok ss' =>
        have e : (do let s ← (Except.ok s : Res); let ss ← (Except.ok ss' : Except Exc (List Str))
                     return s :: ss : Except Exc (List Str)) = .ok (s :: ss') := rfl
        rw [e]
        constructor
        · intro h
          simp only [Except.ok.injEq] at h
          subst h
          obtain ⟨h1, h2⟩ := (ih ss').1 hs
          refine ⟨by simp [h1], fun p hp => ?_⟩
          rw [List.zip_cons_cons] at hp
          rcases List.mem_cons.1 hp with rfl | hp
          · exact hn
          · exact h2 p hp
        · rintro ⟨h1, h2⟩
          cases ss with
          | nil => simp at h1
          | cons s1 ss1 =>
            have e1 := h2 (n, s1) (by simp)
            rw [hn] at e1
            have e2 := (ih ss1).2 ⟨by simpa using h1, fun p hp => h2 p (by simp [hp])⟩
            rw [hs] at e2
            simp only [Except.ok.injEq] at e1 e2 ⊢
            rw [e1, e2]

theorem bind_ok_iff {α β : Type} {x : Except Exc α} {f : α → Except Exc β} {y : β} :
    (x >>= f) = .ok y ↔ ∃ a, x = .ok a ∧ f a = .ok y := by
  cases x with
  | error e => simp [bind, Except.bind]
  | ok a => simp [bind, Except.bind]

theorem pure_ok_iff {α : Type} {x y : α} : (pure x : Except Exc α) = .ok y ↔ x = y := by
  simp [pure, Except.pure]

theorem return_ok_iff {α β : Type} {x : Except Exc α} {f : α → β} {y : β} :
    (x >>= fun a => pure (f a)) = .ok y ↔ ∃ a, x = .ok a ∧ f a = y := by
  simp only [bind_ok_iff, pure_ok_iff]

end Verif
