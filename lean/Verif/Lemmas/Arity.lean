import Verif.Spec.Arity
import Verif.Lemmas.Renders

/-! # Failures are arity violations -/

namespace Verif
open Spec

/-- The exception of an outcome. -/
def err {α : Type} : Except Exc α → Option Exc
  | .error e => some e
  | .ok _ => none

theorem err_error_iff {α : Type} {x : Except Exc α} {e : Exc} : x = .error e ↔ err x = some e := by
  cases x <;> simp [err]

theorem err_none_iff {α : Type} {x : Except Exc α} : (∃ a, x = .ok a) ↔ err x = none := by
  cases x <;> simp [err]

theorem err_bind {α β : Type} {x : Except Exc α} {f : α → Except Exc β} {r : Option Exc}
    (h : ∀ a, err (f a) = r) : err (x >>= f) = (err x).or r := by
  cases x with
  | error e => rfl
  | ok a => simpa [bind, Except.bind, err] using h a

theorem err_pure {α : Type} (a : α) : err (pure a : Except Exc α) = none := rfl

theorem err_return {α β : Type} {x : Except Exc α} {f : α → β} :
    err (x >>= fun a => pure (f a)) = err x := by
  rw [err_bind (fun _ => err_pure _), Option.or_none]

theorem err_ite {α : Type} {c : Prop} [Decidable c] {x y : Except Exc α} :
    err (if c then x else y) = if c then err x else err y := by split <;> rfl

theorem err_seqAll (b : Bool) (ns : List Node) :
    err (seqAll (outcomes b ns)) = ns.findSome? fun n => err (latexIn b n) := by
  induction ns with
  | nil => rfl
  | cons n ns ih =>
    have hu : seqAll (outcomes b (n :: ns)) =
        (latexIn b n >>= fun s => seqAll (outcomes b ns) >>= fun ss => pure (s :: ss)) := rfl
    rw [hu, err_bind (r := err (seqAll (outcomes b ns))) (fun _ => err_return), ih,
      List.findSome?_cons]
    cases err (latexIn b n) <;> rfl

theorem err_pairLatex (b : Bool) (pre : Str) (pair : Option (Node × Node)) :
    err (pairLatex b pre pair) = (pairList pair).findSome? fun n => err (latexIn b n) := by
  rcases pair with _ | ⟨p, q⟩
  · rfl
  · rw [pairLatex, err_bind (r := err (latexIn b q)) (fun _ => err_return)]
    simp only [pairList, List.findSome?_cons, List.findSome?_nil]
    cases err (latexIn b p) <;> cases err (latexIn b q) <;> rfl

theorem findSome?_two {α β : Type} (f : α → Option β) (x y : α) :
    [x, y].findSome? f = (f x).or (f y) := by
  simp only [List.findSome?_cons, List.findSome?_nil]
  cases f x <;> cases f y <;> rfl

theorem findSome?_three {α β : Type} (f : α → Option β) (x y z : α) :
    [x, y, z].findSome? f = (f x).or ((f y).or (f z)) := by
  simp only [List.findSome?_cons, List.findSome?_nil]
  cases f x <;> cases f y <;> cases f z <;> rfl

/-- One level: an element fails by itself or because of a rendered child. -/
theorem err_latexIn (b : Bool) (tag : Str) (A : List (Str × Str)) (cs : List Node) :
    err (latexIn b (.elem tag A cs)) = (violation (.elem tag A cs)).or
      ((selected (.elem tag A cs)).findSome? fun m => err (latexIn (b || tag == c!"mtable") m)) := by
  by_cases hst : tag ∈ structured
  · simp only [structured, List.mem_cons, List.not_mem_nil, or_false] at hst
    rcases hst with rfl | rfl | rfl | rfl | rfl | rfl | rfl | rfl | rfl | rfl | rfl | rfl | rfl |
      rfl | rfl | rfl | rfl | rfl | rfl | rfl | rfl | rfl
    · rw [latexIn_math, err_return, err_seqAll]
      simp [violation, selected, arities, leaves]
    · rw [latexIn_mi]; simp [violation, selected, arities, leaves, err]
    · rw [latexIn_mo]; simp [violation, selected, arities, leaves, err]
    · rw [latexIn_mn]; simp [violation, selected, arities, leaves, err]
    · rw [latexIn_msqrt, err_return, err_seqAll]
      simp [violation, selected, arities, leaves]
    · haveI := Classical.propDecidable (HasTable cs)
      rw [latexIn_mfenced, err_bind (r := none), err_seqAll]
      · simp [violation, selected, arities, leaves]
      · intro a; rw [err_ite]; simp [err_pure]
    · rw [latexIn_mfrac]
      simp only [violation, selected, arities, leaves]
      rcases kids cs with _ | ⟨x, _ | ⟨e, _ | ⟨y, ks⟩⟩⟩
      · simp [err]
      · simp [err]
      · simp only [List.length_cons, List.length_nil]
        rw [err_bind (r := err (latexIn b e))]
        · simp [findSome?_two]
        · intro a; rw [err_bind (r := none), Option.or_none]
          intro c; rw [err_ite]; simp [err_pure]
      · simp [err]
    · rw [latexIn_mroot]
      simp only [violation, selected, arities, leaves]
      rcases kids cs with _ | ⟨x, _ | ⟨e, _ | ⟨y, ks⟩⟩⟩
      · simp [err]
      · simp [err]
      · simp only [List.length_cons, List.length_nil]
        rw [err_bind (r := err (latexIn b e)) (fun _ => err_return)]
        simp [findSome?_two]
      · simp [err]
    · rw [latexIn_maction]
      by_cases ht : isToggle (attr A c!"actiontype")
      · rw [if_pos ht, err_return, err_seqAll]
        simp [violation, selected, arities, leaves, ht]
      · rw [if_neg ht]
        simp only [violation, selected, arities, leaves, ht]
        rcases kids cs with _ | ⟨x, ks⟩
        · simp [err]
        · simp
    · rw [latexIn_menclose, err_return, err_seqAll]
      simp [violation, selected, arities, leaves]
    · rw [latexIn_merror, err_return, err_seqAll]
      simp [violation, selected, arities, leaves]
    · rw [latexIn_mphantom]; simp [violation, selected, arities, leaves, err]
    · rw [latexIn_msup]
      simp only [violation, selected, arities, leaves]
      rcases kids cs with _ | ⟨x, _ | ⟨e, _ | ⟨y, ks⟩⟩⟩
      · simp [err]
      · simp [err]
      · simp only [List.length_cons, List.length_nil]
        rw [err_bind (r := err (latexIn b e)) (fun _ => err_return)]
        simp [findSome?_two]
      · simp [err]
    · rw [latexIn_msub]
      simp only [violation, selected, arities, leaves]
      rcases kids cs with _ | ⟨x, _ | ⟨e, _ | ⟨y, ks⟩⟩⟩
      · simp [err]
      · simp [err]
      · simp only [List.length_cons, List.length_nil]
        rw [err_bind (r := err (latexIn b e)) (fun _ => err_return)]
        simp [findSome?_two]
      · simp [err]
    · rw [latexIn_msubsup]
      simp only [violation, selected, arities, leaves]
      rcases kids cs with _ | ⟨x, _ | ⟨d, _ | ⟨e, _ | ⟨y, ks⟩⟩⟩⟩
      · simp [err]
      · simp [err]
      · simp [err]
      · simp only [List.length_cons, List.length_nil]
        rw [err_bind (r := (err (latexIn b d)).or (err (latexIn b e)))
          (fun _ => err_bind (fun _ => err_return))]
        simp [findSome?_three]
      · simp [err]
    · rw [latexIn_mmultiscripts]
      simp only [violation, selected, arities, leaves]
      rcases kids cs with _ | ⟨x, _ | ⟨y, _ | ⟨z, ks⟩⟩⟩
      · simp [err]
      · simp [err]
      · simp [err]
      · simp only []
        rw [err_bind (r := (err (pairLatex b c!"\\_" (prePair (x :: y :: z :: ks)))).or
          (err (pairLatex b c!"_" (postPair (x :: y :: z :: ks)))))
          (fun _ => err_bind (fun _ => err_return)), err_pairLatex, err_pairLatex]
        have hlen : ¬ (x :: y :: z :: ks).length < 3 := by simp
        simp only [hlen]
        cases hx : err (latexIn b x) <;> simp [List.findSome?_append, hx]
    · rw [latexIn_mtext]; simp [violation, selected, arities, leaves, err]
    · rw [latexIn_munderover]
      simp only [violation, selected, arities, leaves]
      rcases kids cs with _ | ⟨x, _ | ⟨d, _ | ⟨e, _ | ⟨y, ks⟩⟩⟩⟩
      · simp [err]
      · simp [err]
      · simp [err]
      · simp only [List.length_cons, List.length_nil]
        rw [err_bind (r := (err (latexIn b d)).or (err (latexIn b e)))
          (fun _ => err_bind (fun _ => err_return))]
        simp [findSome?_three]
      · simp [err]
    · rw [latexIn_mtable, err_bind (r := none), err_seqAll]
      · simp [violation, selected, arities, leaves]
      · intro a; rw [err_ite]; simp [err_pure]
    · rw [latexIn_mtr, err_return, err_seqAll]
      simp [violation, selected, arities, leaves]
    · rw [latexIn_mover]
      simp only [violation, selected, arities, leaves]
      rcases kids cs with _ | ⟨x, _ | ⟨e, _ | ⟨y, ks⟩⟩⟩
      · simp [err]
      · simp [err]
      · simp only [List.length_cons, List.length_nil]
        rw [err_bind (r := err (latexIn b e)) (fun _ => err_return)]
        simp [findSome?_two]
      · simp [err]
    · rw [latexIn_munder]
      simp only [violation, selected, arities, leaves]
      rcases kids cs with _ | ⟨x, _ | ⟨e, _ | ⟨y, ks⟩⟩⟩
      · simp [err]
      · simp [err]
      · simp only [List.length_cons, List.length_nil]
        rw [err_bind (r := err (latexIn b e)) (fun _ => err_return)]
        simp [findSome?_two]
      · simp [err]
  · have h1 : ∀ t ∈ structured, tag ≠ t := fun t ht e => hst (e ▸ ht)
    rw [latexIn_row _ _ _ hst, err_return, err_seqAll]
    have ha : arities.find? (fun p => decide (p.1 = tag)) = none := by
      simp only [List.find?_eq_none, decide_eq_true_eq]
      intro p hp e
      have : ∀ p ∈ arities, p.1 ∈ structured := by decide +kernel
      exact h1 _ (this p hp) e.symm
    have hl : tag ∉ leaves := by
      intro h
      have : ∀ t ∈ leaves, t ∈ structured := by decide +kernel
      exact h1 _ (this _ h) rfl
    have h2 : tag ≠ c!"mmultiscripts" := h1 _ (by decide +kernel)
    have h3 : tag ≠ c!"maction" := h1 _ (by decide +kernel)
    have h4 : (tag == c!"mtable") = false := by
      simp only [beq_eq_false_iff_ne, ne_eq]; exact h1 _ (by decide +kernel)
    simp only [violation, ha, selected, hl, h2, h3, h4, Bool.or_false, false_and, if_false,
      Option.none_or]

theorem findSome?_congr' {α β : Type} {f g : α → Option β} {l : List α} (h : ∀ x ∈ l, f x = g x) :
    l.findSome? f = l.findSome? g := by
  induction l with
  | nil => rfl
  | cons x l ih =>
    rw [List.findSome?_cons, List.findSome?_cons, h x List.mem_cons_self,
      ih fun y hy => h y (List.mem_cons_of_mem _ hy)]

theorem findSome?_flatMap' {α β γ : Type} (f : β → Option γ) (g : α → List β) (l : List α) :
    (l.flatMap g).findSome? f = l.findSome? fun a => (g a).findSome? f := by
  induction l with
  | nil => rfl
  | cons x l ih =>
    rw [List.flatMap_cons, List.findSome?_append, ih, List.findSome?_cons]
    cases (g x).findSome? f <;> rfl

/-- All levels. -/
theorem err_evaluated (n : Node) : n.isElem = true → ∀ b,
    err (latexIn b n) = (evaluated n).findSome? violation := by
  induction n using Node.induct with
  | other n h => intro h'; rw [h] at h'; simp at h'
  | elem tag A cs ih =>
    intro _ b
    rw [err_latexIn, evaluated_eq, List.findSome?_cons, findSome?_flatMap']
    have : (selected (.elem tag A cs)).findSome? (fun m => err (latexIn (b || tag == c!"mtable") m)) =
        (selected (.elem tag A cs)).findSome? fun m => (evaluated m).findSome? violation := by
      apply findSome?_congr'
      intro m hm
      have hm := mem_kids.1 (selected_sub hm)
      exact ih m hm.1 hm.2 _
    rw [this]
    cases violation (.elem tag A cs) <;> rfl

end Verif
