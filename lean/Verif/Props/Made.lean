import Verif.Spec.Made
import Verif.Props.Repeat

/-! # Elements made by hand (C76) -/

namespace Verif
open Spec

mutual
theorem wfT_of {S : Nat → Prop} (e : Elem) (b : Bool) (h1 : ∀ r, TableIn b e true r → S r)
    (h2 : ∀ r, TableIn b e false r → ¬ S r) : WfT S b e := by
  obtain ⟨n, v, r, cs⟩ := e
  rw [WfT]
  by_cases hn : n = c!"mtable"
  · subst hn
    refine ⟨fun _ => ?_, ?_⟩
    · cases b with
      | true => exact h1 r .here
      | false => simpa using h2 r .here
    · rw [show (b || c!"mtable" == c!"mtable") = true by simp]
      exact wfTs_of cs true (fun c hc r' h => h1 r' (.inTable hc h)) fun c hc r' h => h2 r' (.inTable hc h)
  · refine ⟨fun h => absurd h hn, ?_⟩
    rw [show (b || n == c!"mtable") = b by simp [hn]]
    exact wfTs_of cs b (fun c hc r' h => h1 r' (.inOther hn hc h)) fun c hc r' h =>
      h2 r' (.inOther hn hc h)
theorem wfTs_of {S : Nat → Prop} (es : List Elem) (b : Bool)
    (h1 : ∀ e ∈ es, ∀ r, TableIn b e true r → S r) (h2 : ∀ e ∈ es, ∀ r, TableIn b e false r → ¬ S r) :
    WfTs S b es := by
  match es with
  | [] => trivial
  | e :: es =>
    rw [WfTs]
    exact ⟨wfT_of e b (h1 e List.mem_cons_self) (h2 e List.mem_cons_self),
      wfTs_of es b (fun c hc => h1 c (List.mem_cons_of_mem _ hc)) fun c hc =>
        h2 c (List.mem_cons_of_mem _ hc)⟩
end

theorem Spec.Unshared.wfT {e : Elem} (h : Unshared e) : WfT (TableIn false e true) false e :=
  wfT_of e false (fun _ h => h) fun r h2 h1 => h r h1 h2

mutual
theorem Spec.SameTree.view {h h' : Heap} {e e' : Elem} (H : SameTree h h' e e') :
    Verif.view h.cells e = Verif.view h'.cells e' := by
  cases H with
  | mk hr hc => rw [Verif.view, Verif.view, hr, hc.views]
theorem Spec.SameTrees.views {h h' : Heap} {es es' : List Elem} (H : SameTrees h h' es es') :
    Verif.views h.cells es = Verif.views h'.cells es' := by
  cases H with
  | nil => rfl
  | cons h1 h2 => rw [Verif.views, Verif.views, h1.view, h2.views]
end

theorem made_eq {e : Elem} (he : Unshared e) {h0 h : Heap} {ks : List (Elem × M Str)}
    (hh : History e h0 ks h) :
    (convertElem e h).1 = pconv false (view h0.cells e) ∧
    ∀ k, (e, k) ∈ ks → (k h).1 = pconv false (view h0.cells e) := by
  obtain ⟨a, _, c⟩ := hh.inv (c0 := h0.cells) he.wfT
    ⟨fun _ _ => rfl, fun _ _ _ _ => rfl, fun _ h => h.elim⟩
  constructor
  · obtain ⟨h', e', _⟩ := convertElem_sim (S := TableIn false e true) (c0 := h0.cells) e (fun _ => False)
      false he.wfT (by simp) h a
    rw [e']
  · intro k hk
    obtain ⟨F, H, hs⟩ := c k hk
    obtain ⟨h', e', _⟩ := hs h H
    rw [e']

/-- **C76** The LaTeX of an element depends on names, values and attributes only, not on which objects
hold them, and not on what has been done with the elements before. -/
theorem C76_only_the_tree (e e' : Elem) (h0 h0' h h' : Heap) (ks ks' : List (Elem × M Str))
    (he : Unshared e) (he' : Unshared e') (hs : SameTree h0 h0' e e')
    (hh : History e h0 ks h) (hh' : History e' h0' ks' h') :
    (convertElem e h).1 = (convertElem e' h').1 := by
  rw [(made_eq he hh).1, (made_eq he' hh').1, hs.view]

/-- **C76** If the elements are those of a document, then the LaTeX is that of the document. -/
theorem C76_document (n : Node) (e e' : Elem) (h0 h0' h1 h : Heap) (ks : List (Elem × M Str))
    (hb : buildElem n h0' = (some e', h1)) (he : Unshared e) (hs : SameTree h0 h1 e e')
    (hh : History e h0 ks h) : (convertElem e h).1 = latexOf n := by
  have hspec := buildElem_spec n h0' false
  rw [hb] at hspec
  obtain ⟨_, h2, _⟩ := hspec
  simp only at h2
  rw [(made_eq he hh).1, hs.view, latexOf_eq, latexIn, h2]

/-- **C76** A converter made for the element, at any time, gives the same. -/
theorem C76_converter (e : Elem) (h0 h : Heap) (ks : List (Elem × M Str)) (he : Unshared e)
    (hh : History e h0 ks h) (k : M Str) (hk : (e, k) ∈ ks) : (k h).1 = (convertElem e h0).1 := by
  rw [(made_eq he hh).2 k hk, (made_eq he .start).1]

/-! ## Which trees these are -/

theorem no_table_in_table {b b' : Bool} {e : Elem} {r : Nat} (h : TableIn b e b' r) (hb : b = true) :
    b' = true := by
  induction h with
  | here => exact hb
  | inTable _ _ ih => exact ih rfl
  | inOther _ _ _ ih => exact ih hb

/-- **C76** Dictionaries may be shared in any way if no table is inside a table. -/
theorem C76_flat (e : Elem) (h : ∀ r, ¬ TableIn false e true r) : Unshared e := fun r h1 => absurd h1 (h r)

/-- A table with a table in it, and the given dictionaries for the two. -/
def tableInTable (r r' : Nat) : Elem :=
  .mk c!"mtable" [] r [.mk c!"mtr" [] r' [.mk c!"mtd" [] r' [.mk c!"mtable" [] r' [.mk c!"mtr" [] r'
    [.mk c!"mi" c!"x" r' []]]]]]

/-- **C76** With one dictionary for all elements the outer table is taken for an inner one. -/
theorem C76_shared_dictionary : ∃ h,
    SameTree h h (tableInTable 0 0) (tableInTable 0 1) ∧
    (convertElem (tableInTable 0 1) h).1 = .ok c!"\\begin{matrix}x\\end{matrix}" ∧
    (convertElem (tableInTable 0 0) h).1 =
      .ok c!"\\begin{matrix}\\begin{matrix}x\\end{matrix}\\end{matrix}" := by
  refine ⟨⟨2, fun _ => []⟩, ?_, by decide +kernel, by decide +kernel⟩
  exact .mk rfl (.cons (.mk rfl (.cons (.mk rfl (.cons (.mk rfl (.cons (.mk rfl (.cons (.mk rfl .nil)
    .nil)) .nil)) .nil)) .nil)) .nil)

/-- Here the inner table shares its dictionary with all elements but the outer table. -/
theorem tableInTable_unshared : Unshared (tableInTable 0 1) := by
  intro r h1 h2
  have a : r = 0 := by
    cases h2 with
    | here => rfl
    | inTable hc h => exact absurd (no_table_in_table h rfl) (by simp)
    | inOther hn => exact absurd rfl hn
  subst a
  cases h1 with
  | inTable hc h =>
    simp only [List.mem_singleton] at hc
    subst hc
    cases h with
    | inOther _ hc h =>
      simp only [List.mem_singleton] at hc
      subst hc
      cases h with
      | inOther _ hc h =>
        simp only [List.mem_singleton] at hc
        subst hc
        cases h with
        | inTable hc h =>
          simp only [List.mem_singleton] at hc
          subst hc
          cases h with
          | inOther _ hc h =>
            simp only [List.mem_singleton] at hc
            subst hc
            cases h with
            | inOther _ hc h => cases hc
        | inOther hn => exact absurd rfl hn
  | inOther hn => exact absurd rfl hn

example : (convertElem (tableInTable 0 1) ⟨2, fun _ => []⟩).1 = latexOf
    (.elem c!"mtable" [] [.elem c!"mtr" [] [.elem c!"mtd" [] [.elem c!"mtable" [] [.elem c!"mtr" []
      [.elem c!"mi" [] [.text c!"x"]]]]]]) := by
  refine C76_document _ _ _ ⟨2, fun _ => []⟩ Heap.empty _ _ [] rfl tableInTable_unshared ?_ .start
  exact .mk rfl (.cons (.mk rfl (.cons (.mk rfl (.cons (.mk rfl (.cons (.mk rfl (.cons (.mk rfl .nil)
    .nil)) .nil)) .nil)) .nil)) .nil)

end Verif
