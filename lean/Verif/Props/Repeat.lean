import Verif.Refine.Repeat
import Verif.Lemmas.Node

/-!
# Rendering a tree of elements repeatedly (C15)

Converters write to attribute dictionaries.  The root of a tree is nevertheless rendered the same
way at any time, whatever has been done before with elements of the tree.
-/

namespace Verif
open Spec

theorem history_root {n : Node} {h0 h1 : Heap} {e : Elem} (hb : buildElem n h0 = (some e, h1))
    {ks : List (Elem × M Str)} {h : Heap} (hh : History e h1 ks h) :
    (convertElem e h).1 = latexIn false n ∧ ∀ k, (e, k) ∈ ks → (k h).1 = latexIn false n := by
  have hs := buildElem_spec n h0 false
  rw [hb] at hs
  obtain ⟨_, h2, _, S, hw⟩ := hs
  simp only at h2
  have he : latexIn false n = pconv false (view h1.cells e) := by rw [latexIn, h2]
  obtain ⟨a, _, c⟩ := hh.inv (c0 := h1.cells) (WfE.toT e _ hw)
    ⟨fun _ _ => rfl, fun _ _ _ _ => rfl, fun _ h => h.elim⟩
  rw [he]
  constructor
  · obtain ⟨h', e', _⟩ := convertElem_sim (S := S) (c0 := h1.cells) e (fun _ => False) false
      (WfE.toT e _ hw) (by simp) h a
    rw [e']
  · intro k hk
    obtain ⟨F, H, hs⟩ := c k hk
    obtain ⟨h', e', _⟩ := hs h H
    rw [e']

/-- **C15** After any history of its tree the root gets the LaTeX that it has on its own in a
fresh process. -/
theorem C15_root (n : Node) (h0 h1 : Heap) (e : Elem) (hb : buildElem n h0 = (some e, h1))
    (ks : List (Elem × M Str)) (h : Heap) (hh : History e h1 ks h) :
    (convertElem e h).1 = latexOf n := by
  rw [latexOf_eq]
  exact (history_root hb hh).1

/-- **C15** The same holds for a converter that was created for the root at any earlier time,
and however often it has been used. -/
theorem C15_converter (n : Node) (h0 h1 : Heap) (e : Elem) (hb : buildElem n h0 = (some e, h1))
    (ks : List (Elem × M Str)) (h : Heap) (hh : History e h1 ks h) (k : M Str) (hk : (e, k) ∈ ks) :
    (k h).1 = latexOf n := by
  rw [latexOf_eq]
  exact (history_root hb hh).2 k hk

/-- **C15** Creating a converter never fails. -/
theorem C15_create (e : Elem) (h : Heap) : ∃ k h', toConv e h = (.ok k, h') := by
  obtain ⟨n, v, r, cs⟩ := e
  rw [toConv]
  by_cases hk : classify n = .mtable
  · obtain ⟨h1, e1, _⟩ := addFlags_spec (S := fun _ => True) (c0 := h.cells) cs (fun _ => False) h
      ⟨fun _ h => absurd trivial h, fun _ _ _ _ => rfl, fun _ h => h.elim⟩ (fun _ _ => trivial)
    rw [hk]
    refine ⟨mtableConvert r (kidsOf cs), h1, ?_⟩
    show ((addFlagRecursiveIfName c!"mtable" innerTable cs >>= fun _ =>
      pure (mtableConvert r (kidsOf cs))) : M (M Str)) h = _
    rw [run_bind, e1]
    rfl
  · obtain ⟨k, hk⟩ := construct_fixed hk n v r cs (kidsOf cs) (h.cells r)
    exact ⟨k, h, hk h (fun _ _ _ => rfl)⟩

/-- A table in a table, with an invalid fraction next to it. -/
def nestedTables : Node := .elem c!"mtable" [] [.elem c!"mtr" [] [.elem c!"mtable" []
  [.elem c!"mtr" [] [.elem c!"mi" [] [.text c!"x"]]], .elem c!"mfrac" [] []]]

/-- **C15** For a table inside another table the claim is false: its LaTeX changes when the outer
table gets a converter. -/
theorem C15_inner_table_changes : ∃ e h1 t ks h, buildElem nestedTables Heap.empty = (some e, h1) ∧
    History e h1 ks h ∧ Within t e ∧ (convertElem t h1).1 = .ok c!"x" ∧
    (convertElem t h).1 = .ok c!"\\begin{matrix}x\\end{matrix}" := by
  obtain ⟨k, h', hc⟩ := C15_create (.mk c!"mtable" [] 0 [.mk c!"mtr" [] 1 [.mk c!"mtable" [] 2
    [.mk c!"mtr" [] 3 [.mk c!"mi" c!"x" 4 []]], .mk c!"mfrac" [] 5 []]])
    (buildElem nestedTables Heap.empty).2
  refine ⟨_, _, .mk c!"mtable" [] 2 [.mk c!"mtr" [] 3 [.mk c!"mi" c!"x" 4 []]], _, _, rfl,
    .create .start .self hc, .child List.mem_cons_self (.child List.mem_cons_self .self),
    by decide +kernel, ?_⟩
  have : h' = (toConv (.mk c!"mtable" [] 0 [.mk c!"mtr" [] 1 [.mk c!"mtable" [] 2
    [.mk c!"mtr" [] 3 [.mk c!"mi" c!"x" 4 []]], .mk c!"mfrac" [] 5 []]])
    (buildElem nestedTables Heap.empty).2).2 := by rw [hc]
  rw [this]
  decide +kernel

/-- The same history, in which the outer table is also rendered (unsuccessfully), shows that the
hypotheses of `C15_converter` are met. -/
example : ∃ e h1 k ks h, buildElem nestedTables Heap.empty = (some e, h1) ∧
    History e h1 ks h ∧ (e, k) ∈ ks ∧
    (k h).1 = .error (.invalidChildren c!"mfrac" 2 0 c!"exactly") := by
  obtain ⟨k, h', hc⟩ := C15_create (.mk c!"mtable" [] 0 [.mk c!"mtr" [] 1 [.mk c!"mtable" [] 2
    [.mk c!"mtr" [] 3 [.mk c!"mi" c!"x" 4 []]], .mk c!"mfrac" [] 5 []]])
    (buildElem nestedTables Heap.empty).2
  have hh := History.convert (.create (h0 := (buildElem nestedTables Heap.empty).2) .start .self hc)
    List.mem_cons_self
  refine ⟨_, _, k, _, _, rfl, hh, List.mem_cons_self, ?_⟩
  rw [C15_converter nestedTables Heap.empty _ _ rfl _ _ hh k List.mem_cons_self, latexOf_eq]
  decide +kernel

end Verif
