import Verif.Lemmas.Depth
import Verif.Props.Context

/-!
# C67: nesting and the recursion limit
-/

namespace Verif
open Verif.Spec Verif.Stack

/-- The outcome of the code without a limit, as one of the code with a limit. -/
def Spec.unlimited : Except Exc Str → Except Stop Str
  | .ok s => .ok s
  | .error e => .error (.raised e)

/-- Activations per level of elements: `convert` and `_convert_element`, and before Python 3.12
the list comprehension between them. -/
def Spec.perLevel (m : Machine) : Nat := if m.comp then 3 else 2

theorem consulted_failed {env : Env} {x y : Str} {n : Nat} (h : Consulted env x n y) :
    ∀ i, i < n → ∃ z e, Consulted env x i z ∧ env.parse z = .error e := by
  induction h with
  | first => exact fun i hi => absurd hi (Nat.not_lt_zero _)
  | @next n y z e h hp _ ih =>
    intro i hi
    rcases Nat.lt_or_ge i n with hl | hg
    · exact ih i hl
    · obtain rfl : i = n := by omega
      exact ⟨_, _, h, hp⟩

theorem Spec.ParsesTo.unique {env : Env} {x : Str} {d d' : Doc} (h : ParsesTo env x d)
    (h' : ParsesTo env x d') : d = d' := by
  obtain ⟨n, y, _, hc, hp⟩ := h
  obtain ⟨n', y', _, hc', hp'⟩ := h'
  rcases Nat.lt_trichotomy n n' with hl | rfl | hl
  · obtain ⟨z, e, hz, he⟩ := consulted_failed hc' n hl
    rw [hc.unique hz, he] at hp
    cases hp
  · rw [hc.unique hc', hp'] at hp
    cases hp
    rfl
  · obtain ⟨z, e, hz, he⟩ := consulted_failed hc n' hl
    rw [hc'.unique hz, he] at hp'
    cases hp'

theorem mathmlElements_doc (env : Env) : ∀ (n : Nat) (exc : Option Exc) (y : Str) (ns : List Node),
    (mathmlElements env n exc y).1 = .ok ns → ∃ d, ns = mathElements d
  | 0, none, y, ns, h => by
    cases h
    exact ⟨[], by rw [mathElements]⟩
  | 0, some e, y, ns, h => by cases h
  | n + 1, exc, y, ns, h => by
    unfold mathmlElements at h
    cases hp : env.parse y with
    | ok d =>
      rw [hp] at h
      cases h
      exact ⟨d, rfl⟩
    | error e =>
      rw [hp] at h
      dsimp only at h
      cases hf : fixError env y e with
      | error e' => rw [hf] at h; cases h
      | ok z =>
        rw [hf] at h
        exact mathmlElements_doc env n _ z ns h

theorem unlimited_convert (env : Env) (x : Str) (h : Heap) :
    ((ofE (mathmlElements env 5 none (prep x)).1 >>= fun nodes => renderNodes nodes : M Str)
      h).1 = convert env x := by
  unfold convert
  rw [domElements_fst]
  cases hr : (mathmlElements env 5 none (prep x)).1 with
  | error e => rfl
  | ok ns =>
    obtain ⟨d, rfl⟩ := mathmlElements_doc env _ _ _ _ hr
    exact (renderNodes_eq d h).trans (renderNodes_eq d Heap.empty).symm

theorem stack_threshold (m : Machine) (env : Env) (h : Heap) (x : Str) (B : Nat)
    (hB : ∀ d, ParsesTo env x d → levelsAll d ≤ B) :
    ∃ t, t ≤ perLevel m * B + m.lib + 8 ∧
      ∀ n, outcome m env h x n = if n < t then .error .recursion else unlimited (convert env x) := by
  obtain ⟨t, r, ht, h1, h2, h3⟩ := fits_convert m env x B
    (fun i y d hi hc hp => hB d ⟨i, y, hi, hc, hp⟩) h
  refine ⟨t, ht, fun n => ?_⟩
  rw [← unlimited_convert env x h]
  generalize ((ofE (mathmlElements env 5 none (prep x)).1 >>= fun nodes =>
    renderNodes nodes : M Str) h) = ry at h3
  split
  · exact h2 n ‹_›
  · unfold outcome
    rw [h1 n (by omega)]
    cases h3 with
    | ok e => rw [e]; rfl
    | error => rfl

theorem needs_convert (m : Machine) (env : Env) (x : Str) {d : Doc} (h : ParsesTo env x d)
    {e : Node} (he : e ∈ maths d) : Needs (perLevel m * levels e + 4) (Stack.convert m env x) := by
  have hp := per_cases m
  have hm : e ∈ mathElements d := by rw [mathElements_eq]; exact he
  have hle := levels_mem hm
  have hel : 1 ≤ levels e := by
    have := (List.mem_filter.1 he).2
    cases e with
    | elem t a cs => rw [levels]; omega
    | _ => cases this
  have hmul : perLevel m * levels e ≤ per m * levelsAll (mathElements d) := Nat.mul_le_mul_left _ hle
  have hmul1 : per m ≤ perLevel m * levels e := Nat.le_mul_of_pos_right _ hel
  have hx : removeMsWordPrefixes (removeLineBreaks x) = prep x := by
    rw [removeLineBreaks_spec, removeMsWordPrefixes_spec, prep]
  have hb := needs_buildElems m (mathElements d) (by omega)
  refine Needs.call (Needs.right (P := fun _ => True) ?_ fun _ _ => Needs.left ?_)
  · exact ((leaf_only ()).bind fun _ _ n h => by
      rcases leaf_only () n h with hr | ⟨a, h', hq, _⟩
      · exact .inl hr
      · exact .inr ⟨a, h', hq, trivial⟩).call
  unfold adapterConvert
  rw [hx]
  have hlib : Only (fun _ => True) (Stack.call (Stack.lib m)) := by
    refine Only.call fun n h => ?_
    by_cases hn : n < m.lib
    · left
      show (if n < m.lib then _ else _ : Except Stop Unit × Heap).1 = _
      rw [if_pos hn]
    · exact .inr ⟨(), h, if_neg hn, trivial⟩
  refine Needs.call (Needs.right hlib fun _ _ => Needs.right hlib fun _ _ =>
    Needs.right (P := fun ns => ns = mathElements d) ?_ fun ns hns => ?_)
  · have hres : (mathmlElements env 5 none (prep x)).1 = .ok (mathElements d) := by
      obtain ⟨i, y, hi, hc, hpy⟩ := h
      obtain ⟨exc, hl⟩ := consulted_loop hc (4 - i + 1)
      rw [show 4 - i + 1 + i = 5 by omega] at hl
      rw [hl, mathmlElements_ok hpy]
    have hf := fits_mathmlElements m env x (levelsAll d)
      (fun i y d' hi hc hp => by rw [h.unique ⟨i, y, hi, hc, hp⟩]; exact Nat.le_refl _)
      (k := levelsAll d + 3 + m.lib + 5) (by omega) (by omega) 5 0 (prep x) none rfl .first
    rw [hres] at hf
    exact Only.call (Stack.Fits.only hf (fun _ _ h => by cases h) fun a b h hab hb => by
      cases hb
      exact hab.1)
  · subst hns
    exact ((needs_comp m hb).call).mono (by omega)

/-- **C67** For every input there is a number of activations such that with fewer the call raises
`RecursionError`, and with that many or more it does what the code does without a limit: running
out of stack never changes a result and never hides or replaces another error.  The number is at
most proportional to the number of nested elements. -/
theorem C67_recursion_limit (m : Machine) (env : Env) (h : Heap) (x : Str) :
    ∃ t, (∀ n, outcome m env h x n =
        if n < t then .error .recursion else unlimited (convert env x)) ∧
      (∀ d, ParsesTo env x d → t ≤ perLevel m * levelsAll d + m.lib + 8) ∧
      (∀ d e, ParsesTo env x d → e ∈ maths d → perLevel m * levels e + 4 ≤ t) ∧
      ((¬ ∃ d, ParsesTo env x d) → t ≤ m.lib + 8) := by
  by_cases hd : ∃ d, ParsesTo env x d
  · obtain ⟨d, hd⟩ := hd
    obtain ⟨t, ht, hn⟩ := stack_threshold m env h x (levelsAll d)
      (fun d' h' => by rw [h'.unique hd]; exact Nat.le_refl _)
    refine ⟨t, hn, fun d' h' => by rw [h'.unique hd]; exact ht, fun d' e h' he => ?_,
      fun hno => absurd ⟨d, hd⟩ hno⟩
    apply Nat.le_of_not_lt
    intro hlt
    have h1 := needs_convert m env x h' he t h hlt
    have h2 := hn t
    rw [if_neg (Nat.lt_irrefl t)] at h2
    have h2 : ((Stack.convert (F := LM) m env x t h).1 : Except Stop Str) = _ := h2
    rw [h1] at h2
    cases hc : convert env x <;> rw [hc] at h2 <;> cases h2
  · obtain ⟨t, ht, hn⟩ := stack_threshold m env h x 0 (fun d' h' => absurd ⟨d', h'⟩ hd)
    exact ⟨t, hn, fun d h' => absurd ⟨d, h'⟩ hd, fun d e h' _ => absurd ⟨d, h'⟩ hd, fun _ => by omega⟩

/-- **C67** Enough activations for the depth of the document. -/
theorem C67_shallow (m : Machine) (env : Env) (h : Heap) (x : Str) (d : Doc) (n : Nat)
    (hd : ParsesTo env x d)
    (hn : perLevel m * levelsAll d + m.lib + 8 ≤ n) :
    outcome m env h x n = unlimited (convert env x) := by
  obtain ⟨t, ht, h1, _⟩ := C67_recursion_limit m env h x
  rw [ht, if_neg]
  have := h1 d hd
  omega

/-- **C67** A document that is nested too deeply is never converted, whatever is in it. -/
theorem C67_too_deep (m : Machine) (env : Env) (h : Heap) (x : Str) (d : Doc) (e : Node) (n : Nat)
    (hd : ParsesTo env x d) (he : e ∈ maths d) (hn : n < perLevel m * levels e + 4) :
    outcome m env h x n = .error .recursion := by
  obtain ⟨t, ht, _, h2, _⟩ := C67_recursion_limit m env h x
  rw [ht, if_pos]
  have := h2 d e hd he
  omega

/-- **C67** Whatever the limit, the outcome is that of the code without a limit or
`RecursionError`. -/
theorem C67_nothing_else (m : Machine) (env : Env) (h : Heap) (x : Str) (n : Nat) :
    outcome m env h x n = unlimited (convert env x) ∨ outcome m env h x n = .error .recursion := by
  obtain ⟨t, ht, _⟩ := C67_recursion_limit m env h x
  rw [ht]
  split
  · exact .inr rfl
  · exact .inl rfl

/-- `k` nested `mrow`s around an `x`. -/
def Spec.rows : Nat → Node
  | 0 => .elem c!"mi" [] [.text c!"x"]
  | k + 1 => .elem c!"mrow" [] [rows k]

theorem rows_levels (k : Nat) : levels (rows k) = k + 1 := by
  induction k with
  | zero => rfl
  | succ k ih =>
    rw [rows, levels, levelsAll, levelsAll, ih]
    omega

/-- With Python's default limit of 1000, on Python 3.11: 300 rows around a letter are converted
if the caller and the library leave it the room, 332 rows never are. -/
example (env : Env) (h : Heap) (x : Str) (hd : ParsesTo env x [.elem c!"math" [] [rows 300]]) (lib : Nat)
    (hl : lib ≤ 50) : outcome ⟨true, lib⟩ env h x 970 = unlimited (convert env x) := by
  refine C67_shallow _ _ _ _ _ _ hd ?_
  simp only [levelsAll, levels, rows_levels]
  show 3 * _ + lib + 8 ≤ 970
  omega

example (env : Env) (h : Heap) (x : Str) (hd : ParsesTo env x [.elem c!"math" [] [rows 332]]) (lib n : Nat)
    (hn : n ≤ 1000) : outcome ⟨true, lib⟩ env h x n = .error .recursion := by
  refine C67_too_deep _ _ _ _ _ (.elem c!"math" [] [rows 332]) _ hd ?_ ?_
  · simp [maths, elements, elementsOf, isMath]
  · rw [levels, levelsAll, rows_levels, levelsAll]
    show n < 3 * _ + 4
    omega

end Verif
