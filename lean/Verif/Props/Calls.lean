import Verif.Lemmas.Calls
import Verif.Lemmas.CallsLower
import Verif.Props.Faults
import Verif.Props.Size

/-!
# C69: the number of function calls
-/

namespace Verif
open Verif.Spec Verif.Stack

theorem sum_eventsFor (ns : List Node) :
    (ns.map eventsFor).sum = 200 * sizes ns + 12 * blockPairsL ns := by
  induction ns with
  | nil => rfl
  | cons n ns ih =>
    rw [List.map_cons, List.sum_cons, ih, eventsFor, sizes, blockPairsL_cons]
    omega

/-- **C69** The number of events (beginnings and ends of function calls, calls of library functions)
between the beginning and the end of a call that parses a document is bounded by `eventsForDoc`,
whatever faults happen. -/
theorem C69_bound (m : Machine) (env : Env) (x : Str) (d : Doc) (hd : ParsesTo env x d) (o : Faults)
    (t : Nat) (h : Heap) : (faulty m env x o t h).2.1 ≤ t + eventsForDoc d := by
  refine (cost_convert (o := o) m env x (sizes d) ((maths d).map eventsFor).sum (levelsAll d)
    (fun d' h' => by rw [h'.unique hd]; exact Nat.le_refl _)
    (fun i y d' hi hc hp => ?_) (fun ns hns => ?_) t h).1
  · rw [Spec.ParsesTo.unique ⟨i, y, hi, hc, hp⟩ hd]
    exact Nat.le_refl _
  · obtain ⟨n, y, hn, hc, hp⟩ := hd
    obtain ⟨exc, he⟩ := consulted_loop hc (4 - n + 1)
    rw [show 4 - n + 1 + n = 5 from by omega] at he
    rw [he, mathmlElements_ok hp] at hns
    cases hns
    rw [mathElements_eq, ← maths, sum_eventsFor]
    exact Nat.le_refl _

/-- **C69** If every text is rejected, the number of events is at most 300. -/
theorem C69_rejected (m : Machine) (env : Env) (x : Str) (hd : ¬ ∃ d, ParsesTo env x d) (o : Faults)
    (t : Nat) (h : Heap) : (faulty m env x o t h).2.1 ≤ t + 300 := by
  refine (cost_convert (o := o) m env x 0 0 0 (fun d h => absurd ⟨d, h⟩ hd)
    (fun i y d' hi hc hp => absurd ⟨d', i, y, hi, hc, hp⟩ hd) (fun ns hns => ?_) t h).1
  exfalso
  obtain ⟨n, y, hn, hy, hcase⟩ := C06_exhaustive env x
  rcases hcase with ⟨d, hp⟩ | ⟨e, hp, hr⟩ | ⟨rfl, e, hp, hr⟩
  · exact hd ⟨d, n, y, hn, hy, hp⟩
  · obtain ⟨exc, he⟩ := consulted_loop hy (4 - n + 1)
    rw [show 4 - n + 1 + n = 5 from by omega] at he
    rw [he, mathmlElements_fails hp hr hy.noLF] at hns
    cases hns
  · obtain ⟨exc, he⟩ := consulted_loop hy 1
    rcases fixError_spec env hy.noLF e with ⟨z, _, hz⟩ | ⟨_, hf⟩
    · rw [show (5 : Nat) = 1 + 4 from rfl, he, mathmlElements_next hp hz hy.noLF] at hns
      cases hns
    · exact absurd hf hr

/-! ## In terms of the size and the nesting -/

mutual
theorem blockPairs_le : ∀ (n : Node), blockPairs n ≤ blockDepthOf n * size n
  | .elem tag A cs => by
    have ih := blockPairsL_le cs
    have h1 := elements_le cs
    rw [blockPairs_elem, blockDepthOf, size, Nat.add_mul]
    have h2 : blockDepth cs * sizes cs ≤ blockDepth cs * (1 + tag.length + attrsSize A + sizes cs) :=
      Nat.mul_le_mul_left _ (by omega)
    split <;> omega
  | .text _ => Nat.zero_le _
  | .cdata _ => Nat.zero_le _
  | .comment _ => Nat.zero_le _
  | .pi _ _ => Nat.zero_le _
theorem blockPairsL_le : ∀ (ns : List Node), blockPairsL ns ≤ blockDepth ns * sizes ns
  | [] => Nat.zero_le _
  | n :: ns => by
    have h1 := blockPairs_le n
    have h2 := blockPairsL_le ns
    rw [blockPairsL_cons, blockDepth, sizes, Nat.mul_add]
    have h3 := Nat.mul_le_mul_right (size n) (Nat.le_max_left (blockDepthOf n) (blockDepth ns))
    have h4 := Nat.mul_le_mul_right (sizes ns) (Nat.le_max_right (blockDepthOf n) (blockDepth ns))
    omega
end

mutual
theorem blockDepth_elementsOf : ∀ (n m : Node), m ∈ elementsOf n → blockDepthOf m ≤ blockDepthOf n
  | .elem tag A cs, m, h => by
    rw [elementsOf] at h
    rcases List.mem_cons.1 h with rfl | h
    · exact Nat.le_refl _
    · have := blockDepth_elements cs m h
      rw [blockDepthOf]
      omega
  | .text _, m, h => by cases h
  | .cdata _, m, h => by cases h
  | .comment _, m, h => by cases h
  | .pi _ _, m, h => by cases h
theorem blockDepth_elements : ∀ (ns : List Node) (m : Node), m ∈ elements ns → blockDepthOf m ≤ blockDepth ns
  | [], m, h => by cases h
  | n :: ns, m, h => by
    rw [elements] at h
    rw [blockDepth]
    rcases List.mem_append.1 h with h | h
    · exact Nat.le_trans (blockDepth_elementsOf n m h) (Nat.le_max_left _ _)
    · exact Nat.le_trans (blockDepth_elements ns m h) (Nat.le_max_right _ _)
end

theorem blockPairsL_maths (d : Doc) : blockPairsL (maths d) ≤ blockDepth d * sizes (maths d) := by
  have h : ∀ m ∈ maths d, blockDepthOf m ≤ blockDepth d := fun m hm =>
    blockDepth_elements d m (List.mem_filter.1 hm).1
  generalize maths d = ms at h
  induction ms with
  | nil => exact Nat.zero_le _
  | cons m ms ih =>
    have h1 := ih fun m' hm => h m' (List.mem_cons_of_mem _ hm)
    have h2 := Nat.le_trans (blockPairs_le m) (Nat.mul_le_mul_right (size m) (h m List.mem_cons_self))
    rw [blockPairsL_cons, sizes, Nat.mul_add]
    omega

/-- **C69** The bound in terms of the size of the document and of how deep `math` elements, and tables
and fences, are nested. -/
theorem C69_nesting (d : Doc) : eventsForDoc d ≤
    300 + 10 * sizes d + (200 + 12 * blockDepth d) * (mathDepth d * sizes d) := by
  have h1 := sizes_maths d
  have h2 := Nat.le_trans (blockPairsL_maths d) (Nat.mul_le_mul_left (blockDepth d) h1)
  rw [eventsForDoc, sum_eventsFor, Nat.add_mul, Nat.mul_assoc 12]
  omega

/-- **C69** It is linear if `math` elements are not nested, nor tables and fences. -/
theorem C69_linear (d : Doc) (hm : Unnested d) (hb : blockDepth d ≤ 1) :
    eventsForDoc d ≤ 300 + 222 * sizes d := by
  have h1 := C69_nesting d
  have h2 := Nat.mul_le_mul_right (sizes d) (depth_one d hm)
  have h3 : (200 + 12 * blockDepth d) * (mathDepth d * sizes d) ≤ 212 * sizes d :=
    Nat.mul_le_mul (by omega) (by omega)
  omega

mutual
theorem depthsOf_le : ∀ (n : Node), mathDepthOf n ≤ size n ∧ blockDepthOf n ≤ size n
  | .elem tag A cs => by
    have := depths_le cs
    rw [mathDepthOf, blockDepthOf, size]
    constructor <;> split <;> omega
  | .text _ => ⟨Nat.zero_le _, Nat.zero_le _⟩
  | .cdata _ => ⟨Nat.zero_le _, Nat.zero_le _⟩
  | .comment _ => ⟨Nat.zero_le _, Nat.zero_le _⟩
  | .pi _ _ => ⟨Nat.zero_le _, Nat.zero_le _⟩
theorem depths_le : ∀ (ns : List Node), mathDepth ns ≤ sizes ns ∧ blockDepth ns ≤ sizes ns
  | [] => ⟨Nat.zero_le _, Nat.zero_le _⟩
  | n :: ns => by
    have h1 := depthsOf_le n
    have h2 := depths_le ns
    rw [mathDepth, blockDepth, sizes]
    omega
end

/-- **C69** In any case it is at most cubic. -/
theorem C69_cubic (d : Doc) : eventsForDoc d ≤ 300 + 222 * (sizes d * (sizes d * sizes d)) := by
  have h1 := C69_nesting d
  obtain ⟨h2, h3⟩ := depths_le d
  rcases Nat.eq_zero_or_pos (sizes d) with h0 | h0
  · rw [h0] at h1 h2 ⊢
    simpa using h1
  · have h4 : mathDepth d * sizes d ≤ sizes d * sizes d := Nat.mul_le_mul_right _ h2
    have h5 : 12 * blockDepth d + 200 ≤ 212 * sizes d := by omega
    have h6 : (200 + 12 * blockDepth d) * (mathDepth d * sizes d) ≤ 212 * sizes d * (sizes d * sizes d) :=
      Nat.mul_le_mul (by omega) h4
    have h7 : sizes d * 1 ≤ sizes d * (sizes d * sizes d) := Nat.mul_le_mul_left _ (Nat.mul_pos h0 h0)
    rw [Nat.mul_assoc] at h6
    omega

/-! ## It is cubic for some documents -/

/-- The document with `k` fences inside one another and `k + 1` `math` elements. -/
def towerDoc (k : Nat) : Doc := [.elem c!"math" [] [fenceTower k]]

theorem size_fenceTower : ∀ (k : Nat), size (fenceTower k) = 13 * k + 5
  | 0 => rfl
  | k + 1 => by
    have ih := size_fenceTower k
    simp only [fenceTower, size, sizes, attrsSize, ih, List.length_cons, List.length_nil]
    omega

theorem sizes_towerDoc (k : Nat) : sizes (towerDoc k) = 13 * k + 10 := by
  simp only [towerDoc, size, sizes, attrsSize, size_fenceTower, List.length_cons, List.length_nil]
  omega

theorem pyramid_eq : ∀ (k : Nat), k * (k * k) = 3 * pyramid k + k
  | 0 => rfl
  | k + 1 => by
    have ih := pyramid_eq k
    rw [pyramid]
    simp only [Nat.add_mul, Nat.mul_add, Nat.one_mul, Nat.mul_one] at ih ⊢
    omega

theorem selected_tower (tag : Str) (n : Node) (hn : n.isElem = true) (h : tag = c!"math" ∨ tag = c!"mfenced") :
    selected (.elem tag [] [n]) = [n] ∧ violation (.elem tag [] [n]) = none := by
  cases n with
  | elem tag' A cs => rcases h with rfl | rfl <;> exact ⟨rfl, rfl⟩
  | _ => cases hn

theorem tower_fine : ∀ (k : Nat), ∀ m ∈ evaluated (fenceTower k), violation m = none
  | 0, m, h => by
    rw [fenceTower, evaluated_eq, show selected (.elem c!"mn" [] [.text c!"1"]) = [] from rfl] at h
    rcases List.mem_cons.1 h with rfl | h
    · rfl
    · cases h
  | k + 1, m, h => by
    have ih := tower_fine k m
    have h1 := selected_tower c!"math" (fenceTower k) (fenceTower_isElem k) (.inl rfl)
    have h2 := selected_tower c!"mfenced" (.elem c!"math" [] [fenceTower k]) rfl (.inr rfl)
    rw [fenceTower, evaluated_eq, h2.1] at h
    rcases List.mem_cons.1 h with rfl | h
    · exact h2.2
    · rw [List.flatMap_cons, List.flatMap_nil, List.append_nil, evaluated_eq, h1.1] at h
      rcases List.mem_cons.1 h with rfl | h
      · exact h1.2
      · rw [List.flatMap_cons, List.flatMap_nil, List.append_nil] at h
        exact ih h

theorem mathList_fine : ∀ (k : Nat), ∀ n ∈ mathList k, ∀ m ∈ evaluated n, violation m = none := by
  have key : ∀ (k : Nat), ∀ m ∈ evaluated (.elem c!"math" [] [fenceTower k]), violation m = none := by
    intro k m h
    have h1 := selected_tower c!"math" (fenceTower k) (fenceTower_isElem k) (.inl rfl)
    rw [evaluated_eq, h1.1] at h
    rcases List.mem_cons.1 h with rfl | h
    · exact h1.2
    · rw [List.flatMap_cons, List.flatMap_nil, List.append_nil] at h
      exact tower_fine k m h
  intro k
  induction k with
  | zero =>
    intro n hn
    rcases List.mem_cons.1 hn with rfl | hn
    · exact key 0
    · cases hn
  | succ k ih =>
    intro n hn
    rcases List.mem_cons.1 hn with rfl | hn
    · exact key (k + 1)
    · exact ih n hn

theorem maths_towerDoc (k : Nat) : maths (towerDoc k) = mathList k := by
  rw [maths, ← mathElements_eq]
  exact mathElements_tower k

/-- **C69** Documents with nested `math` elements and fences do need cubically many events: the call
returns a string, and the number of events is at least about a third of the third power of the number
`k` of fences, of which the size of the document is a linear function. -/
theorem C69_cubic_needed (m : Machine) (env : Env) (x : Str) (k : Nat)
    (hp : env.parse (prep x) = .ok (towerDoc k)) (t : Nat) (h : Heap) :
    sizes (towerDoc k) = 13 * k + 10 ∧
    (∃ s, (faulty m env x (fun _ => none) t h).1 = .ok s) ∧
    3 * t + k * (k * k) ≤ 3 * (faulty m env x (fun _ => none) t h).2.1 + k := by
  have hs : ∃ s, (faulty m env x (fun _ => none) t h).1 = .ok s := by
    obtain ⟨s, hs⟩ := (C11_convert env x _ hp).2 (by rw [maths_towerDoc]; exact mathList_fine k)
    exact ⟨s, by rw [C68_unharmed m env x _ t h (fun _ _ _ => rfl), hs]; rfl⟩
  refine ⟨sizes_towerDoc k, hs, ?_⟩
  obtain ⟨s, hs⟩ := hs
  have hd : ParsesTo env x (towerDoc k) := ⟨0, _, by omega, .first, hp⟩
  have h1 := (spends_convert (o := fun _ => none) m env x k (levelsAll (towerDoc k))
    (fun d' h' => by rw [h'.unique hd]; exact Nat.le_refl _)
    (by rw [mathmlElements_ok hp, ← maths_towerDoc, maths, ← mathElements_eq])
    t h s (faulty m env x (fun _ => none) t h).2.1 (faulty m env x (fun _ => none) t h).2.2
    (by rw [← hs]; rfl)).1
  have h2 := pyramid_eq k
  omega

/-! ## Cases meeting the hypotheses -/

example : ParsesTo oneEnv c!"<math><mi>x</mi></math>" [.elem c!"math" [] [.elem c!"mi" [] [.text c!"x"]]] :=
  ⟨0, _, by omega, .first, rfl⟩

example : eventsForDoc [.elem c!"math" [] [.elem c!"mi" [] [.text c!"x"]]] = 2400 := by decide +kernel

example : (faulty ⟨true, 0⟩ oneEnv c!"<math><mi>x</mi></math>" (fun _ => none) 0 Heap.empty).2.1 = 129 := by
  decide +kernel

example : Unnested [.elem c!"math" [] [.elem c!"mfenced" [] [.elem c!"mi" [] [.text c!"x"]]]] ∧
    blockDepth [.elem c!"math" [] [.elem c!"mfenced" [] [.elem c!"mi" [] [.text c!"x"]]]] ≤ 1 := by
  constructor
  · intro tag A cs h
    simp [maths, elements, elementsOf, isMath] at h
    rw [h.2.2]
    rfl
  · decide +kernel

example : ¬ ∃ d, ParsesTo ⟨fun _ => .error (.other 0), isAsciiAlnum⟩ c!"<" d := by
  rintro ⟨d, n, y, _, _, h⟩
  cases h

example : (⟨fun _ => .ok (towerDoc 3), isAsciiAlnum⟩ : Env).parse (prep c!"…") = .ok (towerDoc 3) := rfl

end Verif
