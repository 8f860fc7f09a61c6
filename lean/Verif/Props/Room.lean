import Verif.Source.Deep
import Verif.Source.Room
import Verif.Props.Stopped
import Verif.Props.Stack

/-!
# The source text, nesting and the recursion limit (C89)
-/

namespace Verif.Src
open Spec

theorem least {P : Nat → Prop} : ∀ n, P n → ∃ t, t ≤ n ∧ P t ∧ ∀ m, m < t → ¬ P m
  | 0, h => ⟨0, Nat.le_refl _, h, fun _ hm => absurd hm (Nat.not_lt_zero _)⟩
  | n + 1, h => by
    by_cases h' : ∃ m, m ≤ n ∧ P m
    · obtain ⟨m, hm, hp⟩ := h'
      obtain ⟨t, h1, h2, h3⟩ := least m hp
      exact ⟨t, by omega, h2, h3⟩
    · exact ⟨n + 1, Nat.le_refl _, h, fun m hm hp => h' ⟨m, by omega, hp⟩⟩

theorem domElements_parsed {env : Env} {x : Str} {d : Doc} (h : ParsesTo env x d) :
    (Adapter.fresh.domElements env x).1 = .ok (maths d) := by
  rw [domElements_fst, ← show mathElements d = maths d from mathElements_eq d]
  obtain ⟨i, y, hi, hc, hpy⟩ := h
  obtain ⟨exc, hl⟩ := consulted_loop hc (4 - i + 1)
  rw [show 4 - i + 1 + i = 5 by omega] at hl
  rw [hl, mathmlElements_ok hpy]

theorem parsed_loop {env : Env} {x : Str} : ∀ (n i : Nat) (exc : Option Exc) (y : Str) (ns : List Node), n + i = 5 →
    Consulted env x i y → (exc = none → 0 < n) → (mathmlElements env n exc y).1 = .ok ns →
    ∃ d, ParsesTo env x d ∧ ns = mathElements d
  | 0, _, none, _, _, _, _, h0, _ => absurd (h0 rfl) (Nat.lt_irrefl 0)
  | 0, _, some _, _, _, _, _, _, h => by cases h
  | n + 1, i, exc, y, ns, hi, hc, _, h => by
    unfold mathmlElements at h
    cases hp : env.parse y with
    | ok d =>
      rw [hp] at h
      cases h
      exact ⟨d, ⟨i, y, by omega, hc, hp⟩, rfl⟩
    | error e =>
      rw [hp] at h
      dsimp only at h
      cases hf : fixError env y e with
      | error e' => rw [hf] at h; cases h
      | ok z =>
        rw [hf] at h
        exact parsed_loop n (i + 1) _ z ns (by omega) (.next hc hp ((fixError_ok hc.noLF).1 hf)) (fun h => by cases h) h

theorem domElements_ok {env : Env} {x : Str} {ns : List Node} (h : (Adapter.fresh.domElements env x).1 = .ok ns) :
    ∃ d, ParsesTo env x d ∧ ns = maths d := by
  rw [domElements_fst] at h
  obtain ⟨d, h1, h2⟩ := parsed_loop 5 0 none _ _ rfl .first (fun _ => by decide) h
  exact ⟨d, h1, h2.trans (mathElements_eq d)⟩

/-- **C89** For every text there is a number of activations such that with fewer of them the call is
stopped, and with that many or more it does what it does without a limit.  The number is two for
every level of nested elements inside `math`, and a constant. -/
theorem C89_recursion_limit (env : Env) (stop : Exc) (x : Str) (S : Store) (r : Res Val) (h : Ends env x S r) :
    ∃ t, (∀ L, ∃ k, ∀ n, k ≤ n →
        (L < t → ∃ S', attempt env stop (recursionLimit L n) n x S = .exc (.exc stop) S') ∧
        (t ≤ L → attempt env stop (recursionLimit L n) n x S = r)) ∧
      (∀ d, ParsesTo env x d → 2 * levelsAll (maths d) + 3 ≤ t) ∧
      (∀ d, ParsesTo env x d → t ≤ 2 * levelsAll (maths d) + 13) ∧
      ((¬ ∃ d, ParsesTo env x d) → t ≤ 13) := by
  obtain ⟨k0, hk0⟩ := h
  have hne : r ≠ .stuck := by
    intro e
    obtain ⟨r', h1, h2⟩ := ends env x S
    cases h1.unique ⟨k0, hk0⟩
    rw [e] at h2
    generalize convert env x = c at h2
    cases h2
  let P : Nat → Prop := fun d => ∃ s, callD env s d MathMLToLaTeX_convert [.str x] [] S ≠ .stuck
  have hP : P k0 := ⟨0, by rw [callD_zero, hk0 k0 (Nat.le_refl _)]; exact hne⟩
  obtain ⟨t, _, ⟨s, hs⟩, hmin⟩ := least (P := P) k0 hP
  have hval : ∀ s' d, callD env s' d MathMLToLaTeX_convert [.str x] [] S ≠ .stuck →
      callD env s' d MathMLToLaTeX_convert [.str x] [] S = r := fun s' d h1 =>
    (callD_or d hk0).resolve_left h1
  have room : ∀ B, (∀ nodes, (Adapter.fresh.domElements env x).1 = .ok nodes → levelsAll nodes ≤ B) → t ≤ 2 * B + 13 := by
    intro B hB
    apply Nat.le_of_not_lt
    intro hlt
    obtain ⟨K, hK⟩ := room_convert (env := env) x S B hB
    exact hmin _ hlt ⟨K, hK K _ (Nat.le_refl _) (Nat.le_refl _)⟩
  refine ⟨t, fun L => ⟨k0 + L + s, fun n hn => ⟨fun hL => ?_, fun hL => ?_⟩⟩, fun d hd => ?_, fun d hd => ?_, fun hd => ?_⟩
  · have h1 := callF_limit env stop L n (by omega) L calm_convert [.str x] [] S
    rw [show n - L + L = n by omega] at h1
    rcases h1 with h1 | h1
    · exact h1
    · exfalso
      have h2 : callD env (n - L) L MathMLToLaTeX_convert [.str x] [] S = .stuck := by
        apply Classical.byContradiction
        exact fun h2 => hmin L hL ⟨_, h2⟩
      rcases callF_cut env stop (recursionLimit L n) n calm_convert [.str x] [] S with ⟨S', h3⟩ | h3
      · have h1 : callF env stop (recursionLimit L n) n MathMLToLaTeX_convert [.str x] [] S = _ := h1
        rw [h3, h2] at h1
        cases h1
      · have h1 : callF env stop (recursionLimit L n) n MathMLToLaTeX_convert [.str x] [] S = _ := h1
        rw [h1, h2, hk0 n (by omega)] at h3
        exact hne h3.symm
  · have h1 := callD_le_callF env stop L n (by omega) L MathMLToLaTeX_convert [.str x] [] S
    rw [show n - L + L = n by omega] at h1
    have h2 : callD env (n - L) L MathMLToLaTeX_convert [.str x] [] S ≠ .stuck := by
      rcases callD_mono (env := env) (show s ≤ n - L by omega) t L hL MathMLToLaTeX_convert [.str x] [] S with h2 | h2
      · exact absurd h2 hs
      · rw [← h2]; exact hs
    rw [hval _ _ h2] at h1
    exact (h1.resolve_left hne).symm
  · apply Nat.le_of_not_lt
    intro hlt
    exact hs (deep_convert x S (domElements_parsed hd) hlt)
  · exact room _ fun ns hx => by rw [domElements_parsed hd] at hx; cases hx; exact Nat.le_refl _
  · exact room 0 fun ns hx => absurd ((domElements_ok hx).imp fun _ h => h.1) hd

/-- **C89** Enough activations for the depth of the document. -/
theorem C89_shallow (env : Env) (stop : Exc) (x : Str) (S : Store) (d : Doc) (r : Res Val) (hd : ParsesTo env x d)
    (h : Ends env x S r) (L : Nat) (hL : 2 * levelsAll (maths d) + 13 ≤ L) :
    ∃ k, ∀ n, k ≤ n → attempt env stop (recursionLimit L n) n x S = r := by
  obtain ⟨t, h1, _, h2, _⟩ := C89_recursion_limit env stop x S r h
  have := h2 d hd
  obtain ⟨k, hk⟩ := h1 L
  exact ⟨k, fun n hn => (hk n hn).2 (by omega)⟩

/-- **C89** A text that no repair makes readable is refused in the same small room, however deeply it is nested. -/
theorem C89_unreadable (env : Env) (stop : Exc) (x : Str) (S : Store) (r : Res Val) (hd : ¬ ∃ d, ParsesTo env x d)
    (h : Ends env x S r) (L : Nat) (hL : 13 ≤ L) :
    ∃ k, ∀ n, k ≤ n → attempt env stop (recursionLimit L n) n x S = r := by
  obtain ⟨t, h1, _, _, h2⟩ := C89_recursion_limit env stop x S r h
  have := h2 hd
  obtain ⟨k, hk⟩ := h1 L
  exact ⟨k, fun n hn => (hk n hn).2 (by omega)⟩

/-- **C89** A document that is nested too deeply is never converted, whatever is in it. -/
theorem C89_too_deep (env : Env) (stop : Exc) (x : Str) (S : Store) (d : Doc) (hd : ParsesTo env x d)
    (L : Nat) (hL : L < 2 * levelsAll (maths d) + 3) :
    ∃ k, ∀ n, k ≤ n → ∃ S', attempt env stop (recursionLimit L n) n x S = .exc (.exc stop) S' := by
  obtain ⟨r, h, _⟩ := ends env x S
  obtain ⟨t, h1, h2, _⟩ := C89_recursion_limit env stop x S r h
  have := h2 d hd
  obtain ⟨k, hk⟩ := h1 L
  exact ⟨k, fun n hn => (hk n hn).1 (by omega)⟩

theorem rows_no_math : ∀ k, (elementsOf (rows k)).filter isMath = []
  | 0 => by decide +kernel
  | k + 1 => by
    have ih := rows_no_math k
    simp [rows, elementsOf, elements, isMath, ih]

theorem maths_rows (k : Nat) : maths [.elem c!"math" [] [rows k]] = [.elem c!"math" [] [rows k]] := by
  have h := rows_no_math k
  simp [maths, elements, elementsOf, isMath] at h ⊢
  exact h

/-- With Python's default limit of 1000: up to 491 rows around a letter are converted, 498 or more never are. -/
example (env : Env) (stop : Exc) (x : Str) (S : Store) (r : Res Val) (k : Nat) (hk : k ≤ 491)
    (hd : ParsesTo env x [.elem c!"math" [] [rows k]]) (h : Ends env x S r) :
    ∃ m, ∀ n, m ≤ n → attempt env stop (recursionLimit 1000 n) n x S = r := by
  refine C89_shallow env stop x S _ r hd h 1000 ?_
  rw [maths_rows]
  simp only [levelsAll, levels, rows_levels]
  omega

example (env : Env) (stop : Exc) (x : Str) (S : Store) (k : Nat) (hk : 498 ≤ k)
    (hd : ParsesTo env x [.elem c!"math" [] [rows k]]) :
    ∃ m, ∀ n, m ≤ n → ∃ S', attempt env stop (recursionLimit 1000 n) n x S = .exc (.exc stop) S' := by
  refine C89_too_deep env stop x S _ hd 1000 ?_
  rw [maths_rows]
  simp only [levelsAll, levels, rows_levels]
  omega

/-- Both cases occur: a parser that accepts every text as so many rows, and one that accepts none. -/
example (k : Nat) : ParsesTo ⟨fun _ => .ok [.elem c!"math" [] [rows k]], fun _ => false⟩ c!"<math>" [.elem c!"math" [] [rows k]] :=
  ⟨0, _, by decide, .first, rfl⟩

example (stop : Exc) (x : Str) (S : Store) : ∃ r k, Ends ⟨fun _ => .error (.other 7), fun _ => false⟩ x S r ∧ ∀ n, k ≤ n →
    attempt ⟨fun _ => .error (.other 7), fun _ => false⟩ stop (recursionLimit 13 n) n x S = r := by
  obtain ⟨r, h, _⟩ := ends ⟨fun _ => .error (.other 7), fun _ => false⟩ x S
  obtain ⟨k, hk⟩ := C89_unreadable _ stop x S r (fun ⟨_, _, _, _, _, h⟩ => by cases h) h 13 (Nat.le_refl _)
  exact ⟨r, k, h, hk⟩

end Verif.Src
