import Verif.Source.Cut
import Verif.Props.Source

/-!
# The source text, when calls fail (C85)

Any call of a function may fail when it begins, with an exception `stop` that says so: there are too
many activations already (`RecursionError`), there is no memory left (`MemoryError`), or the user has
pressed a key (`KeyboardInterrupt`).  An oracle decides which calls do (`Source/Cut.lean`).
-/

namespace Verif.Src
open Spec

/-- `MathMLToLaTeX.convert(x)`, when calls may fail; `n` bounds the depth of the calls and the turns
of the loops. -/
def attempt (env : Env) (stop : Exc) (fault : Oracle) (n : Nat) (x : Str) (S : Store) : Res Val :=
  callF env stop fault n MathMLToLaTeX_convert [.str x] [] S

theorem calm_convert : Calm MathMLToLaTeX_convert := .inl rfl

/-- **C85** Whichever calls fail, the outcome is that of the call in which none does, or the
exception. -/
theorem C85_same_or_stopped (env : Env) (stop : Exc) (x : Str) (S : Store) (r : Res Val) (h : Ends env x S r) :
    ∃ k, ∀ n, k ≤ n → ∀ fault, attempt env stop fault n x S = r ∨ ∃ S', attempt env stop fault n x S = .exc (.exc stop) S' := by
  obtain ⟨k, hk⟩ := h
  refine ⟨k, fun n hn fault => ?_⟩
  rcases callF_cut env stop fault n calm_convert [.str x] [] S with h1 | h1
  · exact .inr h1
  · exact .inl (h1.trans (hk n hn))

theorem ends_of_call {env : Env} {x : Str} {S : Store} {n : Nat}
    (h : call env n MathMLToLaTeX_convert [.str x] [] S ≠ .stuck) :
    Ends env x S (call env n MathMLToLaTeX_convert [.str x] [] S) :=
  ⟨n, fun _ hm => call_mono h hm⟩

/-- **C85** A string that is returned is the right one. -/
theorem C85_never_wrong (env : Env) (stop : Exc) (fault : Oracle) (n : Nat) (x : Str) (S S' : Store) (v : Val)
    (h : attempt env stop fault n x S = .ok v S') : ∃ s, v = .str s ∧ convert env x = .ok s := by
  rcases callF_cut env stop fault n calm_convert [.str x] [] S with ⟨S', h1⟩ | h1
  · rw [attempt, h1] at h
    cases h
  · rw [attempt, h1] at h
    have h2 := ends_of_call (env := env) (x := x) (S := S) (n := n) (by rw [h]; exact fun e => by cases e)
    obtain ⟨r, h3, h4⟩ := ends env x S
    rw [h] at h2
    cases h3.unique h2
    generalize convert env x = c at h4
    cases h4
    exact ⟨_, rfl, rfl⟩

/-- **C85** An exception that is raised is the one that the call raises anyway, or the one of the
failure. -/
theorem C85_never_another_error (env : Env) (stop : Exc) (fault : Oracle) (n : Nat) (x : Str) (S S' : Store) (v : Val)
    (h : attempt env stop fault n x S = .exc v S') :
    v = .exc stop ∨ ∃ e, convert env x = .error e ∧ Raised S' v e := by
  rcases callF_cut env stop fault n calm_convert [.str x] [] S with ⟨S', h1⟩ | h1
  · rw [attempt, h1] at h
    cases h
    exact .inl rfl
  · rw [attempt, h1] at h
    have h2 := ends_of_call (env := env) (x := x) (S := S) (n := n) (by rw [h]; exact fun e => by cases e)
    rw [h] at h2
    exact .inr (C79_raises env x S v S' h2)

/-- **C85** Whichever calls fail, no object that existed before is changed. -/
theorem C85_untouched (env : Env) (stop : Exc) (fault : Oracle) (n : Nat) (x : Str) (S : Store) :
    attempt env stop fault n x S = .stuck ∨ ∃ L v, attempt env stop fault n x S = .ok v (S ++ L) ∨
      attempt env stop fault n x S = .exc v (S ++ L) := by
  have h := kept_callF (P := fun a => S.length ≤ a) (S := S) (fun _ h => h) env stop fault n MathMLToLaTeX_convert
    [.str x] [] S (by intro v hv; cases List.mem_singleton.1 hv; trivial) (by intro p hp; cases hp)
    ⟨Nat.le_refl _, fun a o ha hp => absurd (List.getElem?_eq_some_iff.1 ha).1 (by omega), fun _ _ _ => rfl⟩
  have key : ∀ S' : Store, Frame (fun a => S.length ≤ a) S S' → ∃ L, S' = S ++ L := by
    intro S' hf
    refine ⟨S'.drop S.length, ?_⟩
    have : S'.take S.length = S := by
      apply List.ext_getElem?
      intro i
      by_cases hi : i < S.length
      · rw [List.getElem?_take_of_lt hi]
        exact hf.same i hi (by omega)
      · rw [List.getElem?_take_eq_none (by omega), List.getElem?_eq_none (by omega)]
    rw [← List.take_append_drop S.length S', this]
    simp
  unfold attempt
  cases hr : callF env stop fault n MathMLToLaTeX_convert [.str x] [] S with
  | stuck => exact .inl rfl
  | ok v S' =>
    rw [hr] at h
    obtain ⟨L, rfl⟩ := key S' h.2
    exact .inr ⟨L, v, .inl rfl⟩
  | exc v S' =>
    rw [hr] at h
    obtain ⟨L, rfl⟩ := key S' h.2
    exact .inr ⟨L, v, .inr rfl⟩

/-- A program that calls `convert` again and again, with failures: the texts with what became of
them, and the store in the end. -/
inductive Attempts (env : Env) (stop : Exc) : Store → List (Str × Res Val) → Store → Prop
  | nil {S} : Attempts env stop S [] S
  | ok {S S' S'' x v fault n rs} : attempt env stop fault n x S = .ok v S' → Attempts env stop S' rs S'' →
      Attempts env stop S ((x, .ok v S') :: rs) S''
  | exc {S S' S'' x v fault n rs} : attempt env stop fault n x S = .exc v S' → Attempts env stop S' rs S'' →
      Attempts env stop S ((x, .exc v S') :: rs) S''

/-- **C85** In such a program every call that is not stopped gives what it gives in a fresh
interpreter without failures. -/
theorem C85_program (env : Env) (stop : Exc) (S S' : Store) (rs : List (Str × Res Val))
    (h : Attempts env stop S rs S') : ∀ p ∈ rs, Seen (convert env p.1) p.2 ∨ ∃ T, p.2 = .exc (.exc stop) T := by
  induction h with
  | nil => exact fun _ h => by cases h
  | @ok S S' S'' x v fault n rs h1 _ ih =>
    intro p hp
    rcases List.mem_cons.1 hp with rfl | hp
    · obtain ⟨s, rfl, h2⟩ := C85_never_wrong env stop fault n _ _ _ _ h1
      rw [h2]
      exact .inl (.ok s S')
    · exact ih p hp
  | @exc S S' S'' x v fault n rs h1 _ ih =>
    intro p hp
    rcases List.mem_cons.1 hp with rfl | hp
    · rcases C85_never_another_error env stop fault n _ _ _ _ h1 with rfl | ⟨e, h2, h3⟩
      · exact .inr ⟨S', rfl⟩
      · rw [h2]
        exact .inl (.exc h3)
    · exact ih p hp

/-! ## Limits -/

/-- With at most `L` activations at a time (in a call with the bound `n`, the outermost activation
has the number `n`, the next one `n - 1`, …). -/
def recursionLimit (L n : Nat) : Oracle := fun m _ _ _ => decide (m + L ≤ n)

/-- With room for `M` objects. -/
def memoryLimit (M : Nat) : Oracle := fun _ _ _ S => decide (M ≤ S.length)

/-- **C85** For every text there is a recursion limit from which on nothing is stopped. -/
theorem C85_high_limit (env : Env) (stop : Exc) (x : Str) (S : Store) (r : Res Val) (h : Ends env x S r) :
    ∃ k, ∀ L, k ≤ L → ∀ n, L ≤ n → attempt env stop (recursionLimit L n) n x S = r := by
  obtain ⟨k, hk⟩ := h
  have hs : ∀ n, k ≤ n → call env n MathMLToLaTeX_convert [.str x] [] S ≠ .stuck := by
    intro n hn e
    obtain ⟨r', h1, h2⟩ := ends env x S
    cases h1.unique ⟨k, hk⟩
    rw [← hk n hn, e] at h2
    generalize convert env x = c at h2
    cases h2
  refine ⟨k, fun L hL n hn => ?_⟩
  have h1 := call_le_callF env stop (recursionLimit L n) (n - L) L (by
    intro m f args h h1 h2
    unfold recursionLimit
    rw [decide_eq_false_iff_not]
    omega) MathMLToLaTeX_convert [.str x] [] S
  rw [Nat.add_sub_cancel' hn] at h1
  rcases h1 with h1 | h1
  · exact absurd h1 (hs L hL)
  · rw [attempt, ← h1, hk L hL]

/-- **C85** With the limit 0 everything is stopped. -/
theorem C85_low_limit (env : Env) (stop : Exc) (x : Str) (S : Store) (n : Nat) (hn : 0 < n) :
    attempt env stop (recursionLimit 0 n) n x S = .exc (.exc stop) S := by
  obtain ⟨n, rfl⟩ : ∃ m, n = m + 1 := ⟨n - 1, by omega⟩
  unfold attempt callF
  rw [if_pos]
  simp [recursionLimit]

/-- Both outcomes occur: `x` squared, with the limit 0 and with a high one. -/
example : ∃ n, attempt squareEnv (.parserOther 1) (recursionLimit 0 n) n c!"<math/>" [] = .exc (.exc (.parserOther 1)) [] ∧
    ∃ S, attempt squareEnv (.parserOther 1) (recursionLimit n n) n c!"<math/>" [] = .ok (.str c!"x^{2}") S := by
  have h : ∃ S', Ends squareEnv c!"<math/>" [] (.ok (.str c!"x^{2}") S') := by
    rw [C79_returns]
    have h := C05_accepted_never_repaired squareEnv c!"<math/>" _ rfl
    rw [h, docResult_eq]
    decide +kernel
  obtain ⟨S', h⟩ := h
  obtain ⟨k, hk⟩ := C85_high_limit squareEnv (.parserOther 1) _ _ _ h
  exact ⟨k + 1, C85_low_limit _ _ _ _ _ (by omega), S', hk _ (by omega) _ (Nat.le_refl _)⟩

/-- With room for three objects the constructor of the fourth is stopped. -/
example (env : Env) : ∃ k, ∀ n, k ≤ n → ∃ L, attempt env (.parserOther 2) (memoryLimit 3) n c!"<math/>" [] =
    .exc (.exc (.parserOther 2)) L ∧ L.length = 4 := by
  refine ⟨6, fun n hn => ?_⟩
  obtain ⟨n, rfl⟩ : ∃ m, n = m + 6 := ⟨n - 6, by omega⟩
  exact ⟨_, rfl, rfl⟩

end Verif.Src
