import Verif.Lemmas.Faults
import Verif.Props.Stack

/-!
# C68: faults in the middle of a call
-/

namespace Verif
open Verif.Spec Verif.Stack

theorem faulty_local (m : Machine) (env : Env) (x : Str) (o : Faults) (t : Nat) (h : Heap) :
    t ≤ (faulty m env x o t h).2.1 ∧
      (∀ o', (∀ i, t ≤ i → i < (faulty m env x o t h).2.1 → o' i = o i) →
        faulty m env x o' t h = faulty m env x o t h) ∧
      ∀ i f, t ≤ i → i < (faulty m env x o t h).2.1 → o i = some f → f.exception = false →
        (faulty m env x o t h).1 = .error (.fault f) ∧ (faulty m env x o t h).2.1 = i + 1 := by
  obtain ⟨B, hB⟩ : ∃ B, ∀ d, ParsesTo env x d → levelsAll d ≤ B := by
    by_cases hd : ∃ d, ParsesTo env x d
    · obtain ⟨d, hd⟩ := hd
      exact ⟨levelsAll d, fun d' h' => by rw [h'.unique hd]; exact Nat.le_refl _⟩
    · exact ⟨0, fun d h => absurd ⟨d, h⟩ hd⟩
  exact (safe_convert m env x o B (fun i y d hi hc hp => hB d ⟨i, y, hi, hc, hp⟩) t h).1

theorem faulty_safe (m : Machine) (env : Env) (x : Str) (o : Faults) (t : Nat) (h : Heap) :
    (faulty m env x o t h).1 = unlimited (convert env x) ∨
      ∃ s, (faulty m env x o t h).1 = .error s ∧ FaultError env x o s := by
  obtain ⟨B, hB⟩ : ∃ B, ∀ d, ParsesTo env x d → levelsAll d ≤ B := by
    by_cases hd : ∃ d, ParsesTo env x d
    · obtain ⟨d, hd⟩ := hd
      exact ⟨levelsAll d, fun d' h' => by rw [h'.unique hd]; exact Nat.le_refl _⟩
    · exact ⟨0, fun d h => absurd ⟨d, h⟩ hd⟩
  rcases (safe_convert m env x o B (fun i y d hi hc hp => hB d ⟨i, y, hi, hc, hp⟩) t h).2 with
    ⟨s, r, hs, he⟩ | hr
  · refine .inr ⟨s, ?_, he⟩
    unfold faulty
    rw [hs]
  · left
    rw [← unlimited_convert env x h]
    unfold faulty
    generalize Stack.convert (F := FM) m env x o t h = rx at hr ⊢
    generalize ((ofE (mathmlElements env 5 none (prep x)).1 >>= fun nodes =>
      renderNodes nodes : M Str) h) = ry at hr ⊢
    cases hr with
    | ok e => rw [e]; rfl
    | error => rfl

/-- **C68** Whatever faults happen, in whatever moments of a call, the call does what it does without
faults, or it raises one of the faults that happened while it was running, or a fault of this kind
that is an `Exception` used up one of the five attempts and the call raises the complaint of the parser
about one of the first four texts. -/
theorem C68_faults (m : Machine) (env : Env) (x : Str) (o : Faults) (t : Nat) (h : Heap) :
    (faulty m env x o t h).1 = unlimited (convert env x) ∨
      ∃ i f, t ≤ i ∧ i < (faulty m env x o t h).2.1 ∧ o i = some f ∧
        ((faulty m env x o t h).1 = .error (.fault f) ∨
          f.exception = true ∧ ∃ n y e, n < 4 ∧ Consulted env x n y ∧
            env.parse y = .error e ∧ (faulty m env x o t h).1 = .error (.raised e.toExc)) := by
  have hw := (faulty_local m env x o t h).2.1
    (fun i => if t ≤ i ∧ i < (faulty m env x o t h).2.1 then o i else none)
    fun i h1 h2 => if_pos ⟨h1, h2⟩
  have key : ∀ i f, (if t ≤ i ∧ i < (faulty m env x o t h).2.1 then o i else none) = some f →
      t ≤ i ∧ i < (faulty m env x o t h).2.1 ∧ o i = some f := by
    intro i f hf
    split at hf
    · next hc => exact ⟨hc.1, hc.2, hf⟩
    · cases hf
  rcases faulty_safe m env x _ t h with h' | ⟨s, hs, he⟩
  · left
    rw [← h', hw]
  · rw [hw] at hs
    cases he with
    | fault h =>
      obtain ⟨h1, h2, h3⟩ := key _ _ h
      exact .inr ⟨_, _, h1, h2, h3, .inl hs⟩
    | late h hx h4 hc hp =>
      obtain ⟨h1, h2, h3⟩ := key _ _ h
      exact .inr ⟨_, _, h1, h2, h3, .inr ⟨hx, _, _, _, h4, hc, hp, hs⟩⟩

/-- **C68** A result is the right result. -/
theorem C68_no_wrong_result (m : Machine) (env : Env) (x : Str) (o : Faults) (t : Nat) (h : Heap) (s : Str)
    (hs : (faulty m env x o t h).1 = .ok s) : convert env x = .ok s := by
  rcases C68_faults m env x o t h with h1 | ⟨_, _, _, _, _, h1 | ⟨_, _, _, _, _, _, _, h1⟩⟩
  · rw [hs] at h1
    cases hc : convert env x with
    | ok s' => rw [hc] at h1; cases h1; rfl
    | error e => rw [hc] at h1; cases h1
  · rw [hs] at h1; cases h1
  · rw [hs] at h1; cases h1

/-- **C68** Control-C and other faults that are no `Exception` end the call at once. -/
theorem C68_interrupts (m : Machine) (env : Env) (x : Str) (o : Faults) (t : Nat) (h : Heap) (i : Nat) (f : Fault)
    (h1 : t ≤ i) (h2 : i < (faulty m env x o t h).2.1) (ho : o i = some f) (hf : f.exception = false) :
    (faulty m env x o t h).1 = .error (.fault f) ∧ (faulty m env x o t h).2.1 = i + 1 :=
  (faulty_local m env x o t h).2.2 i f h1 h2 ho hf

/-- **C68** If all faults are of this kind, a call that does not do what it does without faults raises
one of them. -/
theorem C68_only_interrupts (m : Machine) (env : Env) (x : Str) (o : Faults) (t : Nat) (h : Heap)
    (ho : ∀ i f, o i = some f → f.exception = false) :
    (faulty m env x o t h).1 = unlimited (convert env x) ∨
      ∃ i f, o i = some f ∧ (faulty m env x o t h).1 = .error (.fault f) := by
  rcases C68_faults m env x o t h with h | ⟨i, f, _, _, h1, h | ⟨h2, _⟩⟩
  · exact .inl h
  · exact .inr ⟨i, f, h1, h⟩
  · rw [ho i f h1] at h2; cases h2

/-- **C68** The same for all faults, if the parser accepts the text at once. -/
theorem C68_accepted (m : Machine) (env : Env) (x : Str) (o : Faults) (t : Nat) (h : Heap) (d : Doc)
    (hd : env.parse (prep x) = .ok d) :
    (faulty m env x o t h).1 = unlimited (docResult d) ∨
      ∃ i f, o i = some f ∧ (faulty m env x o t h).1 = .error (.fault f) := by
  have hp : ParsesTo env x d := ⟨0, _, by decide, .first, hd⟩
  rw [← hp.convert]
  rcases C68_faults m env x o t h with h | ⟨i, f, _, _, h1, h | ⟨_, n, y, e, _, hc, he, _⟩⟩
  · exact .inl h
  · exact .inr ⟨i, f, h1, h⟩
  · exfalso
    rcases Nat.eq_zero_or_pos n with rfl | hn
    · rw [hc.unique .first, hd] at he
      cases he
    · obtain ⟨z, e', hz, he'⟩ := consulted_failed hc 0 hn
      rw [hz.unique .first, hd] at he'
      cases he'

/-- **C68** A call during which no fault happens does what it always does, whatever happened before. -/
theorem C68_unharmed (m : Machine) (env : Env) (x : Str) (o : Faults) (t : Nat) (h : Heap)
    (ho : ∀ i, t ≤ i → i < (faulty m env x o t h).2.1 → o i = none) :
    (faulty m env x o t h).1 = unlimited (convert env x) := by
  rcases C68_faults m env x o t h with h' | ⟨i, f, h1, h2, h3, _⟩
  · exact h'
  · rw [ho i h1 h2] at h3
    cases h3

theorem history_call (m : Machine) (env : Env) (o : Faults) {c : Call} :
    ∀ (xs : List Str) (t : Nat) (h : Heap), c ∈ history m env o xs t h →
      ∃ h', c.outcome = (faulty m env c.text o c.begins h').1 ∧
        c.ends = (faulty m env c.text o c.begins h').2.1
  | [], _, _, hc => by cases hc
  | x :: xs, t, h, hc => by
    rcases List.mem_cons.1 hc with rfl | hc
    · exact ⟨h, rfl, rfl⟩
    · exact history_call m env o xs _ _ hc

/-- **C68** A history has a call for every text. -/
theorem C68_calls (m : Machine) (env : Env) (o : Faults) :
    ∀ (xs : List Str) (t : Nat) (h : Heap), (history m env o xs t h).map (·.text) = xs
  | [], _, _ => rfl
  | x :: xs, t, h => by
    show x :: (history m env o xs _ _).map _ = _
    rw [C68_calls m env o xs]

/-- **C68** In every history of calls, however many of them failed and wherever, a call that returns
returns what it returns on its own, and a call during which no fault happens does what it does on its
own: failed calls leave no trace. -/
theorem C68_history (m : Machine) (env : Env) (o : Faults) (xs : List Str) (t : Nat) (h : Heap) (c : Call)
    (hc : c ∈ history m env o xs t h) :
    (∀ s, c.outcome = .ok s → convert env c.text = .ok s) ∧
    ((∀ i, c.begins ≤ i → i < c.ends → o i = none) → c.outcome = unlimited (convert env c.text)) := by
  obtain ⟨h', h1, h2⟩ := history_call m env o xs t h hc
  rw [h1, h2]
  exact ⟨C68_no_wrong_result m env c.text o c.begins h',
    C68_unharmed m env c.text o c.begins h'⟩

/-- A time limit that strikes in one moment. -/
def Spec.strike (i : Nat) (exception : Bool) : Faults :=
  fun j => if j = i then some ⟨0, exception⟩ else none

/-- A parser that knows one formula. -/
def oneEnv : Env := ⟨fun _ => .ok [.elem c!"math" [] [.elem c!"mi" [] [.text c!"x"]]], isAsciiAlnum⟩

/-- **C68** An exception raised by a signal handler while the text is parsed is swallowed: the call
goes on and returns its result, whereas Control-C in the same moment ends it. -/
theorem C68_swallowed : ∃ (m : Machine) (env : Env) (x s : Str) (i : Nat),
    (faulty m env x (strike i true) 0 Heap.empty).1 = .ok s ∧
    (faulty m env x (strike i false) 0 Heap.empty).1 = .error (.fault ⟨0, false⟩) :=
  ⟨⟨true, 0⟩, oneEnv, c!"<math><mi>x</mi></math>", c!"x", 15, by decide +kernel, by decide +kernel⟩

/-- A parser that reports the first one of four attributes without a value. -/
def fourEnv : Env :=
  ⟨fun s => match List.lookup s [(c!"<v a=><w b=><x c=><y d=>", 5), (c!"<v ><w b=><x c=><y d=>", 9),
    (c!"<v ><w ><x c=><y d=>", 13), (c!"<v ><w ><x ><y d=>", 17)] with
    | some o => .error (.expat 4 1 o)
    | none => .ok [], fun c => isAsciiAlnum c⟩

/-- **C68** A swallowed exception costs an attempt: a text that is repaired and converted otherwise
is then rejected with a syntax error. -/
theorem C68_attempt_lost : ∃ (m : Machine) (env : Env) (x : Str) (i : Nat),
    convert env x = .ok [] ∧ (faulty m env x (strike i true) 0 Heap.empty).1 = .error (.raised (.expat 4 1 17)) :=
  ⟨⟨true, 0⟩, fourEnv, c!"<v a=><w b=><x c=><y d=>", 15, by decide +kernel, by decide +kernel⟩

/-- The first of two calls is interrupted, the second is not. -/
example : (history ⟨true, 0⟩ oneEnv (strike 40 false) [c!"<math><mi>x</mi></math>", c!"<math><mi>x</mi></math>"]
    0 Heap.empty).map (fun c => (c.begins, c.outcome)) =
      [(0, .error (.fault ⟨0, false⟩)), (41, .ok c!"x")] := by decide +kernel

example : fourEnv.parse c!"<v a=><w b=><x c=><y d=>" = .error (.expat 4 1 5) := rfl

end Verif
