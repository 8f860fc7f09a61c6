import Verif.Model.Surrogates
import Verif.Props.Adapter

/-! # Python strings with lone surrogates (C75) -/

namespace Verif
open Spec

theorem toStr?_ofStr (s : Str) : toStr? (ofStr s) = some s := by
  induction s with
  | nil => rfl
  | cons c s ih =>
    show (toStr? (ofStr s)).map (c :: ·) = _
    rw [ih]; rfl

theorem toStr?_none {x : PyStr} : toStr? x = none ↔ ∃ n, PyChar.lone n ∈ x := by
  induction x with
  | nil => simp [toStr?]
  | cons c x ih =>
    cases c with
    | char c => simp [toStr?, ih]
    | lone n => simp only [toStr?, true_iff]; exact ⟨n, List.mem_cons_self⟩

theorem ofStr_removeLineBreaksPy (s : Str) : removeLineBreaksPy (ofStr s) = ofStr (removeLineBreaks s) := by
  rw [removeLineBreaks_spec, removeLineBreaksPy, ofStr, ofStr, dropBreaks, List.filter_map]
  congr 1
  apply List.filter_congr
  intro c _
  have key : ∀ a b : Char, (PyChar.char a == PyChar.char b) = (a == b) := fun a b => by
    rw [Bool.eq_iff_iff]; simp
  simp only [Function.comp, bne, key]

theorem ofStr_removeMsWordPrefixesPy (s : Str) :
    removeMsWordPrefixesPy (ofStr s) = ofStr (removeMsWordPrefixes s) := by
  rw [removeMsWordPrefixes_spec]
  induction s using dropMml.induct with
  | case1 s ih => exact ih
  | case2 c s h ih =>
    rw [dropMml]
    · show removeMsWordPrefixesPy (.char c :: ofStr s) = .char c :: ofStr (dropMml s)
      rw [removeMsWordPrefixesPy, ih]
      intro s' hc hs
      injection hc with hc
      match s, hs with
      | [], hs => cases hs
      | [_], hs => simp [ofStr] at hs
      | [_, _], hs => simp [ofStr] at hs
      | a :: b :: d :: t, hs =>
        simp only [ofStr, List.map_cons, List.cons.injEq, PyChar.char.injEq] at hs
        obtain ⟨rfl, rfl, rfl, _⟩ := hs
        exact h t hc rfl
    · exact h
  | case3 => rfl

theorem lone_removeLineBreaksPy {x : PyStr} {n : Fin 2048} :
    PyChar.lone n ∈ removeLineBreaksPy x ↔ PyChar.lone n ∈ x := by
  simp [removeLineBreaksPy, bne]

theorem lone_removeMsWordPrefixesPy {x : PyStr} {n : Fin 2048} :
    PyChar.lone n ∈ removeMsWordPrefixesPy x ↔ PyChar.lone n ∈ x := by
  induction x using removeMsWordPrefixesPy.induct with
  | case1 s ih => rw [removeMsWordPrefixesPy, ih]; simp
  | case2 c s h ih =>
    rw [removeMsWordPrefixesPy]
    · simp [ih]
    · exact h
  | case3 => rfl

theorem mathmlElementsPy_ofStr (env : PyEnv) (n : Nat) (exc : Option Exc) (s : Str) :
    mathmlElementsPy env n exc (ofStr s) = (mathmlElements env.toEnv n exc s).1 := by
  induction n generalizing exc s with
  | zero => cases exc <;> rfl
  | succ n ih =>
    rw [mathmlElementsPy, mathmlElements, PyEnv.parsePy, toStr?_ofStr]
    dsimp only
    cases env.parse s with
    | ok d => rfl
    | error e =>
      cases e with
      | other i => exact ih _ _
      | expat c l o =>
        simp only [fixErrorPy, toStr?_ofStr, fixError]
        cases fixMissingAttribute env.toEnv c l o s with
        | error e' => rfl
        | ok s' => exact ih _ _

theorem mathmlElementsPy_lone (env : PyEnv) {x : PyStr} (h : toStr? x = none) (n : Nat) (exc : Option Exc) :
    mathmlElementsPy env (n + 1) exc x = .error (.parserOther env.encodeError) := by
  induction n generalizing exc with
  | zero => simp only [mathmlElementsPy, PyEnv.parsePy, h, fixErrorPy]; rfl
  | succ n ih =>
    rw [mathmlElementsPy]
    simp only [PyEnv.parsePy, h, fixErrorPy]
    exact ih _

/-- **C75** On strings without surrogates this is the model of the other theorems. -/
theorem C75_without (env : PyEnv) (x : Str) : convertPy env (ofStr x) = convert env.toEnv x := by
  rw [convertPy, convert, ofStr_removeLineBreaksPy, ofStr_removeMsWordPrefixesPy, mathmlElementsPy_ofStr]
  rfl

/-- **C75** A string with a surrogate, wherever it is, is never converted and never repaired: the encoding
error of the parser is raised. -/
theorem C75_lone (env : PyEnv) (x : PyStr) (n : Fin 2048) (h : PyChar.lone n ∈ x) :
    convertPy env x = .error (.parserOther env.encodeError) := by
  have : toStr? (removeMsWordPrefixesPy (removeLineBreaksPy x)) = none :=
    toStr?_none.2 ⟨n, lone_removeMsWordPrefixesPy.2 (lone_removeLineBreaksPy.2 h)⟩
  rw [convertPy, mathmlElementsPy_lone env this]

/-- **C75** So for every Python string: what the model without surrogates says, or this error. -/
theorem C75_every_string (env : PyEnv) (x : PyStr) :
    (∃ s, x = ofStr s ∧ convertPy env x = convert env.toEnv s) ∨
    ((∃ n, PyChar.lone n ∈ x) ∧ convertPy env x = .error (.parserOther env.encodeError)) := by
  by_cases h : ∃ n, PyChar.lone n ∈ x
  · obtain ⟨n, h⟩ := h
    exact .inr ⟨⟨n, h⟩, C75_lone env x n h⟩
  · left
    have : ∃ s, x = ofStr s := by
      clear env
      induction x with
      | nil => exact ⟨[], rfl⟩
      | cons c x ih =>
        obtain ⟨s, rfl⟩ := ih fun ⟨n, hn⟩ => h ⟨n, List.mem_cons_of_mem _ hn⟩
        cases c with
        | char c => exact ⟨c :: s, rfl⟩
        | lone n => exact absurd ⟨n, List.mem_cons_self⟩ h
    obtain ⟨s, rfl⟩ := this
    exact ⟨s, rfl, C75_without env s⟩

/-! ## Cases -/

example (env : PyEnv) : convertPy env (ofStr c!"<math><mi>" ++ .lone 5 :: ofStr c!"</mi></math>") =
    .error (.parserOther env.encodeError) := C75_lone env _ 5 (by simp)

end Verif
