import Verif.Lemmas.StackApi

/-!
# The reading with a limit on nested calls
-/

namespace Verif.Stack
open Verif.Spec

/-- The same outcome, the results being related by `R`. -/
inductive Same {α β : Type} (R : α → β → Prop) : Except Stop α × Heap → Except Exc β × Heap → Prop
  | ok {a b h} : R a b → Same R (.ok a, h) (.ok b, h)
  | error {e h} : Same R (.error (.raised e), h) (.error e, h)

/-- Started with enough activations, at most `k`, the limited computation `x` does what `y` does;
with fewer than it needs it raises `RecursionError`. -/
def FitsL {α β : Type} (R : α → β → Prop) (k : Nat) (x : LM α) (y : M β) : Prop :=
  ∀ h, ∃ t r, t ≤ k ∧ (∀ n, t ≤ n → x n h = r) ∧
    (∀ n, n < t → (x n h).1 = .error .recursion) ∧ Same R r (y h)

theorem bind_ok {α β : Type} {x : LM α} {f : α → LM β} {n : Nat} {h h' : Heap} {a : α}
    (hx : x n h = (.ok a, h')) : (x >>= f) n h = f a n h' := by
  show (match x n h with | (.ok a, h') => f a n h' | (.error s, h') => (.error s, h')) = _
  rw [hx]

theorem bind_error {α β : Type} {x : LM α} {f : α → LM β} {n : Nat} {h h' : Heap} {s : Stop}
    (hx : x n h = (.error s, h')) : (x >>= f) n h = (.error s, h') := by
  show (match x n h with | (.ok a, h') => f a n h' | (.error s, h') => (.error s, h')) = _
  rw [hx]

theorem bind_recursion {α β : Type} {x : LM α} {f : α → LM β} {n : Nat} {h : Heap}
    (hx : (x n h).1 = .error .recursion) : ((x >>= f) n h).1 = .error .recursion := by
  cases hr : x n h with
  | mk r h' =>
    rw [hr] at hx
    dsimp only at hx
    subst hx
    rw [bind_error hr]

namespace FitsL
variable {α β γ δ : Type} {R : α → β → Prop} {R' : γ → δ → Prop} {k k' : Nat}

theorem mono {x : LM α} {y : M β} (h : FitsL R k x y) (hk : k ≤ k') : FitsL R k' x y := by
  intro hp
  obtain ⟨t, r, ht, h1, h2, h3⟩ := h hp
  exact ⟨t, r, Nat.le_trans ht hk, h1, h2, h3⟩

theorem pure {a : α} {b : β} (h : R a b) : FitsL R k (Pure.pure a : LM α) (Pure.pure b : M β) :=
  fun hp => ⟨0, (.ok a, hp), Nat.zero_le _, fun _ _ => rfl, fun _ hn => absurd hn (Nat.not_lt_zero _),
    .ok h⟩

theorem throw {e : Exc} : FitsL R k (throwL (.raised e)) (MonadExcept.throw e : M β) :=
  fun _ => ⟨0, _, Nat.zero_le _, fun _ _ => rfl, fun _ hn => absurd hn (Nat.not_lt_zero _), .error⟩

theorem bind {x : LM α} {y : M β} {f : α → LM γ} {g : β → M δ} (hx : FitsL R k x y)
    (hf : ∀ a b, R a b → FitsL R' k (f a) (g b)) : FitsL R' k (x >>= f) (y >>= g) := by
  intro h
  obtain ⟨t, r, ht, h1, h2, h3⟩ := hx h
  generalize hy : y h = ry at h3
  cases h3 with
  | @ok a b h' hR =>
    have e : (y >>= g) h = g b h' := by
      have : (y >>= g) h = ExceptT.bindCont g (y h).1 (y h).2 := rfl
      rw [this, hy]
      rfl
    obtain ⟨t', r', ht', h1', h2', h3'⟩ := hf a b hR h'
    refine ⟨max t t', r', by omega, fun n hn => ?_, fun n hn => ?_, e ▸ h3'⟩
    · rw [bind_ok (h1 n (by omega)), h1' n (by omega)]
    · by_cases hl : n < t
      · exact bind_recursion (h2 n hl)
      · rw [bind_ok (h1 n (by omega))]
        exact h2' n (by omega)
  | @error e h' =>
    have e' : (y >>= g) h = (.error e, h') := by
      have : (y >>= g) h = ExceptT.bindCont g (y h).1 (y h).2 := rfl
      rw [this, hy]
      rfl
    exact ⟨t, _, ht, fun n hn => bind_error (h1 n hn), fun n hn => bind_recursion (h2 n hn),
      e' ▸ .error⟩

theorem call {x : LM α} {y : M β} (hx : FitsL R k x y) : FitsL R (k + 1) (call x) y := by
  intro h
  obtain ⟨t, r, ht, h1, h2, h3⟩ := hx h
  refine ⟨t + 1, r, by omega, fun n hn => ?_, fun n hn => ?_, h3⟩
  · obtain ⟨n, rfl⟩ : ∃ n', n = n' + 1 := ⟨n - 1, by omega⟩
    exact h1 n (by omega)
  · cases n with
    | zero => rfl
    | succ n => exact h2 n (by omega)

theorem val {x : LM α} {a : α} (hx : FitsL Eq k x (Pure.pure a)) (h : Heap) :
    ∃ t, t ≤ k ∧ (∀ n, t ≤ n → x n h = (.ok a, h)) ∧
      (∀ n, n < t → (x n h).1 = .error .recursion) := by
  obtain ⟨t, r, ht, h1, h2, h3⟩ := hx h
  have h3 : Same Eq r (.ok a, h) := h3
  cases h3 with
  | ok e => exact ⟨t, ht, e ▸ h1, h2⟩

/-- A step that only computes a value. -/
theorem step {x : LM α} {a : α} {f : α → LM γ} {y : M δ} (hx : FitsL Eq k x (Pure.pure a))
    (hf : FitsL R' k (f a) y) : FitsL R' k (x >>= f) y := by
  intro h
  obtain ⟨t, ht, h1, h2⟩ := hx.val h
  obtain ⟨t', r', ht', h1', h2', h3'⟩ := hf h
  refine ⟨max t t', r', by omega, fun n hn => ?_, fun n hn => ?_, h3'⟩
  · rw [bind_ok (h1 n (by omega)), h1' n (by omega)]
  · by_cases hl : n < t
    · exact bind_recursion (h2 n hl)
    · rw [bind_ok (h1 n (by omega))]
      exact h2' n (by omega)

theorem lib (m : Machine) (hk : m.lib ≤ k) : FitsL Eq k (Stack.lib m) (Pure.pure ()) :=
  fun h => ⟨m.lib, (.ok (), h), hk, fun n hn => if_neg (by omega), fun n hn => by
    show (if n < m.lib then _ else _ : Except Stop Unit × Heap).1 = _
    rw [if_pos hn], .ok rfl⟩

end FitsL

instance : Simulates LM where
  Fits := FitsL
  mono := FitsL.mono
  imp {_ _ _ _ _ _ y} h hR := fun hp => by
    obtain ⟨t, r, ht, h1, h2, h3⟩ := h hp
    refine ⟨t, r, ht, h1, h2, ?_⟩
    generalize hy : y hp = ry at h3
    cases h3 with
    | ok h => exact .ok (hR _ _ _ _ hy h)
    | error => exact .error
  pure := FitsL.pure
  throw := FitsL.throw
  bind := FitsL.bind
  call := FitsL.call
  step := FitsL.step
  heap _ := fun _ => ⟨0, _, Nat.zero_le _, fun _ _ => rfl,
    fun _ hn => absurd hn (Nat.not_lt_zero _), .ok rfl⟩
  lib := FitsL.lib

/-- `Fits` for the reading with a limit. -/
theorem fitsL {α β : Type} {R : α → β → Prop} {k : Nat} {x : LM α} {y : M β} (h : Fits R k x y) :
    FitsL R k x y := h


variable {k : Nat} (m : Machine)

/-! ## The attempts -/

theorem tryL_ok {α : Type} {x : LM α} {f : Stop → LM α} {n : Nat} {h h' : Heap} {a : α}
    (hx : x n h = (.ok a, h')) : (tryL x f : LM α) n h = (.ok a, h') := by
  show (match x n h with
    | (.ok a, h') => ((.ok a, h') : Except Stop α × Heap)
    | (.error s, h') => f s n h') = _
  rw [hx]

theorem tryL_error {α : Type} {x : LM α} {f : Stop → LM α} {n : Nat} {h h' : Heap} {s : Stop}
    (hx : x n h = (.error s, h')) : (tryL x f : LM α) n h = f s n h' := by
  show (match x n h with
    | (.ok a, h') => ((.ok a, h') : Except Stop α × Heap)
    | (.error s, h') => f s n h') = _
  rw [hx]

theorem fits_error_bind {α β γ δ : Type} {R : α → β → Prop} {R' : γ → δ → Prop} {x : LM α}
    {f : α → LM γ} {e : Exc} (hx : Fits (F := LM) R k x (ofE (.error e))) :
    Fits (F := LM) R' k (x >>= f) (ofE (.error e)) := by
  intro h
  obtain ⟨t, r, ht, h1, h2, h3⟩ := hx h
  generalize hy : (ofE (.error e) : M β) h = ry at h3
  cases h3 with
  | ok _ => cases hy
  | error =>
    cases hy
    exact ⟨t, _, ht, fun n hn => bind_error (h1 n hn), fun n hn => bind_recursion (h2 n hn), .error⟩

/-- Computations that have nothing to do with the heap. -/
def Steady {α : Type} (x : LM α) : Prop := ∀ n, ∃ r, ∀ h, x n h = (r, h)

theorem Steady.pure {α : Type} (a : α) : Steady (Pure.pure a : LM α) := fun _ => ⟨_, fun _ => rfl⟩

theorem Steady.throw {α : Type} (s : Stop) : Steady (throwL s : LM α) := fun _ => ⟨_, fun _ => rfl⟩

theorem Steady.bind {α β : Type} {x : LM α} {f : α → LM β} (hx : Steady x)
    (hf : ∀ a, Steady (f a)) : Steady (x >>= f) := by
  intro n
  obtain ⟨r, hr⟩ := hx n
  cases r with
  | error s => exact ⟨_, fun h => bind_error (hr h)⟩
  | ok a =>
    obtain ⟨r', hr'⟩ := hf a n
    exact ⟨r', fun h => by rw [bind_ok (hr h), hr']⟩

theorem Steady.call {α : Type} {x : LM α} (hx : Steady x) : Steady (call x) := by
  intro n
  cases n with
  | zero => exact ⟨_, fun _ => rfl⟩
  | succ n => exact hx n

theorem Steady.lib : Steady (lib m) := fun n => by
  by_cases h : n < m.lib
  · exact ⟨_, fun _ => if_pos h⟩
  · exact ⟨_, fun _ => if_neg h⟩

mutual
theorem steady_searchNode : ∀ (n : Node), Steady (searchNode n)
  | .elem tag attrs cs => by
    unfold searchNode
    exact (steady_searchNodes cs).call
  | .text d => (Steady.pure _).call
  | .cdata d => (Steady.pure _).call
  | .comment d => (Steady.pure _).call
  | .pi t d => (Steady.pure _).call
theorem steady_searchNodes : ∀ (ns : List Node), Steady (searchNodes ns)
  | [] => Steady.pure _
  | n :: ns => by
    unfold searchNodes
    exact (steady_searchNode n).bind fun _ => (steady_searchNodes ns).bind fun _ => Steady.pure _
end

theorem steady_attempt (env : Env) (xml : Str) : Steady (attempt m env xml) := by
  refine (Steady.lib m).bind fun _ => ?_
  split
  · exact Steady.throw _
  · exact (steady_searchNodes _).call.call

/-- When the attempt runs out of activations, so do the others, and `RecursionError` is raised at
the end. -/
theorem retry_recursion (env : Env) (xml : Str) {n : Nat}
    (hx : ∀ h, (attempt (F := LM) m env xml n h).1 = .error .recursion) : ∀ (j : Nat) (h : Heap),
    (mathmlElements (F := LM) m env j (some .recursion) xml n h).1 = .error .recursion
  | 0, _ => rfl
  | j + 1, h => by
    unfold mathmlElements
    cases ha : attempt (F := LM) m env xml n h with
    | mk r h' =>
      have := hx h
      rw [ha] at this
      dsimp only at this
      subst this
      rw [tryL_error ha]
      match n, hx with
      | 0, _ => rfl
      | 1, _ => rfl
      | n + 2, hx => exact retry_recursion env xml hx j h'

theorem fits_mathmlElements (env : Env) (x : Str) (B : Nat)
    (hB : ∀ i y d, i < 5 → Consulted env x i y → env.parse y = .ok d → levelsAll d ≤ B)
    (hk : B + 3 ≤ k) (hk' : m.lib + 5 ≤ k) : ∀ (n i : Nat) (y : Str) (exc : Option Exc),
    i + n = 5 → Consulted env x i y →
    Fits (F := LM) (fun a b => a = b ∧ levelsAll a ≤ B) k (mathmlElements m env n (exc.map .raised) y)
      (ofE (Verif.mathmlElements env n exc y).1)
  | 0, i, y, none, _, _ => Fits.pure ⟨rfl, Nat.zero_le _⟩
  | 0, i, y, some e, _, _ => Fits.throw
  | n + 1, i, y, exc, hi, hc => by
    have ha := fits_attempt (F := LM) (k := k) m env y B (fun d => hB i y d (by omega) hc) hk (by omega)
    have hs := steady_attempt m env y
    intro h
    obtain ⟨t, r, ht, h1, h2, h3⟩ := ha h
    have hrec : ∀ n', n' < t →
        (mathmlElements (F := LM) m env (n + 1) (exc.map .raised) y n' h).1 = .error .recursion := by
      intro n' hn'
      have hx : ∀ h, (attempt (F := LM) m env y n' h).1 = .error .recursion := by
        obtain ⟨r, hr⟩ := hs n'
        have := h2 n' hn'
        rw [hr h] at this
        intro h
        rw [hr h]
        exact this
      exact retry_recursion m env y hx (n + 1) h
    unfold Verif.mathmlElements
    cases hp : env.parse y with
    | ok d =>
      rw [hp] at h3
      dsimp only at h3 ⊢
      refine ⟨t, r, ht, fun n' hn' => ?_, hrec, h3⟩
      unfold mathmlElements
      have h1 := h1 n' hn'
      generalize hy : (ofE (.ok (mathElements d)) : M (List Node)) h = ry at h3
      cases h3 with
      | ok => rw [tryL_ok h1]
      | error => cases hy
    | error e =>
      rw [hp] at h3
      dsimp only at h3 ⊢
      have hr : r = (.error (.raised e.toExc), h) := by
        generalize hy : (ofE (.error e.toExc) : M (List Node)) h = ry at h3
        cases h3 with
        | ok _ => cases hy
        | error => cases hy; rfl
      subst hr
      have hh : Fits (F := LM) (fun a b => a = b ∧ levelsAll a ≤ B) k
          (do
            let xml' ← call (fixError m env y (.raised e.toExc))
            mathmlElements m env n (some (.raised e.toExc)) xml')
          (ofE (match Verif.fixError env y e with
            | .error e' => ((.error e', y) : Except Exc (List Node) × Str)
            | .ok xml' => Verif.mathmlElements env n (some e.toExc) xml').1) := by
        have hf := Fits.call' (F := LM) (k := k) (by omega) (fits_fixError m env y e (by omega))
        cases hz : Verif.fixError env y e with
        | error e' =>
          rw [hz] at hf
          exact fits_error_bind hf
        | ok z =>
          rw [hz] at hf
          exact Fits.step hf (fits_mathmlElements env x B hB hk hk' n (i + 1) z (some e.toExc)
            (by omega) (.next hc hp ((fixError_ok hc.noLF).1 hz)))
      obtain ⟨t', r', ht', h1', h2', h3'⟩ := hh h
      refine ⟨max t t', r', by omega, fun n' hn' => ?_, fun n' hn' => ?_, h3'⟩
      · unfold mathmlElements
        rw [tryL_error (h1 n' (by omega))]
        exact h1' n' (by omega)
      · by_cases hl : n' < t
        · exact hrec n' hl
        · unfold mathmlElements
          rw [tryL_error (h1 n' (by omega))]
          exact h2' n' (by omega)

/-! ## The whole call -/

theorem fits_convert (env : Env) (x : Str) (B : Nat)
    (hB : ∀ i y d, i < 5 → Consulted env x i y → env.parse y = .ok d → levelsAll d ≤ B) :
    Fits (F := LM) Eq (per m * B + m.lib + 8) (convert m env x)
      (ofE (Verif.mathmlElements env 5 none (prep x)).1 >>= fun nodes => renderNodes nodes) := by
  have hB2 : 2 * B ≤ per m * B := Nat.mul_le_mul_right _ (by have := per_cases m; omega)
  exact fits_convert_of m env x B
    (fits_mathmlElements m env x B hB (by omega) (by omega) 5 0 (prep x) none rfl .first)

/-! ## What is needed at least -/

/-- Fewer activations are not enough. -/
def Needs {α : Type} (k : Nat) (x : LM α) : Prop :=
  ∀ n h, n < k → (x n h).1 = .error .recursion

theorem Needs.call {α : Type} {x : LM α} (hx : Needs k x) : Needs (k + 1) (call x) := by
  intro n h hn
  cases n with
  | zero => rfl
  | succ n => exact hx n h (by omega)

theorem Needs.mono {α : Type} {x : LM α} {k' : Nat} (hx : Needs k x) (hk : k' ≤ k) : Needs k' x :=
  fun n h hn => hx n h (by omega)

theorem Needs.left {α β : Type} {x : LM α} {f : α → LM β} (hx : Needs k x) : Needs k (x >>= f) :=
  fun n h hn => bind_recursion (hx n h hn)

/-- A computation that can only run out of activations, with this result otherwise. -/
def Only {α : Type} (P : α → Prop) (x : LM α) : Prop :=
  ∀ n h, (x n h).1 = .error .recursion ∨ ∃ a h', x n h = (.ok a, h') ∧ P a

theorem Needs.right {α β : Type} {x : LM α} {f : α → LM β} {P : α → Prop} (hx : Only P x)
    (hf : ∀ a, P a → Needs k (f a)) : Needs k (x >>= f) := by
  intro n h hn
  rcases hx n h with hr | ⟨a, h', ha, hp⟩
  · exact bind_recursion hr
  · rw [bind_ok ha]
    exact hf a hp n h' hn

theorem Fits.only {α β : Type} {R : α → β → Prop} {x : LM α} {y : M β} {P : α → Prop}
    (h : Fits (F := LM) R k x y) (hy : ∀ h e, (y h).1 ≠ .error e)
    (hP : ∀ a b h, R a b → (y h).1 = .ok b → P a) : Only P x := by
  intro n hp
  obtain ⟨t, r, ht, h1, h2, h3⟩ := h hp
  by_cases hn : n < t
  · exact .inl (h2 n hn)
  · right
    rw [h1 n (by omega)]
    generalize hr : y hp = ry at h3
    cases h3 with
    | ok hR => exact ⟨_, _, rfl, hP _ _ hp hR (by rw [hr])⟩
    | error => exact absurd (by rw [hr]) (hy hp _)

theorem needs_leaf {α : Type} (a : α) : Needs 1 (leaf a) := fun n _ hn => by
  obtain rfl : n = 0 := by omega
  rfl

theorem needs_comp {α : Type} {x : LM α} (hx : Needs k x) : Needs (k + per m - 2) (comp m x) := by
  unfold comp per
  split
  · exact hx.call
  · exact hx

theorem leaf_only {α : Type} (a : α) : Only (fun b => b = a) (leaf a) := by
  intro n h
  cases n with
  | zero => exact .inl rfl
  | succ n => exact .inr ⟨a, h, rfl, rfl⟩

theorem Only.call {α : Type} {P : α → Prop} {x : LM α} (h : Only P x) : Only P (call x) := by
  intro n hp
  cases n with
  | zero => exact .inl rfl
  | succ n => exact h n hp

theorem Only.bind {α β : Type} {P : α → Prop} {Q : β → Prop} {x : LM α} {f : α → LM β}
    (hx : Only P x) (hf : ∀ a, P a → Only Q (f a)) : Only Q (x >>= f) := by
  intro n h
  rcases hx n h with hr | ⟨a, h', ha, hp⟩
  · exact .inl (bind_recursion hr)
  · rw [bind_ok ha]
    exact hf a hp n h'

theorem convertElementAttributes_only (attrs : List (Str × Str)) :
    Only (fun _ => True) (convertElementAttributes attrs) :=
  (leaf_only ()).bind fun _ _ => ((leaf_only ()).bind fun _ _ _ _ => .inr ⟨_, _, rfl, trivial⟩).call

theorem buildElem_only (n : Node) : Only (fun _ => True) (buildElem m n) :=
  Fits.only (fits_buildElem m n _ (Nat.le_refl _)) (fun _ _ h => by cases h) fun _ _ _ _ _ => trivial

mutual
theorem needs_buildElem : ∀ (n : Node), n.isElem = true →
    Needs (per m * levels n + 3 - per m) (buildElem m n)
  | .elem tag attrs cs, _ => by
    have hp := per_cases m
    rw [levels, Nat.mul_add, Nat.mul_one]
    unfold buildElem
    have h2 : Needs 2 (convertElementAttributes attrs) := by
      exact Needs.right (leaf_only ()) fun _ _ => ((needs_leaf ()).left).call
    by_cases hc : Verif.hasElementChild cs = true
    · have hL : 1 ≤ levelsAll cs := by
        obtain ⟨c, h1, h2⟩ := List.any_eq_true.1 hc
        cases c with
        | elem t a cs' =>
          have := levels_mem h1
          rw [levels] at this
          omega
        | _ => cases h2
      have hmul : per m ≤ per m * levelsAll cs := Nat.le_mul_of_pos_right _ hL
      have hrec : Needs (per m * levelsAll cs + 3 - per m) (buildElems m cs) := needs_buildElems cs hL
      refine Needs.mono (k := per m * levelsAll cs + 2 + 1) (Needs.call
        (Needs.right (convertElementAttributes_only attrs) fun r _ =>
          Needs.right (P := fun b => b = true) ?_ fun b hb => ?_)) (by omega)
      · rw [← hc]
        exact (leaf_only _).call
      · subst hb
        rw [if_pos rfl]
        refine Needs.right (P := fun _ => True) ?_ fun _ _ => ?_
        · exact Fits.only (fits_comp m (k := 1) (by omega) (Fits.pure (R := Eq) rfl))
            (fun _ _ h => by cases h) fun _ _ _ _ _ => trivial
        · exact (((needs_comp m hrec).call).mono (by omega)).left
    · refine (h2.left.call).mono ?_
      rw [levelsAll_none cs (by simpa using hc)]
      omega
theorem needs_buildElems : ∀ (ns : List Node), 1 ≤ levelsAll ns →
    Needs (per m * levelsAll ns + 3 - per m) (buildElems m ns)
  | [], h => by
    rw [levelsAll] at h
    omega
  | n :: ns, h => by
    rw [levelsAll] at h ⊢
    unfold buildElems
    by_cases hl : levelsAll ns ≤ levels n
    · rw [Nat.max_eq_left hl]
      refine (needs_buildElem n ?_).left
      cases n with
      | elem t a cs => rfl
      | _ =>
        simp [levels] at hl h
        omega
    · rw [Nat.max_eq_right (by omega)]
      exact Needs.right (buildElem_only m n) fun _ _ => (needs_buildElems ns (by omega)).left
end

end Verif.Stack
