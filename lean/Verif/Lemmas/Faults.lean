import Verif.Lemmas.StackApi
import Verif.Model.Faults

/-!
# The reading with faults
-/

namespace Verif.Stack
open Verif.Spec

/-- The same outcome, the results being related by `R`. -/
inductive SameF {α β : Type} (R : α → β → Prop) :
    Except Stop α × Nat × Heap → Except Exc β × Heap → Prop
  | ok {a b t h} : R a b → SameF R (.ok a, t, h) (.ok b, h)
  | error {e t h} : SameF R (.error (.raised e), t, h) (.error e, h)

/-- The run depends only on the faults between its beginning and its end, and a fault that is no
`Exception` ends it. -/
def Local {α : Type} (o : Faults) (x : FM α) (t : Nat) (h : Heap) : Prop :=
  t ≤ (x o t h).2.1 ∧
    (∀ o', (∀ i, t ≤ i → i < (x o t h).2.1 → o' i = o i) → x o' t h = x o t h) ∧
    ∀ i f, t ≤ i → i < (x o t h).2.1 → o i = some f → f.exception = false →
      (x o t h).1 = .error (.fault f) ∧ (x o t h).2.1 = i + 1

/-- With the faults `o`, the computation `x` does what `y` does or raises one of `E`. -/
def Safe {α β : Type} (o : Faults) (E : Stop → Prop) (R : α → β → Prop) (x : FM α) (y : M β) : Prop :=
  ∀ t h, Local o x t h ∧ ((∃ s r, x o t h = (.error s, r) ∧ E s) ∨ SameF R (x o t h) (y h))

section
variable {α β γ δ : Type} {R : α → β → Prop} {R' : γ → δ → Prop} {o : Faults} {E : Stop → Prop}

theorem bindF_ok {x : FM α} {f : α → FM γ} {t t' : Nat} {h h' : Heap} {a : α}
    (hx : x o t h = (.ok a, t', h')) : (x >>= f) o t h = f a o t' h' := by
  show (match x o t h with
    | (.ok a, t', h') => f a o t' h'
    | (.error s, t', h') => (.error s, t', h')) = _
  rw [hx]

theorem bindF_error {x : FM α} {f : α → FM γ} {t : Nat} {h : Heap} {r : Nat × Heap} {s : Stop}
    (hx : x o t h = (.error s, r)) : (x >>= f) o t h = (.error s, r) := by
  show (match x o t h with
    | (.ok a, t', h') => f a o t' h'
    | (.error s, t', h') => (.error s, t', h')) = _
  rw [hx]

theorem M_bind_ok {y : M β} {g : β → M δ} {h h' : Heap} {b : β} (hy : y h = (.ok b, h')) :
    (y >>= g) h = g b h' := by
  have : (y >>= g) h = ExceptT.bindCont g (y h).1 (y h).2 := rfl
  rw [this, hy]
  rfl

theorem M_bind_error {y : M β} {g : β → M δ} {h h' : Heap} {e : Exc} (hy : y h = (.error e, h')) :
    (y >>= g) h = (.error e, h') := by
  have : (y >>= g) h = ExceptT.bindCont g (y h).1 (y h).2 := rfl
  rw [this, hy]
  rfl

theorem Local.now {x : FM α} {t : Nat} {h : Heap} {r : Except Stop α} {h' : Heap}
    (hx : ∀ o, x o t h = (r, t, h')) : Local o x t h := by
  unfold Local
  rw [hx]
  exact ⟨Nat.le_refl _, fun o' _ => hx o', fun i _ h1 (h2 : i < t) => by omega⟩

theorem Local.bind_error {x : FM α} {f : α → FM γ} {t : Nat} {h : Heap} {r : Nat × Heap} {s : Stop}
    (hl : Local o x t h) (hx : x o t h = (.error s, r)) : Local o (x >>= f) t h := by
  unfold Local at hl ⊢
  rw [hx] at hl
  rw [bindF_error hx]
  refine ⟨hl.1, fun o' ho => bindF_error (hl.2.1 o' ho), fun i f h1 h2 h3 h4 => ?_⟩
  obtain ⟨h5, h6⟩ := hl.2.2 i f h1 h2 h3 h4
  cases h5
  exact ⟨rfl, h6⟩

theorem Local.bind_ok {x : FM α} {f : α → FM γ} {t t' : Nat} {h h' : Heap} {a : α}
    (hl : Local o x t h) (hx : x o t h = (.ok a, t', h')) (hf : Local o (f a) t' h') :
    Local o (x >>= f) t h := by
  unfold Local at hl hf ⊢
  rw [hx] at hl
  rw [bindF_ok hx]
  have h1 : t ≤ t' := hl.1
  refine ⟨by omega, fun o' ho => ?_, fun i f h1 h2 h3 h4 => ?_⟩
  · have hx' : x o' t h = (.ok a, t', h') := hl.2.1 o' fun i h1 (h2 : i < t') => ho i h1 (by omega)
    rw [bindF_ok hx']
    exact hf.2.1 o' fun i h1 h2 => ho i (by omega) h2
  · by_cases hi : i < t'
    · cases (hl.2.2 i f h1 hi h3 h4).1
    · exact hf.2.2 i f (by omega) h2 h3 h4

theorem Safe.bind {x : FM α} {y : M β} {f : α → FM γ} {g : β → M δ} (hx : Safe o E R x y)
    (hf : ∀ a b, R a b → Safe o E R' (f a) (g b)) : Safe o E R' (x >>= f) (y >>= g) := by
  intro t h
  obtain ⟨hl, hx⟩ := hx t h
  rcases hx with ⟨s, r, hs, he⟩ | hs
  · exact ⟨hl.bind_error hs, .inl ⟨s, r, bindF_error hs, he⟩⟩
  · generalize hx' : x o t h = rx at hs
    generalize hy : y h = ry at hs
    cases hs with
    | ok hab =>
      have hfa := hf _ _ hab
      refine ⟨hl.bind_ok hx' (hfa _ _).1, ?_⟩
      rw [bindF_ok hx', M_bind_ok hy]
      exact (hfa _ _).2
    | error =>
      refine ⟨hl.bind_error hx', ?_⟩
      rw [bindF_error hx', M_bind_error hy]
      exact .inr .error

theorem Safe.step {x : FM α} {a : α} {f : α → FM γ} {y : M δ}
    (hx : Safe o E Eq x (Pure.pure a : M α)) (hf : Safe o E R' (f a) y) : Safe o E R' (x >>= f) y := by
  intro t h
  obtain ⟨hl, hx⟩ := hx t h
  rcases hx with ⟨s, r, hs, he⟩ | hs
  · exact ⟨hl.bind_error hs, .inl ⟨s, r, bindF_error hs, he⟩⟩
  · generalize hx' : x o t h = rx at hs
    have hs : SameF Eq rx (.ok a, h) := hs
    cases hs with
    | ok hab =>
      subst hab
      refine ⟨hl.bind_ok hx' (hf _ _).1, ?_⟩
      rw [bindF_ok hx']
      exact (hf _ _).2

theorem safe_moment (hE : ∀ i f, o i = some f → E (.fault f)) :
    Safe o E Eq moment (Pure.pure () : M Unit) := by
  intro t h
  have hm : ∀ o : Faults, (moment o t h).2.1 = t + 1 := fun o => by unfold moment; cases o t <;> rfl
  refine ⟨⟨by rw [hm]; omega, fun o' ho => ?_, fun i f h1 h2 h3 h4 => ?_⟩, ?_⟩
  · have := ho t (Nat.le_refl _) (by rw [hm]; omega)
    unfold moment
    rw [this]
  · rw [hm] at h2
    have : i = t := by omega
    subst this
    unfold moment
    rw [h3]
    exact ⟨rfl, rfl⟩
  · unfold moment
    cases ho : o t with
    | none => exact .inr (.ok rfl)
    | some f => exact .inl ⟨_, _, rfl, hE t f ho⟩

theorem Safe.call (hE : ∀ i f, o i = some f → E (.fault f)) {x : FM α} {y : M β}
    (hx : Safe o E R x y) : Safe o E R (Reading.call x) y := by
  refine Safe.step (safe_moment hE) ?_
  have hm : ∀ a b, R a b → Safe o E R (moment >>= fun _ => (Pure.pure a : FM α)) (Pure.pure b : M β) :=
    fun a b hab => Safe.step (safe_moment hE)
      fun _ _ => ⟨Local.now fun _ => rfl, .inr (.ok hab)⟩
  intro t h
  have := Safe.bind hx hm t h
  have hy : (y >>= fun b => (Pure.pure b : M β)) h = y h := by
    have : (y >>= fun b => (Pure.pure b : M β)) h =
      ExceptT.bindCont (fun b => (Pure.pure b : M β)) (y h).1 (y h).2 := rfl
    rw [this]
    rcases y h with ⟨_ | _, _⟩ <;> rfl
  rwa [hy] at this

end

/-- `Fits` for the reading with faults. -/
@[reducible] def simulatesF (o : Faults) (E : Stop → Prop) (hE : ∀ i f, o i = some f → E (.fault f)) :
    Simulates FM where
  Fits R _ x y := Safe o E R x y
  mono h _ := h
  imp {_ _ _ _ _ x y} h hR := fun t hp => by
    obtain ⟨hl, hs⟩ := h t hp
    refine ⟨hl, ?_⟩
    rcases hs with hs | hs
    · exact .inl hs
    · right
      generalize x o t hp = rx at hs
      generalize hy : y hp = ry at hs
      cases hs with
      | ok h => exact .ok (hR _ _ _ _ hy h)
      | error => exact .error
  pure h := fun _ _ => ⟨Local.now fun _ => rfl, .inr (.ok h)⟩
  throw := fun _ _ => ⟨Local.now fun _ => rfl, .inr .error⟩
  bind := Safe.bind
  call := Safe.call hE
  step := Safe.step
  heap _ := fun _ _ => ⟨Local.now fun _ => rfl, .inr (.ok rfl)⟩
  lib _ _ := safe_moment hE

theorem tryF_ok {α : Type} {o : Faults} {x : FM α} {f : Stop → FM α} {t : Nat} {h : Heap}
    {r : Nat × Heap} {a : α} (hx : x o t h = (.ok a, r)) : (tryL x f : FM α) o t h = (.ok a, r) := by
  show (match x o t h with
    | (.ok a, t', h') => ((.ok a, t', h') : Except Stop α × Nat × Heap)
    | (.error s, t', h') => if s.caught then f s o t' h' else (.error s, t', h')) = _
  rw [hx]

theorem tryF_error {α : Type} {o : Faults} {x : FM α} {f : Stop → FM α} {t : Nat} {h : Heap}
    {r : Nat × Heap} {s : Stop} (hx : x o t h = (.error s, r)) :
    (tryL x f : FM α) o t h = if s.caught then f s o r.1 r.2 else (.error s, r) := by
  show (match x o t h with
    | (.ok a, t', h') => ((.ok a, t', h') : Except Stop α × Nat × Heap)
    | (.error s, t', h') => if s.caught then f s o t' h' else (.error s, t', h')) = _
  rw [hx]

theorem Safe.error_bind {α β γ δ : Type} {o : Faults} {E : Stop → Prop} {R : α → β → Prop}
    {R' : γ → δ → Prop} {x : FM α} {f : α → FM γ} {e : Exc} (hx : Safe o E R x (ofE (.error e))) :
    Safe o E R' (x >>= f) (ofE (.error e)) := by
  intro t h
  obtain ⟨hl, hx⟩ := hx t h
  rcases hx with ⟨s, r, hs, he⟩ | hs
  · exact ⟨hl.bind_error hs, .inl ⟨s, r, bindF_error hs, he⟩⟩
  · generalize hx' : x o t h = rx at hs
    generalize hy : (ofE (.error e) : M β) h = ry at hs
    cases hs with
    | ok _ => cases hy
    | error =>
      cases hy
      refine ⟨hl.bind_error hx', ?_⟩
      rw [bindF_error hx']
      exact .inr .error

theorem Local.try_ok {α : Type} {o : Faults} {x : FM α} {f : Stop → FM α} {t : Nat} {h : Heap}
    {r : Nat × Heap} {a : α} (hl : Local o x t h) (hx : x o t h = (.ok a, r)) :
    Local o (tryL x f) t h := by
  unfold Local at hl ⊢
  rw [hx] at hl
  rw [tryF_ok hx]
  exact ⟨hl.1, fun o' ho => tryF_ok (hl.2.1 o' ho), hl.2.2⟩

theorem Local.try_caught {α : Type} {o : Faults} {x : FM α} {f : Stop → FM α} {t : Nat} {h : Heap}
    {r : Nat × Heap} {s : Stop} (hl : Local o x t h) (hx : x o t h = (.error s, r))
    (hc : s.caught = true) (hf : Local o (f s) r.1 r.2) : Local o (tryL x f) t h := by
  unfold Local at hl hf ⊢
  rw [hx] at hl
  rw [tryF_error hx, if_pos hc]
  have h1 : t ≤ r.1 := hl.1
  refine ⟨by omega, fun o' ho => ?_, fun i f h1 h2 h3 h4 => ?_⟩
  · have hx' : x o' t h = (.error s, r) := hl.2.1 o' fun i h1 (h2 : i < r.1) => ho i h1 (by omega)
    rw [tryF_error hx', if_pos hc]
    exact hf.2.1 o' fun i h1 h2 => ho i (by omega) h2
  · by_cases hi : i < r.1
    · cases (hl.2.2 i f h1 hi h3 h4).1
      have hc : f.exception = true := hc
      rw [h4] at hc
      cases hc
    · exact hf.2.2 i f (by omega) h2 h3 h4

theorem Local.try_not {α : Type} {o : Faults} {x : FM α} {f : Stop → FM α} {t : Nat} {h : Heap}
    {r : Nat × Heap} {s : Stop} (hl : Local o x t h) (hx : x o t h = (.error s, r))
    (hc : ¬ s.caught = true) : Local o (tryL x f) t h := by
  unfold Local at hl ⊢
  rw [hx] at hl
  rw [tryF_error hx, if_neg hc]
  refine ⟨hl.1, fun o' ho => ?_, hl.2.2⟩
  rw [tryF_error (hl.2.1 o' ho), if_neg hc]

/-- Computations that leave the heap alone. -/
def SteadyF {α : Type} (x : FM α) : Prop := ∀ o t h, (x o t h).2.2 = h

theorem SteadyF.pure {α : Type} (a : α) : SteadyF (Pure.pure a : FM α) := fun _ _ _ => rfl

theorem SteadyF.throw {α : Type} (s : Stop) : SteadyF (throwL s : FM α) := fun _ _ _ => rfl

theorem SteadyF.moment : SteadyF moment := fun o t h => by
  unfold Stack.moment
  cases o t <;> rfl

theorem SteadyF.bind {α β : Type} {x : FM α} {f : α → FM β} (hx : SteadyF x)
    (hf : ∀ a, SteadyF (f a)) : SteadyF (x >>= f) := by
  intro o t h
  have h1 := hx o t h
  generalize hr : x o t h = r at h1
  obtain ⟨r, t', h'⟩ := r
  dsimp only at h1
  subst h1
  cases r with
  | ok a => rw [bindF_ok hr]; exact hf a o t' _
  | error s => rw [bindF_error hr]

theorem SteadyF.call {α : Type} {x : FM α} (hx : SteadyF x) : SteadyF (call x) :=
  SteadyF.moment.bind fun _ => hx.bind fun _ => SteadyF.moment.bind fun _ => SteadyF.pure _

mutual
theorem steadyF_searchNode : ∀ (n : Node), SteadyF (searchNode n)
  | .elem tag attrs cs => by
    unfold searchNode
    exact (steadyF_searchNodes cs).call
  | .text d => (SteadyF.pure _).call
  | .cdata d => (SteadyF.pure _).call
  | .comment d => (SteadyF.pure _).call
  | .pi t d => (SteadyF.pure _).call
theorem steadyF_searchNodes : ∀ (ns : List Node), SteadyF (searchNodes ns)
  | [] => SteadyF.pure _
  | n :: ns => by
    unfold searchNodes
    exact (steadyF_searchNode n).bind fun _ => (steadyF_searchNodes ns).bind fun _ => SteadyF.pure _
end

theorem steadyF_attempt (m : Machine) (env : Env) (xml : Str) : SteadyF (attempt m env xml) := by
  refine SteadyF.moment.bind fun _ => ?_
  split
  · exact SteadyF.throw _
  · exact (steadyF_searchNodes _).call.call

/-- The exceptions that faults can lead to: themselves and, if a fault that is an `Exception` used up
an attempt, the complaint of the parser about one of the first four texts. -/
inductive FaultError (env : Env) (x : Str) (o : Faults) : Stop → Prop
  | fault {i f} : o i = some f → FaultError env x o (.fault f)
  | late {i f n y e} : o i = some f → f.exception = true → n < 4 → Consulted env x n y →
      env.parse y = .error e → FaultError env x o (.raised e.toExc)

theorem safe_mathmlElements (m : Machine) (env : Env) (x : Str) (o : Faults) (B : Nat)
    (hB : ∀ i y d, i < 5 → Consulted env x i y → env.parse y = .ok d → levelsAll d ≤ B) :
    ∀ (n i : Nat) (y : Str) (s : Option Stop) (exc : Option Exc), Consulted env x i y → i ≤ 5 →
    (i + n = 5 ∧ s = exc.map .raised) ∨ (i + n < 5 ∧ (∃ j f, o j = some f ∧ f.exception = true) ∧
      ∃ s', s = some s' ∧ FaultError env x o s') →
    Safe o (FaultError env x o) (fun a b => a = b ∧ levelsAll a ≤ B) (mathmlElements m env n s y)
      (ofE (Verif.mathmlElements env (5 - i) exc y).1)
  | 0, i, y, s, exc, hc, hi, hs => by
    rcases hs with ⟨h5, rfl⟩ | ⟨_, _, s', rfl, hs'⟩
    · obtain rfl : i = 5 := by omega
      cases exc with
      | none => exact fun _ _ => ⟨Local.now fun _ => rfl, .inr (.ok ⟨rfl, Nat.zero_le _⟩)⟩
      | some e => exact fun _ _ => ⟨Local.now fun _ => rfl, .inr .error⟩
    · exact fun _ _ => ⟨Local.now fun _ => rfl, .inl ⟨s', _, rfl, hs'⟩⟩
  | n + 1, i, y, s, exc, hc, hi, hs => by
    have hi4 : i < 5 := by rcases hs with h | h <;> omega
    have hE : ∀ i f, o i = some f → FaultError env x o (.fault f) := fun _ _ h => .fault h
    let E₀ : Stop → Prop := fun s => ∃ i f, o i = some f ∧ s = .fault f
    have hE₀ : ∀ i f, o i = some f → E₀ (.fault f) := fun i f h => ⟨i, f, h, rfl⟩
    have ha : Safe o E₀ _ (attempt m env y) _ :=
      @fits_attempt FM _ (simulatesF o E₀ hE₀) (B + 3 + m.lib) m env y B
        (fun d => hB i y d hi4 hc) (by omega) (by omega)
    -- after a fault that was caught the same text is tried again
    have hretry : ∀ f : Fault, E₀ (.fault f) → f.exception = true →
        Safe o (FaultError env x o) (fun a b => a = b ∧ levelsAll a ≤ B)
          (do
            let xml' ← call (fixError m env y (.fault f))
            mathmlElements m env n (some (.fault f)) xml')
          (ofE (Verif.mathmlElements env (5 - i) exc y).1) := by
      rintro f ⟨j, f', hj, hf'⟩ hx
      cases hf'
      refine Safe.step (a := y) (Safe.call hE (Safe.call hE
        fun _ _ => ⟨Local.now fun _ => rfl, .inr (.ok rfl)⟩)) ?_
      exact safe_mathmlElements m env x o B hB n i y _ exc hc hi
        (.inr ⟨by rcases hs with h | h <;> omega, ⟨j, f, hj, hx⟩, _, rfl, .fault hj⟩)
    intro t h
    unfold mathmlElements
    obtain ⟨hl, ha⟩ := ha t h
    rcases ha with ⟨s', r, hs', he⟩ | hs'
    · obtain ⟨j, f, hj, rfl⟩ := he
      by_cases hf : f.exception = true
      · have hst : r.2 = h := by
          have := steadyF_attempt m env y o t h
          rwa [hs'] at this
        have hr := hretry f ⟨j, f, hj, rfl⟩ hf r.1 h
        refine ⟨hl.try_caught hs' hf (by rw [hst]; exact hr.1), ?_⟩
        rw [tryF_error hs', if_pos (c := (Stop.fault f).caught = true) hf, hst]
        exact hr.2
      · refine ⟨hl.try_not hs' hf, ?_⟩
        rw [tryF_error hs', if_neg (c := (Stop.fault f).caught = true) hf]
        exact .inl ⟨_, _, rfl, .fault hj⟩
    · obtain ⟨k, hk⟩ : ∃ k, 5 - i = k + 1 := ⟨4 - i, by omega⟩
      rw [hk]
      unfold Verif.mathmlElements
      generalize hx' : attempt (F := FM) m env y o t h = rx at hs'
      cases hp : env.parse y with
      | ok d =>
        rw [hp] at hs'
        generalize hy : (ofE (.ok (mathElements d)) : M (List Node)) h = ry at hs'
        cases hs' with
        | ok hab =>
          cases hy
          refine ⟨hl.try_ok hx', ?_⟩
          rw [tryF_ok hx']
          exact .inr (.ok hab)
        | error => cases hy
      | error e =>
        rw [hp] at hs'
        generalize hy : (ofE (.error e.toExc) : M (List Node)) h = ry at hs'
        cases hs' with
        | ok hab => cases hy
        | @error e' t' h' =>
          cases hy
          have hb : Safe o (FaultError env x o) (fun a b => a = b ∧ levelsAll a ≤ B)
              (do
                let xml' ← call (fixError m env y (.raised e.toExc))
                mathmlElements m env n (some (.raised e.toExc)) xml')
              (ofE (match Verif.fixError env y e with
                | .error e' => ((.error e', y) : Except Exc (List Node) × Str)
                | .ok xml' => Verif.mathmlElements env k (some e.toExc) xml').1) := by
            have hf : Safe o (FaultError env x o) Eq _ _ := Safe.call hE
              (@fits_fixError FM _ (simulatesF o _ hE) (m.lib + 4) m env y e (Nat.le_refl _))
            cases hz : Verif.fixError env y e with
            | error e' =>
              rw [hz] at hf
              exact hf.error_bind
            | ok z =>
              rw [hz] at hf
              have hrec := safe_mathmlElements m env x o B hB n (i + 1) z (some (.raised e.toExc))
                (some e.toExc) (.next hc hp ((fixError_ok hc.noLF).1 hz)) (by omega) (by
                  rcases hs with ⟨h5, _⟩ | ⟨h5, ⟨j, f, hj, hx⟩, _⟩
                  · exact .inl ⟨by omega, rfl⟩
                  · exact .inr ⟨by omega, ⟨j, f, hj, hx⟩, _, rfl, .late hj hx (by omega) hc hp⟩)
              rw [show 5 - (i + 1) = k by omega] at hrec
              exact Safe.step hf hrec
          refine ⟨hl.try_caught hx' rfl (hb t' h).1, ?_⟩
          rw [tryF_error hx', if_pos (c := (Stop.raised e.toExc).caught = true) rfl]
          exact (hb t' h).2

theorem safe_convert (m : Machine) (env : Env) (x : Str) (o : Faults) (B : Nat)
    (hB : ∀ i y d, i < 5 → Consulted env x i y → env.parse y = .ok d → levelsAll d ≤ B) :
    Safe o (FaultError env x o) Eq (convert m env x)
      (ofE (Verif.mathmlElements env 5 none (prep x)).1 >>= fun nodes => renderNodes nodes) :=
  @fits_convert_of FM _ (simulatesF o _ fun _ _ h => .fault h) m env x B
    (safe_mathmlElements m env x o B hB 5 0 (prep x) none none .first (by omega) (.inl ⟨rfl, rfl⟩))

end Verif.Stack
