import Verif.Model.Stack
import Verif.Spec.Stack

/-!
# The code with its calls does what the sequential model does

For any reading of calls with a notion of "behaves like" that is compatible with the constructs of
the language (`Simulates`).
-/

namespace Verif.Stack

/-- A relation between computations of a reading and computations of the sequential model. -/
class Simulates (F : Type → Type) [Reading F] where
  /-- `Fits R k x y`: `x` behaves like `y`, with results related by `R`, if it has `k` activations. -/
  Fits {α β : Type} : (α → β → Prop) → Nat → F α → M β → Prop
  mono {α β : Type} {R : α → β → Prop} {k k' : Nat} {x : F α} {y : M β} :
    Fits R k x y → k ≤ k' → Fits R k' x y
  imp {α β : Type} {R R' : α → β → Prop} {k : Nat} {x : F α} {y : M β} :
    Fits R k x y → (∀ a b h h', y h = (.ok b, h') → R a b → R' a b) → Fits R' k x y
  pure {α β : Type} {R : α → β → Prop} {k : Nat} {a : α} {b : β} :
    R a b → Fits R k (Pure.pure a) (Pure.pure b)
  throw {α β : Type} {R : α → β → Prop} {k : Nat} {e : Exc} :
    Fits R k (throwL (.raised e)) (MonadExcept.throw e : M β)
  bind {α β γ δ : Type} {R : α → β → Prop} {R' : γ → δ → Prop} {k : Nat} {x : F α} {y : M β}
    {f : α → F γ} {g : β → M δ} : Fits R k x y →
    (∀ a b, R a b → Fits R' k (f a) (g b)) → Fits R' k (x >>= f) (y >>= g)
  call {α β : Type} {R : α → β → Prop} {k : Nat} {x : F α} {y : M β} :
    Fits R k x y → Fits R (k + 1) (Reading.call x) y
  /-- A step that only computes a value. -/
  step {α γ δ : Type} {R' : γ → δ → Prop} {k : Nat} {x : F α} {a : α} {f : α → F γ} {y : M δ} :
    Fits Eq k x (Pure.pure a) → Fits R' k (f a) y → Fits R' k (x >>= f) y
  heap {α : Type} {k : Nat} (f : Heap → α × Heap) :
    Fits Eq k (Reading.heap f) (fun h => (.ok (f h).1, (f h).2))
  lib {k : Nat} (m : Machine) : m.lib ≤ k → Fits Eq k (Reading.lib m) (Pure.pure ())

export Simulates (Fits)

variable {F : Type → Type} [Reading F] [Simulates F]

namespace Fits
variable {α β γ δ : Type} {R : α → β → Prop} {R' : γ → δ → Prop} {k k' : Nat}

theorem mono {x : F α} {y : M β} (h : Fits R k x y) (hk : k ≤ k') : Fits R k' x y :=
  Simulates.mono h hk

theorem pure {a : α} {b : β} (h : R a b) : Fits R k (Pure.pure a : F α) (Pure.pure b : M β) :=
  Simulates.pure h

theorem throw {e : Exc} : Fits R k (throwL (.raised e) : F α) (MonadExcept.throw e : M β) :=
  Simulates.throw

theorem bind {x : F α} {y : M β} {f : α → F γ} {g : β → M δ} (hx : Fits R k x y)
    (hf : ∀ a b, R a b → Fits R' k (f a) (g b)) : Fits R' k (x >>= f) (y >>= g) :=
  Simulates.bind hx hf

theorem call {x : F α} {y : M β} (hx : Fits R k x y) : Fits R (k + 1) (Stack.call x) y :=
  Simulates.call hx

theorem call' {x : F α} {y : M β} (hk : 1 ≤ k) (hx : Fits R (k - 1) x y) :
    Fits R k (Stack.call x) y := by
  have := call hx
  rwa [Nat.sub_add_cancel hk] at this

theorem step {x : F α} {a : α} {f : α → F γ} {y : M δ} (hx : Fits Eq k x (Pure.pure a : M α))
    (hf : Fits R' k (f a) y) : Fits R' k (x >>= f) y := Simulates.step hx hf

/-- A step that reads an attribute dictionary, on both sides. -/
theorem read {r : Nat} {f : Attrs → F γ} {g : Attrs → M δ} (hk : 1 ≤ k)
    (hf : ∀ a, Fits R' k (f a) (g a)) :
    Fits R' k (Stack.attributes r >>= f) (Verif.attributes r >>= g) :=
  bind (R := Eq) (call' hk (Simulates.heap _)) (fun a b e => e ▸ hf a)

theorem leaf {a : α} (hk : 1 ≤ k) : Fits Eq k (Stack.leaf a : F α) (Pure.pure a : M α) :=
  call' hk (pure rfl)

theorem comp (m : Machine) {x : F α} {y : M β} (hk : 1 ≤ k) (hx : Fits R (k - 1) x y) :
    Fits R k (Stack.comp m x) y := by
  unfold Stack.comp
  split
  · exact call' hk hx
  · exact mono hx (by omega)

theorem lib (m : Machine) (hk : m.lib ≤ k) : Fits Eq k (Stack.lib m : F Unit) (Pure.pure () : M Unit) :=
  Simulates.lib m hk

end Fits

/-! ## services -/

variable {k : Nat} (m : Machine)

theorem fits_normalize (s : Str) (hk : 1 ≤ k) :
    Fits (F := F) Eq k (normalize s) (pure (Verif.normalize s)) := Fits.leaf hk

theorem fits_wrapperInit (hk : 2 ≤ k) : Fits (F := F) Eq k wrapperInit (pure ()) :=
  Fits.call' (by omega) (Fits.leaf (by omega))

theorem fits_parenWrap (s : Str) (hk : 2 ≤ k) :
    Fits (F := F) Eq k (parenWrap s) (pure (Verif.parenWrap s)) :=
  Fits.call' (by omega) (Fits.leaf (by omega))

theorem fits_parenWrapIf (s : Str) (hk : 3 ≤ k) :
    Fits (F := F) Eq k (parenWrapIfMoreThanOneChar s) (pure (Verif.parenWrapIfMoreThanOneChar s)) := by
  refine Fits.call' (by omega) ?_
  unfold Verif.parenWrapIfMoreThanOneChar
  split
  · exact Fits.pure rfl
  · exact fits_parenWrap s (by omega)

theorem fits_bracketWrap (s : Str) (hk : 2 ≤ k) :
    Fits (F := F) Eq k (bracketWrap s) (pure (Verif.bracketWrap s)) :=
  Fits.call' (by omega) (Fits.leaf (by omega))

theorem fits_genericWrap (op close s : Str) (hk : 2 ≤ k) :
    Fits (F := F) Eq k (genericWrap op close s) (pure (Verif.genericWrap op close s)) :=
  Fits.step (fits_wrapperInit hk) (Fits.call' (by omega) (Fits.leaf (by omega)))

theorem fits_joinManyFrom (separators : List Str) (arr : List Str) (hk : 1 ≤ k) : ∀ i,
    Fits (F := F) Eq k (joinManyFrom separators i arr) (pure (Verif.joinManyFrom separators i arr)) := by
  induction arr with
  | nil => exact fun i => Fits.pure rfl
  | cons c rest ih =>
    intro i
    unfold joinManyFrom Verif.joinManyFrom
    dsimp only
    split
    · exact Fits.step (Fits.pure rfl) (Fits.step (ih (i + 1)) (Fits.pure rfl))
    · exact Fits.step (Fits.leaf hk) (Fits.step (ih (i + 1)) (Fits.pure rfl))

theorem fits_joinMany (separators arr : List Str) (hk : 2 ≤ k) :
    Fits (F := F) Eq k (joinMany separators arr) (pure (Verif.joinManyFrom separators 0 arr)) :=
  Fits.step (Fits.leaf (by omega))
    (Fits.call' (by omega) (fits_joinManyFrom separators arr (by omega) 0))

/-! ## Token elements -/

theorem fits_hashConvert (s : Str) (hk : m.lib + 2 ≤ k) :
    Fits (F := F) Eq k (hashConvert m s) (pure (Verif.hashConvert s)) := by
  unfold hashConvert Verif.hashConvert
  generalize Dict.get? vowelsWithAccents s = o
  refine Fits.call' (by omega) (Fits.step (Fits.lib m (by omega)) ?_)
  rcases s with _ | ⟨c, s⟩
  · dsimp only
    rw [if_neg Bool.false_ne_true, if_neg Bool.false_ne_true]
    cases o with
    | none =>
      dsimp only
      generalize convertSpecialCharToLtx _ = r
      refine Fits.step (Fits.leaf (by omega)) ?_
      cases r <;> exact Fits.pure rfl
    | some p =>
      dsimp only
      generalize convertAccentCharToLtx p = r
      refine Fits.step (Fits.leaf (by omega)) ?_
      cases r <;> exact Fits.pure rfl
  · dsimp only
    by_cases hb : alnumIgnoreCase c = true
    · rw [if_pos hb, if_pos hb]
      exact Fits.pure rfl
    rw [if_neg hb, if_neg hb]
    cases o with
    | none =>
      dsimp only
      generalize convertSpecialCharToLtx _ = r
      refine Fits.step (Fits.leaf (by omega)) ?_
      cases r <;> exact Fits.pure rfl
    | some p =>
      dsimp only
      generalize convertAccentCharToLtx p = r
      refine Fits.step (Fits.leaf (by omega)) ?_
      cases r <;> exact Fits.pure rfl

theorem fits_characterFind (s : Str) (hk : m.lib + 3 ≤ k) :
    Fits (F := F) Eq k (characterFind m s) (pure (Verif.characterApply s)) := by
  unfold characterFind Verif.characterApply
  generalize (Dict.get? allMathSymbolsByChar s).getD [] = o1
  generalize (Dict.get? allMathSymbolsByGlyph s).getD [] = o2
  generalize (Dict.get? mathNumberByGlyph s).getD [] = o3
  refine Fits.call' (by omega) (Fits.step (Fits.leaf (by omega)) ?_)
  dsimp only
  split
  · exact Fits.pure rfl
  · refine Fits.step (Fits.leaf (by omega)) ?_
    split
    · exact Fits.pure rfl
    · refine Fits.step (Fits.leaf (by omega)) ?_
      split
      · exact Fits.pure rfl
      · exact fits_hashConvert m s (by omega)

theorem fits_characterApply (s : Str) (hk : m.lib + 4 ≤ k) :
    Fits (F := F) Eq k (characterApply m s) (pure (Verif.characterApply s)) :=
  Fits.call' (by omega) (Fits.step (Fits.leaf (by omega)) (fits_characterFind m s (by omega)))

/-- `MI.convert` for an element whose attributes are read by `attrs`. -/
theorem fits_mi (s : Str) {attrs : F Attrs} {f : Heap → Attrs}
    (ha : ∀ k, 1 ≤ k → Fits (F := F) Eq k attrs (fun h => (.ok (f h), h))) (hk : m.lib + 5 ≤ k) :
    Fits (F := F) Eq k (miConvert m s attrs) (fun h => (.ok (Verif.miConvert s (f h)), h)) := by
  refine Fits.call' (by omega) (Fits.step (Fits.leaf (by omega))
    (Fits.step (fits_normalize s (by omega)) ?_))
  unfold Verif.miConvert
  dsimp only
  by_cases hb : Verif.normalize s = c!" "
  · rw [if_pos hb]
    simp only [if_pos hb]
    exact fits_characterApply m _ (by omega)
  · rw [if_neg hb]
    simp only [if_neg hb]
    refine Fits.step (fits_characterApply m _ (by omega))
      (Fits.step (fits_hashConvert m _ (by omega)) ?_)
    by_cases hp : Verif.hashConvert (Verif.characterApply (strip (Verif.normalize s))) ≠
        Verif.characterApply (strip (Verif.normalize s))
    · rw [if_pos hp]
      simp only [if_pos hp]
      exact Fits.pure rfl
    · rw [if_neg hp]
      simp only [if_neg hp]
      exact Fits.bind (y := fun h => (.ok (f h), h))
        (g := fun a => pure (wrapInMathVariant (Verif.characterApply (strip (Verif.normalize s)))
          (getMathVariant a))) (ha _ (by omega)) fun a b e => by
        subst e
        exact Fits.step (Fits.leaf (by omega)) (Fits.leaf (by omega))

theorem fits_attributes (r : Nat) (hk : 1 ≤ k) :
    Fits (F := F) Eq k (attributes r) (fun h => (.ok (h.cells r), h)) :=
  Fits.call' hk (Simulates.heap _)

theorem fits_operateFind (s : Str) (hk : m.lib + 3 ≤ k) :
    Fits (F := F) Eq k (operateFind m s) (pure (Verif.operate s)) := by
  unfold operateFind Verif.operate
  generalize Dict.get? allMathOperatorsByChar s = o1
  generalize Dict.get? allMathOperatorsByGlyph s = o2
  generalize Dict.get? mathNumberByGlyph s = o3
  have hh := fits_hashConvert (F := F) m s (k := k - 1) (by omega)
  have h3 : Fits (F := F) Eq (k - 1) (do
      match ← leaf o3 with
      | some (c :: cs) => return c :: cs
      | _ => hashConvert m s) (pure (match (generalizing := false) o3 with
      | some (c :: cs) => c :: cs
      | _ => Verif.hashConvert s)) := by
    refine Fits.step (Fits.leaf (by omega)) ?_
    rcases o3 with _ | _ | ⟨c, cs⟩
    · exact hh
    · exact hh
    · exact Fits.pure rfl
  have h2 : Fits (F := F) Eq (k - 1) (do
      match ← leaf o2 with
      | some (c :: cs) => return c :: cs
      | _ => do
        match ← leaf o3 with
        | some (c :: cs) => return c :: cs
        | _ => hashConvert m s) (pure (match (generalizing := false) o2 with
      | some (c :: cs) => c :: cs
      | _ =>
        match (generalizing := false) o3 with
        | some (c :: cs) => c :: cs
        | _ => Verif.hashConvert s)) := by
    refine Fits.step (Fits.leaf (by omega)) ?_
    rcases o2 with _ | _ | ⟨c, cs⟩
    · exact h3
    · exact h3
    · exact Fits.pure rfl
  refine Fits.call' (by omega) (Fits.step (Fits.leaf (by omega)) ?_)
  rcases o1 with _ | _ | ⟨c, cs⟩
  · exact h2
  · exact h2
  · exact Fits.pure rfl

theorem fits_mo (s : Str) (hk : m.lib + 5 ≤ k) :
    Fits (F := F) Eq k (moConvert m s) (pure (Verif.moConvert s)) :=
  Fits.call' (by omega) (Fits.step (Fits.leaf (by omega)) (Fits.step (fits_normalize s (by omega))
    (Fits.call' (by omega) (Fits.step (Fits.leaf (by omega)) (fits_operateFind m _ (by omega))))))

theorem fits_mn (s : Str) (hk : 2 ≤ k) :
    Fits (F := F) Eq k (mnConvert s) (pure (Verif.mnConvert s)) :=
  Fits.call' (by omega) (Fits.step (Fits.leaf (by omega)) (Fits.step (fits_normalize s (by omega))
    (Fits.pure rfl)))

theorem fits_textCommand (v s : Str) (hk : 2 ≤ k) :
    Fits (F := F) Eq k (textCommandApply v s) (pure (Verif.textCommandApply v s)) :=
  Fits.step (Fits.leaf (by omega)) (Fits.call' (by omega) (Fits.step (Fits.leaf (by omega))
    (Fits.pure rfl)))

theorem fits_chars (s : Str) (hk : m.lib + 1 ≤ k) : Fits (F := F) Eq k (chars m s) (pure ()) := by
  induction s with
  | nil => exact Fits.pure rfl
  | cons c s ih => exact Fits.step (Fits.lib m (by omega)) (Fits.step (Fits.leaf (by omega)) ih)

theorem fits_textPieces (a : Attrs) (ps : List (Str × Bool)) (hk : m.lib + 5 ≤ k) :
    Fits (F := F) Eq k (textPieces m a ps) (pure (ps.map fun p =>
      if p.2 then Verif.textCommandApply (Attrs.getD a c!"mathvariant" []) p.1
      else Verif.miConvert p.1 [])) := by
  induction ps with
  | nil => exact Fits.pure rfl
  | cons p ps ih =>
    unfold textPieces
    rw [List.map_cons]
    dsimp only
    split
    · exact Fits.step (fits_textCommand _ _ (by omega)) (Fits.step ih (Fits.pure rfl))
    · exact Fits.step (Fits.leaf (by omega)) (Fits.step (Fits.leaf (by omega))
        (Fits.step (fits_mi m p.1 (f := fun _ => []) (fun k hk => Fits.leaf hk) (by omega))
          (Fits.step ih (Fits.pure rfl))))

theorem fits_mtext (s : Str) (r : Nat) (hk : m.lib + 7 ≤ k) :
    Fits (F := F) Eq k (mtextConvert m s (attributes r))
      (fun h => (.ok (Verif.mtextConvert s (h.cells r)), h)) := by
  refine Fits.call' (by omega) (Fits.bind (y := fun h => (.ok (h.cells r), h))
    (g := fun a => pure (Verif.mtextConvert s a)) (fits_attributes r (by omega)) fun a b e => ?_)
  subst e
  exact Fits.step (Fits.leaf (by omega)) (Fits.step (Fits.comp m (by omega) (fits_chars m s (by omega)))
    (Fits.step (Fits.comp m (by omega) (fits_textPieces m a _ (by omega))) (Fits.pure rfl)))

/-! ## Layout elements -/

/-- The children, pairwise. -/
inductive FitsKids (K : Nat) : List (Kid F) → List Verif.Kid → Prop
  | nil : FitsKids K [] []
  | cons {e : Elem} {x y ks ks'} : Fits (F := F) Eq K x y → FitsKids K ks ks' →
      FitsKids K ((e, x) :: ks) ((e, y) :: ks')

theorem FitsKids.length {K : Nat} {ks : List (Kid F)} {ks' : List Verif.Kid} (h : FitsKids K ks ks') :
    ks.length = ks'.length := by
  induction h with
  | nil => rfl
  | cons _ _ ih => simp [ih]

theorem FitsKids.elems {K : Nat} {ks : List (Kid F)} {ks' : List Verif.Kid} (h : FitsKids K ks ks') :
    ks.map (·.1) = ks'.map (·.1) := by
  induction h with
  | nil => rfl
  | cons _ _ ih => simp [ih]

variable {K : Nat}

theorem fits_runKids {ks : List (Kid F)} {ks' : List Verif.Kid} (h : FitsKids K ks ks') :
    Fits (F := F) Eq K (runKids ks) (Verif.runKids ks') := by
  induction h with
  | nil => exact Fits.pure rfl
  | cons hx _ ih =>
    exact Fits.bind hx fun a b e => Fits.bind ih fun a' b' e' => Fits.pure (by rw [e, e'])

theorem fits_allKids {ks : List (Kid F)} {ks' : List Verif.Kid} (h : FitsKids K ks ks') (hk : K + 1 ≤ k) :
    Fits (F := F) Eq k (allKids m ks) (Verif.runKids ks') :=
  Fits.step (Fits.leaf (by omega)) (Fits.comp m (by omega) (Fits.mono (fits_runKids h) (by omega)))

/-- Converters that join their children and wrap the text. -/
theorem fits_joined {ks : List (Kid F)} {ks' : List Verif.Kid} (h : FitsKids K ks ks') (f : List Str → Str)
    (hk : K + 2 ≤ k) :
    Fits (F := F) Eq k (call (do let ss ← allKids m ks; return f ss))
      (do return f (← Verif.runKids ks')) :=
  Fits.call' (by omega) (Fits.bind (fits_allKids m h (by omega)) fun a b e => by
    subst e
    exact Fits.pure rfl)

theorem fits_math {ks : List (Kid F)} {ks' : List Verif.Kid} (h : FitsKids K ks ks') (hk : K + 2 ≤ k) :
    Fits (F := F) Eq k (mathConvert m ks) (Verif.mathConvert ks') :=
  Fits.call' (by omega) (Fits.bind (fits_allKids m h (by omega)) fun a b e => by
    subst e
    exact fits_normalize _ (by omega))

theorem fits_base {e : Elem} {x : F Str} {y : M Str} (h : Fits (F := F) Eq K x y) (hk : K + 1 ≤ k)
    (hk' : 4 ≤ k) : Fits (F := F) Eq k (handleBaseChild (e, x)) (Verif.handleBaseChild (e, y)) := by
  refine Fits.call' (by omega) (Fits.step (Fits.leaf (by omega))
    (Fits.bind (Fits.mono h (by omega)) fun a b e => ?_))
  subst e
  dsimp only
  split
  · exact Fits.pure rfl
  · exact fits_parenWrapIf a (by omega)

theorem fits_script {e : Elem} {x : F Str} {y : M Str} (h : Fits (F := F) Eq K x y) (hk : K + 1 ≤ k)
    (hk' : 3 ≤ k) : Fits (F := F) Eq k (handleScriptChild (e, x)) (Verif.handleScriptChild (e, y)) :=
  Fits.call' (by omega) (Fits.bind (Fits.mono h (by omega)) fun a b e => by
    subst e
    exact fits_bracketWrap a (by omega))

theorem fits_invalid {α : Type} (name : Str) (n : Nat) {i j : Nat} (hij : i = j) (c : Str) (hk : 1 ≤ k) :
    Fits (F := F) (α := α) Eq k (invalidChildren name n i c) (throw (.invalidChildren name n j c)) := by
  subst hij
  exact Fits.step (Fits.leaf hk) Fits.throw

theorem fits_msup (name : Str) {ks : List (Kid F)} {ks' : List Verif.Kid} (h : FitsKids K ks ks')
    (hk : K + 2 ≤ k) (hk' : 5 ≤ k) : Fits (F := F) Eq k (msupConvert name ks) (Verif.msupConvert name ks') := by
  refine Fits.call' (by omega) (Fits.step (Fits.leaf (by omega)) ?_)
  have hl := h.length
  cases h with
  | nil => exact fits_invalid _ _ hl _ (by omega)
  | cons h1 h =>
    cases h with
    | nil => exact fits_invalid _ _ hl _ (by omega)
    | cons h2 h =>
      cases h with
      | nil =>
        exact Fits.bind (fits_base h1 (by omega) (by omega)) fun a b e =>
          Fits.bind (fits_script h2 (by omega) (by omega)) fun a' b' e' => Fits.pure (by rw [e, e'])
      | cons h3 h => exact fits_invalid _ _ hl _ (by omega)

theorem fits_msub (name : Str) {ks : List (Kid F)} {ks' : List Verif.Kid} (h : FitsKids K ks ks')
    (hk : K + 2 ≤ k) (hk' : 5 ≤ k) : Fits (F := F) Eq k (msubConvert name ks) (Verif.msubConvert name ks') := by
  refine Fits.call' (by omega) (Fits.step (Fits.leaf (by omega)) ?_)
  have hl := h.length
  cases h with
  | nil => exact fits_invalid _ _ hl _ (by omega)
  | cons h1 h =>
    cases h with
    | nil => exact fits_invalid _ _ hl _ (by omega)
    | cons h2 h =>
      cases h with
      | nil =>
        exact Fits.bind (fits_base h1 (by omega) (by omega)) fun a b e =>
          Fits.bind (fits_script h2 (by omega) (by omega)) fun a' b' e' => Fits.pure (by rw [e, e'])
      | cons h3 h => exact fits_invalid _ _ hl _ (by omega)

theorem fits_msubsup (name : Str) {ks : List (Kid F)} {ks' : List Verif.Kid} (h : FitsKids K ks ks')
    (hk : K + 2 ≤ k) (hk' : 5 ≤ k) :
    Fits (F := F) Eq k (msubsupConvert name ks) (Verif.msubsupConvert name ks') := by
  refine Fits.call' (by omega) (Fits.step (Fits.leaf (by omega)) ?_)
  have hl := h.length
  cases h with
  | nil => exact fits_invalid _ _ hl _ (by omega)
  | cons h1 h =>
    cases h with
    | nil => exact fits_invalid _ _ hl _ (by omega)
    | cons h2 h =>
      cases h with
      | nil => exact fits_invalid _ _ hl _ (by omega)
      | cons h3 h =>
        cases h with
        | nil =>
          exact Fits.bind (fits_base h1 (by omega) (by omega)) fun a b e =>
            Fits.bind (fits_script h2 (by omega) (by omega)) fun a' b' e' =>
              Fits.bind (fits_script h3 (by omega) (by omega)) fun a'' b'' e'' =>
                Fits.pure (by rw [e, e', e''])
        | cons h4 h => exact fits_invalid _ _ hl _ (by omega)

theorem fits_mfrac (name : Str) (r : Nat) {ks : List (Kid F)} {ks' : List Verif.Kid}
    (h : FitsKids K ks ks') (hk : K + 2 ≤ k) (hk' : 5 ≤ k) :
    Fits (F := F) Eq k (mfracConvert name r ks) (Verif.mfracConvert name r ks') := by
  refine Fits.call' (by omega) (Fits.step (Fits.leaf (by omega)) ?_)
  have hl := h.length
  cases h with
  | nil => exact fits_invalid _ _ hl _ (by omega)
  | cons h1 h =>
    cases h with
    | nil => exact fits_invalid _ _ hl _ (by omega)
    | cons h2 h =>
      cases h with
      | nil =>
        refine Fits.bind (Fits.mono h1 (by omega)) fun a b e =>
          Fits.bind (Fits.mono h2 (by omega)) fun a' b' e' =>
          Fits.bind (R := Eq) (Fits.call' (by omega) (fits_attributes r (by omega))) fun t t' et => ?_
        subst e e' et
        split
        · exact Fits.step (Fits.call' (by omega) (fits_parenWrapIf _ (by omega)))
            (Fits.step (Fits.call' (by omega) (fits_parenWrapIf _ (by omega))) (Fits.pure rfl))
        · exact Fits.pure rfl
      | cons h3 h => exact fits_invalid _ _ hl _ (by omega)

theorem fits_mroot (name : Str) {ks : List (Kid F)} {ks' : List Verif.Kid}
    (h : FitsKids K ks ks') (hk : K + 2 ≤ k) (hk' : 5 ≤ k) :
    Fits (F := F) Eq k (mrootConvert name ks) (Verif.mrootConvert name ks') := by
  refine Fits.call' (by omega) (Fits.step (Fits.leaf (by omega)) ?_)
  have hl := h.length
  cases h with
  | nil => exact fits_invalid _ _ hl _ (by omega)
  | cons h1 h =>
    cases h with
    | nil => exact fits_invalid _ _ hl _ (by omega)
    | cons h2 h =>
      cases h with
      | nil =>
        exact Fits.bind (Fits.mono h1 (by omega)) fun a b e =>
          Fits.bind (Fits.mono h2 (by omega)) fun a' b' e' => Fits.pure (by rw [e, e'])
      | cons h3 h => exact fits_invalid _ _ hl _ (by omega)

theorem fits_maction (r : Nat) {ks : List (Kid F)} {ks' : List Verif.Kid}
    (h : FitsKids K ks ks') (hk : K + 2 ≤ k) (hk' : 5 ≤ k) :
    Fits (F := F) Eq k (mactionConvert m r ks) (Verif.mactionConvert r ks') := by
  refine Fits.call' (by omega) (Fits.step (Fits.leaf (by omega))
    (Fits.bind (R := Eq) (Fits.call' (by omega) (fits_attributes r (by omega))) fun t t' et => ?_))
  subst et
  dsimp only
  split
  · exact Fits.bind (Fits.comp m (by omega) (Fits.mono (fits_runKids h) (by omega))) fun a b e => by
      subst e
      exact Fits.pure rfl
  · cases h with
    | nil => exact Fits.throw
    | cons h1 h => exact Fits.mono h1 (by omega)

theorem fits_underOverApply (u : Bool) (c a : Str) (hk : 2 ≤ k) :
    Fits (F := F) Eq k (underOverApply u c a) (pure (Verif.underOverApply u c a)) := by
  refine Fits.step (Fits.leaf (by omega)) (Fits.call' (by omega) ?_)
  unfold Verif.underOverApply
  split
  · exact Fits.pure rfl
  · exact Fits.step (Fits.leaf (by omega)) (Fits.pure rfl)

theorem fits_underOver (name : Str) {ks : List (Kid F)} {ks' : List Verif.Kid}
    (h : FitsKids K ks ks') (hk : K + 2 ≤ k) (hk' : m.lib + 5 ≤ k) :
    Fits (F := F) Eq k (underOverConvert m name ks) (Verif.underOverConvert name ks') := by
  refine Fits.call' (by omega) (Fits.step (Fits.leaf (by omega)) ?_)
  have hl := h.length
  cases h with
  | nil => exact fits_invalid _ _ hl _ (by omega)
  | cons h1 h =>
    cases h with
    | nil => exact fits_invalid _ _ hl _ (by omega)
    | cons h2 h =>
      cases h with
      | nil =>
        refine Fits.bind (Fits.mono h1 (by omega)) fun a b e =>
          Fits.bind (Fits.mono h2 (by omega)) fun a' b' e' => ?_
        subst e e'
        exact Fits.call' (by omega) (Fits.step (Fits.leaf (by omega))
          (Fits.step (Fits.lib m (by omega)) (fits_underOverApply _ _ _ (by omega))))
      | cons h3 h => exact fits_invalid _ _ hl _ (by omega)

theorem fits_munderover (name : Str) {ks : List (Kid F)} {ks' : List Verif.Kid}
    (h : FitsKids K ks ks') (hk : K + 2 ≤ k) (hk' : 5 ≤ k) :
    Fits (F := F) Eq k (munderoverConvert name ks) (Verif.munderoverConvert name ks') := by
  refine Fits.call' (by omega) (Fits.step (Fits.leaf (by omega)) ?_)
  have hl := h.length
  cases h with
  | nil => exact fits_invalid _ _ hl _ (by omega)
  | cons h1 h =>
    cases h with
    | nil => exact fits_invalid _ _ hl _ (by omega)
    | cons h2 h =>
      cases h with
      | nil => exact fits_invalid _ _ hl _ (by omega)
      | cons h3 h =>
        cases h with
        | nil =>
          exact Fits.bind (Fits.mono h1 (by omega)) fun a b e =>
            Fits.bind (Fits.mono h2 (by omega)) fun a' b' e' =>
              Fits.bind (Fits.mono h3 (by omega)) fun a'' b'' e'' => Fits.pure (by rw [e, e', e''])
        | cons h4 h => exact fits_invalid _ _ hl _ (by omega)

theorem fits_pair (p : Str) {e1 e2 : Elem} {x1 x2 : F Str} {y1 y2 : M Str} (h1 : Fits (F := F) Eq K x1 y1)
    (h2 : Fits (F := F) Eq K x2 y2) (hk : K ≤ k) :
    Fits (F := F) Eq k (scriptPair p (e1, x1) (e2, x2)) (Verif.scriptPair p (e1, y1) (e2, y2)) :=
  Fits.bind (Fits.mono h1 hk) fun a b e => Fits.bind (Fits.mono h2 hk) fun a' b' e' =>
    Fits.pure (by rw [e, e'])

theorem fits_isPre {e : Elem} {x : F Str} {y : M Str} (hk : 2 ≤ k) :
    Fits (F := F) Eq k (isPrescripts (e, x)) (pure (Verif.isPrescripts (e, y))) :=
  Fits.call' (by omega) (Fits.leaf (by omega))

theorem fits_prescript {ks : List (Kid F)} {ks' : List Verif.Kid} (h : FitsKids K ks ks')
    (hk : K + 1 ≤ k) (hk' : 3 ≤ k) : Fits (F := F) Eq k (prescriptLatex ks) (Verif.prescriptLatex ks') := by
  refine Fits.call' (by omega) (Fits.step (Fits.leaf (by omega)) ?_)
  cases h with
  | nil => exact Fits.pure rfl
  | cons h1 h =>
    cases h with
    | nil => exact Fits.pure rfl
    | @cons e2 x2 y2 _ _ h2 h =>
      cases h with
      | nil => exact Fits.pure rfl
      | cons h3 h =>
        cases h with
        | nil => exact Fits.pure rfl
        | @cons e4 x4 y4 _ _ h4 h =>
          refine Fits.step (fits_isPre (y := y2) (by omega)) ?_
          unfold Verif.prescriptLatex
          dsimp only
          split
          · exact fits_pair _ h3 h4 (by omega)
          · cases h with
            | nil => exact Fits.pure rfl
            | cons h5 h =>
              cases h with
              | nil => exact Fits.pure rfl
              | cons h6 h =>
                refine Fits.step (fits_isPre (y := y4) (by omega)) ?_
                dsimp only
                split
                · exact fits_pair _ h5 h6 (by omega)
                · exact Fits.pure rfl

theorem fits_postscript {ks : List (Kid F)} {ks' : List Verif.Kid} (h : FitsKids K ks ks')
    (hk : K + 1 ≤ k) (hk' : 3 ≤ k) : Fits (F := F) Eq k (postscriptLatex ks) (Verif.postscriptLatex ks') := by
  refine Fits.call' (by omega) (Fits.step (Fits.leaf (by omega)) ?_)
  cases h with
  | nil => exact Fits.pure rfl
  | cons h1 h =>
    cases h with
    | nil => exact Fits.pure rfl
    | @cons e2 x2 y2 _ _ h2 h =>
      cases h with
      | nil => exact Fits.pure rfl
      | cons h3 h =>
        refine Fits.step (fits_isPre (y := y2) (by omega)) ?_
        unfold Verif.postscriptLatex
        dsimp only
        split
        · exact Fits.pure rfl
        · exact fits_pair _ h2 h3 (by omega)

theorem fits_wrapSpace (s : Str) (hk : m.lib + 3 ≤ k) :
    Fits (F := F) Eq k (wrapInParenthesisIfThereIsSpace m s)
      (pure (Verif.wrapInParenthesisIfThereIsSpace s)) := by
  refine Fits.call' (by omega) (Fits.step (Fits.lib m (by omega)) ?_)
  unfold Verif.wrapInParenthesisIfThereIsSpace
  split
  · exact fits_parenWrap s (by omega)
  · exact Fits.pure rfl

theorem fits_mmultiscripts (name : Str) {ks : List (Kid F)} {ks' : List Verif.Kid}
    (h : FitsKids K ks ks') (hk : K + 2 ≤ k) (hk' : m.lib + 5 ≤ k) :
    Fits (F := F) Eq k (mmultiscriptsConvert m name ks) (Verif.mmultiscriptsConvert name ks') := by
  refine Fits.call' (by omega) (Fits.step (Fits.leaf (by omega)) ?_)
  have hl := h.length
  have hpre := fits_prescript (k := k - 1) h (by omega) (by omega)
  have hpost := fits_postscript (k := k - 1) h (by omega) (by omega)
  cases h with
  | nil => exact fits_invalid _ _ hl _ (by omega)
  | cons h1 h =>
    cases h with
    | nil => exact fits_invalid _ _ hl _ (by omega)
    | cons h2 h =>
      cases h with
      | nil => exact fits_invalid _ _ hl _ (by omega)
      | cons h3 h =>
        refine Fits.bind (Fits.mono h1 (by omega)) fun a b e => Fits.bind hpre fun a' b' e' =>
          Fits.step (fits_wrapSpace m a (by omega)) (Fits.bind hpost fun a'' b'' e'' => ?_)
        exact Fits.pure (by rw [e, e', e''])

/-! ## Fences and tables -/

theorem fits_vector (op close : Str) (seps contents : List Str) (hk : 3 ≤ k) :
    Fits (F := F) Eq k (vectorApply op close seps contents) (pure (Verif.vectorApply op close seps contents)) :=
  Fits.step (Fits.leaf (by omega)) (Fits.call' (by omega)
    (Fits.step (fits_joinMany seps contents (by omega)) (fits_genericWrap _ _ _ (by omega))))

theorem fits_are (op close o c : Str) (hk : 2 ≤ k) :
    Fits (F := F) Eq k (areSeparators op close o c) (pure (op == o && close == c)) :=
  Fits.call' (by omega) (Fits.leaf (by omega))

theorem fits_command (op close : Str) (hk : 3 ≤ k) :
    Fits (F := F) Eq k (matrixCommand op close) (pure (Verif.matrixCommand op close)) := by
  refine Fits.call' (by omega) ?_
  unfold Verif.matrixCommand
  refine Fits.step (fits_are _ _ _ _ (by omega)) ?_
  by_cases h1 : op = c!"(" ∧ close = c!")"
  · obtain ⟨rfl, rfl⟩ := h1
    exact Fits.pure rfl
  · rw [if_neg (by simpa using h1), if_neg h1]
    refine Fits.step (fits_are _ _ _ _ (by omega)) ?_
    by_cases h2 : op = c!"[" ∧ close = c!"]"
    · obtain ⟨rfl, rfl⟩ := h2
      exact Fits.pure rfl
    · rw [if_neg (by simpa using h2), if_neg h2]
      refine Fits.step (fits_are _ _ _ _ (by omega)) ?_
      by_cases h3 : op = c!"{" ∧ close = c!"}"
      · obtain ⟨rfl, rfl⟩ := h3
        exact Fits.pure rfl
      · rw [if_neg (by simpa using h3), if_neg h3]
        refine Fits.step (fits_are _ _ _ _ (by omega)) ?_
        by_cases h4 : op = c!"|" ∧ close = c!"|"
        · obtain ⟨rfl, rfl⟩ := h4
          exact Fits.pure rfl
        · rw [if_neg (by simpa using h4), if_neg h4]
          refine Fits.step (fits_are _ _ _ _ (by omega)) ?_
          by_cases h5 : op = c!"||" ∧ close = c!"||"
          · obtain ⟨rfl, rfl⟩ := h5
            exact Fits.pure rfl
          · rw [if_neg (by simpa using h5), if_neg h5]
            refine Fits.step (Fits.leaf (by omega)) ?_
            by_cases h6 : op ≠ close
            · rw [if_pos (by simpa using h6), if_pos h6]
              exact Fits.pure rfl
            · rw [if_neg (by simpa using h6), if_neg h6]
              exact Fits.pure rfl

theorem fits_matrix (op close : Str) (contents : List Str) (hk : 4 ≤ k) :
    Fits (F := F) Eq k (matrixApply op close contents) (pure (Verif.matrixApply op close contents)) := by
  refine Fits.step (Fits.call' (by omega) (Fits.leaf (by omega))) (Fits.call' (by omega)
    (Fits.step (fits_command op close (by omega)) ?_))
  unfold Verif.matrixApply
  dsimp only
  split
  · exact Fits.call' (by omega) (fits_genericWrap _ _ _ (by omega))
  · exact Fits.pure rfl

mutual
/-- Levels of an element. -/
def tall : Elem → Nat
  | .mk _ _ _ cs => 1 + tallAll cs
def tallAll : List Elem → Nat
  | [] => 0
  | e :: es => max (tall e) (tallAll es)
end

mutual
theorem fits_hasRelative1 (name : Str) : ∀ (e : Elem) (k : Nat), 2 * tall e ≤ k →
    Fits (F := F) Eq k (hasRelativeOfName1 m name e) (pure (Verif.hasRelativeOfName1 name e))
  | .mk n v r cs, k, hk => by
    rw [tall] at hk
    unfold hasRelativeOfName1 Verif.hasRelativeOfName1
    refine Fits.step (Fits.leaf (by omega)) ?_
    split
    · rename_i hn
      simp only [hn, Bool.true_or]
      exact Fits.pure rfl
    · rename_i hn
      rw [Bool.not_eq_true] at hn
      simp only [hn, Bool.false_or]
      exact Fits.step (Fits.leaf (by omega)) (Fits.call' (by omega) (Fits.comp m (by omega)
        (fits_hasRelatives name cs _ (by omega))))
theorem fits_hasRelatives (name : Str) : ∀ (es : List Elem) (k : Nat), 2 * tallAll es ≤ k →
    Fits (F := F) Eq k (hasRelatives m name es) (pure (Verif.isThereRelativeOfName name es))
  | [], k, hk => by
    unfold hasRelatives Verif.isThereRelativeOfName
    exact Fits.pure rfl
  | e :: es, k, hk => by
    rw [tallAll] at hk
    unfold hasRelatives Verif.isThereRelativeOfName
    exact Fits.step (fits_hasRelative1 name e k (by omega))
      (Fits.step (fits_hasRelatives name es k (by omega)) (Fits.pure rfl))
end

theorem fits_mfenced (op close : Str) (seps : List Str) {ks : List (Kid F)} {ks' : List Verif.Kid}
    (h : FitsKids K ks ks') (hk : K + 2 ≤ k) (hk' : 5 ≤ k) (ht : 2 * tallAll (ks.map (·.1)) + 3 ≤ k) :
    Fits (F := F) Eq k (mfencedConvert m op close seps ks) (Verif.mfencedConvert op close seps ks') := by
  unfold mfencedConvert Verif.mfencedConvert
  rw [← h.elems]
  refine Fits.call' (by omega) (Fits.bind (fits_allKids m h (by omega)) fun a b e =>
    Fits.step (Fits.leaf (by omega)) (Fits.step (Fits.call' (by omega) (Fits.comp m (by omega)
      (fits_hasRelatives m _ _ _ (by omega)))) ?_))
  subst e
  split
  · exact fits_matrix _ _ _ (by omega)
  · exact fits_vector _ _ _ _ (by omega)

mutual
theorem fits_addFlag1 (name flag : Str) : ∀ (e : Elem) (k : Nat), tall e ≤ k →
    Fits (F := F) Eq k (addFlag1 name flag e) (Verif.addFlag1 name flag e)
  | .mk n v r cs, k, hk => by
    rw [tall] at hk
    unfold addFlag1 Verif.addFlag1
    refine Fits.step (Fits.leaf (by omega)) ?_
    have hr : Fits (F := F) Eq k (do Stack.leaf (); call (addFlags name flag cs))
        (Verif.addFlagRecursiveIfName name flag cs) :=
      Fits.step (Fits.leaf (by omega)) (Fits.call' (by omega) (fits_addFlags name flag cs _ (by omega)))
    split
    · refine Fits.bind (R := Eq) (Fits.call' (by omega) (Simulates.heap _)) fun a b e => hr
    · exact hr
theorem fits_addFlags (name flag : Str) : ∀ (es : List Elem) (k : Nat), tallAll es ≤ k →
    Fits (F := F) Eq k (addFlags name flag es) (Verif.addFlagRecursiveIfName name flag es)
  | [], k, hk => by
    unfold addFlags Verif.addFlagRecursiveIfName
    exact Fits.pure rfl
  | e :: es, k, hk => by
    rw [tallAll] at hk
    unfold addFlags Verif.addFlagRecursiveIfName
    exact Fits.bind (fits_addFlag1 name flag e k (by omega)) fun a b _ =>
      fits_addFlags name flag es k (by omega)
end

theorem fits_mtable (r : Nat) {ks : List (Kid F)} {ks' : List Verif.Kid} (h : FitsKids K ks ks')
    (hk : K + 2 ≤ k) (hk' : 5 ≤ k) : Fits (F := F) Eq k (mtableConvert m r ks) (Verif.mtableConvert r ks') := by
  refine Fits.call' (by omega) (Fits.bind (fits_allKids m h (by omega)) fun a b e =>
    Fits.bind (R := Eq) (Fits.call' (by omega) (fits_attributes r (by omega))) fun t t' et => ?_)
  subst e et
  split
  · exact Fits.leaf (by omega)
  · exact Fits.pure rfl

/-! ## Dispatch -/

/-- A constructed converter. -/
abbrev FitsConv (k : Nat) (x : F Str) (y : M Str) : Prop := Fits (F := F) Eq k x y

theorem fits_make {α β : Type} {R : α → β → Prop} {x : F α} {y : M β} (hk : 2 ≤ k)
    (h : Fits (F := F) R (k - 2) x y) : Fits (F := F) R k (make x) y :=
  Fits.call' (by omega) (Fits.call' (by omega) (by rwa [Nat.sub_sub]))

theorem fits_construct (kind : Kind) (name value : Str) (r : Nat) (cs : List Elem)
    {ks : List (Kid F)} {ks' : List Verif.Kid} (h : FitsKids K ks ks') (hcs : ks.map (·.1) = cs)
    (hK : 2 * tallAll cs + m.lib + 5 ≤ K) (hk : K + 2 ≤ k) :
    Fits (F := F) (FitsConv k) (k - 1) (construct m kind name value r cs ks)
      (Verif.construct kind name value r cs ks') := by
  have ht : 2 * tallAll (ks.map (·.1)) + 3 ≤ k := by rw [hcs]; omega
  cases kind <;> unfold construct Verif.construct <;> dsimp only
  case math => exact fits_make (by omega) (Fits.pure (fits_math m h hk))
  case mi => exact Fits.call' (by omega) (Fits.pure (fits_mi m value
      (fun k hk => fits_attributes r hk) (by omega)))
  case mo => exact Fits.call' (by omega) (Fits.pure (fits_mo m value (by omega)))
  case mn => exact Fits.call' (by omega) (Fits.pure (fits_mn value (by omega)))
  case msqrt => exact fits_make (by omega) (Fits.pure (fits_joined m h _ hk))
  case mfenced => exact fits_make (by omega) (Fits.read (by omega) fun a =>
      Fits.pure (fits_mfenced m _ _ _ h hk (by omega) ht))
  case mfrac => exact fits_make (by omega) (Fits.step (fits_wrapperInit (by omega))
      (Fits.pure (fits_mfrac name r h hk (by omega))))
  case mroot => exact fits_make (by omega) (Fits.pure (fits_mroot name h hk (by omega)))
  case maction => exact fits_make (by omega) (Fits.pure (fits_maction m r h hk (by omega)))
  case menclose => exact fits_make (by omega) (Fits.read (by omega) fun a =>
      Fits.pure (fits_joined m h (fun ss => encloseLatex _ (join c!" " ss)) hk))
  case merror => exact fits_make (by omega) (Fits.pure (fits_joined m h _ hk))
  case void => exact Fits.call' (by omega) (Fits.pure (Fits.call' (by omega) (Fits.pure rfl)))
  case msup => exact fits_make (by omega) (Fits.step (fits_wrapperInit (by omega))
      (Fits.step (fits_wrapperInit (by omega)) (Fits.pure (fits_msup name h hk (by omega)))))
  case msub => exact fits_make (by omega) (Fits.step (fits_wrapperInit (by omega))
      (Fits.step (fits_wrapperInit (by omega)) (Fits.pure (fits_msub name h hk (by omega)))))
  case msubsup => exact fits_make (by omega) (Fits.step (fits_wrapperInit (by omega))
      (Fits.step (fits_wrapperInit (by omega)) (Fits.pure (fits_msubsup name h hk (by omega)))))
  case mmultiscripts => exact fits_make (by omega) (Fits.step (fits_wrapperInit (by omega))
      (Fits.pure (fits_mmultiscripts m name h hk (by omega))))
  case mtext => exact Fits.call' (by omega) (Fits.pure (fits_mtext m value r (by omega)))
  case munderover => exact fits_make (by omega) (Fits.pure (fits_munderover name h hk (by omega)))
  case mtable => exact fits_make (by omega) (Fits.step (Fits.leaf (by omega))
      (Fits.bind (R := Eq) (Fits.call' (by omega) (fits_addFlags _ _ _ _ (by omega))) fun _ _ _ =>
        Fits.pure (fits_mtable m r h hk (by omega))))
  case mtr => exact fits_make (by omega) (Fits.pure (fits_joined m h _ hk))
  case underOver => exact fits_make (by omega) (Fits.pure (fits_underOver m name h hk (by omega)))
  case spacing => exact fits_make (by omega) (Fits.pure (fits_joined m h _ hk))

theorem kidsOf_elems (es : List Elem) : (kidsOf (F := F) m es).map (·.1) = es := by
  induction es with
  | nil => rfl
  | cons e es ih =>
    unfold kidsOf
    simp [ih]

mutual
theorem fits_toConv : ∀ (e : Elem) (k : Nat), 2 * tall e + m.lib + 5 ≤ k →
    Fits (F := F) (FitsConv k) k (toConv m e) (Verif.toConv e)
  | .mk name value r cs, k, hk => by
    rw [tall] at hk
    unfold toConv Verif.toConv
    exact Fits.call' (by omega) (Fits.step (Fits.leaf (by omega)) (Fits.step (Fits.leaf (by omega))
      (fits_construct m (classify name) name value r cs (fits_kidsOf cs (k - 2) (by omega))
        (kidsOf_elems m cs) (by omega) (by omega))))
theorem fits_kidsOf : ∀ (es : List Elem) (k : Nat), 2 * tallAll es + m.lib + 5 ≤ k →
    FitsKids (F := F) k (kidsOf m es) (Verif.kidsOf es)
  | [], k, hk => by
    unfold kidsOf Verif.kidsOf
    exact .nil
  | e :: es, k, hk => by
    rw [tallAll] at hk
    unfold kidsOf Verif.kidsOf
    exact .cons (Fits.bind (fits_toConv e k (by omega)) fun a b h => h)
      (fits_kidsOf es k (by omega))
end

end Verif.Stack
