import Verif.Lemmas.Calls

/-!
# Lower bounds for the number of calls
-/

namespace Verif.Stack
open Verif.Spec

/-- A run that returns takes at least `k` moments, and the result has the property `P`. -/
def Spends {α : Type} (o : Faults) (P : α → Prop) (k : Nat) (x : FM α) : Prop :=
  ∀ t h a t' h', x o t h = (.ok a, t', h') → t + k ≤ t' ∧ P a

section
variable {α β : Type} {o : Faults} {P : α → Prop} {Q : β → Prop} {k l : Nat}

theorem Spends.mono {x : FM α} (h : Spends o P k x) (hk : l ≤ k) : Spends o P l x :=
  fun t h' a t' h'' hr => ⟨by have := (h t h' a t' h'' hr).1; omega, (h t h' a t' h'' hr).2⟩

theorem Spends.pure {a : α} (h : P a) : Spends o P 0 (Pure.pure a : FM α) :=
  fun t _ a' t' _ hr => by cases hr; exact ⟨Nat.le_refl _, h⟩

theorem Spends.bind {x : FM α} {f : α → FM β} (hx : Spends o P k x) (hf : ∀ a, P a → Spends o Q l (f a)) :
    Spends o Q (k + l) (x >>= f) := by
  intro t h b t' h' hr
  generalize hx' : x o t h = r at hr
  obtain ⟨_ | a, t1, h1⟩ := r
  · rw [bindF_error hx'] at hr
    cases hr
  · rw [bindF_ok hx'] at hr
    obtain ⟨h2, h3⟩ := hx t h a t1 h1 hx'
    obtain ⟨h4, h5⟩ := hf a h3 t1 h1 b t' h' hr
    exact ⟨by omega, h5⟩

theorem Spends.then {x : FM α} {f : α → FM β} (hx : Spends o P 0 x) (hf : ∀ a, P a → Spends o Q l (f a)) :
    Spends o Q l (x >>= f) := by
  have := Spends.bind hx hf
  rwa [Nat.zero_add] at this

theorem spends_moment : Spends o (fun _ => True) 1 moment := by
  intro t h a t' h' hr
  unfold moment at hr
  cases ho : o t with
  | none => rw [ho] at hr; cases hr; exact ⟨Nat.le_refl _, trivial⟩
  | some f => rw [ho] at hr; cases hr

theorem Spends.call {x : FM α} (hx : Spends o P k x) : Spends o P (k + 2) (Stack.call x) := by
  have := Spends.bind (spends_moment (o := o)) fun _ _ => Spends.bind hx fun a ha =>
    Spends.bind (spends_moment (o := o)) fun _ _ => (Spends.pure ha : Spends o P 0 (Pure.pure a : FM α))
  exact this.mono (by omega)

theorem Spends.call' {x : FM α} (hx : Spends o P k x) : Spends o P k (Stack.call x) :=
  hx.call.mono (by omega)

theorem Spends.comp (m : Machine) {x : FM α} (hx : Spends o P k x) : Spends o P k (Stack.comp m x) := by
  unfold Stack.comp
  split
  · exact hx.call'
  · exact hx

theorem Spends.leaf {a : α} (h : P a) : Spends o P 0 (Stack.leaf a : FM α) := (Spends.pure h).call'

theorem Spends.heap {f : Heap → α × Heap} : Spends o (fun _ => True) 0 (Stack.heap f : FM α) :=
  fun t _ a' t' _ hr => by cases hr; exact ⟨Nat.le_refl _, trivial⟩

theorem spends_lib (m : Machine) : Spends o (fun _ => True) 0 (lib m : FM Unit) :=
  spends_moment.mono (Nat.zero_le _)

/-- What `Safe` says about runs that return. -/
theorem Safe.spends {E : Stop → Prop} {R : α → β → Prop} {x : FM α} {r : Except Exc β}
    (h : Safe o E R x (ofE r)) : Spends o (fun a => ∃ b, r = .ok b ∧ R a b) 0 x := by
  intro t hp a t' h' hr
  obtain ⟨⟨h1, _⟩, h2⟩ := h t hp
  rw [hr] at h1 h2
  refine ⟨h1, ?_⟩
  rcases h2 with ⟨s, r', hs, _⟩ | hs
  · cases hs
  · generalize hy : (ofE r : M β) hp = ry at hs
    cases hs with
    | ok hab => exact ⟨_, congrArg Prod.fst hy, hab⟩

end

variable {o : Faults} (m : Machine)

/-- `k` fences around a number, with a `math` element in each. -/
inductive Tower : Nat → Elem → Prop
  | base {v r} : Tower 0 (.mk c!"mn" v r [])
  | fence {k v r v' r' e} : Tower k e → Tower (k + 1) (.mk c!"mfenced" v r [.mk c!"math" v' r' [e]])

theorem spends_single {e : Elem} {k : Nat}
    (h : Spends o (fun _ => True) k (hasRelativeOfName1 m c!"mtable" e : FM Bool)) :
    Spends o (fun _ => True) k (hasRelatives m c!"mtable" [e] : FM Bool) := by
  unfold hasRelatives
  refine (Spends.bind (l := 0) h fun b _ => Spends.then (P := fun _ => True) ?_ fun _ _ => Spends.pure trivial).mono
    (Nat.le_refl _)
  unfold hasRelatives
  exact Spends.pure trivial

theorem spends_relative_math {e : Elem} {v : Str} {r k : Nat}
    (h : Spends o (fun _ => True) k (hasRelativeOfName1 m c!"mtable" e : FM Bool)) :
    Spends o (fun _ => True) k (hasRelativeOfName1 m c!"mtable" (.mk c!"math" v r [e]) : FM Bool) := by
  unfold hasRelativeOfName1
  refine Spends.then (Spends.leaf (P := fun _ => True) trivial) fun _ _ => ?_
  rw [if_neg (by decide)]
  refine Spends.then (Spends.leaf (P := fun _ => True) trivial) fun _ _ => ?_
  exact (Spends.comp m (spends_single m h)).call'

theorem spends_hasRelative {k : Nat} {e : Elem} (h : Tower k e) :
    Spends o (fun _ => True) (2 * k) (hasRelativeOfName1 m c!"mtable" e : FM Bool) := by
  induction h with
  | base =>
    unfold hasRelativeOfName1
    refine Spends.then (Spends.leaf (P := fun _ => True) trivial) fun _ _ => ?_
    rw [if_neg (by decide)]
    refine Spends.then (Spends.leaf (P := fun _ => True) trivial) fun _ _ => (Spends.comp m ?_).call'
    unfold hasRelatives
    exact Spends.pure trivial
  | fence _ ih =>
    unfold hasRelativeOfName1
    refine Spends.then (Spends.leaf (P := fun _ => True) trivial) fun _ _ => ?_
    rw [if_neg (by decide)]
    refine Spends.then (Spends.leaf (P := fun _ => True) trivial) fun _ _ => ?_
    exact (Spends.comp m (spends_single m (spends_relative_math m ih))).call.mono (by omega)

theorem spends_wrap (a b s : Str) : Spends o (fun _ => True) 0 (genericWrap a b s : FM Str) := by
  unfold genericWrap
  exact Spends.then (P := fun _ => True) (Spends.leaf trivial).call' fun _ _ => (Spends.leaf trivial).call'

theorem spends_are (a b c d : Str) : Spends o (fun _ => True) 0 (areSeparators a b c d : FM Bool) :=
  (Spends.leaf trivial).call'

theorem spends_command (op close : Str) : Spends o (fun _ => True) 0 (matrixCommand op close : FM Str) := by
  unfold matrixCommand
  refine Spends.call' (Spends.then (spends_are _ _ _ _) fun _ _ => ?_)
  split
  · exact Spends.pure trivial
  refine Spends.then (spends_are _ _ _ _) fun _ _ => ?_
  split
  · exact Spends.pure trivial
  refine Spends.then (spends_are _ _ _ _) fun _ _ => ?_
  split
  · exact Spends.pure trivial
  refine Spends.then (spends_are _ _ _ _) fun _ _ => ?_
  split
  · exact Spends.pure trivial
  refine Spends.then (spends_are _ _ _ _) fun _ _ => ?_
  split
  · exact Spends.pure trivial
  refine Spends.then (Spends.leaf (P := fun _ => True) trivial) fun _ _ => ?_
  split <;> exact Spends.pure trivial

theorem spends_matrix (op close : Str) (ss : List Str) : Spends o (fun _ => True) 0 (matrixApply op close ss : FM Str) := by
  unfold matrixApply
  refine Spends.then (P := fun _ => True) (Spends.leaf trivial).call' fun _ _ => Spends.call' ?_
  refine Spends.then (spends_command _ _) fun _ _ => ?_
  dsimp only
  split
  · exact (spends_wrap _ _ _).call'
  · exact Spends.pure trivial

theorem spends_joinFrom (seps : List Str) : ∀ (ss : List Str) (i : Nat),
    Spends o (fun _ => True) 0 (joinManyFrom seps i ss : FM Str)
  | [], i => Spends.pure trivial
  | s :: ss, i => by
    unfold joinManyFrom
    have h : Spends o (fun _ => True) 0
        (if ss = [] then pure [] else leaf (getSeparator seps i) : FM Str) := by
      split
      · exact Spends.pure trivial
      · exact Spends.leaf trivial
    by_cases hs : ss = []
    · rw [if_pos hs]
      exact Spends.then (P := fun _ => True) (Spends.pure trivial) fun _ _ =>
        Spends.then (spends_joinFrom seps ss (i + 1)) fun _ _ => Spends.pure trivial
    · rw [if_neg hs]
      exact Spends.then (P := fun _ => True) (Spends.leaf trivial) fun _ _ =>
        Spends.then (spends_joinFrom seps ss (i + 1)) fun _ _ => Spends.pure trivial

theorem spends_vector (op close : Str) (seps ss : List Str) :
    Spends o (fun _ => True) 0 (vectorApply op close seps ss : FM Str) := by
  unfold vectorApply
  refine Spends.then (P := fun _ => True) (Spends.leaf trivial) fun _ _ => Spends.call' ?_
  refine Spends.then (P := fun _ => True) ?_ fun _ _ => spends_wrap _ _ _
  unfold joinMany
  exact Spends.then (P := fun _ => True) (Spends.leaf trivial) fun _ _ => (spends_joinFrom _ _ _).call'

theorem spends_allKids {e : Elem} {x : FM Str} {k : Nat} (h : Spends o (fun _ => True) k x) :
    Spends o (fun _ => True) k (allKids m [(e, x)]) := by
  unfold allKids
  refine Spends.then (P := fun _ => True) (Spends.leaf trivial) fun _ _ => Spends.comp m ?_
  unfold runKids
  refine (Spends.bind (l := 0) h fun s _ => Spends.then (P := fun _ => True) ?_ fun _ _ => Spends.pure trivial).mono
    (Nat.le_refl _)
  unfold runKids
  exact Spends.pure trivial

theorem spends_mfenced (op close : Str) (seps : List Str) {e : Elem} {x : FM Str} {k n : Nat}
    (he : Spends o (fun _ => True) (2 * n) (hasRelativeOfName1 m c!"mtable" e : FM Bool))
    (h : Spends o (fun _ => True) k x) :
    Spends o (fun _ => True) (k + 2 * n) (mfencedConvert m op close seps [(e, x)]) := by
  unfold mfencedConvert
  refine Spends.call' (Spends.bind (spends_allKids m h) fun ss _ => ?_)
  refine Spends.then (P := fun _ => True) (Spends.leaf trivial) fun _ _ => ?_
  have hr : Spends o (fun _ => True) (2 * n) (isThereRelativeOfName m c!"mtable" ([(e, x)].map (·.1)) : FM Bool) :=
    (Spends.comp m (spends_single m he)).call'
  refine (Spends.bind (l := 0) hr fun b _ => ?_).mono (Nat.le_refl _)
  split
  · exact spends_matrix _ _ _
  · exact spends_vector _ _ _ _

theorem spends_attributes (r : Nat) : Spends o (fun _ => True) 0 (attributes r : FM Attrs) :=
  Spends.heap.call'

theorem spends_math {e : Elem} {v : Str} {r k : Nat}
    (h : Spends o (Spends o (fun _ => True) k) 0 (toConv m e : FM (FM Str))) :
    Spends o (Spends o (fun _ => True) k) 0 (toConv m (.mk c!"math" v r [e]) : FM (FM Str)) := by
  unfold toConv
  refine Spends.call' (Spends.then (P := fun _ => True) (Spends.leaf trivial) fun _ _ =>
    Spends.then (P := fun _ => True) (Spends.leaf trivial) fun _ _ => ?_)
  rw [show classify c!"math" = .math by decide]
  unfold construct make
  refine Spends.call' (Spends.call' (Spends.pure ?_))
  unfold kidsOf kidsOf mathConvert
  refine Spends.call' ((Spends.bind (l := 0) (spends_allKids m (Spends.then h fun x hx => hx)) fun ss _ => ?_).mono
    (Nat.le_refl _))
  exact Spends.leaf trivial

theorem spends_toConv {k : Nat} {e : Elem} (h : Tower k e) :
    Spends o (Spends o (fun _ => True) (k * (k - 1))) 0 (toConv m e : FM (FM Str)) := by
  induction h with
  | @base v r =>
    unfold toConv
    refine Spends.call' (Spends.then (P := fun _ => True) (Spends.leaf trivial) fun _ _ =>
      Spends.then (P := fun _ => True) (Spends.leaf trivial) fun _ _ => ?_)
    rw [show classify c!"mn" = .mn by decide]
    unfold construct
    refine Spends.call' (Spends.pure ?_)
    unfold mnConvert
    refine Spends.call' (Spends.then (P := fun _ => True) (Spends.leaf trivial) fun _ _ =>
      Spends.then (P := fun _ => True) (Spends.leaf trivial) fun _ _ => Spends.pure trivial)
  | @fence k v r v' r' e ht ih =>
    unfold toConv
    refine Spends.call' (Spends.then (P := fun _ => True) (Spends.leaf trivial) fun _ _ =>
      Spends.then (P := fun _ => True) (Spends.leaf trivial) fun _ _ => ?_)
    rw [show classify c!"mfenced" = .mfenced by decide]
    unfold construct make
    refine Spends.call' (Spends.call' (Spends.then (spends_attributes r) fun a _ => Spends.pure ?_))
    unfold kidsOf kidsOf
    refine (spends_mfenced m _ _ _ (spends_relative_math m (spends_hasRelative m ht))
      (Spends.then (spends_math m ih) fun x hx => hx)).mono ?_
    rw [Nat.add_sub_cancel]
    cases k with
    | zero => exact Nat.le_refl _
    | succ k =>
      rw [Nat.add_sub_cancel, Nat.add_mul (k + 1) 1, Nat.mul_add (k + 1) k 1]
      omega

/-- The `math` elements of a tower. -/
inductive Towers : Nat → List Elem → Prop
  | base {v r e} : Tower 0 e → Towers 0 [.mk c!"math" v r [e]]
  | succ {k v r e es} : Tower (k + 1) e → Towers k es → Towers (k + 1) (.mk c!"math" v r [e] :: es)

/-- The sum of `j (j - 1)`. -/
def pyramid : Nat → Nat
  | 0 => 0
  | k + 1 => (k + 1) * k + pyramid k

theorem spends_constructAll {k : Nat} {es : List Elem} (h : Towers k es) :
    Spends o (fun xs => Spends o (fun _ => True) (pyramid k) (convertAll xs)) 0
      (constructAll m es : FM (List (FM Str))) := by
  induction h with
  | base ht =>
    unfold constructAll constructAll
    refine Spends.then (spends_math m (spends_toConv m ht)) fun x hx => Spends.then
      (P := fun xs => xs = []) (Spends.pure rfl) fun xs hxs => Spends.pure ?_
    subst hxs
    unfold convertAll convertAll
    exact Spends.then (hx.mono (Nat.zero_le _)) fun _ _ => Spends.then (P := fun _ => True) (Spends.pure trivial)
      fun _ _ => Spends.pure trivial
  | succ ht _ ih =>
    unfold constructAll
    refine Spends.then (spends_math m (spends_toConv m ht)) fun x hx => Spends.then ih fun xs hxs =>
      Spends.pure ?_
    unfold convertAll
    refine Spends.bind hx fun _ _ => ?_
    exact Spends.bind (l := 0) hxs fun _ _ => Spends.pure trivial

/-! ## Building the elements -/

theorem spends_attrs (A : List (Str × Str)) : Spends o (fun _ => True) 0 (convertElementAttributes A : FM Nat) := by
  unfold convertElementAttributes
  exact Spends.then (P := fun _ => True) (Spends.leaf trivial) fun _ _ => Spends.call'
    (Spends.then (P := fun _ => True) (Spends.leaf trivial) fun _ _ => Spends.heap)

theorem spends_around {n : Node} {P : Elem → Prop} {tag : Str} (hn : n.isElem = true)
    (h : Spends o (fun r => ∃ e, r = some e ∧ P e) 0 (buildElem m n : FM (Option Elem))) :
    Spends o (fun r => ∃ e, r = some e ∧ ∃ v r e', e = .mk tag v r [e'] ∧ P e') 0
      (buildElem m (.elem tag [] [n]) : FM (Option Elem)) := by
  unfold buildElem
  refine Spends.call' (Spends.then (spends_attrs []) fun r _ => ?_)
  refine Spends.then (P := fun b => b = true) ?_ fun b hb => ?_
  · refine Spends.call' (Spends.leaf ?_)
    rw [Verif.hasElementChild, List.any_cons, hn]
    rfl
  rw [if_pos hb]
  refine Spends.then (P := fun _ => True) (Spends.comp m (Spends.pure trivial)) fun _ _ => ?_
  refine Spends.then (P := fun es => ∃ e, es = [e] ∧ P e) (Spends.call' (Spends.comp m ?_)) fun es hes => ?_
  · unfold buildElems
    refine Spends.then h fun r hr => ?_
    obtain ⟨e, rfl, he⟩ := hr
    refine Spends.then (P := fun es => es = []) ?_ fun es hes => ?_
    · unfold buildElems
      exact Spends.pure rfl
    · subst hes
      exact Spends.pure ⟨e, rfl, he⟩
  · obtain ⟨e, rfl, he⟩ := hes
    exact Spends.then (P := fun _ => True) (Spends.leaf trivial) fun _ _ =>
      Spends.pure ⟨_, rfl, _, _, _, rfl, he⟩

theorem fenceTower_isElem (k : Nat) : (fenceTower k).isElem = true := by cases k <;> rfl

theorem spends_buildTower : ∀ (k : Nat),
    Spends o (fun r => ∃ e, r = some e ∧ Tower k e) 0 (buildElem m (fenceTower k) : FM (Option Elem))
  | 0 => by
    unfold fenceTower buildElem
    refine Spends.call' (Spends.then (spends_attrs []) fun r _ => ?_)
    refine Spends.then (P := fun b => b = false) (Spends.call' (Spends.leaf rfl)) fun b hb => ?_
    rw [if_neg (by rw [hb]; decide)]
    exact Spends.then (P := fun _ => True) (Spends.leaf trivial) fun _ _ =>
      Spends.then (P := fun _ => True) (Spends.leaf trivial) fun _ _ => Spends.pure ⟨_, rfl, .base⟩
  | k + 1 => by
    have h1 := spends_around (tag := c!"math") m (fenceTower_isElem k) (spends_buildTower k)
    have h2 := spends_around (tag := c!"mfenced") m rfl h1
    unfold fenceTower
    intro t h r t' h' hr
    obtain ⟨h3, e, he, v, r1, e1, he1, v', r2, e2, he2, ht⟩ := h2 t h r t' h' hr
    subst he1 he2
    exact ⟨h3, _, he, .fence ht⟩

/-- The `math` elements of the tower, from the outside to the inside. -/
def mathList : Nat → List Node
  | 0 => [.elem c!"math" [] [fenceTower 0]]
  | k + 1 => .elem c!"math" [] [fenceTower (k + 1)] :: mathList k

theorem mathElements_tower : ∀ (k : Nat), mathElements [.elem c!"math" [] [fenceTower k]] = mathList k
  | 0 => by simp [mathElements, mathElementsOf, fenceTower, mathList]
  | k + 1 => by
    have ih := mathElements_tower k
    rw [mathList, ← ih]
    simp only [fenceTower, mathElements, mathElementsOf]
    simp

theorem spends_buildList : ∀ (k : Nat), Spends o (fun es => Towers k es) 0 (buildElems m (mathList k) : FM (List Elem))
  | 0 => by
    have h := spends_around (tag := c!"math") m (fenceTower_isElem 0) (spends_buildTower (o := o) m 0)
    unfold mathList buildElems
    refine Spends.then h fun r hr => ?_
    obtain ⟨e, rfl, v, r, e', rfl, he⟩ := hr
    refine Spends.then (P := fun es => es = []) ?_ fun es hes => ?_
    · unfold buildElems
      exact Spends.pure rfl
    · subst hes
      exact Spends.pure (.base he)
  | k + 1 => by
    have h := spends_around (tag := c!"math") m (fenceTower_isElem (k + 1)) (spends_buildTower (o := o) m (k + 1))
    unfold mathList buildElems
    refine Spends.then h fun r hr => ?_
    obtain ⟨e, rfl, v, r, e', rfl, he⟩ := hr
    refine Spends.then (spends_buildList k) fun es hes => ?_
    exact Spends.pure (.succ he hes)

theorem spends_convert (env : Env) (x : Str) (k B : Nat) (hB : ∀ d, ParsesTo env x d → levelsAll d ≤ B)
    (hr : (Verif.mathmlElements env 5 none (prep x)).1 = .ok (mathList k)) :
    Spends o (fun _ => True) (pyramid k) (convert m env x : FM Str) := by
  have hx : removeMsWordPrefixes (removeLineBreaks x) = prep x := by
    rw [removeLineBreaks_spec, removeMsWordPrefixes_spec, prep]
  have hm := (safe_mathmlElements m env x o B (fun i y d hi hc hp => hB d ⟨i, y, hi, hc, hp⟩) 5 0 (prep x)
    none none .first (by omega) (.inl ⟨rfl, rfl⟩)).spends
  unfold convert
  refine Spends.call' (Spends.then (P := fun _ => True) ?_ fun _ _ => Spends.then (P := Towers k) ?_ fun es hes => ?_)
  · unfold makeAdapter
    exact Spends.call' (Spends.then (P := fun _ => True) (Spends.leaf trivial) fun _ _ => Spends.leaf trivial)
  · unfold adapterConvert
    rw [hx]
    refine Spends.call' (Spends.then (spends_lib m).call' fun _ _ => Spends.then (spends_lib m).call' fun _ _ =>
      Spends.then hm.call' fun ns hns => ?_)
    obtain ⟨ns', h1, rfl, _⟩ := hns
    rw [hr] at h1
    cases h1
    exact Spends.call' (Spends.comp m (spends_buildList m k))
  · refine Spends.then (Spends.comp m (spends_constructAll m hes)) fun xs hxs => ?_
    exact Spends.bind (l := 0) (Spends.comp m hxs) fun _ _ => Spends.pure trivial

end Verif.Stack
