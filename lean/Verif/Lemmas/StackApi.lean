import Verif.Lemmas.Stack
import Verif.Lemmas.Adapter
import Verif.Spec.Context

/-!
# The call stack: from the text to the elements, and the whole call
-/

namespace Verif.Stack
open Verif.Spec

/-- Activations per level of elements. -/
def per (m : Machine) : Nat := if m.comp then 3 else 2

/-- A computation without exceptions. -/
def liftS {α : Type} (y : StateM Heap α) : M α := fun h => (.ok (y h).1, (y h).2)

/-- An outcome that does not depend on the heap. -/
def ofE {α : Type} (r : Except Exc α) : M α := fun h => (r, h)

variable {F : Type → Type} [Reading F] [Simulates F] {k : Nat} (m : Machine)

/-! ## Building the elements -/

theorem fits_comp {α β : Type} {R : α → β → Prop} {x : F α} {y : M β} {k : Nat}
    (hk : per m ≤ k + 2) (hx : Fits (F := F) R (k + 2 - per m) x y) : Fits (F := F) R k (comp m x) y := by
  unfold comp
  unfold per at hx hk
  split
  · rename_i h
    rw [if_pos h] at hx hk
    exact Fits.call' (by omega) hx
  · rename_i h
    rw [if_neg h] at hx
    exact Fits.mono hx (by omega)

theorem per_cases : per m = 2 ∨ per m = 3 := by
  unfold per
  split
  · exact .inr rfl
  · exact .inl rfl

theorem buildElems_none : ∀ (cs : List Node), Verif.hasElementChild cs = false →
    Verif.buildElems cs = pure []
  | [], _ => rfl
  | c :: cs, h => by
    unfold Verif.hasElementChild at h
    rw [List.any_cons, Bool.or_eq_false_iff] at h
    have ih := buildElems_none cs h.2
    cases c with
    | elem t a cs' => exact absurd h.1 (by simp [Node.isElem])
    | text d =>
      rw [Verif.buildElems, ih]
      rfl
    | cdata d =>
      rw [Verif.buildElems, ih]
      rfl
    | comment d =>
      rw [Verif.buildElems, ih]
      rfl
    | pi t d =>
      rw [Verif.buildElems, ih]
      rfl

theorem levelsAll_none : ∀ (cs : List Node), Verif.hasElementChild cs = false → levelsAll cs = 0
  | [], _ => by rw [levelsAll]
  | c :: cs, h => by
    unfold Verif.hasElementChild at h
    rw [List.any_cons, Bool.or_eq_false_iff] at h
    rw [levelsAll, levelsAll_none cs h.2]
    cases c with
    | elem t a cs' => exact absurd h.1 (by simp [Node.isElem])
    | _ => simp [levels]

/-- Levels of an element that may be missing. -/
def tallO : Option Elem → Nat
  | none => 0
  | some e => tall e

mutual
theorem fits_buildElem : ∀ (n : Node) (k : Nat), per m * levels n + 1 ≤ k →
    Fits (F := F) (fun a b => a = b ∧ tallO a = levels n) k (buildElem m n) (liftS (Verif.buildElem n))
  | .elem tag attrs cs, k, hk => by
    rw [levels] at hk ⊢
    rw [Nat.mul_add, Nat.mul_one] at hk
    have hp := per_cases m
    unfold buildElem
    have hM : liftS (Verif.buildElem (.elem tag attrs cs)) =
        (liftS (alloc (convertAttributes attrs)) >>= fun r =>
          liftS (Verif.buildElems cs) >>= fun children =>
            pure (some (.mk tag (strip (elementValue cs)) r children))) := by
      rw [Verif.buildElem]
      rfl
    rw [hM]
    have hal : Fits (F := F) Eq (k - 1 - 1) (allocL (convertAttributes attrs))
        (liftS (alloc (convertAttributes attrs))) := Simulates.heap _
    refine Fits.call' (by omega) (Fits.bind (R := Eq) ?_ fun r r' er => ?_)
    · exact Fits.step (Fits.leaf (by omega)) (Fits.call' (by omega)
        (Fits.step (Fits.leaf (by omega)) hal))
    subst er
    refine Fits.step (a := Verif.hasElementChild cs) (Fits.call' (by omega) (Fits.leaf (by omega))) ?_
    cases hc : Verif.hasElementChild cs with
    | true =>
      rw [if_pos rfl]
      refine Fits.step (a := ()) (fits_comp m (by omega) (Fits.pure rfl))
        (Fits.bind (Fits.call' (by omega) (fits_comp m (by omega)
          (fits_buildElems cs _ (by omega)))) fun a b e => Fits.step (Fits.leaf (by omega)) ?_)
      obtain ⟨rfl, e⟩ := e
      have hv : elementValue cs = [] := by
        unfold elementValue
        rw [if_pos hc]
      rw [hv]
      refine Fits.pure ⟨rfl, ?_⟩
      rw [tallO, tall, e]
    | false =>
      rw [if_neg Bool.false_ne_true, buildElems_none cs hc]
      refine Fits.step (Fits.leaf (by omega)) (Fits.step (Fits.leaf (by omega)) ?_)
      exact Fits.pure (R := fun a b => a = b ∧ tallO a = 1 + levelsAll cs)
        (b := some (.mk tag (strip (elementValue cs)) r [])) ⟨rfl, by
          rw [tallO, tall, tallAll, levelsAll_none cs hc]⟩
  | .text d, k, hk => by
    unfold buildElem
    exact Fits.pure ⟨rfl, by simp [levels, tallO]⟩
  | .cdata d, k, hk => by
    unfold buildElem
    exact Fits.pure ⟨rfl, by simp [levels, tallO]⟩
  | .comment d, k, hk => by
    unfold buildElem
    exact Fits.pure ⟨rfl, by simp [levels, tallO]⟩
  | .pi t d, k, hk => by
    unfold buildElem
    exact Fits.pure ⟨rfl, by simp [levels, tallO]⟩
theorem fits_buildElems : ∀ (ns : List Node) (k : Nat), per m * levelsAll ns + 1 ≤ k →
    Fits (F := F) (fun a b => a = b ∧ tallAll a = levelsAll ns) k (buildElems m ns)
      (liftS (Verif.buildElems ns))
  | [], k, hk => by
    unfold buildElems
    exact Fits.pure ⟨rfl, by rw [levelsAll, tallAll]⟩
  | n :: ns, k, hk => by
    rw [levelsAll] at hk ⊢
    have h1 : per m * levels n ≤ per m * max (levels n) (levelsAll ns) :=
      Nat.mul_le_mul_left _ (Nat.le_max_left _ _)
    have h2 : per m * levelsAll ns ≤ per m * max (levels n) (levelsAll ns) :=
      Nat.mul_le_mul_left _ (Nat.le_max_right _ _)
    unfold buildElems
    have hM : liftS (Verif.buildElems (n :: ns)) =
        (liftS (Verif.buildElem n) >>= fun e => liftS (Verif.buildElems ns) >>= fun es =>
          pure (match e with | some e => e :: es | none => es)) := by
      rw [Verif.buildElems]
      rfl
    rw [hM]
    refine Fits.bind (fits_buildElem n k (by omega)) fun e e' he =>
      Fits.bind (fits_buildElems ns k (by omega)) fun es es' hes => ?_
    obtain ⟨rfl, he⟩ := he
    obtain ⟨rfl, hes⟩ := hes
    cases e with
    | none =>
      refine Fits.pure ⟨rfl, ?_⟩
      rw [hes, ← he, tallO, Nat.zero_max]
    | some e =>
      refine Fits.pure ⟨rfl, ?_⟩
      rw [tallAll, hes, ← he, tallO]
end

/-! ## Finding the `math` elements -/

/-- What the search finds strictly below a node. -/
def below : Node → List Node
  | .elem _ _ cs => mathElements cs
  | _ => []

mutual
theorem fits_searchNode : ∀ (n : Node) (k : Nat), levels n + 1 ≤ k →
    Fits (F := F) Eq k (searchNode n) (pure (below n))
  | .elem tag attrs cs, k, hk => by
    rw [levels] at hk
    unfold searchNode below
    exact Fits.call' (by omega) (fits_searchNodes cs _ (by omega))
  | .text d, k, hk => Fits.call' (by omega) (Fits.pure rfl)
  | .cdata d, k, hk => Fits.call' (by omega) (Fits.pure rfl)
  | .comment d, k, hk => Fits.call' (by omega) (Fits.pure rfl)
  | .pi t d, k, hk => Fits.call' (by omega) (Fits.pure rfl)
theorem fits_searchNodes : ∀ (ns : List Node) (k : Nat), levelsAll ns + 1 ≤ k →
    Fits (F := F) Eq k (searchNodes ns) (pure (mathElements ns))
  | [], k, hk => Fits.pure rfl
  | n :: ns, k, hk => by
    rw [levelsAll] at hk
    unfold searchNodes
    refine Fits.step (fits_searchNode n k (by omega))
      (Fits.step (fits_searchNodes ns k (by omega)) ?_)
    rw [mathElements]
    cases n with
    | elem t a cs =>
      rw [mathElementsOf, below]
      exact Fits.pure rfl
    | _ =>
      simp only [mathElementsOf, below]
      exact Fits.pure rfl
end

mutual
theorem levels_mathElementsOf : ∀ (n : Node), levelsAll (mathElementsOf n) ≤ levels n
  | .elem tag attrs cs => by
    rw [mathElementsOf, levels]
    have h := levels_mathElements cs
    split
    · show levelsAll (_ :: mathElements cs) ≤ _
      rw [levelsAll, levels]
      omega
    · show levelsAll (mathElements cs) ≤ _
      omega
  | .text d => by simp [mathElementsOf, levelsAll]
  | .cdata d => by simp [mathElementsOf, levelsAll]
  | .comment d => by simp [mathElementsOf, levelsAll]
  | .pi t d => by simp [mathElementsOf, levelsAll]
theorem levels_mathElements : ∀ (ns : List Node), levelsAll (mathElements ns) ≤ levelsAll ns
  | [] => by rw [mathElements]; exact Nat.le_refl _
  | n :: ns => by
    rw [mathElements, levelsAll]
    have h1 := levels_mathElementsOf n
    have h2 := levels_mathElements ns
    have : ∀ (a b : List Node), levelsAll (a ++ b) = max (levelsAll a) (levelsAll b) := by
      intro a b
      induction a with
      | nil => rw [List.nil_append, levelsAll, Nat.zero_max]
      | cons x a ih => rw [List.cons_append, levelsAll, levelsAll, ih, Nat.max_assoc]
    rw [this]
    omega
end

theorem levels_mem {n : Node} : ∀ {ns : List Node}, n ∈ ns → levels n ≤ levelsAll ns
  | _ :: _, .head _ => by rw [levelsAll]; omega
  | _ :: _, .tail _ h => by
    rw [levelsAll]
    have := levels_mem h
    omega

/-! ## Repairs -/

theorem fits_throw {α : Type} {R : α → α → Prop} {e : Exc} :
    Fits (F := F) R k (throwL (.raised e)) (ofE (.error e)) := Fits.throw

theorem fits_fixValue (code lineno offset : Nat) (xml : Str) (hk : m.lib + 2 ≤ k) :
    Fits (F := F) Eq k (fixMissingAttributeValue m code lineno offset xml)
      (ofE (Verif.fixMissingAttributeValue code lineno offset xml)) := by
  refine Fits.call' (by omega) ?_
  unfold Verif.fixMissingAttributeValue
  split
  · exact Fits.pure rfl
  · generalize pyIndex (splitOn '\n' xml) ((lineno : Int) - 1) = o
    cases o with
    | none => exact Fits.throw
    | some line =>
      dsimp only
      generalize getWordAtStrPos line offset = w
      refine Fits.step (Fits.leaf (by omega)) ?_
      cases w with
      | none => exact Fits.throw
      | some w =>
        exact Fits.step (Fits.call' (by omega) (Fits.lib m (by omega)))
          (Fits.step (Fits.lib m (by omega)) (Fits.pure rfl))

theorem fits_genericLoop (env : Env) (xml : Str) (hk : m.lib ≤ k) : ∀ (n : Nat) (result : Str),
    Fits (F := F) Eq k (genericLoop m env xml n result) (pure (Verif.genericLoop env xml n result))
  | 0, result => Fits.step (Fits.lib m hk) (Fits.pure rfl)
  | n + 1, result => by
    unfold genericLoop Verif.genericLoop
    refine Fits.step (Fits.lib m hk) ?_
    split
    · exact Fits.step (Fits.lib m hk) (fits_genericLoop env xml hk n _)
    · exact Fits.pure rfl

theorem fits_fixError (env : Env) (xml : Str) (e : ParseErr) (hk : m.lib + 4 ≤ k) :
    Fits (F := F) Eq k (fixError m env xml (.raised e.toExc)) (ofE (Verif.fixError env xml e)) := by
  cases e with
  | other i => exact Fits.call' (by omega) (Fits.pure rfl)
  | expat code lineno offset =>
    refine Fits.call' (by omega) (Fits.call' (by omega) ?_)
    have hM : ofE (Verif.fixError env xml (.expat code lineno offset)) =
        (ofE (Verif.fixMissingAttributeValue code lineno offset xml) >>= fun result =>
          ofE (if result ≠ xml then .ok result else .ok (Verif.genericLoop env xml 5 result))) := by
      unfold Verif.fixError Verif.fixMissingAttribute
      dsimp only
      cases Verif.fixMissingAttributeValue code lineno offset xml <;> rfl
    rw [hM]
    refine Fits.bind (fits_fixValue m code lineno offset xml (by omega)) fun a b e => ?_
    subst e
    split
    · exact Fits.pure rfl
    · exact Fits.step (Fits.call' (by omega) (Fits.lib m (by omega)))
        (fits_genericLoop m env xml (by omega) 5 a)

theorem fits_attempt (env : Env) (xml : Str) (B : Nat)
    (hB : ∀ d, env.parse xml = .ok d → levelsAll d ≤ B) (hk : B + 3 ≤ k) (hk' : m.lib ≤ k) :
    Fits (F := F) (fun a b => a = b ∧ levelsAll a ≤ B) k (attempt m env xml)
      (ofE (match env.parse xml with
        | .error e => .error e.toExc
        | .ok dom => .ok (mathElements dom))) := by
  refine Fits.step (Fits.lib m hk') ?_
  cases hp : env.parse xml with
  | error e => exact Fits.throw
  | ok d =>
    have := hB d hp
    have h1 : Fits (F := F) Eq k (getElementsByTagName d) (ofE (.ok (mathElements d))) :=
      Fits.call' (by omega) (Fits.call' (by omega) (fits_searchNodes d _ (by omega)))
    refine Simulates.imp h1 fun a b h h' hb hab => ⟨hab, ?_⟩
    subst hab
    cases hb
    exact Nat.le_trans (levels_mathElements d) this

/-! ## The whole call -/

/-- The constructed converters, pairwise. -/
inductive FitsAll (k : Nat) : List (F Str) → List (M Str) → Prop
  | nil : FitsAll k [] []
  | cons {x y xs ys} : FitsConv k x y → FitsAll k xs ys → FitsAll k (x :: xs) (y :: ys)

theorem fits_constructAll (k : Nat) : ∀ (es : List Elem), 2 * tallAll es + m.lib + 5 ≤ k →
    Fits (F := F) (FitsAll k) k (constructAll m es) (Verif.constructAll es)
  | [], _ => Fits.pure .nil
  | e :: es, hk => by
    rw [tallAll] at hk
    exact Fits.bind (fits_toConv m e k (by omega)) fun a b hab =>
      Fits.bind (fits_constructAll k es (by omega)) fun as bs h => Fits.pure (.cons hab h)

theorem fits_convertAll {ks : List (F Str)} {ks' : List (M Str)}
    (h : FitsAll k ks ks') : Fits (F := F) Eq k (convertAll ks) (Verif.convertAll ks') := by
  induction h with
  | nil => exact Fits.pure rfl
  | cons hab _ ih =>
    exact Fits.bind hab fun a b e => Fits.bind ih fun as bs es => Fits.pure (by rw [e, es])

theorem fits_convert_of (env : Env) (x : Str) (B : Nat)
    (hm : Fits (F := F) (fun a b => a = b ∧ levelsAll a ≤ B) (per m * B + m.lib + 5)
      (mathmlElements m env 5 none (prep x)) (ofE (Verif.mathmlElements env 5 none (prep x)).1)) :
    Fits (F := F) Eq (per m * B + m.lib + 8) (convert m env x)
      (ofE (Verif.mathmlElements env 5 none (prep x)).1 >>= fun nodes => renderNodes nodes) := by
  have hp := per_cases m
  have hB2 : 2 * B ≤ per m * B := Nat.mul_le_mul_right _ (by omega)
  have hx : removeMsWordPrefixes (removeLineBreaks x) = prep x := by
    rw [removeLineBreaks_spec, removeMsWordPrefixes_spec, prep]
  refine Fits.call' (by omega) (Fits.step (a := ()) (Fits.call' (by omega)
    (Fits.step (Fits.leaf (by omega)) (Fits.leaf (by omega)))) ?_)
  have hM : (ofE (Verif.mathmlElements env 5 none (prep x)).1 >>= fun nodes => renderNodes nodes) =
      ((ofE (Verif.mathmlElements env 5 none (prep x)).1 >>= fun nodes =>
        liftS (Verif.buildElems nodes)) >>= fun es => renderAll es) := by
    cases (Verif.mathmlElements env 5 none (prep x)).1 <;> rfl
  rw [hM]
  refine Fits.bind (R := fun a b => a = b ∧ tallAll a ≤ B) ?_ fun es es' he => ?_
  · unfold adapterConvert
    rw [hx]
    refine Fits.call' (by omega) (Fits.step (Fits.call' (by omega) (Fits.lib m (by omega)))
      (Fits.step (Fits.call' (by omega) (Fits.lib m (by omega))) (Fits.bind (Fits.call' (by omega)
        (Fits.mono hm (by omega))) fun ns ns' hn => ?_)))
    obtain ⟨rfl, hn⟩ := hn
    have h1 : per m * levelsAll ns ≤ per m * B := Nat.mul_le_mul_left _ hn
    refine Simulates.imp (Fits.call' (k := per m * B + m.lib + 8 - 1 - 1) (by omega)
      (fits_comp m (by omega) (fits_buildElems m ns _ (by omega)))) fun a b _ _ _ hR =>
        ⟨hR.1, by rw [hR.2]; exact hn⟩
  · obtain ⟨rfl, he⟩ := he
    refine Fits.bind (fits_comp m (by omega) (Fits.mono (fits_constructAll m (2 * B + m.lib + 5) es
      (by omega)) (by omega))) fun ks ks' hks =>
      Fits.bind (fits_comp m (by omega) (Fits.mono (fits_convertAll (k := 2 * B + m.lib + 5) hks) (by omega))) fun ss ss' hss => ?_
    subst hss
    exact Fits.pure rfl


end Verif.Stack
