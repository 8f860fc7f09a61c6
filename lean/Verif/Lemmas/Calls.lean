import Verif.Lemmas.Faults
import Verif.Lemmas.Steps
import Verif.Spec.Calls

/-!
# The number of calls
-/

namespace Verif.Stack
open Verif.Spec

/-- The run ends after at most `k` moments, and a result has the property `P`. -/
def Costs {α : Type} (o : Faults) (P : α → Prop) (k : Nat) (x : FM α) : Prop :=
  ∀ t h, (x o t h).2.1 ≤ t + k ∧ ∀ a r, x o t h = (.ok a, r) → P a

/-- The run ends after at most `k` moments. -/
abbrev Cheap {α : Type} (o : Faults) (k : Nat) (x : FM α) : Prop := Costs o (fun _ => True) k x

section
variable {α β : Type} {o : Faults} {P : α → Prop} {Q : β → Prop} {k K : Nat}

theorem Costs.mono {x : FM α} (h : Costs o P k x) (hk : k ≤ K) : Costs o P K x :=
  fun t hp => ⟨by have := (h t hp).1; omega, (h t hp).2⟩

theorem Costs.imp {P' : α → Prop} {x : FM α} (h : Costs o P k x) (hp : ∀ a, P a → P' a) : Costs o P' k x :=
  fun t hp' => ⟨(h t hp').1, fun a r hr => hp a ((h t hp').2 a r hr)⟩

theorem Costs.pure {a : α} (h : P a) : Costs o P k (Pure.pure a : FM α) :=
  fun t _ => ⟨by show t ≤ t + k; omega, fun a' r hr => by cases hr; exact h⟩

theorem Costs.throw {s : Stop} : Costs o P k (throwL s : FM α) :=
  fun t _ => ⟨by show t ≤ t + k; omega, fun a' r hr => by cases hr⟩

theorem Costs.bind {x : FM α} {f : α → FM β} (hx : Costs o P k x) (hk : k ≤ K)
    (hf : ∀ a, P a → Costs o Q (K - k) (f a)) : Costs o Q K (x >>= f) := by
  intro t h
  obtain ⟨h1, h2⟩ := hx t h
  generalize hr : x o t h = r at h1 h2
  obtain ⟨_ | a, t', h'⟩ := r
  · rw [bindF_error hr]
    refine ⟨?_, fun _ _ hr => by cases hr⟩
    have h1 : t' ≤ t + k := h1
    show t' ≤ t + K
    omega
  · rw [bindF_ok hr]
    obtain ⟨h3, h4⟩ := hf a (h2 a _ rfl) t' h'
    have h1 : t' ≤ t + k := h1
    exact ⟨by omega, h4⟩

theorem Cheap.bind {x : FM α} {f : α → FM β} (hx : Cheap o k x) (hk : k ≤ K)
    (hf : ∀ a, Costs o Q (K - k) (f a)) : Costs o Q K (x >>= f) :=
  Costs.bind hx hk fun a _ => hf a

theorem cost_moment : Cheap o 1 moment := by
  intro t h
  refine ⟨?_, fun _ _ _ => trivial⟩
  unfold moment
  cases o t <;> exact Nat.le_refl _

theorem Costs.call {x : FM α} (hk : 2 ≤ K) (hx : Costs o P (K - 2) x) : Costs o P K (Stack.call x) := by
  refine Cheap.bind cost_moment (by omega) fun _ => ?_
  refine Costs.bind hx (by omega) fun a ha => ?_
  exact Cheap.bind cost_moment (by omega) fun _ => Costs.pure ha

theorem Costs.comp (m : Machine) {x : FM α} (hk : 2 ≤ K) (hx : Costs o P (K - 2) x) :
    Costs o P K (Stack.comp m x) := by
  unfold Stack.comp
  split
  · exact hx.call hk
  · exact hx.mono (by omega)

theorem Costs.heap {f : Heap → α × Heap} : Cheap o k (Stack.heap f : FM α) :=
  fun t _ => ⟨by show t ≤ t + k; omega, fun _ _ _ => trivial⟩

theorem Costs.leaf {a : α} (h : P a) : Costs o P 2 (Stack.leaf a : FM α) :=
  Costs.call (by omega) (Costs.pure h)

theorem cost_leaf {a : α} : Cheap o 2 (leaf a : FM α) := Costs.leaf trivial

theorem cost_lib (m : Machine) : Cheap o 1 (lib m : FM Unit) := cost_moment

theorem cost_attributes (r : Nat) : Cheap o 2 (attributes r : FM Attrs) :=
  Costs.call (by omega) Costs.heap

end

/-- Finds the lemma about the first computation of a sequence. -/
syntax "cost1" : tactic
macro_rules | `(tactic| cost1) => `(tactic| with_reducible_and_instances exact cost_leaf)
macro_rules | `(tactic| cost1) => `(tactic| with_reducible_and_instances exact cost_lib _)
macro_rules | `(tactic| cost1) => `(tactic| with_reducible_and_instances exact cost_attributes _)
macro_rules | `(tactic| cost1) => `(tactic| with_reducible_and_instances exact Costs.call (K := 4) (by omega) (cost_attributes _))
macro_rules | `(tactic| cost1) => `(tactic| with_reducible_and_instances exact Costs.call (K := 3) (by omega) (cost_lib _))
macro_rules | `(tactic| cost1) => `(tactic| with_reducible_and_instances exact Costs.call (K := 4) (by omega) cost_leaf)
macro_rules | `(tactic| cost1) => `(tactic| with_reducible_and_instances assumption)
macro_rules | `(tactic| cost1) => `(tactic| with_reducible_and_instances exact Costs.pure (k := 0) trivial)

/-- One step of a cost proof. -/
syntax "cstep" : tactic
macro_rules | `(tactic| cstep) => `(tactic| first
  | with_reducible_and_instances exact Costs.pure trivial
  | with_reducible_and_instances exact Costs.throw
  | (with_reducible_and_instances refine Costs.mono (by cost1) (by omega); done)
  | (with_reducible_and_instances refine Cheap.bind (by cost1) (by omega) fun _ => ?_)
  | (with_reducible_and_instances refine Costs.call (by omega) ?_)
  | (with_reducible_and_instances refine Costs.comp _ (by omega) ?_)
  | dsimp only
  | split)

/-- Straight-line code. -/
macro "cost" : tactic => `(tactic| repeat' cstep)

variable {o : Faults} (m : Machine)

theorem cost_normalize (s : Str) : Cheap o 2 (normalize s : FM Str) := cost_leaf
macro_rules | `(tactic| cost1) => `(tactic| with_reducible_and_instances exact cost_normalize _)

theorem cost_wrapperInit : Cheap o 4 (wrapperInit : FM Unit) := by unfold wrapperInit; cost
macro_rules | `(tactic| cost1) => `(tactic| with_reducible_and_instances exact cost_wrapperInit)

theorem cost_parenWrap (s : Str) : Cheap o 4 (parenWrap s : FM Str) := by unfold parenWrap; cost
macro_rules | `(tactic| cost1) => `(tactic| with_reducible_and_instances exact cost_parenWrap _)

theorem cost_parenWrapIf (s : Str) : Cheap o 6 (parenWrapIfMoreThanOneChar s : FM Str) := by
  unfold parenWrapIfMoreThanOneChar; cost
macro_rules | `(tactic| cost1) => `(tactic| with_reducible_and_instances exact cost_parenWrapIf _)
macro_rules | `(tactic| cost1) => `(tactic| with_reducible_and_instances exact Costs.call (K := 8) (by omega) (cost_parenWrapIf _))

theorem cost_bracketWrap (s : Str) : Cheap o 4 (bracketWrap s : FM Str) := by unfold bracketWrap; cost
macro_rules | `(tactic| cost1) => `(tactic| with_reducible_and_instances exact cost_bracketWrap _)

theorem cost_genericWrap (a b s : Str) : Cheap o 8 (genericWrap a b s : FM Str) := by unfold genericWrap; cost
macro_rules | `(tactic| cost1) => `(tactic| with_reducible_and_instances exact cost_genericWrap _ _ _)
macro_rules | `(tactic| cost1) => `(tactic| with_reducible_and_instances exact Costs.call (K := 10) (by omega) (cost_genericWrap _ _ _))

theorem cost_joinManyFrom (seps : List Str) : ∀ (arr : List Str) (i : Nat),
    Cheap o (2 * arr.length) (joinManyFrom seps i arr : FM Str)
  | [], i => Costs.pure trivial
  | a :: arr, i => by
    have ih := cost_joinManyFrom seps arr (i + 1)
    unfold joinManyFrom
    rw [List.length_cons]
    have h1 : Cheap o 2 (if arr = [] then pure [] else leaf (getSeparator seps i) : FM Str) := by cost
    cost

theorem cost_joinMany (seps arr : List Str) : Cheap o (4 + 2 * arr.length) (joinMany seps arr : FM Str) := by
  have := cost_joinManyFrom (o := o) seps arr 0
  unfold joinMany; cost

theorem cost_hashConvert (s : Str) : Cheap o 5 (hashConvert m s : FM Str) := by unfold hashConvert; cost
macro_rules | `(tactic| cost1) => `(tactic| with_reducible_and_instances exact cost_hashConvert _ _)

theorem cost_characterFind (s : Str) : Cheap o 13 (characterFind m s : FM Str) := by unfold characterFind; cost
macro_rules | `(tactic| cost1) => `(tactic| with_reducible_and_instances exact cost_characterFind _ _)

theorem cost_characterApply (s : Str) : Cheap o 17 (characterApply m s : FM Str) := by unfold characterApply; cost
macro_rules | `(tactic| cost1) => `(tactic| with_reducible_and_instances exact cost_characterApply _ _)

theorem cost_mi (s : Str) {attrs : FM Attrs} (h : Cheap o 2 attrs) : Cheap o 34 (miConvert m s attrs) := by
  unfold miConvert; cost

theorem cost_operateFind (s : Str) : Cheap o 13 (operateFind m s : FM Str) := by unfold operateFind; cost
macro_rules | `(tactic| cost1) => `(tactic| with_reducible_and_instances exact cost_operateFind _ _)

theorem cost_operate (s : Str) : Cheap o 17 (operate m s : FM Str) := by unfold operate; cost
macro_rules | `(tactic| cost1) => `(tactic| with_reducible_and_instances exact cost_operate _ _)

theorem cost_mo (s : Str) : Cheap o 23 (moConvert m s : FM Str) := by unfold moConvert; cost

theorem cost_mn (s : Str) : Cheap o 6 (mnConvert s : FM Str) := by unfold mnConvert; cost

theorem cost_textCommand (v s : Str) : Cheap o 6 (textCommandApply v s : FM Str) := by
  unfold textCommandApply; cost
macro_rules | `(tactic| cost1) => `(tactic| with_reducible_and_instances exact cost_textCommand _ _)

theorem cost_chars : ∀ (s : Str), Cheap o (3 * s.length) (chars m s : FM Unit)
  | [] => Costs.pure trivial
  | c :: s => by
    have ih := cost_chars s
    unfold chars
    rw [List.length_cons]
    cost

theorem cost_textPieces (a : Attrs) : ∀ (ps : List (Str × Bool)),
    Cheap o (38 * ps.length) (textPieces m a ps : FM (List Str))
  | [] => Costs.pure trivial
  | p :: ps => by
    have ih := cost_textPieces a ps
    unfold textPieces
    rw [List.length_cons]
    have hm : Cheap o 34 (miConvert m p.1 (leaf [] : FM Attrs)) := cost_mi m _ cost_leaf
    have h1 : Cheap o 38 (if p.2 then textCommandApply (Attrs.getD a c!"mathvariant" []) p.1
      else do
        leaf ()
        leaf ()
        miConvert m p.1 (leaf []) : FM Str) := by cost
    cost

theorem cost_mtext (s : Str) (r : Nat) :
    Cheap o (10 + 41 * s.length) (mtextConvert m s (attributes r) : FM Str) := by
  have h1 := cost_chars (o := o) m s
  have h2 : ∀ a, Cheap o (38 * s.length) (textPieces m a (s.foldl mergeStep []).reverse : FM (List Str)) :=
    fun a => (cost_textPieces m a _).mono (by
      rw [List.length_reverse]
      have := merge_length s []
      simp only [List.length_nil] at this
      omega)
  unfold mtextConvert
  refine Costs.call (by omega) ?_
  refine Cheap.bind (cost_attributes r) (by omega) fun a => ?_
  refine Costs.bind (Costs.leaf (P := (· = s)) rfl) (by omega) fun v hv => ?_
  subst hv
  have h2 := h2 a
  have h1' : Cheap o (2 + 3 * v.length) (comp m (chars m v)) := Costs.comp m (by omega) (h1.mono (by omega))
  have h2' : Cheap o (2 + 38 * v.length) (comp m (textPieces m a (v.foldl mergeStep []).reverse)) :=
    Costs.comp m (by omega) (h2.mono (by omega))
  cost

/-! ## Layout elements -/

/-- Bounds for the children, and their sum. -/
inductive KidCosts (o : Faults) : List (Kid FM) → Nat → Prop
  | nil : KidCosts o [] 0
  | cons {e x ks k n} : Cheap o k x → KidCosts o ks n → KidCosts o ((e, x) :: ks) (k + n)

theorem cost_runKids {ks : List (Kid FM)} {n : Nat} (h : KidCosts o ks n) :
    Costs o (fun ss => ss.length = ks.length) n (runKids ks) := by
  induction h with
  | nil => exact Costs.pure rfl
  | cons hx _ ih =>
    unfold runKids
    refine Cheap.bind hx (by omega) fun s => ?_
    refine Costs.bind ih (by omega) fun ss hss => ?_
    exact Costs.pure (by rw [List.length_cons, List.length_cons, hss])

theorem cost_allKids {ks : List (Kid FM)} {n : Nat} (h : KidCosts o ks n) :
    Costs o (fun ss => ss.length = ks.length) (4 + n) (allKids m ks) := by
  unfold allKids
  refine Cheap.bind cost_leaf (by omega) fun _ => Costs.comp m (by omega) ((cost_runKids h).mono (by omega))

theorem cost_allKids' {ks : List (Kid FM)} {n : Nat} (h : KidCosts o ks n) : Cheap o (4 + n) (allKids m ks) :=
  (cost_allKids m h).imp fun _ _ => trivial
macro_rules | `(tactic| cost1) => `(tactic| with_reducible_and_instances exact cost_allKids' _ (by assumption))

variable {ks : List (Kid FM)} {n : Nat}

theorem cost_math (h : KidCosts o ks n) : Cheap o (10 + n) (mathConvert m ks) := by unfold mathConvert; cost
theorem cost_spacing (h : KidCosts o ks n) : Cheap o (10 + n) (spacingConvert m ks) := by
  unfold spacingConvert; cost
theorem cost_msqrt (h : KidCosts o ks n) : Cheap o (10 + n) (msqrtConvert m ks) := by unfold msqrtConvert; cost
theorem cost_menclose (v : Str) (h : KidCosts o ks n) : Cheap o (10 + n) (mencloseConvert m v ks) := by
  unfold mencloseConvert; cost
theorem cost_merror (h : KidCosts o ks n) : Cheap o (10 + n) (merrorConvert m ks) := by unfold merrorConvert; cost
theorem cost_mtr (h : KidCosts o ks n) : Cheap o (10 + n) (mtrConvert m ks) := by unfold mtrConvert; cost

theorem cost_base {e : Elem} {x : FM Str} {k : Nat} (h : Cheap o k x) : Cheap o (10 + k) (handleBaseChild (e, x)) := by
  unfold handleBaseChild; cost
macro_rules | `(tactic| cost1) => `(tactic| with_reducible_and_instances exact cost_base (by assumption))

theorem cost_script {e : Elem} {x : FM Str} {k : Nat} (h : Cheap o k x) :
    Cheap o (6 + k) (handleScriptChild (e, x)) := by
  unfold handleScriptChild; cost
macro_rules | `(tactic| cost1) => `(tactic| with_reducible_and_instances exact cost_script (by assumption))

theorem cost_invalid {α : Type} (name : Str) (i j : Nat) (c : Str) :
    Cheap o 2 (invalidChildren name i j c : FM α) := by
  unfold invalidChildren; cost
macro_rules | `(tactic| cost1) => `(tactic| with_reducible_and_instances exact cost_invalid _ _ _ _)

/-- The children one by one. -/
syntax "kids" ident : tactic
macro_rules | `(tactic| kids $h) => `(tactic|
  (rcases $h:ident with _ | ⟨h1, _ | ⟨h2, _ | ⟨h3, _ | ⟨h4, hrest⟩⟩⟩⟩))

theorem cost_msup (name : Str) (h : KidCosts o ks n) : Cheap o (30 + n) (msupConvert name ks) := by
  unfold msupConvert
  kids h <;> cost
theorem cost_msub (name : Str) (h : KidCosts o ks n) : Cheap o (30 + n) (msubConvert name ks) := by
  unfold msubConvert
  kids h <;> cost
theorem cost_msubsup (name : Str) (h : KidCosts o ks n) : Cheap o (40 + n) (msubsupConvert name ks) := by
  unfold msubsupConvert
  kids h <;> cost
theorem cost_mfrac (name : Str) (r : Nat) (h : KidCosts o ks n) : Cheap o (40 + n) (mfracConvert name r ks) := by
  unfold mfracConvert
  kids h <;> cost
theorem cost_mroot (name : Str) (h : KidCosts o ks n) : Cheap o (10 + n) (mrootConvert name ks) := by
  unfold mrootConvert
  kids h <;> cost
theorem cost_munderover (name : Str) (h : KidCosts o ks n) : Cheap o (10 + n) (munderoverConvert name ks) := by
  unfold munderoverConvert
  kids h <;> cost
theorem cost_underOverApply (u : Bool) (a b : Str) : Cheap o 6 (underOverApply u a b : FM Str) := by
  unfold underOverApply; cost
macro_rules | `(tactic| cost1) => `(tactic| with_reducible_and_instances exact cost_underOverApply _ _ _)
theorem cost_underOver (name : Str) (h : KidCosts o ks n) : Cheap o (20 + n) (underOverConvert m name ks) := by
  unfold underOverConvert
  kids h <;> cost

theorem cost_maction (r : Nat) (h : KidCosts o ks n) : Cheap o (20 + n) (mactionConvert m r ks) := by
  have h1 : Cheap o n (runKids ks) := (cost_runKids h).imp fun _ _ => trivial
  have h2 : Cheap o (2 + n) (comp m (runKids ks)) := Costs.comp m (by omega) (h1.mono (by omega))
  unfold mactionConvert
  cases h <;> cost

theorem cost_isPre (k : Kid FM) : Costs o (· = (k.1.name == c!"mprescripts")) 4 (isPrescripts k) :=
  Costs.call (by omega) (Costs.leaf rfl)

theorem cost_pair (p : Str) {e1 e2 : Elem} {x1 x2 : FM Str} {k1 k2 : Nat} (h1 : Cheap o k1 x1) (h2 : Cheap o k2 x2) :
    Cheap o (k1 + k2) (scriptPair p (e1, x1) (e2, x2)) := by
  unfold scriptPair; cost

theorem cost_wrapSpace (s : Str) : Cheap o 7 (wrapInParenthesisIfThereIsSpace m s : FM Str) := by
  unfold wrapInParenthesisIfThereIsSpace; cost
macro_rules | `(tactic| cost1) => `(tactic| with_reducible_and_instances exact cost_wrapSpace _ _)

/-- The scripts before and after the base together. -/
theorem cost_prepost (h : KidCosts o ks n) : ∃ a b c, a + b + c ≤ n ∧
    (∀ e x rest, ks = (e, x) :: rest → Cheap o a x) ∧
    Cheap o (12 + b) (prescriptLatex ks) ∧ Cheap o (12 + c) (postscriptLatex ks) := by
  rcases h with _ | ⟨h0, _ | ⟨h1, h⟩⟩
  · refine ⟨0, 0, 0, by omega, (fun e x rest he => by cases he), ?_, ?_⟩
    · unfold prescriptLatex; cost
    · unfold postscriptLatex; cost
  · rename_i e0 x0 a
    refine ⟨a, 0, 0, by omega, (fun e x rest he => by cases he; exact h0), ?_, ?_⟩
    · unfold prescriptLatex; cost
    · unfold postscriptLatex; cost
  · rename_i e0 x0 k0 e1 x1 ks k1 n
    by_cases hp : (e1.name == c!"mprescripts") = true
    · refine ⟨k0, n, 0, by omega, (fun e x rest he => by cases he; exact h0), ?_, ?_⟩
      · unfold prescriptLatex
        refine Costs.call (by omega) (Cheap.bind cost_leaf (by omega) fun _ => ?_)
        rcases h with _ | ⟨h2, _ | ⟨h3, h⟩⟩
        · exact Costs.pure trivial
        · exact Costs.pure trivial
        · refine Costs.bind (cost_isPre _) (by omega) fun b hb => ?_
          rw [if_pos (hb.trans hp)]
          exact (cost_pair _ h2 h3).mono (by omega)
      · unfold postscriptLatex
        refine Costs.call (by omega) (Cheap.bind cost_leaf (by omega) fun _ => ?_)
        rcases h with _ | ⟨h2, h⟩
        · exact Costs.pure trivial
        · refine Costs.bind (cost_isPre _) (by omega) fun b hb => ?_
          rw [if_pos (hb.trans hp)]
          exact Costs.pure trivial
    · rcases h with _ | ⟨h2, h⟩
      · refine ⟨k0, 0, 0, by omega, (fun e x rest he => by cases he; exact h0), ?_, ?_⟩
        · unfold prescriptLatex; cost
        · unfold postscriptLatex; cost
      · rename_i e2 x2 ks k2 n
        refine ⟨k0, n, k1 + k2, by omega, (fun e x rest he => by cases he; exact h0), ?_, ?_⟩
        · unfold prescriptLatex
          refine Costs.call (by omega) (Cheap.bind cost_leaf (by omega) fun _ => ?_)
          rcases h with _ | ⟨h3, h⟩
          · exact Costs.pure trivial
          · refine Costs.bind (cost_isPre _) (by omega) fun b hb => ?_
            rw [if_neg (by rw [hb]; exact hp)]
            rcases h with _ | ⟨h4, _ | ⟨h5, h⟩⟩
            · exact Costs.pure trivial
            · exact Costs.pure trivial
            · refine Costs.bind (cost_isPre _) (by omega) fun b hb => ?_
              have := cost_pair c!"\\_" (e1 := ‹Elem›) (e2 := ‹Elem›) h4 h5
              split
              · exact (cost_pair _ h4 h5).mono (by omega)
              · exact Costs.pure trivial
        · unfold postscriptLatex
          refine Costs.call (by omega) (Cheap.bind cost_leaf (by omega) fun _ => ?_)
          refine Costs.bind (cost_isPre _) (by omega) fun b hb => ?_
          rw [if_neg (by rw [hb]; exact hp)]
          exact (cost_pair _ h1 h2).mono (by omega)

theorem cost_mmultiscripts (name : Str) (h : KidCosts o ks n) :
    Cheap o (40 + n) (mmultiscriptsConvert m name ks) := by
  obtain ⟨a, b, c, hs, h0, hpre, hpost⟩ := cost_prepost h
  unfold mmultiscriptsConvert
  refine Costs.call (by omega) (Cheap.bind cost_leaf (by omega) fun _ => ?_)
  split
  · rename_i b' _ _ _
    have h0 := h0 b'.1 b'.2 _ rfl
    cost
  · cost

/-! ## Fences and tables -/

theorem cost_vector (op close : Str) (seps ss : List Str) :
    Cheap o (20 + 2 * ss.length) (vectorApply op close seps ss : FM Str) := by
  have := cost_joinMany (o := o) seps ss
  unfold vectorApply; cost

theorem cost_are (a b c d : Str) : Cheap o 4 (areSeparators a b c d : FM Bool) := by unfold areSeparators; cost
macro_rules | `(tactic| cost1) => `(tactic| with_reducible_and_instances exact cost_are _ _ _ _)

theorem cost_command (op close : Str) : Cheap o 24 (matrixCommand op close : FM Str) := by
  unfold matrixCommand; cost
macro_rules | `(tactic| cost1) => `(tactic| with_reducible_and_instances exact cost_command _ _)

theorem cost_matrix (op close : Str) (ss : List Str) : Cheap o 40 (matrixApply op close ss : FM Str) := by
  unfold matrixApply; cost
macro_rules | `(tactic| cost1) => `(tactic| with_reducible_and_instances exact cost_matrix _ _ _)

mutual
/-- The number of elements. -/
def count : Elem → Nat
  | .mk _ _ _ cs => 1 + countAll cs
/-- The number of elements in all. -/
def countAll : List Elem → Nat
  | [] => 0
  | e :: es => count e + countAll es
end

mutual
theorem cost_hasRelative1 (name : Str) : ∀ (e : Elem), Cheap o (8 * count e) (hasRelativeOfName1 m name e : FM Bool)
  | .mk n v r cs => by
    have ih := cost_hasRelatives name cs
    have h1 : Cheap o (4 + 8 * countAll cs) (call (comp m (hasRelatives m name cs)) : FM Bool) :=
      Costs.call (by omega) (Costs.comp m (by omega) (ih.mono (by omega)))
    unfold hasRelativeOfName1
    rw [count]
    cost
theorem cost_hasRelatives (name : Str) : ∀ (es : List Elem),
    Cheap o (8 * countAll es) (hasRelatives m name es : FM Bool)
  | [] => Costs.pure trivial
  | e :: es => by
    have h1 := cost_hasRelative1 name e
    have h2 := cost_hasRelatives name es
    unfold hasRelatives
    rw [countAll]
    cost
end

mutual
theorem cost_addFlag1 (name flag : Str) : ∀ (e : Elem), Cheap o (8 * count e) (addFlag1 name flag e : FM Unit)
  | .mk n v r cs => by
    have ih := cost_addFlags name flag cs
    have h1 : Cheap o (2 + 8 * countAll cs) (call (addFlags name flag cs) : FM Unit) :=
      Costs.call (by omega) (ih.mono (by omega))
    have h2 : Cheap o 2 (setItem r flag flag : FM Unit) := Costs.call (by omega) Costs.heap
    unfold addFlag1
    rw [count]
    cost
theorem cost_addFlags (name flag : Str) : ∀ (es : List Elem),
    Cheap o (8 * countAll es) (addFlags name flag es : FM Unit)
  | [] => Costs.pure trivial
  | e :: es => by
    have h1 := cost_addFlag1 name flag e
    have h2 := cost_addFlags name flag es
    unfold addFlags
    rw [countAll]
    cost
end

theorem length_le_countAll : ∀ (es : List Elem), es.length ≤ countAll es
  | [] => Nat.le_refl _
  | e :: es => by
    have := length_le_countAll es
    obtain ⟨_, _, _, cs⟩ := e
    rw [countAll, count, List.length_cons]
    omega

theorem cost_mfenced (op close : Str) (seps : List Str) (h : KidCosts o ks n) :
    Cheap o (60 + 10 * countAll (ks.map (·.1)) + n) (mfencedConvert m op close seps ks) := by
  have hr : Cheap o (4 + 8 * countAll (ks.map (·.1)))
      (isThereRelativeOfName m c!"mtable" (ks.map (·.1)) : FM Bool) :=
    Costs.call (by omega) (Costs.comp m (by omega) ((cost_hasRelatives m _ _).mono (by omega)))
  have hl := length_le_countAll (ks.map (·.1))
  rw [List.length_map] at hl
  unfold mfencedConvert
  refine Costs.call (by omega) (Costs.bind (cost_allKids m h) (by omega) fun ss hss => ?_)
  have hv := cost_vector (o := o) op close seps ss
  rw [hss] at hv
  cost

theorem cost_mtable (r : Nat) (h : KidCosts o ks n) : Cheap o (20 + n) (mtableConvert m r ks) := by
  unfold mtableConvert; cost

/-! ## Dispatch -/

theorem make_cost {α : Type} {P : α → Prop} {x : FM α} {k : Nat} (hk : 4 ≤ k) (h : Costs o P (k - 4) x) :
    Costs o P k (make x) :=
  Costs.call (by omega) (Costs.call (by omega) (h.mono (by omega)))

theorem cost_construct (kind : Kind) (name value : Str) (r : Nat) (cs : List Elem) (h : KidCosts o ks n)
    (hks : ks.map (·.1) = cs) :
    Costs o (Cheap o (60 + 41 * value.length + (if kind = .mfenced then 10 * countAll cs else 0) + n))
      (20 + (if kind = .mtable then 8 * countAll cs else 0)) (construct m kind name value r cs ks) := by
  have hw : Cheap o 4 (wrapperInit : FM Unit) := cost_wrapperInit
  have ha : Cheap o 2 (attributes r : FM Attrs) := cost_attributes r
  cases kind <;> unfold construct <;> dsimp only <;>
    simp only [reduceIte, reduceCtorEq]
  case math => exact make_cost (by omega) (Costs.pure ((cost_math m h).mono (by omega)))
  case mi => exact Costs.call (by omega) (Costs.pure ((cost_mi m value ha).mono (by omega)))
  case mo => exact Costs.call (by omega) (Costs.pure ((cost_mo m value).mono (by omega)))
  case mn => exact Costs.call (by omega) (Costs.pure ((cost_mn value).mono (by omega)))
  case msqrt => exact make_cost (by omega) (Costs.pure ((cost_msqrt m h).mono (by omega)))
  case mfenced =>
    refine make_cost (by omega) (Cheap.bind ha (by omega) fun a => Costs.pure ?_)
    subst hks
    exact (cost_mfenced m _ _ _ h).mono (by omega)
  case mfrac =>
    exact make_cost (by omega) (Cheap.bind hw (by omega) fun _ => Costs.pure ((cost_mfrac name r h).mono (by omega)))
  case mroot => exact make_cost (by omega) (Costs.pure ((cost_mroot name h).mono (by omega)))
  case maction => exact make_cost (by omega) (Costs.pure ((cost_maction m r h).mono (by omega)))
  case menclose =>
    exact make_cost (by omega) (Cheap.bind ha (by omega) fun a =>
      Costs.pure ((cost_menclose m _ h).mono (by omega)))
  case merror => exact make_cost (by omega) (Costs.pure ((cost_merror m h).mono (by omega)))
  case void => exact Costs.call (by omega) (Costs.pure (Costs.call (by omega) (Costs.pure trivial)))
  case msup =>
    exact make_cost (by omega) (Cheap.bind hw (by omega) fun _ => Cheap.bind hw (by omega) fun _ =>
      Costs.pure ((cost_msup name h).mono (by omega)))
  case msub =>
    exact make_cost (by omega) (Cheap.bind hw (by omega) fun _ => Cheap.bind hw (by omega) fun _ =>
      Costs.pure ((cost_msub name h).mono (by omega)))
  case msubsup =>
    exact make_cost (by omega) (Cheap.bind hw (by omega) fun _ => Cheap.bind hw (by omega) fun _ =>
      Costs.pure ((cost_msubsup name h).mono (by omega)))
  case mmultiscripts =>
    exact make_cost (by omega) (Cheap.bind hw (by omega) fun _ =>
      Costs.pure ((cost_mmultiscripts m name h).mono (by omega)))
  case mtext => exact Costs.call (by omega) (Costs.pure ((cost_mtext m value r).mono (by omega)))
  case munderover => exact make_cost (by omega) (Costs.pure ((cost_munderover name h).mono (by omega)))
  case mtable =>
    have hf : Cheap o (2 + 8 * countAll cs) (addFlagRecursiveIfName c!"mtable" innerTable cs : FM Unit) :=
      Costs.call (by omega) ((cost_addFlags _ _ cs).mono (by omega))
    exact make_cost (by omega) (Cheap.bind cost_leaf (by omega) fun _ => Cheap.bind hf (by omega) fun _ =>
      Costs.pure ((cost_mtable m r h).mono (by omega)))
  case mtr => exact make_cost (by omega) (Costs.pure ((cost_mtr m h).mono (by omega)))
  case underOver => exact make_cost (by omega) (Costs.pure ((cost_underOver m name h).mono (by omega)))
  case spacing => exact make_cost (by omega) (Costs.pure ((cost_spacing m h).mono (by omega)))

mutual
/-- A bound for an element. -/
def events : Elem → Nat
  | .mk name value _ cs => 90 + 41 * value.length +
      (if classify name = .mtable ∨ classify name = .mfenced then 10 * countAll cs else 0) + eventsAll cs
/-- A bound for a list of elements. -/
def eventsAll : List Elem → Nat
  | [] => 0
  | e :: es => events e + eventsAll es
end

/-- Making a converter and running it. -/
def Conv (o : Faults) (k : Nat) (x : FM (FM Str)) : Prop := ∃ k1 k2, k1 + k2 ≤ k ∧ Costs o (Cheap o k2) k1 x

theorem kidsOf_fst : ∀ (es : List Elem), (kidsOf (F := FM) m es).map (·.1) = es
  | [] => rfl
  | e :: es => by
    unfold kidsOf
    rw [List.map_cons, kidsOf_fst es]

mutual
theorem cost_toConv : ∀ (e : Elem), Conv o (events e) (toConv m e)
  | .mk name value r cs => by
    have h := cost_construct m (classify name) name value r cs (cost_kidsOf cs) (kidsOf_fst m cs)
    refine ⟨26 + (if classify name = .mtable then 8 * countAll cs else 0), 60 + 41 * value.length +
      (if classify name = .mfenced then 10 * countAll cs else 0) + eventsAll cs, ?_, ?_⟩
    rotate_left
    · unfold toConv
      exact Costs.call (by omega) (Cheap.bind cost_leaf (by omega) fun _ =>
        Cheap.bind cost_leaf (by omega) fun _ => h.mono (by omega))
    · rw [events]
      by_cases h1 : classify name = .mtable
      · rw [if_pos h1, if_neg (by rw [h1]; decide), if_pos (.inl h1)]
        omega
      · rw [if_neg h1]
        by_cases h2 : classify name = .mfenced
        · rw [if_pos h2, if_pos (.inr h2)]
          omega
        · rw [if_neg h2, if_neg (by simp [h1, h2])]
          omega
theorem cost_kidsOf : ∀ (es : List Elem), KidCosts o (kidsOf m es) (eventsAll es)
  | [] => KidCosts.nil
  | e :: es => by
    obtain ⟨k1, k2, h1, h2⟩ := cost_toConv e
    unfold kidsOf
    rw [eventsAll]
    refine .cons ?_ (cost_kidsOf es)
    exact Costs.bind h2 (by omega) fun x hx => hx.mono (by omega)
end

/-! ## From the text to the elements -/

/-- `blockPairs` of a list. -/
def blockPairsL (ns : List Node) : Nat := (((elements ns).filter isBlock).map inside).sum

theorem blockPairs_elem (tag : Str) (A : List (Str × Str)) (cs : List Node) :
    blockPairs (.elem tag A cs) =
      (if tag = c!"mtable" ∨ tag = c!"mfenced" then (elements cs).length else 0) + blockPairsL cs := by
  unfold blockPairs blockPairsL
  rw [elementsOf, List.filter_cons, isBlock]
  by_cases h : tag = c!"mtable" ∨ tag = c!"mfenced"
  · simp [h, inside]
  · simp [h]

theorem blockPairsL_cons (n : Node) (ns : List Node) :
    blockPairsL (n :: ns) = blockPairs n + blockPairsL ns := by
  unfold blockPairs blockPairsL
  rw [elements, List.filter_append, List.map_append, List.sum_append]

theorem classify_mfenced (n : Str) : classify n = .mfenced ↔ n = c!"mfenced" := by
  constructor
  · intro h
    have h1 := classify_mem h (by decide)
    have h2 : ∀ p ∈ dispatchTable, p.2 = Kind.mfenced → p.1 = c!"mfenced" := by decide
    exact h2 _ h1 rfl
  · rintro rfl; decide

theorem cost_attrs (A : List (Str × Str)) : Cheap o 6 (convertElementAttributes A : FM Nat) := by
  have h : Cheap o 0 (allocL (convertAttributes A) : FM Nat) := Costs.heap
  unfold convertElementAttributes; cost

mutual
theorem cost_buildElem : ∀ (n : Node),
    Costs o (fun r => (r = none → n.isElem = false) ∧ ∀ e, r = some e →
      events e + 24 * count e ≤ eventsFor n ∧ count e = (elementsOf n).length)
      (24 * (elementsOf n).length) (buildElem m n : FM (Option Elem))
  | .elem tag A cs => by
    have ih := cost_buildElems cs
    have h0 : Costs o (· = Verif.hasElementChild cs) 4 (hasElementChild cs : FM Bool) :=
      Costs.call (by omega) (Costs.leaf rfl)
    have hev : eventsFor (.elem tag A cs) = 200 * (1 + tag.length + attrsSize A + sizes cs) +
      12 * ((if tag = c!"mtable" ∨ tag = c!"mfenced" then (elements cs).length else 0) + blockPairsL cs) := by
      rw [eventsFor, blockPairs_elem, size]
    unfold buildElem
    rw [elementsOf, List.length_cons]
    refine Costs.call (by omega) (Cheap.bind (cost_attrs A) (by omega) fun r =>
      Costs.bind h0 (by omega) fun b hb => ?_)
    split
    · rename_i hbt
      refine Cheap.bind (k := 2) (Costs.comp m (by omega) (Costs.pure trivial)) (by omega) fun _ => ?_
      refine Costs.bind (k := 4 + 24 * (elements cs).length) (Costs.call (by omega)
        (Costs.comp m (by omega) (ih.mono (by omega)))) (by omega) fun es hes => ?_
      refine Cheap.bind cost_leaf (by omega) fun _ => Costs.pure ⟨(by simp), ?_⟩
      rintro e ⟨⟩
      have ht : (classify tag = .mtable ∨ classify tag = .mfenced) ↔
          (tag = c!"mtable" ∨ tag = c!"mfenced") := by rw [classify_mtable, classify_mfenced]
      rw [events, count, hev]
      have : (strip []).length = 0 := rfl
      rw [hes.2]
      refine ⟨?_, by omega⟩
      have h1 := hes.1
      by_cases hc : tag = c!"mtable" ∨ tag = c!"mfenced"
      · rw [if_pos hc, if_pos (ht.2 hc)]; omega
      · rw [if_neg hc, if_neg (fun h => hc (ht.1 h))]; omega
    · rename_i hbt
      have hb0 : Verif.hasElementChild cs = false := by rw [← hb]; simpa using hbt
      have hn := (bareOfL_nil hb0).2
      refine Cheap.bind cost_leaf (by omega) fun _ => Cheap.bind cost_leaf (by omega) fun _ =>
        Costs.pure ⟨(by simp), ?_⟩
      rintro e ⟨⟩
      rw [events, count, hev, hn]
      have := elementValue_length cs
      simp only [countAll, eventsAll, List.length_cons, List.length_nil]
      refine ⟨?_, trivial⟩
      split <;> omega
  | .text _ => Costs.pure ⟨fun _ => rfl, fun e he => by cases he⟩
  | .cdata _ => Costs.pure ⟨fun _ => rfl, fun e he => by cases he⟩
  | .comment _ => Costs.pure ⟨fun _ => rfl, fun e he => by cases he⟩
  | .pi _ _ => Costs.pure ⟨fun _ => rfl, fun e he => by cases he⟩
theorem cost_buildElems : ∀ (ns : List Node),
    Costs o (fun es => eventsAll es + 24 * countAll es ≤ 200 * sizes ns + 12 * blockPairsL ns ∧
      countAll es = (elements ns).length)
      (24 * (elements ns).length) (buildElems m ns : FM (List Elem))
  | [] => Costs.pure ⟨Nat.zero_le _, rfl⟩
  | n :: ns => by
    have h1 := cost_buildElem n
    have h2 := cost_buildElems ns
    unfold buildElems
    rw [elements, List.length_append, sizes, blockPairsL_cons]
    refine Costs.bind h1 (by omega) fun r hr => Costs.bind h2 (by omega) fun es hes => Costs.pure ?_
    obtain ⟨hr1, hr2⟩ := hr
    cases r with
    | none =>
      rw [elementsOf_none (hr1 rfl)]
      dsimp only
      exact ⟨by omega, by rw [hes.2, List.length_nil]; omega⟩
    | some e =>
      obtain ⟨h3, h4⟩ := hr2 e rfl
      unfold eventsFor at h3
      dsimp only
      rw [eventsAll, countAll]
      omega
end

mutual
theorem cost_searchNode : ∀ (n : Node), Cheap o (2 * size n) (searchNode n : FM (List Node))
  | .elem tag A cs => by
    unfold searchNode
    rw [size]
    exact Costs.call (by omega) ((cost_searchNodes cs).mono (by omega))
  | .text d => by unfold searchNode; rw [size]; exact Costs.call (by omega) (Costs.pure trivial)
  | .cdata d => by unfold searchNode; rw [size]; exact Costs.call (by omega) (Costs.pure trivial)
  | .comment d => by unfold searchNode; rw [size]; exact Costs.call (by omega) (Costs.pure trivial)
  | .pi t d => by unfold searchNode; rw [size]; exact Costs.call (by omega) (Costs.pure trivial)
theorem cost_searchNodes : ∀ (ns : List Node), Cheap o (2 * sizes ns) (searchNodes ns : FM (List Node))
  | [] => Costs.pure trivial
  | n :: ns => by
    have h1 := cost_searchNode n
    have h2 := cost_searchNodes ns
    unfold searchNodes
    rw [sizes]
    exact Cheap.bind h1 (by omega) fun _ => Cheap.bind h2 (by omega) fun _ => Costs.pure trivial
end

theorem cost_fixValue (code lineno offset : Nat) (xml : Str) :
    Cheap o 8 (fixMissingAttributeValue m code lineno offset xml : FM Str) := by
  unfold fixMissingAttributeValue; cost

theorem cost_genericLoop (env : Env) (xml : Str) : ∀ (n : Nat) (r : Str),
    Cheap o (2 * n + 1) (genericLoop m env xml n r : FM Str)
  | 0, r => by unfold genericLoop; cost
  | n + 1, r => by
    have ih := cost_genericLoop env xml n
    unfold genericLoop
    refine Cheap.bind (cost_lib m) (by omega) fun _ => ?_
    split
    · exact Cheap.bind (cost_lib m) (by omega) fun _ => (ih _).mono (by omega)
    · exact Costs.pure trivial

theorem cost_fixError (env : Env) (xml : Str) (s : Stop) : Cheap o 26 (fixError m env xml s : FM Str) := by
  unfold fixError
  split
  · rename_i code lineno offset
    have h1 := cost_fixValue (o := o) m code lineno offset xml
    refine Costs.call (by omega) (Costs.call (by omega) (Cheap.bind h1 (by omega) fun r => ?_))
    split
    · exact Costs.pure trivial
    · exact Cheap.bind (k := 3) (Costs.call (by omega) (cost_lib m)) (by omega) fun _ =>
        (cost_genericLoop m env xml 5 r).mono (by omega)
  · exact Costs.call (by omega) (Costs.pure trivial)

theorem cost_attempt (env : Env) (xml : Str) (S : Nat) (hS : ∀ d, env.parse xml = .ok d → sizes d ≤ S) :
    Cheap o (5 + 2 * S) (attempt m env xml : FM (List Node)) := by
  unfold attempt
  refine Cheap.bind (cost_lib m) (by omega) fun _ => ?_
  cases hp : env.parse xml with
  | error e => exact Costs.throw
  | ok d =>
    have := hS d hp
    exact Costs.call (by omega) (Costs.call (by omega) ((cost_searchNodes d).mono (by omega)))

theorem Costs.tryL {α : Type} {P : α → Prop} {x : FM α} {f : Stop → FM α} {k K : Nat} (hx : Costs o P k x)
    (hk : k ≤ K) (hf : ∀ s t h r, x o t h = (.error s, r) → Costs o P (K - k) (f s)) :
    Costs o P K (Stack.tryL x f) := by
  intro t h
  obtain ⟨h1, h2⟩ := hx t h
  generalize hr : x o t h = r at h1 h2
  obtain ⟨s | a, t', h'⟩ := r
  · have h1 : t' ≤ t + k := h1
    rw [tryF_error hr]
    split
    · obtain ⟨h3, h4⟩ := hf s t h _ hr t' h'
      exact ⟨by dsimp only; omega, h4⟩
    · exact ⟨by show t' ≤ t + K; omega, fun _ _ hr => by cases hr⟩
  · have h1 : t' ≤ t + k := h1
    rw [tryF_ok hr]
    exact ⟨by show t' ≤ t + K; omega, h2⟩

/-- What the fix of a text gives. -/
theorem fixError_result (env : Env) (y : Str) (e : ParseErr) :
    Costs o (fun z => Verif.fixError env y e = .ok z) 28 (call (fixError m env y (.raised e.toExc)) : FM Str) := by
  have hc : Cheap o 28 (call (fixError m env y (.raised e.toExc)) : FM Str) :=
    Costs.call (by omega) (cost_fixError m env y _)
  have hs : Safe o (fun s => ∃ f, s = .fault f) Eq (call (fixError m env y (.raised e.toExc)) : FM Str)
      (ofE (Verif.fixError env y e)) :=
    Safe.call (fun i f _ => ⟨f, rfl⟩)
      (@fits_fixError FM _ (simulatesF o _ fun i f _ => ⟨f, rfl⟩) (m.lib + 4) m env y e (Nat.le_refl _))
  intro t h
  refine ⟨(hc t h).1, fun z r hr => ?_⟩
  rcases (hs t h).2 with ⟨s, r', hs', _⟩ | hs'
  · rw [hr] at hs'
    cases hs'
  · rw [hr] at hs'
    generalize hy : (ofE (Verif.fixError env y e) : M Str) h = ry at hs'
    cases hs' with
    | ok hab =>
      subst hab
      exact congrArg Prod.fst hy

/-- Why an attempt fails. -/
theorem attempt_error (env : Env) (y : Str) {s : Stop} {t : Nat} {h : Heap} {r : Nat × Heap}
    (hr : attempt (F := FM) m env y o t h = (.error s, r)) :
    (∃ e, env.parse y = .error e ∧ s = .raised e.toExc) ∨ ∃ f, s = .fault f := by
  obtain ⟨B, hB⟩ : ∃ B, ∀ d, env.parse y = .ok d → levelsAll d ≤ B := by
    cases hp : env.parse y with
    | error e => exact ⟨0, fun d hd => by cases hd⟩
    | ok d => exact ⟨levelsAll d, fun d' hd => by cases hd; exact Nat.le_refl _⟩
  have hs := @fits_attempt FM _ (simulatesF o (fun s => ∃ f, s = .fault f) fun i f _ => ⟨f, rfl⟩)
    (B + 3 + m.lib) m env y B hB (by omega) (by omega)
  rcases (hs t h).2 with ⟨s', r', hs', f, he⟩ | hs'
  · rw [hr] at hs'
    cases hs'
    exact .inr ⟨f, he⟩
  · rw [hr] at hs'
    generalize hy : (ofE (match env.parse y with
        | .error e => .error e.toExc
        | .ok dom => .ok (mathElements dom)) : M (List Node)) h = ry at hs'
    cases hs' with
    | error =>
      cases hp : env.parse y with
      | error e =>
        rw [hp] at hy
        cases hy
        exact .inl ⟨e, rfl, rfl⟩
      | ok d =>
        rw [hp] at hy
        cases hy

theorem cost_mathmlElements (env : Env) (x : Str) (S : Nat)
    (hS : ∀ i y d, i < 5 → Consulted env x i y → env.parse y = .ok d → sizes d ≤ S) :
    ∀ (n i : Nat) (y : Str) (s : Option Stop), Consulted env x i y → i + n ≤ 5 →
      Cheap o (n * (33 + 2 * S)) (mathmlElements m env n s y : FM (List Node))
  | 0, i, y, s, hc, hi => by
    unfold mathmlElements
    cases s with
    | none => exact Costs.pure trivial
    | some s => exact Costs.throw
  | n + 1, i, y, s, hc, hi => by
    have hn : (n + 1) * (33 + 2 * S) = n * (33 + 2 * S) + (33 + 2 * S) := Nat.succ_mul _ _
    have ha : Cheap o (5 + 2 * S) (attempt m env y : FM (List Node)) :=
      cost_attempt m env y S fun d hd => hS i y d (by omega) hc hd
    unfold mathmlElements
    refine Costs.tryL ha (by omega) fun s t h r hr => ?_
    rcases attempt_error m env y hr with ⟨e, hp, rfl⟩ | ⟨f, rfl⟩
    · refine Costs.bind (fixError_result m env y e) (by omega) fun z hz => ?_
      exact (cost_mathmlElements env x S hS n (i + 1) z _ (.next hc hp ((fixError_ok hc.noLF).1 hz))
        (by omega)).mono (by omega)
    · refine Costs.bind (P := (· = y)) (k := 4) (Costs.call (by omega) (Costs.call (by omega) (Costs.pure rfl)))
        (by omega) fun z hz => ?_
      subst hz
      exact (cost_mathmlElements env x S hS n i z _ hc (by omega)).mono (by omega)

/-! ## The whole call -/

/-- Bounds for the converters that were made. -/
inductive ConvCosts (o : Faults) : List (FM Str) → Nat → Prop
  | nil : ConvCosts o [] 0
  | cons {x xs k n} : Cheap o k x → ConvCosts o xs n → ConvCosts o (x :: xs) (k + n)

theorem cost_constructAll : ∀ (es : List Elem), ∃ k1 k2, k1 + k2 ≤ eventsAll es ∧
    Costs o (fun xs => ConvCosts o xs k2) k1 (constructAll m es : FM (List (FM Str)))
  | [] => ⟨0, 0, Nat.le_refl _, Costs.pure .nil⟩
  | e :: es => by
    obtain ⟨a1, a2, h1, h2⟩ := cost_toConv (o := o) m e
    obtain ⟨b1, b2, h3, h4⟩ := cost_constructAll es
    refine ⟨a1 + b1, a2 + b2, by rw [eventsAll]; omega, ?_⟩
    unfold constructAll
    exact Costs.bind h2 (by omega) fun k hk => Costs.bind h4 (by omega) fun ks hks =>
      Costs.pure (.cons hk hks)

theorem cost_convertAll {xs : List (FM Str)} {n : Nat} (h : ConvCosts o xs n) : Cheap o n (convertAll xs) := by
  induction h with
  | nil => exact Costs.pure trivial
  | cons hx _ ih =>
    unfold convertAll
    exact Cheap.bind hx (by omega) fun _ => Cheap.bind ih (by omega) fun _ => Costs.pure trivial

mutual
theorem elementsOf_le : ∀ (n : Node), (elementsOf n).length ≤ size n
  | .elem tag A cs => by
    have := elements_le cs
    rw [elementsOf, size, List.length_cons]
    omega
  | .text _ => Nat.zero_le _
  | .cdata _ => Nat.zero_le _
  | .comment _ => Nat.zero_le _
  | .pi _ _ => Nat.zero_le _
theorem elements_le : ∀ (ns : List Node), (elements ns).length ≤ sizes ns
  | [] => Nat.zero_le _
  | n :: ns => by
    have := elementsOf_le n
    have := elements_le ns
    rw [elements, sizes, List.length_append]
    omega
end

/-- The whole call, given a bound for what the parser finds. -/
theorem cost_convert (env : Env) (x : Str) (S T B : Nat)
    (hB : ∀ d, ParsesTo env x d → levelsAll d ≤ B)
    (hS : ∀ i y d, i < 5 → Consulted env x i y → env.parse y = .ok d → sizes d ≤ S)
    (hT : ∀ ns, (Verif.mathmlElements env 5 none (prep x)).1 = .ok ns →
      200 * sizes ns + 12 * blockPairsL ns ≤ T) :
    Cheap o (300 + 10 * S + T) (convert m env x : FM Str) := by
  have hx : removeMsWordPrefixes (removeLineBreaks x) = prep x := by
    rw [removeLineBreaks_spec, removeMsWordPrefixes_spec, prep]
  have hm := safe_mathmlElements m env x o B (fun i y d hi hc hp => hB d ⟨i, y, hi, hc, hp⟩) 5 0 (prep x)
    none none .first (by omega) (.inl ⟨rfl, rfl⟩)
  have h1 : Costs o (fun ns => (Verif.mathmlElements env 5 none (prep x)).1 = .ok ns) (5 * (33 + 2 * S))
      (mathmlElements m env 5 none (prep x) : FM (List Node)) := by
    intro t h
    refine ⟨(cost_mathmlElements m env x S hS 5 0 _ none .first (by omega) t h).1, fun ns r hr => ?_⟩
    rcases (hm t h).2 with ⟨s, r', hs', he⟩ | hs'
    · rw [hr] at hs'
      cases hs'
    · rw [hr] at hs'
      generalize hy : (ofE (Verif.mathmlElements env (5 - 0) none (prep x)).1 : M (List Node)) h = ry at hs'
      cases hs' with
      | ok hab =>
        obtain ⟨rfl, _⟩ := hab
        exact congrArg Prod.fst hy
  have h2 : Cheap o 6 (makeAdapter : FM Unit) := by unfold makeAdapter; cost
  have hc : ∃ c, c ≤ T ∧ ∀ ns, (Verif.mathmlElements env 5 none (prep x)).1 = .ok ns →
      24 * (elements ns).length = c := by
    cases hr : (Verif.mathmlElements env 5 none (prep x)).1 with
    | error e => exact ⟨0, Nat.zero_le _, fun ns h => by cases h⟩
    | ok ns =>
      refine ⟨24 * (elements ns).length, ?_, fun ns' h => by cases h; rfl⟩
      have h1 := hT ns hr
      have h2 := elements_le ns
      omega
  obtain ⟨c, hcT, hc⟩ := hc
  have h3 : Costs o (fun es => eventsAll es + c ≤ T) (5 * (33 + 2 * S) + c + 14)
      (adapterConvert m env x : FM (List Elem)) := by
    unfold adapterConvert
    rw [hx]
    refine Costs.call (by omega) (Cheap.bind (k := 3) (Costs.call (by omega) (cost_lib m)) (by omega) fun _ =>
      Cheap.bind (k := 3) (Costs.call (by omega) (cost_lib m)) (by omega) fun _ =>
      Costs.bind (k := 5 * (33 + 2 * S) + 2) (Costs.call (by omega) (h1.mono (by omega))) (by omega)
        fun ns hns => ?_)
    have hc := hc ns hns
    have hT := hT ns hns
    refine Costs.call (by omega) (Costs.comp m (by omega) (((cost_buildElems m ns).imp ?_).mono (by omega)))
    intro es hes
    rw [hes.2, hc] at hes
    omega
  unfold convert
  refine Costs.call (by omega) (Cheap.bind h2 (by omega) fun _ => Costs.bind h3 (by omega) fun es hes => ?_)
  obtain ⟨k1, k2, hk, hcon⟩ := cost_constructAll (o := o) m es
  refine Costs.bind (k := k1 + 2) (Costs.comp m (by omega) (hcon.mono (by omega))) (by omega) fun xs hxs => ?_
  exact Cheap.bind (k := k2 + 2) (Costs.comp m (by omega) ((cost_convertAll hxs).mono (by omega))) (by omega)
    fun _ => Costs.pure trivial

end Verif.Stack
