import Verif.Source.Rename

/-!
# The same program, alone and among others

`Sim` relates what a program does alone to what it does in a store with objects of others;
every function of the fragment is related to itself.
-/

set_option linter.unusedSectionVars false

namespace Verif.Src

/-- The second program does the same as the first, in any store in which its objects are as in
the first. -/
def Sim {α β : Type} (Q : List Nat → α → β → Prop) : Steps α → List Nat → Steps β → Prop
  | .ret a, ρ, p => ∃ b, p = .ret b ∧ Q ρ a b
  | .exc v, ρ, p => ∃ v', p = .exc v' ∧ VRel ρ v v'
  | .stuck, _, p => p = .stuck
  | .act g k, ρ, p => ∃ g' k', p = .act g' k' ∧ ∀ S S', SRel ρ S S' →
      ∃ ρ', Moves ρ ρ' S' (g' S') ∧ SRel ρ' (g S) (g' S') ∧ Sim Q (k S) ρ' (k' S')

theorem Sim.ret {α β : Type} {Q : List Nat → α → β → Prop} {a : α} {b : β} {ρ : List Nat} (h : Q ρ a b) :
    Sim Q (.ret a) ρ (.ret b) := ⟨b, rfl, h⟩

theorem Sim.stuck {α β : Type} {Q : List Nat → α → β → Prop} {ρ : List Nat} :
    Sim Q (.stuck : Steps α) ρ (.stuck : Steps β) := rfl

theorem Sim.exc {α β : Type} {Q : List Nat → α → β → Prop} {v v' : Val} {ρ : List Nat} (h : VRel ρ v v') :
    Sim Q (.exc v : Steps α) ρ (.exc v' : Steps β) := ⟨v', rfl, h⟩

theorem Sim.of {α β : Type} {Q : List Nat → α → β → Prop} {ρ : List Nat} {o : Option α} {o' : Option β}
    (h : OptRel (Q ρ) o o') : Sim Q (.of o) ρ (.of o') := by
  cases h with
  | none => exact .stuck
  | some h => exact .ret h

theorem Sim.prim {α β : Type} {Q : List Nat → α → β → Prop} {ρ : List Nat} {f : Store → Res α} {f' : Store → Res β}
    (h : ∀ S S', SRel ρ S S' → RRel Q ρ S' (f S) (f' S')) : Sim Q (.prim f) ρ (.prim f') := by
  refine ⟨_, _, rfl, fun S S' hS => ?_⟩
  have hr := h S S' hS
  cases h1 : f S with
  | ok a g =>
    cases h2 : f' S' with
    | ok b g' =>
      rw [h1, h2] at hr
      obtain ⟨ρ', m, s, q⟩ := hr
      simp only [h1, h2]
      exact ⟨ρ', m, s, .ret q⟩
    | _ => rw [h1, h2] at hr; exact hr.elim
  | exc v g =>
    cases h2 : f' S' with
    | exc b g' =>
      rw [h1, h2] at hr
      obtain ⟨ρ', m, s, q⟩ := hr
      simp only [h1, h2]
      exact ⟨ρ', m, s, .exc q⟩
    | _ => rw [h1, h2] at hr; exact hr.elim
  | stuck =>
    cases h2 : f' S' with
    | stuck =>
      simp only [h1, h2]
      exact ⟨ρ, .refl ρ S', hS, .stuck⟩
    | _ => rw [h1, h2] at hr; exact hr.elim

theorem Sim.bind {α β γ δ : Type} {Q : List Nat → α → β → Prop} {R : List Nat → γ → δ → Prop} {f : α → Steps γ}
    {f' : β → Steps δ} : ∀ {p : Steps α} {ρ : List Nat} {p' : Steps β}, Sim Q p ρ p' →
    (∀ ρ' a b, ρ <+: ρ' → Q ρ' a b → Sim R (f a) ρ' (f' b)) → Sim R (p.bind f) ρ (p'.bind f')
  | .ret a, ρ, _, ⟨b, rfl, h⟩, hf => hf ρ a b (List.prefix_refl ρ) h
  | .exc v, ρ, _, ⟨v', rfl, h⟩, _ => .exc h
  | .stuck, _, _, rfl, _ => .stuck
  | .act g k, ρ, _, ⟨g', k', rfl, h⟩, hf => by
    refine ⟨g', _, rfl, fun S S' hS => ?_⟩
    obtain ⟨ρ', m, s, q⟩ := h S S' hS
    exact ⟨ρ', m, s, Sim.bind q fun ρ'' a b hp => hf ρ'' a b (m.ext.trans hp)⟩

/-- The same end of a statement. -/
inductive FRel (ρ : List Nat) : Flow → Flow → Prop
  | next {l l' : Locals} : PRel ρ l l' → FRel ρ (.next l) (.next l')
  | ret {v v' : Val} : VRel ρ v v' → FRel ρ (.ret v) (.ret v')
  | cont {l l' : Locals} : PRel ρ l l' → FRel ρ (.cont l) (.cont l')
  | exc {v v' : Val} {l l' : Locals} : VRel ρ v v' → PRel ρ l l' → FRel ρ (.exc v l) (.exc v' l')

theorem Sim.out {α β : Type} {Q : List Nat → α → β → Prop} {f : α → Steps Flow} {f' : β → Steps Flow} {l l' : Locals} :
    ∀ {p : Steps α} {ρ : List Nat} {p' : Steps β}, PRel ρ l l' → Sim Q p ρ p' →
    (∀ ρ' a b, ρ <+: ρ' → PRel ρ' l l' → Q ρ' a b → Sim FRel (f a) ρ' (f' b)) → Sim FRel (p.out l f) ρ (p'.out l' f')
  | .ret a, ρ, _, hl, ⟨b, rfl, h⟩, hf => hf ρ a b (List.prefix_refl ρ) hl h
  | .exc v, ρ, _, hl, ⟨v', rfl, h⟩, _ => .ret (.exc h hl)
  | .stuck, _, _, _, rfl, _ => .stuck
  | .act g k, ρ, _, hl, ⟨g', k', rfl, h⟩, hf => by
    refine ⟨g', _, rfl, fun S S' hS => ?_⟩
    obtain ⟨ρ', m, s, q⟩ := h S S' hS
    exact ⟨ρ', m, s, Sim.out (hl.mono m.ext) q fun ρ'' a b hp => hf ρ'' a b (m.ext.trans hp)⟩

theorem Sim.result : ∀ {p : Steps Flow} {ρ : List Nat} {p' : Steps Flow}, Sim FRel p ρ p' → Sim VRel p.result ρ p'.result
  | .ret a, ρ, _, ⟨b, rfl, h⟩ => by
    cases h with
    | next _ => exact .ret (.same rfl)
    | ret h => exact .ret h
    | cont _ => exact .stuck
    | exc h _ => exact .exc h
  | .exc v, ρ, _, ⟨v', rfl, h⟩ => .stuck
  | .stuck, _, _, rfl => .stuck
  | .act g k, ρ, _, ⟨g', k', rfl, h⟩ => by
    refine ⟨g', _, rfl, fun S S' hS => ?_⟩
    obtain ⟨ρ', m, s, q⟩ := h S S' hS
    exact ⟨ρ', m, s, Sim.result q⟩

section
variable {ρ : List Nat}

theorem sim_test {v v' : Val} (hv : VRel ρ v v') : Sim (fun _ => Eq) (test v) ρ (test v') :=
  .prim fun S S' hS => by
    rw [truthy_rel hS hv]
    refine hS.of ?_
    cases truthy S' v' with
    | none => exact .none
    | some b => exact .some rfl

theorem sim_elems {v v' : Val} (hv : VRel ρ v v') : Sim VRels (elems v) ρ (elems v') :=
  .prim fun _ _ hS => hS.of (iterate_rel hS hv)

theorem sim_peek {r r' : Nat} (hr : ρ[r]? = some r') : Sim ORel (peek r) ρ (peek r') :=
  .prim fun S S' hS => by
    obtain ⟨o, o', h1, h2, h3⟩ := hS.read hr
    rw [h1, h2]
    exact hS.ok h3

/-- A context in which calls are related. -/
def SimC (C : SCtx) : Prop := ∀ (f : Func) (args args' : List Val) (kw kw' : List (Ident × Val)) (ρ : List Nat),
  VRels ρ args args' → PRel ρ kw kw' → Sim VRel (C.call f args kw) ρ (C.call f args' kw')

variable {C : SCtx} (hC : SimC C)
include hC

theorem sim_getAttr {v v' : Val} (hv : VRel ρ v v') (a : Ident) : Sim VRel (getAttrS C v a) ρ (getAttrS C v' a) := by
  have hlib : Sim VRel (.prim (libAttr v a)) ρ (.prim (libAttr v' a)) := .prim fun _ _ hS => libAttr_rel hS hv a
  unfold getAttrS
  cases hv with
  | obj hr =>
    refine Sim.bind (sim_peek hr) fun ρ' o o' hp ho => ?_
    have hv' := VRel.obj (get_prefix hp hr)
    cases ho with
    | list _ => exact .ret (.bmethod hv')
    | dict _ => exact .ret (.bmethod hv')
    | inst hf =>
      simp only
      rename_i c fs fs'
      rcases findMethod c a with _ | ⟨c', d, f⟩
      · exact .of (hf.look a)
      · cases d with
        | prop => exact hC _ _ _ _ _ _ (.cons hv' .nil) .nil
        | plain =>
          simp only
          have hl := hf.look a
          generalize look a fs = x at hl ⊢
          generalize look a fs' = x' at hl ⊢
          cases hl with
          | none => exact .ret (.method hv')
          | some h => exact .ret h
        | static => exact .ret (.same rfl)
  | @same v hp =>
    cases v with
    | cls c =>
      simp only
      rcases findMethod c a with _ | ⟨c', d, f⟩
      · exact hlib
      · cases d with
        | static => exact .ret (.same rfl)
        | _ => exact .stuck
    | obj _ => cases hp
    | _ => exact hlib
  | _ => exact hlib

theorem sim_apply {f f' : Val} (hf : VRel ρ f f') {args args' : List Val} (ha : VRels ρ args args')
    {kw kw' : List (Ident × Val)} (hk : PRel ρ kw kw') : Sim VRel (applyS C f args kw) ρ (applyS C f' args' kw') := by
  unfold applyS
  cases hf with
  | obj _ => exact .stuck
  | seq _ => exact .stuck
  | method hs =>
    rename_i self self' c m
    simp only
    split
    · split
      · cases hk
        obtain _ | ⟨h1, h2⟩ := ha
        cases h2
        cases hs with
        | same hp => cases hp
        | obj hr =>
          exact Sim.bind (.prim fun _ _ hS => putField_rel hS hr .args h1) fun _ _ _ _ _ => .ret (.same rfl)
      · next hx =>
        split
        · cases hk
          obtain _ | ⟨h1, h2⟩ := ha
          cases h2
          cases hs with
          | same hp => cases hp
          | obj hr => exact (hx _ _ rfl rfl rfl).elim
        · exact .stuck
    · cases methodIn c m with
      | none => exact .stuck
      | some f => exact hC _ _ _ _ _ _ (.cons hs ha) hk
  | bmethod hs =>
    cases hk with
    | nil => exact .prim fun _ _ hS => libMethod_rel hS hs _ ha
    | cons _ _ => exact .stuck
  | @same f hp =>
    cases f with
    | cls c =>
      refine Sim.bind (.prim fun _ _ hS => hS.new (.inst .nil)) fun ρ' self self' hp hs => ?_
      rcases findMethod c .__init__ with _ | ⟨c', d, f⟩
      · cases ha with
        | nil =>
          cases hk with
          | nil => exact .ret hs
          | cons _ _ => exact .stuck
        | cons _ _ => exact .stuck
      · exact Sim.bind (hC _ _ _ _ _ _ (.cons hs (ha.mono hp)) (hk.mono hp)) fun ρ'' _ _ hp' _ => .ret (hs.mono hp')
    | func f =>
      simp only
      cases look f functions with
      | none => exact .stuck
      | some f => exact hC _ _ _ _ _ _ ha hk
    | static c m =>
      simp only
      cases methodIn c m with
      | none => exact .stuck
      | some f => exact hC _ _ _ _ _ _ ha hk
    | builtin f =>
      cases hk with
      | nil => exact .prim fun _ _ hS => builtin_rel _ hS _ ha
      | cons _ _ => exact .stuck
    | method _ _ _ => cases hp
    | bmethod _ _ => cases hp
    | _ => exact .stuck
omit hC

/-! ## Expressions -/

theorem sim_comp {p p' : Locals → Steps Bool} {q q' : Locals → Steps Val}
    (hp : ∀ ρ l l', PRel ρ l l' → Sim (fun _ => Eq) (p l) ρ (p' l'))
    (hq : ∀ ρ l l', PRel ρ l l' → Sim VRel (q l) ρ (q' l')) (x : Ident) :
    ∀ {vs vs' : List Val} {ρ : List Nat} {l l' : Locals}, PRel ρ l l' → VRels ρ vs vs' →
      Sim VRels (compS p q x l vs) ρ (compS p' q' x l' vs')
  | [], _, ρ, l, l', hl, hv => by
    cases hv
    exact .ret .nil
  | v :: vs, _, ρ, l, l', hl, hv => by
    obtain _ | ⟨h1, h2⟩ := hv
    unfold compS
    refine Sim.bind (hp _ _ _ (.cons h1 hl)) fun ρ1 b b' e1 hb => ?_
    subst hb
    split
    · refine Sim.bind (hq _ _ _ (.cons (h1.mono e1) (hl.mono e1))) fun ρ2 w w' e2 hw => ?_
      exact Sim.bind (sim_comp hp hq x (hl.mono (e1.trans e2)) (h2.mono (e1.trans e2))) fun ρ3 ws ws' e3 hws =>
        .ret (.cons (hw.mono e3) hws)
    · exact sim_comp hp hq x (hl.mono e1) (h2.mono e1)

theorem sim_any {q q' : Locals → Steps Val} (hq : ∀ ρ l l', PRel ρ l l' → Sim VRel (q l) ρ (q' l')) (x : Ident) :
    ∀ {vs vs' : List Val} {ρ : List Nat} {l l' : Locals}, PRel ρ l l' → VRels ρ vs vs' →
      Sim VRel (anyS q x l vs) ρ (anyS q' x l' vs')
  | [], _, ρ, l, l', hl, hv => by
    cases hv
    exact .ret (.same rfl)
  | v :: vs, _, ρ, l, l', hl, hv => by
    obtain _ | ⟨h1, h2⟩ := hv
    unfold anyS
    refine Sim.bind (hq _ _ _ (.cons h1 hl)) fun ρ1 w w' e1 hw => ?_
    refine Sim.bind (sim_test hw) fun ρ2 b b' e2 hb => ?_
    subst hb
    split
    · exact .ret (.same rfl)
    · exact sim_any hq x (hl.mono (e1.trans e2)) (h2.mono (e1.trans e2))

theorem global_plain {x : Ident} {v : Val} (h : global x = some v) : plain v = true := by
  unfold global at h
  repeat' (split at h)
  all_goals first
    | (cases h; rfl)
    | cases h

mutual
theorem sim_eval (hC : SimC C) : ∀ (e : Expr) (ρ : List Nat) (l l' : Locals), PRel ρ l l' → Sim VRel (evalS C e l) ρ (evalS C e l')
  | .none, _, _, _, _ => .ret (.same rfl)
  | .bool _, _, _, _, _ => .ret (.same rfl)
  | .int _, _, _, _, _ => .ret (.same rfl)
  | .str _, _, _, _, _ => .ret (.same rfl)
  | .name x, ρ, l, l', hl => by
    unfold evalS
    have h := hl.look x
    generalize look x l = y at h ⊢
    generalize look x l' = y' at h ⊢
    cases h with
    | none =>
      refine .of ?_
      cases hg : global x with
      | none => exact .none
      | some v => exact .some (.same (global_plain hg))
    | some h => exact .ret h
  | .attr e a, ρ, l, l', hl => by
    unfold evalS
    exact Sim.bind (sim_eval hC e ρ l l' hl) fun ρ1 v v' _ hv => sim_getAttr hC hv a
  | .super b a, ρ, l, l', hl => by
    unfold evalS
    have h := hl.look .self
    generalize look .self l = y at h ⊢
    generalize look .self l' = y' at h ⊢
    cases h with
    | none => exact .stuck
    | some h =>
      simp only
      split
      · exact .ret (.method h)
      · rcases findMethod b a with _ | ⟨c', d, f⟩
        · exact .stuck
        · cases d with
          | plain => exact .ret (.method h)
          | _ => exact .stuck
  | .item e k, ρ, l, l', hl => by
    unfold evalS
    exact Sim.bind (sim_eval hC e ρ l l' hl) fun ρ1 v v' e1 hv =>
      Sim.bind (sim_eval hC k ρ1 l l' (hl.mono e1)) fun ρ2 k k' e2 hk =>
        .prim fun _ _ hS => item_rel hS (hv.mono e2) hk
  | .slice e lo hi, ρ, l, l', hl => by
    unfold evalS
    refine Sim.bind (sim_eval hC e ρ l l' hl) fun ρ1 v v' e1 hv =>
      Sim.bind (sim_eval hC lo ρ1 l l' (hl.mono e1)) fun ρ2 i i' e2 hj =>
      Sim.bind (sim_eval hC hi ρ2 l l' (hl.mono (e1.trans e2))) fun ρ3 j j' e3 hk => ?_
    split
    · cases hv; cases hj; cases hk
      exact .ret (.same rfl)
    · next hx =>
      split
      · cases hv; cases hj; cases hk
        exact (hx _ _ _ rfl rfl rfl).elim
      · exact .stuck
  | .call f args ks vs, ρ, l, l', hl => by
    unfold evalS
    exact Sim.bind (sim_eval hC f ρ l l' hl) fun ρ1 f f' e1 hf =>
      Sim.bind (sim_evals hC args ρ1 l l' (hl.mono e1)) fun ρ2 as as' e2 ha =>
      Sim.bind (sim_evals hC vs ρ2 l l' (hl.mono (e1.trans e2))) fun ρ3 vs vs' e3 hv =>
        sim_apply hC (hf.mono (e2.trans e3)) (ha.mono e3) (.zip ks hv)
  | .fstr parts, ρ, l, l', hl => by
    unfold evalS
    exact Sim.bind (sim_evals hC parts ρ l l' hl) fun ρ1 vs vs' e1 hv =>
      .of (optRel_eq _ (fun _ => .same rfl) (formats_rel hv))
  | .list es, ρ, l, l', hl => by
    unfold evalS
    exact Sim.bind (sim_evals hC es ρ l l' hl) fun ρ1 vs vs' e1 hv => .prim fun _ _ hS => hS.new (.list hv)
  | .dict ks es, ρ, l, l', hl => by
    unfold evalS
    exact Sim.bind (sim_evals hC es ρ l l' hl) fun ρ1 vs vs' e1 hv =>
      .prim fun _ _ hS => hS.new (.dict (.dictOf ks hv .nil))
  | .comp elt x it conds, ρ, l, l', hl => by
    unfold evalS
    exact Sim.bind (sim_eval hC it ρ l l' hl) fun ρ1 v v' e1 hv =>
      Sim.bind (sim_elems hv) fun ρ2 vs vs' e2 hvs =>
      Sim.bind (sim_comp (sim_holds hC conds) (sim_eval hC elt) x (hl.mono (e1.trans e2)) hvs) fun ρ3 ws ws' e3 hw =>
        .prim fun _ _ hS => hS.new (.list hw)
  | .anyGen elt x it, ρ, l, l', hl => by
    unfold evalS
    exact Sim.bind (sim_eval hC it ρ l l' hl) fun ρ1 v v' e1 hv =>
      Sim.bind (sim_elems hv) fun ρ2 vs vs' e2 hvs => sim_any (sim_eval hC elt) x (hl.mono (e1.trans e2)) hvs
  | .not e, ρ, l, l', hl => by
    unfold evalS
    refine Sim.bind (sim_eval hC e ρ l l' hl) fun ρ1 v v' e1 hv =>
      Sim.bind (sim_test hv) fun ρ2 b b' e2 hb => ?_
    subst hb
    exact .ret (.same rfl)
  | .and a b, ρ, l, l', hl => by
    unfold evalS
    refine Sim.bind (sim_eval hC a ρ l l' hl) fun ρ1 v v' e1 hv =>
      Sim.bind (sim_test hv) fun ρ2 c c' e2 hb => ?_
    subst hb
    split
    · exact sim_eval hC b ρ2 l l' (hl.mono (e1.trans e2))
    · exact .ret (hv.mono e2)
  | .or a b, ρ, l, l', hl => by
    unfold evalS
    refine Sim.bind (sim_eval hC a ρ l l' hl) fun ρ1 v v' e1 hv =>
      Sim.bind (sim_test hv) fun ρ2 c c' e2 hb => ?_
    subst hb
    split
    · exact .ret (hv.mono e2)
    · exact sim_eval hC b ρ2 l l' (hl.mono (e1.trans e2))
  | .ite c a b, ρ, l, l', hl => by
    unfold evalS
    refine Sim.bind (sim_eval hC c ρ l l' hl) fun ρ1 v v' e1 hv =>
      Sim.bind (sim_test hv) fun ρ2 c c' e2 hb => ?_
    subst hb
    split
    · exact sim_eval hC a ρ2 l l' (hl.mono (e1.trans e2))
    · exact sim_eval hC b ρ2 l l' (hl.mono (e1.trans e2))
  | .cmp op a b, ρ, l, l', hl => by
    unfold evalS
    exact Sim.bind (sim_eval hC a ρ l l' hl) fun ρ1 v v' e1 hv =>
      Sim.bind (sim_eval hC b ρ1 l l' (hl.mono e1)) fun ρ2 w w' e2 hw =>
        .prim fun _ _ hS => hS.of (optRel_eq _ (fun _ => .same rfl) (compare_rel hS op (hv.mono e2) hw))
  | .add a b, ρ, l, l', hl => by
    unfold evalS
    refine Sim.bind (sim_eval hC a ρ l l' hl) fun ρ1 v v' e1 hv =>
      Sim.bind (sim_eval hC b ρ1 l l' (hl.mono e1)) fun ρ2 w w' e2 hw => ?_
    split
    · cases hv; cases hw
      exact .ret (.same rfl)
    · cases hv; cases hw
      exact .ret (.same rfl)
    · next hx hy =>
      split
      · cases hv; cases hw
        exact (hx _ _ rfl rfl).elim
      · cases hv; cases hw
        exact (hy _ _ rfl rfl).elim
      · exact .stuck
  | .sub a b, ρ, l, l', hl => by
    unfold evalS
    refine Sim.bind (sim_eval hC a ρ l l' hl) fun ρ1 v v' e1 hv =>
      Sim.bind (sim_eval hC b ρ1 l l' (hl.mono e1)) fun ρ2 w w' e2 hw => ?_
    split
    · cases hv; cases hw
      exact .ret (.same rfl)
    · next hx =>
      split
      · cases hv; cases hw
        exact (hx _ _ rfl rfl).elim
      · exact .stuck
theorem sim_evals (hC : SimC C) : ∀ (es : List Expr) (ρ : List Nat) (l l' : Locals), PRel ρ l l' →
    Sim VRels (evalsS C es l) ρ (evalsS C es l')
  | [], _, _, _, _ => .ret .nil
  | e :: es, ρ, l, l', hl => by
    unfold evalsS
    exact Sim.bind (sim_eval hC e ρ l l' hl) fun ρ1 v v' e1 hv =>
      Sim.bind (sim_evals hC es ρ1 l l' (hl.mono e1)) fun ρ2 vs vs' e2 hvs => .ret (.cons (hv.mono e2) hvs)
theorem sim_holds (hC : SimC C) : ∀ (es : List Expr) (ρ : List Nat) (l l' : Locals), PRel ρ l l' →
    Sim (fun _ => Eq) (holdsS C es l) ρ (holdsS C es l')
  | [], _, _, _, _ => .ret rfl
  | e :: es, ρ, l, l', hl => by
    unfold holdsS
    refine Sim.bind (sim_eval hC e ρ l l' hl) fun ρ1 v v' e1 hv =>
      Sim.bind (sim_test hv) fun ρ2 b b' e2 hb => ?_
    subst hb
    split
    · exact sim_holds hC es ρ2 l l' (hl.mono (e1.trans e2))
    · exact .ret rfl
end

/-! ## Statements -/

theorem sim_while {c c' : Locals → Steps Val} {b b' : Locals → Steps Flow}
    (hc : ∀ ρ l l', PRel ρ l l' → Sim VRel (c l) ρ (c' l')) (hb : ∀ ρ l l', PRel ρ l l' → Sim FRel (b l) ρ (b' l')) :
    ∀ (n : Nat) (ρ : List Nat) (l l' : Locals), PRel ρ l l' → Sim FRel (whileS c b n l) ρ (whileS c' b' n l')
  | 0, _, _, _, _ => .stuck
  | n + 1, ρ, l, l', hl => by
    unfold whileS
    refine Sim.out hl (hc ρ l l' hl) fun ρ1 v v' e1 hl hv => ?_
    refine Sim.out hl (sim_test hv) fun ρ2 x x' e2 hl hx => ?_
    subst hx
    split
    · refine Sim.bind (hb ρ2 l l' hl) fun ρ3 o o' e3 ho => ?_
      cases ho with
      | next h => exact sim_while hc hb n ρ3 _ _ h
      | cont h => exact sim_while hc hb n ρ3 _ _ h
      | ret h => exact .ret (.ret h)
      | exc h h' => exact .ret (.exc h h')
    · exact .ret (.next hl)

theorem sim_for {bind : Nat → Val → Locals → Locals} {b b' : Locals → Steps Flow}
    (hbind : ∀ ρ i v v' l l', VRel ρ v v' → PRel ρ l l' → PRel ρ (bind i v l) (bind i v' l'))
    (hb : ∀ ρ l l', PRel ρ l l' → Sim FRel (b l) ρ (b' l')) :
    ∀ (vs vs' : List Val) (i : Nat) (ρ : List Nat) (l l' : Locals), VRels ρ vs vs' → PRel ρ l l' →
      Sim FRel (forS bind b i vs l) ρ (forS bind b' i vs' l')
  | [], _, _, _, _, _, hv, hl => by
    cases hv
    exact .ret (.next hl)
  | v :: vs, _, i, ρ, l, l', hv, hl => by
    obtain _ | ⟨h1, h2⟩ := hv
    unfold forS
    refine Sim.bind (hb ρ _ _ (hbind ρ i _ _ l l' h1 hl)) fun ρ1 o o' e1 ho => ?_
    cases ho with
    | next h => exact sim_for hbind hb vs _ _ ρ1 _ _ (h2.mono e1) h
    | cont h => exact sim_for hbind hb vs _ _ ρ1 _ _ (h2.mono e1) h
    | ret h => exact .ret (.ret h)
    | exc h h' => exact .ret (.exc h h')

mutual
theorem sim_exec (hC : SimC C) : ∀ (s : Stmt) (ρ : List Nat) (l l' : Locals), PRel ρ l l' → Sim FRel (execS C s l) ρ (execS C s l')
  | .assign x e, ρ, l, l', hl => by
    unfold execS
    exact Sim.out hl (sim_eval hC e ρ l l' hl) fun ρ1 v v' e1 hl hv => .ret (.next (.cons hv hl))
  | .setAttr o a e, ρ, l, l', hl => by
    unfold execS
    refine Sim.out hl (sim_eval hC e ρ l l' hl) fun ρ1 v v' e1 hl hv =>
      Sim.out hl (sim_eval hC o ρ1 l l' hl) fun ρ2 o o' e2 hl ho => ?_
    cases ho with
    | obj hr =>
      exact Sim.out hl (.prim fun _ _ hS => putField_rel hS hr a (hv.mono e2)) fun ρ3 _ _ e3 hl _ => .ret (.next hl)
    | @same o hp =>
      cases o with
      | obj _ => cases hp
      | _ => exact .stuck
    | _ => exact .stuck
  | .setItem o k e, ρ, l, l', hl => by
    unfold execS
    refine Sim.out hl (sim_eval hC e ρ l l' hl) fun ρ1 v v' e1 hl hv =>
      Sim.out hl (sim_eval hC o ρ1 l l' hl) fun ρ2 o o' e2 hl ho =>
      Sim.out hl (sim_eval hC k ρ2 l l' hl) fun ρ3 k k' e3 hl hk => ?_
    cases ho with
    | obj hr =>
      cases hk with
      | @same k hp =>
        cases k with
        | str k =>
          exact Sim.out hl (.prim fun _ _ hS => putItem_rel hS (get_prefix e3 hr) k (hv.mono (e2.trans e3)))
            fun ρ3 _ _ e3 hl _ => .ret (.next hl)
        | _ => exact .stuck
      | _ => exact .stuck
    | @same o hp =>
      cases o with
      | obj _ => cases hp
      | _ => exact .stuck
    | _ => exact .stuck
  | .expr e, ρ, l, l', hl => by
    unfold execS
    exact Sim.out hl (sim_eval hC e ρ l l' hl) fun ρ1 v v' e1 hl hv => .ret (.next hl)
  | .ret e, ρ, l, l', hl => by
    unfold execS
    exact Sim.out hl (sim_eval hC e ρ l l' hl) fun ρ1 v v' e1 hl hv => .ret (.ret hv)
  | .raise e, ρ, l, l', hl => by
    unfold execS
    exact Sim.out hl (sim_eval hC e ρ l l' hl) fun ρ1 v v' e1 hl hv => .ret (.exc hv hl)
  | .ite c a b, ρ, l, l', hl => by
    unfold execS
    refine Sim.out hl (sim_eval hC c ρ l l' hl) fun ρ1 v v' e1 hl hv =>
      Sim.out hl (sim_test hv) fun ρ2 x x' e2 hl hx => ?_
    subst hx
    split
    · exact sim_execs hC a ρ2 l l' hl
    · exact sim_execs hC b ρ2 l l' hl
  | .while c body, ρ, l, l', hl => by
    unfold execS
    exact sim_while (sim_eval hC c) (sim_execs hC body) _ ρ l l' hl
  | .for x it body, ρ, l, l', hl => by
    unfold execS
    exact Sim.out hl (sim_eval hC it ρ l l' hl) fun ρ1 v v' e1 hl hv =>
      Sim.out hl (sim_elems hv) fun ρ2 vs vs' e2 hl hvs =>
        sim_for (fun _ _ _ _ _ _ hv hl => .cons hv hl) (sim_execs hC body) _ _ 0 ρ2 l l' hvs hl
  | .forEnum i x it body, ρ, l, l', hl => by
    unfold execS
    exact Sim.out hl (sim_eval hC it ρ l l' hl) fun ρ1 v v' e1 hl hv =>
      Sim.out hl (sim_elems hv) fun ρ2 vs vs' e2 hl hvs =>
        sim_for (bind := fun n v l => (x, v) :: (i, .int n) :: l)
          (fun _ _ _ _ _ _ hv hl => .cons hv (.cons (.same rfl) hl)) (sim_execs hC body) _ _ 0 ρ2 l l' hvs hl
  | .tryExcept body x handler, ρ, l, l', hl => by
    unfold execS
    refine Sim.bind (sim_execs hC body ρ l l' hl) fun ρ1 o o' e1 ho => ?_
    cases ho with
    | exc h1 h2 =>
      refine Sim.bind (sim_execs hC handler ρ1 _ _ (.cons h1 h2)) fun ρ2 o o' e2 ho => ?_
      cases ho with
      | next h => exact .ret (.next (h.unset x))
      | ret h => exact .ret (.ret h)
      | cont h => exact .ret (.cont (h.unset x))
      | exc h h' => exact .ret (.exc h (h'.unset x))
    | next h => exact .ret (.next h)
    | ret h => exact .ret (.ret h)
    | cont h => exact .ret (.cont h)
  | .continue, _, _, _, hl => .ret (.cont hl)
  | .pass, _, _, _, hl => .ret (.next hl)
theorem sim_execs (hC : SimC C) : ∀ (ss : List Stmt) (ρ : List Nat) (l l' : Locals), PRel ρ l l' →
    Sim FRel (execsS C ss l) ρ (execsS C ss l')
  | [], _, _, _, hl => .ret (.next hl)
  | s :: ss, ρ, l, l', hl => by
    unfold execsS Steps.andThen
    refine Sim.bind (sim_exec hC s ρ l l' hl) fun ρ1 o o' e1 ho => ?_
    cases ho with
    | next h => exact sim_execs hC ss ρ1 _ _ h
    | ret h => exact .ret (.ret h)
    | cont h => exact .ret (.cont h)
    | exc h h' => exact .ret (.exc h h')
end

/-- Every call does the same alone and among others. -/
theorem sim_call (env : Env) : ∀ n : Nat, SimC ⟨env, callS env n, n⟩
  | 0, _, _, _, _, _, _, _, _ => .stuck
  | n + 1, f, args, args', kw, kw', ρ, ha, hk => by
    show Sim VRel (callS env (n + 1) f args kw) ρ (callS env (n + 1) f args' kw')
    unfold callS
    have h := prel_bindParams f.params ha hk
    generalize bindParams f.params args kw = x at h ⊢
    generalize bindParams f.params args' kw' = x' at h ⊢
    cases h with
    | none => exact .stuck
    | some h => exact Sim.result (sim_execs (sim_call env n) f.body ρ _ _ h)
end

end Verif.Src
