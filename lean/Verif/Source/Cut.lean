import Verif.Source.Frame
import Verif.Source.Fuel

/-!
# Calls that are cut short

Any call of a function may fail at once with an exception `stop`: the interpreter has reached its
recursion limit, there is no memory left, or the user has interrupted it.  Which calls fail is up to
an oracle, which knows everything.
-/

set_option linter.unusedSectionVars false
set_option linter.unusedVariables false

namespace Verif.Src

/-- Which calls fail: the oracle is given the depth that is left, the function, its arguments and the
store. -/
abbrev Oracle := Nat → Func → List Val → Store → Bool

/-- Call a function, with fuel, when calls may fail.  Without failures this is `call`. -/
def callF (env : Env) (stop : Exc) (fault : Oracle) : Nat → Func → List Val → List (Ident × Val) → Store → Res Val
  | 0, _, _, _, _ => .stuck
  | n + 1, f, args, kw, h =>
    if fault (n + 1) f args h then .exc (.exc stop) h
    else match bindParams f.params args kw with
      | none => .stuck
      | some l => (execs ⟨env, callF env stop fault n, n⟩ f.body l h).result

/-- The same, unless cut short. -/
def Res.Cut {α : Type} (stop : Exc) (r r' : Res α) : Prop := (∃ h, r = .exc (.exc stop) h) ∨ r = r'
/-- The same, unless cut short. -/
def Out.Cut (stop : Exc) (o o' : Out) : Prop := (∃ l h, o = .exc (.exc stop) l h) ∨ o = o'

variable {stop : Exc}

theorem Res.Cut.refl {α : Type} (r : Res α) : r.Cut stop r := .inr rfl
theorem Out.Cut.refl (o : Out) : o.Cut stop o := .inr rfl

theorem Res.Cut.bind {α β : Type} {r r' : Res α} {f f' : α → Store → Res β} (hr : r.Cut stop r')
    (hf : ∀ a h, (f a h).Cut stop (f' a h)) : (r.bind f).Cut stop (r'.bind f') := by
  rcases hr with ⟨h, rfl⟩ | rfl
  · exact .inl ⟨h, rfl⟩
  · cases r with
    | ok a h => exact hf a h
    | exc e h => exact .inr rfl
    | stuck => exact .inr rfl

theorem Res.Cut.out {α : Type} {r r' : Res α} {l : Locals} {f f' : α → Store → Out} (hr : r.Cut stop r')
    (hf : ∀ a h, (f a h).Cut stop (f' a h)) : (r.out l f).Cut stop (r'.out l f') := by
  rcases hr with ⟨h, rfl⟩ | rfl
  · exact .inl ⟨l, h, rfl⟩
  · cases r with
    | ok a h => exact hf a h
    | exc e h => exact .inr rfl
    | stuck => exact .inr rfl

theorem Out.Cut.andThen {o o' : Out} {f f' : Locals → Store → Out} (ho : o.Cut stop o')
    (hf : ∀ l h, (f l h).Cut stop (f' l h)) : (o.andThen f).Cut stop (o'.andThen f') := by
  rcases ho with ⟨l, h, rfl⟩ | rfl
  · exact .inl ⟨l, h, rfl⟩
  · cases o with
    | next l h => exact hf l h
    | _ => exact .inr rfl

theorem Out.Cut.result {o o' : Out} (ho : o.Cut stop o') : o.result.Cut stop o'.result := by
  rcases ho with ⟨l, h, rfl⟩ | rfl
  · exact .inl ⟨h, rfl⟩
  · exact .inr rfl

/-! ## The only `try` -/

mutual
/-- No `try`. -/
def tame : Stmt → Bool
  | .tryExcept _ _ _ => false
  | .ite _ a b => tames a && tames b
  | .while _ b => tames b
  | .for _ _ b => tames b
  | .forEnum _ _ _ b => tames b
  | _ => true
/-- No `try` in any of them. -/
def tames : List Stmt → Bool
  | [] => true
  | s :: ss => tame s && tames ss
end

/-- A function without `try`, or the one function that has one. -/
def Calm (f : Func) : Prop := tames f.body = true ∨ f = XmlToMathMLAdapter__mathml_elements

theorem look_mem {α : Type} {x : Ident} : ∀ {l : List (Ident × α)} {v : α}, look x l = some v → (x, v) ∈ l
  | (y, w) :: l, v, h => by
    unfold look at h
    split at h
    · next e => cases h; rw [e]; exact List.mem_cons_self
    · exact List.mem_cons_of_mem _ (look_mem h)

theorem classes_tame : classes.all (fun p => p.1 == .XmlToMathMLAdapter || p.2.methods.all fun q => tames q.2.2.body) = true := by
  decide +kernel

theorem functions_tame : functions.all (fun p => tames p.2.body) = true := by decide +kernel

theorem calm_look {c m : Ident} {k : Class} {d : Deco × Func} (h1 : look c classes = some k)
    (h2 : look m k.methods = some d) : Calm d.2 := by
  by_cases hc : c = .XmlToMathMLAdapter
  · subst hc
    have h3 : look .XmlToMathMLAdapter classes = some _ := rfl
    rw [h3] at h1
    cases h1
    simp only [look] at h2
    repeat' (split at h2)
    all_goals first
      | (cases h2; exact .inl rfl)
      | (cases h2; exact .inr rfl)
      | cases h2
  · have h3 := List.all_eq_true.1 classes_tame _ (look_mem h1)
    simp only [Bool.or_eq_true, beq_iff_eq, hc, false_or] at h3
    exact .inl (List.all_eq_true.1 h3 _ (look_mem h2))

theorem calm_method {c m : Ident} {f : Func} (h : methodIn c m = some f) : Calm f := by
  unfold methodIn at h
  split at h
  · cases h
  · next k hk =>
    obtain ⟨d, h1, rfl⟩ := Option.map_eq_some_iff.1 h
    exact calm_look hk h1

theorem calm_go {m : Ident} : ∀ {n : Nat} {c c' : Ident} {d : Deco} {f : Func}, findMethod.go m n c = some (c', d, f) → Calm f
  | 0, _, _, _, _, h => by cases h
  | n + 1, c, c', d, f, h => by
    unfold findMethod.go at h
    split at h
    · cases h
    · next k hk =>
      split at h
      · next d' hd => cases h; exact calm_look hk hd
      · split at h
        · cases h
        · exact calm_go h

theorem calm_find {c m c' : Ident} {d : Deco} {f : Func} (h : findMethod c m = some (c', d, f)) : Calm f := calm_go h

theorem calm_func {x : Ident} {f : Func} (h : look x functions = some f) : Calm f :=
  .inl (List.all_eq_true.1 functions_tame _ (look_mem h))

/-- A context in which calls may be cut short. -/
structure Ctx.Cut (stop : Exc) (C C' : Ctx) : Prop where
  env : C.env = C'.env
  call : ∀ {f}, Calm f → ∀ args kw h, (C.call f args kw h).Cut stop (C'.call f args kw h)
  turns : C.turns = C'.turns

section
variable {C C' : Ctx} (hC : C.Cut stop C')
include hC

theorem getAttr_cut (v : Val) (a : Ident) (h : Store) : (getAttr C v a h).Cut stop (getAttr C' v a h) := by
  unfold getAttr
  repeat' split
  all_goals first | exact hC.call (calm_find (by assumption)) .. | exact .refl _

theorem apply_cut (f : Val) (args : List Val) (kw : List (Ident × Val)) (h : Store) :
    (apply C f args kw h).Cut stop (apply C' f args kw h) := by
  unfold apply
  cases f with
  | cls c =>
    refine Res.Cut.bind (.refl _) fun self h => ?_
    split
    · next hf => exact Res.Cut.bind (hC.call (calm_find hf) ..) fun _ _ => .refl _
    · exact .refl _
  | builtin f => rw [hC.env]; exact .refl _
  | method self c m =>
    dsimp only
    split
    · exact .refl _
    · split
      · next hf => exact hC.call (calm_method hf) ..
      · exact .refl _
  | func f =>
    dsimp only
    split
    · next hf => exact hC.call (calm_func hf) ..
    · exact .refl _
  | static c m =>
    dsimp only
    split
    · next hf => exact hC.call (calm_method hf) ..
    · exact .refl _
  | _ => exact .refl _

omit hC in
theorem compRes_cut {p p' : Locals → Store → Res Bool} {q q' : Locals → Store → Res Val}
    (hp : ∀ l h, (p l h).Cut stop (p' l h)) (hq : ∀ l h, (q l h).Cut stop (q' l h)) (x : Ident) (l : Locals)
    (vs : List Val) : ∀ h, (compRes p q x l vs h).Cut stop (compRes p' q' x l vs h) := by
  induction vs with
  | nil => exact fun h => .refl _
  | cons v vs ih =>
    intro h
    refine Res.Cut.bind (hp _ _) fun b h => ?_
    cases b with
    | false => exact ih h
    | true => exact Res.Cut.bind (hq _ _) fun w h => Res.Cut.bind (ih h) fun _ _ => .refl _

omit hC in
theorem anyRes_cut {q q' : Locals → Store → Res Val}
    (hq : ∀ l h, (q l h).Cut stop (q' l h)) (x : Ident) (l : Locals)
    (vs : List Val) : ∀ h, (anyRes q x l vs h).Cut stop (anyRes q' x l vs h) := by
  induction vs with
  | nil => exact fun h => .refl _
  | cons v vs ih =>
    intro h
    refine Res.Cut.bind (hq _ _) fun b h => ?_
    split
    · exact .refl _
    · exact ih h
    · exact .refl _

mutual
theorem eval_cut : ∀ (e : Expr) (l : Locals) (h : Store), (eval C e l h).Cut stop (eval C' e l h)
  | .none, _, _ => .refl _
  | .bool _, _, _ => .refl _
  | .int _, _, _ => .refl _
  | .str _, _, _ => .refl _
  | .name _, _, _ => .refl _
  | .attr e a, l, h => Res.Cut.bind (eval_cut e l h) fun v h => getAttr_cut hC v a h
  | .super _ _, _, _ => .refl _
  | .item e k, l, h =>
    Res.Cut.bind (eval_cut e l h) fun _ h => Res.Cut.bind (eval_cut k l h) fun _ _ => .refl _
  | .slice e lo hi, l, h =>
    Res.Cut.bind (eval_cut e l h) fun _ h => Res.Cut.bind (eval_cut lo l h) fun _ h =>
      Res.Cut.bind (eval_cut hi l h) fun _ _ => .refl _
  | .call f args ks vs, l, h =>
    Res.Cut.bind (eval_cut f l h) fun _ h => Res.Cut.bind (evals_cut args l h) fun _ h =>
      Res.Cut.bind (evals_cut vs l h) fun _ _ => apply_cut hC ..
  | .fstr parts, l, h => Res.Cut.bind (evals_cut parts l h) fun _ _ => .refl _
  | .list es, l, h => Res.Cut.bind (evals_cut es l h) fun _ _ => .refl _
  | .dict _ es, l, h => Res.Cut.bind (evals_cut es l h) fun _ _ => .refl _
  | .comp elt x it conds, l, h =>
    Res.Cut.bind (eval_cut it l h) fun v h => by
      split
      · exact .refl _
      · exact Res.Cut.bind (compRes_cut (holds_cut conds) (eval_cut elt) ..) fun _ _ => .refl _
  | .anyGen elt x it, l, h =>
    Res.Cut.bind (eval_cut it l h) fun v h => by
      split
      · exact .refl _
      · exact anyRes_cut (eval_cut elt) ..
  | .not e, l, h => Res.Cut.bind (eval_cut e l h) fun _ _ => .refl _
  | .and a b, l, h =>
    Res.Cut.bind (eval_cut a l h) fun v h => by
      split
      · exact eval_cut b l h
      · exact .refl _
      · exact .refl _
  | .or a b, l, h =>
    Res.Cut.bind (eval_cut a l h) fun v h => by
      split
      · exact .refl _
      · exact eval_cut b l h
      · exact .refl _
  | .ite c a b, l, h =>
    Res.Cut.bind (eval_cut c l h) fun v h => by
      split
      · exact eval_cut a l h
      · exact eval_cut b l h
      · exact .refl _
  | .cmp _ a b, l, h =>
    Res.Cut.bind (eval_cut a l h) fun _ h => Res.Cut.bind (eval_cut b l h) fun _ _ => .refl _
  | .add a b, l, h =>
    Res.Cut.bind (eval_cut a l h) fun _ h => Res.Cut.bind (eval_cut b l h) fun _ _ => .refl _
  | .sub a b, l, h =>
    Res.Cut.bind (eval_cut a l h) fun _ h => Res.Cut.bind (eval_cut b l h) fun _ _ => .refl _
theorem evals_cut : ∀ (es : List Expr) (l : Locals) (h : Store), (evals C es l h).Cut stop (evals C' es l h)
  | [], _, _ => .refl _
  | e :: es, l, h =>
    Res.Cut.bind (eval_cut e l h) fun _ h => Res.Cut.bind (evals_cut es l h) fun _ _ => .refl _
theorem holds_cut : ∀ (es : List Expr) (l : Locals) (h : Store), (holds C es l h).Cut stop (holds C' es l h)
  | [], _, _ => .refl _
  | e :: es, l, h =>
    Res.Cut.bind (eval_cut e l h) fun v h => by
      split
      · exact holds_cut es l h
      · exact .refl _
      · exact .refl _
end

omit hC in
theorem whileOut_cut {c c' : Locals → Store → Res Val} {b b' : Locals → Store → Out}
    (hc : ∀ l h, (c l h).Cut stop (c' l h)) (hb : ∀ l h, (b l h).Cut stop (b' l h)) (n : Nat) :
    ∀ l h, (whileOut c b n l h).Cut stop (whileOut c' b' n l h) := by
  induction n with
  | zero => intro l h; exact .inr rfl
  | succ n ih =>
    intro l h
    refine Res.Cut.out (hc l h) fun v h => ?_
    split
    · rcases hb l h with ⟨l', h', e⟩ | e
      · rw [e]; exact .inl ⟨_, _, rfl⟩
      · rw [e]
        split
        · exact ih _ _
        · exact ih _ _
        · exact .refl _
    · exact .refl _
    · exact .refl _

omit hC in
theorem forOut_cut {bind : Nat → Val → Locals → Locals} {b b' : Locals → Store → Out}
    (hb : ∀ l h, (b l h).Cut stop (b' l h)) (vs : List Val) :
    ∀ i l h, (forOut bind b i vs l h).Cut stop (forOut bind b' i vs l h) := by
  induction vs with
  | nil => exact fun _ _ _ => .refl _
  | cons v vs ih =>
    intro i l h
    unfold forOut
    rcases hb (bind i v l) h with ⟨l', h', e⟩ | e
    · rw [e]; exact .inl ⟨_, _, rfl⟩
    · rw [e]
      split
      · exact ih ..
      · exact ih ..
      · exact .refl _

mutual
theorem exec_cut : ∀ (s : Stmt), tame s = true → ∀ (l : Locals) (h : Store), (exec C s l h).Cut stop (exec C' s l h)
  | .assign _ e, ht, l, h => Res.Cut.out (eval_cut hC e l h) fun _ _ => .refl _
  | .setAttr o _ e, ht, l, h =>
    Res.Cut.out (eval_cut hC e l h) fun _ h => Res.Cut.out (eval_cut hC o l h) fun _ _ => .refl _
  | .setItem o k e, ht, l, h =>
    Res.Cut.out (eval_cut hC e l h) fun _ h => Res.Cut.out (eval_cut hC o l h) fun _ h =>
      Res.Cut.out (eval_cut hC k l h) fun _ _ => .refl _
  | .expr e, ht, l, h => Res.Cut.out (eval_cut hC e l h) fun _ _ => .refl _
  | .ret e, ht, l, h => Res.Cut.out (eval_cut hC e l h) fun _ _ => .refl _
  | .raise e, ht, l, h => Res.Cut.out (eval_cut hC e l h) fun _ _ => .refl _
  | .ite c a b, ht, l, h =>
    Res.Cut.out (eval_cut hC c l h) fun v h => by
      split
      · exact execs_cut a (Bool.and_eq_true_iff.1 ht).1 l h
      · exact execs_cut b (Bool.and_eq_true_iff.1 ht).2 l h
      · exact .refl _
  | .while c body, ht, l, h => by
    unfold exec
    rw [hC.turns]
    exact whileOut_cut (eval_cut hC c) (execs_cut body ht) _ l h
  | .for x it body, ht, l, h =>
    Res.Cut.out (eval_cut hC it l h) fun v h => by
      split
      · exact .refl _
      · exact forOut_cut (execs_cut body ht) ..
  | .forEnum i x it body, ht, l, h =>
    Res.Cut.out (eval_cut hC it l h) fun v h => by
      split
      · exact .refl _
      · exact forOut_cut (execs_cut body ht) ..
  | .tryExcept body x handler, ht, l, h => by cases ht
  | .continue, ht, _, _ => .refl _
  | .pass, ht, _, _ => .refl _
theorem execs_cut : ∀ (ss : List Stmt), tames ss = true → ∀ (l : Locals) (h : Store), (execs C ss l h).Cut stop (execs C' ss l h)
  | [], _, _, _ => .refl _
  | s :: ss, ht, l, h => Out.Cut.andThen (exec_cut s (Bool.and_eq_true_iff.1 ht).1 l h) fun l h =>
    execs_cut ss (Bool.and_eq_true_iff.1 ht).2 l h
end

end


/-! ## The function with the `try` -/

/-- Names that the `try` refers to. -/
structure Clear (l : Locals) : Prop where
  parse : look .parseString l = none
  list : look .list l = none

theorem Clear.cons {l : Locals} (h : Clear l) {y : Ident} (v : Val) (h1 : y ≠ .parseString) (h2 : y ≠ .list) :
    Clear ((y, v) :: l) :=
  ⟨by rw [look, if_neg (Ne.symm h1)]; exact h.parse, by rw [look, if_neg (Ne.symm h2)]; exact h.list⟩

theorem absent_unset {x y : Ident} : ∀ {l : Locals}, look x l = none → look x (unset y l) = none
  | [], _ => rfl
  | (z, v) :: l, h => by
    unfold look at h
    split at h
    · cases h
    · next hn =>
      unfold unset
      rw [List.filter_cons]
      split
      · rw [look, if_neg hn]
        exact absent_unset h
      · exact absent_unset h

theorem Clear.unset {l : Locals} (h : Clear l) (y : Ident) : Clear (unset y l) :=
  ⟨absent_unset h.parse, absent_unset h.list⟩

/-- xml_to_mathml/adapter.py 42–44 -/
abbrev tryBody : List Stmt :=
  [.assign .dom (.call (.name .parseString) [.attr (.name .self) ._xml] [] []),
   .assign .elements (.call (.attr (.name .dom) .getElementsByTagName) [.str c!"math"] [] []),
   .ret (.call (.name .list) [.name .elements] [] [])]

/-- xml_to_mathml/adapter.py 46–47 -/
abbrev tryHandler : List Stmt :=
  [.expr (.call (.attr (.name .self) ._fix_error) [.name .e] [] []),
   .assign .exception (.name .e)]

theorem no_xml : ∀ c, findMethod c ._xml = none := by
  intro c
  cases c <;> rfl

/-- The attribute is read without calling anything. -/
theorem getAttr_xml (C C' : Ctx) (v : Val) (h : Store) : getAttr C v ._xml h = getAttr C' v ._xml h := by
  unfold getAttr
  simp only [no_xml]

theorem global_parse : global .parseString = some (.builtin .parseString) := rfl
theorem global_list : global .list = some (.builtin .list) := rfl

/-- What the body of the `try` does: nothing in it calls a function of the source. -/
inductive TryOut (l : Locals) : Out → Prop
  | ret {v h} : TryOut l (.ret v h)
  | stuck : TryOut l .stuck
  | exc {e l' h} : Clear l' → TryOut l (.exc e l' h)

/-- In the body of the `try` no function of the source is called. -/
theorem tryBody_same {C C' : Ctx} (he : C.env = C'.env) {l : Locals} (hl : Clear l) (h : Store) :
    execs C tryBody l h = execs C' tryBody l h ∧ TryOut l (execs C' tryBody l h) := by
  cases hs : look .self l with
  | none =>
    have : global .self = none := rfl
    simp only [execs, exec, eval, evals, hl.parse, hs, this, global_parse, Res.of, Res.bind, Res.out, Out.andThen]
    exact ⟨trivial, .stuck⟩
  | some v =>
    simp only [execs, exec, eval, evals, hl.parse, hs, global_parse, Res.of, Res.bind, getAttr_xml C C']
    cases getAttr C' v ._xml h with
    | stuck => exact ⟨rfl, .stuck⟩
    | exc e h1 => exact ⟨rfl, .exc hl⟩
    | ok w h1 =>
      simp only [List.zip_nil_left, apply, he]
      cases hb : builtin C'.env .parseString [w] h1 with
      | stuck => exact ⟨rfl, .stuck⟩
      | exc e h2 => exact ⟨rfl, .exc hl⟩
      | ok d h2 =>
        have hd : ∃ d', d = .document d' := by
          cases w <;> simp only [builtin] at hb <;> try (cases hb; done)
          split at hb
          · cases hb; exact ⟨_, rfl⟩
          · cases hb
        obtain ⟨d, rfl⟩ := hd
        have hl2 : look .list ((.elements, .seq ((mathElements d).map .node)) :: (.dom, .document d) :: l) = none := by
          simp [look, hl.list]
        simp only [Res.out, Out.andThen, look, if_true, getAttr, libAttr, libMethod, Res.bind, reduceCtorEq, if_false,
          hl.list, global_list, builtin, iterate, new]
        exact ⟨trivial, .ret⟩

/-! ## The whole function -/

theorem handler_cut {C C' : Ctx} (hC : C.Cut stop C') (l : Locals) (h : Store) :
    (execs C tryHandler l h).Cut stop (execs C' tryHandler l h) :=
  execs_cut hC _ rfl l h

/-- The locals after the handler. -/
theorem handler_clear (C : Ctx) {l l' : Locals} {h h' : Store} (hl : Clear l)
    (hh : execs C tryHandler l h = .next l' h') : Clear l' := by
  simp only [tryHandler, execs, exec] at hh
  generalize eval C (.call (.attr (.name .self) ._fix_error) [.name .e] [] []) l h = r at hh
  cases r with
  | stuck => cases hh
  | exc => cases hh
  | ok v h1 =>
    simp only [Res.out, Out.andThen] at hh
    generalize eval C (.name .e) l h1 = r at hh
    cases r with
    | stuck => cases hh
    | exc => cases hh
    | ok v h2 =>
      cases hh
      exact hl.cons v (by decide) (by decide)

theorem try_cut {C C' : Ctx} (hC : C.Cut stop C') {l : Locals} (hl : Clear l) (h : Store) :
    (exec C (.tryExcept tryBody .e tryHandler) l h).Cut stop (exec C' (.tryExcept tryBody .e tryHandler) l h) ∧
    ∀ l' h', exec C' (.tryExcept tryBody .e tryHandler) l h = .next l' h' → Clear l' := by
  obtain ⟨h1, h2⟩ := tryBody_same hC.env hl h
  unfold exec
  rw [h1]
  generalize execs C' tryBody l h = o at h2
  cases o with
  | next => cases h2
  | cont => cases h2
  | ret v h => exact ⟨.refl _, fun _ _ e => by cases e⟩
  | stuck => exact ⟨.refl _, fun _ _ e => by cases e⟩
  | exc e l' h' =>
    cases h2 with
    | exc hl' =>
    have hl'' := hl'.cons (y := .e) e (by decide) (by decide)
    dsimp only
    constructor
    · rcases handler_cut hC ((.e, e) :: l') h' with ⟨l2, h2, e2⟩ | e2
      · rw [e2]; exact .inl ⟨_, _, rfl⟩
      · rw [e2]; exact .refl _
    · intro l3 h3
      cases hh : execs C' tryHandler ((.e, e) :: l') h' with
      | next l2 h2 =>
        intro e3
        cases e3
        exact (handler_clear C' hl'' hh).unset _
      | _ => intro e3; cases e3

theorem forOut_cut_inv {bind : Nat → Val → Locals → Locals} {b b' : Locals → Store → Out} {I : Locals → Prop}
    (hi : ∀ i v l, I l → I (bind i v l)) (hb : ∀ l h, I l → (b l h).Cut stop (b' l h) ∧
      (∀ l' h', b' l h = .next l' h' → I l') ∧ ∀ l' h', b' l h ≠ .cont l' h') (vs : List Val) :
    ∀ i l h, I l → (forOut bind b i vs l h).Cut stop (forOut bind b' i vs l h) := by
  induction vs with
  | nil => exact fun _ _ _ _ => .refl _
  | cons v vs ih =>
    intro i l h hl
    unfold forOut
    obtain ⟨h1, h2, h3⟩ := hb (bind i v l) h (hi i v l hl)
    rcases h1 with ⟨l', h', e⟩ | e
    · rw [e]; exact .inl ⟨_, _, rfl⟩
    · rw [e]
      split
      · next e' => exact ih _ _ _ (h2 _ _ e')
      · next e' => exact absurd e' (h3 _ _)
      · exact .refl _

theorem try_no_cont (C : Ctx) (l : Locals) (h : Store) (hl : Clear l) (l' : Locals) (h' : Store) :
    exec C (.tryExcept tryBody .e tryHandler) l h ≠ .cont l' h' := by
  obtain ⟨_, h2⟩ := tryBody_same (C := C) rfl hl h
  unfold exec
  generalize execs C tryBody l h = o at h2
  cases o with
  | next => cases h2
  | cont => cases h2
  | ret => exact fun e => by cases e
  | stuck => exact fun e => by cases e
  | exc e l1 h1 =>
    dsimp only
    simp only [tryHandler, execs, exec]
    generalize eval C (.call (.attr (.name .self) ._fix_error) [.name .e] [] []) _ _ = r
    cases r with
    | stuck => exact fun e => by cases e
    | exc => exact fun e => by cases e
    | ok v h1 =>
      simp only [Res.out, Out.andThen]
      generalize eval C (.name .e) _ h1 = r
      cases r <;> exact fun e => by cases e

theorem elements_cut {C C' : Ctx} (hC : C.Cut stop C') {l : Locals} (hl : Clear l) (h : Store) :
    (execs C XmlToMathMLAdapter__mathml_elements.body l h).Cut stop
      (execs C' XmlToMathMLAdapter__mathml_elements.body l h) := by
  unfold XmlToMathMLAdapter__mathml_elements
  dsimp only
  rw [execs, execs]
  simp only [exec, eval, Res.out, Out.andThen]
  rw [execs, execs]
  refine Out.Cut.andThen ?_ fun l h => execs_cut hC _ rfl l h
  unfold exec
  refine Res.Cut.out (eval_cut hC _ _ _) fun v h => ?_
  split
  · exact .refl _
  · refine forOut_cut_inv (I := Clear) (fun _ v l hl => hl.cons v (by decide) (by decide)) (fun l h hl => ?_) _ _ _ _
      (hl.cons _ (by decide) (by decide))
    have h1 := try_cut hC hl h
    have h2 := try_no_cont C' l h hl
    have e : ∀ C, execs C [.tryExcept tryBody .e tryHandler] l h = exec C (.tryExcept tryBody .e tryHandler) l h := by
      intro C
      rw [execs]
      generalize exec C (.tryExcept tryBody .e tryHandler) l h = o
      cases o <;> rfl
    rw [e, e]
    exact ⟨h1.1, h1.2, h2⟩

theorem elements_params {args : List Val} {kw : List (Ident × Val)} {l : Locals}
    (h : bindParams XmlToMathMLAdapter__mathml_elements.params args kw = some l) : Clear l := by
  have hc : ∀ v : Val, Clear [(.self, v)] := fun v => ⟨rfl, rfl⟩
  unfold XmlToMathMLAdapter__mathml_elements at h
  dsimp only at h
  cases args with
  | nil =>
    simp only [bindParams] at h
    split at h
    · cases h; exact hc _
    · next hn => cases hn
    · cases h
  | cons v vs =>
    cases vs with
    | nil => simp only [bindParams] at h; cases h; exact hc _
    | cons => simp only [bindParams] at h; cases h

/-! ## Calls -/

theorem callF_cut (env : Env) (stop : Exc) (fault : Oracle) : ∀ (n : Nat) {f : Func}, Calm f → ∀ args kw h,
    (callF env stop fault n f args kw h).Cut stop (call env n f args kw h)
  | 0, _, _, _, _, _ => .refl _
  | n + 1, f, hf, args, kw, h => by
    have hC : Ctx.Cut stop ⟨env, callF env stop fault n, n⟩ ⟨env, call env n, n⟩ :=
      ⟨rfl, fun hf => callF_cut env stop fault n hf, rfl⟩
    unfold callF call
    split
    · exact .inl ⟨_, rfl⟩
    · cases hb : bindParams f.params args kw with
      | none => exact .refl _
      | some l =>
        rcases hf with hf | rfl
        · exact (execs_cut hC _ hf _ _).result
        · exact (elements_cut hC (elements_params hb) h).result

/-- If nothing fails in the outer `n` levels and these are enough, nothing changes. -/
theorem call_le_callF (env : Env) (stop : Exc) (fault : Oracle) (d : Nat) (n : Nat) :
    (∀ m f args h, d < m → m ≤ n + d → fault m f args h = false) → ∀ f args kw h,
    (call env n f args kw h).Le (callF env stop fault (n + d) f args kw h) := by
  induction n with
  | zero => intro _ f args kw h; exact .inl rfl
  | succ n ih =>
    intro hn f args kw h
    rw [Nat.succ_add]
    unfold call callF
    rw [if_neg (by rw [hn _ _ _ _ (by omega) (by omega)]; exact Bool.false_ne_true)]
    cases bindParams f.params args kw with
    | none => exact .refl _
    | some l => exact Out.Le.result (execs_le (C := ⟨env, call env n, n⟩) (C' := ⟨env, callF env stop fault (n + d), n + d⟩)
        ⟨rfl, ih fun m f args h h1 h2 => hn m f args h h1 (by omega), by simp⟩ ..)

/-- Every call keeps to `P`, also if it is cut short. -/
theorem kept_callF {P : Nat → Prop} {S : Store} (hP : ∀ a, S.length ≤ a → P a) (env : Env) (stop : Exc) (fault : Oracle) :
    ∀ (n : Nat) (f : Func) (args : List Val)
    (kw : List (Ident × Val)) (h : Store), (∀ v ∈ args, OwnV P v) → OwnL P kw → Frame P S h →
    Kept P S (OwnV P) (callF env stop fault n f args kw h)
  | 0, _, _, _, _, _, _, _ => trivial
  | n + 1, f, args, kw, h, ha, hk, hf => by
    unfold callF
    split
    · exact ⟨trivial, hf⟩
    · split
      · trivial
      · next hb =>
        exact KeptO.result (kept_execs hP (C := ⟨env, callF env stop fault n, n⟩) (kept_callF hP env stop fault n) f.body _ h
          (own_bindParams _ _ _ _ ha hk hb) hf)

end Verif.Src
