import Verif.Source.Semantics

/-!
# More fuel changes nothing

If a call ends with some fuel, it ends in the same way with any larger amount.
-/

set_option linter.unusedSectionVars false

namespace Verif.Src

/-- The same, unless stuck. -/
def Res.Le {α : Type} (r r' : Res α) : Prop := r = .stuck ∨ r = r'
/-- The same, unless stuck. -/
def Out.Le (o o' : Out) : Prop := o = .stuck ∨ o = o'

theorem Res.Le.refl {α : Type} (r : Res α) : r.Le r := .inr rfl
theorem Out.Le.refl (o : Out) : o.Le o := .inr rfl
theorem Res.Le.stuck {α : Type} (r : Res α) : Res.stuck.Le r := .inl rfl

theorem Res.Le.bind {α β : Type} {r r' : Res α} {f f' : α → Store → Res β} (hr : r.Le r')
    (hf : ∀ a h, (f a h).Le (f' a h)) : (r.bind f).Le (r'.bind f') := by
  rcases hr with rfl | rfl
  · exact .inl rfl
  · cases r with
    | ok a h => exact hf a h
    | exc e h => exact .inr rfl
    | stuck => exact .inl rfl

theorem Res.Le.out {α : Type} {r r' : Res α} {l : Locals} {f f' : α → Store → Out} (hr : r.Le r')
    (hf : ∀ a h, (f a h).Le (f' a h)) : (r.out l f).Le (r'.out l f') := by
  rcases hr with rfl | rfl
  · exact .inl rfl
  · cases r with
    | ok a h => exact hf a h
    | exc e h => exact .inr rfl
    | stuck => exact .inl rfl

theorem Out.Le.andThen {o o' : Out} {f f' : Locals → Store → Out} (ho : o.Le o')
    (hf : ∀ l h, (f l h).Le (f' l h)) : (o.andThen f).Le (o'.andThen f') := by
  rcases ho with rfl | rfl
  · exact .inl rfl
  · cases o with
    | next l h => exact hf l h
    | _ => exact .inr rfl

theorem Out.Le.result {o o' : Out} (ho : o.Le o') : o.result.Le o'.result := by
  rcases ho with rfl | rfl
  · exact .inl rfl
  · exact .inr rfl

/-- A context that can do more. -/
structure Ctx.Le (C C' : Ctx) : Prop where
  env : C.env = C'.env
  call : ∀ f args kw h, (C.call f args kw h).Le (C'.call f args kw h)
  turns : C.turns ≤ C'.turns

section
variable {C C' : Ctx} (hC : C.Le C')
include hC

theorem getAttr_le (v : Val) (a : Ident) (h : Store) : (getAttr C v a h).Le (getAttr C' v a h) := by
  unfold getAttr
  repeat' split
  all_goals first | exact hC.call .. | exact .refl _

theorem apply_le (f : Val) (args : List Val) (kw : List (Ident × Val)) (h : Store) :
    (apply C f args kw h).Le (apply C' f args kw h) := by
  unfold apply
  cases f with
  | cls c =>
    refine Res.Le.bind (.refl _) fun self h => ?_
    split
    · exact Res.Le.bind (hC.call ..) fun _ _ => .refl _
    · exact .refl _
  | builtin f => rw [hC.env]; exact .refl _
  | method self c m =>
    dsimp only
    split
    · exact .refl _
    · split
      · exact hC.call ..
      · exact .refl _
  | func f =>
    dsimp only
    split
    · exact hC.call ..
    · exact .refl _
  | static c m =>
    dsimp only
    split
    · exact hC.call ..
    · exact .refl _
  | _ => exact .refl _

omit hC in
theorem compRes_le {p p' : Locals → Store → Res Bool} {q q' : Locals → Store → Res Val}
    (hp : ∀ l h, (p l h).Le (p' l h)) (hq : ∀ l h, (q l h).Le (q' l h)) (x : Ident) (l : Locals)
    (vs : List Val) : ∀ h, (compRes p q x l vs h).Le (compRes p' q' x l vs h) := by
  induction vs with
  | nil => exact fun h => .refl _
  | cons v vs ih =>
    intro h
    refine Res.Le.bind (hp _ _) fun b h => ?_
    cases b with
    | false => exact ih h
    | true => exact Res.Le.bind (hq _ _) fun w h => Res.Le.bind (ih h) fun _ _ => .refl _

omit hC in
theorem anyRes_le {q q' : Locals → Store → Res Val}
    (hq : ∀ l h, (q l h).Le (q' l h)) (x : Ident) (l : Locals)
    (vs : List Val) : ∀ h, (anyRes q x l vs h).Le (anyRes q' x l vs h) := by
  induction vs with
  | nil => exact fun h => .refl _
  | cons v vs ih =>
    intro h
    refine Res.Le.bind (hq _ _) fun b h => ?_
    split
    · exact .refl _
    · exact ih h
    · exact .refl _

mutual
theorem eval_le : ∀ (e : Expr) (l : Locals) (h : Store), (eval C e l h).Le (eval C' e l h)
  | .none, _, _ => .refl _
  | .bool _, _, _ => .refl _
  | .int _, _, _ => .refl _
  | .str _, _, _ => .refl _
  | .name _, _, _ => .refl _
  | .attr e a, l, h => Res.Le.bind (eval_le e l h) fun v h => getAttr_le hC v a h
  | .super _ _, _, _ => .refl _
  | .item e k, l, h =>
    Res.Le.bind (eval_le e l h) fun _ h => Res.Le.bind (eval_le k l h) fun _ _ => .refl _
  | .slice e lo hi, l, h =>
    Res.Le.bind (eval_le e l h) fun _ h => Res.Le.bind (eval_le lo l h) fun _ h =>
      Res.Le.bind (eval_le hi l h) fun _ _ => .refl _
  | .call f args ks vs, l, h =>
    Res.Le.bind (eval_le f l h) fun _ h => Res.Le.bind (evals_le args l h) fun _ h =>
      Res.Le.bind (evals_le vs l h) fun _ _ => apply_le hC ..
  | .fstr parts, l, h => Res.Le.bind (evals_le parts l h) fun _ _ => .refl _
  | .list es, l, h => Res.Le.bind (evals_le es l h) fun _ _ => .refl _
  | .dict _ es, l, h => Res.Le.bind (evals_le es l h) fun _ _ => .refl _
  | .comp elt x it conds, l, h =>
    Res.Le.bind (eval_le it l h) fun v h => by
      split
      · exact .refl _
      · exact Res.Le.bind (compRes_le (holds_le conds) (eval_le elt) ..) fun _ _ => .refl _
  | .anyGen elt x it, l, h =>
    Res.Le.bind (eval_le it l h) fun v h => by
      split
      · exact .refl _
      · exact anyRes_le (eval_le elt) ..
  | .not e, l, h => Res.Le.bind (eval_le e l h) fun _ _ => .refl _
  | .and a b, l, h =>
    Res.Le.bind (eval_le a l h) fun v h => by
      split
      · exact eval_le b l h
      · exact .refl _
      · exact .refl _
  | .or a b, l, h =>
    Res.Le.bind (eval_le a l h) fun v h => by
      split
      · exact .refl _
      · exact eval_le b l h
      · exact .refl _
  | .ite c a b, l, h =>
    Res.Le.bind (eval_le c l h) fun v h => by
      split
      · exact eval_le a l h
      · exact eval_le b l h
      · exact .refl _
  | .cmp _ a b, l, h =>
    Res.Le.bind (eval_le a l h) fun _ h => Res.Le.bind (eval_le b l h) fun _ _ => .refl _
  | .add a b, l, h =>
    Res.Le.bind (eval_le a l h) fun _ h => Res.Le.bind (eval_le b l h) fun _ _ => .refl _
  | .sub a b, l, h =>
    Res.Le.bind (eval_le a l h) fun _ h => Res.Le.bind (eval_le b l h) fun _ _ => .refl _
theorem evals_le : ∀ (es : List Expr) (l : Locals) (h : Store), (evals C es l h).Le (evals C' es l h)
  | [], _, _ => .refl _
  | e :: es, l, h =>
    Res.Le.bind (eval_le e l h) fun _ h => Res.Le.bind (evals_le es l h) fun _ _ => .refl _
theorem holds_le : ∀ (es : List Expr) (l : Locals) (h : Store), (holds C es l h).Le (holds C' es l h)
  | [], _, _ => .refl _
  | e :: es, l, h =>
    Res.Le.bind (eval_le e l h) fun v h => by
      split
      · exact holds_le es l h
      · exact .refl _
      · exact .refl _
end

omit hC in
theorem whileOut_le {c c' : Locals → Store → Res Val} {b b' : Locals → Store → Out}
    (hc : ∀ l h, (c l h).Le (c' l h)) (hb : ∀ l h, (b l h).Le (b' l h)) (n : Nat) :
    ∀ n' (_ : n ≤ n') l h, (whileOut c b n l h).Le (whileOut c' b' n' l h) := by
  induction n with
  | zero => intro n' _ l h; exact .inl rfl
  | succ n ih =>
    intro n' hn l h
    obtain ⟨n', rfl⟩ : ∃ k, n' = k + 1 := ⟨n' - 1, by omega⟩
    refine Res.Le.out (hc l h) fun v h => ?_
    split
    · rcases hb l h with e | e
      · rw [e]; exact .inl rfl
      · rw [e]
        split
        · exact ih n' (by omega) _ _
        · exact ih n' (by omega) _ _
        · exact .refl _
    · exact .refl _
    · exact .refl _

omit hC in
theorem forOut_le {bind : Nat → Val → Locals → Locals} {b b' : Locals → Store → Out}
    (hb : ∀ l h, (b l h).Le (b' l h)) (vs : List Val) :
    ∀ i l h, (forOut bind b i vs l h).Le (forOut bind b' i vs l h) := by
  induction vs with
  | nil => exact fun _ _ _ => .refl _
  | cons v vs ih =>
    intro i l h
    unfold forOut
    rcases hb (bind i v l) h with e | e
    · rw [e]; exact .inl rfl
    · rw [e]
      split
      · exact ih ..
      · exact ih ..
      · exact .refl _

mutual
theorem exec_le : ∀ (s : Stmt) (l : Locals) (h : Store), (exec C s l h).Le (exec C' s l h)
  | .assign _ e, l, h => Res.Le.out (eval_le hC e l h) fun _ _ => .refl _
  | .setAttr o _ e, l, h =>
    Res.Le.out (eval_le hC e l h) fun _ h => Res.Le.out (eval_le hC o l h) fun _ _ => .refl _
  | .setItem o k e, l, h =>
    Res.Le.out (eval_le hC e l h) fun _ h => Res.Le.out (eval_le hC o l h) fun _ h =>
      Res.Le.out (eval_le hC k l h) fun _ _ => .refl _
  | .expr e, l, h => Res.Le.out (eval_le hC e l h) fun _ _ => .refl _
  | .ret e, l, h => Res.Le.out (eval_le hC e l h) fun _ _ => .refl _
  | .raise e, l, h => Res.Le.out (eval_le hC e l h) fun _ _ => .refl _
  | .ite c a b, l, h =>
    Res.Le.out (eval_le hC c l h) fun v h => by
      split
      · exact execs_le a l h
      · exact execs_le b l h
      · exact .refl _
  | .while c body, l, h => whileOut_le (eval_le hC c) (execs_le body) _ _ hC.turns l h
  | .for x it body, l, h =>
    Res.Le.out (eval_le hC it l h) fun v h => by
      split
      · exact .refl _
      · exact forOut_le (execs_le body) ..
  | .forEnum i x it body, l, h =>
    Res.Le.out (eval_le hC it l h) fun v h => by
      split
      · exact .refl _
      · exact forOut_le (execs_le body) ..
  | .tryExcept body x handler, l, h => by
    unfold exec
    rcases execs_le body l h with e | e
    · rw [e]; exact .inl rfl
    · rw [e]
      split
      · rename_i e l h _
        rcases execs_le handler ((x, e) :: l) h with e | e
        · rw [e]; exact .inl rfl
        · rw [e]; exact .refl _
      · exact .refl _
  | .continue, _, _ => .refl _
  | .pass, _, _ => .refl _
theorem execs_le : ∀ (ss : List Stmt) (l : Locals) (h : Store), (execs C ss l h).Le (execs C' ss l h)
  | [], _, _ => .refl _
  | s :: ss, l, h => Out.Le.andThen (exec_le s l h) fun l h => execs_le ss l h
end

end

theorem call_le (env : Env) (n : Nat) : ∀ (m : Nat), n ≤ m → ∀ f args kw h,
    (call env n f args kw h).Le (call env m f args kw h) := by
  induction n with
  | zero => intro m _ f args kw h; exact .inl rfl
  | succ n ih =>
    intro m hm f args kw h
    obtain ⟨m, rfl⟩ : ∃ k, m = k + 1 := ⟨m - 1, by omega⟩
    simp only [call]
    split
    · exact .refl _
    · refine Out.Le.result (execs_le (C := ⟨env, call env n, n⟩) (C' := ⟨env, call env m, m⟩)
        ⟨rfl, ih m (by omega), ?_⟩ ..)
      exact Nat.le_of_succ_le_succ hm

/-- More fuel changes nothing. -/
theorem call_mono {env : Env} {n m : Nat} {f : Func} {args : List Val} {kw : List (Ident × Val)}
    {h : Store} (hn : call env n f args kw h ≠ .stuck) (hm : n ≤ m) :
    call env m f args kw h = call env n f args kw h :=
  ((call_le env n m hm f args kw h).resolve_left hn).symm

theorem call_ok {env : Env} {n m : Nat} {f : Func} {args : List Val} {kw : List (Ident × Val)}
    {h h' : Store} {v : Val} (hn : call env n f args kw h = .ok v h') (hm : n ≤ m) :
    call env m f args kw h = .ok v h' := by
  rw [call_mono (by rw [hn]; exact fun h => nomatch h) hm, hn]

theorem call_exc {env : Env} {n m : Nat} {f : Func} {args : List Val} {kw : List (Ident × Val)}
    {h h' : Store} {v : Val} (hn : call env n f args kw h = .exc v h') (hm : n ≤ m) :
    call env m f args kw h = .exc v h' := by
  rw [call_mono (by rw [hn]; exact fun h => nomatch h) hm, hn]

end Verif.Src
