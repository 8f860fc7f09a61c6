import Verif.Source.Semantics
import Lean.Elab.Tactic.Simp

/-!
# Symbolic execution

A tactic `sym` that runs the interpreter of `Verif.Source.Semantics` on the syntax trees of
the source when the values are given by hypotheses.  It produces proof terms, which the
kernel checks; nothing here is trusted.
-/

namespace Verif.Src

/-! ## Rules -/

theorem Res.bind_ok {α β : Type} (a : α) (h : Store) (f : α → Store → Res β) :
    (Res.ok a h).bind f = f a h := rfl
theorem Res.out_ok {α : Type} (a : α) (h : Store) (l : Locals) (f : α → Store → Out) :
    (Res.ok a h).out l f = f a h := rfl
theorem Out.andThen_next (l : Locals) (h : Store) (f : Locals → Store → Out) :
    (Out.next l h).andThen f = f l h := rfl

theorem call_eq (env : Env) (n : Nat) (f : Func) (args : List Val) (kw : List (Ident × Val))
    (h : Store) : call env (n + 1) f args kw h =
      match bindParams f.params args kw with
      | none => .stuck
      | some l => (execs ⟨env, call env n, n⟩ f.body l h).result := rfl

theorem len_snoc {h : Store} {n : Nat} (o : Obj) (p : h.length = n) :
    (h ++ [o]).length = n + 1 := by simp [p]
theorem len_app {h : Store} {n : Nat} (l : Store) (p : h.length = n) :
    (h ++ l).length = n + l.length := by simp [p]
theorem new_eq {h : Store} {n : Nat} (o : Obj) (p : h.length = n) :
    new o h = .ok (.obj n) (h ++ [o]) := by rw [new, p]
theorem look_last {h : Store} {a : Nat} (o : Obj) (p : h.length = a) :
    (h ++ [o])[a]? = some o := by simp [← p]
theorem look_old {h : Store} {a : Nat} {o : Obj} (l : Store) (p : h[a]? = some o) :
    (h ++ l)[a]? = some o := by
  have : a < h.length := by
    rcases Nat.lt_or_ge a h.length with q | q
    · exact q
    · rw [List.getElem?_eq_none q] at p; cases p
  rw [List.getElem?_append_left this, p]
theorem look_set {h : Store} {a : Nat} {o : Obj} (x : Obj) (p : h[a]? = some o) :
    (h.set a x)[a]? = some x := by
  have : a < h.length := by
    rcases Nat.lt_or_ge a h.length with q | q
    · exact q
    · rw [List.getElem?_eq_none q] at p; cases p
  simp [this]
theorem set_last {h : Store} {a : Nat} (x o : Obj) (p : h.length = a) :
    (h ++ [x]).set a o = h ++ [o] := by simp [← p]
theorem set_old {h : Store} {a : Nat} {y : Obj} (l : Store) (o : Obj) (p : h[a]? = some y) :
    (h ++ l).set a o = h.set a o ++ l := by
  have : a < h.length := by
    rcases Nat.lt_or_ge a h.length with q | q
    · exact q
    · rw [List.getElem?_eq_none q] at p; cases p
  rw [List.set_append_left _ _ this]

/-- How the side conditions of rules are proved. -/
syntax "sym_side" : tactic
macro_rules | `(tactic| sym_side) => `(tactic| first | omega | assumption)

/-! ## The tactic -/

open Lean Meta Elab Tactic

namespace Sym

/-- What the tactic is given. -/
structure Cfg where
  /-- the functions to enter -/
  enter : NameSet
  /-- rules, by the head of the left-hand side -/
  rules : Array (Name × Lean.Expr)
  simp : Simp.Context
  procs : Simp.SimprocsArray

abbrev SymM := ReaderT Cfg TacticM

/-- A term and a proof that the given term equals it (`none`: it is the given term). -/
structure R where
  e : Lean.Expr
  pf : Option Lean.Expr := none

def R.trans (r s : R) : MetaM R :=
  match r.pf, s.pf with
  | none, _ => return s
  | _, none => return ⟨s.e, r.pf⟩
  | some p, some q => return ⟨s.e, some (← mkEqTrans p q)⟩

/-- `e` and `e'` are the same by computation. -/
def byRfl (e e' : Lean.Expr) : MetaM R := do
  return ⟨e', some (mkExpectedPropHint (← mkEqRefl e) (← mkEq e e'))⟩

/-- Replace the `i`-th argument. -/
def inArg (e : Lean.Expr) (i : Nat) (r : R) : MetaM R := do
  let fn := e.getAppFn
  let args := e.getAppArgs
  let e' := mkAppN fn (args.set! i r.e)
  match r.pf with
  | none => return ⟨e', none⟩
  | some p =>
    let t ← inferType args[i]!
    let f := Lean.Expr.lam `x t (mkAppN fn (args.set! i (.bvar 0))) .default
    return ⟨e', some (mkExpectedPropHint (← mkCongrArg f p) (← mkEq e e'))⟩

/-- A term with a head constructor. -/
def isCtor (e : Lean.Expr) : MetaM Bool := do
  match e.getAppFn with
  | .const c _ => return (← getEnv).isConstructor c
  | _ => return e.isRawNatLit || e.isLit

/-- The elements of a list that is given explicitly. -/
partial def listOf? (l : Lean.Expr) : MetaM (Option (List Lean.Expr)) := do
  match (← whnfR l.headBeta).getAppFnArgs with
  | (``List.nil, _) => return some []
  | (``List.cons, #[_, x, l]) => return (← listOf? l).map (x :: ·)
  | _ => return none

/-- A pair. -/
def pairOf? (p : Lean.Expr) : MetaM (Option (Lean.Expr × Lean.Expr)) := do
  match (← whnfR p).getAppFnArgs with
  | (``Prod.mk, #[_, _, a, b]) => return some (a, b)
  | _ => return none

/-- Look a name up in a list of pairs that is given explicitly. -/
partial def lookIn (β x l : Lean.Expr) : MetaM (Option Lean.Expr) := do
  match (← whnfR l).getAppFnArgs with
  | (``List.cons, #[_, p, l']) =>
    let some (y, v) ← pairOf? p | return none
    let y ← whnfR y
    unless y.isConst && x.isConst do return none
    if y.constName! == x.constName! then return some (mkApp2 (mkConst ``Option.some [0]) β v)
    else lookIn β x l'
  | (``List.nil, _) => return some (mkApp (mkConst ``Option.none [0]) β)
  | _ => return none

/-- Skip the bindings of other names. -/
partial def skipIn (x l : Lean.Expr) : MetaM (Option Lean.Expr) := do
  match (← whnfR l).getAppFnArgs with
  | (``List.cons, #[_, p, l']) =>
    let some (y, _) ← pairOf? p | return none
    let y ← whnfR y
    unless y.isConst && x.isConst && y.constName! != x.constName! do return none
    skipIn x l'
  | (``List.nil, _) => return none
  | _ => return some l

/-- Unfold a closed term to a constructor application, and so for the pairs in it. -/
partial def toPairs (e : Lean.Expr) : MetaM Lean.Expr := do
  let e ← withDefault <| whnf e
  match e.getAppFnArgs with
  | (``Option.some, #[α, p]) => return mkApp2 (mkConst ``Option.some [0]) α (← pairs p)
  | _ => return e
where
  pairs (p : Lean.Expr) : MetaM Lean.Expr := do
    let p ← whnfCore p
    match p.getAppFnArgs with
    | (``Prod.mk, #[α, β, a, b]) =>
      return mkApp4 (mkConst ``Prod.mk [0, 0]) α β (← pairs a) (← pairs b)
    | (``Prod.fst, #[_, _, q]) => proj q 0
    | (``Prod.snd, #[_, _, q]) => proj q 1
    | _ => return p
  proj (q : Lean.Expr) (i : Nat) : MetaM Lean.Expr := do
    let q ← withDefault <| whnf q
    match q.getAppFnArgs with
    | (``Prod.mk, #[_, _, a, b]) => pairs (if i = 0 then a else b)
    | _ => return q

def identT : Lean.Expr := mkConst ``Ident
def valT : Lean.Expr := mkConst ``Val
def pairT : Lean.Expr := mkApp2 (mkConst ``Prod [0, 0]) identT valT

def mkPair (x v : Lean.Expr) : Lean.Expr := mkApp4 (mkConst ``Prod.mk [0, 0]) identT valT x v
def mkList (l : List Lean.Expr) : Lean.Expr :=
  l.foldr (fun x l => mkApp3 (mkConst ``List.cons [0]) pairT x l) (mkApp (mkConst ``List.nil [0]) pairT)

/-- `setField`, on an explicit list. -/
def setFieldIn (x v : Lean.Expr) : List Lean.Expr → MetaM (Option (List Lean.Expr))
  | [] => return some [mkPair x v]
  | p :: l => do
    let some (y, _) ← pairOf? p | return none
    if y.isConst && x.isConst then
      if y.constName! == x.constName! then return some (mkPair x v :: l)
      else return (← setFieldIn x v l).map (p :: ·)
    else return none

/-- `bindParams`, on explicit lists. -/
partial def bindIn (ps args : List Lean.Expr) (kw : Lean.Expr) :
    MetaM (Option (List Lean.Expr)) := do
  match ps, args with
  | [], [] => return some []
  | [], _ :: _ => return none
  | p :: ps, args =>
    let some (x, d) ← pairOf? p | return none
    match args with
    | v :: vs => return (← bindIn ps vs kw).map (mkPair x v :: ·)
    | [] =>
      let some o ← lookIn valT x kw | return none
      match o.getAppFnArgs with
      | (``Option.some, #[_, v]) => return (← bindIn ps [] kw).map (mkPair x v :: ·)
      | _ =>
        match (← whnfR d).getAppFnArgs with
        | (``Option.some, #[_, s]) =>
          return (← bindIn ps [] kw).map (mkPair x (mkApp (mkConst ``Val.str) s) :: ·)
        | _ => return none

/-- The length of a store, and the proof. -/
partial def lenOf (h : Lean.Expr) : MetaM (Lean.Expr × Lean.Expr) := do
  match h.getAppFnArgs with
  | (``HAppend.hAppend, #[_, _, _, _, h', l]) =>
    let (n, p) ← lenOf h'
    match l.getAppFnArgs with
    | (``List.cons, #[_, o, t]) =>
      if t.isAppOf ``List.nil then
        let pf ← mkAppM ``len_snoc #[o, p]
        -- collect the numeral
        let n' ← match n.getAppFnArgs with
          | (``HAdd.hAdd, #[_, _, _, _, b, k]) =>
            match k.nat? with
            | some k => mkAdd b (mkNatLit (k + 1))
            | none => mkAdd n (mkNatLit 1)
          | _ => mkAdd n (mkNatLit 1)
        return (n', mkExpectedPropHint pf (← mkEq (← mkAppM ``List.length #[h]) n'))
    | _ => pure ()
    let pf ← mkAppM ``len_app #[l, p]
    return (← mkAdd n (← mkAppM ``List.length #[l]), pf)
  | _ =>
    let n ← mkAppM ``List.length #[h]
    return (n, ← mkEqRefl n)

/-- Equality of addresses. -/
def sameNat (a b : Lean.Expr) : MetaM Bool := withReducible <| isDefEq a b

mutual

/-- Prove a side condition. -/
partial def discharge (g : MVarId) : SymM Bool := do
  let t ← instantiateMVars (← g.getType)
  match t.getAppFnArgs with
  | (``Eq, #[_, l, r]) =>
    if l.isAppOf ``GetElem?.getElem? then
      let args := l.getAppArgs
      if let some (o, p) ← lookup args[5]! args[6]! then
        match r.getAppFnArgs with
        | (``Option.some, #[_, x]) =>
          if ← isDefEq x o then g.assign p; return true
        | _ => pure ()
  | _ => pure ()
  let s ← (saveState : TacticM _)
  try
    let gs ← Tactic.run g (do evalTactic (← `(tactic| sym_side)))
    if gs.isEmpty then return true
    (s.restore : TacticM _); return false
  catch _ => (s.restore : TacticM _); return false

/-- Apply a rule `∀ …, … → l = r` to `e`. -/
partial def rewrite1 (rule e : Lean.Expr) : SymM (Option R) := do
  let (ms, _, t) ← forallMetaTelescopeReducing (← instantiateMVars (← inferType rule))
  let t := t.consumeMData.headBeta
  match t.getAppFnArgs with
  | (``Eq, #[_, l, r]) =>
    let l := l.headBeta
    unless l.getAppFn.constName? == e.getAppFn.constName? do return none
    unless ← withReducible (isDefEq l e) do return none
    for m in ms do
      let m' ← instantiateMVars m
      if m'.isMVar then
        if ← isProp (← inferType m') then
          unless ← discharge m'.mvarId! do
            trace[Meta.debug] "side condition {← inferType m'}"
            return none
    return some ⟨← instantiateMVars r, some (← instantiateMVars (mkAppN rule ms)).headBeta⟩
  | _ => return none

partial def rewriteAny (e : Lean.Expr) : SymM (Option R) := do
  let some c := e.getAppFn.constName? | return none
  for (n, rule) in (← read).rules do
    if n == c then
      let s ← (saveState : TacticM _)
      match ← rewrite1 rule e with
      | some r => return some r
      | none => (s.restore : TacticM _)
  return none

/-- The object at an address: `o` and a proof of `h[a]? = some o`. -/
partial def lookup (h a : Lean.Expr) : SymM (Option (Lean.Expr × Lean.Expr)) := do
  let e ← mkAppM ``GetElem?.getElem? #[h, a]
  if let some r ← rewriteAny e then
    match r.e.getAppFnArgs, r.pf with
    | (``Option.some, #[_, o]), some p => return some (o, p)
    | _, _ => pure ()
  match h.getAppFnArgs with
  | (``HAppend.hAppend, #[_, _, _, _, h', l]) =>
    match l.getAppFnArgs with
    | (``List.cons, #[_, o, t]) =>
      if t.isAppOf ``List.nil then
        let (n, p) ← lenOf h'
        if ← sameNat n a then
          return some (o, ← mkAppM ``look_last #[o, p])
    | _ => pure ()
    if let some (o, p) ← lookup h' a then
      return some (o, ← mkAppM ``look_old #[l, p])
    return none
  | (``List.set, #[_, h', b, x]) =>
    if ← sameNat a b then
      if let some (_, p) ← lookup h' a then
        return some (x, ← mkAppM ``look_set #[x, p])
    return none
  | _ => return none

/-- Normalise `h.set a o`. -/
partial def setIn (h a o : Lean.Expr) : SymM R := do
  let e ← mkAppM ``List.set #[h, a, o]
  match h.getAppFnArgs with
  | (``HAppend.hAppend, #[_, _, _, _, h', l]) =>
    match l.getAppFnArgs with
    | (``List.cons, #[_, x, t]) =>
      if t.isAppOf ``List.nil then
        let (n, p) ← lenOf h'
        if ← sameNat n a then
          let pf ← mkAppM ``set_last #[x, o, p]
          let some (_, _, r) := (← inferType pf).eq? | return ⟨e, none⟩
          return ⟨r, some pf⟩
    | _ => pure ()
    if let some (_, p) ← lookup h' a then
      let pf ← mkAppM ``set_old #[l, o, p]
      let some (_, _, r) := (← inferType pf).eq? | return ⟨e, none⟩
      let s ← setIn h' a o
      let s ← inArg r 4 s
      R.trans ⟨r, some pf⟩ s
    else return ⟨e, none⟩
  | _ => return ⟨e, none⟩

/-- Normalise a store. -/
partial def store (h : Lean.Expr) : SymM R := do
  match h.getAppFnArgs with
  | (``List.set, #[_, h', a, o]) =>
    let r₀ ← object o
    let r₀ ← inArg h 3 r₀
    R.trans r₀ (← setIn h' a (r₀.e.getArg! 3))
  | _ => return ⟨h, none⟩

/-- Normalise an object: set its fields. -/
partial def object (o : Lean.Expr) : SymM R := do
  match o.getAppFnArgs with
  | (``Obj.inst, #[_, fs]) =>
    match fs.getAppFnArgs with
    | (``setField, #[x, v, l]) =>
      let some l' ← listOf? l | return ⟨o, none⟩
      let some l'' ← setFieldIn x v l' | return ⟨o, none⟩
      inArg o 1 (← byRfl fs (mkList l''))
    | _ => return ⟨o, none⟩
  | _ => return ⟨o, none⟩

/-- Simplify a test. -/
partial def leaf (e : Lean.Expr) : SymM R := do
  let (r, _) ← Simp.main e (← read).simp (methods := Simp.mkDefaultMethodsCore (← read).procs)
  if r.expr == e then return ⟨e, none⟩
  return ⟨r.expr, some (← r.getProof)⟩

/-- Evaluate a term to a constructor application. -/
partial def hnf (e₀ : Lean.Expr) : SymM R := do
  let e := (← instantiateMVars e₀).headBeta
  let e := e.consumeMData
  let r ← step e
  match r with
  | none => return ⟨e, none⟩
  | some r => R.trans r (← hnf r.e)

/-- Evaluate, and evaluate the arguments of the constructor. -/
partial def deep (n : Nat) (e : Lean.Expr) : SymM R := do
  let r ← hnf e
  match n with
  | 0 => return r
  | n + 1 =>
    unless ← isCtor r.e do return r
    let some c := r.e.getAppFn.constName? | return r
    let some (.ctorInfo ci) := (← getEnv).find? c | return r
    let mut r := r
    for i in [ci.numParams : ci.numParams + ci.numFields] do
      if r.e.getAppNumArgs > i then
        let s ← deep n (r.e.getArg! i)
        r ← R.trans r (← inArg r.e i s)
    return r

/-- One step, if there is one. -/
partial def step (e : Lean.Expr) : SymM (Option R) := do
  if e.isLet then
    return some ⟨e.letBody!.instantiate1 e.letValue!, none⟩
  if e.isProj then
    let e' ← whnfCore e
    if e' == e then return none else return some (← byRfl e e')
  let some c := e.getAppFn.constName? | return none
  if (← getEnv).isConstructor c then return none
  let args := e.getAppArgs
  -- the keyword arguments
  if c == ``apply then
    match args[3]!.getAppFnArgs with
    | (``List.zip, #[_, _, ks, vs]) =>
      let some ks ← listOf? ks | return none
      let some vs ← listOf? vs | return none
      let kw := mkList (List.zipWith mkPair ks vs)
      return some (← byRfl e (mkAppN e.getAppFn (args.set! 3 kw)))
    | _ => pure ()
  if let some r ← rewriteAny e then return some r
  match c, args with
  | ``Res.bind, #[α, β, r, f] =>
    let s ← hnf r
    let t ← inArg e 2 s
    match s.e.getAppFnArgs with
    | (``Res.ok, #[_, a, h]) =>
      let (r', a, h) ← resOk s.e a h
      let t ← R.trans t (← inArg t.e 2 r')
      return some (← R.trans t ⟨(mkApp2 f a h).headBeta,
        some (mkAppN (mkConst ``Res.bind_ok) #[α, β, a, h, f])⟩)
    | (``Res.exc, #[_, v, h]) =>
      return some (← R.trans t (← byRfl t.e (mkAppN (mkConst ``Res.exc) #[β, v, h])))
    | _ => return if s.pf.isNone then none else some t
  | ``Res.out, #[α, r, l, f] =>
    let s ← hnf r
    let t ← inArg e 1 s
    match s.e.getAppFnArgs with
    | (``Res.ok, #[_, a, h]) =>
      let (r', a, h) ← resOk s.e a h
      let t ← R.trans t (← inArg t.e 1 r')
      return some (← R.trans t ⟨(mkApp2 f a h).headBeta,
        some (mkAppN (mkConst ``Res.out_ok) #[α, a, h, l, f])⟩)
    | (``Res.exc, #[_, v, h]) =>
      return some (← R.trans t (← byRfl t.e (mkAppN (mkConst ``Out.exc) #[v, l, h])))
    | _ => return if s.pf.isNone then none else some t
  | ``Out.andThen, #[o, f] =>
    let s ← hnf o
    let t ← inArg e 0 s
    match s.e.getAppFnArgs with
    | (``Out.next, #[l, h]) =>
      let rh ← store h
      let rl ← locals l
      let u ← inArg s.e 1 rh
      let u ← R.trans u (← inArg u.e 0 rl)
      let t ← R.trans t (← inArg t.e 0 u)
      return some (← R.trans t ⟨(mkApp2 f rl.e rh.e).headBeta,
        some (mkAppN (mkConst ``Out.andThen_next) #[rl.e, rh.e, f])⟩)
    | _ =>
      if ← isCtor s.e then
        return some (← R.trans t (← byRfl t.e s.e))
      return if s.pf.isNone then none else some t
  | ``Ctx.call, _ | ``Ctx.env, _ | ``Ctx.turns, _ =>
    let some e' ← unfoldDefinition? e | return none
    return some (← byRfl e (← whnfCore e'))
  | ``look, #[β, x, l] =>
    let l' ← if l.getAppFn.isConst && !(← isCtor l) then withDefault (whnf l) else pure l
    if let some r ← lookIn β (← whnfR x) l' then return some (← byRfl e r)
    let some t ← skipIn (← whnfR x) l' | return none
    if t == l then return none
    return some (← byRfl e (mkApp3 e.getAppFn β x t))
  | ``findMethod, _ | ``methodIn, _ | ``global, _ =>
    return some (← byRfl e (← toPairs e))
  | ``bindParams, #[ps, vs, kw] =>
    let some ps ← listOf? (← withDefault (whnf ps)) | return none
    let some vs ← listOf? vs | return none
    let kw' ← whnfCore (← withDefault (whnf kw))
    let some l ← bindIn ps vs kw' | return none
    let e' := mkApp2 (mkConst ``Option.some [0]) (mkApp (mkConst ``List [0]) pairT) (mkList l)
    return some (← byRfl e e')
  | ``new, #[o, h] =>
    let (n, p) ← lenOf h
    let pf ← mkAppM ``new_eq #[o, p]
    let e' := mkApp3 (mkConst ``Res.ok) valT (mkApp (mkConst ``Val.obj) n)
      (← mkAppM ``HAppend.hAppend #[h, ← mkListLit (mkConst ``Obj) [o]])
    return some ⟨e', some (mkExpectedPropHint pf (← mkEq e e'))⟩
  | ``call, #[_, _, f, _, _, _] =>
    unless f.isConst && (← read).enter.contains f.constName! do return none
    let some r ← rewrite1 (mkConst ``call_eq) e | return none
    -- the body of the function
    let b := f.constName!
    let body ← withDefault <| whnf (← mkAppM ``Func.body #[mkConst b])
    let e' := r.e.replace fun
      | .app (.const ``Func.body _) (.const b' _) => if b' == b then some body else none
      | _ => none
    return some (← R.trans r (← byRfl r.e e'))
  | ``GetElem?.getElem?, _ =>
    if let some (o, p) ← lookup args[5]! args[6]! then
      return some ⟨← mkAppM ``Option.some #[o], some p⟩
    let s ← leaf e
    return if s.pf.isNone then none else some s
  | ``ite, #[α, p, i, a, b] =>
    let s ← leaf p
    match s.e.constName?, s.pf with
    | some ``True, some q => return some ⟨a, some (mkAppN (mkConst ``ite_cond_eq_true [1]) #[α, p, i, a, b, q])⟩
    | some ``False, some q => return some ⟨b, some (mkAppN (mkConst ``ite_cond_eq_false [1]) #[α, p, i, a, b, q])⟩
    | _, _ => return none
  | _, _ => pure ()
  if (← isReducible c) && (← getMatcherInfo? c).isNone then
    let some e' ← delta? e | return none
    return some (← byRfl e e'.headBeta)
  -- matches
  if let some info ← getMatcherInfo? c then
    let lo := info.getFirstDiscrPos
    let mut first : R := ⟨e, none⟩
    for depth in [0, 1, 2, 3] do
      let mut r : R := ⟨e, none⟩
      for i in [lo : lo + info.numDiscrs] do
        let s ← deep depth (r.e.getArg! i)
        r ← R.trans r (← inArg r.e i s)
      match ← reduceMatcher? r.e with
      | .reduced e' => return some (← R.trans r (← byRfl r.e e'))
      | _ => pure ()
      if depth = 0 then first := r
    return if first.pf.isNone then none else some first
  -- functions that go by cases
  if c ∈ [``getAttr, ``apply, ``libAttr, ``libMethod, ``builtin, ``item, ``truthy, ``iterate,
      ``lengthOf, ``compare, ``compare.ints, ``compare.isIn, ``equal, ``format, ``Res.of,
      ``Out.result, ``tableGet, ``Option.map, ``Option.bind, ``Option.getD, ``found, ``asPattern,
      ``runConvert, ``List.zip, ``nodeType, ``childNodes] then
    let some e' ← withDefault (delta? e) | return none
    let e' := e'.headBeta
    -- the libraries of the context
    let e' := e'.replace fun
      | .app (.const ``Ctx.env _) (.app (.app (.app (.const ``Ctx.mk _) v) _) _) => some v
      | _ => none
    return some (← byRfl e e')
  -- recursive functions
  if c ∈ [``eval, ``evals, ``holds, ``exec, ``execs, ``strings, ``formats, ``member, ``anyOf,
      ``dictOf, ``compRes, ``anyRes, ``forOut, ``whileOut, ``List.zipWith, ``List.map] then
    let some eqs ← getEqnsFor? c | return none
    for depth in [0, 1] do
      let mut r : R := ⟨e, none⟩
      if depth = 1 then
        for i in [0 : args.size] do
          unless (← inferType (r.e.getArg! i)).isSort do
            let s ← hnf (r.e.getArg! i)
            r ← R.trans r (← inArg r.e i s)
      for q in eqs do
        let s ← (saveState : TacticM _)
        let rule ← mkConstWithFreshMVarLevels q
        if ← quick (← inferType rule) r.e then
          match ← rewrite1 rule r.e with
          | some t =>
            let t' := t.e.replace fun
              | .app (.const ``Ctx.turns _) (.app _ v) => some v
              | _ => none
            let t' ← byRfl t.e t'
            return some (← R.trans (← R.trans r t) t')
          | none => (s.restore : TacticM _)
    if c ∈ [``strings, ``formats, ``member, ``anyOf, ``dictOf, ``List.zipWith, ``List.map] then
      let s ← leaf e
      return if s.pf.isNone then none else some s
    return none
  -- tests
  let t ← inferType e
  if t.isConstOf ``Bool || t.isAppOf ``Option || t.isConstOf ``Val || t.isAppOf ``List
      || t.isConstOf ``Int || t.isAppOf ``Except then
    if e.isAppOf ``OfNat.ofNat then return none
    let s ← leaf e
    return if s.pf.isNone then none else some s
  return none

/-- Whether the heads of the arguments agree with those of the left-hand side of an
equation. -/
partial def quick (t e : Lean.Expr) : SymM Bool := do
  match t with
  | .forallE _ _ b _ => quick b e
  | _ =>
    match t.getAppFnArgs with
    | (``Eq, #[_, l, _]) =>
      return (l.getAppArgs.zip e.getAppArgs).all fun (a, b) =>
        match a.getAppFn.constName?, b.getAppFn.constName? with
        | some x, some y => x == y
        | _, _ => true
    | _ => return true

/-- A result `Res.ok a h` with normal `a` and `h`. -/
partial def resOk (e a h : Lean.Expr) : SymM (R × Lean.Expr × Lean.Expr) := do
  let ra ← if (← inferType a).isAppOf ``List then pure ⟨a, none⟩ else hnf a
  let rh ← store h
  let u ← inArg e 2 rh
  let u ← R.trans u (← inArg u.e 1 ra)
  return (u, ra.e, rh.e)

/-- Normalise the local variables. -/
partial def locals (l : Lean.Expr) : SymM R := do
  if l.isAppOf ``unset then leaf l else return ⟨l, none⟩

end

/-- Evaluate, and normalise the result. -/
def full (e : Lean.Expr) : SymM R := do
  let r ← hnf e
  match r.e.getAppFnArgs with
  | (``Res.ok, #[_, a, h]) =>
    let (s, _, _) ← resOk r.e a h
    R.trans r s
  | _ => return r

/-- The functions, rules and simplification rules given by the user. -/
def mkCfg (fs : Array (TSyntax `ident)) (rs : Array Term) (simp : Lean.Syntax) : TacticM Cfg := do
  let mut enter : NameSet := {}
  for f in fs do
    enter := enter.insert (← realizeGlobalConstNoOverloadWithInfo f)
  let mut rules := #[]
  for r in rs do
    let p ← Term.withSynthesize <| Term.elabTerm r none
    let p := (← abstractMVars (← instantiateMVars p)).expr
    let t ← instantiateMVars (← inferType p)
    let (_, _, t) ← forallMetaTelescopeReducing t
    let t := t.consumeMData.headBeta
    match t.getAppFnArgs with
    | (``Eq, #[_, l, _]) =>
      if let some c := l.headBeta.getAppFn.constName? then rules := rules.push (c, p)
    | _ => throwErrorAt r m!"not an equation {t}"
  let { ctx, simprocs, .. } ← mkSimpContext simp (eraseLocal := false)
  return ⟨enter, rules, ctx, simprocs⟩

end Sym

/-- For all large `n`, `F n` is one and the same result, and it satisfies `Q`. -/
def Runs (F : Nat → Res Val) (Q : Res Val → Prop) : Prop :=
  ∃ r, Q r ∧ ∃ k, ∀ n, k ≤ n → F n = r

theorem Runs.congr {F G : Nat → Res Val} {Q : Res Val → Prop} (hf : ∀ n, F n = G n)
    (hg : Runs G Q) : Runs F Q := by
  obtain ⟨r, hr, k, hk⟩ := hg
  exact ⟨r, hr, k, fun n hn => (hf n).trans (hk n hn)⟩

theorem Runs.done {r : Res Val} {Q : Res Val → Prop} (hr : Q r) : Runs (fun _ => r) Q :=
  ⟨r, hr, 0, fun _ _ => rfl⟩

theorem Runs.shift {F : Nat → Res Val} {Q : Res Val → Prop} (k : Nat)
    (hf : Runs (fun n => F (n + k)) Q) : Runs F Q := by
  obtain ⟨r, hr, j, hj⟩ := hf
  refine ⟨r, hr, j + k, fun n hn => ?_⟩
  have : F (n - k + k) = r := hj (n - k) (by omega)
  rwa [show n - k + k = n by omega] at this

theorem Runs.mono {F : Nat → Res Val} {Q Q' : Res Val → Prop} (hq : ∀ r, Q r → Q' r)
    (hf : Runs F Q) : Runs F Q' := by
  obtain ⟨r, hr, hk⟩ := hf
  exact ⟨r, hq r hr, hk⟩

/-- From `K` on, `F n` is one and the same result, and it satisfies `Q`. -/
def RunsBy (K : Nat) (F : Nat → Res Val) (Q : Res Val → Prop) : Prop :=
  ∃ r, Q r ∧ ∀ n, K ≤ n → F n = r

theorem RunsBy.runs {K : Nat} {F : Nat → Res Val} {Q : Res Val → Prop} (h : RunsBy K F Q) : Runs F Q := by
  obtain ⟨r, hr, hk⟩ := h
  exact ⟨r, hr, K, hk⟩

theorem RunsBy.congr {K : Nat} {F G : Nat → Res Val} {Q : Res Val → Prop} (hf : ∀ n, F n = G n)
    (hg : RunsBy K G Q) : RunsBy K F Q := by
  obtain ⟨r, hr, hk⟩ := hg
  exact ⟨r, hr, fun n hn => (hf n).trans (hk n hn)⟩

theorem RunsBy.done (K : Nat) {r : Res Val} {Q : Res Val → Prop} (hr : Q r) : RunsBy K (fun _ => r) Q :=
  ⟨r, hr, fun _ _ => rfl⟩

theorem RunsBy.shift {K : Nat} {F : Nat → Res Val} {Q : Res Val → Prop} (k : Nat) (hk : k ≤ K)
    (hf : RunsBy (K - k) (fun n => F (n + k)) Q) : RunsBy K F Q := by
  obtain ⟨r, hr, hj⟩ := hf
  refine ⟨r, hr, fun n hn => ?_⟩
  have : F (n - k + k) = r := hj (n - k) (by omega)
  rwa [show n - k + k = n by omega] at this

theorem RunsBy.mono {K : Nat} {F : Nat → Res Val} {Q Q' : Res Val → Prop} (hq : ∀ r, Q r → Q' r)
    (hf : RunsBy K F Q) : RunsBy K F Q' := by
  obtain ⟨r, hr, hk⟩ := hf
  exact ⟨r, hq r hr, hk⟩

theorem RunsBy.le {K K' : Nat} {F : Nat → Res Val} {Q : Res Val → Prop} (hf : RunsBy K F Q) (hk : K ≤ K') :
    RunsBy K' F Q := by
  obtain ⟨r, hr, h⟩ := hf
  exact ⟨r, hr, fun n hn => h n (Nat.le_trans hk hn)⟩

/-- `fuel k`: suppose that there are `k` more units of fuel. -/
macro "fuel " k:term : tactic =>
  `(tactic| first | refine RunsBy.shift $k (by omega) ?_ | refine Runs.shift $k ?_)

/-- Run the interpreter on the left-hand side of the goal, or in a goal `Runs F Q`; the
functions in the first list are entered, the second list gives rules, the third
simplification rules for tests. -/
syntax (name := symTac) "sym" "[" ident,* "]" ("[" term,* "]")? ("[" (Lean.Parser.Tactic.simpStar <|> Lean.Parser.Tactic.simpErase <|> Lean.Parser.Tactic.simpLemma),* "]")? : tactic

@[tactic symTac] def evalSym : Tactic := fun stx => do
  let (fs, rs, ss) ← match stx with
    | `(tactic| sym [$fs,*] [$rs,*] [$ss,*]) => pure (fs.getElems, rs.getElems, ss.getElems)
    | `(tactic| sym [$fs,*] [$rs,*]) => pure (fs.getElems, rs.getElems, #[])
    | `(tactic| sym [$fs,*]) => pure (fs.getElems, #[], #[])
    | _ => throwUnsupportedSyntax
  withMainContext do
  let cfg ← Sym.mkCfg fs rs (← `(tactic| simp [beq_false_of_ne, $ss,*]))
  let g ← getMainGoal
  let t := (← instantiateMVars (← g.getType)).consumeMData.headBeta
  match t.getAppFnArgs with
  | (``Eq, #[_, l, r]) =>
    let res ← (Sym.full l).run cfg
    match res.pf with
    | none => throwError "no step: {res.e}"
    | some p =>
      let g' ← mkFreshExprSyntheticOpaqueMVar (← mkEq res.e r) (← g.getTag)
      g.assign (← mkEqTrans p g')
      if ← withReducible (isDefEq res.e r) then
        g'.mvarId!.assign (← mkEqRefl r)
        replaceMainGoal []
      else replaceMainGoal [g'.mvarId!]
  | (``Runs, #[F, Q]) =>
    let (r, closed, G, pf) ← withLocalDeclD `n (mkConst ``Nat) fun n => do
      let l := (mkApp F n).headBeta
      let res ← (Sym.full l).run cfg
      let p ← match res.pf with
        | some p => pure p
        | none => mkEqRefl l
      return (res.e, (← Sym.isCtor res.e) && !res.e.containsFVar n.fvarId!,
        ← mkLambdaFVars #[n] res.e, ← mkLambdaFVars #[n] p)
    if closed then
      let g' ← mkFreshExprSyntheticOpaqueMVar (mkApp Q r).headBeta (← g.getTag)
      g.assign (← mkAppOptM ``Runs.congr #[F, G, Q, pf, ← mkAppOptM ``Runs.done #[r, Q, g']])
      replaceMainGoal [g'.mvarId!]
    else
      let g' ← mkFreshExprSyntheticOpaqueMVar (← mkAppM ``Runs #[G, Q]) (← g.getTag)
      g.assign (← mkAppOptM ``Runs.congr #[F, G, Q, pf, g'])
      replaceMainGoal [g'.mvarId!]
  | (``RunsBy, #[K, F, Q]) =>
    let (r, closed, G, pf) ← withLocalDeclD `n (mkConst ``Nat) fun n => do
      let l := (mkApp F n).headBeta
      let res ← (Sym.full l).run cfg
      let p ← match res.pf with
        | some p => pure p
        | none => mkEqRefl l
      return (res.e, (← Sym.isCtor res.e) && !res.e.containsFVar n.fvarId!,
        ← mkLambdaFVars #[n] res.e, ← mkLambdaFVars #[n] p)
    if closed then
      let g' ← mkFreshExprSyntheticOpaqueMVar (mkApp Q r).headBeta (← g.getTag)
      g.assign (← mkAppOptM ``RunsBy.congr #[K, F, G, Q, pf, ← mkAppOptM ``RunsBy.done #[K, r, Q, g']])
      replaceMainGoal [g'.mvarId!]
    else
      let g' ← mkFreshExprSyntheticOpaqueMVar (← mkAppM ``RunsBy #[K, G, Q]) (← g.getTag)
      g.assign (← mkAppOptM ``RunsBy.congr #[K, F, G, Q, pf, g'])
      replaceMainGoal [g'.mvarId!]
  | _ => throwError "not an equation"

/-- `store_of f t`: the run is stuck at a call of `f` in the store `S`; obtain `this := t S`.
(For a comprehension or a loop, `f` is `compRes` or the like.) -/
syntax (name := storeOf) "store_of" ident term:max : tactic

@[tactic storeOf] def evalStoreOf : Tactic := fun stx => do
  match stx with
  | `(tactic| store_of $f $t) => withMainContext do
    let c ← realizeGlobalConstNoOverloadWithInfo f
    let g ← getMainGoal
    let ty ← instantiateMVars (← g.getType)
    let F ← match ty.consumeMData.getAppFnArgs with
      | (``Runs, #[F, _]) | (``RunsBy, #[_, F, _]) => pure F
      | _ => throwError "not a run"
    let S ← withLocalDeclD `n (mkConst ``Nat) fun n => do
      let l := (mkApp F n).headBeta
      let hit (e : Lean.Expr) : Bool :=
        let args := e.getAppArgs
        !e.hasLooseBVars && args.size > 0 && !(args.back!.containsFVar n.fvarId!) &&
        match e.getAppFn.constName? with
        | some ``call => args.size == 6 && args[2]!.isConstOf c
        | some d => d == c && !(args.back!.isLambda)
        | none => false
      let some e := l.find? hit | throwError "not found"
      return e.getAppArgs.back!
    let s ← Term.exprToSyntax S
    evalTactic (← `(tactic| have this := $t $s))
  | _ => throwUnsupportedSyntax

/-- A call that yields `v` and only creates objects, if there are `K` units of fuel. -/
def Yields (K : Nat) (env : Env) (f : Func) (args : List Val) (h : Store) (v : Val) : Prop :=
  RunsBy K (fun n => call env n f args [] h) fun r => ∃ L, r = .ok v (h ++ L)

theorem Yields.get {K : Nat} {env : Env} {f : Func} {args : List Val} {h : Store} {v : Val} (hy : Yields K env f args h v) :
    ∃ L, ∀ n, K ≤ n → call env n f args [] h = .ok v (h ++ L) := by
  obtain ⟨_, ⟨L, rfl⟩, hk⟩ := hy
  exact ⟨L, hk⟩

/-- `step h t [rules]`: the run is stuck at a call about which `t` (a statement `Yields …`, maybe
with variables and side conditions) says what it does; add the statement to the context as `h`
(and in a goal `Runs F Q`, suppose enough fuel for it). -/
syntax (name := stepTac) "step" ident term:max ("[" term,* "]")? : tactic

@[tactic stepTac] def evalStep : Tactic := fun stx => do
  let (h, t, rs) ← match stx with
    | `(tactic| step $h $t [$rs,*]) => pure (h, t, rs.getElems)
    | `(tactic| step $h $t) => pure (h, t, #[])
    | _ => throwUnsupportedSyntax
  withMainContext do
  let g ← getMainGoal
  let cfg ← Sym.mkCfg #[] rs (← `(tactic| simp))
  let ty := (← instantiateMVars (← g.getType)).consumeMData.headBeta
  let (F, free) ← match ty.getAppFnArgs with
    | (``Runs, #[F, _]) => pure (F, true)
    | (``RunsBy, #[_, F, _]) => pure (F, false)
    | _ => throwError "not a run"
  let p ← Tactic.elabTerm t none (mayPostpone := true)
  let p := (← abstractMVars (← instantiateMVars p)).expr
  let (_, _, p) ← lambdaMetaTelescope p
  let (ms, _, yt) ← forallMetaTelescope (← inferType p)
  let (``Yields, #[K, env, f, args, S, _]) := yt.getAppFnArgs | throwError "not a statement about a call"
  let found ← withLocalDeclD `n (mkConst ``Nat) fun n => do
    let l := (mkApp F n).headBeta
    let hit (e : Lean.Expr) : Bool :=
      e.isAppOfArity ``call 6 && !e.hasLooseBVars && e.getArg! 2 == f &&
        !(e.getArg! 3).containsFVar n.fvarId! && !(e.getArg! 5).containsFVar n.fvarId!
    let some e := l.find? hit | throwError "no such call"
    unless ← isDefEq env (e.getArg! 0) do throwError "library"
    unless ← isDefEq args (e.getArg! 3) do throwError "arguments {e.getArg! 3}"
    unless ← isDefEq S (e.getArg! 5) do throwError "store {e.getArg! 5}"
    return ()
  let _ := found
  for m in ms do
    let m' ← instantiateMVars m
    if m'.isMVar then
      if ← isProp (← inferType m') then
        unless ← (Sym.discharge m'.mvarId!).run cfg do
          throwError "side condition {← inferType m'}"
  let pf ← instantiateMVars (mkAppN p ms)
  let s ← Term.exprToSyntax (← mkAppM ``Yields.get #[pf])
  evalTactic (← `(tactic| obtain ⟨L, $h⟩ := $s))
  if free then
    let K ← Term.exprToSyntax (← instantiateMVars K)
    evalTactic (← `(tactic| refine Runs.shift $K ?_))

/-- `test h`: distinguish the cases of the first `if` in the goal. -/
syntax (name := testTac) "test" ident : tactic

@[tactic testTac] def evalTest : Tactic := fun stx => do
  match stx with
  | `(tactic| test $h) => withMainContext do
    let t ← instantiateMVars (← (← getMainGoal).getType)
    let hit (e : Lean.Expr) : Bool := e.isAppOfArity ``ite 5 && !e.hasLooseBVars
    let some e := t.find? hit | throwError "no test"
    let c ← Term.exprToSyntax (e.getArg! 1)
    evalTactic (← `(tactic| by_cases $h:ident : $c))
    let gs ← getGoals
    match gs with
    | g1 :: g2 :: gs =>
      setGoals [g1]
      evalTactic (← `(tactic| rw [if_pos $h]))
      let gs1 ← getGoals
      setGoals [g2]
      evalTactic (← `(tactic| rw [if_neg $h]))
      setGoals (gs1 ++ (← getGoals) ++ gs)
    | _ => throwError "no cases"
  | _ => throwUnsupportedSyntax

end Verif.Src
