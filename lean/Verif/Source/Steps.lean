import Verif.Source.Semantics

/-!
# The interpreter, one operation at a time

The same meaning of the syntax trees as in `Verif.Source.Semantics`, but as a sequence of operations
on the store, between which other threads may do theirs.  One operation is one access to an
object: reading an attribute, an item or the elements of a list, testing a value, creating
an object, changing one, or a call of a library function.  (A library function and the
start of an iteration see one state of the store.  Under the global interpreter lock
this is so for functions written in C; `parseString` works on a string and on objects
that nobody else can have.)

`run_callS` says that without other threads the result is that of `Verif.Source.Semantics`.
-/

namespace Verif.Src

/-- What is left to do: nothing, or an operation on the store and what comes after it, which depends
on the store in which the operation was done. -/
inductive Steps (α : Type) where
  | ret (a : α)
  | exc (e : Val)
  | stuck
  | act (change : Store → Store) (next : Store → Steps α)

/-- Go on with the result. -/
def Steps.bind {α β : Type} (f : α → Steps β) : Steps α → Steps β
  | .ret a => f a
  | .exc e => .exc e
  | .stuck => .stuck
  | .act g k => .act g fun S => (k S).bind f

/-- A result that may be missing. -/
def Steps.of {α : Type} : Option α → Steps α
  | some a => .ret a
  | none => .stuck

/-- One operation. -/
def Steps.prim {α : Type} (f : Store → Res α) : Steps α :=
  .act (fun S => match f S with
    | .ok _ h => h
    | .exc _ h => h
    | .stuck => S)
  fun S => match f S with
    | .ok a _ => .ret a
    | .exc e _ => .exc e
    | .stuck => .stuck

/-- The operations one after the other, without any others between them. -/
def Steps.run {α : Type} : Steps α → Store → Res α
  | .ret a, S => .ok a S
  | .exc e, S => .exc e S
  | .stuck, _ => .stuck
  | .act g k, S => (k S).run (g S)

/-- How a statement ends. -/
inductive Flow where
  | next (l : Locals)
  | ret (v : Val)
  | cont (l : Locals)
  | exc (e : Val) (l : Locals)

/-- A statement that begins by evaluating an expression. -/
def Steps.out {α : Type} (l : Locals) (f : α → Steps Flow) : Steps α → Steps Flow
  | .ret a => f a
  | .exc e => .ret (.exc e l)
  | .stuck => .stuck
  | .act g k => .act g fun S => (k S).out l f

/-- Go on with the next statement. -/
def Steps.andThen (o : Steps Flow) (f : Locals → Steps Flow) : Steps Flow :=
  o.bind fun
    | .next l => f l
    | o => .ret o

/-- What a call leaves. -/
def Steps.result : Steps Flow → Steps Val
  | .ret (.next _) => .ret .none
  | .ret (.ret v) => .ret v
  | .ret (.cont _) => .stuck
  | .ret (.exc e _) => .exc e
  | .exc _ => .stuck
  | .stuck => .stuck
  | .act g k => .act g fun S => (k S).result

/-- The context of an evaluation. -/
structure SCtx where
  env : Env
  call : Func → List Val → List (Ident × Val) → Steps Val
  turns : Nat

/-- Test a value. -/
def test (v : Val) : Steps Bool := .prim fun h => .of (truthy h v) h

/-- The elements of an iterable. -/
def elems (v : Val) : Steps (List Val) := .prim fun h => .of (iterate h v) h

/-- Read an object. -/
def peek (r : Nat) : Steps Obj := .prim fun h => .of h[r]? h

/-- Set an attribute of an instance. -/
def putField (r : Nat) (a : Ident) (v : Val) (h : Store) : Res Unit :=
  match h[r]? with
  | some (.inst c fs) => .ok () (h.set r (.inst c (setField a v fs)))
  | _ => .stuck

/-- Set an item of a dictionary. -/
def putItem (r : Nat) (k : Str) (v : Val) (h : Store) : Res Unit :=
  match h[r]? with
  | some (.dict d) => .ok () (h.set r (.dict (Dict.set d k v)))
  | _ => .stuck

/-- `v.a` -/
def getAttrS (C : SCtx) (v : Val) (a : Ident) : Steps Val :=
  match v with
  | .obj r =>
    (peek r).bind fun
      | .list _ => .ret (.bmethod v a)
      | .dict _ => .ret (.bmethod v a)
      | .inst c fs =>
        match findMethod c a with
        | some (_, .prop, f) => C.call f [v] []
        | some (c', .plain, _) =>
          match look a fs with
          | some w => .ret w
          | none => .ret (.method v c' a)
        | some (c', .static, _) => .ret (.static c' a)
        | none => .of (look a fs)
  | .cls c =>
    match findMethod c a with
    | some (c', .static, _) => .ret (.static c' a)
    | some _ => .stuck
    | none => .prim (libAttr v a)
  | v => .prim (libAttr v a)

/-- `f(args, …)` -/
def applyS (C : SCtx) (f : Val) (args : List Val) (kw : List (Ident × Val)) : Steps Val :=
  match f with
  | .cls c =>
    (Steps.prim (new (.inst c []))).bind fun self =>
      match findMethod c .__init__ with
      | some (_, _, f) => (C.call f (self :: args) kw).bind fun _ => .ret self
      | none => match args, kw with
        | [], [] => .ret self
        | _, _ => .stuck
  | .func f => match look f functions with
    | some f => C.call f args kw
    | none => .stuck
  | .method self c m =>
    if c = .Exception ∧ m = .__init__ then
      match self, args, kw with
      | .obj r, [v], [] => (Steps.prim (putField r .args v)).bind fun _ => .ret .none
      | _, _, _ => .stuck
    else match methodIn c m with
      | some f => C.call f (self :: args) kw
      | none => .stuck
  | .static c m => match methodIn c m with
    | some f => C.call f args kw
    | none => .stuck
  | .bmethod v m => match kw with
    | [] => .prim (libMethod v m args)
    | _ :: _ => .stuck
  | .builtin f => match kw with
    | [] => .prim (builtin C.env f args)
    | _ :: _ => .stuck
  | _ => .stuck

/-! ## Expressions -/

/-- A comprehension with the variable `x` over the values `vs`. -/
def compS (conds : Locals → Steps Bool) (elt : Locals → Steps Val) (x : Ident)
    (l : Locals) : List Val → Steps (List Val)
  | [] => .ret []
  | v :: vs =>
    (conds ((x, v) :: l)).bind fun b =>
      if b then
        (elt ((x, v) :: l)).bind fun w => (compS conds elt x l vs).bind fun ws => .ret (w :: ws)
      else compS conds elt x l vs

/-- `any` over a generator. -/
def anyS (elt : Locals → Steps Val) (x : Ident) (l : Locals) : List Val → Steps Val
  | [] => .ret (.bool false)
  | v :: vs =>
    (elt ((x, v) :: l)).bind fun w => (test w).bind fun b =>
      if b then .ret (.bool true) else anyS elt x l vs

mutual
/-- Evaluate an expression. -/
def evalS (C : SCtx) : Expr → Locals → Steps Val
  | .none, _ => .ret .none
  | .bool b, _ => .ret (.bool b)
  | .int i, _ => .ret (.int i)
  | .str s, _ => .ret (.str s)
  | .name x, l =>
    match look x l with
    | some v => .ret v
    | none => .of (global x)
  | .attr e a, l => (evalS C e l).bind fun v => getAttrS C v a
  | .super base a, l =>
    match look .self l with
    | none => .stuck
    | some self =>
      if base = .Exception then .ret (.method self base a)
      else match findMethod base a with
        | some (c, .plain, _) => .ret (.method self c a)
        | _ => .stuck
  | .item e k, l => (evalS C e l).bind fun v => (evalS C k l).bind fun k => .prim (item v k)
  | .slice e lo hi, l =>
    (evalS C e l).bind fun v => (evalS C lo l).bind fun i => (evalS C hi l).bind fun j =>
      match v, i, j with
      | .str s, .int (.ofNat i), .int (.ofNat j) => .ret (.str ((s.take j).drop i))
      | _, _, _ => .stuck
  | .call f args ks vs, l =>
    (evalS C f l).bind fun f => (evalsS C args l).bind fun args =>
      (evalsS C vs l).bind fun vs => applyS C f args (ks.zip vs)
  | .fstr parts, l => (evalsS C parts l).bind fun vs => .of ((formats vs).map .str)
  | .list es, l => (evalsS C es l).bind fun vs => .prim (new (.list vs))
  | .dict ks es, l => (evalsS C es l).bind fun vs => .prim (new (.dict (dictOf ks vs [])))
  | .comp elt x it conds, l =>
    (evalS C it l).bind fun v => (elems v).bind fun vs =>
      (compS (holdsS C conds) (evalS C elt) x l vs).bind fun ws => .prim (new (.list ws))
  | .anyGen elt x it, l =>
    (evalS C it l).bind fun v => (elems v).bind fun vs => anyS (evalS C elt) x l vs
  | .not e, l => (evalS C e l).bind fun v => (test v).bind fun b => .ret (.bool !b)
  | .and a b, l =>
    (evalS C a l).bind fun v => (test v).bind fun c => if c then evalS C b l else .ret v
  | .or a b, l =>
    (evalS C a l).bind fun v => (test v).bind fun c => if c then .ret v else evalS C b l
  | .ite c a b, l =>
    (evalS C c l).bind fun v => (test v).bind fun c => if c then evalS C a l else evalS C b l
  | .cmp op a b, l =>
    (evalS C a l).bind fun v => (evalS C b l).bind fun w =>
      .prim fun h => .of ((compare h op v w).map .bool) h
  | .add a b, l =>
    (evalS C a l).bind fun v => (evalS C b l).bind fun w =>
      match v, w with
      | .str s, .str t => .ret (.str (s ++ t))
      | .int i, .int j => .ret (.int (i + j))
      | _, _ => .stuck
  | .sub a b, l =>
    (evalS C a l).bind fun v => (evalS C b l).bind fun w =>
      match v, w with
      | .int i, .int j => .ret (.int (i - j))
      | _, _ => .stuck
/-- Evaluate several, from left to right. -/
def evalsS (C : SCtx) : List Expr → Locals → Steps (List Val)
  | [], _ => .ret []
  | e :: es, l => (evalS C e l).bind fun v => (evalsS C es l).bind fun vs => .ret (v :: vs)
/-- The conditions of a comprehension. -/
def holdsS (C : SCtx) : List Expr → Locals → Steps Bool
  | [], _ => .ret true
  | e :: es, l =>
    (evalS C e l).bind fun v => (test v).bind fun b => if b then holdsS C es l else .ret false
end

/-! ## Statements -/

/-- A `while` loop. -/
def whileS (c : Locals → Steps Val) (body : Locals → Steps Flow) : Nat → Locals → Steps Flow
  | 0, _ => .stuck
  | n + 1, l =>
    (c l).out l fun v => (test v).out l fun b =>
      if b then
        (body l).bind fun
          | .next l => whileS c body n l
          | .cont l => whileS c body n l
          | o => .ret o
      else .ret (.next l)

/-- A `for` loop. -/
def forS (bind : Nat → Val → Locals → Locals) (body : Locals → Steps Flow) :
    Nat → List Val → Locals → Steps Flow
  | _, [], l => .ret (.next l)
  | i, v :: vs, l =>
    (body (bind i v l)).bind fun
      | .next l => forS bind body (i + 1) vs l
      | .cont l => forS bind body (i + 1) vs l
      | o => .ret o

/-- How a handler ends, after which its variable is gone. -/
def Flow.unset (x : Ident) : Flow → Flow
  | .next l => .next (Src.unset x l)
  | .cont l => .cont (Src.unset x l)
  | .exc e l => .exc e (Src.unset x l)
  | .ret v => .ret v

mutual
/-- Execute a statement. -/
def execS (C : SCtx) : Stmt → Locals → Steps Flow
  | .assign x e, l => (evalS C e l).out l fun v => .ret (.next ((x, v) :: l))
  | .setAttr o a e, l =>
    (evalS C e l).out l fun v => (evalS C o l).out l fun o =>
      match o with
      | .obj r => (Steps.prim (putField r a v)).out l fun _ => .ret (.next l)
      | _ => .stuck
  | .setItem o k e, l =>
    (evalS C e l).out l fun v => (evalS C o l).out l fun o => (evalS C k l).out l fun k =>
      match o, k with
      | .obj r, .str k => (Steps.prim (putItem r k v)).out l fun _ => .ret (.next l)
      | _, _ => .stuck
  | .expr e, l => (evalS C e l).out l fun _ => .ret (.next l)
  | .ret e, l => (evalS C e l).out l fun v => .ret (.ret v)
  | .raise e, l => (evalS C e l).out l fun v => .ret (.exc v l)
  | .ite c a b, l =>
    (evalS C c l).out l fun v => (test v).out l fun c => if c then execsS C a l else execsS C b l
  | .while c body, l => whileS (evalS C c) (execsS C body) C.turns l
  | .for x it body, l =>
    (evalS C it l).out l fun v => (elems v).out l fun vs =>
      forS (fun _ v l => (x, v) :: l) (execsS C body) 0 vs l
  | .forEnum i x it body, l =>
    (evalS C it l).out l fun v => (elems v).out l fun vs =>
      forS (fun n v l => (x, v) :: (i, .int n) :: l) (execsS C body) 0 vs l
  | .tryExcept body x handler, l =>
    (execsS C body l).bind fun
      | .exc e l => (execsS C handler ((x, e) :: l)).bind fun o => .ret (o.unset x)
      | o => .ret o
  | .continue, l => .ret (.cont l)
  | .pass, l => .ret (.next l)
/-- Execute statements in order. -/
def execsS (C : SCtx) : List Stmt → Locals → Steps Flow
  | [], l => .ret (.next l)
  | s :: ss, l => (execS C s l).andThen fun l => execsS C ss l
end

/-- Call a function, with fuel. -/
def callS (env : Env) : Nat → Func → List Val → List (Ident × Val) → Steps Val
  | 0, _, _, _ => .stuck
  | n + 1, f, args, kw =>
    match bindParams f.params args kw with
    | none => .stuck
    | some l => (execsS ⟨env, callS env n, n⟩ f.body l).result

/-! ## Without other threads -/

section
variable {α β : Type}

theorem run_bind (f : α → Steps β) : ∀ (p : Steps α) (S : Store),
    (p.bind f).run S = (p.run S).bind fun a S => (f a).run S
  | .ret _, _ => rfl
  | .exc _, _ => rfl
  | .stuck, _ => rfl
  | .act g k, S => run_bind f (k S) (g S)

theorem run_prim (f : Store → Res α) (S : Store) : (Steps.prim f).run S = f S := by
  rw [Steps.prim, Steps.run]
  cases f S <;> rfl

theorem run_of (o : Option α) (S : Store) : (Steps.of o).run S = .of o S := by
  cases o <;> rfl

/-- The end of a statement, with the store. -/
def flowOut : Res Flow → Out
  | .ok (.next l) h => .next l h
  | .ok (.ret v) h => .ret v h
  | .ok (.cont l) h => .cont l h
  | .ok (.exc e l) h => .exc e l h
  | .exc _ _ => .stuck
  | .stuck => .stuck

theorem run_out (l : Locals) (f : α → Steps Flow) : ∀ (p : Steps α) (S : Store),
    flowOut ((p.out l f).run S) = (p.run S).out l fun a S => flowOut ((f a).run S)
  | .ret _, _ => rfl
  | .exc _, _ => rfl
  | .stuck, _ => rfl
  | .act g k, S => run_out l f (k S) (g S)

theorem run_andThen (f : Locals → Steps Flow) (p : Steps Flow) (S : Store) :
    flowOut ((p.andThen f).run S) = (flowOut (p.run S)).andThen fun l S => flowOut ((f l).run S) := by
  rw [Steps.andThen, run_bind]
  cases p.run S with
  | ok o h => cases o <;> rfl
  | exc _ _ => rfl
  | stuck => rfl

theorem run_result : ∀ (p : Steps Flow) (S : Store), p.result.run S = (flowOut (p.run S)).result
  | .ret (.next _), _ => rfl
  | .ret (.ret _), _ => rfl
  | .ret (.cont _), _ => rfl
  | .ret (.exc _ _), _ => rfl
  | .exc _, _ => rfl
  | .stuck, _ => rfl
  | .act g k, S => run_result (k S) (g S)
end

/-- The context, without other threads. -/
def SCtx.seq (C : SCtx) : Ctx := ⟨C.env, fun f args kw S => (C.call f args kw).run S, C.turns⟩

variable {C : SCtx}

theorem bind_congr {α β : Type} {r : Res α} {f g : α → Store → Res β} (h : ∀ a S, f a S = g a S) :
    r.bind f = r.bind g := by
  cases r with
  | ok a S => exact h a S
  | exc _ _ => rfl
  | stuck => rfl

theorem out_congr {α : Type} {r : Res α} {l : Locals} {f g : α → Store → Out} (h : ∀ a S, f a S = g a S) :
    r.out l f = r.out l g := by
  cases r with
  | ok a S => exact h a S
  | exc _ _ => rfl
  | stuck => rfl

theorem run_test {β : Type} (v : Val) (f : Bool → Steps β) (S : Store) : ((test v).bind f).run S =
    match truthy S v with
    | some true => (f true).run S
    | some false => (f false).run S
    | none => .stuck := by
  rw [run_bind, test, run_prim]
  rcases truthy S v with _ | _ | _ <;> rfl

theorem run_elems {β : Type} (v : Val) (f : List Val → Steps β) (S : Store) : ((elems v).bind f).run S =
    match iterate S v with
    | none => .stuck
    | some vs => (f vs).run S := by
  rw [run_bind, elems, run_prim]
  cases iterate S v <;> rfl

theorem out_test (v : Val) (l : Locals) (f : Bool → Steps Flow) (S : Store) : flowOut (((test v).out l f).run S) =
    match truthy S v with
    | some true => flowOut ((f true).run S)
    | some false => flowOut ((f false).run S)
    | none => .stuck := by
  rw [run_out, test, run_prim]
  rcases truthy S v with _ | _ | _ <;> rfl

theorem out_elems (v : Val) (l : Locals) (f : List Val → Steps Flow) (S : Store) : flowOut (((elems v).out l f).run S) =
    match iterate S v with
    | none => .stuck
    | some vs => flowOut ((f vs).run S) := by
  rw [run_out, elems, run_prim]
  cases iterate S v <;> rfl

theorem run_getAttrS (v : Val) (a : Ident) (S : Store) : (getAttrS C v a).run S = getAttr C.seq v a S := by
  unfold getAttrS getAttr
  cases v with
  | obj r =>
    simp only
    rw [run_bind, peek, run_prim]
    cases S[r]? with
    | none => rfl
    | some o =>
      cases o with
      | list _ => rfl
      | dict _ => rfl
      | inst c fs =>
        simp only [Res.of, Res.bind]
        rcases findMethod c a with _ | ⟨c', d, f⟩
        · exact run_of _ S
        · cases d with
          | plain =>
            simp only
            cases look a fs <;> rfl
          | _ => rfl
  | cls c =>
    simp only
    rcases findMethod c a with _ | ⟨c', d, f⟩
    · exact run_prim _ S
    · cases d <;> rfl
  | _ => exact run_prim _ S

theorem run_applyS (f : Val) (args : List Val) (kw : List (Ident × Val)) (S : Store) :
    (applyS C f args kw).run S = apply C.seq f args kw S := by
  unfold applyS apply
  cases f with
  | cls c =>
    simp only
    rw [run_bind, run_prim]
    refine bind_congr fun self S => ?_
    rcases findMethod c .__init__ with _ | ⟨c', d, f⟩
    · cases args with
      | nil => cases kw <;> rfl
      | cons _ _ => rfl
    · exact run_bind _ _ S
  | func f =>
    simp only
    cases look f functions <;> rfl
  | method self c m =>
    simp only
    split
    · split
      · simp only
        rw [run_bind, run_prim, putField]
        cases S[(_ : Nat)]? with
        | none => rfl
        | some o => cases o <;> rfl
      · next hx =>
        split
        · exact (hx _ _ rfl rfl rfl).elim
        · rfl
    · cases methodIn c m <;> rfl
  | static c m =>
    simp only
    cases methodIn c m <;> rfl
  | bmethod v m =>
    cases kw with
    | nil => exact run_prim _ S
    | cons _ _ => rfl
  | builtin f =>
    cases kw with
    | nil => exact run_prim _ S
    | cons _ _ => rfl
  | _ => rfl

theorem run_compS {p : Locals → Steps Bool} {q : Locals → Steps Val} {p' : Locals → Store → Res Bool}
    {q' : Locals → Store → Res Val} (hp : ∀ l S, (p l).run S = p' l S) (hq : ∀ l S, (q l).run S = q' l S)
    (x : Ident) (l : Locals) : ∀ (vs : List Val) (S : Store), (compS p q x l vs).run S = compRes p' q' x l vs S
  | [], _ => rfl
  | v :: vs, S => by
    rw [compS, compRes, run_bind, hp]
    refine bind_congr fun b S => ?_
    split
    · rw [run_bind, hq]
      refine bind_congr fun w S => ?_
      rw [run_bind, run_compS hp hq]
      rfl
    · exact run_compS hp hq x l vs S

theorem run_anyS {q : Locals → Steps Val} {q' : Locals → Store → Res Val} (hq : ∀ l S, (q l).run S = q' l S)
    (x : Ident) (l : Locals) : ∀ (vs : List Val) (S : Store), (anyS q x l vs).run S = anyRes q' x l vs S
  | [], _ => rfl
  | v :: vs, S => by
    rw [anyS, anyRes, run_bind, hq]
    refine bind_congr fun b S => ?_
    rw [run_test]
    rcases truthy S b with _ | _ | _
    · rfl
    · exact run_anyS hq x l vs S
    · rfl

mutual
theorem run_evalS : ∀ (e : Expr) (l : Locals) (S : Store), (evalS C e l).run S = eval C.seq e l S
  | .none, _, _ => rfl
  | .bool _, _, _ => rfl
  | .int _, _, _ => rfl
  | .str _, _, _ => rfl
  | .name x, l, S => by
    rw [evalS, eval]
    cases look x l with
    | none => exact run_of _ S
    | some v => rfl
  | .attr e a, l, S => by
    rw [evalS, eval, run_bind, run_evalS e]
    exact bind_congr fun v S => run_getAttrS v a S
  | .super b a, l, S => by
    rw [evalS, eval]
    cases look .self l with
    | none => rfl
    | some self =>
      simp only
      split
      · rfl
      · rcases findMethod b a with _ | ⟨c', d, f⟩
        · rfl
        · cases d <;> rfl
  | .item e k, l, S => by
    rw [evalS, eval, run_bind, run_evalS e]
    refine bind_congr fun v S => ?_
    rw [run_bind, run_evalS k]
    exact bind_congr fun k S => run_prim _ S
  | .slice e lo hi, l, S => by
    rw [evalS, eval, run_bind, run_evalS e]
    refine bind_congr fun v S => ?_
    rw [run_bind, run_evalS lo]
    refine bind_congr fun i S => ?_
    rw [run_bind, run_evalS hi]
    refine bind_congr fun j S => ?_
    split
    · rfl
    · next hx =>
      split
      · exact (hx _ _ _ rfl rfl rfl).elim
      · rfl
  | .call f args ks vs, l, S => by
    rw [evalS, eval, run_bind, run_evalS f]
    refine bind_congr fun f S => ?_
    rw [run_bind, run_evalsS args]
    refine bind_congr fun args S => ?_
    rw [run_bind, run_evalsS vs]
    exact bind_congr fun vs S => run_applyS f args _ S
  | .fstr parts, l, S => by
    rw [evalS, eval, run_bind, run_evalsS parts]
    exact bind_congr fun vs S => run_of _ S
  | .list es, l, S => by
    rw [evalS, eval, run_bind, run_evalsS es]
    exact bind_congr fun vs S => run_prim _ S
  | .dict ks es, l, S => by
    rw [evalS, eval, run_bind, run_evalsS es]
    exact bind_congr fun vs S => run_prim _ S
  | .comp elt x it conds, l, S => by
    rw [evalS, eval, run_bind, run_evalS it]
    refine bind_congr fun v S => ?_
    rw [run_elems]
    cases iterate S v with
    | none => rfl
    | some vs =>
      simp only
      rw [run_bind, run_compS (run_holdsS conds) (run_evalS elt)]
      exact bind_congr fun ws S => run_prim _ S
  | .anyGen elt x it, l, S => by
    rw [evalS, eval, run_bind, run_evalS it]
    refine bind_congr fun v S => ?_
    rw [run_elems]
    cases iterate S v with
    | none => rfl
    | some vs => exact run_anyS (run_evalS elt) x l _ S
  | .not e, l, S => by
    rw [evalS, eval, run_bind, run_evalS e]
    refine bind_congr fun v S => ?_
    rw [run_test]
    rcases truthy S v with _ | _ | _ <;> rfl
  | .and a b, l, S => by
    rw [evalS, eval, run_bind, run_evalS a]
    refine bind_congr fun v S => ?_
    rw [run_test]
    rcases truthy S v with _ | _ | _
    · rfl
    · rfl
    · exact run_evalS b l S
  | .or a b, l, S => by
    rw [evalS, eval, run_bind, run_evalS a]
    refine bind_congr fun v S => ?_
    rw [run_test]
    rcases truthy S v with _ | _ | _
    · rfl
    · exact run_evalS b l S
    · rfl
  | .ite c a b, l, S => by
    rw [evalS, eval, run_bind, run_evalS c]
    refine bind_congr fun v S => ?_
    rw [run_test]
    rcases truthy S v with _ | _ | _
    · rfl
    · exact run_evalS b l S
    · exact run_evalS a l S
  | .cmp op a b, l, S => by
    rw [evalS, eval, run_bind, run_evalS a]
    refine bind_congr fun v S => ?_
    rw [run_bind, run_evalS b]
    exact bind_congr fun w S => run_prim _ S
  | .add a b, l, S => by
    rw [evalS, eval, run_bind, run_evalS a]
    refine bind_congr fun v S => ?_
    rw [run_bind, run_evalS b]
    refine bind_congr fun w S => ?_
    split
    · rfl
    · rfl
    · next hx hy =>
      split
      · exact (hx _ _ rfl rfl).elim
      · exact (hy _ _ rfl rfl).elim
      · rfl
  | .sub a b, l, S => by
    rw [evalS, eval, run_bind, run_evalS a]
    refine bind_congr fun v S => ?_
    rw [run_bind, run_evalS b]
    refine bind_congr fun w S => ?_
    split
    · rfl
    · next hx =>
      split
      · exact (hx _ _ rfl rfl).elim
      · rfl
theorem run_evalsS : ∀ (es : List Expr) (l : Locals) (S : Store), (evalsS C es l).run S = evals C.seq es l S
  | [], _, _ => rfl
  | e :: es, l, S => by
    rw [evalsS, evals, run_bind, run_evalS e]
    refine bind_congr fun v S => ?_
    rw [run_bind, run_evalsS es]
    rfl
theorem run_holdsS : ∀ (es : List Expr) (l : Locals) (S : Store), (holdsS C es l).run S = holds C.seq es l S
  | [], _, _ => rfl
  | e :: es, l, S => by
    rw [holdsS, holds, run_bind, run_evalS e]
    refine bind_congr fun v S => ?_
    rw [run_test]
    rcases truthy S v with _ | _ | _
    · rfl
    · rfl
    · exact run_holdsS es l S
end

theorem flow_bind (f : Flow → Steps Flow) (p : Steps Flow) (S : Store) : flowOut ((p.bind f).run S) =
    match flowOut (p.run S) with
    | .next l h => flowOut ((f (.next l)).run h)
    | .ret v h => flowOut ((f (.ret v)).run h)
    | .cont l h => flowOut ((f (.cont l)).run h)
    | .exc e l h => flowOut ((f (.exc e l)).run h)
    | .stuck => .stuck := by
  rw [run_bind]
  cases p.run S with
  | ok o h => cases o <;> rfl
  | exc _ _ => rfl
  | stuck => rfl

theorem run_whileS {c : Locals → Steps Val} {b : Locals → Steps Flow} {c' : Locals → Store → Res Val}
    {b' : Locals → Store → Out} (hc : ∀ l S, (c l).run S = c' l S) (hb : ∀ l S, flowOut ((b l).run S) = b' l S) :
    ∀ (n : Nat) (l : Locals) (S : Store), flowOut ((whileS c b n l).run S) = whileOut c' b' n l S
  | 0, _, _ => rfl
  | n + 1, l, S => by
    rw [whileS, whileOut, run_out, hc]
    refine out_congr fun v S => ?_
    rw [out_test]
    rcases truthy S v with _ | _ | _
    · rfl
    · rfl
    · simp only [if_true]
      rw [flow_bind, hb]
      cases b' l S with
      | next l h => exact run_whileS hc hb n l h
      | cont l h => exact run_whileS hc hb n l h
      | _ => rfl

theorem run_forS {bind : Nat → Val → Locals → Locals} {b : Locals → Steps Flow}
    {b' : Locals → Store → Out} (hb : ∀ l S, flowOut ((b l).run S) = b' l S) :
    ∀ (i : Nat) (vs : List Val) (l : Locals) (S : Store), flowOut ((forS bind b i vs l).run S) = forOut bind b' i vs l S
  | _, [], _, _ => rfl
  | i, v :: vs, l, S => by
    rw [forS, forOut, flow_bind, hb]
    cases b' (bind i v l) S with
    | next l h => exact run_forS hb (i + 1) vs l h
    | cont l h => exact run_forS hb (i + 1) vs l h
    | _ => rfl

mutual
theorem run_execS : ∀ (s : Stmt) (l : Locals) (S : Store), flowOut ((execS C s l).run S) = exec C.seq s l S
  | .assign x e, l, S => by
    rw [execS, exec, run_out, run_evalS]
    rfl
  | .setAttr o a e, l, S => by
    rw [execS, exec, run_out, run_evalS]
    refine out_congr fun v S => ?_
    rw [run_out, run_evalS]
    refine out_congr fun o S => ?_
    cases o with
    | obj r =>
      simp only
      rw [run_out, run_prim, putField]
      cases S[r]? with
      | none => rfl
      | some o => cases o <;> rfl
    | _ => rfl
  | .setItem o k e, l, S => by
    rw [execS, exec, run_out, run_evalS]
    refine out_congr fun v S => ?_
    rw [run_out, run_evalS]
    refine out_congr fun o S => ?_
    rw [run_out, run_evalS]
    refine out_congr fun k S => ?_
    cases o with
    | obj r =>
      cases k with
      | str k =>
        simp only
        rw [run_out, run_prim, putItem]
        cases S[r]? with
        | none => rfl
        | some o => cases o <;> rfl
      | _ => rfl
    | _ => rfl
  | .expr e, l, S => by
    rw [execS, exec, run_out, run_evalS]
    rfl
  | .ret e, l, S => by
    rw [execS, exec, run_out, run_evalS]
    rfl
  | .raise e, l, S => by
    rw [execS, exec, run_out, run_evalS]
    rfl
  | .ite c a b, l, S => by
    rw [execS, exec, run_out, run_evalS]
    refine out_congr fun v S => ?_
    rw [out_test]
    rcases truthy S v with _ | _ | _
    · rfl
    · exact run_execsS b l S
    · exact run_execsS a l S
  | .while c body, l, S => by
    rw [execS, exec]
    exact run_whileS (run_evalS c) (run_execsS body) _ l S
  | .for x it body, l, S => by
    rw [execS, exec, run_out, run_evalS]
    refine out_congr fun v S => ?_
    rw [out_elems]
    cases iterate S v with
    | none => rfl
    | some vs => exact run_forS (run_execsS body) _ _ l S
  | .forEnum i x it body, l, S => by
    rw [execS, exec, run_out, run_evalS]
    refine out_congr fun v S => ?_
    rw [out_elems]
    cases iterate S v with
    | none => rfl
    | some vs => exact run_forS (run_execsS body) _ _ l S
  | .tryExcept body x handler, l, S => by
    rw [execS, exec, flow_bind, run_execsS body]
    cases execs C.seq body l S with
    | exc e l S =>
      simp only
      rw [flow_bind, run_execsS handler]
      cases execs C.seq handler ((x, e) :: l) S <;> rfl
    | _ => rfl
  | .continue, _, _ => rfl
  | .pass, _, _ => rfl
theorem run_execsS : ∀ (ss : List Stmt) (l : Locals) (S : Store), flowOut ((execsS C ss l).run S) = execs C.seq ss l S
  | [], _, _ => rfl
  | s :: ss, l, S => by
    rw [execsS, execs, run_andThen, run_execS s]
    cases exec C.seq s l S with
    | next l S => exact run_execsS ss l S
    | _ => rfl
end

/-- Without other threads the result is that of the big-step interpreter. -/
theorem run_callS (env : Env) : ∀ (n : Nat) (f : Func) (args : List Val) (kw : List (Ident × Val)) (S : Store),
    (callS env n f args kw).run S = call env n f args kw S
  | 0, _, _, _, _ => rfl
  | n + 1, f, args, kw, S => by
    rw [callS, call]
    cases bindParams f.params args kw with
    | none => rfl
    | some l =>
      simp only
      rw [run_result, run_execsS]
      have hc : SCtx.seq ⟨env, callS env n, n⟩ = ⟨env, call env n, n⟩ := by
        rw [SCtx.seq]
        congr
        funext f args kw S
        exact run_callS env n f args kw S
      rw [hc]

end Verif.Src
