import Verif.Source.Code
import Verif.Source.Pattern
import Verif.Model.Syntax

/-!
# What the syntax trees mean

A big-step interpreter for the fragment of Python of `Verif.Source.Syntax`.  It knows
nothing about this code base except the library objects that are used: strings, lists,
dictionaries, `re`, minidom nodes and `parseString` (a parameter, `Env.parse`), and the
dictionaries of syntax.py, which are constants.

`Res.stuck` stands for everything that this file gives no meaning to (operations on
values of the wrong type, unknown names, missing arguments), and for running out of
fuel: the fuel bounds the depth of calls and the number of turns of a `while` loop.
The theorems say that neither happens.
-/

namespace Verif.Src

/-- Python values.  Lists, dictionaries and instances of the classes of the source are
objects in the store; what the code base never changes is a value. -/
inductive Val where
  | none
  | bool (b : Bool)
  | int (i : Int)
  | str (s : Str)
  /-- a list, dictionary or instance in the store -/
  | obj (a : Nat)
  /-- a class -/
  | cls (c : Ident)
  /-- a function of a module -/
  | func (f : Ident)
  /-- a built-in function, or a function of `re` -/
  | builtin (f : Ident)
  /-- an imported module -/
  | module (m : Ident)
  /-- the method `m` defined in the class `c`, bound to an object -/
  | method (self : Val) (c m : Ident)
  /-- the static method `m` defined in the class `c` -/
  | static (c m : Ident)
  /-- a method of a library object -/
  | bmethod (self : Val) (m : Ident)
  /-- a member of an enumeration -/
  | enum (c m : Ident)
  /-- a dictionary of syntax.py -/
  | table (t : Ident)
  /-- an instance of a dataclass of syntax.py -/
  | record (fields : List (Ident × Str))
  /-- a sequence that is not a list object: `range`, a `NodeList`, `dict.values()` -/
  | seq (vs : List Val)
  | document (d : Doc)
  | node (n : Node)
  /-- the `attributes` of an element node -/
  | nodeMap (as : List (Str × Str))
  /-- an attribute node -/
  | nodeAttr (name value : Str)
  /-- an exception raised by a library -/
  | exc (e : Exc)
  | pattern (p : Pattern)
  /-- a match object -/
  | matched

/-- Objects. -/
inductive Obj where
  | list (vs : List Val)
  | dict (d : Dict Val)
  | inst (c : Ident) (fields : List (Ident × Val))

/-- The store: the object at address `a` is the `a`-th entry. -/
abbrev Store := List Obj

/-- Look a name up. -/
def look {α : Type} (x : Ident) : List (Ident × α) → Option α
  | [] => none
  | (y, v) :: l => if x = y then some v else look x l

/-- Local variables, latest first. -/
abbrev Locals := List (Ident × Val)

/-- Set an attribute. -/
def setField (x : Ident) (v : Val) : List (Ident × Val) → List (Ident × Val)
  | [] => [(x, v)]
  | (y, w) :: l => if x = y then (x, v) :: l else (y, w) :: setField x v l

/-- The result of evaluating an expression. -/
inductive Res (α : Type) where
  | ok (a : α) (h : Store)
  | exc (e : Val) (h : Store)
  | stuck

/-- Go on with the result. -/
def Res.bind {α β : Type} (r : Res α) (f : α → Store → Res β) : Res β :=
  match r with
  | .ok a h => f a h
  | .exc e h => .exc e h
  | .stuck => .stuck

/-- A result that may be missing. -/
def Res.of {α : Type} (o : Option α) (h : Store) : Res α :=
  match o with
  | some a => .ok a h
  | none => .stuck

/-- The result of executing a statement. -/
inductive Out where
  | next (l : Locals) (h : Store)
  | ret (v : Val) (h : Store)
  | cont (l : Locals) (h : Store)
  | exc (e : Val) (l : Locals) (h : Store)
  | stuck

/-- Go on with the next statement. -/
def Out.andThen (o : Out) (f : Locals → Store → Out) : Out :=
  match o with
  | .next l h => f l h
  | o => o

/-- A statement that begins by evaluating an expression. -/
def Res.out {α : Type} (r : Res α) (l : Locals) (f : α → Store → Out) : Out :=
  match r with
  | .ok a h => f a h
  | .exc e h => .exc e l h
  | .stuck => .stuck

/-- What a call leaves. -/
def Out.result : Out → Res Val
  | .next _ h => .ok .none h
  | .ret v h => .ok v h
  | .cont _ _ => .stuck
  | .exc e _ h => .exc e h
  | .stuck => .stuck

/-- The context of an evaluation: the libraries, how to call a function of the source, and
the bound on the turns of a loop. -/
structure Ctx where
  env : Env
  call : Func → List Val → List (Ident × Val) → Store → Res Val
  turns : Nat

/-! ## Classes -/

/-- The class in which a method is found, its decoration and its definition: the class
itself, then its base classes (at most four deep). -/
def findMethod (c m : Ident) : Option (Ident × Deco × Func) :=
  go 4 c
where
  go : Nat → Ident → Option (Ident × Deco × Func)
    | 0, _ => none
    | n + 1, c =>
      match look c classes with
      | none => none
      | some k =>
        match look m k.methods with
        | some d => some (c, d.1, d.2)
        | none => match k.base with
          | none => none
          | some b => go n b

/-- The method `m` as defined in the class `c` itself. -/
def methodIn (c m : Ident) : Option Func :=
  match look c classes with
  | none => none
  | some k => (look m k.methods).map (·.2)

/-- The value of a global name. -/
def global (x : Ident) : Option Val :=
  if (look x classes).isSome then some (.cls x)
  else if (look x functions).isSome then some (.func x)
  else if x = .re then some (.module x)
  else if x = .ExpatError ∨ x = .Node ∨ x = .Exception then some (.cls x)
  else if x = .len ∨ x = .list ∨ x = .any ∨ x = .bool ∨ x = .isinstance ∨ x = .range ∨
      x = .parseString then some (.builtin x)
  else if x = .vowels_with_accents ∨ x = .accent_to_ltx_cmd ∨ x = .special_font_chars ∨
      x = .all_math_symbols_by_char ∨ x = .all_math_symbols_by_glyph ∨ x = .math_number_by_glyph ∨
      x = .all_math_operators_by_char ∨ x = .all_math_operators_by_glyph then some (.table x)
  else none

/-- A lookup in a dictionary of syntax.py; the instances of the dataclasses
(syntax.py 6–15) have two fields. -/
def tableGet (t : Ident) (k : Str) : Option Val :=
  match t with
  | .vowels_with_accents =>
    (Dict.get? vowelsWithAccents k).map fun p => .record [(.char, p.1), (.accent, p.2)]
  | .special_font_chars =>
    (Dict.get? specialFontChars k).map fun p => .record [(.letter, p.1), (.font_cmd, p.2)]
  | .accent_to_ltx_cmd => (Dict.get? accentToLtxCmd k).map .str
  | .all_math_symbols_by_char => (Dict.get? allMathSymbolsByChar k).map .str
  | .all_math_symbols_by_glyph => (Dict.get? allMathSymbolsByGlyph k).map .str
  | .math_number_by_glyph => (Dict.get? mathNumberByGlyph k).map .str
  | .all_math_operators_by_char => (Dict.get? allMathOperatorsByChar k).map .str
  | .all_math_operators_by_glyph => (Dict.get? allMathOperatorsByGlyph k).map .str
  | _ => none

/-! ## Values -/

/-- Whether a value is a string. -/
def isText : Val → Bool
  | .str _ => true
  | _ => false

/-- `bool(d)`, for a dictionary with strings as values. -/
def dictTrue (d : Dict Val) : Option Bool :=
  if d.all fun p => ((Dict.get? d p.1).map isText).getD true then some (!d.isEmpty) else none

/-- `k in d`, for a dictionary with strings as values. -/
def dictHas (d : Dict Val) (k : Str) : Option Bool :=
  match Dict.get? d k with
  | none => some false
  | some v => if isText v then some true else none

/-- `bool(v)`.  Instances of the classes of the source define neither `__bool__` nor
`__len__`; minidom nodes are true (`Node.__bool__`). -/
def truthy (h : Store) : Val → Option Bool
  | .none => some false
  | .bool b => some b
  | .int i => some (decide (i ≠ 0))
  | .str s => some (!s.isEmpty)
  | .obj a =>
    match h[a]? with
    | some (.list vs) => some (!vs.isEmpty)
    | some (.dict d) => dictTrue d
    | some (.inst _ _) => some true
    | none => none
  | .record _ => some true
  | .node _ => some true
  | .exc _ => some true
  | .matched => some true
  | _ => none

/-- `a == b` for the types that are compared. -/
def equal : Val → Val → Option Bool
  | .none, .none => some true
  | .none, .str _ => some false
  | .str _, .none => some false
  | .str s, .str t => some (s == t)
  | .int i, .int j => some (i == j)
  | .enum c m, .enum c' m' => some (c == c' && m == m')
  | _, _ => none

/-- The elements of an iterable, at the start of the iteration.  (No list is changed while
it is being iterated over.) -/
def iterate (h : Store) : Val → Option (List Val)
  | .str s => some (s.map fun c => .str [c])
  | .seq vs => some vs
  | .obj a =>
    match h[a]? with
    | some (.list vs) => some vs
    | _ => none
  | _ => none

/-- All of them strings. -/
def strings : List Val → Option (List Str)
  | [] => some []
  | .str s :: vs =>
    match strings vs with
    | some ss => some (s :: ss)
    | none => none
  | _ :: _ => none

/-- `str(v)` in an f-string. -/
def format : Val → Option Str
  | .str s => some s
  | .int (.ofNat n) => some (Nat.repr n).toList
  | _ => none

/-- The text of an f-string, given its parts. -/
def formats : List Val → Option Str
  | [] => some []
  | v :: vs =>
    match format v, formats vs with
    | some s, some t => some (s ++ t)
    | _, _ => none

/-- The elements of the list `vs` in `it in [...]`, compared by `==`. -/
def member (v : Val) : List Val → Option Bool
  | [] => some false
  | w :: ws =>
    match equal v w with
    | some true => some true
    | some false => member v ws
    | none => none

/-- A comparison. -/
def compare (h : Store) (op : Cmp) (a b : Val) : Option Bool :=
  match op with
  | .eq => equal a b
  | .ne => (equal a b).map (!·)
  | .isNot =>
    match a, b with
    | .str _, .none => some true
    | .none, .none => some false
    | _, _ => none
  | .mem => isIn
  | .notMem => isIn.map (!·)
  | .lt => ints fun i j => decide (i < j)
  | .le => ints fun i j => decide (i ≤ j)
  | .gt => ints fun i j => decide (i > j)
  | .ge => ints fun i j => decide (i ≥ j)
where
  ints (f : Int → Int → Bool) : Option Bool :=
    match a, b with
    | .int i, .int j => some (f i j)
    | _, _ => none
  isIn : Option Bool :=
    match b with
    | .obj r =>
      match h[r]? with
      | some (.list vs) => member a vs
      | some (.dict d) =>
        match a with
        | .str k => dictHas d k
        | _ => none
      | _ => none
    | _ => none

/-- `v[k]`, where `v` is a string, a list or a dictionary with strings as values. -/
def item (v k : Val) (h : Store) : Res Val :=
  match v, k with
  | .str s, .int i =>
    match pyIndex s i with
    | some c => .ok (.str [c]) h
    | none => .exc (.exc .indexError) h
  | .obj a, .int i =>
    match h[a]? with
    | some (.list vs) =>
      match pyIndex vs i with
      | some w => .ok w h
      | none => .exc (.exc .indexError) h
    | _ => .stuck
  | .obj a, .str k =>
    match h[a]? with
    | some (.dict d) =>
      match Dict.get? d k with
      | some w => if isText w then .ok w h else .stuck
      | none => .exc (.exc .keyError) h
    | _ => .stuck
  | _, _ => .stuck

/-- A dictionary display. -/
def dictOf : List Str → List Val → Dict Val → Dict Val
  | k :: ks, v :: vs, d => dictOf ks vs (Dict.set d k v)
  | _, _, d => d

/-- A new object. -/
def new (o : Obj) (h : Store) : Res Val := .ok (.obj h.length) (h ++ [o])

/-! ## Library objects -/

/-- `node.nodeType` -/
def nodeType : Node → Int
  | .elem .. => 1
  | .text _ => 3
  | .cdata _ => 4
  | .pi .. => 7
  | .comment _ => 8

/-- `node.childNodes` -/
def childNodes : Node → List Node
  | .elem _ _ cs => cs
  | _ => []

/-- Attributes of library objects.  (`nodeValue` of an element is `None`.) -/
def libAttr (v : Val) (a : Ident) (h : Store) : Res Val :=
  match v with
  | .str _ => .ok (.bmethod v a) h
  | .table _ => .ok (.bmethod v a) h
  | .document _ => .ok (.bmethod v a) h
  | .nodeMap _ => .ok (.bmethod v a) h
  | .pattern _ => .ok (.bmethod v a) h
  | .module .re =>
    match a with
    | .MULTILINE => .ok (.int 8) h
    | .IGNORECASE => .ok (.int 2) h
    | a => .ok (.builtin a) h
  | .cls .Node =>
    match a with
    | .ELEMENT_NODE => .ok (.int 1) h
    | _ => .stuck
  | .cls c =>
    match look c classes with
    | none => .stuck
    | some k => if a ∈ k.members then .ok (.enum c a) h else .stuck
  | .record fs => Res.of ((look a fs).map .str) h
  | .nodeAttr k w =>
    match a with
    | .name => .ok (.str k) h
    | .value => .ok (.str w) h
    | _ => .stuck
  | .node n =>
    match a with
    | .tagName => match n with
      | .elem t _ _ => .ok (.str t) h
      | _ => .stuck
    | .attributes => match n with
      | .elem _ as _ => .ok (.nodeMap as) h
      | _ => .stuck
    | .childNodes => .ok (.seq ((childNodes n).map .node)) h
    | .firstChild => match childNodes n with
      | [] => .ok .none h
      | c :: _ => .ok (.node c) h
    | .nodeType => .ok (.int (nodeType n)) h
    | .nodeValue => match n with
      | .elem .. => .ok .none h
      | n => .ok (.str n.nodeValue) h
    | _ => .stuck
  | .exc (.expat code lineno offset) =>
    match a with
    | .code => .ok (.int code) h
    | .lineno => .ok (.int lineno) h
    | .offset => .ok (.int offset) h
    | _ => .stuck
  | _ => .stuck

/-- Methods of library objects. -/
def libMethod (v : Val) (m : Ident) (args : List Val) (h : Store) : Res Val :=
  match v, m, args with
  | .str s, .strip, [] => .ok (.str (strip s)) h
  | .str s, .split, [] => new (.list ((split s).map .str)) h
  | .str s, .split, [.str [c]] => new (.list ((splitOn c s).map .str)) h
  | .str s, .join, [w] =>
    match (iterate h w).bind strings with
    | some ss => .ok (.str (join s ss)) h
    | none => .stuck
  | .table t, .get, [.str k] => .ok ((tableGet t k).getD .none) h
  | .table t, .get, [.str k, w] => .ok ((tableGet t k).getD w) h
  | .document d, .getElementsByTagName, [.str t] =>
    if t = c!"math" then .ok (.seq ((mathElements d).map .node)) h else .stuck
  | .nodeMap as, .values, [] => .ok (.seq (as.map fun p => .nodeAttr p.1 p.2)) h
  | .pattern p, .sub, [.str repl, .str s] => Res.of ((p.sub? repl s).map .str) h
  | .obj a, .get, [.str k] =>
    match h[a]? with
    | some (.dict d) => .ok ((Dict.get? d k).getD .none) h
    | _ => .stuck
  | .obj a, .get, [.str k, w] =>
    match h[a]? with
    | some (.dict d) => .ok ((Dict.get? d k).getD w) h
    | _ => .stuck
  | .obj a, .append, [w] =>
    match h[a]? with
    | some (.list vs) => .ok .none (h.set a (.list (vs ++ [w])))
    | _ => .stuck
  | _, _, _ => .stuck

/-- A pattern given as such or as a string. -/
def asPattern (env : Env) (ic multi : Bool) : Val → Option Pattern
  | .pattern p => if ic || multi then none else some p
  | .str s => compilePattern env.isWord ic multi s
  | _ => none

/-- `None` or a match object. -/
def found (b : Bool) : Val := if b then .matched else .none

/-- Whether one of the values is true. -/
def anyOf (h : Store) : List Val → Option Bool
  | [] => some false
  | v :: vs =>
    match truthy h v with
    | some true => some true
    | some false => anyOf h vs
    | none => none

/-- `len(v)` -/
def lengthOf (h : Store) : Val → Option Nat
  | .str s => some s.length
  | v => (iterate h v).map List.length

/-- Built-in functions and functions of `re`. -/
def builtin (env : Env) (f : Ident) (args : List Val) (h : Store) : Res Val :=
  match f, args with
  | .len, [v] => Res.of ((lengthOf h v).map fun n => .int n) h
  | .list, [v] =>
    match iterate h v with
    | some vs => new (.list vs) h
    | none => .stuck
  | .any, [v] => Res.of (((iterate h v).bind (anyOf h)).map .bool) h
  | .bool, [v] => Res.of ((truthy h v).map .bool) h
  | .isinstance, [.exc e, .cls .ExpatError] =>
    match e with
    | .expat .. => .ok (.bool true) h
    | _ => .ok (.bool false) h
  | .range, [.int n] => .ok (.seq ((List.range n.toNat).map fun (i : Nat) => .int i)) h
  | .parseString, [.str s] =>
    match env.parse s with
    | .ok d => .ok (.document d) h
    | .error e => .exc (.exc e.toExc) h
  | .compile, [p] => Res.of ((asPattern env false false p).map .pattern) h
  | .compile, [p, .int 8] => Res.of ((asPattern env false true p).map .pattern) h
  | .search, [p, .str s] =>
    Res.of (((asPattern env false false p).bind (·.search? s)).map found) h
  | .match, [p, .str s] =>
    Res.of ((asPattern env false false p).map fun p => found (p.matches s)) h
  | .match, [p, .str s, .int 2] =>
    Res.of ((asPattern env true false p).map fun p => found (p.matches s)) h
  | .sub, [p, .str repl, .str s] =>
    Res.of (((asPattern env false false p).bind (·.sub? repl s)).map .str) h
  | .escape, [.str s] => .ok (.str (reEscape s)) h
  | _, _ => .stuck

/-- `v.a`: properties of the class first, then attributes of the instance, then methods. -/
def getAttr (C : Ctx) (v : Val) (a : Ident) (h : Store) : Res Val :=
  match v with
  | .obj r =>
    match h[r]? with
    | none => .stuck
    | some (.list _) => .ok (.bmethod v a) h
    | some (.dict _) => .ok (.bmethod v a) h
    | some (.inst c fs) =>
      match findMethod c a with
      | some (_, .prop, f) => C.call f [v] [] h
      | some (c', .plain, _) =>
        match look a fs with
        | some w => .ok w h
        | none => .ok (.method v c' a) h
      | some (c', .static, _) => .ok (.static c' a) h
      | none => Res.of (look a fs) h
  | .cls c =>
    match findMethod c a with
    | some (c', .static, _) => .ok (.static c' a) h
    | some _ => .stuck
    | none => libAttr v a h
  | v => libAttr v a h

/-- `f(args, …)` -/
def apply (C : Ctx) (f : Val) (args : List Val) (kw : List (Ident × Val)) (h : Store) : Res Val :=
  match f with
  | .cls c =>
    (new (.inst c []) h).bind fun self h =>
      match findMethod c .__init__ with
      | some (_, _, f) => (C.call f (self :: args) kw h).bind fun _ h => .ok self h
      | none => match args, kw with
        | [], [] => .ok self h
        | _, _ => .stuck
  | .func f => match look f functions with
    | some f => C.call f args kw h
    | none => .stuck
  | .method self c m =>
    if c = .Exception ∧ m = .__init__ then
      -- `Exception.__init__(self, message)`
      match self, args, kw with
      | .obj r, [v], [] =>
        match h[r]? with
        | some (.inst c fs) => .ok .none (h.set r (.inst c (setField .args v fs)))
        | _ => .stuck
      | _, _, _ => .stuck
    else match methodIn c m with
      | some f => C.call f (self :: args) kw h
      | none => .stuck
  | .static c m => match methodIn c m with
    | some f => C.call f args kw h
    | none => .stuck
  | .bmethod v m => match kw with
    | [] => libMethod v m args h
    | _ :: _ => .stuck
  | .builtin f => match kw with
    | [] => builtin C.env f args h
    | _ :: _ => .stuck
  | _ => .stuck

/-! ## Expressions -/

/-- A comprehension with the variable `x` over the values `vs`. -/
def compRes (conds : Locals → Store → Res Bool) (elt : Locals → Store → Res Val) (x : Ident)
    (l : Locals) : List Val → Store → Res (List Val)
  | [], h => .ok [] h
  | v :: vs, h =>
    (conds ((x, v) :: l) h).bind fun b h =>
      if b then
        (elt ((x, v) :: l) h).bind fun w h =>
          (compRes conds elt x l vs h).bind fun ws h => .ok (w :: ws) h
      else compRes conds elt x l vs h

/-- `any` over a generator. -/
def anyRes (elt : Locals → Store → Res Val) (x : Ident) (l : Locals) : List Val → Store → Res Val
  | [], h => .ok (.bool false) h
  | v :: vs, h =>
    (elt ((x, v) :: l) h).bind fun w h =>
      match truthy h w with
      | some true => .ok (.bool true) h
      | some false => anyRes elt x l vs h
      | none => .stuck

mutual
/-- Evaluate an expression. -/
def eval (C : Ctx) : Expr → Locals → Store → Res Val
  | .none, _, h => .ok .none h
  | .bool b, _, h => .ok (.bool b) h
  | .int i, _, h => .ok (.int i) h
  | .str s, _, h => .ok (.str s) h
  | .name x, l, h =>
    match look x l with
    | some v => .ok v h
    | none => Res.of (global x) h
  | .attr e a, l, h => (eval C e l h).bind fun v h => getAttr C v a h
  | .super base a, l, h =>
    match look .self l with
    | none => .stuck
    | some self =>
      if base = .Exception then .ok (.method self base a) h
      else match findMethod base a with
        | some (c, .plain, _) => .ok (.method self c a) h
        | _ => .stuck
  | .item e k, l, h => (eval C e l h).bind fun v h => (eval C k l h).bind fun k h => item v k h
  | .slice e lo hi, l, h =>
    (eval C e l h).bind fun v h => (eval C lo l h).bind fun i h => (eval C hi l h).bind fun j h =>
      match v, i, j with
      | .str s, .int (.ofNat i), .int (.ofNat j) => .ok (.str ((s.take j).drop i)) h
      | _, _, _ => .stuck
  | .call f args ks vs, l, h =>
    (eval C f l h).bind fun f h => (evals C args l h).bind fun args h =>
      (evals C vs l h).bind fun vs h => apply C f args (ks.zip vs) h
  | .fstr parts, l, h =>
    (evals C parts l h).bind fun vs h => Res.of ((formats vs).map .str) h
  | .list es, l, h => (evals C es l h).bind fun vs h => new (.list vs) h
  | .dict ks es, l, h => (evals C es l h).bind fun vs h => new (.dict (dictOf ks vs [])) h
  | .comp elt x it conds, l, h =>
    (eval C it l h).bind fun v h =>
      match iterate h v with
      | none => .stuck
      | some vs =>
        (compRes (holds C conds) (eval C elt) x l vs h).bind fun ws h => new (.list ws) h
  | .anyGen elt x it, l, h =>
    (eval C it l h).bind fun v h =>
      match iterate h v with
      | none => .stuck
      | some vs => anyRes (eval C elt) x l vs h
  | .not e, l, h => (eval C e l h).bind fun v h => Res.of ((truthy h v).map fun b => .bool !b) h
  | .and a b, l, h =>
    (eval C a l h).bind fun v h =>
      match truthy h v with
      | some true => eval C b l h
      | some false => .ok v h
      | none => .stuck
  | .or a b, l, h =>
    (eval C a l h).bind fun v h =>
      match truthy h v with
      | some true => .ok v h
      | some false => eval C b l h
      | none => .stuck
  | .ite c a b, l, h =>
    (eval C c l h).bind fun v h =>
      match truthy h v with
      | some true => eval C a l h
      | some false => eval C b l h
      | none => .stuck
  | .cmp op a b, l, h =>
    (eval C a l h).bind fun v h => (eval C b l h).bind fun w h =>
      Res.of ((compare h op v w).map .bool) h
  | .add a b, l, h =>
    (eval C a l h).bind fun v h => (eval C b l h).bind fun w h =>
      match v, w with
      | .str s, .str t => .ok (.str (s ++ t)) h
      | .int i, .int j => .ok (.int (i + j)) h
      | _, _ => .stuck
  | .sub a b, l, h =>
    (eval C a l h).bind fun v h => (eval C b l h).bind fun w h =>
      match v, w with
      | .int i, .int j => .ok (.int (i - j)) h
      | _, _ => .stuck
/-- Evaluate several, from left to right. -/
def evals (C : Ctx) : List Expr → Locals → Store → Res (List Val)
  | [], _, h => .ok [] h
  | e :: es, l, h =>
    (eval C e l h).bind fun v h => (evals C es l h).bind fun vs h => .ok (v :: vs) h
/-- The conditions of a comprehension. -/
def holds (C : Ctx) : List Expr → Locals → Store → Res Bool
  | [], _, h => .ok true h
  | e :: es, l, h =>
    (eval C e l h).bind fun v h =>
      match truthy h v with
      | some true => holds C es l h
      | some false => .ok false h
      | none => .stuck
end

/-! ## Statements -/

/-- A `while` loop. -/
def whileOut (c : Locals → Store → Res Val) (body : Locals → Store → Out) :
    Nat → Locals → Store → Out
  | 0, _, _ => .stuck
  | n + 1, l, h =>
    (c l h).out l fun v h =>
      match truthy h v with
      | some true =>
        match body l h with
        | .next l h => whileOut c body n l h
        | .cont l h => whileOut c body n l h
        | o => o
      | some false => .next l h
      | none => .stuck

/-- A `for` loop over the values `vs`, the first of which has the number `i`; `bind` sets the
variables of the loop. -/
def forOut (bind : Nat → Val → Locals → Locals) (body : Locals → Store → Out) :
    Nat → List Val → Locals → Store → Out
  | _, [], l, h => .next l h
  | i, v :: vs, l, h =>
    match body (bind i v l) h with
    | .next l h => forOut bind body (i + 1) vs l h
    | .cont l h => forOut bind body (i + 1) vs l h
    | o => o

/-- Forget a variable. -/
def unset (x : Ident) (l : Locals) : Locals := l.filter fun p => p.1 ≠ x

mutual
/-- Execute a statement. -/
def exec (C : Ctx) : Stmt → Locals → Store → Out
  | .assign x e, l, h => (eval C e l h).out l fun v h => .next ((x, v) :: l) h
  | .setAttr o a e, l, h =>
    (eval C e l h).out l fun v h => (eval C o l h).out l fun o h =>
      match o with
      | .obj r =>
        match h[r]? with
        | some (.inst c fs) => .next l (h.set r (.inst c (setField a v fs)))
        | _ => .stuck
      | _ => .stuck
  | .setItem o k e, l, h =>
    (eval C e l h).out l fun v h => (eval C o l h).out l fun o h => (eval C k l h).out l fun k h =>
      match o, k with
      | .obj r, .str k =>
        match h[r]? with
        | some (.dict d) => .next l (h.set r (.dict (Dict.set d k v)))
        | _ => .stuck
      | _, _ => .stuck
  | .expr e, l, h => (eval C e l h).out l fun _ h => .next l h
  | .ret e, l, h => (eval C e l h).out l fun v h => .ret v h
  | .raise e, l, h => (eval C e l h).out l fun v h => .exc v l h
  | .ite c a b, l, h =>
    (eval C c l h).out l fun v h =>
      match truthy h v with
      | some true => execs C a l h
      | some false => execs C b l h
      | none => .stuck
  | .while c body, l, h =>
    whileOut (eval C c) (execs C body) C.turns l h
  | .for x it body, l, h =>
    (eval C it l h).out l fun v h =>
      match iterate h v with
      | none => .stuck
      | some vs => forOut (fun _ v l => (x, v) :: l) (execs C body) 0 vs l h
  | .forEnum i x it body, l, h =>
    (eval C it l h).out l fun v h =>
      match iterate h v with
      | none => .stuck
      | some vs => forOut (fun n v l => (x, v) :: (i, .int n) :: l) (execs C body) 0 vs l h
  | .tryExcept body x handler, l, h =>
    match execs C body l h with
    | .exc e l h =>
      match execs C handler ((x, e) :: l) h with
      | .next l h => .next (unset x l) h
      | .cont l h => .cont (unset x l) h
      | .exc e l h => .exc e (unset x l) h
      | o => o
    | o => o
  | .continue, l, h => .cont l h
  | .pass, l, h => .next l h
/-- Execute statements in order. -/
def execs (C : Ctx) : List Stmt → Locals → Store → Out
  | [], l, h => .next l h
  | s :: ss, l, h => (exec C s l h).andThen fun l h => execs C ss l h
end

/-- The parameters of a call: positional arguments, then keywords, then defaults. -/
def bindParams : List (Ident × Option Str) → List Val → List (Ident × Val) → Option Locals
  | [], [], _ => some []
  | [], _ :: _, _ => none
  | (x, _) :: ps, v :: vs, kw => (bindParams ps vs kw).map ((x, v) :: ·)
  | (x, d) :: ps, [], kw =>
    match look x kw, d with
    | some v, _ => (bindParams ps [] kw).map ((x, v) :: ·)
    | none, some s => (bindParams ps [] kw).map ((x, .str s) :: ·)
    | none, none => none

/-- Call a function, with fuel. -/
def call (env : Env) : Nat → Func → List Val → List (Ident × Val) → Store → Res Val
  | 0, _, _, _, _ => .stuck
  | n + 1, f, args, kw, h =>
    match bindParams f.params args kw with
    | none => .stuck
    | some l => (execs ⟨env, call env n, n⟩ f.body l h).result

/-- `MathMLToLaTeX.convert(mathml)` in a fresh interpreter. -/
def runConvert (env : Env) (fuel : Nat) (mathml : Str) : Res Val :=
  call env fuel MathMLToLaTeX_convert [.str mathml] [] []

/-! The equations of the interpreter. -/

example := @eval.eq_1
example := @evals.eq_1
example := @holds.eq_1
example := @exec.eq_1
example := @execs.eq_1
example := @strings.eq_1
example := @formats.eq_1
example := @member.eq_1
example := @anyOf.eq_1
example := @dictOf.eq_1
example := @compRes.eq_1
example := @anyRes.eq_1
example := @forOut.eq_1
example := @whileOut.eq_1

end Verif.Src
