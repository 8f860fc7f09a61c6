import Verif.Model.Api

/-!
# Calls

The same code once more, function by function, this time with every call: of a function of the
code base, of an `__init__`, of a property and, before Python 3.12, of a list comprehension.  What a
call does besides running its body is left open (`Reading`).  In the reading of this file it takes
one activation, and a call that finds none left raises `RecursionError`; in `Model/Faults` any call
can fail for reasons of its own.

Calls into the standard library (`re`, `parseString`) are taken to need `Machine.lib`
activations, whatever they are called with; `getElementsByTagName` is modelled, because it is
recursive.  Properties of `minidom` nodes are counted as calls where the code base uses them.
Calls of functions written in C take no activation.
-/

namespace Verif.Stack

/-- What depends on the Python version. -/
structure Machine where
  /-- a list comprehension is a function call of its own (Python 3.11 and before) -/
  comp : Bool
  /-- activations that a call into the standard library needs -/
  lib : Nat

/-- Faults that have nothing to do with the input: out of memory, or an exception that a signal
handler or another thread makes a call raise.  `exception` says whether it is an `Exception`
(`MemoryError`, `TimeoutError`) or not (`KeyboardInterrupt`). -/
structure Fault where
  id : Nat
  exception : Bool
deriving DecidableEq, Repr

/-- Exceptions, `RecursionError` and faults included. -/
inductive Stop where
  | raised (e : Exc)
  | recursion
  | fault (f : Fault)
deriving DecidableEq, Repr

/-- What the code is written with: calls, exceptions, dictionaries, the standard library. -/
class Reading (F : Type → Type) extends Monad F where
  /-- `raise` -/
  throwL {α : Type} : Stop → F α
  /-- `try: x except Exception as e: handler(e)` -/
  tryL {α : Type} : F α → (Stop → F α) → F α
  /-- A call of a Python function with this body. -/
  call {α : Type} : F α → F α
  /-- An operation on the attribute dictionaries. -/
  heap {α : Type} : (Heap → α × Heap) → F α
  /-- A call into the standard library. -/
  lib : Machine → F Unit

export Reading (throwL tryL call heap lib)

variable {F : Type → Type} [Reading F]

/-- A call of a Python function that calls nothing. -/
def leaf {α : Type} (a : α) : F α := call (pure a)

/-- A list comprehension with this body. -/
def comp {α : Type} (m : Machine) (x : F α) : F α := if m.comp then call x else x

/-- `math_element.attributes`, a property. -/
def attributes (r : Nat) : F Attrs := call (heap fun h => (h.cells r, h))

/-! ## services -/

/-- services/normalizer.py 2–3 `normalize`. -/
def normalize (s : Str) : F Str := leaf (Verif.normalize s)

/-- services/wrapper.py 12–14: `ParenthesisWrapper.__init__` and its copies, which call
`Wrapper.__init__`. -/
def wrapperInit : F Unit := call (leaf ())

/-- services/wrapper.py 15–16 `ParenthesisWrapper.wrap`, which calls `Wrapper.wrap`. -/
def parenWrap (val : Str) : F Str := call (leaf (Verif.parenWrap val))

/-- services/wrapper.py 18–21 `wrap_if_more_than_one_char`. -/
def parenWrapIfMoreThanOneChar (val : Str) : F Str :=
  call (if val.length ≤ 1 then pure val else parenWrap val)

/-- services/wrapper.py 27–28 `BracketWrapper.wrap`. -/
def bracketWrap (val : Str) : F Str := call (leaf (Verif.bracketWrap val))

/-- services/wrapper.py 30–37 `GenericWrapper(op, close).wrap(val)`. -/
def genericWrap (op close val : Str) : F Str := do
  wrapperInit
  call (leaf (Verif.genericWrap op close val))

/-- services/wrapper.py 43–48: the loop of `join`. -/
def joinManyFrom (separators : List Str) (index : Nat) : List Str → F Str
  | [] => pure []
  | current :: rest => do
    let separator ← if rest = [] then pure [] else leaf (getSeparator separators index)
    let acc ← joinManyFrom separators (index + 1) rest
    return current ++ separator ++ acc

/-- services/wrapper.py 39–48 `JoinWithManySeparators(separators).join(arr)`. -/
def joinMany (separators arr : List Str) : F Str := do
  leaf ()
  call (joinManyFrom separators 0 arr)

/-! ## Token elements -/

/-- syntax.py 25–41 `HashUTF8ToLtXConverter.convert`. -/
def hashConvert (m : Machine) (char : Str) : F Str := call do
  lib m
  if (match char with | [] => false | c :: _ => alnumIgnoreCase c) then return char
  else
    match Dict.get? vowelsWithAccents char with
    | some accentChar =>
      match ← leaf (convertAccentCharToLtx accentChar) with
      | some ltx => return ltx
      | none => return char
    | none =>
      match ← leaf (convertSpecialCharToLtx char) with
      | some ltx => return ltx
      | none => return char

/-- usecases.py 116–123 `Character._apply`. -/
def characterFind (m : Machine) (value : Str) : F Str := call do
  let byChar ← leaf ((Dict.get? allMathSymbolsByChar value).getD [])
  if byChar ≠ [] then return byChar else
  let byGlyph ← leaf ((Dict.get? allMathSymbolsByGlyph value).getD [])
  if byGlyph ≠ [] then return byGlyph else
  let byNumber ← leaf ((Dict.get? mathNumberByGlyph value).getD [])
  if byNumber ≠ [] then return byNumber else hashConvert m value

/-- usecases.py 109–123 `Character.apply`. -/
def characterApply (m : Machine) (value : Str) : F Str := call do
  leaf ()
  characterFind m value

/-- usecases.py 58–72 `MI.convert`; `attrs` is the property of the element. -/
def miConvert (m : Machine) (value : Str) (attrs : F Attrs) : F Str := call do
  let value ← leaf value
  let normalizedValue ← normalize value
  if normalizedValue = c!" " then characterApply m normalizedValue
  else
    let trimmedValue := strip normalizedValue
    let convertedChar ← characterApply m trimmedValue
    let parsedChar ← hashConvert m convertedChar
    if parsedChar ≠ convertedChar then return parsedChar
    else
      let a ← attrs
      let variant ← leaf (getMathVariant a)
      leaf (wrapInMathVariant convertedChar variant)

/-- usecases.py 151–169 `Operator._operate`. -/
def operateFind (m : Machine) (value : Str) : F Str := call do
  match ← leaf (Dict.get? allMathOperatorsByChar value) with
  | some (c :: cs) => return c :: cs
  | _ =>
    match ← leaf (Dict.get? allMathOperatorsByGlyph value) with
    | some (c :: cs) => return c :: cs
    | _ =>
      match ← leaf (Dict.get? mathNumberByGlyph value) with
      | some (c :: cs) => return c :: cs
      | _ => hashConvert m value

/-- usecases.py 147–149 `Operator.operate`. -/
def operate (m : Machine) (value : Str) : F Str := call do
  leaf ()
  operateFind m value

/-- usecases.py 140–144 `MO.convert`. -/
def moConvert (m : Machine) (value : Str) : F Str := call do
  let value ← leaf value
  let normalizedValue ← normalize value
  operate m (strip normalizedValue)

/-- usecases.py 189–193 `MN.convert`. -/
def mnConvert (value : Str) : F Str := call do
  let value ← leaf value
  let normalizedValue ← normalize value
  let normalizedValue := strip normalizedValue
  let convertedValue := (Dict.get? mathNumberByGlyph normalizedValue).getD []
  return if convertedValue ≠ [] then convertedValue else normalizedValue

/-- usecases.py 617–643 `TextCommand(variant).apply(value)`; `_commands` is a property. -/
def textCommandApply (mathVariant value : Str) : F Str := do
  leaf ()
  call do
    leaf ()
    return Verif.textCommandApply mathVariant value

/-- usecases.py 660–667: `Char(…)` for each character. -/
def chars (m : Machine) : Str → F Unit
  | [] => pure ()
  | _ :: s => do
    lib m
    leaf ()
    chars m s

/-- usecases.py 679–686: the text of each merged piece. -/
def textPieces (m : Machine) (a : Attrs) : List (Str × Bool) → F (List Str)
  | [] => pure []
  | p :: ps => do
    let s ← if p.2 then textCommandApply (Attrs.getD a c!"mathvariant" []) p.1
      else do
        leaf ()
        leaf ()
        miConvert m p.1 (leaf [])
    let ss ← textPieces m a ps
    return s :: ss

/-- usecases.py 656–687 `MText.convert`. -/
def mtextConvert (m : Machine) (value : Str) (attrs : F Attrs) : F Str := call do
  let a ← attrs
  let value ← leaf value
  comp m (chars m value)
  let pieces ← comp m (textPieces m a (value.foldl mergeStep []).reverse)
  return pieces.flatten

/-! ## Layout elements -/

/-- A child element together with `to_latex_converter(child).convert()`. -/
abbrev Kid (F : Type → Type) := Elem × F Str

/-- The body of `[self._adapter.to_latex_converter(child).convert() for child in children]`. -/
def runKids : List (Kid F) → F (List Str)
  | [] => pure []
  | k :: ks => do
    let s ← k.2
    let ss ← runKids ks
    return s :: ss

/-- The comprehension over the property `children`. -/
def allKids (m : Machine) (kids : List (Kid F)) : F (List Str) := do
  leaf ()
  comp m (runKids kids)

/-- usecases.py 34–41 `Math.convert`. -/
def mathConvert (m : Machine) (kids : List (Kid F)) : F Str := call do
  let ss ← allKids m kids
  normalize (join c!" " ss)

/-- usecases.py 236–242 `GenericSpacingWrapper.convert`. -/
def spacingConvert (m : Machine) (kids : List (Kid F)) : F Str := call do
  let ss ← allKids m kids
  return join c!" " ss

/-- usecases.py 250–258 `MSqrt.convert`. -/
def msqrtConvert (m : Machine) (kids : List (Kid F)) : F Str := call do
  let ss ← allKids m kids
  return c!"\\sqrt{" ++ join c!" " ss ++ c!"}"

/-- usecases.py 216–223, 432–439, 598–605 `_handle_base_child`. -/
def handleBaseChild (base : Kid F) : F Str := call do
  leaf ()
  let baseStr ← base.2
  if base.1.children.length ≤ 1 then return baseStr
  else parenWrapIfMoreThanOneChar baseStr

/-- usecases.py 225–228 etc. `_handle_exponent_child` and its copies. -/
def handleScriptChild (script : Kid F) : F Str := call do
  let s ← script.2
  bracketWrap s

/-- protocols.py 95–106: the exception is constructed and raised. -/
def invalidChildren {α : Type} (name : Str) (expected n : Nat) (comparison : Str) : F α := do
  leaf ()
  throwL (.raised (.invalidChildren name expected n comparison))

/-- usecases.py 203–214 `MSup.convert`. -/
def msupConvert (name : Str) (kids : List (Kid F)) : F Str := call do
  leaf ()
  match kids with
  | [base, exponent] => do
    let b ← handleBaseChild base
    let e ← handleScriptChild exponent
    return b ++ c!"^" ++ e
  | _ => invalidChildren name 2 kids.length c!"exactly"

/-- usecases.py 419–430 `MSub.convert`. -/
def msubConvert (name : Str) (kids : List (Kid F)) : F Str := call do
  leaf ()
  match kids with
  | [base, subscript] => do
    let b ← handleBaseChild base
    let e ← handleScriptChild subscript
    return b ++ c!"_" ++ e
  | _ => invalidChildren name 2 kids.length c!"exactly"

/-- usecases.py 584–596 `MSubsup.convert`. -/
def msubsupConvert (name : Str) (kids : List (Kid F)) : F Str := call do
  leaf ()
  match kids with
  | [base, subscript, superscript] => do
    let b ← handleBaseChild base
    let s ← handleScriptChild subscript
    let e ← handleScriptChild superscript
    return b ++ c!"_" ++ s ++ c!"^" ++ e
  | _ => invalidChildren name 3 kids.length c!"exactly"

/-- usecases.py 453–470 `MFrac.convert`. -/
def mfracConvert (name : Str) (aref : Nat) (kids : List (Kid F)) : F Str := call do
  leaf ()
  match kids with
  | [n, d] => do
    let num ← n.2
    let den ← d.2
    let a ← call (attributes aref)
    if Attrs.getD a c!"bevelled" [] ≠ [] then do
      let num ← call (parenWrapIfMoreThanOneChar num)
      let den ← call (parenWrapIfMoreThanOneChar den)
      return num ++ c!"/" ++ den
    else return c!"\\frac{" ++ num ++ c!"}{" ++ den ++ c!"}"
  | _ => invalidChildren name 2 kids.length c!"exactly"

/-- usecases.py 481–492 `MRoot.convert`. -/
def mrootConvert (name : Str) (kids : List (Kid F)) : F Str := call do
  leaf ()
  match kids with
  | [c, i] => do
    let content ← c.2
    let rootIndex ← i.2
    return c!"\\sqrt[" ++ rootIndex ++ c!"]{" ++ content ++ c!"}"
  | _ => invalidChildren name 2 kids.length c!"exactly"

/-- usecases.py 500–515 `MAction.convert`. -/
def mactionConvert (m : Machine) (aref : Nat) (kids : List (Kid F)) : F Str := call do
  leaf ()
  let a ← call (attributes aref)
  let actionType := Attrs.getD a c!"actiontype" []
  if actionType = c!"toggle" ∨ actionType = [] then do
    let ss ← comp m (runKids kids)
    return join c!" \\Longrightarrow " ss
  else
    match kids with
    | [] => throwL (.raised .indexError)
    | k :: _ => k.2

/-- usecases.py 524–558 `MEnclose.convert`. -/
def mencloseConvert (m : Machine) (notation_ : Str) (kids : List (Kid F)) : F Str := call do
  let ss ← allKids m kids
  return encloseLatex notation_ (join c!" " ss)

/-- usecases.py 566–574 `MError.convert`. -/
def merrorConvert (m : Machine) (kids : List (Kid F)) : F Str := call do
  let ss ← allKids m kids
  return c!"\\color{red}{" ++ join c!" " ss ++ c!"}"

/-- usecases.py 695–705 `UnderOverSetter(ty).apply`; `_default_command` is a property. -/
def underOverApply (under : Bool) (content accent : Str) : F Str := do
  leaf ()
  call (if accent = c!"\\hat" ∨ accent = c!"\\bar" ∨ accent = c!"\\underbrace" ∨
      accent = c!"\\overbrace" then
    return accent ++ c!"{" ++ content ++ c!"}"
  else do
    let command ← leaf (if under then c!"\\underset" else c!"\\overset")
    return command ++ c!"{" ++ accent ++ c!"}{" ++ content ++ c!"}")

/-- usecases.py 717–736 `GenericUnderOver.convert`. -/
def underOverConvert (m : Machine) (name : Str) (kids : List (Kid F)) : F Str := call do
  leaf ()
  match kids with
  | [c, a] => do
    let content ← c.2
    let accent ← a.2
    call do
      leaf ()
      lib m
      underOverApply ((Re.lit c!"under").search name) content accent
  | _ => invalidChildren name 2 kids.length c!"exactly"

/-- usecases.py 744–756 `MUnderover.convert`. -/
def munderoverConvert (name : Str) (kids : List (Kid F)) : F Str := call do
  leaf ()
  match kids with
  | [b, u, o] => do
    let base ← b.2
    let underContent ← u.2
    let overContent ← o.2
    return base ++ c!"_{" ++ underContent ++ c!"}^{" ++ overContent ++ c!"}"
  | _ => invalidChildren name 3 kids.length c!"exactly"

/-- usecases.py 819–820 `_is_prescripts`, which reads the property `name`. -/
def isPrescripts (k : Kid F) : F Bool := call (leaf (k.1.name == c!"mprescripts"))

/-- usecases.py 793–796, 809–812: a pair of scripts. -/
def scriptPair (prefix_ : Str) (sub sup : Kid F) : F Str := do
  let subLatex ← sub.2
  let supLatex ← sup.2
  return prefix_ ++ c!"{" ++ subLatex ++ c!"}^{" ++ supLatex ++ c!"}"

/-- usecases.py 781–796 `_prescript_latex`. -/
def prescriptLatex (kids : List (Kid F)) : F Str := call do
  leaf ()
  match kids with
  | _ :: c1 :: c2 :: c3 :: rest =>
    if ← isPrescripts c1 then scriptPair c!"\\_" c2 c3
    else
      match rest with
      | c4 :: c5 :: _ => if ← isPrescripts c3 then scriptPair c!"\\_" c4 c5 else return []
      | _ => return []
  | _ => return []

/-- usecases.py 798–812 `_postscript_latex`. -/
def postscriptLatex (kids : List (Kid F)) : F Str := call do
  leaf ()
  match kids with
  | _ :: c1 :: c2 :: _ => if ← isPrescripts c1 then return [] else scriptPair c!"_" c1 c2
  | _ => return []

/-- usecases.py 814–817 `_wrap_in_parenthesis_if_there_is_space`. -/
def wrapInParenthesisIfThereIsSpace (m : Machine) (val : Str) : F Str := call do
  lib m
  if (Re.plus isSpace).search val then parenWrap val else return val

/-- usecases.py 765–779 `MMultiscripts.convert`.  (The parentheses around the base are made
between the two pairs of scripts.) -/
def mmultiscriptsConvert (m : Machine) (name : Str) (kids : List (Kid F)) : F Str := call do
  leaf ()
  match kids with
  | b :: _ :: _ :: _ => do
    let baseContent ← b.2
    let pre ← prescriptLatex kids
    let base ← wrapInParenthesisIfThereIsSpace m baseContent
    let post ← postscriptLatex kids
    return pre ++ base ++ post
  | _ => invalidChildren name 3 kids.length c!"at least"

/-! ## Fences and tables -/

/-- usecases.py 291–301 `Vector(op, close, separators).apply(latex_contents)`. -/
def vectorApply (op close : Str) (separators : List Str) (latexContents : List Str) : F Str := do
  leaf ()
  call do
    let content ← joinMany separators latexContents
    genericWrap (if op ≠ [] then op else c!"(") (if close ≠ [] then close else c!")") content

/-- usecases.py 268–288: `are_parentheses` and its copies, which call `_compare`. -/
def areSeparators (op close o c : Str) : F Bool := call (leaf (op == o && close == c))

/-- usecases.py 319–333 `Matrix._command`, a property. -/
def matrixCommand (op close : Str) : F Str := call do
  if ← areSeparators op close c!"(" c!")" then return c!"pmatrix"
  else if ← areSeparators op close c!"[" c!"]" then return c!"bmatrix"
  else if ← areSeparators op close c!"{" c!"}" then return c!"Bmatrix"
  else if ← areSeparators op close c!"|" c!"|" then return c!"vmatrix"
  else if ← areSeparators op close c!"||" c!"||" then return c!"Vmatrix"
  else if ← leaf (op != close) then return c!"matrix"
  else return c!"bmatrix"

/-- usecases.py 304–317 `Matrix(op, close).apply(latex_contents)`; `Matrix.__init__` calls
`Separators.__init__`, `Separators.wrap` makes a `GenericWrapper`. -/
def matrixApply (op close : Str) (latexContents : List Str) : F Str := do
  call (leaf ())
  call do
    let command ← matrixCommand op close
    let matrix := c!"\\begin{" ++ command ++ c!"}\n" ++ latexContents.flatten ++ c!"\n\\end{" ++
      command ++ c!"}"
    if command = c!"matrix" then call (genericWrap op close matrix) else return matrix

mutual
/-- usecases.py 358–359: the element or one of its descendants has the name. -/
def hasRelativeOfName1 (m : Machine) (name : Str) : Elem → F Bool
  | .mk n _ _ cs => do
    leaf ()
    if n == name then return true
    else do
      leaf ()
      call (comp m (hasRelatives m name cs))
/-- usecases.py 356–360: the list comprehension, whose body is evaluated for every child. -/
def hasRelatives (m : Machine) (name : Str) : List Elem → F Bool
  | [] => return false
  | e :: es => do
    let b ← hasRelativeOfName1 m name e
    let bs ← hasRelatives m name es
    return b || bs
end

/-- usecases.py 355–362 `_is_there_relative_of_name`. -/
def isThereRelativeOfName (m : Machine) (name : Str) (es : List Elem) : F Bool :=
  call (comp m (hasRelatives m name es))

/-- usecases.py 344–353 `MFenced.convert`. -/
def mfencedConvert (m : Machine) (op close : Str) (separators : List Str) (kids : List (Kid F)) :
    F Str := call do
  let latexChildren ← allKids m kids
  leaf ()
  if ← isThereRelativeOfName m c!"mtable" (kids.map (·.1)) then
    matrixApply op close latexChildren
  else vectorApply op close separators latexChildren

/-- `mathml_element.attributes[flag] = flag` -/
def setItem (r : Nat) (k v : Str) : F Unit := call (heap fun h => ((), h.setItem r k v))

mutual
/-- usecases.py 389–392: body of the loop. -/
def addFlag1 (name flag : Str) : Elem → F Unit
  | .mk n _ r cs => do
    leaf ()
    if n == name then setItem r flag flag
    leaf ()
    call (addFlags name flag cs)
/-- usecases.py 389–392: the loop. -/
def addFlags (name flag : Str) : List Elem → F Unit
  | [] => return ()
  | e :: es => do
    addFlag1 name flag e
    addFlags name flag es
end

/-- usecases.py 388–392 `_add_flag_recursive_if_name`. -/
def addFlagRecursiveIfName (name flag : Str) (es : List Elem) : F Unit :=
  call (addFlags name flag es)

/-- usecases.py 373–386 `MTable.convert`. -/
def mtableConvert (m : Machine) (aref : Nat) (kids : List (Kid F)) : F Str := call do
  let ss ← allKids m kids
  let tableContent := join c!" \\\\\n" ss
  let a ← call (attributes aref)
  if Attrs.getD a innerTable [] ≠ [] then
    leaf (c!"\\begin{matrix}" ++ tableContent ++ c!"\\end{matrix}")
  else return tableContent

/-- usecases.py 403–409 `MTr.convert`. -/
def mtrConvert (m : Machine) (kids : List (Kid F)) : F Str := call do
  let ss ← allKids m kids
  return join c!" & " ss

/-! ## Dispatch -/

/-- adapter.py 65–120: a `_make_…` method that calls a constructor with this body. -/
def make {α : Type} (x : F α) : F α := call (call x)

/-- adapter.py 35 and the `__init__` methods; see `Verif.construct`. -/
def construct (m : Machine) (kind : Kind) (name value : Str) (aref : Nat) (children : List Elem)
    (kids : List (Kid F)) : F (F Str) :=
  match kind with
  | .math => make (return mathConvert m kids)
  | .mi => call (return miConvert m value (attributes aref))
  | .mo => call (return moConvert m value)
  | .mn => call (return mnConvert value)
  | .msqrt => make (return msqrtConvert m kids)
  | .mfenced => make do
    let a ← attributes aref
    let op := Attrs.getD a c!"open" []
    let close := Attrs.getD a c!"close" []
    let separators := (Attrs.getD a c!"separators" []).map (fun c => [c])
    return mfencedConvert m op close separators kids
  | .mfrac => make do
    wrapperInit
    return mfracConvert name aref kids
  | .mroot => make (return mrootConvert name kids)
  | .maction => make (return mactionConvert m aref kids)
  | .menclose => make do
    let a ← attributes aref
    return mencloseConvert m (Attrs.getD a c!"notation" c!"longdiv") kids
  | .merror => make (return merrorConvert m kids)
  | .void => call (return call (return []))
  | .msup => make do
    wrapperInit
    wrapperInit
    return msupConvert name kids
  | .msub => make do
    wrapperInit
    wrapperInit
    return msubConvert name kids
  | .msubsup => make do
    wrapperInit
    wrapperInit
    return msubsupConvert name kids
  | .mmultiscripts => make do
    wrapperInit
    return mmultiscriptsConvert m name kids
  | .mtext => call (return mtextConvert m value (attributes aref))
  | .munderover => make (return munderoverConvert name kids)
  | .mtable => make do
    leaf ()
    addFlagRecursiveIfName c!"mtable" innerTable children
    return mtableConvert m aref kids
  | .mtr => make (return mtrConvert m kids)
  | .underOver => make (return underOverConvert m name kids)
  | .spacing => make (return spacingConvert m kids)

mutual
/-- adapter.py 29–35 `to_latex_converter`; the properties `name` are read and the table is made
by a method. -/
def toConv (m : Machine) : Elem → F (F Str)
  | .mk name value aref cs => call do
    leaf ()
    leaf ()
    construct m (classify name) name value aref cs (kidsOf m cs)
/-- The children, each with `to_latex_converter(child).convert()`. -/
def kidsOf (m : Machine) : List Elem → List (Kid F)
  | [] => []
  | c :: cs => (c, do let k ← toConv m c; k) :: kidsOf m cs
end

/-! ## From the text to the elements -/

/-- Allocation of an attribute dictionary. -/
def allocL (a : Attrs) : F Nat := heap (alloc a)

/-- xml_elements_to_mathml_element.py 46–52 `_convert_element_attributes`, with the property
`attributes` of the DOM element; `values`, `name` and `value` are functions of `minidom`. -/
def convertElementAttributes (attrs : List (Str × Str)) : F Nat := do
  leaf ()
  call do
    leaf ()
    allocL (convertAttributes attrs)

/-- xml_elements_to_mathml_element.py 54–55 `_has_element_child`, which runs a generator. -/
def hasElementChild (cs : List Node) : F Bool := call (leaf (Verif.hasElementChild cs))

mutual
/-- xml_elements_to_mathml_element.py 20–44 `_convert_element`; `firstChild` and `nodeValue` are
properties of `minidom`, `GenericMathMLElement` has an `__init__`. -/
def buildElem (m : Machine) : Node → F (Option Elem)
  | .elem tag attrs cs => call do
    let r ← convertElementAttributes attrs
    if ← hasElementChild cs then do
      comp m (pure ())
      let children ← call (comp m (buildElems m cs))
      leaf ()
      return some (.mk tag (strip []) r children)
    else do
      leaf ()
      leaf ()
      return some (.mk tag (strip (elementValue cs)) r [])
  | _ => return none
/-- xml_elements_to_mathml_element.py 18: the body of the comprehension in `convert`. -/
def buildElems (m : Machine) : List Node → F (List Elem)
  | [] => return []
  | n :: ns => do
    let e ← buildElem m n
    let es ← buildElems m ns
    return (match e with | some e => e :: es | none => es)
end

mutual
/-- minidom `_get_elements_by_tagName_helper` called on this node. -/
def searchNode : Node → F (List Node)
  | .elem _ _ cs => call (searchNodes cs)
  | _ => call (return [])
/-- The loop of the helper: a child that is a `math` element, then what is found below it. -/
def searchNodes : List Node → F (List Node)
  | [] => return []
  | n :: ns => do
    let below ← searchNode n
    let rest ← searchNodes ns
    return (match n with
      | .elem tag attrs cs => if tag = c!"math" then [.elem tag attrs cs] else []
      | _ => []) ++ below ++ rest
end

/-- `dom.getElementsByTagName("math")` -/
def getElementsByTagName (dom : Doc) : F (List Node) := call (call (searchNodes dom))

/-- error_handler.py 28–40 `_fix_missing_attribute_value` with `_get_word_at_str_pos` and
`_match_missing_value_for_attribute`. -/
def fixMissingAttributeValue (m : Machine) (code lineno offset : Nat) (xml : Str) : F Str := call do
  if code ≠ 4 then return xml
  else
    match pyIndex (splitOn '\n' xml) ((lineno : Int) - 1) with
    | none => throwL (.raised .indexError)
    | some goalLine =>
      match ← leaf (getWordAtStrPos goalLine offset) with
      | none => throwL (.raised .indexError)
      | some word => do
        call (lib m)
        lib m
        return (missingValuePattern word).sub (fun _ => []) xml

/-- error_handler.py 22–25: the loop. -/
def genericLoop (m : Machine) (env : Env) (xml : Str) : Nat → Str → F Str
  | 0, result => do
    lib m
    return result
  | n + 1, result => do
    lib m
    if (genericPattern env).search xml then do
      lib m
      genericLoop m env xml n ((genericPattern env).sub (fun g => capText 1 g ++ capText 3 g) xml)
    else return result

/-- error_handler.py 9–26 `fix_error` and `_fix_missing_attribute`. -/
def fixError (m : Machine) (env : Env) (xml : Str) : Stop → F Str
  | .raised (.expat code lineno offset) => call (call do
    let result ← fixMissingAttributeValue m code lineno offset xml
    if result ≠ xml then return result
    else do
      call (lib m)
      genericLoop m env xml 5 result)
  | _ => call (return xml)

/-- adapter.py 42–45: the body of the `try`. -/
def attempt (m : Machine) (env : Env) (xml : Str) : F (List Node) := do
  lib m
  match env.parse xml with
  | .error e => throwL (.raised e.toExc)
  | .ok dom => getElementsByTagName dom

/-- adapter.py 37–51 `_mathml_elements` with `n` attempts left. -/
def mathmlElements (m : Machine) (env : Env) : Nat → Option Stop → Str → F (List Node)
  | 0, exception, _ =>
    match exception with
    | some s => throwL s
    | none => return []
  | n + 1, _, xml =>
    tryL (attempt m env xml) fun s => do
      let xml' ← call (fixError m env xml s)
      mathmlElements m env n (some s) xml'

/-- adapter.py 20–24 `XmlToMathMLAdapter.convert`. -/
def adapterConvert (m : Machine) (env : Env) (xml : Str) : F (List Elem) := call do
  call (lib m)
  call (lib m)
  let nodes ← call (mathmlElements m env 5 none (removeMsWordPrefixes (removeLineBreaks xml)))
  call (comp m (buildElems m nodes))

/-! ## converter.py -/

/-- converter.py 9–12. -/
def constructAll (m : Machine) : List Elem → F (List (F Str))
  | [] => return []
  | e :: es => do
    let k ← toConv m e
    let ks ← constructAll m es
    return k :: ks

/-- converter.py 13–18. -/
def convertAll : List (F Str) → F (List Str)
  | [] => return []
  | k :: ks => do
    let s ← k
    let ss ← convertAll ks
    return s :: ss

/-- factory.py 8–12: the objects with an `__init__` are the error handler and the adapter. -/
def makeAdapter : F Unit := call do
  leaf ()
  leaf ()

/-- converter.py 7–18 `MathMLToLaTeX.convert`. -/
def convert (m : Machine) (env : Env) (mathml : Str) : F Str := call do
  makeAdapter
  let es ← adapterConvert m env mathml
  let ks ← comp m (constructAll m es)
  let ss ← comp m (convertAll ks)
  return strip ss.flatten

/-! ## The reading with a limit on nested calls -/

/-- Computations that get the number of activations left. -/
def LM (α : Type) : Type := Nat → Heap → Except Stop α × Heap

instance : Monad LM where
  pure a := fun _ h => (.ok a, h)
  bind x f := fun n h =>
    match x n h with
    | (.ok a, h') => f a n h'
    | (.error s, h') => (.error s, h')

/-- A call takes one activation; `RecursionError` is an `Exception`. -/
instance : Reading LM where
  throwL s := fun _ h => (.error s, h)
  tryL x handler := fun n h =>
    match x n h with
    | (.ok a, h') => (.ok a, h')
    | (.error s, h') => handler s n h'
  call x
    | 0, h => (.error .recursion, h)
    | n + 1, h => x n h
  heap f := fun _ h => (.ok (f h).1, (f h).2)
  lib m := fun n h => if n < m.lib then (.error .recursion, h) else (.ok (), h)

/-- The outcome of a call of `MathMLToLaTeX.convert` made when `n` activations are left; `h` has the
dictionaries left behind by earlier calls. -/
def outcome (m : Machine) (env : Env) (h : Heap) (mathml : Str) (n : Nat) : Except Stop Str :=
  (convert (F := LM) m env mathml n h).1

end Verif.Stack
