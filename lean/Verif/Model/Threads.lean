import Verif.Model.Api

/-!
# The same code, one dictionary operation at a time

`Verif.Model.Latex` runs a conversion in one go.  To speak about several threads, this file writes
the same functions as programs whose steps are the operations on attribute dictionaries, the only
mutable objects that the conversion touches and that two threads can share: creating a dictionary,
looking at one, and `d[k] = v`.  Each of them is atomic in CPython.  The namespace is `Verif.Th`;
every definition has the name of the definition of `Verif.Model` that it mirrors, and
`Verif.Refine.Threads` proves that running a program without interruption is the same action.
-/

namespace Verif

/-- Programs over attribute dictionaries. -/
inductive Prog (α : Type) where
  /-- the value returned -/
  | pure (a : α)
  /-- the exception raised -/
  | throw (e : Exc)
  /-- create a dictionary -/
  | alloc (a : Attrs) (k : Nat → Prog α)
  /-- look at a dictionary -/
  | read (r : Nat) (k : Attrs → Prog α)
  /-- `d[key] = v` -/
  | setItem (r : Nat) (key v : Str) (p : Prog α)

namespace Prog

/-- Sequencing. -/
def bind {α β : Type} : Prog α → (α → Prog β) → Prog β
  | .pure a, f => f a
  | .throw e, _ => .throw e
  | .alloc a k, f => .alloc a fun r => (k r).bind f
  | .read r k, f => .read r fun a => (k a).bind f
  | .setItem r key v p, f => .setItem r key v (p.bind f)

instance : Monad Prog where
  pure := .pure
  bind := Prog.bind

/-- Run the program without interruption. -/
def run {α : Type} : Prog α → M α
  | .pure a => Pure.pure a
  | .throw e => throwThe Exc e
  | .alloc a k => do
    let r ← (ExceptT.lift (Verif.alloc a) : M Nat)
    run (k r)
  | .read r k => do
    let a ← attributes r
    run (k a)
  | .setItem r key v p => do
    modifyThe Heap (fun h => h.setItem r key v)
    run p

end Prog

namespace Th

/-- `self._math_element.attributes.get(…)`: one look at the dictionary. -/
def attributes (r : Nat) : Prog Attrs := .read r .pure

/-- A child element together with the action of converting it. -/
abbrev Kid := Elem × Prog Str

/-- `[self._adapter.to_latex_converter(child).convert() for child in children]` -/
def runKids : List Kid → Prog (List Str)
  | [] => return []
  | k :: ks => do
    let s ← k.2
    let ss ← runKids ks
    return s :: ss

/-- usecases.py 34–41 `Math.convert`. -/
def mathConvert (kids : List Kid) : Prog Str := do
  return normalize (join c!" " (← runKids kids))

/-- usecases.py 236–242 `GenericSpacingWrapper.convert`. -/
def spacingConvert (kids : List Kid) : Prog Str := do
  return join c!" " (← runKids kids)

/-- usecases.py 250–258 `MSqrt.convert`. -/
def msqrtConvert (kids : List Kid) : Prog Str := do
  let latexJoinedChildren := join c!" " (← runKids kids)
  return c!"\\sqrt{" ++ latexJoinedChildren ++ c!"}"

/-- usecases.py 216–223, 432–439, 598–605 `_handle_base_child`. -/
def handleBaseChild (base : Kid) : Prog Str := do
  let baseStr ← base.2
  if base.1.children.length ≤ 1 then return baseStr
  else return parenWrapIfMoreThanOneChar baseStr

/-- usecases.py 225–228 etc. `_handle_exponent_child` and its copies. -/
def handleScriptChild (script : Kid) : Prog Str := do
  return bracketWrap (← script.2)

/-- usecases.py 203–214 `MSup.convert`. -/
def msupConvert (name : Str) (kids : List Kid) : Prog Str :=
  match kids with
  | [base, exponent] => do
    let b ← handleBaseChild base
    let e ← handleScriptChild exponent
    return b ++ c!"^" ++ e
  | _ => .throw (.invalidChildren name 2 kids.length c!"exactly")

/-- usecases.py 419–430 `MSub.convert`. -/
def msubConvert (name : Str) (kids : List Kid) : Prog Str :=
  match kids with
  | [base, subscript] => do
    let b ← handleBaseChild base
    let e ← handleScriptChild subscript
    return b ++ c!"_" ++ e
  | _ => .throw (.invalidChildren name 2 kids.length c!"exactly")

/-- usecases.py 584–596 `MSubsup.convert`. -/
def msubsupConvert (name : Str) (kids : List Kid) : Prog Str :=
  match kids with
  | [base, subscript, superscript] => do
    let b ← handleBaseChild base
    let s ← handleScriptChild subscript
    let e ← handleScriptChild superscript
    return b ++ c!"_" ++ s ++ c!"^" ++ e
  | _ => .throw (.invalidChildren name 3 kids.length c!"exactly")

/-- usecases.py 453–467 `MFrac.convert`; the attribute is read after the children have
been converted. -/
def mfracConvert (name : Str) (aref : Nat) (kids : List Kid) : Prog Str :=
  match kids with
  | [n, d] => do
    let num ← n.2
    let den ← d.2
    let a ← attributes aref
    if Attrs.getD a c!"bevelled" [] ≠ [] then
      return parenWrapIfMoreThanOneChar num ++ c!"/" ++ parenWrapIfMoreThanOneChar den
    else return c!"\\frac{" ++ num ++ c!"}{" ++ den ++ c!"}"
  | _ => .throw (.invalidChildren name 2 kids.length c!"exactly")

/-- usecases.py 481–492 `MRoot.convert`. -/
def mrootConvert (name : Str) (kids : List Kid) : Prog Str :=
  match kids with
  | [c, i] => do
    let content ← c.2
    let rootIndex ← i.2
    return c!"\\sqrt[" ++ rootIndex ++ c!"]{" ++ content ++ c!"}"
  | _ => .throw (.invalidChildren name 2 kids.length c!"exactly")

/-- usecases.py 500–515 `MAction.convert`. -/
def mactionConvert (aref : Nat) (kids : List Kid) : Prog Str := do
  let a ← attributes aref
  let actionType := Attrs.getD a c!"actiontype" []
  if actionType = c!"toggle" ∨ actionType = [] then
    return join c!" \\Longrightarrow " (← runKids kids)
  else
    match kids with
    | [] => .throw .indexError
    | k :: _ => k.2

/-- usecases.py 524–558 `MEnclose.convert`. -/
def mencloseConvert (notation_ : Str) (kids : List Kid) : Prog Str := do
  return encloseLatex notation_ (join c!" " (← runKids kids))

/-- usecases.py 566–574 `MError.convert`. -/
def merrorConvert (kids : List Kid) : Prog Str := do
  let latexJoinedChildren := join c!" " (← runKids kids)
  return c!"\\color{red}{" ++ latexJoinedChildren ++ c!"}"

/-- usecases.py 717–736 `GenericUnderOver.convert`. -/
def underOverConvert (name : Str) (kids : List Kid) : Prog Str :=
  match kids with
  | [c, a] => do
    let content ← c.2
    let accent ← a.2
    return underOverApply ((Re.lit c!"under").search name) content accent
  | _ => .throw (.invalidChildren name 2 kids.length c!"exactly")

/-- usecases.py 744–756 `MUnderover.convert`. -/
def munderoverConvert (name : Str) (kids : List Kid) : Prog Str :=
  match kids with
  | [b, u, o] => do
    let base ← b.2
    let underContent ← u.2
    let overContent ← o.2
    return base ++ c!"_{" ++ underContent ++ c!"}^{" ++ overContent ++ c!"}"
  | _ => .throw (.invalidChildren name 3 kids.length c!"exactly")

/-- usecases.py 819–820 `MMultiscripts._is_prescripts`. -/
def isPrescripts (k : Kid) : Bool := k.1.name == c!"mprescripts"

/-- usecases.py 793–796, 809–812: a pair of scripts. -/
def scriptPair (prefix_ : Str) (sub sup : Kid) : Prog Str := do
  let subLatex ← sub.2
  let supLatex ← sup.2
  return prefix_ ++ c!"{" ++ subLatex ++ c!"}^{" ++ supLatex ++ c!"}"

/-- usecases.py 781–796 `_prescript_latex`. -/
def prescriptLatex (kids : List Kid) : Prog Str :=
  match kids with
  | _ :: c1 :: c2 :: c3 :: rest =>
    if isPrescripts c1 then scriptPair c!"\\_" c2 c3
    else
      match rest with
      | c4 :: c5 :: _ => if isPrescripts c3 then scriptPair c!"\\_" c4 c5 else return []
      | _ => return []
  | _ => return []

/-- usecases.py 798–812 `_postscript_latex`. -/
def postscriptLatex (kids : List Kid) : Prog Str :=
  match kids with
  | _ :: c1 :: c2 :: _ => if isPrescripts c1 then return [] else scriptPair c!"_" c1 c2
  | _ => return []

/-- usecases.py 765–779 `MMultiscripts.convert`: base, then prescripts, then postscripts. -/
def mmultiscriptsConvert (name : Str) (kids : List Kid) : Prog Str :=
  match kids with
  | b :: _ :: _ :: _ => do
    let baseContent ← b.2
    let pre ← prescriptLatex kids
    let post ← postscriptLatex kids
    return pre ++ wrapInParenthesisIfThereIsSpace baseContent ++ post
  | _ => .throw (.invalidChildren name 3 kids.length c!"at least")

/-! ## Fences and tables -/

/-- usecases.py 344–353 `MFenced.convert`. -/
def mfencedConvert (op close : Str) (separators : List Str) (kids : List Kid) : Prog Str := do
  let latexChildren ← runKids kids
  if isThereRelativeOfName c!"mtable" (kids.map (·.1)) then
    return matrixApply op close latexChildren
  else return vectorApply op close separators latexChildren

mutual
/-- usecases.py 389–392: body of the loop. -/
def addFlag1 (name flag : Str) : Elem → Prog Unit
  | .mk n _ r cs => do
    if n == name then .setItem r flag flag (.pure ())
    addFlagRecursiveIfName name flag cs
/-- usecases.py 388–392 `_add_flag_recursive_if_name`. -/
def addFlagRecursiveIfName (name flag : Str) : List Elem → Prog Unit
  | [] => return ()
  | e :: es => do
    addFlag1 name flag e
    addFlagRecursiveIfName name flag es
end

/-- usecases.py 373–386 `MTable.convert`; the marker of the table itself is read last. -/
def mtableConvert (aref : Nat) (kids : List Kid) : Prog Str := do
  let tableContent := join c!" \\\\\n" (← runKids kids)
  let a ← attributes aref
  if Attrs.getD a innerTable [] ≠ [] then
    return c!"\\begin{matrix}" ++ tableContent ++ c!"\\end{matrix}"
  else return tableContent

/-- usecases.py 403–409 `MTr.convert`. -/
def mtrConvert (kids : List Kid) : Prog Str := do
  return join c!" & " (← runKids kids)

/-! ## Tokens -/

/-- usecases.py 74–77 `MI._get_math_variant`: the dictionary is looked at up to three times, to see
whether it is empty, whether it has the key, and for the value. -/
def getMathVariant (aref : Nat) : Prog Str := do
  let a ← attributes aref
  if a = [] then return []
  else
    let a ← attributes aref
    if Dict.get? a c!"mathvariant" = none then return []
    else
      let a ← attributes aref
      match Dict.get? a c!"mathvariant" with
      | some v => return v
      | none => .throw .keyError

/-- usecases.py 58–72 `MI.convert`. -/
def miConvert (value : Str) (aref : Nat) : Prog Str :=
  let normalizedValue := normalize value
  if normalizedValue = c!" " then return characterApply normalizedValue
  else
    let trimmedValue := strip normalizedValue
    let convertedChar := characterApply trimmedValue
    let parsedChar := hashConvert convertedChar
    if parsedChar ≠ convertedChar then return parsedChar
    else do
      return wrapInMathVariant convertedChar (← getMathVariant aref)

/-- usecases.py 680–684: one run of text, with its own look at the dictionary.  The other characters
are converted with a dictionary that is created for them (protocols.py 74–92), which no other thread
can reach. -/
def mtextRun (aref : Nat) (p : Str × Bool) : Prog Str :=
  if p.2 then do
    let a ← attributes aref
    return textCommandApply (Attrs.getD a c!"mathvariant" []) p.1
  else return Verif.miConvert p.1 []

/-- usecases.py 678–686: all of them. -/
def mtextRuns (aref : Nat) : List (Str × Bool) → Prog (List Str)
  | [] => return []
  | p :: ps => do
    let s ← mtextRun aref p
    let ss ← mtextRuns aref ps
    return s :: ss

/-- usecases.py 656–687 `MText.convert`. -/
def mtextConvert (value : Str) (aref : Nat) : Prog Str := do
  let mergedChars := (value.foldl mergeStep []).reverse
  return (← mtextRuns aref mergedChars).flatten

/-! ## Dispatch -/

/-- adapter.py 35 and the `__init__` methods: run the constructor of the class `kind` for the
element and return the action of its `convert` method. -/
def construct (kind : Kind) (name value : Str) (aref : Nat) (children : List Elem)
    (kids : List Kid) : Prog (Prog Str) :=
  match kind with
  | .math => return mathConvert kids
  | .mi => return miConvert value aref
  | .mo => return do return moConvert value
  | .mn => return do return mnConvert value
  | .msqrt => return msqrtConvert kids
  | .mfenced => do
    -- usecases.py 337–342 `MFenced.__init__`
    let a ← attributes aref
    let op := Attrs.getD a c!"open" []
    let a ← attributes aref
    let close := Attrs.getD a c!"close" []
    let a ← attributes aref
    let separators := (Attrs.getD a c!"separators" []).map (fun c => [c])
    return mfencedConvert op close separators kids
  | .mfrac => return mfracConvert name aref kids
  | .mroot => return mrootConvert name kids
  | .maction => return mactionConvert aref kids
  | .menclose => do
    -- usecases.py 519–522 `MEnclose.__init__`
    let a ← attributes aref
    return mencloseConvert (Attrs.getD a c!"notation" c!"longdiv") kids
  | .merror => return merrorConvert kids
  | .void => return do return []
  | .msup => return msupConvert name kids
  | .msub => return msubConvert name kids
  | .msubsup => return msubsupConvert name kids
  | .mmultiscripts => return mmultiscriptsConvert name kids
  | .mtext => return mtextConvert value aref
  | .munderover => return munderoverConvert name kids
  | .mtable => do
    -- usecases.py 366–371 `MTable.__init__`
    addFlagRecursiveIfName c!"mtable" innerTable children
    return mtableConvert aref kids
  | .mtr => return mtrConvert kids
  | .underOver => return underOverConvert name kids
  | .spacing => return spacingConvert kids

mutual
/-- adapter.py 29–35 `to_latex_converter`: construct the converter of an element. -/
def toConv : Elem → Prog (Prog Str)
  | .mk name value aref cs => construct (classify name) name value aref cs (kidsOf cs)
/-- The children, each with the action `to_latex_converter(child).convert()`. -/
def kidsOf : List Elem → List Kid
  | [] => []
  | c :: cs => (c, do let k ← toConv c; k) :: kidsOf cs
end

/-- `adapter.to_latex_converter(e).convert()` -/
def convertElem (e : Elem) : Prog Str := do
  let k ← toConv e
  k

/-! ## Elements -/

mutual
/-- xml_elements_to_mathml_element.py 20–44 `_convert_element`. -/
def buildElem : Node → Prog (Option Elem)
  | .elem tag attrs cs => .alloc (convertAttributes attrs) fun r => do
    let children ← buildElems cs
    return some (.mk tag (strip (elementValue cs)) r children)
  | _ => return none
/-- xml_elements_to_mathml_element.py 18 and 28–34: the element children, in order. -/
def buildElems : List Node → Prog (List Elem)
  | [] => return []
  | n :: ns => do
    let e ← buildElem n
    let es ← buildElems ns
    return (match e with | some e => e :: es | none => es)
end

/-! ## converter.py -/

/-- converter.py 9–12: all converters are constructed before the first one runs. -/
def constructAll : List Elem → Prog (List (Prog Str))
  | [] => return []
  | e :: es => do
    let k ← toConv e
    let ks ← constructAll es
    return k :: ks

/-- converter.py 13–18: convert all, in order. -/
def convertAll : List (Prog Str) → Prog (List Str)
  | [] => return []
  | k :: ks => do
    let s ← k
    let ss ← convertAll ks
    return s :: ss

/-- converter.py 9–18, given the elements. -/
def renderAll (es : List Elem) : Prog Str := do
  let ks ← constructAll es
  let ss ← convertAll ks
  return strip ss.flatten

/-- Building the elements, then `renderAll`. -/
def renderNodes (nodes : List Node) : Prog Str := do
  let es ← buildElems nodes
  renderAll es

/-- converter.py 7–18 `MathMLToLaTeX.convert`.  The adapter and the parsed document belong to the
call (factory.py 8–12), so parsing has no step that another thread could notice. -/
def convert (env : Env) (mathml : Str) : Prog Str :=
  match (Adapter.fresh.domElements env mathml).1 with
  | .error e => .throw e
  | .ok nodes => renderNodes nodes

end Th
end Verif
