import Verif.Regex
import Verif.Model.Syntax
import Verif.Model.Elements

/-!
# el_to_tex: services, usecases.py, adapter.py

Converter classes become functions that return the action of `.convert()`.  They get the
children as pairs (element, action), where the action stands for
`self._adapter.to_latex_converter(child).convert()`; nothing happens until it is run.
-/

namespace Verif

/-! ## services -/

/-- services/normalizer.py 1–3 `WhiteSpaceNormalizer.normalize`. -/
def normalize (s : Str) : Str := join c!" " (split s)

/-- services/wrapper.py 8–9 `Wrapper.wrap`. -/
def wrap (op close val : Str) : Str := op ++ val ++ close

/-- services/wrapper.py 11–16 `ParenthesisWrapper.wrap`. -/
def parenWrap (val : Str) : Str := wrap c!"\\left(" c!"\\right)" val

/-- services/wrapper.py 18–21 `wrap_if_more_than_one_char`. -/
def parenWrapIfMoreThanOneChar (val : Str) : Str :=
  if val.length ≤ 1 then val else parenWrap val

/-- services/wrapper.py 23–28 `BracketWrapper.wrap`. -/
def bracketWrap (val : Str) : Str := wrap c!"{" c!"}" val

/-- services/wrapper.py 30–37 `GenericWrapper(op, close).wrap`. -/
def genericWrap (op close val : Str) : Str := wrap (c!"\\left" ++ op) (c!"\\right" ++ close) val

/-- services/wrapper.py 51–55 `JoinWithManySeparators._get`. -/
def getSeparator (separators : List Str) (index : Nat) : Str :=
  match separators[index]? with
  | some s => s
  | none => match separators.getLast? with | some s => s | none => c!","

/-- services/wrapper.py 43–48 `JoinWithManySeparators.join`; the loop from index `index`
on, the list `arr` being what is left (its last element has index `len(arr) - 1`). -/
def joinManyFrom (separators : List Str) (index : Nat) : List Str → Str
  | [] => []
  | current :: rest =>
    let separator := if rest = [] then [] else getSeparator separators index
    current ++ separator ++ joinManyFrom separators (index + 1) rest

/-! ## Token elements -/

/-- usecases.py 109–132 `Character.apply`. -/
def characterApply (value : Str) : Str :=
  let byChar := (Dict.get? allMathSymbolsByChar value).getD []
  if byChar ≠ [] then byChar else
  let byGlyph := (Dict.get? allMathSymbolsByGlyph value).getD []
  if byGlyph ≠ [] then byGlyph else
  let byNumber := (Dict.get? mathNumberByGlyph value).getD []
  if byNumber ≠ [] then byNumber else hashConvert value

/-- usecases.py 74–77 `MI._get_math_variant`. -/
def getMathVariant (attributes : Attrs) : Str := Attrs.getD attributes c!"mathvariant" []

/-- usecases.py 79–106 `MI._wrap_in_math_variant`. -/
def wrapInMathVariant (value mathVariant : Str) : Str :=
  if mathVariant = c!"bold" then c!"\\mathbf{" ++ value ++ c!"}"
  else if mathVariant = c!"italic" then c!"\\mathit{" ++ value ++ c!"}"
  else if mathVariant = c!"bold-italic" then c!"\\mathbf{\\mathit{" ++ value ++ c!"}}"
  else if mathVariant = c!"double-struck" then c!"\\mathbb{" ++ value ++ c!"}"
  else if mathVariant = c!"bold-fraktur" then c!"\\mathbf{\\mathfrak{" ++ value ++ c!"}}"
  else if mathVariant = c!"script" then c!"\\mathcal{" ++ value ++ c!"}"
  else if mathVariant = c!"bold-script" then c!"\\mathbf{\\mathcal{" ++ value ++ c!"}}"
  else if mathVariant = c!"fraktur" then c!"\\mathfrak{" ++ value ++ c!"}"
  else if mathVariant = c!"sans-serif" then c!"\\mathsf{" ++ value ++ c!"}"
  else if mathVariant = c!"bold-sans-serif" then c!"\\mathbf{\\mathsf{" ++ value ++ c!"}}"
  else if mathVariant = c!"sans-serif-italic" then c!"\\mathsf{\\mathit{" ++ value ++ c!"}}"
  else if mathVariant = c!"sans-serif-bold-italic" then
    c!"\\mathbf{\\mathsf{\\mathit{" ++ value ++ c!"}}}"
  else if mathVariant = c!"monospace" then c!"\\mathtt{" ++ value ++ c!"}"
  else value

/-- usecases.py 58–72 `MI.convert`, given the element's value and attributes. -/
def miConvert (value : Str) (attributes : Attrs) : Str :=
  let normalizedValue := normalize value
  if normalizedValue = c!" " then characterApply normalizedValue
  else
    let trimmedValue := strip normalizedValue
    let convertedChar := characterApply trimmedValue
    let parsedChar := hashConvert convertedChar
    if parsedChar ≠ convertedChar then parsedChar
    else wrapInMathVariant convertedChar (getMathVariant attributes)

/-- usecases.py 147–181 `Operator.operate`. -/
def operate (value : Str) : Str :=
  match Dict.get? allMathOperatorsByChar value with
  | some (c :: cs) => c :: cs
  | _ =>
    match Dict.get? allMathOperatorsByGlyph value with
    | some (c :: cs) => c :: cs
    | _ =>
      match Dict.get? mathNumberByGlyph value with
      | some (c :: cs) => c :: cs
      | _ => hashConvert value

/-- usecases.py 140–144 `MO.convert`. -/
def moConvert (value : Str) : Str := operate (strip (normalize value))

/-- usecases.py 189–193 `MN.convert`. -/
def mnConvert (value : Str) : Str :=
  let normalizedValue := strip (normalize value)
  let convertedValue := (Dict.get? mathNumberByGlyph normalizedValue).getD []
  if convertedValue ≠ [] then convertedValue else normalizedValue

/-- usecases.py 629–643 `TextCommand._commands` (with line 620: an absent or empty
variant is "normal"). -/
def textCommands (mathVariant : Str) : List Str :=
  if mathVariant = c!"bold" then [c!"\\textbf"]
  else if mathVariant = c!"italic" then [c!"\\textit"]
  else if mathVariant = c!"bold-italic" then [c!"\\textit", c!"\\textbf"]
  else if mathVariant = c!"double-struck" then [c!"\\mathbb"]
  else if mathVariant = c!"monospace" then [c!"\\mathtt"]
  else if mathVariant = c!"bold-fraktur" ∨ mathVariant = c!"fraktur" then [c!"\\mathfrak"]
  else [c!"\\text"]

/-- usecases.py 622–627 `TextCommand.apply`. -/
def textCommandApply (mathVariant value : Str) : Str :=
  (textCommands mathVariant).foldl (fun acc command => command ++ c!"{" ++ acc ++ c!"}") value

/-- usecases.py 663: `re.match(r"^[a-zA-Z0-9]$", char) or char == " "`. -/
def isTextChar (c : Char) : Bool := isAsciiAlnum c || c == ' '

/-- usecases.py 669–676: one step of the merging loop; `merged_chars` is kept reversed. -/
def mergeStep (merged : List (Str × Bool)) (c : Char) : List (Str × Bool) :=
  if isTextChar c then
    match merged with
    | (v, true) :: rest => (v ++ [c], true) :: rest
    | _ => ([c], true) :: merged
  else ([c], false) :: merged

/-- usecases.py 656–687 `MText.convert`. -/
def mtextConvert (value : Str) (attributes : Attrs) : Str :=
  let mergedChars := (value.foldl mergeStep []).reverse
  (mergedChars.map fun p =>
    if p.2 then textCommandApply (Attrs.getD attributes c!"mathvariant" []) p.1
    else miConvert p.1 []).flatten

/-! ## Layout elements -/

/-- A child element together with the action of converting it. -/
abbrev Kid := Elem × M Str

/-- `[self._adapter.to_latex_converter(child).convert() for child in children]` -/
def runKids : List Kid → M (List Str)
  | [] => return []
  | k :: ks => do
    let s ← k.2
    let ss ← runKids ks
    return s :: ss

/-- `self._math_element.attributes` at this moment. -/
def attributes (r : Nat) : M Attrs := do
  let h ← getThe Heap
  return h.cells r

/-- usecases.py 34–41 `Math.convert`. -/
def mathConvert (kids : List Kid) : M Str := do
  return normalize (join c!" " (← runKids kids))

/-- usecases.py 236–242 `GenericSpacingWrapper.convert`. -/
def spacingConvert (kids : List Kid) : M Str := do
  return join c!" " (← runKids kids)

/-- usecases.py 250–258 `MSqrt.convert`. -/
def msqrtConvert (kids : List Kid) : M Str := do
  let latexJoinedChildren := join c!" " (← runKids kids)
  return c!"\\sqrt{" ++ latexJoinedChildren ++ c!"}"

/-- usecases.py 216–223, 432–439, 598–605 `_handle_base_child`. -/
def handleBaseChild (base : Kid) : M Str := do
  let baseStr ← base.2
  if base.1.children.length ≤ 1 then return baseStr
  else return parenWrapIfMoreThanOneChar baseStr

/-- usecases.py 225–228 etc. `_handle_exponent_child` and its copies. -/
def handleScriptChild (script : Kid) : M Str := do
  return bracketWrap (← script.2)

/-- usecases.py 203–214 `MSup.convert`. -/
def msupConvert (name : Str) (kids : List Kid) : M Str :=
  match kids with
  | [base, exponent] => do
    let b ← handleBaseChild base
    let e ← handleScriptChild exponent
    return b ++ c!"^" ++ e
  | _ => throw (.invalidChildren name 2 kids.length c!"exactly")

/-- usecases.py 419–430 `MSub.convert`. -/
def msubConvert (name : Str) (kids : List Kid) : M Str :=
  match kids with
  | [base, subscript] => do
    let b ← handleBaseChild base
    let e ← handleScriptChild subscript
    return b ++ c!"_" ++ e
  | _ => throw (.invalidChildren name 2 kids.length c!"exactly")

/-- usecases.py 584–596 `MSubsup.convert`. -/
def msubsupConvert (name : Str) (kids : List Kid) : M Str :=
  match kids with
  | [base, subscript, superscript] => do
    let b ← handleBaseChild base
    let s ← handleScriptChild subscript
    let e ← handleScriptChild superscript
    return b ++ c!"_" ++ s ++ c!"^" ++ e
  | _ => throw (.invalidChildren name 3 kids.length c!"exactly")

/-- usecases.py 453–467 `MFrac.convert`; the attribute is read after the children have
been converted. -/
def mfracConvert (name : Str) (aref : Nat) (kids : List Kid) : M Str :=
  match kids with
  | [n, d] => do
    let num ← n.2
    let den ← d.2
    let a ← attributes aref
    if Attrs.getD a c!"bevelled" [] ≠ [] then
      return parenWrapIfMoreThanOneChar num ++ c!"/" ++ parenWrapIfMoreThanOneChar den
    else return c!"\\frac{" ++ num ++ c!"}{" ++ den ++ c!"}"
  | _ => throw (.invalidChildren name 2 kids.length c!"exactly")

/-- usecases.py 481–492 `MRoot.convert`. -/
def mrootConvert (name : Str) (kids : List Kid) : M Str :=
  match kids with
  | [c, i] => do
    let content ← c.2
    let rootIndex ← i.2
    return c!"\\sqrt[" ++ rootIndex ++ c!"]{" ++ content ++ c!"}"
  | _ => throw (.invalidChildren name 2 kids.length c!"exactly")

/-- usecases.py 500–515 `MAction.convert`. -/
def mactionConvert (aref : Nat) (kids : List Kid) : M Str := do
  let a ← attributes aref
  let actionType := Attrs.getD a c!"actiontype" []
  if actionType = c!"toggle" ∨ actionType = [] then
    return join c!" \\Longrightarrow " (← runKids kids)
  else
    match kids with
    | [] => throw .indexError
    | k :: _ => k.2

/-- usecases.py 532–558: the LaTeX of a notation around its content. -/
def encloseLatex (notation_ content : Str) : Str :=
  if notation_ = c!"actuarial" then c!"\\overline{\\left." ++ content ++ c!"\\right|}"
  else if notation_ = c!"radical" then c!"\\sqrt{" ++ content ++ c!"}"
  else if notation_ = c!"box" ∨ notation_ = c!"roundedbox" ∨ notation_ = c!"circle" then
    c!"\\boxed{" ++ content ++ c!"}"
  else if notation_ = c!"left" then c!"\\left|" ++ content
  else if notation_ = c!"right" then content ++ c!"\\right|"
  else if notation_ = c!"top" then c!"\\overline{" ++ content ++ c!"}"
  else if notation_ = c!"bottom" then c!"\\underline{" ++ content ++ c!"}"
  else if notation_ = c!"updiagonalstrike" then c!"\\cancel{" ++ content ++ c!"}"
  else if notation_ = c!"downdiagonalstrike" then c!"\\bcancel{" ++ content ++ c!"}"
  else if notation_ = c!"updiagonalarrow" then c!"\\cancelto{}{" ++ content ++ c!"}"
  else if notation_ = c!"verticalstrike" ∨ notation_ = c!"horizontalstrike" then
    c!"\\hcancel{" ++ content ++ c!"}"
  else if notation_ = c!"madruwb" then c!"\\underline{" ++ content ++ c!"\\right|}"
  else if notation_ = c!"phasorangle" then c!"{\\angle \\underline{" ++ content ++ c!"}}"
  else c!"\\overline{\\left.\\right)" ++ content ++ c!"}"

/-- usecases.py 524–558 `MEnclose.convert`. -/
def mencloseConvert (notation_ : Str) (kids : List Kid) : M Str := do
  return encloseLatex notation_ (join c!" " (← runKids kids))

/-- usecases.py 566–574 `MError.convert`. -/
def merrorConvert (kids : List Kid) : M Str := do
  let latexJoinedChildren := join c!" " (← runKids kids)
  return c!"\\color{red}{" ++ latexJoinedChildren ++ c!"}"

/-- usecases.py 699–705 `UnderOverSetter.apply` (`under` = `TagTypes.Under`). -/
def underOverApply (under : Bool) (content accent : Str) : Str :=
  if accent = c!"\\hat" ∨ accent = c!"\\bar" ∨ accent = c!"\\underbrace" ∨
      accent = c!"\\overbrace" then
    accent ++ c!"{" ++ content ++ c!"}"
  else (if under then c!"\\underset" else c!"\\overset") ++ c!"{" ++ accent ++ c!"}{" ++
    content ++ c!"}"

/-- usecases.py 717–736 `GenericUnderOver.convert`. -/
def underOverConvert (name : Str) (kids : List Kid) : M Str :=
  match kids with
  | [c, a] => do
    let content ← c.2
    let accent ← a.2
    return underOverApply ((Re.lit c!"under").search name) content accent
  | _ => throw (.invalidChildren name 2 kids.length c!"exactly")

/-- usecases.py 744–756 `MUnderover.convert`. -/
def munderoverConvert (name : Str) (kids : List Kid) : M Str :=
  match kids with
  | [b, u, o] => do
    let base ← b.2
    let underContent ← u.2
    let overContent ← o.2
    return base ++ c!"_{" ++ underContent ++ c!"}^{" ++ overContent ++ c!"}"
  | _ => throw (.invalidChildren name 3 kids.length c!"exactly")

/-- usecases.py 819–820 `MMultiscripts._is_prescripts`. -/
def isPrescripts (k : Kid) : Bool := k.1.name == c!"mprescripts"

/-- usecases.py 793–796, 809–812: a pair of scripts. -/
def scriptPair (prefix_ : Str) (sub sup : Kid) : M Str := do
  let subLatex ← sub.2
  let supLatex ← sup.2
  return prefix_ ++ c!"{" ++ subLatex ++ c!"}^{" ++ supLatex ++ c!"}"

/-- usecases.py 781–796 `_prescript_latex`. -/
def prescriptLatex (kids : List Kid) : M Str :=
  match kids with
  | _ :: c1 :: c2 :: c3 :: rest =>
    if isPrescripts c1 then scriptPair c!"\\_" c2 c3
    else
      match rest with
      | c4 :: c5 :: _ => if isPrescripts c3 then scriptPair c!"\\_" c4 c5 else return []
      | _ => return []
  | _ => return []

/-- usecases.py 798–812 `_postscript_latex`. -/
def postscriptLatex (kids : List Kid) : M Str :=
  match kids with
  | _ :: c1 :: c2 :: _ => if isPrescripts c1 then return [] else scriptPair c!"_" c1 c2
  | _ => return []

/-- usecases.py 814–817 `_wrap_in_parenthesis_if_there_is_space`. -/
def wrapInParenthesisIfThereIsSpace (val : Str) : Str :=
  if (Re.plus isSpace).search val then parenWrap val else val

/-- usecases.py 765–779 `MMultiscripts.convert`: base, then prescripts, then postscripts. -/
def mmultiscriptsConvert (name : Str) (kids : List Kid) : M Str :=
  match kids with
  | b :: _ :: _ :: _ => do
    let baseContent ← b.2
    let pre ← prescriptLatex kids
    let post ← postscriptLatex kids
    return pre ++ wrapInParenthesisIfThereIsSpace baseContent ++ post
  | _ => throw (.invalidChildren name 3 kids.length c!"at least")

/-! ## Fences and tables -/

/-- usecases.py 291–301 `Vector`. -/
def vectorApply (op close : Str) (separators : List Str) (latexContents : List Str) : Str :=
  let op := if op ≠ [] then op else c!"("
  let close := if close ≠ [] then close else c!")"
  genericWrap op close (joinManyFrom separators 0 latexContents)

/-- usecases.py 319–333 `Matrix._command`, with `Separators` 261–288. -/
def matrixCommand (op close : Str) : Str :=
  if op = c!"(" ∧ close = c!")" then c!"pmatrix"
  else if op = c!"[" ∧ close = c!"]" then c!"bmatrix"
  else if op = c!"{" ∧ close = c!"}" then c!"Bmatrix"
  else if op = c!"|" ∧ close = c!"|" then c!"vmatrix"
  else if op = c!"||" ∧ close = c!"||" then c!"Vmatrix"
  else if op ≠ close then c!"matrix"
  else c!"bmatrix"

/-- usecases.py 309–317 `Matrix.apply`. -/
def matrixApply (op close : Str) (latexContents : List Str) : Str :=
  let command := matrixCommand op close
  let matrix := c!"\\begin{" ++ command ++ c!"}\n" ++ latexContents.flatten ++ c!"\n\\end{" ++
    command ++ c!"}"
  if command = c!"matrix" then genericWrap op close matrix else matrix

mutual
/-- usecases.py 358–359: the element or one of its descendants has the name. -/
def hasRelativeOfName1 (name : Str) : Elem → Bool
  | .mk n _ _ cs => n == name || isThereRelativeOfName name cs
/-- usecases.py 355–362 `_is_there_relative_of_name`. -/
def isThereRelativeOfName (name : Str) : List Elem → Bool
  | [] => false
  | e :: es => hasRelativeOfName1 name e || isThereRelativeOfName name es
end

/-- usecases.py 344–353 `MFenced.convert`. -/
def mfencedConvert (op close : Str) (separators : List Str) (kids : List Kid) : M Str := do
  let latexChildren ← runKids kids
  if isThereRelativeOfName c!"mtable" (kids.map (·.1)) then
    return matrixApply op close latexChildren
  else return vectorApply op close separators latexChildren

/-- The marker attribute, usecases.py 370. -/
def innerTable : Str := c!"innerTable"

mutual
/-- usecases.py 389–392: body of the loop. -/
def addFlag1 (name flag : Str) : Elem → M Unit
  | .mk n _ r cs => do
    if n == name then modifyThe Heap (fun h => h.setItem r flag flag)
    addFlagRecursiveIfName name flag cs
/-- usecases.py 388–392 `_add_flag_recursive_if_name`. -/
def addFlagRecursiveIfName (name flag : Str) : List Elem → M Unit
  | [] => return ()
  | e :: es => do
    addFlag1 name flag e
    addFlagRecursiveIfName name flag es
end

/-- usecases.py 373–386 `MTable.convert`; the marker of the table itself is read last. -/
def mtableConvert (aref : Nat) (kids : List Kid) : M Str := do
  let tableContent := join c!" \\\\\n" (← runKids kids)
  let a ← attributes aref
  if Attrs.getD a innerTable [] ≠ [] then
    return c!"\\begin{matrix}" ++ tableContent ++ c!"\\end{matrix}"
  else return tableContent

/-- usecases.py 403–409 `MTr.convert`. -/
def mtrConvert (kids : List Kid) : M Str := do
  return join c!" & " (← runKids kids)

/-! ## Dispatch -/

/-- The converter classes. -/
inductive Kind where
  | math | mi | mo | mn | msqrt | mfenced | mfrac | mroot | maction | menclose | merror | void
  | msup | msub | msubsup | mmultiscripts | mtext | munderover | mtable | mtr | underOver | spacing
deriving DecidableEq, Repr

/-- adapter.py 37–63 `_from_mathml_element_to_latex_converter`. -/
def dispatchTable : Dict Kind :=
  [(c!"math", .math), (c!"mi", .mi), (c!"mo", .mo), (c!"mn", .mn), (c!"msqrt", .msqrt),
   (c!"mfenced", .mfenced), (c!"mfrac", .mfrac), (c!"mroot", .mroot), (c!"maction", .maction),
   (c!"menclose", .menclose), (c!"merror", .merror), (c!"mphantom", .void), (c!"msup", .msup),
   (c!"msub", .msub), (c!"msubsup", .msubsup), (c!"mmultiscripts", .mmultiscripts),
   (c!"mtext", .mtext), (c!"munderover", .munderover), (c!"mtable", .mtable), (c!"mtr", .mtr),
   (c!"mover", .underOver), (c!"munder", .underOver), (c!"mrow", .spacing),
   (c!"mpadded", .spacing)]

/-- adapter.py 30–33: the converter class for an element name. -/
def classify (name : Str) : Kind :=
  let name := if name ≠ [] then name else c!"void"
  (Dict.get? dispatchTable name).getD .spacing

/-- adapter.py 35 and the `__init__` methods: run the constructor of the class `kind` for the
element and return the action of its `convert` method. -/
def construct (kind : Kind) (name value : Str) (aref : Nat) (children : List Elem)
    (kids : List Kid) : M (M Str) :=
  match kind with
  | .math => return mathConvert kids
  | .mi => return do return miConvert value (← attributes aref)
  | .mo => return do return moConvert value
  | .mn => return do return mnConvert value
  | .msqrt => return msqrtConvert kids
  | .mfenced => do
    -- usecases.py 337–342 `MFenced.__init__`
    let a ← attributes aref
    let op := Attrs.getD a c!"open" []
    let close := Attrs.getD a c!"close" []
    let separators := (Attrs.getD a c!"separators" []).map (fun c => [c])
    return mfencedConvert op close separators kids
  | .mfrac => return mfracConvert name aref kids
  | .mroot => return mrootConvert name kids
  | .maction => return mactionConvert aref kids
  | .menclose => do
    -- usecases.py 519–522 `MEnclose.__init__`
    let a ← attributes aref
    return mencloseConvert (Attrs.getD a c!"notation" c!"longdiv") kids
  | .merror => return merrorConvert kids
  | .void => return do return []
  | .msup => return msupConvert name kids
  | .msub => return msubConvert name kids
  | .msubsup => return msubsupConvert name kids
  | .mmultiscripts => return mmultiscriptsConvert name kids
  | .mtext => return do return mtextConvert value (← attributes aref)
  | .munderover => return munderoverConvert name kids
  | .mtable => do
    -- usecases.py 366–371 `MTable.__init__`
    addFlagRecursiveIfName c!"mtable" innerTable children
    return mtableConvert aref kids
  | .mtr => return mtrConvert kids
  | .underOver => return underOverConvert name kids
  | .spacing => return spacingConvert kids

mutual
/-- adapter.py 29–35 `to_latex_converter`: construct the converter of an element. -/
def toConv : Elem → M (M Str)
  | .mk name value aref cs => construct (classify name) name value aref cs (kidsOf cs)
/-- The children, each with the action `to_latex_converter(child).convert()`. -/
def kidsOf : List Elem → List Kid
  | [] => []
  | c :: cs => (c, do let k ← toConv c; k) :: kidsOf cs
end

/-- `adapter.to_latex_converter(e).convert()` -/
def convertElem (e : Elem) : M Str := do
  let k ← toConv e
  k

end Verif
