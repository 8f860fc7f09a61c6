import Verif.Model.Api

/-!
# A pure reformulation of the element converters

Elements carry their attribute dictionary by value; the effect of the `innerTable` marking is
replaced by a flag "there is an enclosing `mtable`".  `Verif/Refine/Heap.lean` proves that the
heap model computes exactly this.
-/

namespace Verif

/-- Elements with their attributes. -/
inductive PElem where
  | mk (name value : Str) (attrs : Attrs) (children : List PElem)

namespace PElem
def name : PElem → Str | mk n _ _ _ => n
def value : PElem → Str | mk _ v _ _ => v
def attrs : PElem → Attrs | mk _ _ a _ => a
def children : PElem → List PElem | mk _ _ _ c => c
end PElem

/-- The outcome of a conversion. -/
abbrev Res := Except Exc Str

/-- A child with the outcome of converting it. -/
abbrev PKid := PElem × Res

/-- All children, left to right; the first failure wins. -/
def seqAll : List PKid → Except Exc (List Str)
  | [] => .ok []
  | k :: ks => do
    let s ← k.2
    let ss ← seqAll ks
    return s :: ss

/-- Base of a script. -/
def pbase (k : PKid) : Res := do
  let s ← k.2
  if k.1.children.length ≤ 1 then return s else return parenWrapIfMoreThanOneChar s

/-- A pair of scripts. -/
def ppair (prefix_ : Str) (sub sup : PKid) : Res := do
  let a ← sub.2
  let b ← sup.2
  return prefix_ ++ c!"{" ++ a ++ c!"}^{" ++ b ++ c!"}"

def pIsPre (k : PKid) : Bool := k.1.name == c!"mprescripts"

def pprescript (kids : List PKid) : Res :=
  match kids with
  | _ :: c1 :: c2 :: c3 :: rest =>
    if pIsPre c1 then ppair c!"\\_" c2 c3
    else
      match rest with
      | c4 :: c5 :: _ => if pIsPre c3 then ppair c!"\\_" c4 c5 else .ok []
      | _ => .ok []
  | _ => .ok []

def ppostscript (kids : List PKid) : Res :=
  match kids with
  | _ :: c1 :: c2 :: _ => if pIsPre c1 then .ok [] else ppair c!"_" c1 c2
  | _ => .ok []

mutual
def pHasRel1 (name : Str) : PElem → Bool
  | .mk n _ _ cs => n == name || pHasRel name cs
/-- some element of the forest, at any depth, has this name -/
def pHasRel (name : Str) : List PElem → Bool
  | [] => false
  | e :: es => pHasRel1 name e || pHasRel name es
end

/-- Conversion of one element by the class `kind` from the outcomes of its children. -/
def pnode (kind : Kind) (inTable : Bool) (name value : Str) (a : Attrs) (kids : List PKid) : Res :=
  match kind with
  | .math => do return normalize (join c!" " (← seqAll kids))
  | .mi => .ok (miConvert value a)
  | .mo => .ok (moConvert value)
  | .mn => .ok (mnConvert value)
  | .msqrt => do return c!"\\sqrt{" ++ join c!" " (← seqAll kids) ++ c!"}"
  | .mfenced => do
    let ss ← seqAll kids
    if pHasRel c!"mtable" (kids.map (·.1)) then
      return matrixApply (Attrs.getD a c!"open" []) (Attrs.getD a c!"close" []) ss
    else
      return vectorApply (Attrs.getD a c!"open" []) (Attrs.getD a c!"close" [])
        ((Attrs.getD a c!"separators" []).map (fun c => [c])) ss
  | .mfrac =>
    match kids with
    | [n, d] => do
      let num ← n.2
      let den ← d.2
      if Attrs.getD a c!"bevelled" [] ≠ [] then
        return parenWrapIfMoreThanOneChar num ++ c!"/" ++ parenWrapIfMoreThanOneChar den
      else return c!"\\frac{" ++ num ++ c!"}{" ++ den ++ c!"}"
    | _ => .error (.invalidChildren name 2 kids.length c!"exactly")
  | .mroot =>
    match kids with
    | [c, i] => do
      let content ← c.2
      let index ← i.2
      return c!"\\sqrt[" ++ index ++ c!"]{" ++ content ++ c!"}"
    | _ => .error (.invalidChildren name 2 kids.length c!"exactly")
  | .maction =>
    if Attrs.getD a c!"actiontype" [] = c!"toggle" ∨ Attrs.getD a c!"actiontype" [] = [] then do
      return join c!" \\Longrightarrow " (← seqAll kids)
    else
      match kids with
      | [] => .error .indexError
      | k :: _ => k.2
  | .menclose => do
    return encloseLatex (Attrs.getD a c!"notation" c!"longdiv") (join c!" " (← seqAll kids))
  | .merror => do return c!"\\color{red}{" ++ join c!" " (← seqAll kids) ++ c!"}"
  | .void => .ok []
  | .msup =>
    match kids with
    | [b, e] => do
      let b ← pbase b
      let e ← e.2
      return b ++ c!"^" ++ bracketWrap e
    | _ => .error (.invalidChildren name 2 kids.length c!"exactly")
  | .msub =>
    match kids with
    | [b, e] => do
      let b ← pbase b
      let e ← e.2
      return b ++ c!"_" ++ bracketWrap e
    | _ => .error (.invalidChildren name 2 kids.length c!"exactly")
  | .msubsup =>
    match kids with
    | [b, s, e] => do
      let b ← pbase b
      let s ← s.2
      let e ← e.2
      return b ++ c!"_" ++ bracketWrap s ++ c!"^" ++ bracketWrap e
    | _ => .error (.invalidChildren name 3 kids.length c!"exactly")
  | .mmultiscripts =>
    match kids with
    | b :: _ :: _ :: _ => do
      let base ← b.2
      let pre ← pprescript kids
      let post ← ppostscript kids
      return pre ++ wrapInParenthesisIfThereIsSpace base ++ post
    | _ => .error (.invalidChildren name 3 kids.length c!"at least")
  | .mtext => .ok (mtextConvert value a)
  | .munderover =>
    match kids with
    | [b, u, o] => do
      let base ← b.2
      let under ← u.2
      let over ← o.2
      return base ++ c!"_{" ++ under ++ c!"}^{" ++ over ++ c!"}"
    | _ => .error (.invalidChildren name 3 kids.length c!"exactly")
  | .mtable => do
    let content := join c!" \\\\\n" (← seqAll kids)
    if inTable = true ∨ Attrs.getD a innerTable [] ≠ [] then
      return c!"\\begin{matrix}" ++ content ++ c!"\\end{matrix}"
    else return content
  | .mtr => do return join c!" & " (← seqAll kids)
  | .underOver =>
    match kids with
    | [c, a] => do
      let content ← c.2
      let accent ← a.2
      return underOverApply ((Re.lit c!"under").search name) content accent
    | _ => .error (.invalidChildren name 2 kids.length c!"exactly")
  | .spacing => do return join c!" " (← seqAll kids)

mutual
/-- Conversion of an element; `inTable`: it has an `mtable` ancestor. -/
def pconv (inTable : Bool) : PElem → Res
  | .mk n v a cs => pnode (classify n) inTable n v a (pkids (inTable || n == c!"mtable") cs)
def pkids (inTable : Bool) : List PElem → List PKid
  | [] => []
  | c :: cs => (c, pconv inTable c) :: pkids inTable cs
end

theorem pkids_eq (b : Bool) (cs : List PElem) : pkids b cs = cs.map (fun c => (c, pconv b c)) := by
  induction cs with
  | nil => simp [pkids]
  | cons c cs ih => simp [pkids, ih]

theorem pconv_mk (b : Bool) (n v : Str) (a : Attrs) (cs : List PElem) :
    pconv b (.mk n v a cs) =
      pnode (classify n) b n v a (cs.map (fun c => (c, pconv (b || n == c!"mtable") c))) := by
  rw [pconv, pkids_eq]

mutual
/-- The element of a DOM node (`none` for other nodes). -/
def toPElem : Node → Option PElem
  | .elem tag attrs cs =>
    some (.mk tag (strip (elementValue cs)) (convertAttributes attrs) (toPElems cs))
  | _ => none
def toPElems : List Node → List PElem
  | [] => []
  | n :: ns => match toPElem n with | some e => e :: toPElems ns | none => toPElems ns
end

/-- All converters in order. -/
def pconvAll : List PElem → Except Exc (List Str)
  | [] => .ok []
  | e :: es => do
    let s ← pconv false e
    let ss ← pconvAll es
    return s :: ss

/-- What the API returns for a parsed document. -/
def renderDoc (d : Doc) : Res := do
  return strip (← pconvAll (toPElems (mathElements d))).flatten

end Verif
