import Verif.Model.Xml
import Verif.Model.Latex

/-! # converter.py -/

namespace Verif

/-- converter.py 9–12: all converters are constructed before the first one runs. -/
def constructAll : List Elem → M (List (M Str))
  | [] => return []
  | e :: es => do
    let k ← toConv e
    let ks ← constructAll es
    return k :: ks

/-- converter.py 13–18: convert all, in order. -/
def convertAll : List (M Str) → M (List Str)
  | [] => return []
  | k :: ks => do
    let s ← k
    let ss ← convertAll ks
    return s :: ss

/-- converter.py 9–18, given the elements. -/
def renderAll (es : List Elem) : M Str := do
  let ks ← constructAll es
  let ss ← convertAll ks
  return strip ss.flatten

/-- Building the elements (a computation without exceptions) followed by `renderAll`. -/
def renderNodes (nodes : List Node) : M Str := do
  let es ← (ExceptT.lift (buildElems nodes) : M (List Elem))
  renderAll es

/-- converter.py 7–18 `MathMLToLaTeX.convert`: each call creates a fresh adapter
(factory.py 8–12). -/
def convert (env : Env) (mathml : Str) : Except Exc Str :=
  match (Adapter.fresh.domElements env mathml).1 with
  | .error e => .error e
  | .ok nodes => (renderNodes nodes Heap.empty).1

end Verif
