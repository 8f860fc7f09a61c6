import Verif.Py

/-!
# DOM nodes and xml_to_mathml/services/xml_elements_to_mathml_element.py
-/

namespace Verif

/-- DOM nodes as produced by `minidom` (adjacent character data is one text node).
An element carries its qualified name, its attributes in document order and its
child nodes. -/
inductive Node where
  | elem (tag : Str) (attrs : List (Str × Str)) (children : List Node)
  | text (data : Str)
  | cdata (data : Str)
  | comment (data : Str)
  | pi (target data : Str)

/-- A parsed document: the children of the document node. -/
abbrev Doc := List Node

/-- The heap of attribute dictionaries: `next` is the next unused reference. -/
structure Heap where
  next : Nat
  cells : Nat → Attrs

/-- The empty heap. -/
def Heap.empty : Heap := ⟨0, fun _ => []⟩

/-- In-place assignment `attributes[k] = v` on the dictionary at `r`. -/
def Heap.setItem (h : Heap) (r : Nat) (k v : Str) : Heap :=
  { h with cells := fun r' => if r' = r then Dict.set (h.cells r) k v else h.cells r' }

/-- Python computations: they may raise and they may mutate attribute dictionaries;
mutations made before an exception persist. -/
abbrev M := ExceptT Exc (StateM Heap)

/-- Allocate a dictionary. -/
def alloc (a : Attrs) : StateM Heap Nat :=
  fun h => (h.next, ⟨h.next + 1, fun r => if r = h.next then a else h.cells r⟩)

/-- el_to_tex/protocols.py 32–53 `GenericMathMLElement`: name, value, a reference to the
attribute dictionary, children. -/
inductive Elem where
  | mk (name value : Str) (aref : Nat) (children : List Elem)

namespace Elem
def name : Elem → Str | mk n _ _ _ => n
def value : Elem → Str | mk _ v _ _ => v
def aref : Elem → Nat | mk _ _ a _ => a
def children : Elem → List Elem | mk _ _ _ c => c
end Elem

namespace Node

/-- `child.nodeType == Node.ELEMENT_NODE` -/
def isElem : Node → Bool
  | elem .. => true
  | _ => false

/-- `nodeValue` of a node (minidom: `None` for elements, never used there). -/
def nodeValue : Node → Str
  | elem .. => []
  | text d => d
  | cdata d => d
  | comment d => d
  | pi _ d => d

end Node

/-- xml_elements_to_mathml_element.py 46–52 `_convert_element_attributes`. -/
def convertAttributes (attrs : List (Str × Str)) : Attrs :=
  attrs.foldl (fun d p => Dict.set d p.1 (if p.2 = p.1 then [] else p.2)) []

/-- xml_elements_to_mathml_element.py 54–55 `_has_element_child`. -/
def hasElementChild (cs : List Node) : Bool := cs.any Node.isElem

/-- xml_elements_to_mathml_element.py 23–25: the raw value of an element. -/
def elementValue (cs : List Node) : Str :=
  if hasElementChild cs then [] else
    match cs with
    | [] => []
    | c :: _ => c.nodeValue

mutual
/-- xml_elements_to_mathml_element.py 20–44 `_convert_element`, for element nodes
(`none` for other nodes, on which it is never called).  Since `children` is computed by
`convert` on the list of the element children, which is empty when there are none, the
test on `has_children` in lines 27–37 is redundant and omitted. -/
def buildElem : Node → StateM Heap (Option Elem)
  | .elem tag attrs cs => do
    let r ← alloc (convertAttributes attrs)
    let children ← buildElems cs
    return some (.mk tag (strip (elementValue cs)) r children)
  | _ => return none
/-- xml_elements_to_mathml_element.py 18 and 28–34: the element children, in order.
(`tagName` of an element is never `None`.) -/
def buildElems : List Node → StateM Heap (List Elem)
  | [] => return []
  | n :: ns => do
    let e ← buildElem n
    let es ← buildElems ns
    return (match e with | some e => e :: es | none => es)
end

mutual
/-- minidom `getElementsByTagName("math")`: preorder, nested matches included. -/
def mathElementsOf : Node → List Node
  | .elem tag attrs cs =>
    (if tag = c!"math" then [.elem tag attrs cs] else []) ++ mathElements cs
  | _ => []
def mathElements : List Node → List Node
  | [] => []
  | n :: ns => mathElementsOf n ++ mathElements ns
end

end Verif
