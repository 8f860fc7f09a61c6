import Verif.Spec.Context

/-! # Rows directly inside `math` -/

namespace Verif.Spec

/-- `Dissolved ns ms`: some rows among the nodes `ns` are replaced by their content, at any depth as
long as only rows are around them, and nodes that are not elements are removed. -/
inductive Dissolved : List Node → List Node → Prop
  | nil : Dissolved [] []
  | skip {n ns ms} : n.isElem = false → Dissolved ns ms → Dissolved (n :: ns) ms
  | keep {n ns ms} : Dissolved ns ms → Dissolved (n :: ns) (n :: ms)
  | row {tag A cs ks ns ms} : tag ∉ structured → Dissolved cs ks → Dissolved ns ms →
      Dissolved (.elem tag A cs :: ns) (ks ++ ms)

/-- This happens to the children of a `math` element. -/
inductive Opened : Node → Node → Prop
  | mk {A cs ks} : Dissolved cs ks → Opened (.elem c!"math" A cs) (.elem c!"math" A ks)

mutual
/-- All rows replaced by their content, everything but elements removed: what an element leaves. -/
def bare : Node → List Node
  | .elem tag A cs => if tag ∈ structured then [.elem tag A cs] else bares cs
  | _ => []
/-- The same for lists. -/
def bares : List Node → List Node
  | [] => []
  | n :: ns => bare n ++ bares ns
end

/-- No name in the element has a meaning, and so there is nothing to show: the text of an
`annotation`, Content MathML in an `annotation-xml`, spaces. -/
def Quiet (n : Node) : Prop :=
  ∀ m ∈ elementsOf n, ∀ t ∈ structured, tagIs t m = false

/-- What matters about an element without `math` inside it, besides its LaTeX: whether it is a mark
between scripts, whether there is a table in it, and whether it has two children. -/
structure Interchangeable (n n' : Node) : Prop where
  elems : n.isElem = true ∧ n'.isElem = true
  latex : ∀ inTable, latexIn inTable n = latexIn inTable n'
  mark : tagIs c!"mprescripts" n = tagIs c!"mprescripts" n'
  table : (∃ m ∈ elementsOf n, tagIs c!"mtable" m = true) ↔
    ∃ m ∈ elementsOf n', tagIs c!"mtable" m = true
  wide : wide n ↔ wide n'
  maths : maths [n] = [] ∧ maths [n'] = []

end Verif.Spec
