import Verif.Spec.Threads
import Verif.Spec.Size

/-! # How many steps a document needs at most -/

namespace Verif.Spec

/-- An element named `mtable`. -/
def isTable : Node → Bool
  | .elem tag _ _ => tag == c!"mtable"
  | _ => false

/-- The tables of a node, in document order. -/
def tablesOf (n : Node) : List Node := (elementsOf n).filter isTable

/-- The tables strictly inside a node. -/
def tablesInside : Node → List Node
  | .elem _ _ cs => (elements cs).filter isTable
  | _ => []

/-- The number of pairs of a table and a table inside it. -/
def tablePairs (n : Node) : Nat := ((tablesOf n).map fun t => (tablesInside t).length).sum

/-- A bound for the steps that converting an element takes. -/
def stepsFor (n : Node) : Nat := 4 * size n + tablePairs n

/-- A bound for the steps that converting a document takes. -/
def stepsForDoc (d : Doc) : Nat := ((maths d).map stepsFor).sum

/-- `k` tables inside one another, each in the only cell of the one around it. -/
def tableTower : Nat → Node
  | 0 => .elem c!"mn" [] [.text c!"1"]
  | k + 1 => .elem c!"mtable" [] [.elem c!"mtr" [] [.elem c!"mtd" [] [tableTower k]]]

end Verif.Spec
