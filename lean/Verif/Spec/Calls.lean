import Verif.Spec.Steps

/-! # How many function calls a document needs at most -/

namespace Verif.Spec

/-- A table or a fence. -/
def isBlock : Node → Bool
  | .elem tag _ _ => tag == c!"mtable" || tag == c!"mfenced"
  | _ => false

/-- The number of elements strictly inside a node. -/
def inside : Node → Nat
  | .elem _ _ cs => (elements cs).length
  | _ => 0

/-- The number of pairs of a table or fence and an element inside it. -/
def blockPairs (n : Node) : Nat := (((elementsOf n).filter isBlock).map inside).sum

mutual
/-- How many tables and fences there are at most on a way down from the node. -/
def blockDepthOf : Node → Nat
  | .elem tag _ cs => (if tag = c!"mtable" ∨ tag = c!"mfenced" then 1 else 0) + blockDepth cs
  | _ => 0
/-- How many tables and fences there are at most on a way down into the document. -/
def blockDepth : List Node → Nat
  | [] => 0
  | n :: ns => max (blockDepthOf n) (blockDepth ns)
end

/-- A bound for the events (beginnings and ends of function calls, calls of library functions) while
an element is built and rendered. -/
def eventsFor (n : Node) : Nat := 200 * size n + 12 * blockPairs n

/-- A bound for the events while a document is converted. -/
def eventsForDoc (d : Doc) : Nat := 300 + 10 * sizes d + ((maths d).map eventsFor).sum

/-- `k` fences inside one another, with a `math` element in each. -/
def fenceTower : Nat → Node
  | 0 => .elem c!"mn" [] [.text c!"1"]
  | k + 1 => .elem c!"mfenced" [] [.elem c!"math" [] [fenceTower k]]

end Verif.Spec
