import Verif.Spec.Renders

/-! # The size of a document -/

namespace Verif.Spec

/-- The characters in names and values of attributes. -/
def attrsSize : List (Str × Str) → Nat
  | [] => 0
  | p :: ps => p.1.length + p.2.length + attrsSize ps

mutual
/-- The size of a node: one for the node and one for each character in it. -/
def size : Node → Nat
  | .elem tag A cs => 1 + tag.length + attrsSize A + sizes cs
  | .text d => 1 + d.length
  | .cdata d => 1 + d.length
  | .comment d => 1 + d.length
  | .pi t d => 1 + t.length + d.length
/-- The size of a list of nodes. -/
def sizes : List Node → Nat
  | [] => 0
  | n :: ns => size n + sizes ns
end

mutual
/-- How many `math` elements there are at most on a way down from the node. -/
def mathDepthOf : Node → Nat
  | .elem tag _ cs => (if tag = c!"math" then 1 else 0) + mathDepth cs
  | _ => 0
/-- How many `math` elements there are at most on a way down into the document. -/
def mathDepth : List Node → Nat
  | [] => 0
  | n :: ns => max (mathDepthOf n) (mathDepth ns)
end

/-- No `math` element inside another one. -/
def Unnested (d : Doc) : Prop :=
  ∀ tag A cs, .elem tag A cs ∈ maths d → maths cs = []

end Verif.Spec
