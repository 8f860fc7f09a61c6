import Verif.Model.Elements

/-!
# How deeply elements are nested
-/

namespace Verif.Spec

mutual
/-- The number of elements on a longest path from a node downwards: how many tags are open at
most at the same time while the node is written down. -/
def levels : Node → Nat
  | .elem _ _ cs => 1 + levelsAll cs
  | _ => 0
/-- The same for several nodes side by side. -/
def levelsAll : List Node → Nat
  | [] => 0
  | n :: ns => max (levels n) (levelsAll ns)
end

end Verif.Spec
