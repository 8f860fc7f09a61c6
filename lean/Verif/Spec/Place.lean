import Verif.Spec.Renders

/-!
# Places in documents

A place is what is around an element.  `PlaceStep b b' tag A before`: among the children of an element with this
name and these attributes, after these nodes, there is a place at which LaTeX is put as it is.  `b` says
whether the element lies inside an `mtable`, and `b'` whether the children do.
-/

namespace Verif.Spec

/-- The constructs and the positions of their children that are copied. -/
inductive PlaceStep : Bool → Bool → Str → List (Str × Str) → List Node → Prop
  | row {b tag A before} : tag ∉ structured → PlaceStep b b tag A before
  | content {b tag A before} : tag ∈ [c!"msqrt", c!"merror", c!"menclose", c!"mtr", c!"mfenced"] → PlaceStep b b tag A before
  | table {b A before} : PlaceStep b true c!"mtable" A before
  | toggle {b A before} : isToggle (attr A c!"actiontype") → PlaceStep b b c!"maction" A before
  | action {b A before} : ¬ isToggle (attr A c!"actiontype") → kids before = [] → PlaceStep b b c!"maction" A before
  | frac {b A before} : attr A c!"bevelled" = [] → PlaceStep b b c!"mfrac" A before
  | any {b tag A before} : tag ∈ [c!"mroot", c!"munderover"] → PlaceStep b b tag A before
  | script {b tag A before} : tag ∈ [c!"msup", c!"msub", c!"msubsup"] → kids before ≠ [] → PlaceStep b b tag A before
  | base {b tag A before} : tag ∈ [c!"munder", c!"mover"] → kids before = [] → PlaceStep b b tag A before

/-- Places at any depth.  Elements are put into a place by a function. -/
inductive Place : Bool → Bool → (Node → Node) → Prop
  | here {b} : Place b b fun n => n
  | inside {b b1 b' tag A before after F} : PlaceStep b b1 tag A before → Place b1 b' F →
      Place b b' fun n => .elem tag A (before ++ F n :: after)

/-- Both or none of them contains a table. -/
def SameTables (n m : Node) : Prop := HasTable [n] ↔ HasTable [m]

end Verif.Spec
