import Verif.Model.Latex

/-! # Histories of a tree of elements -/

namespace Verif.Spec

/-- The element itself or one of its descendants. -/
inductive Within : Elem → Elem → Prop
  | self {e} : Within e e
  | child {e c e'} : c ∈ e.children → Within e' c → Within e' e

/-- What may have happened to a tree of elements in a process: converters have been created for
some of its elements, and `convert` has been called on some of these converters, any number of
times in any order, with or without success.  The state consists of the converters in existence,
each with its element, and the heap. -/
inductive History (root : Elem) (h0 : Heap) : List (Elem × M Str) → Heap → Prop
  | start : History root h0 [] h0
  | create {ks h e k h'} : History root h0 ks h → Within e root → toConv e h = (.ok k, h') →
      History root h0 ((e, k) :: ks) h'
  | convert {ks h e k} : History root h0 ks h → (e, k) ∈ ks → History root h0 ks (k h).2

end Verif.Spec
