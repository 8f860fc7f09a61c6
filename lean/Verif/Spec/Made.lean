import Verif.Spec.History

/-!
# Elements made by hand

A tree of `GenericMathMLElement`s that a program makes for itself and gives to
`MathMLElementToLatexConverterAdapter`.  Dictionaries may be shared; an element that occurs in several
places is the same as several elements with the same dictionary.
-/

namespace Verif.Spec

mutual
/-- The same names, values and attributes; the dictionaries may be different objects. -/
inductive SameTree (h h' : Heap) : Elem → Elem → Prop
  | mk {n v r r' cs cs'} : h.cells r = h'.cells r' → SameTrees h h' cs cs' →
      SameTree h h' (.mk n v r cs) (.mk n v r' cs')
/-- The same for lists. -/
inductive SameTrees (h h' : Heap) : List Elem → List Elem → Prop
  | nil : SameTrees h h' [] []
  | cons {e e' es es'} : SameTree h h' e e' → SameTrees h h' es es' →
      SameTrees h h' (e :: es) (e' :: es')
end

/-- `TableIn b e b' r`: in the element `e`, which is inside a table if `b`, there is a table with the
dictionary `r`, which is inside another table if `b'`. -/
inductive TableIn : Bool → Elem → Bool → Nat → Prop
  | here {b v r cs} : TableIn b (.mk c!"mtable" v r cs) b r
  | inTable {b v r cs c b' r'} : c ∈ cs → TableIn true c b' r' → TableIn b (.mk c!"mtable" v r cs) b' r'
  | inOther {b n v r cs c b' r'} : n ≠ c!"mtable" → c ∈ cs → TableIn b c b' r' →
      TableIn b (.mk n v r cs) b' r'

/-- No table that is inside a table shares its dictionary with a table that is not. -/
def Unshared (e : Elem) : Prop := ∀ r, TableIn false e true r → ¬ TableIn false e false r

end Verif.Spec
