import Verif.Spec.Renders

/-!
# Replacing parts of documents

`Cong R`: the smallest congruence that contains `R`, that is, any number of replacements of nodes
by `R`-related ones, at any places.  `Clos R` is the same except that the base of a script may
only be replaced if the replacement has as many children, as far as parentheses are concerned.
-/

namespace Verif.Spec

/-- The constructs that look at the number of children of their first child. -/
def scriptTags : List Str := [c!"msup", c!"msub", c!"msubsup"]

/-- The element has at least two element children. -/
def wide (n : Node) : Prop := 2 ≤ (childElems n).length

/-- Bases of scripts with the same shape; of `mphantom` nothing is visible anyway. -/
def SameBase (n n' : Node) : Prop :=
  (wide n ↔ wide n') ∨ (tagIs c!"mphantom" n = true ∧ tagIs c!"mphantom" n' = true)

/-- The first element children have the same shape. -/
def SameBases (cs cs' : List Node) : Prop :=
  ∀ x x', (kids cs).head? = some x → (kids cs').head? = some x' → SameBase x x'

/-- Replacements anywhere. -/
inductive Cong (R : Node → Node → Prop) : Node → Node → Prop
  | base {n n'} : R n n' → Cong R n n'
  | refl {n} : Cong R n n
  | symm {n n'} : Cong R n n' → Cong R n' n
  | trans {n n' n''} : Cong R n n' → Cong R n' n'' → Cong R n n''
  | elem {tag A cs cs'} : cs.length = cs'.length → (∀ p ∈ cs.zip cs', Cong R p.1 p.2) →
      Cong R (.elem tag A cs) (.elem tag A cs')

/-- Replacements anywhere, but the shape of bases of scripts is kept. -/
inductive Clos (R : Node → Node → Prop) : Node → Node → Prop
  | base {n n'} : R n n' → Clos R n n'
  | refl {n} : Clos R n n
  | symm {n n'} : Clos R n n' → Clos R n' n
  | trans {n n' n''} : Clos R n n' → Clos R n' n'' → Clos R n n''
  | elem {tag A cs cs'} : cs.length = cs'.length → (∀ p ∈ cs.zip cs', Clos R p.1 p.2) →
      (tag ∈ scriptTags → SameBases cs cs') → Clos R (.elem tag A cs) (.elem tag A cs')

/-- The attributes that matter for an element. -/
def recognised (tag : Str) : List Str :=
  if tag = c!"mi" ∨ tag = c!"mtext" then [c!"mathvariant"]
  else if tag = c!"mfenced" then [c!"open", c!"close", c!"separators"]
  else if tag = c!"mfrac" then [c!"bevelled"]
  else if tag = c!"maction" then [c!"actiontype"]
  else if tag = c!"menclose" then [c!"notation"]
  else if tag = c!"mtable" then [c!"innerTable"]
  else []

/-- The elements whose text matters. -/
def tokenTags : List Str := [c!"mi", c!"mo", c!"mn", c!"mtext"]

end Verif.Spec

namespace Verif.Spec

/-- Documents of the same length, related node by node. -/
def DocRel (R : Node → Node → Prop) (d d' : Doc) : Prop :=
  d.length = d'.length ∧ ∀ p ∈ d.zip d', R p.1 p.2

/-- The input is read as this document, possibly after repairs. -/
def ParsesTo (env : Env) (x : Str) (d : Doc) : Prop :=
  ∃ n y, n < 5 ∧ Consulted env x n y ∧ env.parse y = .ok d

/-- An attribute list as XML allows it: no name twice. -/
def DistinctNames (A : List (Str × Str)) : Prop := (A.map Prod.fst).Nodup

/-- The same element, except that attributes with no meaning for it may differ, as may the order
of the others. -/
inductive SameAttrs : Node → Node → Prop
  | mk {tag A A' cs} : DistinctNames A → DistinctNames A' →
      (∀ k ∈ recognised tag, ∀ v, (k, v) ∈ A ↔ (k, v) ∈ A') →
      SameAttrs (.elem tag A cs) (.elem tag A' cs)

/-- An attribute whose value is its name gets an empty value. -/
inductive SelfNamed : Node → Node → Prop
  | mk {tag A B k cs} : SelfNamed (.elem tag (A ++ (k, k) :: B) cs) (.elem tag (A ++ (k, []) :: B) cs)

/-- Among element children, nodes that are not elements are added or removed. -/
inductive SameKids : Node → Node → Prop
  | mk {tag A cs cs'} : kids cs = kids cs' → kids cs ≠ [] →
      SameKids (.elem tag A cs) (.elem tag A cs')

/-- The character data of a node that is not an element. -/
def dataOf : Node → Str
  | .text d => d
  | .cdata d => d
  | .comment d => d
  | .pi _ d => d
  | .elem _ _ _ => []

/-- Nodes without elements: the first one is replaced by its stripped data, the others go. -/
inductive FirstOnly : Node → Node → Prop
  | mk {tag A n ns} : kids (n :: ns) = [] →
      FirstOnly (.elem tag A (n :: ns)) (.elem tag A [.text (strip (dataOf n))])

/-- Another name without a meaning. -/
inductive Renamed : Node → Node → Prop
  | mk {tag tag' A A' cs} : tag ∉ structured → tag' ∉ structured → tag ≠ c!"mprescripts" →
      tag' ≠ c!"mprescripts" → Renamed (.elem tag A cs) (.elem tag' A' cs)

/-- Another content of `mphantom`, with no `math` in it, and with a table if and only if there
was one. -/
inductive PhantomContent : Node → Node → Prop
  | mk {A A' cs cs'} : maths cs = [] → maths cs' = [] → (HasTable cs ↔ HasTable cs') →
      PhantomContent (.elem c!"mphantom" A cs) (.elem c!"mphantom" A' cs')

/-- Other children of `maction` after the first, with the same provisos, and as long as it does
not become or cease to be an element with a single child. -/
inductive Unselected : Node → Node → Prop
  | mk {A cs cs' x ks ks'} : ¬ isToggle (attr A c!"actiontype") → kids cs = x :: ks →
      kids cs' = x :: ks' → maths ks = [] → maths ks' = [] → (HasTable cs ↔ HasTable cs') →
      (ks = [] ↔ ks' = []) → Unselected (.elem c!"maction" A cs) (.elem c!"maction" A cs')

/-- Without the last proviso. -/
inductive UnselectedWeak : Node → Node → Prop
  | mk {A cs cs' x ks ks'} : ¬ isToggle (attr A c!"actiontype") → kids cs = x :: ks →
      kids cs' = x :: ks' → maths ks = [] → maths ks' = [] → (HasTable cs ↔ HasTable cs') →
      UnselectedWeak (.elem c!"maction" A cs) (.elem c!"maction" A cs')

/-- Constructs that put blanks between the LaTeX of their children. -/
def Spacing (tag : Str) : Prop :=
  tag ∉ structured ∨ tag ∈ [c!"math", c!"msqrt", c!"merror", c!"menclose"]

/-- Some consecutive children are put in a row of their own. -/
inductive Grouped : Node → Node → Prop
  | mk {tag row A A' us vs ws} : Spacing tag → row ∉ structured → kids vs ≠ [] →
      Grouped (.elem tag A (us ++ vs ++ ws)) (.elem tag A (us ++ .elem row A' vs :: ws))

/-- A single element is put in a row of its own. -/
inductive Boxed : Node → Node → Prop
  | mk {row A n} : n.isElem = true → isPre n = false → row ∉ structured → row ≠ c!"mprescripts" →
      Boxed n (.elem row A [n])

end Verif.Spec
