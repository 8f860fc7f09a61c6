import Verif.Lemmas.Tables

/-! # Vocabulary for token elements -/

namespace Verif.Spec

/-- The value of an attribute of a DOM element: the last occurrence counts, and a value equal to
the name of the attribute reads as empty. -/
def attr? (attrs : List (Str × Str)) (k : Str) : Option Str :=
  (attrs.reverse.find? (fun p => p.1 = k)).map (fun p => if p.2 = k then [] else p.2)

/-- Absent attributes read as empty. -/
def attr (attrs : List (Str × Str)) (k : Str) : Str := (attr? attrs k).getD []

/-- The character data that a token element shows: that of its first child node, whatever kind
of node that is; nothing if there are no children or if there is an element among them. -/
def tokenData (children : List Node) : Str :=
  if (∃ n ∈ children, n.isElem) then []
  else match children with
    | .text d :: _ => d
    | .cdata d :: _ => d
    | .comment d :: _ => d
    | .pi _ d :: _ => d
    | _ => []

/-- The first of the tables with a non-empty entry for `k` gives `v`. -/
inductive Tabulated : List (Dict Str) → Str → Str → Prop
  | here {t ts k v} : (k, v) ∈ t → v ≠ [] → Tabulated (t :: ts) k v
  | skip {t ts k v} : (∀ w, (k, w) ∈ t → w = []) → Tabulated ts k v → Tabulated (t :: ts) k v

/-- No table has a non-empty entry for `k`. -/
def Untabulated (tables : List (Dict Str)) (k : Str) : Prop :=
  ∀ t ∈ tables, ∀ v, (k, v) ∈ t → v = []

/-- The text starts with a letter or digit (`[a-z0-9]`, ignoring case). -/
def StartsAlnum (s : Str) : Prop := ∃ c t, s = c :: t ∧ alnumIgnoreCase c = true

/-- What becomes of a text that is in no table: accented vowels and letters in a special font are
taken apart, everything else stays. -/
inductive Glyph : Str → Str → Prop
  | alnum {k} : StartsAlnum k → Glyph k k
  | accent {k letter accent cmd} : ¬ StartsAlnum k → (k, (letter, accent)) ∈ vowelsWithAccents →
      (accent, cmd) ∈ accentToLtxCmd → Glyph k (c!"\\" ++ cmd ++ c!"{" ++ letter ++ c!"}")
  | font {k letter font} : ¬ StartsAlnum k → (∀ x, (k, x) ∉ vowelsWithAccents) →
      (k, (letter, font)) ∈ specialFontChars → Glyph k (c!"\\" ++ font ++ c!"{" ++ letter ++ c!"}")
  | plain {k} : ¬ StartsAlnum k → (∀ x, (k, x) ∉ vowelsWithAccents) →
      (∀ x, (k, x) ∉ specialFontChars) → Glyph k k

/-- The symbol for a text: the tables first, then the glyph rules. -/
def Symbol (tables : List (Dict Str)) (k s : Str) : Prop :=
  Tabulated tables k s ∨ (Untabulated tables k ∧ Glyph k s)

/-- The symbol of an identifier. -/
def MiSymbol : Str → Str → Prop :=
  Symbol [allMathSymbolsByChar, allMathSymbolsByGlyph, mathNumberByGlyph]

/-- The symbol of an operator. -/
def MoSymbol : Str → Str → Prop :=
  Symbol [allMathOperatorsByChar, allMathOperatorsByGlyph, mathNumberByGlyph]

/-- The LaTeX of a number. -/
def MnSymbol (k s : Str) : Prop :=
  Tabulated [mathNumberByGlyph] k s ∨ (Untabulated [mathNumberByGlyph] k ∧ s = k)

/-- Apply commands to an argument, the first one outermost. -/
def applyAll : List Str → Str → Str
  | [], s => s
  | c :: cs, s => c ++ c!"{" ++ applyAll cs s ++ c!"}"

/-- The fonts of the values of `mathvariant` in `mi`, outermost first. -/
def miVariants : Dict (List Str) :=
  [(c!"bold", [c!"\\mathbf"]),
   (c!"italic", [c!"\\mathit"]),
   (c!"bold-italic", [c!"\\mathbf", c!"\\mathit"]),
   (c!"double-struck", [c!"\\mathbb"]),
   (c!"bold-fraktur", [c!"\\mathbf", c!"\\mathfrak"]),
   (c!"script", [c!"\\mathcal"]),
   (c!"bold-script", [c!"\\mathbf", c!"\\mathcal"]),
   (c!"fraktur", [c!"\\mathfrak"]),
   (c!"sans-serif", [c!"\\mathsf"]),
   (c!"bold-sans-serif", [c!"\\mathbf", c!"\\mathsf"]),
   (c!"sans-serif-italic", [c!"\\mathsf", c!"\\mathit"]),
   (c!"sans-serif-bold-italic", [c!"\\mathbf", c!"\\mathsf", c!"\\mathit"]),
   (c!"monospace", [c!"\\mathtt"])]

/-- The commands of the values of `mathvariant` in `mtext`, outermost first. -/
def textVariants : Dict (List Str) :=
  [(c!"bold", [c!"\\textbf"]),
   (c!"italic", [c!"\\textit"]),
   (c!"bold-italic", [c!"\\textbf", c!"\\textit"]),
   (c!"double-struck", [c!"\\mathbb"]),
   (c!"monospace", [c!"\\mathtt"]),
   (c!"bold-fraktur", [c!"\\mathfrak"]),
   (c!"fraktur", [c!"\\mathfrak"])]

/-- The commands of a variant, with a default for other values. -/
def fonts (variants : Dict (List Str)) (dflt : List Str) (variant : Str) : List Str :=
  match variants.find? (fun p => p.1 = variant) with
  | some p => p.2
  | none => dflt

/-- ASCII letters, digits and the blank. -/
def IsTextChar (c : Char) : Prop :=
  ('0' ≤ c ∧ c ≤ '9') ∨ ('A' ≤ c ∧ c ≤ 'Z') ∨ ('a' ≤ c ∧ c ≤ 'z') ∨ c = ' '

instance (c : Char) : Decidable (IsTextChar c) := by unfold IsTextChar; infer_instance

/-- LaTeX of the text of an `mtext`: maximal runs of letters, digits and blanks are wrapped whole,
other characters are rendered one by one as identifiers. -/
inductive MText (commands : List Str) : Str → Str → Prop
  | nil : MText commands [] []
  | run {w rest out} : w ≠ [] → (∀ c ∈ w, IsTextChar c) → (∀ c t, rest = c :: t → ¬ IsTextChar c) →
      MText commands rest out → MText commands (w ++ rest) (applyAll commands w ++ out)
  | other {c rest s out} : ¬ IsTextChar c → MiSymbol (normalize [c]) s → MText commands rest out →
      MText commands (c :: rest) (s ++ out)

end Verif.Spec
