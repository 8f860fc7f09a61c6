import Verif.Model.Latex

/-! # Whitespace, words and joined text, described without computing them

The vocabulary of the other specifications uses the string operations of the model of Python's
library (`isSpace`, `split`, `strip`, `join`) and the normalisation of the converter.  The
relations below say what these have to be, independently of how they are computed. -/

namespace Verif.Spec

/-- The code points of the whitespace characters of Unicode (bidirectional type WS, B or S, or
category Zs), which is what Python treats as whitespace in a `str`. -/
def whiteCodes : List Nat :=
  [9, 10, 11, 12, 13, 28, 29, 30, 31, 32, 0x85, 0xA0, 0x1680, 0x2000, 0x2001, 0x2002, 0x2003,
   0x2004, 0x2005, 0x2006, 0x2007, 0x2008, 0x2009, 0x200A, 0x2028, 0x2029, 0x202F, 0x205F, 0x3000]

/-- A whitespace character. -/
def White (c : Char) : Prop := c.toNat ∈ whiteCodes

/-- `Words s ws`: `s` consists of the words `ws` in this order, with whitespace around them and
at least one whitespace character between two of them. -/
inductive Words : Str → List Str → Prop
  | none {gap} : (∀ c ∈ gap, White c) → Words gap []
  | last {gap w gap'} : (∀ c ∈ gap, White c) → w ≠ [] → (∀ c ∈ w, ¬ White c) →
      (∀ c ∈ gap', White c) → Words (gap ++ w ++ gap') [w]
  | more {gap w c rest ws} : (∀ c ∈ gap, White c) → w ≠ [] → (∀ c ∈ w, ¬ White c) → White c →
      Words rest ws → Words (gap ++ w ++ c :: rest) (w :: ws)

/-- `Trimmed s t`: `t` is `s` without the whitespace at its ends. -/
def Trimmed (s t : Str) : Prop :=
  (∃ left right, s = left ++ t ++ right ∧ (∀ c ∈ left, White c) ∧ (∀ c ∈ right, White c)) ∧
  (∀ c u, t = c :: u → ¬ White c) ∧ (∀ c u, t = u ++ [c] → ¬ White c)

/-- The strings one after the other with a separator between neighbours. -/
inductive Glued (sep : Str) : List Str → Str → Prop
  | nil : Glued sep [] []
  | one {s} : Glued sep [s] s
  | more {s t ts r} : Glued sep (t :: ts) r → Glued sep (s :: t :: ts) (s ++ sep ++ r)

/-- `Tidied s t`: `t` consists of the words of `s` with single blanks between them. -/
def Tidied (s t : Str) : Prop := ∃ ws, Words s ws ∧ Glued [' '] ws t

/-- The characters that count as letters and digits for `[a-z0-9]` with `re.IGNORECASE`: those of
ASCII and the four characters whose other case is among them. -/
def letterCodes : List Nat :=
  List.range' 0x30 10 ++ List.range' 0x41 26 ++ List.range' 0x61 26 ++ [0x130, 0x131, 0x17F, 0x212A]

end Verif.Spec
