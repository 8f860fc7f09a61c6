import Verif.Spec.Unicode
import Verif.Spec.Renders

/-! # Vocabulary for the meaning of the symbol tables -/

namespace Verif.Spec

/-- An identifier with the text `k` (up to whitespace) is rendered as `s` in the fonts of its
variant. -/
def IdentAs (k s : Str) : Prop := ∀ (b : Bool) (A : List (Str × Str)) (cs : List Node),
  normalize (tokenData cs) = k → latexIn b (.elem c!"mi" A cs) =
    .ok (applyAll (fonts miVariants [] (attr A c!"mathvariant")) s)

/-- An operator with the text `k` (up to whitespace) is rendered as `s`. -/
def OperAs (k s : Str) : Prop := ∀ (b : Bool) (A : List (Str × Str)) (cs : List Node),
  normalize (tokenData cs) = k → latexIn b (.elem c!"mo" A cs) = .ok s

/-- A number with the text `k` (up to whitespace) is rendered as `s`. -/
def NumAs (k s : Str) : Prop := ∀ (b : Bool) (A : List (Str × Str)) (cs : List Node),
  normalize (tokenData cs) = k → latexIn b (.elem c!"mn" A cs) = .ok s

/-- `\cmd{arg}` -/
def command (cmd arg : Str) : Str := c!"\\" ++ cmd ++ c!"{" ++ arg ++ c!"}"

/-! ## Accents -/

/-- Letters with one mark that are not converted. -/
def unaccented : Str :=
  c!"ĆćĈĉĊċČčĎďĔĕėĜĝĞğĠġĤĥĨĩĭİĹĺĽľŃńŇňŎŏŔŕŘřŚśŜŝŠšŤťŨũŬŭŮůŴŵǦǧǨǩǰǴǵǸǹȞȟȧḂḃḊḋḞḟḠḡḢḣḦḧḰḱḾḿṀṄṅṔṕṖṗṘṙṠṡṪṫẀẁẂẃẄẅẆẇẊẋẌẍẎẏẐẗẘẙẼẽỸỹ"

/-- Letters with one mark that are converted, but not to their accent. -/
def misaccented : Str := c!"Żżṁ"

/-- Letters that do not keep their base letter as the argument of an accent. -/
def misbased : Str := c!"ȇơṁ"

/-! ## Alphabets -/

/-- Runs of capitals and digits in the block of mathematical alphanumeric symbols: first
character, length, first letter, font command. -/
def alphabets : List (Nat × Nat × Char × Str) :=
  [(0x1D400, 26, 'A', c!"mathbf"), (0x1D434, 26, 'A', c!"mathit"), (0x1D49C, 26, 'A', c!"mathcal"),
   (0x1D504, 26, 'A', c!"mathfrak"), (0x1D538, 26, 'A', c!"mathbb"), (0x1D5A0, 26, 'A', c!"mathsf"),
   (0x1D7CE, 10, '0', c!"mathbf"), (0x1D7D8, 10, '0', c!"mathbb")]

/-- The unassigned code points in these runs. -/
def alphabetHoles : List Nat :=
  [0x1D49D, 0x1D4A0, 0x1D4A1, 0x1D4A3, 0x1D4A4, 0x1D4A7, 0x1D4A8, 0x1D4AD, 0x1D506, 0x1D50B, 0x1D50C,
   0x1D515, 0x1D51D, 0x1D53A, 0x1D53F, 0x1D545, 0x1D547, 0x1D548, 0x1D549, 0x1D551]

/-- The character `c` is the letter or digit `l` in the font `f`. -/
def InFont (c : Char) (f : Str) (l : Char) : Prop :=
  (c, l, f) ∈ letterlike ∨
  ∃ start len first, (start, len, first, f) ∈ alphabets ∧ ∃ i < len, c = Char.ofNat (start + i) ∧
    start + i ∉ alphabetHoles ∧ l = Char.ofNat (first.toNat + i)

/-! ## Character references -/

/-- A hexadecimal digit. -/
def hexDigit (n : Nat) : Char := Char.ofNat (if n < 10 then 48 + n else 55 + n)

/-- Hexadecimal digits of a number, without leading zeros. -/
def hex (n : Nat) : Str := if _h : n < 16 then [hexDigit n] else hex (n / 16) ++ [hexDigit (n % 16)]

/-- The character reference of a character, as text. -/
def reference (c : Char) : Str := c!"&#x" ++ hex c.toNat ++ c!";"

/-- The characters of a text as character references. -/
def references (k : Str) : Str := (k.map reference).flatten

/-- Characters whose reference, as the text of an identifier, is not rendered like the character. -/
def identReferenceExceptions : List Str := [c!"\u00a0", c!"⇒", c!"ℂ", c!"∅"]

/-- Characters whose reference, as the text of an operator, is not rendered like the character. -/
def operReferenceExceptions : List Str :=
  [c!"‾", c!"\u0302", c!"¸", c!"⤳", c!"⦁", c!"❘", c!"⋈", c!"∣", c!"▰", c!"▮", c!"■", c!"⋊", c!"⋉", c!"…",
   c!"⟧", c!"⟦", c!"”", c!"“"]

/-- The UTF-8 bytes of a character below U+0800, percent-encoded. -/
def percent (c : Char) : Str :=
  c!"%" ++ hex (192 + c.toNat / 64) ++ c!"%" ++ hex (128 + c.toNat % 64)

/-! ## Greek -/

/-- Greek letters that are no identifiers by their name. -/
def identGreekExceptions : Str := c!"οφΑΒΕΖΗΙΚΜΝΟΡΤΥΧ"

/-- Greek letters that are no operators by their name. -/
def operGreekExceptions : Str := c!"εξφΑΒΕΖΗΙΚΛΜΝΞΟΡΤΧ"

end Verif.Spec
