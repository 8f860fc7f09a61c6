import Verif.Spec.Latex
import Verif.Spec.Commands

/-!
# MathML that has a formula in LaTeX

`Proper inTable q n q'`: after a place where the scripts in `q` are still possible, the element `n`
can be written, and those in `q'` are possible behind it.  The rules exclude what the library turns
into something that is not LaTeX: symbols with undefined commands, commands without their
argument, second scripts on the same base, fences that LaTeX does not have, tables outside of
fences.
-/

namespace Verif.Spec

/-- What a token is in a formula. -/
inductive Effect where
  | nucleus
  | sup
  | sub
  | blank
deriving DecidableEq

/-- The scripts that are possible before and after it. -/
def Effect.Moves : Effect → Room → Room → Prop
  | .nucleus, _, q' => q' = fresh
  | .sup, q, q' => q.sup = true ∧ q' = ⟨false, q.sub⟩
  | .sub, q, q' => q.sub = true ∧ q' = ⟨q.sup, false⟩
  | .blank, q, q' => q' = q

/-- Characters that are written in a special way. -/
structure Signs where
  /-- not as a formula -/
  rough : Str
  /-- as a superscript or prime -/
  sups : Str
  /-- as a subscript -/
  subs : Str
  /-- as a blank -/
  blanks : Str
  /-- escaped -/
  escapes : Str

/-- Those in identifiers. -/
def miSigns : Signs where
  rough := c!"‬‎ß¢‾⎻€●”"
  sups := c!"²⁽⁾ⁿ⁰¹³⁴⁵⁶⁷⁸⁹"
  subs := c!"ₙ₀₁₂₃₄₅₆₇₈₉"
  blanks := c!"त白⿱픀ፈ˘"
  escapes := c!"&%$#\\"

/-- Those in operators. -/
def moSigns : Signs where
  rough := c!"⏡⏠⏟⏞⏝⏜⎵⎴‾ˆ¯⨍⪭⪬⪫⪪⩝⩜⧻⧺⧷⋿≵≳≧⧁⧀◦◗◖●⋯⦘⦗⦐⦏⦎⦍⦌⦋⦈⦇⦆⦅⟧⟦”ο〗€"
  sups := c!"⁗‴″′’⁺⁻⁼⁽⁾ⁿ⁰⁴⁵⁶⁷⁸⁹"
  subs := c!"ₙ₀₁₂₃₄₅₆₇₈₉"
  blanks := c!"˘⤱⤰⤯⤮⤭⤪⤩⤨⤧⤦⤥⤤⤣⤢⤡"
  escapes := c!"&%$#\\~"

/-- Those in numbers. -/
def mnSigns : Signs where
  rough := []
  sups := c!"ⁿ⁰¹²³⁴⁵⁶⁷⁸⁹"
  subs := c!"ₙ₀₁₂₃₄₅₆₇₈₉"
  blanks := []
  escapes := []

/-- What a text is. -/
def Sign (S : Signs) (k : Str) : Effect → Prop
  | .nucleus => k ≠ [] ∧ ((∀ c ∈ k, ordinary c = true) ∨ ∃ c ∈ S.escapes, k = [c]) ∧
      ∀ c, k = [c] → c ∉ S.rough ∧ c ∉ S.sups ∧ c ∉ S.subs ∧ c ∉ S.blanks
  | .sup => (∃ c ∈ S.sups, k = [c]) ∨ (k ≠ [] ∧ ∀ c ∈ k, c = '\'')
  | .sub => ∃ c ∈ S.subs, k = [c]
  | .blank => k = [] ∨ ∃ c ∈ S.blanks, k = [c]

/-- The characters of a text, from left to right. -/
inductive Letters : Room → Str → Room → Prop
  | nil {q} : Letters q [] q
  | text {q q' c s} : IsTextChar c → Letters fresh s q' → Letters q (c :: s) q'
  | other {q q1 q' c s e} : ¬ IsTextChar c → c ∉ disguised → c ≠ '\'' →
      Sign miSigns (normalize [c]) e → e.Moves q q1 → Letters q1 s q' → Letters q (c :: s) q'

/-- Something from `q0` to `q1` stands alone, or is wrapped. -/
def Around (alone wrapped : Prop) (q q0 q1 q' : Room) : Prop :=
  (alone ∧ q0 = q ∧ q1 = q') ∨ (wrapped ∧ q0 = fresh ∧ q' = fresh)

/-- The LaTeX has two characters. -/
def Long (b : Bool) (n : Node) : Prop := ∀ s, Renders b n s → 2 ≤ s.length

/-- The LaTeX has at most one character. -/
def Short (b : Bool) (n : Node) : Prop := ∀ s, Renders b n s → s.length < 2

/-- A script base that stands alone, and one that gets parentheses. -/
def AroundBase (b : Bool) (n : Node) : Room → Room → Room → Room → Prop :=
  Around ((childElems n).length < 2 ∨ Short b n) (2 ≤ (childElems n).length ∧ Long b n)

/-- An accent that is applied as a command. -/
def Accent (b : Bool) (n : Node) : Prop := ∃ s ∈ accentCommands, Renders b n s

/-- The attribute values that are delimiters of LaTeX. -/
def delimiters : List Str :=
  [c!"(", c!")", c!"[", c!"]", c!"|", c!"/", c!".", c!"<", c!">", c!"\\{", c!"\\}", c!"\\|"]

/-- The token of a delimiter. -/
def delimTok (d : Str) : Tok := (tokens d).headD (.char ' ')

/-- Delimiters of a matrix. -/
def Fits (op close : Str) : Prop :=
  (∃ e, ((op, close), e) ∈ environments) ∨ op = close ∨ (op ∈ delimiters ∧ close ∈ delimiters)

/-- The notations with a half of a fence, or with an undefined command. -/
def roughNotations : List Str :=
  [c!"left", c!"right", c!"verticalstrike", c!"horizontalstrike", c!"madruwb"]

/-- A table, possibly inside of rows, and its rows. -/
inductive TableOf : Node → List Node → Prop
  | table {A cs} : attr A c!"innerTable" = [] → TableOf (.elem c!"mtable" A cs) (kids cs)
  | row {tag A cs n rs} : tag ∉ structured → kids cs = [n] → TableOf n rs →
      TableOf (.elem tag A cs) rs

/-- The cells of a row. -/
def cells (r : Node) : List Node := if tagIs c!"mtr" r then childElems r else [r]

/-- The line does not begin with what `\\` would take for itself. -/
def NoOption (r : Node) : Prop :=
  ∀ s, Renders true r s → ∀ t u, tokens s = t :: u → lineOption t = false

/-- The rules. -/
inductive Proper : Bool → Room → Node → Room → Prop
  | row {b q tag A cs} {rooms : Nat → Room} : tag ∉ structured → rooms 0 = q →
      (∀ i (h : i < (kids cs).length), Proper b (rooms i) (kids cs)[i] (rooms (i + 1))) →
      Proper b q (.elem tag A cs) (rooms (kids cs).length)
  | math {b q A cs} {rooms : Nat → Room} : rooms 0 = q →
      (∀ i (h : i < (kids cs).length), Proper b (rooms i) (kids cs)[i] (rooms (i + 1))) →
      Proper b q (.elem c!"math" A cs) (rooms (kids cs).length)
  | mi {b q q0 q1 q' A cs e} : Sign miSigns (normalize (tokenData cs)) e → e.Moves q0 q1 →
      Around (fonts miVariants [] (attr A c!"mathvariant") = [])
        (fonts miVariants [] (attr A c!"mathvariant") ≠ []) q q0 q1 q' →
      Proper b q (.elem c!"mi" A cs) q'
  | mo {b q q' A cs e} : Sign moSigns (normalize (tokenData cs)) e → e.Moves q q' →
      Proper b q (.elem c!"mo" A cs) q'
  | mn {b q q' A cs e} : Sign mnSigns (normalize (tokenData cs)) e → e.Moves q q' →
      Proper b q (.elem c!"mn" A cs) q'
  | mtext {b q q' A cs} : Letters q (strip (tokenData cs)) q' →
      Proper b q (.elem c!"mtext" A cs) q'
  | mphantom {b q A cs} : Proper b q (.elem c!"mphantom" A cs) q
  | msqrt {b q A cs} {rooms : Nat → Room} : rooms 0 = fresh →
      (∀ i (h : i < (kids cs).length), Proper b (rooms i) (kids cs)[i] (rooms (i + 1))) →
      Proper b q (.elem c!"msqrt" A cs) fresh
  | merror {b q A cs} {rooms : Nat → Room} : rooms 0 = fresh →
      (∀ i (h : i < (kids cs).length), Proper b (rooms i) (kids cs)[i] (rooms (i + 1))) →
      Proper b q (.elem c!"merror" A cs) fresh
  | menclose {b q A cs} {rooms : Nat → Room} : attr A c!"notation" ∉ roughNotations →
      rooms 0 = fresh →
      (∀ i (h : i < (kids cs).length), Proper b (rooms i) (kids cs)[i] (rooms (i + 1))) →
      Proper b q (.elem c!"menclose" A cs) fresh
  | mfrac {b q q1 q2 A cs n d} : kids cs = [n, d] → attr A c!"bevelled" = [] →
      Proper b fresh n q1 → Proper b fresh d q2 → Proper b q (.elem c!"mfrac" A cs) fresh
  | bevelled {b q q0 q1 q2 q3 q4 q' A cs n d} : kids cs = [n, d] → attr A c!"bevelled" ≠ [] →
      Around (Short b n) (Long b n) q q0 q1 q2 → Proper b q0 n q1 →
      Around (Short b d) (Long b d) fresh q3 q4 q' → Proper b q3 d q4 →
      Proper b q (.elem c!"mfrac" A cs) q'
  | mroot {b q q1 q2 A cs n i} : kids cs = [n, i] → (∀ s, Renders b i s → ']' ∉ s) →
      Proper b fresh n q1 → Proper b fresh i q2 → Proper b q (.elem c!"mroot" A cs) fresh
  | msup {b q q0 q1 c q2 A cs x e} : kids cs = [x, e] → AroundBase b x q q0 q1 ⟨true, c⟩ →
      Proper b q0 x q1 → Proper b fresh e q2 → Proper b q (.elem c!"msup" A cs) ⟨false, c⟩
  | msub {b q q0 q1 c q2 A cs x e} : kids cs = [x, e] → AroundBase b x q q0 q1 ⟨c, true⟩ →
      Proper b q0 x q1 → Proper b fresh e q2 → Proper b q (.elem c!"msub" A cs) ⟨c, false⟩
  | msubsup {b q q0 q1 q2 q3 A cs x d e} : kids cs = [x, d, e] →
      AroundBase b x q q0 q1 fresh → Proper b q0 x q1 → Proper b fresh d q2 →
      Proper b fresh e q3 → Proper b q (.elem c!"msubsup" A cs) ⟨false, false⟩
  | munderover {b q q2 q3 A cs x d e} : kids cs = [x, d, e] → Proper b q x fresh →
      Proper b fresh d q2 → Proper b fresh e q3 →
      Proper b q (.elem c!"munderover" A cs) ⟨false, false⟩
  | under {b q q1 q2 A cs x a} : kids cs = [x, a] → Proper b fresh x q1 → Proper b fresh a q2 →
      Proper b q (.elem c!"munder" A cs) fresh
  | underAccent {b q q1 A cs x a} : kids cs = [x, a] → Proper b fresh x q1 → Accent b a →
      Proper b q (.elem c!"munder" A cs) fresh
  | over {b q q1 q2 A cs x a} : kids cs = [x, a] → Proper b fresh x q1 → Proper b fresh a q2 →
      Proper b q (.elem c!"mover" A cs) fresh
  | overAccent {b q q1 A cs x a} : kids cs = [x, a] → Proper b fresh x q1 → Accent b a →
      Proper b q (.elem c!"mover" A cs) fresh
  | mmultiscripts {b q q0 q1 q2 q' A cs x ks} {f : Node → Room} : kids cs = x :: ks →
      2 ≤ ks.length →
      (∀ p r, prePair (kids cs) = some (p, r) → Proper b fresh p (f p)) →
      (∀ p r, prePair (kids cs) = some (p, r) → Proper b fresh r (f r)) →
      Around (∀ s, Renders b x s → ∀ c ∈ s, isSpace c = false)
        (∀ s, Renders b x s → ∃ c ∈ s, isSpace c = true)
        (if (prePair (kids cs)).isSome then ⟨false, true⟩ else q) q0 q1 q2 →
      Proper b q0 x q1 →
      (∀ p r, postPair (kids cs) = some (p, r) → Proper b fresh p (f p)) →
      (∀ p r, postPair (kids cs) = some (p, r) → Proper b fresh r (f r)) →
      (if (postPair (kids cs)).isSome then q2 = fresh ∧ q' = ⟨false, false⟩ else q' = q2) →
      Proper b q (.elem c!"mmultiscripts" A cs) q'
  | toggle {b q A cs} {rooms : Nat → Room} : isToggle (attr A c!"actiontype") → rooms 0 = q →
      (∀ i (h : i < (kids cs).length),
        Proper b (if i = 0 then q else fresh) (kids cs)[i] (rooms (i + 1))) →
      Proper b q (.elem c!"maction" A cs) (rooms (kids cs).length)
  | maction {b q q' A cs x ks} : ¬ isToggle (attr A c!"actiontype") → kids cs = x :: ks →
      Proper b q x q' → Proper b q (.elem c!"maction" A cs) q'
  | mfenced {b q A cs} {f : Node → Room} : ¬ HasTable cs →
      orElse (attr A c!"open") c!"(" ∈ delimiters → orElse (attr A c!"close") c!")" ∈ delimiters →
      (∀ c ∈ attr A c!"separators", ordinary c = true ∧ isLetter c = false ∧ isSpace c = false) →
      (∀ n ∈ kids cs, Proper b fresh n (f n)) →
      Proper b q (.elem c!"mfenced" A cs) fresh
  | matrix {q A cs t rs} {f : Node → Room} : kids cs = [t] → TableOf t rs →
      Fits (attr A c!"open") (attr A c!"close") →
      (∀ r ∈ rs, ∀ c ∈ cells r, Proper true fresh c (f c)) → (∀ r ∈ rs.tail, NoOption r) →
      Proper false q (.elem c!"mfenced" A cs) fresh
  | inMatrix {b q q1 A cs t} : kids cs = [t] → HasTable cs →
      Fits (attr A c!"open") (attr A c!"close") → Proper b fresh t q1 →
      Proper b q (.elem c!"mfenced" A cs) fresh
  | innerTable {b q A cs} {f : Node → Room} : b = true ∨ attr A c!"innerTable" ≠ [] →
      (∀ r ∈ kids cs, ∀ c ∈ cells r, Proper true fresh c (f c)) →
      (∀ r ∈ (kids cs).tail, NoOption r) → Proper b q (.elem c!"mtable" A cs) fresh

end Verif.Spec
