import Verif.Spec.Arity

/-! # Where the characters of the output come from -/

namespace Verif.Spec

/-- The printable characters of ASCII, from the blank to the tilde. -/
def Plain (c : Char) : Prop := 32 ≤ c.toNat ∧ c.toNat ≤ 126

instance (c : Char) : Decidable (Plain c) := by unfold Plain; infer_instance

/-- The texts of an element of which characters may be copied: the character data of a token, and
the delimiters and separators of a fence. -/
def copied : Node → List Str
  | .elem tag A cs =>
    if tag ∈ [c!"mi", c!"mo", c!"mn", c!"mtext"] then [tokenData cs]
    else if tag = c!"mfenced" then [attr A c!"open", attr A c!"close", attr A c!"separators"]
    else []
  | _ => []

/-- The operators for which a character is written that is neither printable ASCII nor part of the
operator: five accents spelled out as character references, and the sign `⧷` (U+29F7), for which
the tables have a backspace. -/
def foreign : List (Str × Char) :=
  [(c!"&#x2CB;", 'ˋ'), (c!"&#x2CA;", 'ˊ'), (c!"&#x2C9;", 'ˉ'), (c!"&#xB8;", '¸'),
   (c!"&#xB4;", '´'), (c!"&#x29F7;", '\x08'), (c!"⧷", '\x08')]

/-- An operator for which the character `c` is written. -/
def Alien (m : Node) (c : Char) : Prop :=
  ∃ A cs, m = .elem c!"mo" A cs ∧ (normalize (tokenData cs), c) ∈ foreign

end Verif.Spec
