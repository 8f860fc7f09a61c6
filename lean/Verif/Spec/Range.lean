import Verif.Spec.Doc

/-! # Digits and numbers in special positions -/

namespace Verif.Spec

/-- Superscript and subscript digits and n, fractions, numbers in circles: ² ³ ¹ ¼–¾ ⁰ ⁴–⁹ ⁿ ₀–₉ ₙ ⅐–⅞ ①–⑳
⓪ ㉑–㉟ ㊱–㊿. -/
def numerals : List (Nat × Nat) :=
  [(0xb2, 0xb3), (0xb9, 0xb9), (0xbc, 0xbe), (0x2070, 0x2070), (0x2074, 0x2079), (0x207f, 0x2089),
   (0x2099, 0x2099), (0x2150, 0x215e), (0x2460, 0x2473), (0x24ea, 0x24ea), (0x3251, 0x325f), (0x32b1, 0x32bf)]

/-- One of these characters. -/
def Numeral (c : Char) : Prop := ∃ r ∈ numerals, r.1 ≤ c.toNat ∧ c.toNat ≤ r.2

instance (c : Char) : Decidable (Numeral c) := by unfold Numeral; infer_instance

end Verif.Spec
