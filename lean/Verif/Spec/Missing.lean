import Verif.Spec.Repair

/-! # Attributes without a value -/

namespace Verif.Spec

/-- `y` is `z` with the word `w` (which contains neither a blank nor `>`) inserted between a blank
and a blank or `>`; there is no other occurrence of `w` in `y`, except before a quotation mark.
The column `o` is that of a character of the word or of the character after it. -/
def Lone (w y z : Str) (o : Nat) : Prop :=
  ∃ pre post, y = pre ++ ' ' :: (w ++ post) ∧ z = pre ++ ' ' :: post ∧
    w ≠ [] ∧ ' ' ∉ w ∧ '>' ∉ w ∧ (∃ rest, post = ' ' :: rest ∨ post = '>' :: rest) ∧
    (∀ a b, y = a ++ (w ++ b) → Unquoted b → a = pre ++ [' ']) ∧
    pre.length + 1 ≤ o ∧ o ≤ pre.length + 1 + w.length

/-- Starting from `y`, the parser complains `k` times about an attribute without a value (`name=`
with nothing after it), at the column of that attribute, and what is left is `z`. -/
inductive Gaps (env : Env) : Nat → Str → Str → Prop
  | none {y} : Gaps env 0 y y
  | one {k y y' z name line o} : env.parse y = .error (.expat 4 line o) → line ≤ 1 →
      Lone (name ++ ['=']) y y' o → Gaps env k y' z → Gaps env (k + 1) y z

/-- A text some of whose attributes have no value: characters, and places where only the name and
the `=` of an attribute stand. -/
inductive GapTok
  | ch (c : Char)
  | gap (name : Str)
  deriving DecidableEq

/-- The text, with those attributes without a value whose name is in `S` and without the others. -/
def written (S : Str → Bool) : List GapTok → Str
  | [] => []
  | .ch c :: ts => c :: written S ts
  | .gap n :: ts => (if S n then n ++ ['='] else []) ++ written S ts

/-- Each attribute without a value has a name, stands after a blank and before a blank or `>`. -/
def Placed (ts : List GapTok) : Prop :=
  ∀ p n q, ts = p ++ .gap n :: q → n ≠ [] ∧ (∀ c ∈ n, c ≠ ' ' ∧ c ≠ '>' ∧ c ≠ '=') ∧
    (∃ p', p = p' ++ [.ch ' ']) ∧ ∃ q', q = .ch ' ' :: q' ∨ q = .ch '>' :: q'

/-- The name and the `=` of an attribute without a value occur elsewhere only before a quotation
mark, and its name is not the end of the name of another one. -/
def Distinguished (ts : List GapTok) : Prop :=
  ∀ n, .gap n ∈ ts →
    (∀ a b, written (fun _ => false) ts = a ++ (n ++ '=' :: b) → ¬ Unquoted b) ∧
    ∀ m a, .gap m ∈ ts → m = a ++ n → a = []

/-- The parser complains about the first attribute without a value, at its column, whichever names
are still there. -/
def Points (env : Env) (ts : List GapTok) : Prop :=
  ∀ S p n q, ts = p ++ .gap n :: q → S n = true → (∀ m, .gap m ∈ p → S m = false) →
    ∃ o, env.parse (written S ts) = .error (.expat 4 1 o) ∧
      (written S p).length ≤ o ∧ o ≤ (written S p).length + n.length + 1

end Verif.Spec
