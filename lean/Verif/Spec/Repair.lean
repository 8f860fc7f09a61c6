import Verif.Model.Api

/-!
# Specification of the input adapter

Independent of the regular expressions and loops of the model: what preprocessing removes, what
the two repairs delete, and which texts are handed to the XML parser.
-/

namespace Verif.Spec

/-- Delete every CR and LF. -/
def dropBreaks (s : Str) : Str := s.filter (fun c => c != '\r' && c != '\n')

/-- Delete every `mml:` (scanning from the left). -/
def dropMml : Str → Str
  | 'm' :: 'm' :: 'l' :: ':' :: s => dropMml s
  | c :: s => c :: dropMml s
  | [] => []

/-- The text of the first parse. -/
def prep (s : Str) : Str := dropMml (dropBreaks s)

/-- `s'` arises from `s` by inserting `mml:` after some of the `<` and `</`. -/
inductive Prefixed : Str → Str → Prop
  | nil : Prefixed [] []
  | copy (c : Char) {s s' : Str} : Prefixed s s' → Prefixed (c :: s) (c :: s')
  | openTag {s s' : Str} : Prefixed s s' → Prefixed ('<' :: s) ('<' :: (c!"mml:" ++ s'))
  | closeTag {s s' : Str} : Prefixed s s' →
      Prefixed ('<' :: '/' :: s) ('<' :: '/' :: (c!"mml:" ++ s'))

/-- The text does not begin with a quotation mark. -/
def Unquoted (s : Str) : Prop := ∀ c t, s = c :: t → c ≠ '"' ∧ c ≠ '\''

/-- An occurrence of the word at the beginning of `s` that the code-4 repair deletes: the word
and a directly following `=`, if what comes then is no quotation mark; or the word alone, if
what comes then is no quotation mark (and the first case does not apply).  `t` is the rest. -/
def Deletable (w s t : Str) : Prop :=
  (s = w ++ '=' :: t ∧ Unquoted t) ∨
  (s = w ++ t ∧ Unquoted t ∧ ¬ ∃ u, t = '=' :: u ∧ Unquoted u)

/-- `s'` arises from `s` by deleting, from left to right, every deletable occurrence of the
non-empty word `w`, and nothing else. -/
inductive Deleted (w : Str) : Str → Str → Prop
  | nil : Deleted w [] []
  | delete {s t t' : Str} : Deletable w s t → Deleted w t t' → Deleted w s t'
  | keep {c : Char} {s s' : Str} : (¬ ∃ t, Deletable w (c :: s) t) → Deleted w s s' →
      Deleted w (c :: s) (c :: s')

/-- The degenerate case of an empty word: every `=` not followed by a quotation mark goes. -/
inductive DeletedEq : Str → Str → Prop
  | nil : DeletedEq [] []
  | delete {s s' : Str} : Unquoted s → DeletedEq s s' → DeletedEq ('=' :: s) s'
  | keep {c : Char} {s s' : Str} : ¬ (c = '=' ∧ Unquoted s) → DeletedEq s s' →
      DeletedEq (c :: s) (c :: s')

/-- The word of `x` at column `o`: back to a blank or the beginning, forward to a blank, a `>` or
the end. -/
def WordAt (x : Str) (o : Nat) (w : Str) : Prop :=
  ∃ p u v q, x = p ++ (u ++ (v ++ q)) ∧ (p ++ u).length = o ∧ w = u ++ v ∧
    ' ' ∉ u ∧ (p = [] ∨ ∃ p', p = p' ++ [' ']) ∧
    ' ' ∉ v ∧ '>' ∉ v ∧ (q = [] ∨ ∃ q', q = ' ' :: q' ∨ q = '>' :: q')

/-- The generic repair. -/
inductive Truncated : Str → Str → Prop
  | unchanged {x : Str} : (¬ ∃ a b c d, x = a ++ '<' :: (b ++ ' ' :: (c ++ '>' :: d))) →
      Truncated x x
  | cut {a m t : Str} : '<' ∈ a → ' ' ∉ m → '>' ∉ t →
      Truncated (a ++ ' ' :: (m ++ '>' :: t)) (a ++ ' ' :: t)

/-- The repair of `x` after a parse error. -/
inductive Repaired : Str → ParseErr → Str → Prop
  /-- other exceptions: nothing is changed -/
  | other {x : Str} {i : Nat} : Repaired x (.other i) x
  /-- syntax errors other than code 4 -/
  | generic {x x' : Str} {code line offset : Nat} : code ≠ 4 → Truncated x x' →
      Repaired x (.expat code line offset) x'
  /-- code 4, the word occurs without a quoted value -/
  | word {x x' w : Str} {line offset : Nat} : line ≤ 1 → WordAt x offset w → w ≠ [] →
      Deleted w x x' → x' ≠ x → Repaired x (.expat 4 line offset) x'
  | emptyWord {x x' : Str} {line offset : Nat} : line ≤ 1 → WordAt x offset [] →
      DeletedEq x x' → x' ≠ x → Repaired x (.expat 4 line offset) x'
  /-- code 4, but that changes nothing: the generic repair is used -/
  | wordGeneric {x x' w : Str} {line offset : Nat} : line ≤ 1 → WordAt x offset w → w ≠ [] →
      Deleted w x x → Truncated x x' → Repaired x (.expat 4 line offset) x'
  | emptyWordGeneric {x x' : Str} {line offset : Nat} : line ≤ 1 → WordAt x offset [] →
      DeletedEq x x → Truncated x x' → Repaired x (.expat 4 line offset) x'

/-- The repair itself fails when the reported position is outside of the (one-line) text. -/
def RepairFails (x : Str) (e : ParseErr) : Prop :=
  ∃ line offset, e = .expat 4 line offset ∧ (2 ≤ line ∨ x.length < offset)

/-- `y` is the text of the `n`-th parse (from 0) when converting `x`. -/
inductive Consulted (env : Env) (x : Str) : Nat → Str → Prop
  | first : Consulted env x 0 (prep x)
  | next {n : Nat} {y z : Str} {e : ParseErr} : Consulted env x n y → env.parse y = .error e →
      Repaired y e z → Consulted env x (n + 1) z

/-- What the API returns for a document that is accepted right away. -/
def docResult (d : Doc) : Except Exc Str := convert ⟨fun _ => .ok d, fun _ => false⟩ []

end Verif.Spec
