import Verif.Spec.Xml
import Verif.Spec.Missing

/-!
# Where expat reports that an attribute has no value

`Correct` says what a parser does with XML.  The library also depends on the position that the parser
reports for texts that are not XML.  Here is what expat does in one situation, written from its
tokenizer (`scanAtts` in xmltok_impl.c): a tag is scanned from the left, and the scan stops at the first
character that is not what has to follow, with the error 4 (`XML_ERROR_INVALID_TOKEN`) and the position
of this character.
-/

namespace Verif.Spec.Xml

/-- The beginning of a document, up to a place where a start tag can stand. -/
inductive Inside : Str → Prop
  | root {v m t k ns ks} : v ∈ declarations → Misc m ns →
      (t = [] ∨ Doctype blank (fun _ => true) (fun c => legal c && c != '\r') t) → Misc k ks →
      Inside (v ++ (m ++ (t ++ k)))
  | down {p n a as x ns} : Inside p → Name n → Attributes a as → Distinct as → Content x ns →
      Inside (p ++ '<' :: (n ++ (a ++ '>' :: x)))

/-- The beginning of a document, up to a place in a start tag after its name and some attributes. -/
def InTag (u : Str) : Prop :=
  ∃ p n a as, Inside p ∧ Name n ∧ Attributes a as ∧ u = p ++ '<' :: (n ++ a)

/-- The beginning of a document, up to the end of the name of an attribute. -/
def Named (u : Str) : Prop :=
  ∃ t w m, InTag t ∧ w ≠ [] ∧ (∀ c ∈ w, blank c = true) ∧ AttrName m ∧ u = t ++ (w ++ m)

/-- The text is on one line. -/
def OneLine (u : Str) : Prop := ∀ c ∈ u, c ≠ '\n' ∧ c ≠ '\r'

/-- After the name of an attribute comes `=`, perhaps with blanks around it, and then a quotation mark.
The parser complains about the first character that is something else. -/
def Precise (env : Env) : Prop :=
  (∀ u e e' c v, Named u → (∀ b ∈ e, blank b = true) → (∀ b ∈ e', blank b = true) →
    OneLine (u ++ (e ++ '=' :: e')) → gap c = false → c ≠ '"' → c ≠ '\'' →
    env.parse ((u ++ (e ++ '=' :: e')) ++ c :: v) = .error (.expat 4 1 (u ++ (e ++ '=' :: e')).length)) ∧
  (∀ u e c v, Named u → (∀ b ∈ e, blank b = true) → OneLine (u ++ e) → gap c = false → c ≠ '=' →
    (e = [] → c.toNat < 128 ∧ nameChar c = false ∧ c ≠ ':') →
    env.parse ((u ++ e) ++ c :: v) = .error (.expat 4 1 (u ++ e).length))

/-- Each attribute without a value stands at the end of a start tag, after a blank and directly before
the `>`. -/
def AtEnds (ts : List GapTok) : Prop :=
  ∀ p n q, ts = p ++ .gap n :: q → AttrName n ∧
    (∃ p', p = p' ++ [.ch ' '] ∧ InTag (written (fun _ => false) p')) ∧ ∃ q', q = .ch '>' :: q'

end Verif.Spec.Xml
