import Verif.Regex
import Verif.Model.Elements

/-!
# xml_to_mathml/adapter.py and xml_to_mathml/services/error_handler.py
-/

namespace Verif

/-- What the XML parser can do instead of returning a document. -/
inductive ParseErr where
  | expat (code lineno offset : Nat)
  | other (ident : Nat)
deriving DecidableEq, Repr

/-- The exception object of a parse failure. -/
def ParseErr.toExc : ParseErr → Exc
  | .expat c l o => .expat c l o
  | .other i => .parserOther i

/-- The environment: `xml.dom.minidom.parseString` and the class `\w` of `re`.
Both are arbitrary in all theorems. -/
structure Env where
  parse : Str → Except ParseErr Doc
  isWord : Char → Bool

/-- The class `["']` -/
def isQuote (c : Char) : Bool := c == '"' || c == '\''

/-- The class `.` (no DOTALL) -/
def isDot (c : Char) : Bool := c != '\n'

/-- adapter.py 30: `\n|\r\n|\r` -/
def lineBreakPattern : Re :=
  .alt (.chr '\n') (.alt (.seq (.chr '\r') (.chr '\n')) (.chr '\r'))

/-- adapter.py 29–31 `_remove_line_breaks`. -/
def removeLineBreaks (xml : Str) : Str := lineBreakPattern.sub (fun _ => []) xml

/-- adapter.py 33–35 `_remove_ms_word_prefixes`. -/
def removeMsWordPrefixes (xml : Str) : Str := (Re.lit c!"mml:").sub (fun _ => []) xml

/-- error_handler.py 64–74 `_get_word_at_str_pos`, first loop: move `start` back to just
after a blank.  `none` = IndexError (`start - 1` beyond the end of the string). -/
def wordStart (string : Str) : Nat → Option Nat
  | 0 => some 0
  | start + 1 =>
    match string[start]? with
    | none => none
    | some c => if c != ' ' then wordStart string start else some (start + 1)

/-- error_handler.py 72–73, second loop: the characters from `end` up to a blank or `>`. -/
def wordEnd : Str → Str
  | [] => []
  | c :: s => if c != ' ' && c != '>' then c :: wordEnd s else []

/-- error_handler.py 64–74 `_get_word_at_str_pos` (`pos` is a column number, hence
non-negative). -/
def getWordAtStrPos (string : Str) (pos : Nat) : Option Str :=
  match wordStart string pos with
  | none => none
  | some start => some ((string.take pos).drop start ++ wordEnd (string.drop pos))

/-- error_handler.py 42–51 `_match_missing_value_for_attribute`
(MULTILINE has no effect: no anchors). -/
def missingValuePattern (attr : Str) : Re :=
  .alt (.grp 1 (.seq (Re.lit attr) (.seq (.chr '=') (.nla (.grp 2 (.cls isQuote))))))
    (.grp 3 (.seq (Re.lit attr) (.nla (.grp 4 (.cls isQuote)))))

/-- error_handler.py 53–62 `_math_generic_missing_value`. -/
def genericPattern (env : Env) : Re :=
  .seq (.grp 1 (.seq (.chr '<') (.seq (.star isDot) (.chr ' '))))
    (.seq (.opt (.grp 2 (.seq (.plus env.isWord) (.seq (.chr '=') (.nla (.grp 3 (.cls isQuote)))))))
      (.grp 4 (.seq (.star isDot) (.chr '>'))))

/-- error_handler.py 28–40 `_fix_missing_attribute_value`. -/
def fixMissingAttributeValue (code lineno offset : Nat) (xml : Str) : Except Exc Str :=
  if code ≠ 4 then .ok xml
  else
    match pyIndex (splitOn '\n' xml) ((lineno : Int) - 1) with
    | none => .error .indexError
    | some goalLine =>
      match getWordAtStrPos goalLine offset with
      | none => .error .indexError
      | some word => .ok ((missingValuePattern word).sub (fun _ => []) xml)

/-- error_handler.py 22–25: the loop (`xml` does not change in it). -/
def genericLoop (env : Env) (xml : Str) : Nat → Str → Str
  | 0, result => result
  | n + 1, result =>
    if (genericPattern env).search xml then
      genericLoop env xml n ((genericPattern env).sub (fun g => capText 1 g ++ capText 3 g) xml)
    else result

/-- error_handler.py 15–26 `_fix_missing_attribute`. -/
def fixMissingAttribute (env : Env) (code lineno offset : Nat) (xml : Str) : Except Exc Str :=
  match fixMissingAttributeValue code lineno offset xml with
  | .error e => .error e
  | .ok result => if result ≠ xml then .ok result else .ok (genericLoop env xml 5 result)

/-- error_handler.py 9–13 `fix_error`. -/
def fixError (env : Env) (xml : Str) : ParseErr → Except Exc Str
  | .other _ => .ok xml
  | .expat code lineno offset => fixMissingAttribute env code lineno offset xml

/-- adapter.py 37–51 `_mathml_elements` with `n` attempts left: the state `_xml` of the
adapter object is threaded; the second component is its value afterwards. -/
def mathmlElements (env : Env) : Nat → Option Exc → Str → Except Exc (List Node) × Str
  | 0, exception, xml =>
    match exception with
    | some e => (.error e, xml)
    | none => (.ok [], xml)
  | n + 1, _, xml =>
    match env.parse xml with
    | .ok dom => (.ok (mathElements dom), xml)
    | .error e =>
      match fixError env xml e with
      | .error e' => (.error e', xml)
      | .ok xml' => mathmlElements env n (some e.toExc) xml'

/-- adapter.py 12–18: the adapter object; its only mutable field is `_xml`. -/
structure Adapter where
  xml : Str

/-- adapter.py 16 -/
def Adapter.fresh : Adapter := ⟨[]⟩

/-- adapter.py 20–24 `XmlToMathMLAdapter.convert`, up to the conversion of DOM nodes
(see `buildElems`): returns the DOM elements or raises, and updates the object. -/
def Adapter.domElements (env : Env) (_self : Adapter) (xml : Str) :
    Except Exc (List Node) × Adapter :=
  let self1 : Adapter := ⟨removeLineBreaks xml⟩
  let self2 : Adapter := ⟨removeMsWordPrefixes self1.xml⟩
  let r := mathmlElements env 5 none self2.xml
  (r.1, ⟨r.2⟩)

end Verif
