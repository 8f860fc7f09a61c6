import Verif.Spec.Repair

/-!
# XML texts and the documents they stand for

The part of XML 1.0 that occurs in practice for MathML, written from the recommendation (production
numbers in brackets) and independently of the library and of any parser.  Left out: declarations
inside of document type declarations and entities that have to be declared, names outside of ASCII,
prefixes other than the declaration `xmlns:mml`.  The DOM is the one of `minidom`: character data
between two pieces of markup is one text node; the node of the document type, which the library
ignores, is not listed.
-/

namespace Verif.Spec.Xml

/-- [2] the characters of XML -/
def legal (c : Char) : Bool :=
  c == '\t' || c == '\n' || c == '\r' || (32 ≤ c.toNat && c.toNat != 0xFFFE && c.toNat != 0xFFFF)

/-- [3] white space; carriage returns are gone, see `eol` -/
def blank (c : Char) : Bool := c == ' ' || c == '\t' || c == '\n'

/-- [4] first characters of names -/
def nameStart (c : Char) : Bool :=
  ('a' ≤ c && c ≤ 'z') || ('A' ≤ c && c ≤ 'Z') || c == '_'

/-- [4a] characters of names -/
def nameChar (c : Char) : Bool := nameStart c || ('0' ≤ c && c ≤ '9') || c == '-' || c == '.'

/-- [5] -/
def Name (n : Str) : Prop := (∃ c t, n = c :: t ∧ nameStart c = true) ∧ ∀ c ∈ n, nameChar c = true

/-- The value of a digit. -/
def digit (c : Char) : Option Nat :=
  if '0' ≤ c ∧ c ≤ '9' then some (c.toNat - '0'.toNat)
  else if 'a' ≤ c ∧ c ≤ 'f' then some (c.toNat - 'a'.toNat + 10)
  else if 'A' ≤ c ∧ c ≤ 'F' then some (c.toNat - 'A'.toNat + 10)
  else none

/-- `Numeral b ds n`: the digits `ds` are the number `n` in base `b`. -/
inductive Numeral (b : Nat) : Str → Nat → Prop
  | one {c k} : digit c = some k → k < b → Numeral b [c] k
  | more {ds n c k} : Numeral b ds n → digit c = some k → k < b → Numeral b (ds ++ [c]) (b * n + k)

/-- The five entities that need no declaration. -/
def entities : List (Str × Char) :=
  [(c!"lt", '<'), (c!"gt", '>'), (c!"amp", '&'), (c!"quot", '"'), (c!"apos", '\'')]

/-- [66], [68] what stands between `&` and `;` -/
inductive Refers : Str → Char → Prop
  | entity {r c} : (r, c) ∈ entities → Refers r c
  | dec {ds c} : Numeral 10 ds c.toNat → legal c = true → Refers ('#' :: ds) c
  | hex {ds c} : Numeral 16 ds c.toNat → legal c = true → Refers ('#' :: 'x' :: ds) c

/-- Characters and references: `ok` says which characters may stand for themselves, and `as` what
they stand for. -/
inductive Spelled (ok : Char → Bool) (as : Char → Char) : Str → Str → Prop
  | nil : Spelled ok as [] []
  | raw {c x d} : ok c = true → Spelled ok as x d → Spelled ok as (c :: x) (as c :: d)
  | ref {r c x d} : Refers r c → Spelled ok as x d →
      Spelled ok as ('&' :: (r ++ ';' :: x)) (c :: d)

/-- [14] the characters of texts -/
def textOk (c : Char) : Bool := legal c && c != '<' && c != '&' && c != '\r'

/-- [10] the characters of attribute values between the quotation marks `q` -/
def valueOk (q c : Char) : Bool := textOk c && c != q

/-- Normalisation of attribute values: line breaks and tabs count as blanks. -/
def valueAs (c : Char) : Char := if blank c then ' ' else c

/-- Names of attributes. -/
def AttrName (n : Str) : Prop := Name n ∨ n = c!"xmlns:mml"

/-- [41] attributes, each after white space -/
inductive Attributes : Str → List (Str × Str) → Prop
  | nil {w} : (∀ c ∈ w, blank c = true) → Attributes w []
  | cons {w n e e' q v d x as} : w ≠ [] → (∀ c ∈ w, blank c = true) → AttrName n →
      (∀ c ∈ e, blank c = true) → (∀ c ∈ e', blank c = true) → q = '"' ∨ q = '\'' →
      Spelled (valueOk q) valueAs v d → Attributes x as →
      Attributes (w ++ (n ++ (e ++ '=' :: (e' ++ q :: (v ++ q :: x))))) ((n, d) :: as)

/-- Declarations of namespaces. -/
def nsNames : List Str := [c!"xmlns", c!"xmlns:mml"]

/-- The names of namespaces that may not be declared. -/
def reserved : List Str :=
  [c!"http://www.w3.org/XML/1998/namespace", c!"http://www.w3.org/2000/xmlns/"]

/-- No attribute occurs twice, and a namespace is declared in front of the other attributes if at
all. -/
def Distinct (as : List (Str × Str)) : Prop :=
  (as.map fun p => p.1).Nodup ∧
  (∀ p ∈ as.tail, p.1 ∉ nsNames) ∧
  ∀ p ∈ as, p.1 ∈ nsNames → p.2 ≠ [] ∧ ' ' ∉ p.2 ∧ p.2 ∉ reserved

/-- `u` does not occur in `s`. -/
def Without (u s : Str) : Prop := ¬ ∃ p q, s = p ++ (u ++ q)

/-- The nodes do not begin with a text. -/
def NoText (ns : List Node) : Prop := ∀ d ms, ns ≠ .text d :: ms

/-- [43] the content of an element -/
inductive Content : Str → List Node → Prop
  | nil : Content [] []
  | text {x d y ns} : x ≠ [] → Spelled textOk id x d → Without c!"]]>" x → NoText ns →
      Content y ns → Content (x ++ y) (.text d :: ns)
  | empty {n a as y ns} : Name n → Attributes a as → Distinct as → Content y ns →
      Content ('<' :: (n ++ (a ++ '/' :: '>' :: y))) (.elem n as [] :: ns)
  | elem {n a as x ms w y ns} : Name n → Attributes a as → Distinct as → Content x ms →
      (∀ c ∈ w, blank c = true) → Content y ns →
      Content ('<' :: (n ++ (a ++ '>' :: (x ++ '<' :: '/' :: (n ++ (w ++ '>' :: y))))))
        (.elem n as ms :: ns)
  | comment {t y ns} : (∀ c ∈ t, legal c = true ∧ c ≠ '\r') → Without c!"--" (t ++ c!"-") →
      Content y ns → Content (c!"<!--" ++ (t ++ (c!"-->" ++ y))) (.comment t :: ns)
  | cdata {t y ns} : t ≠ [] → (∀ c ∈ t, legal c = true ∧ c ≠ '\r') → Without c!"]]>" t →
      Content y ns → Content (c!"<![CDATA[" ++ (t ++ (c!"]]>" ++ y))) (.cdata t :: ns)
  | pi {t w d y ns} : Name t → t.map Char.toLower ≠ c!"xml" → (∀ c ∈ w, blank c = true) →
      (w = [] → d = []) → (∀ c u, d = c :: u → blank c = false) →
      (∀ c ∈ d, legal c = true ∧ c ≠ '\r') → Without c!"?>" d →
      Content y ns → Content (c!"<?" ++ (t ++ (w ++ (d ++ (c!"?>" ++ y))))) (.pi t d :: ns)

/-- [27] what may stand before and after the root element -/
inductive Misc : Str → List Node → Prop
  | blanks {w} : (∀ c ∈ w, blank c = true) → Misc w []
  | node {w x n y ns} : (∀ c ∈ w, blank c = true) → Content x [n] →
      (∃ t, n = .comment t) ∨ (∃ t d, n = .pi t d) → Misc y ns → Misc (w ++ (x ++ y)) (n :: ns)

/-- [23] declarations of the version -/
def declarations : List Str :=
  [[], c!"<?xml version=\"1.0\"?>", c!"<?xml version=\"1.0\" encoding=\"UTF-8\"?>",
   c!"<?xml version=\"1.0\" encoding=\"utf-8\"?>"]

/-- [13] the characters of public identifiers -/
def pubid (c : Char) : Bool :=
  c == ' ' || c == '\n' || ('a' ≤ c && c ≤ 'z') || ('A' ≤ c && c ≤ 'Z') || ('0' ≤ c && c ≤ '9') ||
    c!"-'()+,./:=?;!*#@$_%".contains c

/-- Something quoted. -/
def Literal (ok : Char → Bool) (x : Str) : Prop :=
  ∃ q l, (q = '"' ∨ q = '\'') ∧ (∀ c ∈ l, ok c = true ∧ c ≠ q) ∧ x = q :: (l ++ [q])

/-- White space, with at least one character of the kind `must`. -/
def Space (ws must : Char → Bool) (w : Str) : Prop :=
  (∀ c ∈ w, ws c = true) ∧ ∃ c ∈ w, must c = true

/-- [28], [75] document type declarations without an internal subset; `ws` and `must` say what
white space is, `ok` which characters may be quoted. -/
inductive Doctype (ws must ok : Char → Bool) : Str → Prop
  | plain {w n w'} : Space ws must w → Name n → (∀ c ∈ w', ws c = true) →
      Doctype ws must ok (c!"<!DOCTYPE" ++ (w ++ (n ++ (w' ++ c!">"))))
  | system {w n w₁ w₂ l w'} : Space ws must w → Name n → Space ws must w₁ → Space ws must w₂ →
      Literal ok l → (∀ c ∈ w', ws c = true) →
      Doctype ws must ok
        (c!"<!DOCTYPE" ++ (w ++ (n ++ (w₁ ++ (c!"SYSTEM" ++ (w₂ ++ (l ++ (w' ++ c!">"))))))))
  | «public» {w n w₁ w₂ p w₃ l w'} : Space ws must w → Name n → Space ws must w₁ →
      Space ws must w₂ → Literal (fun c => pubid c && ok c) p → Space ws must w₃ → Literal ok l →
      (∀ c ∈ w', ws c = true) →
      Doctype ws must ok (c!"<!DOCTYPE" ++
        (w ++ (n ++ (w₁ ++ (c!"PUBLIC" ++ (w₂ ++ (p ++ (w₃ ++ (l ++ (w' ++ c!">"))))))))))

/-- Ends of lines are handed on as line feeds. -/
def eol : Str → Str
  | '\r' :: '\n' :: s => '\n' :: eol s
  | '\r' :: s => '\n' :: eol s
  | c :: s => c :: eol s
  | [] => []

/-- [1] documents -/
def Document (x : Str) (d : Doc) : Prop :=
  ∃ v m t k e m' ns ks n ns', eol x = v ++ (m ++ (t ++ (k ++ (e ++ m')))) ∧ v ∈ declarations ∧
    Misc m ns ∧ (t = [] ∨ Doctype blank (fun _ => true) (fun c => legal c && c != '\r') t) ∧
    Misc k ks ∧ Content e [n] ∧ n.isElem = true ∧ Misc m' ns' ∧ d = ns ++ (ks ++ n :: ns')

/-- The parser does what XML says. -/
def Correct (env : Env) : Prop := ∀ x d, Document x d → env.parse x = .ok d

/-! ## Layout -/

/-- White space in the file, line ends of any system included. -/
def gap (c : Char) : Bool := blank c || c == '\r'

/-- The attributes of a tag as they may stand in a file: every attribute after a blank or a tab, line
breaks only between names and values. -/
inductive Tagged : List (Str × Str) → Str → Prop
  | nil {w} : (∀ c ∈ w, gap c = true) → Tagged [] w
  | cons {w n e e' q v d as x} : (∀ c ∈ w, gap c = true) → (∃ c ∈ w, c = ' ' ∨ c = '\t') →
      AttrName n → (∀ c ∈ e, gap c = true) → (∀ c ∈ e', gap c = true) → q = '"' ∨ q = '\'' →
      Spelled (fun c => valueOk q c && c != '\n') valueAs v d → Tagged as x →
      Tagged ((n, d) :: as) (w ++ (n ++ (e ++ '=' :: (e' ++ q :: (v ++ q :: x)))))

/-- `Printed i ns y`: the nodes `ns` as they may stand in a file.  If `i`, the nodes are elements,
and there may be white space and comments around each of them.  There are no line breaks in texts
and in CDATA sections. -/
inductive Printed : Bool → List Node → Str → Prop
  | nil {i w} : (∀ c ∈ w, gap c = true) → (i = false → w = []) → Printed i [] w
  | text {x d y ns} : x ≠ [] → Spelled (fun c => textOk c && c != '\n') id x d → Without c!"]]>" x →
      NoText ns → Printed false ns y → Printed false (.text d :: ns) (x ++ y)
  | cdata {t y ns} : t ≠ [] → (∀ c ∈ t, legal c = true ∧ c ≠ '\r' ∧ c ≠ '\n') → Without c!"]]>" t →
      Printed false ns y →
      Printed false (.cdata t :: ns) (c!"<![CDATA[" ++ (t ++ (c!"]]>" ++ y)))
  | comment {w t y ns} : (∀ c ∈ w, gap c = true) → (∀ c ∈ t, legal c = true) →
      Without c!"--" (dropBreaks t ++ c!"-") → Printed true ns y →
      Printed true ns (w ++ (c!"<!--" ++ (t ++ (c!"-->" ++ y))))
  | empty {i w n as a ns y} : (∀ c ∈ w, gap c = true) → (i = false → w = []) → Name n →
      Tagged as a → Distinct as → Printed i ns y →
      Printed i (.elem n as [] :: ns) (w ++ '<' :: (n ++ (a ++ '/' :: '>' :: y)))
  | elem {i j w n as a ms x w' ns y} : (∀ c ∈ w, gap c = true) → (i = false → w = []) → Name n →
      Tagged as a → Distinct as → Printed j ms x →
      (j = true → ms ≠ [] ∧ ∀ m ∈ ms, m.isElem = true) → (∀ c ∈ w', gap c = true) →
      Printed i ns y →
      Printed i (.elem n as ms :: ns)
        (w ++ '<' :: (n ++ (a ++ '>' :: (x ++ '<' :: '/' :: (n ++ (w' ++ '>' :: y))))))

/-- A document type declaration as it may stand in a file: a blank or a tab wherever white space is
needed, line breaks only in white space. -/
def PrintedDoctype : Str → Prop :=
  Doctype gap (fun c => c == ' ' || c == '\t') (fun c => legal c && c != '\r' && c != '\n')

/-- A file with this root element. -/
def File (n : Node) (y : Str) : Prop :=
  ∃ v w t k e w', v ∈ declarations ∧ (∀ c ∈ w, gap c = true) ∧ (t = [] ∨ PrintedDoctype t) ∧
    (∀ c ∈ k, gap c = true) ∧ Printed false [n] e ∧ n.isElem = true ∧
    (∀ c ∈ w', gap c = true) ∧ y = v ++ (w ++ (t ++ (k ++ (e ++ w'))))

/-! ## Writing -/

/-- A character in texts and values. -/
def escape (c : Char) : Str :=
  if c = '&' then c!"&amp;"
  else if c = '<' then c!"&lt;"
  else if c = '>' then c!"&gt;"
  else if c = '"' then c!"&quot;"
  else if c = ':' then c!"&#58;"
  else if c = '\n' then c!"&#10;"
  else if c = '\r' then c!"&#13;"
  else if c = '\t' then c!"&#9;"
  else [c]

/-- The attributes. -/
def writeAttrs (as : List (Str × Str)) : Str :=
  as.flatMap fun p => ' ' :: (p.1 ++ '=' :: '"' :: (p.2.flatMap escape ++ c!"\""))

mutual
/-- A node, if it is a text or an element. -/
def write : Node → Str
  | .text d => d.flatMap escape
  | .elem n as ms => '<' :: (n ++ (writeAttrs as ++ '>' :: (writeAll ms ++ '<' :: '/' :: (n ++ c!">"))))
  | _ => []

/-- Nodes one after the other. -/
def writeAll : List Node → Str
  | [] => []
  | n :: ns => write n ++ writeAll ns
end

/-- Nodes that can be written: elements and texts. -/
inductive Writable : List Node → Prop
  | nil : Writable []
  | text {d ns} : d ≠ [] → (∀ c ∈ d, legal c = true) → NoText ns → Writable ns →
      Writable (.text d :: ns)
  | elem {n as ms ns} : Name n → (∀ p ∈ as, Name p.1 ∧ ∀ c ∈ p.2, legal c = true) → Distinct as →
      Writable ms → Writable ns → Writable (.elem n as ms :: ns)

end Verif.Spec.Xml
