import Verif.Spec.Xml

/-!
# Entities that nobody declares

A document type with an external identifier, such as the one of MathML, may declare entities like
`&alpha;`.  A parser that does not read external files has to go on without them [4.1, well-formedness
constraint "Entity Declared"], and the one of `minidom` says nothing about it: it leaves them out.
The scanner below finds the references in texts and in attribute values; it does not know more of XML
than where these are.
-/

namespace Verif.Spec.Xml

/-- Where a place in a text is: in character data, in a tag, in an attribute value between these
quotation marks, in a comment, in a CDATA section, in a processing instruction, in the document type,
in a literal of the document type, or after an `&` in one of the first (what follows it so far, last
character first). -/
inductive Place
  | data
  | tag
  | value (q : Char)
  | comment
  | cdata
  | pi
  | decl
  | lit (q : Char)
  | ref (back : Place) (name : Str)

/-- Is it the name of an entity other than the five of XML? -/
def foreign (r : Str) : Bool :=
  r.head?.any nameStart && r.all nameChar && !(entities.map fun p => p.1).contains r

/-- The text with `u` in place of every reference to an entity other than the five of XML. -/
def instead (u : Str) : Place → Str → Str
  | .ref _ r, [] => '&' :: r.reverse
  | _, [] => []
  | .data, '<' :: '!' :: '-' :: '-' :: s => c!"<!--" ++ instead u .comment s
  | .data, '<' :: '!' :: '[' :: 'C' :: 'D' :: 'A' :: 'T' :: 'A' :: '[' :: s =>
      c!"<![CDATA[" ++ instead u .cdata s
  | .data, '<' :: '?' :: s => c!"<?" ++ instead u .pi s
  | .data, '<' :: '!' :: s => c!"<!" ++ instead u .decl s
  | .data, c :: s =>
      if c = '<' then '<' :: instead u .tag s
      else if c = '&' then instead u (.ref .data []) s
      else c :: instead u .data s
  | .tag, c :: s =>
      c :: instead u (if c = '>' then .data else if c = '"' ∨ c = '\'' then .value c else .tag) s
  | .value q, c :: s =>
      if c = q then c :: instead u .tag s
      else if c = '&' then instead u (.ref (.value q) []) s
      else c :: instead u (.value q) s
  | .comment, '-' :: '-' :: '>' :: s => c!"-->" ++ instead u .data s
  | .comment, c :: s => c :: instead u .comment s
  | .cdata, ']' :: ']' :: '>' :: s => c!"]]>" ++ instead u .data s
  | .cdata, c :: s => c :: instead u .cdata s
  | .pi, '?' :: '>' :: s => c!"?>" ++ instead u .data s
  | .pi, c :: s => c :: instead u .pi s
  | .decl, c :: s =>
      c :: instead u (if c = '>' then .data else if c = '"' ∨ c = '\'' then .lit c else .decl) s
  | .lit q, c :: s => c :: instead u (if c = q then .decl else .lit q) s
  | .ref back r, c :: s =>
      if c = ';' then
        (if foreign r.reverse then u else '&' :: (r.reverse ++ c!";")) ++ instead u back s
      else if nameChar c || c == '#' then instead u (.ref back (c :: r)) s
      else '&' :: (r.reverse ++ c :: instead u back s)

/-- The text with `u` in place of these references, after the ends of lines are made the same. -/
def replaced (u x : Str) : Str := instead u .data (eol x)

/-- Documents that have a document type with an external identifier: `Document` with one more
condition. -/
def ExternalDocument (x : Str) (d : Doc) : Prop :=
  ∃ v m t k e m' ns ks n ns', eol x = v ++ (m ++ (t ++ (k ++ (e ++ m')))) ∧ v ∈ declarations ∧
    Misc m ns ∧ Doctype blank (fun _ => true) (fun c => legal c && c != '\r') t ∧
    ('"' ∈ t ∨ '\'' ∈ t) ∧
    Misc k ks ∧ Content e [n] ∧ n.isElem = true ∧ Misc m' ns' ∧ d = ns ++ (ks ++ n :: ns')

/-- The parser leaves out references to entities it does not know, if there may be declarations that
it has not read.  That they are at places where references may stand is said by the second
condition: there the reference could be one of the five. -/
def Skips (env : Env) : Prop :=
  ∀ x d d', ExternalDocument (replaced [] x) d → Document (replaced c!"&amp;" x) d' →
    env.parse x = .ok d

end Verif.Spec.Xml
