import Verif.Lemmas.XmlFile
import Verif.Props.Context
import Verif.Props.Means

/-!
# From the text of a file to LaTeX (C61, C62)

The other properties take the document that the parser returns as given.  Here the parser is only
assumed to do what XML says (`Correct`), and the theorems are about texts.
-/

namespace Verif
open Spec Spec.Xml

/-! ## C61 -/

/-- **C61** A text stands for one document. -/
theorem C61_unique (x : Str) (d d' : Doc) (h : Document x d) (h' : Document x d') : d = d' := by
  have := Xml.read_of h
  rw [Xml.read_of h'] at this
  exact (Option.some.inj this).symm

/-- A parser that does what XML says. -/
def xmlEnv : Env where
  parse x := match Xml.read x with
    | some d => .ok d
    | none => .error (.other 0)
  isWord c := isAsciiAlnum c

/-- **C61** There are correct parsers, so the hypothesis of the following theorems can be met. -/
theorem C61_correct_parser_exists : Correct xmlEnv := by
  intro x d h
  show (match Xml.read x with | some d => Except.ok d | none => _) = _
  rw [Xml.read_of h]

/-- **C61** With a correct parser, a text that is XML after preprocessing is converted as the
document it stands for. -/
theorem C61_convert (env : Env) (he : Correct env) (x : Str) (d : Doc) (h : Document (prep x) d) :
    convert env x = docResult d :=
  C05_accepted_never_repaired env x d (he _ _ h)

/-- **C61** How the document is spelled does not matter, nor which correct parser is used. -/
theorem C61_spelling (env env' : Env) (he : Correct env) (he' : Correct env') (x y : Str) (d : Doc)
    (hx : Document (prep x) d) (hy : Document (prep y) d) : convert env x = convert env' y := by
  rw [C61_convert env he x d hx, C61_convert env' he' y d hy]

/-- **C61** Every tree of elements and texts has an input, which stands for this tree and is
converted as this tree.  So whatever is proved about the outcome for trees is about inputs. -/
theorem C61_written (env : Env) (he : Correct env) (n : Node) (hn : n.isElem = true)
    (hw : Writable [n]) : Document (prep (write n)) [n] ∧ convert env (write n) = docResult [n] := by
  obtain ⟨h1, h2⟩ := Xml.write_document hw hn
  rw [← h1] at h2
  rw [h1] at h2 ⊢
  exact ⟨h2, C61_convert env he _ _ (by rw [h1]; exact h2)⟩

/-- **C61** The LaTeX is read as what the text says: from the input to the reading of the output. -/
theorem C61_read (env : Env) (he : Correct env) (x : Str) (d : Doc) (n : Node) (v : List Item)
    (h : Document (prep x) d) (hm : maths d = [n]) (hv : Means false [] n v) :
    ∃ s, convert env x = .ok s ∧ ReadsAs s v :=
  C60_convert env x d n v (he _ _ h) hm hv

/-! ## C62 -/

theorem docResult_sameKids {d d' : Doc} (h : DocRel (Cong SameKids) d d') : docResult d = docResult d' := by
  have := C19_surroundings ⟨fun _ => .ok d, fun _ => false⟩ ⟨fun _ => .ok d', fun _ => false⟩ [] [] d d'
    ⟨0, _, by decide, .first, rfl⟩ ⟨0, _, by decide, .first, rfl⟩ h
  rwa [C05_accepted_never_repaired _ _ d rfl, C05_accepted_never_repaired _ _ d' rfl] at this

/-- **C62** However a tree is laid out in a file, it is converted as the tree: white space and
comments between elements, line breaks and tabs between attributes, kinds of quotation marks, empty
tags, references and CDATA sections, a declaration and a document type in front. -/
theorem C62_layout (env : Env) (he : Correct env) (n : Node) (y : Str) (h : File n y)
    (hm : Without c!"mml:" (dropBreaks y)) : convert env y = docResult [n] := by
  obtain ⟨n', h1, h2⟩ := Xml.file_document h hm
  rw [C61_convert env he y _ h1]
  exact docResult_sameKids ⟨rfl, fun p hp => by
    rw [List.zip_cons_cons, List.zip_nil_left, List.mem_singleton] at hp
    subst hp
    exact .symm h2⟩

/-- **C62** Two files with the same tree are converted alike. -/
theorem C62_same_tree (env env' : Env) (he : Correct env) (he' : Correct env') (n : Node) (x y : Str)
    (hx : File n x) (hy : File n y) (hmx : Without c!"mml:" (dropBreaks x))
    (hmy : Without c!"mml:" (dropBreaks y)) : convert env x = convert env' y := by
  rw [C62_layout env he n x hx hmx, C62_layout env' he' n y hy hmy]

/-- **C62** The same with the prefixes that a word processor puts in front of the names. -/
theorem C62_prefixed (env : Env) (he : Correct env) (n : Node) (x y : Str) (h : File n x)
    (hm : Without c!"mml:" (dropBreaks x)) (hp : Prefixed x y) : convert env y = docResult [n] := by
  rw [C03_word_prefix_transparent env x y hp, C62_layout env he n x h hm]

/-! ## Examples -/

theorem spelled_raw {ok : Char → Bool} {as : Char → Char} {x : Str} (h : ∀ c ∈ x, ok c = true ∧ as c = c) :
    Spelled ok as x x := by
  induction x with
  | nil => exact .nil
  | cons c x ih =>
    have h1 := h c List.mem_cons_self
    have := Spelled.raw (as := as) h1.1 (ih fun d hd => h d (List.mem_cons_of_mem _ hd))
    rwa [h1.2] at this

/-- Does it occur? -/
def occurs (u : Str) : Str → Bool
  | [] => u.isPrefixOf []
  | c :: s => u.isPrefixOf (c :: s) || occurs u s

theorem occurs_iff (u s : Str) : occurs u s = false ↔ Without u s := by
  unfold Without
  rw [← Bool.not_eq_true]
  refine not_congr ?_
  induction s with
  | nil =>
    rw [occurs, List.isPrefixOf_iff_prefix]
    constructor
    · rintro ⟨q, e⟩; exact ⟨[], q, e.symm⟩
    · rintro ⟨p, q, e⟩
      have e := e.symm
      simp only [List.append_eq_nil_iff] at e
      exact ⟨[], by simp [e.2.1]⟩
  | cons c s ih =>
    rw [occurs, Bool.or_eq_true, ih, List.isPrefixOf_iff_prefix]
    constructor
    · rintro (⟨q, e⟩ | ⟨p, q, e⟩)
      · exact ⟨[], q, e.symm⟩
      · exact ⟨c :: p, q, by rw [e]; rfl⟩
    · rintro ⟨p, q, e⟩
      cases p with
      | nil => exact .inl ⟨q, e.symm⟩
      | cons d p =>
        rw [List.cons_append, List.cons.injEq] at e
        exact .inr ⟨p, q, e.2⟩

instance (u s : Str) : Decidable (Without u s) := decidable_of_iff _ (occurs_iff u s)

instance (n : Str) : Decidable (Name n) :=
  decidable_of_iff ((n.head?.any nameStart) = true ∧ ∀ c ∈ n, nameChar c = true) (by
    unfold Name
    cases n <;> simp)

/-- A file: a declaration, a document type, an attribute on a line of its own, indentation by tabs and blanks, line
ends of two systems, a comment over two lines, a character reference, an empty tag. -/
def squareFile : Str :=
  c!"<?xml version=\"1.0\"?>\n<!DOCTYPE math PUBLIC \"-//W3C//DTD MathML 2.0//EN\"\n  \"mathml2.dtd\">\n<math\n xmlns=\"http://www.w3.org/1998/Math/MathML\">\r\n\t<msup>\n    <mi mathvariant='bold'>&#x3b1;</mi>\n    <!-- the\n exponent --><mn>2</mn  >\n  </msup>\n  <mspace/>\n</math>\n"

/-- What it says. -/
def squareNode : Node :=
  .elem c!"math" [(c!"xmlns", c!"http://www.w3.org/1998/Math/MathML")]
    [.elem c!"msup" [] [.elem c!"mi" [(c!"mathvariant", c!"bold")] [.text c!"α"], .elem c!"mn" [] [.text c!"2"]],
     .elem c!"mspace" [] []]

set_option maxRecDepth 4000 in
theorem squareFile_file : File squareNode squareFile := by
  refine ⟨c!"<?xml version=\"1.0\"?>", c!"\n",
    c!"<!DOCTYPE math PUBLIC \"-//W3C//DTD MathML 2.0//EN\"\n  \"mathml2.dtd\">", c!"\n",
    c!"<math\n xmlns=\"http://www.w3.org/1998/Math/MathML\">\r\n\t<msup>\n    <mi mathvariant='bold'>&#x3b1;</mi>\n    <!-- the\n exponent --><mn>2</mn  >\n  </msup>\n  <mspace/>\n</math>",
    c!"\n", by decide, by decide, .inr ?_, by decide, ?_, rfl, by decide, rfl⟩
  · exact .public (w := c!" ") (n := c!"math") (w₁ := c!" ") (w₂ := c!" ")
      (p := c!"\"-//W3C//DTD MathML 2.0//EN\"") (w₃ := c!"\n  ") (l := c!"\"mathml2.dtd\"") (w' := [])
      ⟨by decide, by decide⟩ (by decide) ⟨by decide, by decide⟩ ⟨by decide, by decide⟩
      ⟨'"', c!"-//W3C//DTD MathML 2.0//EN", .inl rfl, by decide, rfl⟩ ⟨by decide, by decide⟩
      ⟨'"', c!"mathml2.dtd", .inl rfl, by decide, rfl⟩ (by decide)
  refine .elem (j := true) (w := []) (n := c!"math")
    (a := c!"\n xmlns=\"http://www.w3.org/1998/Math/MathML\"")
    (x := c!"\r\n\t<msup>\n    <mi mathvariant='bold'>&#x3b1;</mi>\n    <!-- the\n exponent --><mn>2</mn  >\n  </msup>\n  <mspace/>\n")
    (w' := []) (y := []) (by decide) (by decide) (by decide) ?_ ?_ ?_ (by decide) (by decide)
    (.nil (by decide) (by decide))
  · exact .cons (w := c!"\n ") (e := []) (e' := []) (q := '"')
      (v := c!"http://www.w3.org/1998/Math/MathML") (x := []) (by decide) (by decide) (.inl (by decide))
      (by decide) (by decide) (by decide) (spelled_raw (by decide)) (.nil (by decide))
  · unfold Distinct; decide
  refine .elem (j := true) (w := c!"\r\n\t") (n := c!"msup") (a := [])
    (x := c!"\n    <mi mathvariant='bold'>&#x3b1;</mi>\n    <!-- the\n exponent --><mn>2</mn  >\n  ")
    (w' := []) (y := c!"\n  <mspace/>\n") (by decide) (by decide) (by decide) (.nil (by decide))
    (by unfold Distinct; decide) ?_ (by decide) (by decide) ?_
  · refine .elem (j := false) (w := c!"\n    ") (n := c!"mi") (a := c!" mathvariant='bold'")
      (x := c!"&#x3b1;") (w' := []) (y := c!"\n    <!-- the\n exponent --><mn>2</mn  >\n  ")
      (by decide) (by decide) (by decide) ?_ (by unfold Distinct; decide) ?_ (by decide) (by decide) ?_
    · exact .cons (w := c!" ") (e := []) (e' := []) (q := '\'') (v := c!"bold") (x := []) (by decide)
        (by decide) (.inl (by decide)) (by decide) (by decide) (by decide) (spelled_raw (by decide))
        (.nil (by decide))
    · refine .text (x := c!"&#x3b1;") (y := []) (by decide) ?_ (by decide)
        (by simp [NoText]) (.nil (by decide) (by decide))
      refine .ref (r := c!"#x3b1") (.hex ?_ (by decide)) .nil
      have h1 : Numeral 16 c!"3" 3 := .one (by decide) (by decide)
      have h2 : Numeral 16 c!"3b" 59 := .more (c := 'b') (k := 11) h1 (by decide) (by decide)
      exact .more (c := '1') (k := 1) h2 (by decide) (by decide)
    · refine .comment (w := c!"\n    ") (t := c!" the\n exponent ") (y := c!"<mn>2</mn  >\n  ")
        (by decide) (by decide) (by decide) ?_
      refine .elem (j := false) (w := []) (n := c!"mn") (a := []) (x := c!"2") (w' := c!"  ")
        (y := c!"\n  ") (by decide) (by decide) (by decide) (.nil (by decide)) (by unfold Distinct; decide)
        ?_ (by decide) (by decide) (.nil (by decide) (by decide))
      exact .text (x := c!"2") (y := []) (by decide) (spelled_raw (by decide)) (by decide)
        (by simp [NoText]) (.nil (by decide) (by decide))
  · exact .empty (w := c!"\n  ") (n := c!"mspace") (a := []) (y := c!"\n") (by decide) (by decide)
      (by decide) (.nil (by decide)) (by unfold Distinct; decide) (.nil (by decide) (by decide))

/-- **C62**, an instance. -/
example (env : Env) (he : Correct env) : convert env squareFile = .ok c!"\\mathbf{\\alpha}^{2}" := by
  rw [C62_layout env he _ _ squareFile_file ?_, docResult_eq]
  · decide +kernel
  · decide +kernel

/-- **C61**, an instance: a text with characters that cannot stand for themselves. -/
example (env : Env) (he : Correct env) :
    convert env c!"<math><mo lspace=\"&#10;\">&lt;</mo></math>" = .ok c!"<" := by
  have hw : Writable [.elem c!"math" [] [.elem c!"mo" [(c!"lspace", c!"\n")] [.text c!"<"]]] :=
    .elem (by decide) (by decide) (by unfold Distinct; decide)
      (.elem (by decide) (by decide) (by unfold Distinct; decide)
        (.text (by decide) (by decide) (by simp [NoText]) .nil) .nil) .nil
  have := (C61_written env he _ rfl hw).2
  rw [docResult_eq] at this
  exact this.trans (by decide +kernel)

/-! ## What preprocessing spoils -/

/-- A token inside `math`. -/
theorem token_document {n a t x : Str} {as : List (Str × Str)} (hn : Name n) (ha : Attributes a as)
    (hd : Distinct as) (ht : t ≠ []) (hs : Spelled textOk id t t) (hw : Without c!"]]>" t)
    (hx : eol x = c!"<math>" ++ ('<' :: (n ++ (a ++ '>' :: (t ++ '<' :: '/' :: (n ++ c!">"))))) ++ c!"</math>") :
    Document x [.elem c!"math" [] [.elem n as [.text t]]] := by
  refine ⟨[], [], [], [], _, [], [], [], _, [], by
    rw [hx, List.nil_append, List.nil_append, List.nil_append, List.nil_append, List.append_nil], by decide,
    .blanks (by simp), .inl rfl, .blanks (by simp), ?_, rfl, .blanks (by simp), rfl⟩
  have h1 : Content t [.text t] := by
    have := Content.text ht hs hw (by simp [NoText]) .nil
    rwa [List.append_nil] at this
  have h2 := Content.elem hn ha hd h1 (w := []) (by simp) .nil
  have h3 := Content.elem (n := c!"math") (a := []) (as := []) (w := []) (by decide) (.nil (by simp)) (by unfold Distinct; decide) h2
    (by simp) .nil
  simpa using h3

/-- **C62** Line breaks in texts separate words in XML; here they are deleted, and the words run
together.  The same text with a blank is converted differently. -/
theorem C62_line_break_in_text (env : Env) (he : Correct env) :
    ∃ x d, Document x d ∧ convert env x ≠ docResult d := by
  refine ⟨c!"<math><mtext>for\nall</mtext></math>", _,
    token_document (n := c!"mtext") (a := []) (t := c!"for\nall") (by decide) (.nil (by simp))
      (by unfold Distinct; decide) (by decide) (spelled_raw (by decide)) (by decide) rfl, ?_⟩
  have h : Document (prep c!"<math><mtext>for\nall</mtext></math>") _ :=
    token_document (n := c!"mtext") (a := []) (t := c!"forall") (by decide) (.nil (by simp))
      (by unfold Distinct; decide) (by decide) (spelled_raw (by decide)) (by decide) rfl
  rw [C61_convert env he _ _ h, docResult_eq, docResult_eq]
  decide +kernel

/-- **C62** A text that contains `mml:` loses it. -/
theorem C62_mml_in_text (env : Env) (he : Correct env) :
    ∃ x d, Document x d ∧ convert env x ≠ docResult d := by
  refine ⟨c!"<math><mtext>mml:x</mtext></math>", _,
    token_document (n := c!"mtext") (a := []) (t := c!"mml:x") (by decide) (.nil (by simp))
      (by unfold Distinct; decide) (by decide) (spelled_raw (by decide)) (by decide) rfl, ?_⟩
  have h : Document (prep c!"<math><mtext>mml:x</mtext></math>") _ :=
    token_document (n := c!"mtext") (a := []) (t := c!"x") (by decide) (.nil (by simp))
      (by unfold Distinct; decide) (by decide) (spelled_raw (by decide)) (by decide) rfl
  rw [C61_convert env he _ _ h, docResult_eq, docResult_eq]
  decide +kernel

/-- **C62** A file whose only separator between a name and an attribute is a line break is XML, but no
longer so after preprocessing. -/
theorem C62_line_break_in_tag : ∃ x d, Document x d ∧ docResult d = .ok c!"\\mathbf{x}" ∧
    ¬ ∃ d', Document (prep x) d' := by
  refine ⟨c!"<math><mi\nmathvariant=\"bold\">x</mi></math>", _,
    token_document (a := c!"\nmathvariant=\"bold\"") (as := [(c!"mathvariant", c!"bold")])
      (n := c!"mi") (t := c!"x") (by decide) ?_
      (by unfold Distinct; decide) (by decide) (spelled_raw (by decide)) (by decide) rfl, ?_, ?_⟩
  · exact .cons (w := c!"\n") (n := c!"mathvariant") (e := []) (e' := []) (q := '"') (v := c!"bold") (x := []) (by decide)
        (by decide) (.inl (by decide)) (by decide) (by decide) (by decide) (spelled_raw (by decide))
        (.nil (by decide))
  · rw [docResult_eq]; decide +kernel
  · rintro ⟨d', h⟩
    have h1 := congrArg Option.isSome (Xml.read_of h)
    rw [Option.isSome_some] at h1
    clear h
    revert h1
    decide +kernel

/-- **C62** The same for the document type: the two identifiers of a public one are often on two
lines, and without a blank between them the text is no longer XML after preprocessing. -/
theorem C62_line_break_in_doctype : ∃ x d, Document x d ∧ docResult d = .ok c!"x" ∧
    ¬ ∃ d', Document (prep x) d' := by
  have h1 : Content c!"x" [.text c!"x"] :=
    .text (x := c!"x") (y := []) (by decide) (spelled_raw (by decide)) (by decide) (by simp [NoText]) .nil
  have h2 : Content c!"<mi>x</mi>" _ :=
    Content.elem (n := c!"mi") (a := []) (as := []) (w := []) (y := []) (by decide) (.nil (by simp))
      (by unfold Distinct; decide) h1 (by simp) .nil
  have h3 : Content c!"<math><mi>x</mi></math>" _ :=
    Content.elem (n := c!"math") (a := []) (as := []) (w := []) (y := []) (by decide) (.nil (by simp))
      (by unfold Distinct; decide) h2 (by simp) .nil
  refine ⟨c!"<!DOCTYPE math PUBLIC \"-//W3C//DTD MathML 2.0//EN\"\n\"mathml2.dtd\"><math><mi>x</mi></math>", _,
    ⟨[], [], c!"<!DOCTYPE math PUBLIC \"-//W3C//DTD MathML 2.0//EN\"\n\"mathml2.dtd\">", [], _, [], [], [], _, [],
      rfl, by decide, .blanks (by simp), .inr ?_, .blanks (by simp), h3, rfl, .blanks (by simp), rfl⟩, ?_, ?_⟩
  · exact .public (w := c!" ") (n := c!"math") (w₁ := c!" ") (w₂ := c!" ")
      (p := c!"\"-//W3C//DTD MathML 2.0//EN\"") (w₃ := c!"\n") (l := c!"\"mathml2.dtd\"") (w' := [])
      ⟨by decide, by decide⟩ (by decide) ⟨by decide, by decide⟩ ⟨by decide, by decide⟩
      ⟨'"', c!"-//W3C//DTD MathML 2.0//EN", .inl rfl, by decide, rfl⟩ ⟨by decide, by decide⟩
      ⟨'"', c!"mathml2.dtd", .inl rfl, by decide, rfl⟩ (by decide)
  · rw [docResult_eq]; decide +kernel
  · rintro ⟨d', h⟩
    have h1 := congrArg Option.isSome (Xml.read_of h)
    rw [Option.isSome_some] at h1
    clear h
    revert h1
    decide +kernel

end Verif
