import Verif.Lemmas.Skipped
import Verif.Props.Xml

/-!
# Entities that nobody declares vanish without a word (C77)
-/

namespace Verif
open Spec Spec.Xml

theorem Spec.Xml.ExternalDocument.document {x : Str} {d : Doc} (h : ExternalDocument x d) :
    Document x d := by
  obtain ⟨v, m, t, k, e, m', ns, ks, n, ns', h1, h2, h3, h4, -, h5⟩ := h
  exact ⟨v, m, t, k, e, m', ns, ks, n, ns', h1, h2, h3, .inr h4, h5⟩

/-- **C77** In a document there are no references to replace: what the parser leaves out is not part
of XML without declarations. -/
theorem C77_nothing_to_replace (u x : Str) (d : Doc) (h : Document x d) : replaced u x = eol x :=
  h.replaced u

/-- **C77** References that the parser leaves out do not make the conversion fail, and the result is
the one for the document without them. -/
theorem C77_vanish (env : Env) (he : Skips env) (x : Str) (d d' : Doc)
    (h : ExternalDocument (replaced [] (prep x)) d)
    (h' : Document (replaced c!"&amp;" (prep x)) d') : convert env x = docResult d :=
  C05_accepted_never_repaired env x d (he _ _ _ h h')

/-- **C77** So texts that differ in such references only have the same result, whatever the entities
are. -/
theorem C77_whatever (env : Env) (he : Skips env) (x y : Str) (d d' : Doc)
    (h : ExternalDocument (replaced [] (prep x)) d) (h' : Document (replaced c!"&amp;" (prep x)) d')
    (e : replaced [] (prep y) = replaced [] (prep x))
    (e' : replaced c!"&amp;" (prep y) = replaced c!"&amp;" (prep x)) :
    convert env y = convert env x := by
  rw [C77_vanish env he x d d' h h', C77_vanish env he y d d' (e ▸ h) (e' ▸ h')]

/-- **C77** And the same result as the text without them, if the parser is correct as well. -/
theorem C77_as_without (env : Env) (hc : Correct env) (he : Skips env) (x y : Str) (d d' : Doc)
    (h : ExternalDocument (replaced [] (prep x)) d) (h' : Document (replaced c!"&amp;" (prep x)) d')
    (e : prep y = replaced [] (prep x)) : convert env x = convert env y := by
  rw [C77_vanish env he x d d' h h', C61_convert env hc y d (e ▸ h.document)]

open Classical in
/-- A parser that leaves out what it does not know. -/
noncomputable def skippingEnv : Env where
  parse x :=
    if h : ∃ d, Document x d then .ok h.choose
    else if h : ∃ d, ExternalDocument (replaced [] x) d then .ok h.choose
    else .error (.expat 2 1 0)
  isWord c := isAsciiAlnum c

open Classical in
/-- **C77** There are parsers that are correct and leave out the entities they do not know. -/
theorem C77_parser_exists : Correct skippingEnv ∧ Skips skippingEnv := by
  have hc : Correct skippingEnv := by
    intro x d h
    have he : ∃ d, Document x d := ⟨d, h⟩
    show (if h : ∃ d, Document x d then Except.ok h.choose else _) = _
    rw [dif_pos he, C61_unique x _ d he.choose_spec h]
  refine ⟨hc, fun x d d' h _ => ?_⟩
  by_cases hx : ∃ d, Document x d
  · obtain ⟨d₀, h₀⟩ := hx
    rw [hc x d₀ h₀]
    have h1 : Document (eol x) d := by
      have := h.document
      rwa [h₀.replaced] at this
    have h2 : Document x d := by
      obtain ⟨v, m, t, k, e, m', ns, ks, n, ns', h1, h2⟩ := h1
      rw [eol_eol] at h1
      exact ⟨v, m, t, k, e, m', ns, ks, n, ns', h1, h2⟩
    rw [C61_unique x d₀ d h₀ h2]
  · have he : ∃ d, ExternalDocument (replaced [] x) d := ⟨d, h⟩
    show (if h : ∃ d, Document x d then Except.ok h.choose
      else if h : ∃ d, ExternalDocument (replaced [] x) d then .ok h.choose else _) = _
    rw [dif_neg hx, dif_pos he, C61_unique _ _ d he.choose_spec.document h.document]

/-! ## A power with an exponent that is an entity -/

/-- The text in front of the entity, with a document type. -/
def powerFront : Str := c!"<!DOCTYPE math SYSTEM \"mathml2.dtd\"><math><msup><mi>x</mi><mi>"

/-- The text after it. -/
def powerBack : Str := c!"</mi></msup></math>"

/-- `x` to the power of the entity named `r`. -/
def powerText (r : Str) : Str := powerFront ++ ('&' :: (r ++ ';' :: powerBack))

theorem foreign_name {r : Str} (h : foreign r = true) : ∀ c ∈ r, nameChar c = true := by
  unfold foreign at h
  simp only [Bool.and_eq_true] at h
  intro c hc
  exact (List.all_eq_true.1 h.1.2) c hc

theorem powerText_chars {r : Str} (h : foreign r = true) :
    ∀ c ∈ powerText r, (nameChar c || c!"<>/ \"!&;".contains c) = true := by
  have h1 : ∀ c ∈ powerFront, (nameChar c || c!"<>/ \"!&;".contains c) = true := by decide
  have h2 : ∀ c ∈ powerBack, (nameChar c || c!"<>/ \"!&;".contains c) = true := by decide
  intro c hc
  unfold powerText at hc
  rw [List.mem_append, List.mem_cons, List.mem_append, List.mem_cons] at hc
  rcases hc with hc | rfl | hc | rfl | hc
  · exact h1 c hc
  · decide
  · rw [foreign_name h c hc]; rfl
  · decide
  · exact h2 c hc

theorem powerText_prep {r : Str} (h : foreign r = true) : prep (powerText r) = powerText r := by
  refine Xml.prep_id fun c hc ha => ?_
  have := powerText_chars h c hc
  rcases ha with rfl | rfl | rfl <;> exact absurd this (by decide)

theorem powerText_replaced {r : Str} (h : foreign r = true) (u : Str) :
    replaced u (powerText r) = powerFront ++ (u ++ powerBack) := by
  have h0 : eol (powerText r) = powerText r := by
    refine eol_id fun c hc => ?_
    have := powerText_chars h c hc
    rintro rfl
    exact absurd this (by decide)
  unfold replaced
  rw [h0]
  have h1 : instead u .data (powerText r) =
      powerFront ++ instead u .data ('&' :: (r ++ ';' :: powerBack)) := rfl
  rw [h1, instead_ref u .data trivial r _ fun c hc => .inl (foreign_name h c hc), h]
  rfl

/-- The document with the exponent `ms`. -/
theorem power_external {z : Str} {ms : List Node} (h : Content z ms) :
    (∀ c ∈ z, c ≠ '\r') → ExternalDocument (powerFront ++ (z ++ powerBack))
      [.elem c!"math" [] [.elem c!"msup" [] [.elem c!"mi" [] [.text c!"x"], .elem c!"mi" [] ms]]] := by
  intro hz
  have e : ∀ {n x y : Str} {ms ns : List Node}, Name n → Content x ms → Content y ns →
      Content ('<' :: (n ++ '>' :: (x ++ '<' :: '/' :: (n ++ '>' :: y)))) (.elem n [] ms :: ns) :=
    fun hn hx hy => Content.elem (a := []) (as := []) (w := []) hn (.nil (by simp))
      (by unfold Distinct; decide) hx (by simp) hy
  have h1 : Content c!"x" [.text c!"x"] :=
    .text (x := c!"x") (y := []) (by decide) (spelled_raw (by decide)) (by decide) (by simp [NoText]) .nil
  have h2 := e (n := c!"mi") (by decide) h1 (e (n := c!"mi") (by decide) h .nil)
  have h3 := e (n := c!"math") (by decide) (e (n := c!"msup") (by decide) h2 .nil) .nil
  refine ⟨[], [], c!"<!DOCTYPE math SYSTEM \"mathml2.dtd\">", [], _, [], [], [], _, [], ?_, by decide,
    .blanks (by simp), ?_, .inl (by decide), .blanks (by simp), h3, rfl, .blanks (by simp), rfl⟩
  · rw [eol_id]
    · simp [powerFront, powerBack]
    · intro c hc
      rw [List.mem_append, List.mem_append] at hc
      have h1 : ∀ c ∈ powerFront, c ≠ '\r' := by decide
      have h2 : ∀ c ∈ powerBack, c ≠ '\r' := by decide
      rcases hc with hc | hc | hc
      · exact h1 c hc
      · exact hz c hc
      · exact h2 c hc
  · exact .system (w := c!" ") (n := c!"math") (w₁ := c!" ") (w₂ := c!" ")
      (l := c!"\"mathml2.dtd\"") (w' := [])
      ⟨by decide, by simp⟩ (by decide) ⟨by decide, by simp⟩ ⟨by decide, by simp⟩
      ⟨'"', c!"mathml2.dtd", .inl rfl, by decide, rfl⟩ (by decide)

theorem power_amp : Content c!"&amp;" [.text c!"&"] :=
  .text (x := c!"&amp;") (y := []) (by decide) (.ref (r := c!"amp") (.entity (by decide)) .nil) (by decide)
    (by simp [NoText]) .nil

/-- **C77** Whatever the exponent, it is lost, and nobody is told. -/
theorem C77_power (env : Env) (he : Skips env) (r : Str) (h : foreign r = true) :
    convert env (powerText r) = .ok c!"x^{}" := by
  have h1 := power_external .nil (by simp)
  have h2 := (power_external power_amp (by decide)).document
  rw [C77_vanish env he (powerText r) _ _
    (by rw [powerText_prep h, powerText_replaced h]; exact h1)
    (by rw [powerText_prep h, powerText_replaced h]; exact h2), docResult_eq]
  decide +kernel

/-- **C77** The five entities of XML are kept. -/
theorem C77_power_amp (env : Env) (hc : Correct env) :
    convert env (powerText c!"amp") = .ok c!"x^{\\&}" := by
  have h2 := (power_external power_amp (by decide)).document
  rw [C61_convert env hc _ _ (show Document (prep (powerText c!"amp")) _ from h2), docResult_eq]
  decide +kernel

/-! ## Cases meeting the hypotheses -/

example : foreign c!"alpha" = true ∧ foreign c!"InvisibleTimes" = true ∧ foreign c!"lt" = false ∧
    foreign c!"#945" = false := by decide

example : convert skippingEnv (powerText c!"alpha") = .ok c!"x^{}" :=
  C77_power _ C77_parser_exists.2 _ (by decide)

example : convert skippingEnv (powerText c!"alpha") = convert skippingEnv (powerText c!"beta") := by
  have h1 := power_external .nil (by simp)
  have h2 := (power_external power_amp (by decide)).document
  have ha : foreign c!"alpha" = true := by decide
  have hb : foreign c!"beta" = true := by decide
  refine C77_whatever _ C77_parser_exists.2 _ _
    [.elem c!"math" [] [.elem c!"msup" [] [.elem c!"mi" [] [.text c!"x"], .elem c!"mi" [] []]]]
    [.elem c!"math" [] [.elem c!"msup" [] [.elem c!"mi" [] [.text c!"x"], .elem c!"mi" [] [.text c!"&"]]]]
    ?_ ?_ ?_ ?_
  · rw [powerText_prep hb, powerText_replaced hb]; exact h1
  · rw [powerText_prep hb, powerText_replaced hb]; exact h2
  · rw [powerText_prep hb, powerText_replaced hb, powerText_prep ha, powerText_replaced ha]
  · rw [powerText_prep hb, powerText_replaced hb, powerText_prep ha, powerText_replaced ha]

/-- In attribute values they are replaced, in comments, CDATA sections and literals they are not. -/
example : replaced [] c!"<!DOCTYPE m SYSTEM \"&a;\"><m b='&a;c'>&a;&lt;&#9;<!--&a;--><![CDATA[&a;]]><?p &a;?></m>" =
    c!"<!DOCTYPE m SYSTEM \"&a;\"><m b='c'>&lt;&#9;<!--&a;--><![CDATA[&a;]]><?p &a;?></m>" := by decide

end Verif
