import Verif.Spec.Range
import Verif.Props.Rules
import Verif.Props.Text
import Verif.Props.Shown
import Verif.Props.Xml

/-!
# C71: which strings are results
-/

namespace Verif
open Spec

theorem ink_other {s : Str} {c a : Char} (h : ink s = [c]) (ha : a ∈ s) (hs : isSpace a = false) : a = c := by
  have : a ∈ ink s := List.mem_filter.2 ⟨ha, by rw [hs]; rfl⟩
  rw [h] at this
  exact List.mem_singleton.1 this

theorem ink_split {s t : Str} {c : Char} (h : ink (s ++ t) = [c]) : ink s = [c] ∨ ink t = [c] := by
  rw [ink_append] at h
  cases hs : ink s with
  | nil => rw [hs] at h; exact .inr h
  | cons a r =>
    rw [hs] at h
    injection h with h1 h2
    left
    rw [h1, (List.append_eq_nil_iff.1 h2).1]

theorem ink_join {sep : Str} {c : Char} (hsep : c ∉ sep) : ∀ {ss : List Str}, ink (join sep ss) = [c] →
    ∃ s ∈ ss, ink s = [c]
  | [], h => by cases h
  | [s], h => ⟨s, by simp, by simpa [join] using h⟩
  | s :: t :: ss, h => by
    rw [join] at h
    rcases ink_split h with h | h
    · rcases ink_split h with h | h
      · exact ⟨s, by simp, h⟩
      · have : c ∈ ink sep := by rw [h]; simp
        exact absurd (List.mem_filter.1 this).1 hsep
    · obtain ⟨u, hu, h⟩ := ink_join hsep (ss := t :: ss) h
      exact ⟨u, .tail _ hu, h⟩

theorem ink_self {c : Char} {s : Str} (h : ink s = [c]) : c ∈ s ∧ isSpace c = false := by
  have : c ∈ ink s := by rw [h]; simp
  have := List.mem_filter.1 this
  simpa using this

theorem WsNormal.one {s : Str} {c : Char} (hn : WsNormal s) (h : ink s = [c]) : s = [c] := by
  cases s with
  | nil => cases h
  | cons a t =>
    have ha := hn.head a t rfl
    have hc := ink_other h (.head _) ha
    subst hc
    cases ht : t.reverse with
    | nil => rw [List.reverse_eq_nil_iff.1 ht]
    | cons z u =>
      have et : t = u.reverse ++ [z] := by
        have := congrArg List.reverse ht
        simpa using this
      have hz := hn.last z (a :: u.reverse) (by rw [et]; rfl)
      have h1 : ink (a :: t) = a :: ink t := by simp [ink, ha]
      rw [h1] at h
      have h2 : z ∈ ink t := List.mem_filter.2 ⟨by rw [et]; simp, by rw [hz]; rfl⟩
      rw [(List.cons.inj h).2] at h2
      cases h2

/-! ## The tables -/

set_option maxRecDepth 100000 in
theorem numeral_key_aux : (numerals.all fun r => (List.range (r.2 - r.1 + 1)).all fun i =>
    mathNumberByGlyph.any fun p => p.1 == [Char.ofNat (r.1 + i)] && p.2 != []) = true := by decide +kernel

theorem numeral_key {c : Char} (h : Numeral c) : ∃ v, v ≠ [] ∧ ([c], v) ∈ mathNumberByGlyph := by
  obtain ⟨r, hr, h1, h2⟩ := h
  have h3 := List.all_eq_true.1 (List.all_eq_true.1 numeral_key_aux r hr) (c.toNat - r.1)
    (List.mem_range.2 (by omega))
  obtain ⟨p, hp, h4⟩ := List.any_eq_true.1 h3
  rw [show r.1 + (c.toNat - r.1) = c.toNat by omega, Char.ofNat_toNat, Bool.and_eq_true] at h4
  have h5 : p.1 = [c] := by simpa using h4.1
  exact ⟨p.2, by simpa using h4.2, by rw [← h5]; exact hp⟩

set_option maxRecDepth 100000 in
theorem key_numeral_aux : (mathNumberByGlyph.all fun p => match p.1 with
    | [c] => decide (Numeral c)
    | _ => false) = true := by decide +kernel

theorem key_numeral {k v : Str} (h : (k, v) ∈ mathNumberByGlyph) : ∃ c, Numeral c ∧ k = [c] := by
  have := List.all_eq_true.1 key_numeral_aux _ h
  match k, this with
  | [c], h => exact ⟨c, of_decide_eq_true h, rfl⟩

set_option maxRecDepth 100000 in
theorem values_aux : ([allMathSymbolsByChar, allMathSymbolsByGlyph, allMathOperatorsByChar, allMathOperatorsByGlyph,
    mathNumberByGlyph].all fun t => t.all fun p => p.2.all fun c => !decide (Numeral c)) = true := by decide +kernel

theorem tabulated_mem {ts : List (Dict Str)} {k v : Str} (h : Tabulated ts k v) : ∃ t ∈ ts, (k, v) ∈ t := by
  induction h with
  | here h _ => exact ⟨_, .head _, h⟩
  | skip _ _ ih => obtain ⟨t, ht, h⟩ := ih; exact ⟨t, .tail _ ht, h⟩

theorem tabulated_values {ts : List (Dict Str)} {k v : Str} {c : Char} (h : Tabulated ts k v)
    (hts : ∀ t ∈ ts, t ∈ [allMathSymbolsByChar, allMathSymbolsByGlyph, allMathOperatorsByChar,
      allMathOperatorsByGlyph, mathNumberByGlyph]) (hc : Numeral c) : c ∉ v := by
  obtain ⟨t, ht, h⟩ := tabulated_mem h
  intro hm
  have := List.all_eq_true.1 (List.all_eq_true.1 (List.all_eq_true.1 values_aux t (hts t ht)) _ h) c hm
  simp [hc] at this

theorem numeral_big {c : Char} (h : Numeral c) : 128 ≤ c.toNat ∧ alnumIgnoreCase c = false := by
  obtain ⟨r, hr, h1, h2⟩ := h
  have h3 : ∀ r ∈ numerals, 128 ≤ r.1 ∧ ∀ n ∈ [0x130, 0x131, 0x17f, 0x212a], r.2 < n ∨ n < r.1 := by decide
  obtain ⟨h3, h4⟩ := h3 r hr
  refine ⟨by omega, ?_⟩
  have e1 := h4 0x130 (by decide)
  have e2 := h4 0x131 (by decide)
  have e3 := h4 0x17f (by decide)
  have e4 := h4 0x212a (by decide)
  rw [alnumIgnoreCase]
  simp only [Bool.or_eq_false_iff, beq_eq_false_iff_ne]
  refine ⟨⟨⟨⟨?_, by omega⟩, by omega⟩, by omega⟩, by omega⟩
  have h5 : 128 ≤ c.toNat := by omega
  simp only [isAsciiAlnum, Bool.or_eq_false_iff, Bool.and_eq_false_iff, decide_eq_false_iff_not]
  omega

/-! ## No numeral alone -/

/-- The characters of this string that are not whitespace are not a single numeral. -/
def NotNumeral (s : Str) : Prop := ∀ c, Numeral c → ink s ≠ [c]

theorem NotNumeral.ascii {s : Str} (a : Char) (ha : a ∈ s) (h : isSpace a = false ∧ a.toNat < 128) : NotNumeral s := by
  intro c hc e
  have := ink_other e ha h.1
  have := (numeral_big hc).1
  subst a
  omega

theorem NotNumeral.join {sep : Str} {ss : List Str} (hsep : ∀ c ∈ sep, c.toNat < 128) (h : ∀ s ∈ ss, NotNumeral s) :
    NotNumeral (join sep ss) := by
  intro c hc e
  obtain ⟨s, hs, e⟩ := ink_join (fun hm => by have := hsep c hm; have := (numeral_big hc).1; omega) e
  exact h s hs c hc e

theorem NotNumeral.append {s t : Str} (hs : NotNumeral s) (ht : NotNumeral t) : NotNumeral (s ++ t) := by
  intro c hc e
  rcases ink_split e with e | e
  · exact hs c hc e
  · exact ht c hc e

theorem NotNumeral.nil : NotNumeral [] := fun c _ e => by cases e

theorem NotNumeral.applyAll {cs : List Str} {s : Str} (h : NotNumeral s) : NotNumeral (Spec.applyAll cs s) := by
  cases cs with
  | nil => exact h
  | cons c cs => exact .ascii '{' (by simp [Spec.applyAll]) (by decide)

theorem untabulated_numeral {ts : List (Dict Str)} {k : Str} (h : Untabulated ts k)
    (hts : mathNumberByGlyph ∈ ts) (hk : WsNormal k) : NotNumeral k := by
  intro c hc e
  obtain ⟨v, hv, hm⟩ := numeral_key hc
  exact hv (h _ hts v (by rw [hk.one e]; exact hm))

theorem symbol_numeral {ts : List (Dict Str)} {k s : Str} (h : Symbol ts k s) (hk : WsNormal k)
    (hts : ∀ t ∈ ts, t ∈ [allMathSymbolsByChar, allMathSymbolsByGlyph, allMathOperatorsByChar,
      allMathOperatorsByGlyph, mathNumberByGlyph]) (hts' : mathNumberByGlyph ∈ ts) : NotNumeral s := by
  rcases h with h | ⟨h, hg⟩
  · exact fun c hc e => tabulated_values h hts hc (ink_self e).1
  · cases hg with
    | alnum _ => exact untabulated_numeral h hts' hk
    | accent _ _ _ => exact .ascii '{' (by simp) (by decide)
    | font _ _ _ => exact .ascii '{' (by simp) (by decide)
    | plain _ _ _ => exact untabulated_numeral h hts' hk

theorem mi_numeral {k s : Str} (h : MiSymbol k s) (hk : WsNormal k) : NotNumeral s :=
  symbol_numeral h hk (by simp) (by simp)

theorem mo_numeral {k s : Str} (h : MoSymbol k s) (hk : WsNormal k) : NotNumeral s :=
  symbol_numeral h hk (by simp) (by simp)

theorem mn_numeral {k s : Str} (h : MnSymbol k s) (hk : WsNormal k) : NotNumeral s := by
  rcases h with h | ⟨h, rfl⟩
  · exact fun c hc e => tabulated_values h (by simp) hc (ink_self e).1
  · exact untabulated_numeral h (by simp) hk

theorem text_numeral {cmds : List Str} (hc : cmds ≠ []) {t s : Str} (h : MText cmds t s) : NotNumeral s := by
  induction h with
  | nil => exact .nil
  | run _ _ _ _ ih =>
    refine .append ?_ ih
    cases cmds with
    | nil => exact absurd rfl hc
    | cons c cs => exact .ascii '{' (by simp [Spec.applyAll]) (by decide)
  | other _ h _ ih => exact .append (mi_numeral h (normalize_wsNormal _)) ih

theorem fonts_ne (v : Str) : fonts textVariants [c!"\\text"] v ≠ [] := by
  unfold fonts
  split
  · rename_i p h
    have h1 := List.mem_of_find?_eq_some h
    have h2 : ∀ p ∈ textVariants, p.2 ≠ [] := by decide
    exact h2 p h1
  · simp

theorem enclosure_numeral (k : Str) : NotNumeral (enclosure k).1 ∧ NotNumeral (enclosure k).2 := by
  have h : ∀ p ∈ enclosures, (∀ c ∈ p.2.1, c.toNat < 128) ∧ ∀ c ∈ p.2.2, c.toNat < 128 := by decide
  have ha : ∀ s : Str, (∀ c ∈ s, c.toNat < 128) → NotNumeral s := fun s hs c hc e => by
    have := hs c (ink_self e).1
    have := (numeral_big hc).1
    omega
  unfold enclosure
  split
  · rename_i p hp
    have := h p (List.mem_of_find?_eq_some hp)
    exact ⟨ha _ this.1, ha _ this.2⟩
  · exact ⟨ha _ (by decide), ha _ (by decide)⟩

theorem renders_numeral {b : Bool} {n : Node} {s : Str} (h : Renders b n s) : NotNumeral s := by
  have hz : ∀ {ks : List Node} {ss : List Str}, ks.length = ss.length →
      (∀ p ∈ ks.zip ss, NotNumeral p.2) → ∀ s ∈ ss, NotNumeral s := by
    intro ks ss hl h s hs
    obtain ⟨i, hi, rfl⟩ := List.mem_iff_getElem.1 hs
    exact h (ks[i]'(by omega), ss[i]) (List.mem_iff_getElem.2 ⟨i, by simp; omega, by simp⟩)
  induction h with
  | row _ hl _ ih => exact .join (by decide) (hz hl ih)
  | math hl _ ih =>
    intro c hc e
    rw [ink_normalize] at e
    exact NotNumeral.join (by decide) (hz hl ih) c hc e
  | mi h => exact .applyAll (mi_numeral h (normalize_wsNormal _))
  | mo h => exact mo_numeral h (normalize_wsNormal _)
  | mn h => exact mn_numeral h (normalize_wsNormal _)
  | mtext h => exact text_numeral (fonts_ne _) h
  | msqrt _ _ _ => exact .ascii '\\' (by simp) (by decide)
  | merror _ _ _ => exact .ascii '\\' (by simp) (by decide)
  | menclose hl _ ih =>
    exact .append (.append (enclosure_numeral _).1 (.join (by decide) (hz hl ih))) (enclosure_numeral _).2
  | mphantom => exact .nil
  | mfrac _ _ _ _ _ _ => exact .ascii '\\' (by simp) (by decide)
  | bevelled _ _ _ _ _ _ => exact .ascii '/' (by simp) (by decide)
  | mroot _ _ _ _ _ => exact .ascii '\\' (by simp) (by decide)
  | msup _ _ _ _ _ => exact .ascii '^' (by simp) (by decide)
  | msub _ _ _ _ _ => exact .ascii '_' (by simp) (by decide)
  | msubsup _ _ _ _ _ _ _ => exact .ascii '_' (by simp) (by decide)
  | munder _ _ _ _ _ => exact .ascii '{' (by unfold stacked; split <;> simp [braces]) (by decide)
  | mover _ _ _ _ _ => exact .ascii '{' (by unfold stacked; split <;> simp [braces]) (by decide)
  | munderover _ _ _ _ _ _ _ => exact .ascii '_' (by simp) (by decide)
  | mmultiscripts _ _ _ _ _ _ _ ih1 ih2 ih3 ih4 ih5 =>
    have hs : ∀ p q u v, p ≠ [] → NotNumeral (scripts p q u v) := by
      intro p q u v _
      unfold scripts
      split
      · exact .ascii '^' (by simp) (by decide)
      · exact .nil
    refine .append (.append (hs _ _ _ _ (by decide)) ?_) (hs _ _ _ _ (by decide))
    unfold parensIfSpace
    split
    · exact .ascii '\\' (by simp [parens]) (by decide)
    · assumption
  | toggle _ hl _ ih => exact .join (by decide) (hz hl ih)
  | maction _ _ _ ih => exact ih
  | mfenced _ _ _ _ => exact .ascii '\\' (by simp [fence]) (by decide)
  | matrix _ _ _ _ =>
    refine .ascii '\\' ?_ (by decide)
    unfold Spec.matrix
    split
    · simp [environment]
    · split <;> simp [environment]
  | mtable _ hl _ ih => exact .join (by decide) (hz hl ih)
  | innerTable _ _ _ _ => exact .ascii '\\' (by simp) (by decide)
  | mtr hl _ ih => exact .join (by decide) (hz hl ih)

/-! ## The theorems -/

theorem Spec.Normal.ws {s : Str} (h : Normal s) : WsNormal s :=
  ⟨h.onlyBlanks, fun ⟨a, b, e⟩ => h.noDouble ⟨a, b, by rw [e]; simp⟩, h.noLeading, h.noTrailing⟩

theorem doc_not_numeral {d : Doc} {s : Str} (h : docResult d = .ok s) : NotNumeral s := by
  obtain ⟨ss, hl, hr, rfl⟩ := (C37_document d s).1 h
  have h1 : ∀ t ∈ ss, NotNumeral t := by
    intro t ht
    obtain ⟨i, hi, rfl⟩ := List.mem_iff_getElem.1 ht
    exact renders_numeral (hr ((maths d)[i]'(by omega), ss[i]) (List.mem_iff_getElem.2 ⟨i, by simp; omega, by simp⟩))
  clear h hl hr
  induction ss with
  | nil => exact .nil
  | cons t ss ih => exact .append (h1 t (.head _)) (ih fun u hu => h1 u (.tail _ hu))

/-- The document with the number `s`. -/
def numberDoc (s : Str) : Node := .elem c!"math" [] [.elem c!"mn" [] (if s = [] then [] else [.text s])]

theorem numberDoc_result {s : Str} (hn : Normal s) (hs : ¬ ∃ c, Numeral c ∧ s = [c]) :
    docResult [numberDoc s] = .ok s := by
  have ht : tokenData (if s = [] then [] else [.text s]) = s := by
    by_cases h : s = []
    · subst h; rfl
    · rw [if_neg h]; rfl
  have h1 : Renders false (.elem c!"mn" [] (if s = [] then [] else [.text s])) s := by
    refine .mn ?_
    rw [ht, hn.ws.normalize_eq]
    refine .inr ⟨?_, rfl⟩
    intro t ht v hv
    rw [List.mem_singleton.1 ht] at hv
    exact absurd (key_numeral hv) hs
  have h2 : Renders false (numberDoc s) (normalize (join c!" " [s])) :=
    .math (ss := [s]) rfl (by intro p hp; rw [List.mem_singleton.1 hp]; exact h1)
  rw [show join c!" " [s] = s from rfl, hn.ws.normalize_eq] at h2
  refine (C37_document _ _).2 ⟨[s], ?_, ?_, by simp⟩
  · have : maths [numberDoc s] = [numberDoc s] := by
      by_cases h : s = [] <;> simp [numberDoc, maths, elements, elementsOf, isMath, h]
    rw [this]; rfl
  · have : maths [numberDoc s] = [numberDoc s] := by
      by_cases h : s = [] <;> simp [numberDoc, maths, elements, elementsOf, isMath, h]
    rw [this]
    intro p hp
    rw [List.mem_singleton.1 hp]
    exact h2

/-- **C71** The results of documents are exactly the strings in normal form that are not a single
superscript, subscript, fraction or number in a circle. -/
theorem C71_range (s : Str) : (∃ d, docResult d = .ok s) ↔ Normal s ∧ ¬ ∃ c, Numeral c ∧ s = [c] := by
  constructor
  · rintro ⟨d, h⟩
    refine ⟨.of_ws (docResult_normal h), ?_⟩
    rintro ⟨c, hc, rfl⟩
    have h1 : isSpace c = false := (docResult_normal h).head c [] rfl
    exact doc_not_numeral h c hc (by simp [ink, h1])
  · rintro ⟨h1, h2⟩
    exact ⟨_, numberDoc_result h1 h2⟩

/-- **C71** Whatever the parser does, such a character alone is never the result. -/
theorem C71_never (env : Env) (x : Str) (c : Char) (hc : Numeral c) : convert env x ≠ .ok [c] := by
  intro h
  obtain ⟨n, y, d, _, _, _, hd⟩ := convert_ok_doc h
  exact ((C71_range [c]).1 ⟨d, hd⟩).2 ⟨c, hc, rfl⟩

/-- **C71** Nothing is filtered: with a correct parser, every other string in normal form, of characters
that can occur in XML, is the result for the text of a number. -/
theorem C71_anything (env : Env) (he : Xml.Correct env) (s : Str) (hn : Normal s)
    (hs : ¬ ∃ c, Numeral c ∧ s = [c]) (hl : ∀ c ∈ s, Xml.legal c = true) :
    convert env (Xml.write (numberDoc s)) = .ok s := by
  have hw : Xml.Writable [numberDoc s] := by
    refine .elem (by decide) (by simp) (by unfold Xml.Distinct; decide) (.elem (by decide) (by simp)
      (by unfold Xml.Distinct; decide) ?_ .nil) .nil
    by_cases h : s = []
    · rw [if_pos h]; exact .nil
    · rw [if_neg h]; exact .text h hl (by simp [Xml.NoText]) .nil
  rw [(C61_written env he _ rfl hw).2, numberDoc_result hn hs]

/-- **C71**, an instance: commands and unbalanced braces come through. -/
example (env : Env) (he : Xml.Correct env) :
    convert env c!"<math><mn>}\\input{/etc/passwd} \\end{document}</mn></math>" =
      .ok c!"}\\input{/etc/passwd} \\end{document}" := by
  have h := C71_anything env he c!"}\\input{/etc/passwd} \\end{document}" (.of_ws (by
    have := normalize_wsNormal c!"}\\input{/etc/passwd} \\end{document}"
    rwa [show normalize c!"}\\input{/etc/passwd} \\end{document}" = c!"}\\input{/etc/passwd} \\end{document}" by
      decide +kernel] at this)) (by rintro ⟨c, _, h⟩; simp at h) (by decide +kernel)
  rwa [show Xml.write (numberDoc c!"}\\input{/etc/passwd} \\end{document}") =
    c!"<math><mn>}\\input{/etc/passwd} \\end{document}</mn></math>" by decide +kernel] at h

example : Numeral '²' ∧ Numeral '½' ∧ Numeral '㊿' ∧ ¬ Numeral '2' := by decide

end Verif
