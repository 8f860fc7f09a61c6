import Verif.Lemmas.Commands
import Verif.Props.Nesting
import Verif.Props.Tokens

/-! # The control words of the output (C52) -/

namespace Verif
open Spec

/-! ## The tables -/

/-- The values have known control words only, and begin with a letter only for letters. -/
def okTable (d : Dict Str) : Bool := d.all fun p => okB p.2

set_option maxRecDepth 100000 in
theorem okTable_symChar : okTable allMathSymbolsByChar = true := by decide +kernel
set_option maxRecDepth 100000 in
theorem okTable_symGlyph : okTable allMathSymbolsByGlyph = true := by decide +kernel
set_option maxRecDepth 100000 in
theorem okTable_number : okTable mathNumberByGlyph = true := by decide +kernel
set_option maxRecDepth 100000 in
theorem okTable_opChar : okTable allMathOperatorsByChar = true := by decide +kernel
set_option maxRecDepth 100000 in
theorem okTable_opGlyph : okTable allMathOperatorsByGlyph = true := by decide +kernel

/-- All accented letters, with all accents. -/
def sepVowels : Bool :=
  vowelsWithAccents.all fun p => accentToLtxCmd.all fun q =>
    sepB (c!"\\" ++ q.2 ++ c!"{" ++ p.2.1 ++ c!"}")

set_option maxRecDepth 100000 in
theorem sep_vowels : sepVowels = true := by decide +kernel

def sepFonts : Bool :=
  specialFontChars.all fun p => sepB (c!"\\" ++ p.2.2 ++ c!"{" ++ p.2.1 ++ c!"}")

set_option maxRecDepth 100000 in
theorem sep_fonts : sepFonts = true := by decide +kernel

theorem Spec.Tabulated.ok {ts : List (Dict Str)} (hts : ∀ t ∈ ts, okTable t = true)
    {k v : Str} (h : Tabulated ts k v) : Ok v := by
  induction h with
  | here hm _ =>
    have hv := hts _ List.mem_cons_self
    unfold okTable at hv
    exact ok_of (forall_of_all hv _ _ hm)
  | skip _ _ ih => exact ih fun t ht => hts t (List.mem_cons_of_mem _ ht)

theorem Spec.Glyph.sep {k s : Str} (h : Glyph k s) : s = k ∨ Sep s := by
  cases h with
  | alnum _ => exact .inl rfl
  | plain _ _ _ => exact .inl rfl
  | accent _ h1 h2 =>
    refine .inr (sep_of ?_)
    have hv := sep_vowels
    unfold sepVowels at hv
    have := forall_of_all hv _ _ h1
    exact forall_of_all this _ _ h2
  | font _ _ h1 =>
    refine .inr (sep_of ?_)
    have hv := sep_fonts
    unfold sepFonts at hv
    exact forall_of_all hv _ _ h1

theorem Spec.Symbol.ok {ts : List (Dict Str)} (hts : ∀ t ∈ ts, okTable t = true)
    {k s : Str} (h : Symbol ts k s) (hk : '\\' ∉ k) : Ok s := by
  rcases h with h | ⟨_, h⟩
  · exact h.ok hts
  · rcases h.sep with rfl | h
    · exact (Done.chars hk).ok
    · exact h.1.ok

theorem ok_mi : ∀ t ∈ [allMathSymbolsByChar, allMathSymbolsByGlyph, mathNumberByGlyph],
    okTable t = true := by
  intro t ht
  simp only [List.mem_cons, List.not_mem_nil, or_false] at ht
  rcases ht with rfl | rfl | rfl
  · exact okTable_symChar
  · exact okTable_symGlyph
  · exact okTable_number

theorem ok_mo : ∀ t ∈ [allMathOperatorsByChar, allMathOperatorsByGlyph, mathNumberByGlyph],
    okTable t = true := by
  intro t ht
  simp only [List.mem_cons, List.not_mem_nil, or_false] at ht
  rcases ht with rfl | rfl | rfl
  · exact okTable_opChar
  · exact okTable_opGlyph
  · exact okTable_number

theorem ok_backslash : (okB (characterApply c!"\\") && okB (operate c!"\\")) = true ∧
    NoLetter (characterApply c!"\\") := by
  have e : characterApply c!"\\" = c!"\\backslash" := by decide +kernel
  refine ⟨by decide +kernel, ?_⟩
  rw [e]; rintro c t ⟨⟩; decide

theorem Spec.MiSymbol.ok {k s : Str} (h : MiSymbol k s) (hk : '\\' ∉ k ∨ k = c!"\\") : Ok s := by
  rcases hk with hk | rfl
  · exact Symbol.ok ok_mi h hk
  · rw [← (miSymbol_iff _ _).1 h]
    have := ok_backslash.1
    rw [Bool.and_eq_true] at this
    exact ok_of this.1

theorem Spec.MoSymbol.ok {k s : Str} (h : MoSymbol k s) (hk : '\\' ∉ k ∨ k = c!"\\") : Ok s := by
  rcases hk with hk | rfl
  · exact Symbol.ok ok_mo h hk
  · rw [← (moSymbol_iff _ _).1 h]
    have := ok_backslash.1
    rw [Bool.and_eq_true] at this
    exact ok_of this.2

theorem backslash_normalize {s : Str} (h : '\\' ∉ s ∨ split s = [c!"\\"]) :
    '\\' ∉ normalize s ∨ normalize s = c!"\\" := by
  rcases h with h | h
  · refine .inl fun hm => ?_
    rcases mem_normalize hm with e | hm
    · exact absurd e (by decide)
    · exact h hm
  · right; unfold Verif.normalize; rw [h]; rfl

/-! ## Texts -/

/-- The code points of the entries whose value begins with a letter though the key does not. -/
def leadOk (d : Dict Str) : Bool :=
  d.all fun p => match p.1, p.2 with
    | [c], v :: _ => !isLetter v || decide (IsTextChar c) || disguised.any fun e => e.toNat == c.toNat
    | [], v :: _ => !isLetter v
    | _, _ => true

set_option maxRecDepth 100000 in
theorem leadOk_char : leadOk allMathSymbolsByChar = true := by decide +kernel
set_option maxRecDepth 100000 in
theorem leadOk_glyph : leadOk allMathSymbolsByGlyph = true := by decide +kernel
set_option maxRecDepth 100000 in
theorem leadOk_number : leadOk mathNumberByGlyph = true := by decide +kernel

theorem Spec.Tabulated.noLetter {ts : List (Dict Str)} (hts : ∀ t ∈ ts, leadOk t = true)
    {k v : Str} (h : Tabulated ts k v)
    (hk : k = [] ∨ ∃ c, k = [c] ∧ ¬ IsTextChar c ∧ c ∉ disguised) : NoLetter v := by
  induction h with
  | @here t ts k v hm _ =>
    have hv := hts _ List.mem_cons_self
    unfold leadOk at hv
    have a := forall_of_all hv _ _ hm
    rintro d u rfl
    rcases hk with rfl | ⟨c, rfl, h1, h2⟩
    · simpa using a
    · simp only [Bool.or_eq_true, Bool.not_eq_true', decide_eq_true_eq, List.any_eq_true,
        beq_iff_eq] at a
      rcases a with (a | a) | ⟨e, he, a⟩
      · exact a
      · exact absurd a h1
      · exact absurd (Char.toNat_inj.1 a ▸ he) h2
  | skip _ _ ih => exact ih (fun t ht => hts t (List.mem_cons_of_mem _ ht)) hk

theorem leadOk_mi : ∀ t ∈ [allMathSymbolsByChar, allMathSymbolsByGlyph, mathNumberByGlyph],
    leadOk t = true := by
  intro t ht
  simp only [List.mem_cons, List.not_mem_nil, or_false] at ht
  rcases ht with rfl | rfl | rfl
  · exact leadOk_char
  · exact leadOk_glyph
  · exact leadOk_number

theorem not_letter_of_not_text {c : Char} (h : ¬ IsTextChar c) : isLetter c = false := by
  rw [Bool.eq_false_iff]
  intro hl
  simp only [isLetter, Bool.or_eq_true, Bool.and_eq_true, decide_eq_true_eq] at hl
  rcases hl with hl | hl
  · exact h (.inr (.inr (.inl hl)))
  · exact h (.inr (.inl hl))

theorem Spec.MiSymbol.noLetter {k s : Str} (h : MiSymbol k s)
    (hk : k = [] ∨ ∃ c, k = [c] ∧ ¬ IsTextChar c ∧ c ∉ disguised) : NoLetter s := by
  rcases h with h | ⟨_, h⟩
  · exact h.noLetter leadOk_mi hk
  · rcases h.sep with rfl | h
    · rcases hk with rfl | ⟨c, rfl, h1, h2⟩
      · exact .nil
      · rintro d t ⟨⟩; exact not_letter_of_not_text h1
    · exact h.2.2

/-- Commands with one argument. -/
def knownCommands (cs : List Str) : Bool := cs.all fun c => sepB (c ++ c!"{")

theorem Ok.applyAll {cs : List Str} (h : knownCommands cs = true) {s : Str} (hs : Ok s) :
    Ok (applyAll cs s) := by
  induction cs with
  | nil => exact hs
  | cons c cs ih =>
    rw [knownCommands, List.all_cons, Bool.and_eq_true] at h
    exact ((ih h.2).between (sep_of h.1).1 sep_rbrace).ok

theorem Ok.applyAll_sep {cs : List Str} (h : knownCommands cs = true) (hne : cs ≠ []) {s : Str}
    (hs : Ok s) : Sep (Spec.applyAll cs s) := by
  cases cs with
  | nil => exact absurd rfl hne
  | cons c cs =>
    rw [knownCommands, List.all_cons, Bool.and_eq_true] at h
    have h2 := (Ok.applyAll (cs := cs) h.2 hs)
    rw [Spec.applyAll, List.append_assoc]
    exact (sep_of h.1).append
      (show Done _ from by
        have := h2.append_sep sep_rbrace
        exact this)

theorem fonts_known {variants : Dict (List Str)} {dflt : List Str}
    (hv : variants.all (fun p => knownCommands p.2) = true) (hd : knownCommands dflt = true)
    (v : Str) : knownCommands (fonts variants dflt v) = true := by
  unfold fonts
  split
  · rename_i p hp
    exact List.all_eq_true.1 hv p (List.mem_of_find?_eq_some hp)
  · exact hd

theorem textFonts_ne (v : Str) : fonts textVariants [c!"\\text"] v ≠ [] := by
  unfold fonts
  split
  · rename_i p hp
    have : ∀ p ∈ textVariants, p.2 ≠ [] := by decide
    exact this p (List.mem_of_find?_eq_some hp)
  · simp

theorem Spec.MText.ok {cmds : List Str} (hc : knownCommands cmds = true) (hne : cmds ≠ [])
    {x s : Str} (h : MText cmds x s) (hx : ∀ c ∈ x, c ∉ disguised) : Ok s ∧ NoLetter s := by
  induction h with
  | nil => exact ⟨.nil, .nil⟩
  | @run w rest out _ hw _ _ ih =>
    have hr := ih fun c hc => hx c (List.mem_append_right _ hc)
    have hw' : '\\' ∉ w := fun hm => absurd (hw _ hm) (by decide)
    have := (Done.chars hw').ok.applyAll_sep hc hne
    exact ⟨this.1.append_ok hr.1, this.2.2.append hr.2⟩
  | @other c rest s out hnt hs _ ih =>
    have hr := ih fun c hc => hx c (List.mem_cons_of_mem _ hc)
    have key : Ok s ∧ NoLetter s := by
      by_cases hsp : isSpace c = true
      · have : normalize [c] = [] := by
          unfold Verif.normalize; rw [split_cons_space _ hsp]; rfl
        rw [this] at hs
        exact ⟨MiSymbol.ok hs (.inl (by simp)), MiSymbol.noLetter hs (.inl rfl)⟩
      · have : normalize [c] = [c] := by
          unfold Verif.normalize
          rw [split_word [c] (by simp) (by simpa using hsp)]; rfl
        rw [this] at hs
        refine ⟨MiSymbol.ok hs ?_, MiSymbol.noLetter hs (.inr ⟨c, rfl, hnt, hx c (by simp)⟩)⟩
        by_cases hb : c = '\\'
        · exact .inr (by rw [hb])
        · exact .inl (by simpa using fun e => hb e.symm)
    exact ⟨key.1.append hr.1 hr.2, key.2.append hr.2⟩

/-! ## Pieces of the constructs -/

theorem Ok.parens {s : Str} (h : Ok s) : Sep (parens s) := by
  refine ⟨h.between (sep_of (by decide +kernel)).1 (sep_of (by decide +kernel)),
    by simp [Spec.parens], ?_⟩
  rintro c t ⟨⟩; decide

theorem Ok.parensIfLong {s : Str} (h : Ok s) : Ok (parensIfLong s) := by
  unfold Spec.parensIfLong; split
  · exact h.parens.1.ok
  · exact h

theorem Ok.scriptBase {n : Node} {s : Str} (h : Ok s) : Ok (scriptBase n s) := by
  unfold Spec.scriptBase; split
  · exact h.parensIfLong
  · exact h

theorem Ok.parensIfSpace {s : Str} (h : Ok s) : Ok (parensIfSpace s) := by
  unfold Spec.parensIfSpace; split
  · exact h.parens.1.ok
  · exact h

theorem Ok.stacked {cmd x a : Str} (hc : Ok cmd) (hx : Ok x) (ha : Ok a) :
    Ok (stacked cmd x a) := by
  unfold Spec.stacked; split
  · exact (ha.append_sep hx.braces).ok
  · exact ((hc.append_sep ha.braces).append hx.braces.1).ok

theorem Ok.scripts {lead : Str} {pq : Option (Node × Node)} {x y : Str} (hl : Sep lead)
    (h : pq.isSome = true → Ok x ∧ Ok y) : scripts lead pq x y = [] ∨ Sep (scripts lead pq x y) := by
  unfold Spec.scripts; split
  · rename_i hs
    exact .inr (((hl.append (h hs).1.braces.1).append (sep_of (by decide)).1).append
      (h hs).2.braces.1)
  · exact .inl rfl

theorem Ok.interleave {sep : Nat → Str} (hsep : ∀ i, Sep (sep i)) : ∀ {ss : List Str},
    (∀ s ∈ ss, Ok s) → Ok (interleave sep ss)
  | [], _ => .nil
  | [s], h => h s (by simp)
  | s :: t :: ss, h =>
    ((h s (by simp)).append_sep (hsep 0)).append_ok
      (Ok.interleave (fun i => hsep (i + 1)) fun u hu => h u (List.mem_cons_of_mem _ hu))

theorem sep_char {c : Char} (h : c ≠ '\\' ∧ isLetter c = false) : Sep [c] :=
  ⟨Done.chars (by simpa using fun e => h.1 e.symm), by simp, by rintro d t ⟨⟩; exact h.2⟩

theorem sep_separator {seps : Str} (h : ∀ c ∈ seps, c ≠ '\\' ∧ isLetter c = false) (i : Nat) :
    Sep (separator seps i) := by
  unfold Spec.separator
  split
  · exact sep_char (h _ (List.getElem_mem _))
  · split
    · rename_i c t e
      refine sep_char (h c ?_)
      rw [← List.mem_reverse, e]; simp
    · exact sep_of (by decide)

theorem Spec.UngluedDelim.sep {d : Str} (h : UngluedDelim d) (hne : d ≠ []) : Sep d :=
  ⟨Done.chars fun hm => h.1 _ hm rfl, hne, h.2⟩

theorem ok_left : Ok c!"\\left" := ok_of (by decide +kernel)
theorem ok_right : Ok c!"\\right" := ok_of (by decide +kernel)

theorem environment_sep {env : Str} {ss : List Str} (h : ∀ s ∈ ss, Ok s) (hl : ss.length ≤ 1)
    (he : env ∈ [c!"matrix", c!"pmatrix", c!"bmatrix", c!"Bmatrix", c!"vmatrix", c!"Vmatrix"]) :
    Sep (environment env ss) := by
  have : Sep (c!"\\begin{" ++ env ++ c!"}\n") ∧ Sep (c!"\n\\end{" ++ env ++ c!"}") := by
    simp only [List.mem_cons, List.not_mem_nil, or_false] at he
    rcases he with rfl | rfl | rfl | rfl | rfl | rfl <;>
      exact ⟨sep_of (by decide +kernel), sep_of (by decide +kernel)⟩
  have e : Spec.environment env ss =
      (c!"\\begin{" ++ env ++ c!"}\n") ++ (ss.flatten ++ (c!"\n\\end{" ++ env ++ c!"}")) := by
    simp [Spec.environment]
  rw [e]
  have hf : Ok ss.flatten := by
    match ss, hl, h with
    | [], _, _ => exact .nil
    | [s], _, h => simpa using h s (by simp)
  exact this.1.append (hf.append_sep this.2)

theorem Ok.matrix {op close : Str} {ss : List Str} (h : ∀ s ∈ ss, Ok s) (hl : ss.length ≤ 1)
    (h1 : UngluedDelim op) (h2 : UngluedDelim close) : Ok (Spec.matrix op close ss) := by
  unfold Spec.matrix
  split
  · rename_i p hp
    refine (environment_sep h hl ?_).1.ok
    have : ∀ p ∈ environments, p.2 ∈
        [c!"matrix", c!"pmatrix", c!"bmatrix", c!"Bmatrix", c!"vmatrix", c!"Vmatrix"] := by decide
    exact this p (List.mem_of_find?_eq_some hp)
  · split
    · exact (environment_sep h hl (by decide)).1.ok
    · have he := environment_sep h hl (env := c!"matrix") (by decide)
      have a : Ok (c!"\\left" ++ op) := by
        by_cases ho : op = []
        · rw [ho]; exact ok_left
        · exact (ok_left.append_sep (h1.sep ho)).ok
      have b : Ok (c!"\\right" ++ close) := by
        by_cases ho : close = []
        · rw [ho]; exact ok_right
        · exact (ok_right.append_sep (h2.sep ho)).ok
      rw [List.append_assoc (c!"\\left" ++ op ++ _)]
      exact (a.append_sep he).append_ok b

theorem Ok.fence {op close seps : Str} {ss : List Str} (h : ∀ s ∈ ss, Ok s)
    (h1 : UngluedDelim op) (h2 : UngluedDelim close)
    (hs : ∀ c ∈ seps, c ≠ '\\' ∧ isLetter c = false) : Ok (fence op close seps ss) := by
  have ho : Sep (orElse op c!"(") := by
    unfold orElse; split
    · exact sep_of (by decide)
    · rename_i hne; exact h1.sep hne
  have hc : Sep (orElse close c!")") := by
    unfold orElse; split
    · exact sep_of (by decide)
    · rename_i hne; exact h2.sep hne
  unfold Spec.fence
  rw [List.append_assoc _ c!"\\right"]
  refine ((ok_left.append_sep ho).append_ok (.interleave (sep_separator hs) h)).append
    (ok_right.append_sep hc).ok ?_
  rintro c t ⟨⟩; decide

/-- The parts of an enclosure end and begin outside of control words. -/
def enclosureKnown (p : Str × Str) : Bool :=
  (p.1 == [] || sepB p.1) && (p.2 == [] || sepB p.2)

theorem enclosures_known : enclosureKnown (c!"\\overline{\\left.\\right)", c!"}") = true ∧
    ∀ p ∈ enclosures, enclosureKnown p.2 = true := by decide +kernel

theorem Ok.enclosure {k : Str} {s : Str} (h : Ok s) :
    Ok ((enclosure k).1 ++ s ++ (enclosure k).2) := by
  have hk : enclosureKnown (Spec.enclosure k) = true := by
    unfold Spec.enclosure
    split
    · rename_i p hp; exact enclosures_known.2 p (List.mem_of_find?_eq_some hp)
    · exact enclosures_known.1
  generalize Spec.enclosure k = p at hk
  simp only [enclosureKnown, Bool.and_eq_true, Bool.or_eq_true, beq_iff_eq] at hk
  have a : Ok (p.1 ++ s) := by
    rcases hk.1 with e | e
    · rw [e]; exact h
    · exact (sep_of e).1.append_ok h
  rcases hk.2 with e | e
  · rw [e, List.append_nil]; exact a
  · exact (a.append_sep (sep_of e)).ok

/-! ## Elements -/

theorem Spec.Unglued.kid {tag : Str} {A : List (Str × Str)} {cs : List Node}
    (h : Unglued (.elem tag A cs)) {n : Node} (hn : n ∈ kids cs) : Unglued n := by
  intro x hx
  refine h x ?_
  rw [elementsOf]
  exact List.mem_cons_of_mem _ (mem_elements_of_mem (mem_kids.1 hn).1 hx)

theorem Spec.Unglued.self {tag : Str} {A : List (Str × Str)} {cs : List Node}
    (h : Unglued (.elem tag A cs)) : UngluedElem (.elem tag A cs) :=
  h _ (by rw [elementsOf]; exact List.mem_cons_self)

theorem all_ok {ns : List Node} {ss : List Str} (hl : ns.length = ss.length)
    (hs : ∀ n ∈ ns, Unglued n) (h : ∀ p ∈ ns.zip ss, Unglued p.1 → Ok p.2) :
    ∀ s ∈ ss, Ok s := by
  induction ns generalizing ss with
  | nil => cases ss with
    | nil => simp
    | cons => simp at hl
  | cons n ns ih =>
    cases ss with
    | nil => simp
    | cons s ss =>
      intro t ht
      rw [List.zip_cons_cons] at h
      rcases List.mem_cons.1 ht with rfl | ht
      · exact h (n, t) List.mem_cons_self (hs n List.mem_cons_self)
      · exact ih (by simpa using hl) (fun m hm => hs m (List.mem_cons_of_mem _ hm))
          (fun p hp => h p (List.mem_cons_of_mem _ hp)) t ht

theorem sep_blank : Sep c!" " := sep_of (by decide)
theorem sep_hat : Sep c!"^" := sep_of (by decide)
theorem sep_low : Sep c!"_" := sep_of (by decide)

theorem Spec.Renders.ok {b : Bool} {n : Node} {s : Str} (h : Renders b n s) :
    Unglued n → Ok s := by
  induction h with
  | row _ hl _ ih => intro hs; exact .join sep_blank (all_ok hl (fun _ => hs.kid) ih)
  | math hl _ ih =>
    intro hs; exact (Ok.join sep_blank (all_ok hl (fun _ => hs.kid) ih)).normalize
  | @mi b A cs s h =>
    intro hs
    exact .applyAll (fonts_known (by decide +kernel) (by decide) _)
      (MiSymbol.ok h (backslash_normalize (hs.self.1 (.inl rfl))))
  | @mo b A cs s h =>
    intro hs
    exact MoSymbol.ok h (backslash_normalize (hs.self.1 (.inr rfl)))
  | @mn b A cs s h =>
    intro hs
    have hk : '\\' ∉ normalize (tokenData cs) := by
      intro hm
      rcases mem_normalize hm with e | hm
      · exact absurd e (by decide)
      · exact hs.self.2.1 rfl hm
    rcases h with h | ⟨_, rfl⟩
    · exact h.ok (by simpa using okTable_number)
    · exact (Done.chars hk).ok
  | mtext h =>
    intro hs
    exact (h.ok (fonts_known (by decide +kernel) (by decide +kernel) _) (textFonts_ne _)
      fun c hc => hs.self.2.2.1 rfl c (mem_strip hc)).1
  | msqrt hl _ ih =>
    intro hs
    exact (Ok.append_sep (ok_of (by decide +kernel))
      (Ok.join sep_blank (all_ok hl (fun _ => hs.kid) ih)).braces).ok
  | merror hl _ ih =>
    intro hs
    exact (Ok.append_sep (ok_of (by decide +kernel))
      (Ok.join sep_blank (all_ok hl (fun _ => hs.kid) ih)).braces).ok
  | menclose hl _ ih =>
    intro hs
    exact .enclosure (.join sep_blank (all_ok hl (fun _ => hs.kid) ih))
  | mphantom => intro _; exact .nil
  | mfrac hk _ _ _ ih1 ih2 =>
    intro hs
    have h1 := ih1 (hs.kid (by rw [hk]; simp))
    have h2 := ih2 (hs.kid (by rw [hk]; simp))
    exact ((Ok.append_sep (ok_of (by decide +kernel)) h1.braces).append h2.braces.1).ok
  | bevelled hk _ _ _ ih1 ih2 =>
    intro hs
    have h1 := ih1 (hs.kid (by rw [hk]; simp))
    have h2 := ih2 (hs.kid (by rw [hk]; simp))
    exact (h1.parensIfLong.append_sep (sep_of (by decide))).append_ok h2.parensIfLong
  | @mroot b A cs n i sn si hk _ _ ih1 ih2 =>
    intro hs
    have h1 := ih1 (hs.kid (by rw [hk]; simp))
    have h2 := ih2 (hs.kid (by rw [hk]; simp))
    exact ((h2.between (sep_of (by decide +kernel)).1 (sep_of (by decide))).append h1.braces.1).ok
  | msup hk _ _ ih1 ih2 =>
    intro hs
    have h1 := ih1 (hs.kid (by rw [hk]; simp))
    have h2 := ih2 (hs.kid (by rw [hk]; simp))
    exact ((h1.scriptBase.append_sep sep_hat).append h2.braces.1).ok
  | msub hk _ _ ih1 ih2 =>
    intro hs
    have h1 := ih1 (hs.kid (by rw [hk]; simp))
    have h2 := ih2 (hs.kid (by rw [hk]; simp))
    exact ((h1.scriptBase.append_sep sep_low).append h2.braces.1).ok
  | msubsup hk _ _ _ ih1 ih2 ih3 =>
    intro hs
    have h1 := ih1 (hs.kid (by rw [hk]; simp))
    have h2 := ih2 (hs.kid (by rw [hk]; simp))
    have h3 := ih3 (hs.kid (by rw [hk]; simp))
    exact ((((h1.scriptBase.append_sep sep_low).append h2.braces.1).append
      sep_hat.1).append h3.braces.1).ok
  | munder hk _ _ ih1 ih2 =>
    intro hs
    exact .stacked (ok_of (by decide +kernel)) (ih1 (hs.kid (by rw [hk]; simp)))
      (ih2 (hs.kid (by rw [hk]; simp)))
  | mover hk _ _ ih1 ih2 =>
    intro hs
    exact .stacked (ok_of (by decide +kernel)) (ih1 (hs.kid (by rw [hk]; simp)))
      (ih2 (hs.kid (by rw [hk]; simp)))
  | munderover hk _ _ _ ih1 ih2 ih3 =>
    intro hs
    have h1 := ih1 (hs.kid (by rw [hk]; simp))
    have h2 := ih2 (hs.kid (by rw [hk]; simp))
    have h3 := ih3 (hs.kid (by rw [hk]; simp))
    exact ((((h1.append_sep sep_low).append h2.braces.1).append
      sep_hat.1).append h3.braces.1).ok
  | @mmultiscripts b A cs x ks sx s1 s2 s3 s4 hk _ _ _ _ _ _ ih ih1 ih2 ih3 ih4 =>
    intro hs
    have pre := Ok.scripts (lead := c!"\\_") (pq := prePair (kids cs)) (x := s1) (y := s2)
      (sep_of (by decide)) (by
        intro h
        obtain ⟨⟨p, q⟩, hp⟩ := Option.isSome_iff_exists.1 h
        have := prePair_mem hp
        exact ⟨ih1 p q hp (hs.kid this.1), ih2 p q hp (hs.kid this.2)⟩)
    have post := Ok.scripts (lead := c!"_") (pq := postPair (kids cs)) (x := s3) (y := s4)
      sep_low (by
        intro h
        obtain ⟨⟨p, q⟩, hp⟩ := Option.isSome_iff_exists.1 h
        have := postPair_mem hp
        exact ⟨ih3 p q hp (hs.kid this.1), ih4 p q hp (hs.kid this.2)⟩)
    have base := (ih (hs.kid (by rw [hk]; simp))).parensIfSpace
    have a : Ok (scripts c!"\\_" (prePair (kids cs)) s1 s2 ++ parensIfSpace sx) := by
      rcases pre with e | e
      · rw [e]; exact base
      · exact e.1.append_ok base
    rcases post with e | e
    · rw [e, List.append_nil]; exact a
    · exact (a.append_sep e).ok
  | toggle _ hl _ ih =>
    intro hs; exact .join (sep_of (by decide +kernel)) (all_ok hl (fun _ => hs.kid) ih)
  | maction _ hk _ ih => intro hs; exact ih (hs.kid (by rw [hk]; simp))
  | mfenced ht hl _ ih =>
    intro hs
    obtain ⟨h1, h2, h3, _⟩ := hs.self.2.2.2 rfl
    exact .fence (all_ok hl (fun _ => hs.kid) ih) h1 h2 h3
  | matrix ht hl _ ih =>
    intro hs
    obtain ⟨h1, h2, _, h4⟩ := hs.self.2.2.2 rfl
    exact .matrix (all_ok hl (fun _ => hs.kid) ih) (hl ▸ h4 ht) h1 h2
  | mtable _ hl _ ih =>
    intro hs; exact .join (sep_of (by decide)) (all_ok hl (fun _ => hs.kid) ih)
  | @innerTable b A cs ss _ hl _ ih =>
    intro hs
    exact ((Ok.join (sep_of (by decide)) (all_ok hl (fun _ => hs.kid) ih)).between
      (sep_of (by decide +kernel)).1 (sep_of (by decide +kernel))).ok
  | mtr hl _ ih =>
    intro hs; exact .join (sep_of (by decide)) (all_ok hl (fun _ => hs.kid) ih)

/-! ## C52 -/

/-- **C52** All control words in the LaTeX of an element belong to a fixed list. -/
theorem C52_element (b : Bool) (n : Node) (hs : Unglued n) (s : Str) (h : latexIn b n = .ok s) :
    ∀ w ∈ controlWords s, w ∈ vocabulary := by
  have : Ok s := by
    cases he : n.isElem with
    | true => exact Renders.ok ((renders_iff he b s).2 h) hs
    | false =>
      have : s = [] := by
        cases n with
        | elem => cases he
        | text => cases h; rfl
        | cdata => cases h; rfl
        | comment => cases h; rfl
        | pi => cases h; rfl
      rw [this]; exact .nil
  obtain ⟨st, hr, hf⟩ := this
  exact wrun_words hr hf

/-- **C52** The same of a document with one `math` element. -/
theorem C52_document (d : Doc) (hl : (maths d).length ≤ 1) (hs : ∀ n ∈ maths d, Unglued n)
    (s : Str) (h : docResult d = .ok s) : ∀ w ∈ controlWords s, w ∈ vocabulary := by
  rw [docResult_firstOrAll] at h
  cases hf : firstOrAll ((maths d).map (latexIn false)) with
  | error e => rw [hf] at h; cases h
  | ok ss =>
    rw [hf] at h
    cases h
    rw [firstOrAll_ok] at hf
    have hlen : (maths d).length = ss.length := by simpa using congrArg List.length hf
    match ss, hlen with
    | [], _ => simp [controlWords, wordsFrom]
    | [s], hlen =>
      obtain ⟨n, hn⟩ := List.length_eq_one_iff.1 hlen
      rw [hn] at hf
      simp only [List.map_cons, List.map_nil, List.cons.injEq, and_true] at hf
      simpa using C52_element false n (hs n (by simp [hn])) s hf
    | _ :: _ :: _, hlen => simp only [List.length_cons] at hlen; omega

/-- **C52** at the API. -/
theorem C52_convert (env : Env) (x : Str) (d : Doc) (hp : env.parse (prep x) = .ok d)
    (hl : (maths d).length ≤ 1) (hs : ∀ n ∈ maths d, Unglued n) (s : Str)
    (h : convert env x = .ok s) : ∀ w ∈ controlWords s, w ∈ vocabulary := by
  rw [C05_accepted_never_repaired env x d hp] at h
  exact C52_document d hl hs s h

theorem safeMath_unglued : Unglued safeMath := by
  have t1 : ∀ x ∈ elements [.elem c!"mi" [] [.text c!"α"], .elem c!"mtext" [] [.text c!"a % é"],
      .elem c!"mo" [] [.text c!" % "]], tagIs c!"mtable" x = false := by
    simp only [elementsOf, elements, List.mem_cons, List.append_nil, List.cons_append,
      List.nil_append, List.not_mem_nil, or_false]
    rintro x (rfl | rfl | rfl) <;> decide
  have nl : ∀ c ∈ ['[', ';', '{', '}'], c ≠ '\\' ∧ isLetter c = false := by decide
  have ud : ∀ d ∈ [c!"[", c!"", c!"{", c!"}"], UngluedDelim d := by
    intro d hd
    simp only [List.mem_cons, List.not_mem_nil, or_false] at hd
    rcases hd with rfl | rfl | rfl | rfl <;> refine ⟨by decide, ?_⟩ <;>
      first | (rintro c t ⟨⟩; decide) | (rintro c t h; cases h)
  intro x hx
  simp only [safeMath, elementsOf, elements, List.mem_cons, List.append_nil, List.cons_append,
    List.nil_append, List.not_mem_nil, or_false] at hx
  rcases hx with rfl | rfl | rfl | rfl | rfl | rfl | rfl | rfl | rfl | rfl | rfl | rfl | rfl | rfl
  · refine ⟨?_, ?_, ?_, ?_⟩ <;> first | decide | exact fun h => absurd h (by decide)
  · refine ⟨by decide, by decide, by decide, fun _ => ⟨ud _ (by decide), ud _ (by decide),
      by decide, ?_⟩⟩
    rintro ⟨n, hn, ht⟩
    rw [t1 n hn] at ht; cases ht
  · refine ⟨?_, ?_, ?_, ?_⟩ <;> first | decide | exact fun h => absurd h (by decide)
  · refine ⟨?_, ?_, ?_, ?_⟩ <;> first | decide | exact fun h => absurd h (by decide)
  · refine ⟨?_, ?_, ?_, ?_⟩ <;> first | decide | exact fun h => absurd h (by decide)
  · refine ⟨by decide, by decide, by decide, fun _ => ⟨ud _ (by decide), ud _ (by decide),
      by decide, fun _ => by decide⟩⟩
  all_goals (refine ⟨?_, ?_, ?_, ?_⟩ <;> first | decide | exact fun h => absurd h (by decide))

/-- The theorem applies to the document of C13. -/
example : ∃ s, latexIn false safeMath = .ok s ∧ (∀ w ∈ controlWords s, w ∈ vocabulary) ∧
    controlWords s = [c!"left", c!"alpha", c!"text", c!"text", c!"acute", c!"right", c!"begin",
      c!"end", c!"overline", c!"left", c!"right"] :=
  ⟨c!"\\left[\\alpha;\\text{a }\\%\\text{ }\\acute{e};\\%\\right) \\begin{Bmatrix} x^{2} \\end{Bmatrix} \\overline{\\left.y\\right|}",
    by decide +kernel, C52_element false safeMath safeMath_unglued _ (by decide +kernel),
    by decide +kernel⟩

/-- **C52** The conditions are needed: backslashes in identifiers and numbers, letters from other
alphabets in a text, letters as separators and delimiters, and a fence with a table among other
things all make new control words. -/
theorem C52_conditions_needed :
    (∃ s, latexIn false (.elem c!"mi" [] [.text c!"\\foo"]) = .ok s ∧
      c!"foo" ∈ controlWords s) ∧
    (∃ s, latexIn false (.elem c!"mn" [] [.text c!"\\foo"]) = .ok s ∧
      c!"foo" ∈ controlWords s) ∧
    (∃ s, latexIn false (.elem c!"mtext" [] [.text c!"αơ"]) = .ok s ∧
      c!"alphao" ∈ controlWords s) ∧
    (∃ s, latexIn false (.elem c!"mfenced" [(c!"separators", c!"x")]
      [.elem c!"mi" [] [.text c!"α"], .elem c!"mi" [] [.text c!"y"]]) = .ok s ∧
      c!"alphaxy" ∈ controlWords s) ∧
    (∃ s, latexIn false (.elem c!"mfenced" [(c!"open", c!"x")]
      [.elem c!"mi" [] [.text c!"α"]]) = .ok s ∧ c!"leftx" ∈ controlWords s) ∧
    (∃ s, latexIn false (.elem c!"mfenced" [] [.elem c!"mi" [] [.text c!"α"],
      .elem c!"mi" [] [.text c!"x"], .elem c!"mtable" [] []]) = .ok s ∧
      c!"alphax" ∈ controlWords s) ∧
    (∃ s, docResult [.elem c!"r" [] [.elem c!"math" [] [.elem c!"mi" [] [.text c!"α"]],
      .elem c!"math" [] [.elem c!"mi" [] [.text c!"x"]]]] = .ok s ∧
      c!"alphax" ∈ controlWords s) ∧
    (∀ w ∈ [c!"foo", c!"alphao", c!"alphaxy", c!"leftx", c!"alphax"], w ∉ vocabulary) := by
  refine ⟨⟨c!"\\foo", ?_, ?_⟩, ⟨c!"\\foo", ?_, ?_⟩, ⟨c!"\\alphao", ?_, ?_⟩,
    ⟨c!"\\left(\\alphaxy\\right)", ?_, ?_⟩, ⟨c!"\\leftx\\alpha\\right)", ?_, ?_⟩,
    ⟨c!"\\begin{bmatrix}\n\\alphax\n\\end{bmatrix}", ?_, ?_⟩, ⟨c!"\\alphax", ?_, ?_⟩, ?_⟩
  all_goals first | decide +kernel | (rw [docResult_eq]; decide +kernel)

/-- **C52** The words that LaTeX does not know are indeed written. -/
theorem C52_unknown_written : ∀ w ∈ otherCommands, ∃ tag k s,
    latexIn false (.elem tag [] [.text k]) = .ok s ∧ w ∈ controlWords s := by
  intro w hw
  simp only [otherCommands, List.mem_cons, List.not_mem_nil, or_false] at hw
  rcases hw with rfl | rfl | rfl | rfl | rfl | rfl | rfl | rfl | rfl | rfl
  · exact ⟨c!"mo", c!"%CF%81", c!"\\pho", by decide +kernel, by decide +kernel⟩
  · exact ⟨c!"mo", c!"≧", c!"\\geg", by decide +kernel, by decide +kernel⟩
  · exact ⟨c!"mo", c!"&#x2A0D;", c!"\\hcancel{\\int}", by decide +kernel, by decide +kernel⟩
  · exact ⟨c!"mo", c!"⋯", c!"\\hdots", by decide +kernel, by decide +kernel⟩
  · exact ⟨c!"mo", c!"⋿", c!"\\Epsilon", by decide +kernel, by decide +kernel⟩
  · exact ⟨c!"mo", c!"ο", c!"\\omicron", by decide +kernel, by decide +kernel⟩
  · exact ⟨c!"mi", c!"¢", c!"\\cent", by decide +kernel, by decide +kernel⟩
  · exact ⟨c!"mi", c!"€", c!"\\euro", by decide +kernel, by decide +kernel⟩
  · exact ⟨c!"mi", c!"●", c!"\\circle", by decide +kernel, by decide +kernel⟩
  · exact ⟨c!"mi", c!"‎", c!"\\text{\\textdir LTR}", by decide +kernel, by decide +kernel⟩

end Verif
