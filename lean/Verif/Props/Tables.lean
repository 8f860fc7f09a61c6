import Verif.Props.Nesting

/-! # The symbol tables (C39) and tokens that vanish (C45) -/

namespace Verif
open Spec

namespace Spec
/-- The tables from texts to LaTeX. -/
def symbolTables : List (Dict Str) :=
  [allMathSymbolsByChar, allMathSymbolsByGlyph, mathNumberByGlyph, allMathOperatorsByChar,
   allMathOperatorsByGlyph]
end Spec

theorem mem_symbolTables {P : Dict Str → Prop} (h1 : P allMathSymbolsByChar)
    (h2 : P allMathSymbolsByGlyph) (h3 : P mathNumberByGlyph) (h4 : P allMathOperatorsByChar)
    (h5 : P allMathOperatorsByGlyph) : ∀ t ∈ symbolTables, P t := by
  intro t ht
  unfold symbolTables at ht
  simp only [List.mem_cons, List.not_mem_nil, or_false] at ht
  rcases ht with rfl | rfl | rfl | rfl | rfl <;> assumption

/-- **C39** No table has two entries for one key. -/
theorem C39_no_duplicates : (∀ t ∈ symbolTables, (t.map Prod.fst).Nodup) ∧
    (vowelsWithAccents.map Prod.fst).Nodup ∧ (accentToLtxCmd.map Prod.fst).Nodup ∧
    (specialFontChars.map Prod.fst).Nodup :=
  ⟨mem_symbolTables nodup_symChar nodup_symGlyph nodup_number nodup_opChar nodup_opGlyph,
    nodup_vowels, nodup_accents, nodup_fonts⟩

def accentsKnown : Bool :=
  vowelsWithAccents.all fun p => accentToLtxCmd.any fun q => q.1 == p.2.2

set_option maxRecDepth 100000 in
theorem accents_known : accentsKnown = true := by decide +kernel

/-- **C39** Every accent has exactly one command. -/
theorem C39_accents (k letter accent : Str) (h : (k, (letter, accent)) ∈ vowelsWithAccents) :
    ∃ cmd, (accent, cmd) ∈ accentToLtxCmd ∧ ∀ cmd', (accent, cmd') ∈ accentToLtxCmd → cmd' = cmd := by
  have hk := accents_known
  unfold accentsKnown at hk
  have := forall_of_all hk _ _ h
  rw [List.any_eq_true] at this
  obtain ⟨⟨a, cmd⟩, hq, e⟩ := this
  simp only [beq_iff_eq] at e
  subst e
  refine ⟨cmd, hq, fun cmd' h' => ?_⟩
  have h1 := (Dict.get?_iff nodup_accents _ _).2 hq
  have h2 := (Dict.get?_iff nodup_accents _ _).2 h'
  rw [h1] at h2
  simpa using h2.symm

/-- **C39** All values are properly nested, except those of the braces. -/
theorem C39_values_nested (t : Dict Str) (ht : t ∈ symbolTables) (k v : Str) (h : (k, v) ∈ t)
    (h1 : k ≠ c!"{") (h2 : k ≠ c!"}") : Nested v := by
  have hn := mem_symbolTables (P := fun t => neutralTable t = true) neutral_symChar neutral_symGlyph
    neutral_number neutral_opChar neutral_opGlyph t ht
  have := forall_of_all hn _ _ h
  simp only [Bool.or_eq_true, beq_iff_eq, h1, h2, false_or] at this
  exact Neutral.nested (turns_of this)

/-- **C39** The braces do have entries that are not. -/
theorem C39_braces_not_nested : ∃ v w, (c!"{", v) ∈ allMathOperatorsByGlyph ∧
    (c!"}", w) ∈ allMathOperatorsByGlyph ∧ ¬ Nested v ∧ ¬ Nested w := by
  refine ⟨c!"\\left{\\right.", c!"\\left.\\right}", ?_, ?_, by decide, by decide⟩
  · rw [← Dict.get?_iff nodup_opGlyph]; decide +kernel
  · rw [← Dict.get?_iff nodup_opGlyph]; decide +kernel

/-- The only key with whitespace is the blank. -/
def keysSpace (d : Dict Str) : Bool := d.all fun p => p.1 == c!" " || !p.1.any isSpace

set_option maxRecDepth 100000 in
theorem keysSpace_symChar : keysSpace allMathSymbolsByChar = true := by decide +kernel
set_option maxRecDepth 100000 in
theorem keysSpace_symGlyph : keysSpace allMathSymbolsByGlyph = true := by decide +kernel
set_option maxRecDepth 100000 in
theorem keysSpace_number : keysSpace mathNumberByGlyph = true := by decide +kernel
set_option maxRecDepth 100000 in
theorem keysSpace_opChar : keysSpace allMathOperatorsByChar = true := by decide +kernel
set_option maxRecDepth 100000 in
theorem keysSpace_opGlyph : keysSpace allMathOperatorsByGlyph = true := by decide +kernel

/-- **C39** No text reaches an entry whose key contains whitespace. -/
theorem C39_space_unreachable (t : Dict Str) (ht : t ∈ symbolTables) (k v : Str) (h : (k, v) ∈ t)
    (hk : ∃ c ∈ k, isSpace c = true) (text : Str) : normalize text ≠ k := by
  have hs := mem_symbolTables (P := fun t => keysSpace t = true) keysSpace_symChar keysSpace_symGlyph
    keysSpace_number keysSpace_opChar keysSpace_opGlyph t ht
  have := forall_of_all hs _ _ h
  simp only [Bool.or_eq_true, beq_iff_eq, Bool.not_eq_true', List.any_eq_false] at this
  rcases this with rfl | this
  · exact normalize_ne_blank text
  · obtain ⟨c, hc, hsp⟩ := hk
    exact absurd hsp (this c hc)

/-- There is such an entry. -/
example : Dict.get? allMathSymbolsByGlyph c!" " ≠ none := by decide +kernel

/-- Values without control characters, but for one symbol. -/
def noControl (d : Dict Str) : Bool :=
  d.all fun p => p.1 == c!"⧷" || p.1 == c!"&#x29F7;" || p.2.all fun c => 32 ≤ c.toNat && c.toNat != 127

set_option maxRecDepth 100000 in
theorem noControl_symChar : noControl allMathSymbolsByChar = true := by decide +kernel
set_option maxRecDepth 100000 in
theorem noControl_symGlyph : noControl allMathSymbolsByGlyph = true := by decide +kernel
set_option maxRecDepth 100000 in
theorem noControl_number : noControl mathNumberByGlyph = true := by decide +kernel
set_option maxRecDepth 100000 in
theorem noControl_opChar : noControl allMathOperatorsByChar = true := by decide +kernel
set_option maxRecDepth 100000 in
theorem noControl_opGlyph : noControl allMathOperatorsByGlyph = true := by decide +kernel

/-- **C39** No value has control characters, except those of one symbol. -/
theorem C39_no_control (t : Dict Str) (ht : t ∈ symbolTables) (k v : Str) (h : (k, v) ∈ t)
    (h1 : k ≠ c!"⧷") (h2 : k ≠ c!"&#x29F7;") : ∀ c ∈ v, 32 ≤ c.toNat ∧ c.toNat ≠ 127 := by
  have hs := mem_symbolTables (P := fun t => noControl t = true) noControl_symChar noControl_symGlyph
    noControl_number noControl_opChar noControl_opGlyph t ht
  have := forall_of_all hs _ _ h
  simp only [Bool.or_eq_true, beq_iff_eq, h1, h2, false_or, List.all_eq_true, Bool.and_eq_true,
    decide_eq_true_eq, bne_iff_ne] at this
  exact this

/-- **C39** That symbol yields a backspace character. -/
theorem C39_backspace : ∃ s, latexIn false (.elem c!"mo" [] [.text c!"⧷"]) = .ok s ∧
    '\x08' ∈ s := ⟨c!"hcancel{\x08ackslash}", by decide +kernel, by decide⟩

/-! ## C45 -/

namespace Spec
/-- Identifiers that are rendered as a blank. -/
def blankIdentifiers : List Str := [c!"त", c!"白", c!"⿱", c!"픀", c!"ፈ", c!"˘"]

/-- Operators that are rendered as a blank. -/
def blankOperators : List Str :=
  [c!"˘", c!"⤱", c!"⤰", c!"⤯", c!"⤮", c!"⤭", c!"⤪", c!"⤩", c!"⤨", c!"⤧", c!"⤦", c!"⤥", c!"⤤", c!"⤣",
   c!"⤢", c!"⤡"]

/-- Only whitespace. -/
def Blank (s : Str) : Prop := ∀ c ∈ s, isSpace c = true
end Spec

/-- The keys with a blank value are in the list or are the blank. -/
def blanksIn (l : List Str) (d : Dict Str) : Bool :=
  d.all fun p => p.2 == [] || !p.2.all isSpace || l.contains p.1 || p.1 == c!" "

set_option maxRecDepth 100000 in
theorem blanks_symChar : blanksIn blankIdentifiers allMathSymbolsByChar = true := by decide +kernel
set_option maxRecDepth 100000 in
theorem blanks_symGlyph : blanksIn blankIdentifiers allMathSymbolsByGlyph = true := by decide +kernel
set_option maxRecDepth 100000 in
theorem blanks_number : blanksIn [] mathNumberByGlyph = true := by decide +kernel
set_option maxRecDepth 100000 in
theorem blanks_opChar : blanksIn blankOperators allMathOperatorsByChar = true := by decide +kernel
set_option maxRecDepth 100000 in
theorem blanks_opGlyph : blanksIn blankOperators allMathOperatorsByGlyph = true := by decide +kernel

theorem Spec.Tabulated.blank {ts : List (Dict Str)} {l : List Str}
    (hts : ∀ t ∈ ts, blanksIn l t = true ∨ blanksIn [] t = true) {k v : Str} (h : Tabulated ts k v)
    (hb : Blank v) : k ∈ l ∨ k = c!" " := by
  induction h with
  | here hm hne =>
    have hall : (List.all _ isSpace) = true := List.all_eq_true.2 hb
    rcases hts _ List.mem_cons_self with h | h
    · have := forall_of_all h _ _ hm
      simp only [Bool.or_eq_true, beq_iff_eq, hne, hall, Bool.not_true, List.contains_iff_mem,
        false_or, Bool.false_eq_true] at this
      exact this
    · have := forall_of_all h _ _ hm
      simp only [Bool.or_eq_true, beq_iff_eq, hne, hall, Bool.not_true, List.contains_nil,
        false_or, Bool.false_eq_true] at this
      exact .inr this
  | skip _ _ ih => exact ih (fun t ht => hts t (List.mem_cons_of_mem _ ht)) hb

theorem Spec.Glyph.blank {k s : Str} (h : Glyph k s) (hb : Blank s) : s = k := by
  cases h with
  | alnum _ => rfl
  | plain _ _ _ => rfl
  | accent _ _ _ => exact absurd (hb '\\' (by simp)) (by decide)
  | font _ _ _ => exact absurd (hb '\\' (by simp)) (by decide)

theorem normalize_blank {t : Str} (h : Blank (normalize t)) : normalize t = [] := by
  have hn := normalize_wsNormal t
  have hw : split (normalize t) = [] := by
    have := split_spaces_append h []
    rw [List.append_nil] at this
    rw [this]; rfl
  rw [← normalize_idem, Verif.normalize, hw]; rfl

theorem symbol_blank {ts : List (Dict Str)} {l : List Str}
    (hts : ∀ t ∈ ts, blanksIn l t = true ∨ blanksIn [] t = true) {text s : Str}
    (h : Symbol ts (normalize text) s) (hb : Blank s) :
    normalize text ∈ l ∨ normalize text = [] := by
  rcases h with h | ⟨_, h⟩
  · exact .inl ((h.blank hts hb).resolve_right (normalize_ne_blank text))
  · rw [h.blank hb] at hb
    exact .inr (normalize_blank hb)

theorem applyAll_blank {cs : List Str} {s : Str} (h : Blank (applyAll cs s)) : cs = [] := by
  cases cs with
  | nil => rfl
  | cons c cs => exact absurd (h '{' (by simp [applyAll])) (by decide)

/-- **C45** The identifiers that vanish: blank ones, and six symbols if there is no font. -/
theorem C45_vanishing_mi (b : Bool) (A : List (Str × Str)) (cs : List Node) :
    (∃ s, latexIn b (.elem c!"mi" A cs) = .ok s ∧ Blank s) ↔
      fonts miVariants [] (attr A c!"mathvariant") = [] ∧
      (normalize (tokenData cs) = [] ∨ normalize (tokenData cs) ∈ blankIdentifiers) := by
  constructor
  · rintro ⟨s, h, hb⟩
    rw [latexIn_mi, Except.ok.injEq] at h
    rw [← h] at hb
    have hf := applyAll_blank hb
    rw [hf] at hb
    refine ⟨hf, ?_⟩
    have hs : MiSymbol (normalize (tokenData cs)) _ := (miSymbol_iff _ _).2 rfl
    refine (symbol_blank (l := blankIdentifiers) ?_ hs hb).symm
    intro t ht
    simp only [List.mem_cons, List.not_mem_nil, or_false] at ht
    rcases ht with rfl | rfl | rfl
    · exact .inl blanks_symChar
    · exact .inl blanks_symGlyph
    · exact .inr blanks_number
  · rintro ⟨hf, h⟩
    rw [latexIn_mi, hf]
    refine ⟨_, rfl, ?_⟩
    have : ∀ k ∈ [] :: blankIdentifiers, ∀ c ∈ characterApply k, isSpace c = true := by
      decide +kernel
    exact this _ (by simpa using h)

/-- **C45** The operators that vanish: blank ones, and sixteen symbols. -/
theorem C45_vanishing_mo (b : Bool) (A : List (Str × Str)) (cs : List Node) :
    (∃ s, latexIn b (.elem c!"mo" A cs) = .ok s ∧ Blank s) ↔
      (normalize (tokenData cs) = [] ∨ normalize (tokenData cs) ∈ blankOperators) := by
  constructor
  · rintro ⟨s, h, hb⟩
    rw [latexIn_mo, Except.ok.injEq] at h
    rw [← h] at hb
    have hs : MoSymbol (normalize (tokenData cs)) _ := (moSymbol_iff _ _).2 rfl
    refine (symbol_blank (l := blankOperators) ?_ hs hb).symm
    intro t ht
    simp only [List.mem_cons, List.not_mem_nil, or_false] at ht
    rcases ht with rfl | rfl | rfl
    · exact .inl blanks_opChar
    · exact .inl blanks_opGlyph
    · exact .inr blanks_number
  · intro h
    rw [latexIn_mo]
    refine ⟨_, rfl, ?_⟩
    have : ∀ k ∈ [] :: blankOperators, ∀ c ∈ operate k, isSpace c = true := by
      decide +kernel
    exact this _ (by simpa using h)

/-- An operator that is not in the output at all. -/
example : docResult [.elem c!"math" [] [.elem c!"mi" [] [.text c!"a"],
    .elem c!"mo" [] [.text c!"⤨"], .elem c!"mi" [] [.text c!"b"]]] = .ok c!"a b" := by
  rw [docResult_eq]; decide +kernel

end Verif
