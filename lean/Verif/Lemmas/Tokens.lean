import Verif.Spec.Tokens
import Verif.Lemmas.Str

/-! # The token converters meet their specification -/

namespace Verif
open Spec

/-! ## Attributes and token data -/

theorem convertAttributes_get? (attrs : List (Str × Str)) (k : Str) :
    Dict.get? (convertAttributes attrs) k = attr? attrs k := by
  suffices h : ∀ (l : List (Str × Str)) (d : Attrs),
      Dict.get? (l.foldl (fun d p => Dict.set d p.1 (if p.2 = p.1 then [] else p.2)) d) k =
        (attr? l k).or (Dict.get? d k) by
    rw [convertAttributes, h]
    simp [Dict.get?]
  intro l
  induction l with
  | nil => intro d; simp [attr?]
  | cons p l ih =>
    intro d
    rw [List.foldl_cons, ih, Dict.get?_set]
    unfold attr?
    rw [List.reverse_cons, List.find?_append]
    cases hl : l.reverse.find? (fun p => p.1 = k) with
    | some q => simp
    | none =>
      by_cases e : p.1 = k
      · subst e; simp
      · simp [List.find?, e, Ne.symm e]

theorem attr_eq (attrs : List (Str × Str)) (k dflt : Str) :
    Attrs.getD (convertAttributes attrs) k dflt = (attr? attrs k).getD dflt := by
  rw [Attrs.getD, convertAttributes_get?]

theorem elementValue_eq (cs : List Node) : elementValue cs = tokenData cs := by
  unfold elementValue tokenData hasElementChild
  by_cases h : ∃ n ∈ cs, n.isElem = true
  · rw [if_pos h, if_pos (List.any_eq_true.2 h)]
  · rw [if_neg h, if_neg (by rw [List.any_eq_true]; exact h)]
    match cs with
    | [] => rfl
    | .elem .. :: _ => exact absurd ⟨_, List.mem_cons_self, rfl⟩ h
    | .text _ :: _ => rfl
    | .cdata _ :: _ => rfl
    | .comment _ :: _ => rfl
    | .pi _ _ :: _ => rfl

/-! ## Table lookups -/

/-- The tables that are looked up one after the other have no duplicate keys. -/
def GoodTables (ts : List (Dict Str)) : Prop := ∀ t ∈ ts, (t.map Prod.fst).Nodup

/-- Lookups one after the other; empty entries do not count. -/
def lookupAll : List (Dict Str) → Str → Option Str
  | [], _ => none
  | t :: ts, k =>
    match Dict.get? t k with
    | some (c :: cs) => some (c :: cs)
    | _ => lookupAll ts k

theorem tabulated_iff {ts : List (Dict Str)} (h : GoodTables ts) (k v : Str) :
    Tabulated ts k v ↔ lookupAll ts k = some v := by
  induction ts with
  | nil =>
    constructor
    · intro h; cases h
    · intro h; simp [lookupAll] at h
  | cons t ts ih =>
    have ih := ih (fun t ht => h t (List.mem_cons_of_mem _ ht))
    have ht := h t List.mem_cons_self
    rw [lookupAll]
    split
    · rename_i c cs hg
      have hm := (Dict.get?_iff ht _ _).1 hg
      constructor
      · intro h'
        cases h' with
        | here hm' _ => rw [← hg]; exact (Dict.get?_iff ht _ _).2 hm'
        | skip hs _ => exact absurd (hs _ hm) (by simp)
      · intro e
        simp only [Option.some.injEq] at e
        subst e
        exact .here hm (by simp)
    · rename_i hg
      rw [← ih]
      have hn : ∀ w, (k, w) ∈ t → w = [] := by
        intro w hw
        cases w with
        | nil => rfl
        | cons c cs => exact absurd ((Dict.get?_iff ht _ _).2 hw) (hg c cs)
      constructor
      · intro h'
        cases h' with
        | here hm' hne => exact absurd (hn _ hm') hne
        | skip _ h' => exact h'
      · exact .skip hn

theorem untabulated_iff {ts : List (Dict Str)} (h : GoodTables ts) (k : Str) :
    Untabulated ts k ↔ lookupAll ts k = none := by
  induction ts with
  | nil => simp [Untabulated, lookupAll]
  | cons t ts ih =>
    have ih := ih (fun t ht => h t (List.mem_cons_of_mem _ ht))
    have ht := h t List.mem_cons_self
    rw [lookupAll]
    have hsp : Untabulated (t :: ts) k ↔ (∀ w, (k, w) ∈ t → w = []) ∧ Untabulated ts k := by
      simp [Untabulated]
    rw [hsp]
    split
    · rename_i c cs hg
      simp only [reduceCtorEq, iff_false, not_and]
      intro h'
      exact absurd (h' _ ((Dict.get?_iff ht _ _).1 hg)) (by simp)
    · rename_i hg
      rw [ih]
      refine and_iff_right fun w hw => ?_
      cases w with
      | nil => rfl
      | cons c cs => exact absurd ((Dict.get?_iff ht _ _).2 hw) (hg c cs)

/-! ## Glyphs -/

/-- The text starts with a letter or digit, as a test. -/
def startsAlnumB : Str → Bool
  | [] => false
  | c :: _ => alnumIgnoreCase c

theorem startsAlnum_iff (s : Str) : StartsAlnum s ↔ startsAlnumB s = true := by
  cases s with
  | nil => simp [StartsAlnum, startsAlnumB]
  | cons c t => simp [StartsAlnum, startsAlnumB]

theorem hashConvert_def (k : Str) : hashConvert k =
    if startsAlnumB k = true then k
    else
      match Dict.get? vowelsWithAccents k with
      | some accentChar =>
        match convertAccentCharToLtx accentChar with
        | some ltx => ltx
        | none => k
      | none =>
        match convertSpecialCharToLtx k with
        | some ltx => ltx
        | none => k := by
  unfold hashConvert
  cases k <;> simp only [startsAlnumB]
  all_goals
    generalize Dict.get? vowelsWithAccents _ = a
    generalize convertSpecialCharToLtx _ = b
    cases a <;> cases b <;> rfl

theorem vowel_accent {k letter accent : Str} (h : (k, (letter, accent)) ∈ vowelsWithAccents) :
    ∃ cmd, Dict.get? accentToLtxCmd accent = some cmd ∧ cmd ≠ [] := by
  have := forall_of_all vowels_ok _ _ h
  simp only [vowelOk, Bool.and_eq_true] at this
  obtain ⟨_, h⟩ := this
  split at h
  · rename_i c cs hg; exact ⟨_, hg, by simp⟩
  · simp at h

theorem glyph_iff (k s : Str) : Glyph k s ↔ hashConvert k = s := by
  rw [hashConvert_def]
  by_cases ha : StartsAlnum k
  · rw [if_pos ((startsAlnum_iff k).1 ha)]
    constructor
    · intro h
      cases h with
      | alnum _ => rfl
      | accent h _ _ => exact absurd ha h
      | font h _ _ => exact absurd ha h
      | plain h _ _ => rfl
    · rintro rfl; exact .alnum ha
  · rw [if_neg (fun h => ha ((startsAlnum_iff k).2 h))]
    cases hv : Dict.get? vowelsWithAccents k with
    | some p =>
      obtain ⟨letter, accent⟩ := p
      have hm := (Dict.get?_iff nodup_vowels _ _).1 hv
      obtain ⟨cmd, hc, hne⟩ := vowel_accent hm
      have hcm := (Dict.get?_iff nodup_accents _ _).1 hc
      simp only [convertAccentCharToLtx, hc, hne, if_false]
      constructor
      · intro h
        cases h with
        | alnum h => exact absurd h ha
        | accent _ hm' hc' =>
          have e1 := (Dict.get?_iff nodup_vowels _ _).2 hm'
          rw [hv] at e1
          simp only [Option.some.injEq, Prod.mk.injEq] at e1
          obtain ⟨rfl, rfl⟩ := e1
          have e2 := (Dict.get?_iff nodup_accents _ _).2 hc'
          rw [hc] at e2
          simp only [Option.some.injEq] at e2
          subst e2
          rfl
        | font _ h _ => exact absurd hm (h _)
        | plain _ h _ => exact absurd hm (h _)
      · rintro rfl; exact .accent ha hm hcm
    | none =>
      have hn := (Dict.get?_none_iff nodup_vowels _).1 hv
      unfold convertSpecialCharToLtx
      cases hf : Dict.get? specialFontChars k with
      | some p =>
        obtain ⟨letter, font⟩ := p
        have hm := (Dict.get?_iff nodup_fonts _ _).1 hf
        simp only
        constructor
        · intro h
          cases h with
          | alnum h => exact absurd h ha
          | accent _ hm' _ => exact absurd hm' (hn _)
          | font _ _ hm' =>
            have e1 := (Dict.get?_iff nodup_fonts _ _).2 hm'
            rw [hf] at e1
            simp only [Option.some.injEq, Prod.mk.injEq] at e1
            obtain ⟨rfl, rfl⟩ := e1
            rfl
          | plain _ _ h => exact absurd hm (h _)
        · rintro rfl; exact .font ha hn hm
      | none =>
        have hn' := (Dict.get?_none_iff nodup_fonts _).1 hf
        simp only
        constructor
        · intro h
          cases h with
          | alnum h => exact absurd h ha
          | accent _ hm' _ => exact absurd hm' (hn _)
          | font _ _ hm' => exact absurd hm' (hn' _)
          | plain _ _ h => rfl
        · rintro rfl; exact .plain ha hn hn'

/-- The symbol of a text, as a function. -/
theorem symbol_iff {ts : List (Dict Str)} (h : GoodTables ts) (k s : Str) :
    Symbol ts k s ↔ (lookupAll ts k).getD (hashConvert k) = s := by
  unfold Symbol
  rw [tabulated_iff h, untabulated_iff h, glyph_iff]
  cases lookupAll ts k <;> simp

theorem goodTables_mi : GoodTables [allMathSymbolsByChar, allMathSymbolsByGlyph, mathNumberByGlyph] := by
  intro t ht
  simp only [List.mem_cons, List.not_mem_nil, or_false] at ht
  rcases ht with rfl | rfl | rfl
  · exact nodup_symChar
  · exact nodup_symGlyph
  · exact nodup_number

theorem goodTables_mo :
    GoodTables [allMathOperatorsByChar, allMathOperatorsByGlyph, mathNumberByGlyph] := by
  intro t ht
  simp only [List.mem_cons, List.not_mem_nil, or_false] at ht
  rcases ht with rfl | rfl | rfl
  · exact nodup_opChar
  · exact nodup_opGlyph
  · exact nodup_number

theorem goodTables_mn : GoodTables [mathNumberByGlyph] := by
  intro t ht
  simp only [List.mem_cons, List.not_mem_nil, or_false] at ht
  subst ht
  exact nodup_number

theorem miSymbol_iff (k s : Str) : MiSymbol k s ↔ characterApply k = s := by
  unfold MiSymbol
  rw [symbol_iff goodTables_mi]
  unfold characterApply
  simp only [lookupAll]
  rcases Dict.get? allMathSymbolsByChar k with _ | _ | ⟨c, cs⟩ <;> simp
  all_goals rcases Dict.get? allMathSymbolsByGlyph k with _ | _ | ⟨c, cs⟩ <;> simp
  all_goals rcases Dict.get? mathNumberByGlyph k with _ | _ | ⟨c, cs⟩ <;> simp

theorem moSymbol_iff (k s : Str) : MoSymbol k s ↔ operate k = s := by
  unfold MoSymbol
  rw [symbol_iff goodTables_mo]
  unfold operate
  simp only [lookupAll]
  rcases Dict.get? allMathOperatorsByChar k with _ | _ | ⟨c, cs⟩ <;> simp
  all_goals rcases Dict.get? allMathOperatorsByGlyph k with _ | _ | ⟨c, cs⟩ <;> simp
  all_goals rcases Dict.get? mathNumberByGlyph k with _ | _ | ⟨c, cs⟩ <;> simp

theorem mnSymbol_iff (k s : Str) : MnSymbol k s ↔
    (if (Dict.get? mathNumberByGlyph k).getD [] ≠ [] then (Dict.get? mathNumberByGlyph k).getD []
      else k) = s := by
  unfold MnSymbol
  rw [tabulated_iff goodTables_mn, untabulated_iff goodTables_mn]
  simp only [lookupAll]
  rcases Dict.get? mathNumberByGlyph k with _ | _ | ⟨c, cs⟩ <;> simp [eq_comm]

/-! ## Idempotence of the glyph conversion -/

theorem isAlnumStart_vowel {k : Str} {x : Str × Str} (h : (k, x) ∈ vowelsWithAccents) :
    ∃ c, k = [c] ∧ alnumIgnoreCase c = false := by
  have := forall_of_all vowels_ok _ _ h
  simp only [vowelOk, Bool.and_eq_true, beq_iff_eq] at this
  obtain ⟨⟨⟨⟨hl, ha⟩, _⟩, _⟩, _⟩ := this
  match k, hl with
  | [c], _ => exact ⟨c, rfl, by simpa using ha⟩

theorem isAlnumStart_font {k : Str} {x : Str × Str} (h : (k, x) ∈ specialFontChars) :
    ∃ c, k = [c] ∧ alnumIgnoreCase c = false := by
  have := forall_of_all fonts_ok _ _ h
  simp only [fontOk, Bool.and_eq_true, beq_iff_eq] at this
  obtain ⟨⟨⟨⟨⟨hl, ha⟩, _⟩, _⟩, _⟩, _⟩ := this
  match k, hl with
  | [c], _ => exact ⟨c, rfl, by simpa using ha⟩

/-- Texts of another length than one are left alone by the glyph conversion. -/
theorem hashConvert_long {k : Str} (h : k.length ≠ 1) : hashConvert k = k := by
  rw [← glyph_iff]
  by_cases ha : StartsAlnum k
  · exact .alnum ha
  · refine .plain ha (fun x hx => ?_) (fun x hx => ?_)
    · obtain ⟨c, rfl, _⟩ := isAlnumStart_vowel hx; simp at h
    · obtain ⟨c, rfl, _⟩ := isAlnumStart_font hx; simp at h

theorem hashConvert_idem (k : Str) : hashConvert (hashConvert k) = hashConvert k := by
  have hg := (glyph_iff k _).2 rfl
  generalize hs : hashConvert k = s at hg ⊢
  cases hg with
  | alnum _ => exact hs
  | plain _ _ _ => exact hs
  | accent _ _ _ => exact hashConvert_long (by simp)
  | font _ _ _ => exact hashConvert_long (by simp)

/-- A table whose non-empty values are left alone by the glyph conversion. -/
def stableValues (d : Dict Str) : Bool :=
  d.all fun p => p.2.length != 1 || decide (hashConvert p.2 = p.2)

set_option maxRecDepth 100000 in
theorem stable_symChar : stableValues allMathSymbolsByChar = true := by decide +kernel
set_option maxRecDepth 100000 in
theorem stable_symGlyph : stableValues allMathSymbolsByGlyph = true := by decide +kernel
set_option maxRecDepth 100000 in
theorem stable_number : stableValues mathNumberByGlyph = true := by decide +kernel

theorem lookupAll_stable {ts : List (Dict Str)} (h : ∀ t ∈ ts, stableValues t = true) {k v : Str}
    (hl : lookupAll ts k = some v) : hashConvert v = v := by
  induction ts with
  | nil => simp [lookupAll] at hl
  | cons t ts ih =>
    rw [lookupAll] at hl
    split at hl
    · rename_i c cs hg
      simp only [Option.some.injEq] at hl
      subst hl
      have := forall_of_all (h t List.mem_cons_self) _ _ (Dict.get?_mem hg)
      simp only [Bool.or_eq_true, bne_iff_ne, decide_eq_true_eq] at this
      rcases this with h | h
      · exact hashConvert_long h
      · exact h
    · exact ih (fun t ht => h t (List.mem_cons_of_mem _ ht)) hl

/-- The second glyph conversion of `MI.convert` never changes anything. -/
theorem hashConvert_characterApply (k : Str) :
    hashConvert (characterApply k) = characterApply k := by
  have h := (symbol_iff goodTables_mi k _).1 ((miSymbol_iff k _).2 rfl)
  rw [← h]
  cases hl : lookupAll [allMathSymbolsByChar, allMathSymbolsByGlyph, mathNumberByGlyph] k with
  | none => exact hashConvert_idem k
  | some v =>
    refine lookupAll_stable (fun t ht => ?_) hl
    simp only [List.mem_cons, List.not_mem_nil, or_false] at ht
    rcases ht with rfl | rfl | rfl
    · exact stable_symChar
    · exact stable_symGlyph
    · exact stable_number

/-! ## mi, mo, mn -/

theorem wrapInMathVariant_eq (v m : Str) :
    wrapInMathVariant v m = applyAll (fonts miVariants [] m) v := by
  unfold wrapInMathVariant
  by_cases h1 : m = c!"bold"
  · subst h1; simp [fonts, miVariants, applyAll]
  rw [if_neg h1]
  by_cases h2 : m = c!"italic"
  · subst h2; simp [fonts, miVariants, applyAll]
  rw [if_neg h2]
  by_cases h3 : m = c!"bold-italic"
  · subst h3; simp [fonts, miVariants, applyAll]
  rw [if_neg h3]
  by_cases h4 : m = c!"double-struck"
  · subst h4; simp [fonts, miVariants, applyAll]
  rw [if_neg h4]
  by_cases h5 : m = c!"bold-fraktur"
  · subst h5; simp [fonts, miVariants, applyAll]
  rw [if_neg h5]
  by_cases h6 : m = c!"script"
  · subst h6; simp [fonts, miVariants, applyAll]
  rw [if_neg h6]
  by_cases h7 : m = c!"bold-script"
  · subst h7; simp [fonts, miVariants, applyAll]
  rw [if_neg h7]
  by_cases h8 : m = c!"fraktur"
  · subst h8; simp [fonts, miVariants, applyAll]
  rw [if_neg h8]
  by_cases h9 : m = c!"sans-serif"
  · subst h9; simp [fonts, miVariants, applyAll]
  rw [if_neg h9]
  by_cases h10 : m = c!"bold-sans-serif"
  · subst h10; simp [fonts, miVariants, applyAll]
  rw [if_neg h10]
  by_cases h11 : m = c!"sans-serif-italic"
  · subst h11; simp [fonts, miVariants, applyAll]
  rw [if_neg h11]
  by_cases h12 : m = c!"sans-serif-bold-italic"
  · subst h12; simp [fonts, miVariants, applyAll]
  rw [if_neg h12]
  by_cases h13 : m = c!"monospace"
  · subst h13; simp [fonts, miVariants, applyAll]
  rw [if_neg h13]
  have : miVariants.find? (fun p => decide (p.1 = m)) = none := by
    simp only [List.find?_eq_none, miVariants, List.mem_cons, List.not_mem_nil, or_false,
      decide_eq_true_eq]
    rintro p (rfl | rfl | rfl | rfl | rfl | rfl | rfl | rfl | rfl | rfl | rfl | rfl | rfl)
    · exact Ne.symm h1
    · exact Ne.symm h2
    · exact Ne.symm h3
    · exact Ne.symm h4
    · exact Ne.symm h5
    · exact Ne.symm h6
    · exact Ne.symm h7
    · exact Ne.symm h8
    · exact Ne.symm h9
    · exact Ne.symm h10
    · exact Ne.symm h11
    · exact Ne.symm h12
    · exact Ne.symm h13
  rw [fonts, this]
  rfl

theorem miConvert_eq (v : Str) (a : Attrs) : miConvert v a =
    applyAll (fonts miVariants [] (Attrs.getD a c!"mathvariant" [])) (characterApply (normalize v)) := by
  unfold miConvert
  simp only [if_neg (normalize_ne_blank v), strip_normalize, hashConvert_characterApply, ne_eq,
    not_true, if_false, wrapInMathVariant_eq, getMathVariant]

theorem moConvert_eq (v : Str) : moConvert v = operate (normalize v) := by
  rw [moConvert, strip_normalize]

theorem mnConvert_iff (v s : Str) : mnConvert v = s ↔ MnSymbol (normalize v) s := by
  rw [mnSymbol_iff, mnConvert, strip_normalize]

/-! ## mtext -/

theorem isTextChar_iff (c : Char) : isTextChar c = true ↔ IsTextChar c := by
  unfold isTextChar isAsciiAlnum IsTextChar
  simp only [Bool.or_eq_true, Bool.and_eq_true, decide_eq_true_eq, beq_iff_eq, Char.le_def,
    UInt32.le_iff_toNat_le]
  show (((48 ≤ c.toNat ∧ c.toNat ≤ 57) ∨ (65 ≤ c.toNat ∧ c.toNat ≤ 90)) ∨
    (97 ≤ c.toNat ∧ c.toNat ≤ 122)) ∨ c = ' ' ↔
    (48 ≤ c.toNat ∧ c.toNat ≤ 57) ∨ (65 ≤ c.toNat ∧ c.toNat ≤ 90) ∨
    (97 ≤ c.toNat ∧ c.toNat ≤ 122) ∨ c = ' '
  simp only [or_assoc]

theorem textCommandApply_eq (m v : Str) :
    textCommandApply m v = applyAll (fonts textVariants [c!"\\text"] m) v := by
  unfold textCommandApply textCommands
  by_cases h1 : m = c!"bold"
  · subst h1; simp [fonts, textVariants, applyAll]
  rw [if_neg h1]
  by_cases h2 : m = c!"italic"
  · subst h2; simp [fonts, textVariants, applyAll]
  rw [if_neg h2]
  by_cases h3 : m = c!"bold-italic"
  · subst h3; simp [fonts, textVariants, applyAll]
  rw [if_neg h3]
  by_cases h4 : m = c!"double-struck"
  · subst h4; simp [fonts, textVariants, applyAll]
  rw [if_neg h4]
  by_cases h5 : m = c!"monospace"
  · subst h5; simp [fonts, textVariants, applyAll]
  rw [if_neg h5]
  by_cases h6 : m = c!"bold-fraktur"
  · subst h6; simp [fonts, textVariants, applyAll]
  by_cases h7 : m = c!"fraktur"
  · subst h7; simp [fonts, textVariants, applyAll]
  rw [if_neg (not_or.2 ⟨h6, h7⟩)]
  have : textVariants.find? (fun p => decide (p.1 = m)) = none := by
    simp only [List.find?_eq_none, textVariants, List.mem_cons, List.not_mem_nil, or_false,
      decide_eq_true_eq]
    rintro p (rfl | rfl | rfl | rfl | rfl | rfl | rfl)
    · exact Ne.symm h1
    · exact Ne.symm h2
    · exact Ne.symm h3
    · exact Ne.symm h4
    · exact Ne.symm h5
    · exact Ne.symm h6
    · exact Ne.symm h7
  rw [fonts, this]
  rfl

/-- The pieces of a text from left to right, `cur` being the run that is still open. -/
def pieces : Str → Str → List (Str × Bool)
  | cur, [] => if cur = [] then [] else [(cur, true)]
  | cur, c :: s =>
    if isTextChar c then pieces (cur ++ [c]) s
    else (if cur = [] then [] else [(cur, true)]) ++ ([c], false) :: pieces [] s

theorem foldl_mergeStep (s : Str) : ∀ (done : List (Str × Bool)) (cur : Str),
    (∀ v rest, done = (v, true) :: rest → False) →
    (s.foldl mergeStep (if cur = [] then done else (cur, true) :: done)).reverse =
      done.reverse ++ pieces cur s := by
  induction s with
  | nil =>
    intro done cur h
    by_cases e : cur = [] <;> simp [pieces, e]
  | cons c s ih =>
    intro done cur h
    rw [List.foldl_cons, pieces]
    by_cases hc : isTextChar c
    · rw [if_pos hc]
      have : mergeStep (if cur = [] then done else (cur, true) :: done) c =
          if cur ++ [c] = [] then done else (cur ++ [c], true) :: done := by
        by_cases e : cur = []
        · subst e
          rw [if_pos rfl]
          unfold mergeStep
          rw [if_pos hc]
          cases done with
          | nil => rfl
          | cons p done =>
            obtain ⟨v, b⟩ := p
            cases b with
            | false => rfl
            | true => exact (h v done rfl).elim
        · rw [if_neg e]
          simp [mergeStep, hc]
      rw [this, ih done _ h]
    · rw [if_neg hc]
      have : mergeStep (if cur = [] then done else (cur, true) :: done) c =
          ([c], false) :: (if cur = [] then done else (cur, true) :: done) := by
        unfold mergeStep
        rw [if_neg hc]
      rw [this]
      have ih := ih (([c], false) :: (if cur = [] then done else (cur, true) :: done)) []
        (by intro v rest e; simp at e)
      rw [if_pos rfl] at ih
      rw [ih]
      by_cases e : cur = [] <;> simp [e]

/-- The LaTeX of a piece. -/
def pieceLatex (m : Str) (p : Str × Bool) : Str :=
  if p.2 then textCommandApply m p.1 else miConvert p.1 []

theorem mtextConvert_pieces (v : Str) (a : Attrs) : mtextConvert v a =
    ((pieces [] v).map (pieceLatex (Attrs.getD a c!"mathvariant" []))).flatten := by
  have := foldl_mergeStep v [] [] (by simp)
  simp only [if_true, List.reverse_nil, List.nil_append] at this
  rw [mtextConvert, this]
  rfl

theorem pieces_mtext (m : Str) (s : Str) : ∀ cur : Str, (∀ c ∈ cur, IsTextChar c) →
    MText (fonts textVariants [c!"\\text"] m) (cur ++ s) ((pieces cur s).map (pieceLatex m)).flatten := by
  induction s with
  | nil =>
    intro cur h
    by_cases e : cur = []
    · subst e; exact .nil
    · have := MText.run (commands := fonts textVariants [c!"\\text"] m) e h
        (rest := []) (by simp) .nil
      simpa [pieces, e, pieceLatex, textCommandApply_eq] using this
  | cons c s ih =>
    intro cur h
    rw [pieces]
    by_cases hc : isTextChar c
    · rw [if_pos hc]
      have := ih (cur ++ [c]) (by
        intro d hd
        rcases List.mem_append.1 hd with hd | hd
        · exact h d hd
        · rw [List.mem_singleton.1 hd]; exact (isTextChar_iff c).1 hc)
      simpa using this
    · rw [if_neg hc]
      have hc' : ¬ IsTextChar c := fun h => hc ((isTextChar_iff c).2 h)
      have h0 := ih [] (by simp)
      rw [List.nil_append] at h0
      have h1 : MText (fonts textVariants [c!"\\text"] m) (c :: s)
          (miConvert [c] [] ++ ((pieces [] s).map (pieceLatex m)).flatten) := by
        refine .other hc' ?_ h0
        rw [miSymbol_iff, miConvert_eq]
        rfl
      by_cases e : cur = []
      · subst e
        simpa [pieceLatex] using h1
      · have := MText.run (commands := fonts textVariants [c!"\\text"] m) e h
          (rest := c :: s) (by rintro d t e; simp only [List.cons.injEq] at e; rw [← e.1]; exact hc') h1
        simpa [e, pieceLatex, textCommandApply_eq] using this

theorem Spec.MText.nil_inv {cmds : List Str} {x out : Str} (h : MText cmds x out) (e : x = []) : out = [] := by
  cases h with
  | nil => rfl
  | run hne _ _ _ => simp [hne] at e
  | other _ _ _ => simp at e

theorem run_unique {w w' r r' : Str} (h : w ++ r = w' ++ r') (hw : ∀ c ∈ w, IsTextChar c)
    (hw' : ∀ c ∈ w', IsTextChar c) (hr : ∀ c t, r = c :: t → ¬ IsTextChar c)
    (hr' : ∀ c t, r' = c :: t → ¬ IsTextChar c) : w = w' ∧ r = r' := by
  induction w generalizing w' with
  | nil =>
    cases w' with
    | nil => exact ⟨rfl, h⟩
    | cons c w' => exact absurd (hw' c List.mem_cons_self) (hr c _ h)
  | cons c w ih =>
    cases w' with
    | nil => exact absurd (hw c List.mem_cons_self) (hr' c _ h.symm)
    | cons d w' =>
      simp only [List.cons_append, List.cons.injEq] at h
      obtain ⟨rfl, h⟩ := h
      obtain ⟨rfl, rfl⟩ := ih h (fun c hc => hw c (List.mem_cons_of_mem _ hc))
        (fun c hc => hw' c (List.mem_cons_of_mem _ hc))
      exact ⟨rfl, rfl⟩

theorem Spec.MText.unique {cmds : List Str} {x out out' : Str} (h : MText cmds x out)
    (h' : MText cmds x out') : out = out' := by
  induction h generalizing out' with
  | nil => exact (h'.nil_inv rfl).symm
  | @run w rest out hne hw hr _ ih =>
    generalize hx : w ++ rest = x at h'
    cases h' with
    | nil => simp [hne] at hx
    | @run w' rest' out' hne' hw' hr' h' =>
      obtain ⟨rfl, rfl⟩ := run_unique hx hw hw' hr hr'
      rw [ih h']
    | @other c rest' s out' hc _ _ =>
      obtain ⟨d, w', rfl⟩ := List.exists_cons_of_ne_nil hne
      simp only [List.cons_append, List.cons.injEq] at hx
      rw [← hx.1] at hc
      exact absurd (hw d List.mem_cons_self) hc
  | @other c rest s out hc hs _ ih =>
    generalize hx : c :: rest = x at h'
    cases h' with
    | nil => simp at hx
    | @run w' rest' out' hne' hw' hr' h' =>
      obtain ⟨d, w', rfl⟩ := List.exists_cons_of_ne_nil hne'
      simp only [List.cons_append, List.cons.injEq] at hx
      rw [hx.1] at hc
      exact absurd (hw' d List.mem_cons_self) hc
    | @other c rest' s' out' hc' hs' h' =>
      simp only [List.cons.injEq] at hx
      obtain ⟨rfl, rfl⟩ := hx
      rw [ih h', ← (miSymbol_iff _ _).1 hs, ← (miSymbol_iff _ _).1 hs']

theorem mtextConvert_iff (v : Str) (a : Attrs) (s : Str) : mtextConvert v a = s ↔
    MText (fonts textVariants [c!"\\text"] (Attrs.getD a c!"mathvariant" [])) v s := by
  have h := pieces_mtext (Attrs.getD a c!"mathvariant" []) v [] (by simp)
  rw [List.nil_append, ← mtextConvert_pieces] at h
  constructor
  · rintro rfl; exact h
  · exact h.unique

end Verif
