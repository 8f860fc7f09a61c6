import Verif.Props.Rules
import Verif.Spec.Words

/-! # Properties of token elements (C22–C26, C39–C41) -/

namespace Verif
open Spec

/-! ## C22 -/

/-- **C22** `mi`, `mo` and `mn` depend only on the words of their text. -/
theorem C22_words_only (b : Bool) (tag : Str) (ht : tag ∈ [c!"mi", c!"mo", c!"mn"])
    (A : List (Str × Str)) (cs cs' : List Node) (h : split (tokenData cs) = split (tokenData cs')) :
    latexIn b (.elem tag A cs) = latexIn b (.elem tag A cs') := by
  have hn := normalize_eq_of_split h
  simp only [List.mem_cons, List.not_mem_nil, or_false] at ht
  rcases ht with rfl | rfl | rfl
  · rw [latexIn_mi, latexIn_mi, hn]
  · rw [latexIn_mo, latexIn_mo, hn]
  · rw [latexIn_mn, latexIn_mn]
    unfold mnConvert
    simp only [normalize_strip, hn]

/-- **C22** Whatever whitespace is put between and around the words. -/
theorem C22_any_whitespace (b : Bool) (tag : Str) (ht : tag ∈ [c!"mi", c!"mo", c!"mn"])
    (A : List (Str × Str)) (ws : List Str) (s t : Str) (hs : Spaced ws s) (h' : Spaced ws t) :
    latexIn b (.elem tag A [.text s]) = latexIn b (.elem tag A [.text t]) :=
  C22_words_only b tag ht A _ _ (by
    show split s = split t
    rw [hs.split_eq, h'.split_eq])

/-- A tab, a line feed and a no-break space instead of one blank. -/
example : Spaced [c!"a", c!"b"] c!"\t a\n b" ∧ Spaced [c!"a", c!"b"] c!"a b" := by
  refine ⟨?_, ?_⟩
  · exact Spaced.word (g := c!"\t ") (w := c!"a") (rest := c!"\n b") (by decide) (by decide)
      (by decide) (by rintro c t ⟨⟩; decide)
      (Spaced.word (g := c!"\n ") (w := c!"b") (rest := []) (by decide) (by decide) (by decide)
        (by simp) (.none (by simp)))
  · exact Spaced.word (g := []) (w := c!"a") (rest := c!" b") (by decide) (by decide) (by decide)
      (by rintro c t ⟨⟩; decide)
      (Spaced.word (g := c!" ") (w := c!"b") (rest := []) (by decide) (by decide) (by decide)
        (by simp) (.none (by simp)))

/-! ## C23 -/

/-- Entries for a text that starts with an ASCII letter or digit are trivial. -/
def trivialAlnum (d : Dict Str) : Bool :=
  d.all fun p => match p.1 with
    | c :: _ => !isAsciiAlnum c || p.2 == p.1 || p.2 == []
    | [] => true

set_option maxRecDepth 100000 in
theorem trivial_symChar : trivialAlnum allMathSymbolsByChar = true := by decide +kernel
set_option maxRecDepth 100000 in
theorem trivial_symGlyph : trivialAlnum allMathSymbolsByGlyph = true := by decide +kernel
set_option maxRecDepth 100000 in
theorem trivial_number : trivialAlnum mathNumberByGlyph = true := by decide +kernel
set_option maxRecDepth 100000 in
theorem trivial_opChar : trivialAlnum allMathOperatorsByChar = true := by decide +kernel
set_option maxRecDepth 100000 in
theorem trivial_opGlyph : trivialAlnum allMathOperatorsByGlyph = true := by decide +kernel

theorem lookupAll_trivial {ts : List (Dict Str)} (h : ∀ t ∈ ts, trivialAlnum t = true) {c : Char}
    {k v : Str} (hc : isAsciiAlnum c = true) (hl : lookupAll ts (c :: k) = some v) : v = c :: k := by
  induction ts with
  | nil => simp [lookupAll] at hl
  | cons t ts ih =>
    rw [lookupAll] at hl
    split at hl
    · rename_i x xs hg
      simp only [Option.some.injEq] at hl
      subst hl
      have := forall_of_all (h t List.mem_cons_self) _ _ (Dict.get?_mem hg)
      simpa [hc] using this
    · exact ih (fun t ht => h t (List.mem_cons_of_mem _ ht)) hl

theorem symbol_alnum {ts : List (Dict Str)} (hg : GoodTables ts) (h : ∀ t ∈ ts, trivialAlnum t = true)
    {c : Char} {k : Str} (hc : isAsciiAlnum c = true) : Symbol ts (c :: k) (c :: k) := by
  rw [symbol_iff hg]
  cases hl : lookupAll ts (c :: k) with
  | some v => rw [Option.getD_some, lookupAll_trivial h hc hl]
  | none =>
    rw [Option.getD_none, ← glyph_iff]
    exact .alnum ⟨c, k, rfl, by rw [alnumIgnoreCase, hc]; rfl⟩

/-- **C23** A token whose text starts with an ASCII letter or digit is passed through. -/
theorem C23_alnum_verbatim (b : Bool) (A : List (Str × Str)) (cs : List Node) (c : Char) (w : Str)
    (hw : normalize (tokenData cs) = c :: w) (hc : isAsciiAlnum c = true) :
    latexIn b (.elem c!"mo" A cs) = .ok (normalize (tokenData cs)) ∧
    latexIn b (.elem c!"mn" A cs) = .ok (normalize (tokenData cs)) ∧
    (fonts miVariants [] (attr A c!"mathvariant") = [] →
      latexIn b (.elem c!"mi" A cs) = .ok (normalize (tokenData cs))) := by
  refine ⟨?_, ?_, fun hf => ?_⟩
  · refine (Renders.mo (A := A) ?_).sound
    rw [hw]
    refine symbol_alnum goodTables_mo ?_ hc
    intro t ht
    simp only [List.mem_cons, List.not_mem_nil, or_false] at ht
    rcases ht with rfl | rfl | rfl
    · exact trivial_opChar
    · exact trivial_opGlyph
    · exact trivial_number
  · refine (Renders.mn (A := A) ?_).sound
    rw [hw, MnSymbol]
    rw [tabulated_iff goodTables_mn, untabulated_iff goodTables_mn]
    cases hl : lookupAll [mathNumberByGlyph] (c :: w) with
    | none => exact .inr ⟨rfl, rfl⟩
    | some v =>
      refine .inl ?_
      rw [lookupAll_trivial (by simpa using trivial_number) hc hl]
  · have := (Renders.mi (b := b) (A := A) (cs := cs) (s := normalize (tokenData cs)) ?_).sound
    · rw [hf] at this; exact this
    rw [hw]
    refine symbol_alnum goodTables_mi ?_ hc
    intro t ht
    simp only [List.mem_cons, List.not_mem_nil, or_false] at ht
    rcases ht with rfl | rfl | rfl
    · exact trivial_symChar
    · exact trivial_symGlyph
    · exact trivial_number

/-- **C23** In particular for `mi` without `mathvariant`. -/
theorem C23_mi (b : Bool) (A : List (Str × Str)) (cs : List Node) (c : Char) (w : Str)
    (hw : normalize (tokenData cs) = c :: w) (hc : isAsciiAlnum c = true)
    (hA : ∀ p ∈ A, p.1 ≠ c!"mathvariant") :
    latexIn b (.elem c!"mi" A cs) = .ok (normalize (tokenData cs)) := by
  refine (C23_alnum_verbatim b A cs c w hw hc).2.2 ?_
  have : attr? A c!"mathvariant" = none := by
    unfold attr?
    rw [Option.map_eq_none_iff, List.find?_eq_none]
    intro p hp
    simpa using hA p (List.mem_reverse.1 hp)
  rw [attr, this]
  decide

example : latexIn false (.elem c!"mi" [] [.text c!" sin  x "]) = .ok c!"sin x" :=
  C23_mi false [] _ 's' c!"in x" (by decide) (by decide) (by simp)

/-- The restriction to ASCII matters: the dotless i matches `[a-z]` when case is ignored, but it
has a table entry. -/
example : latexIn false (.elem c!"mi" [] [.text c!"ı"]) = .ok c!"\\imath" := by decide +kernel

/-! ## C24 -/

/-- **C24** `mi` is the symbol of its text in the fonts of its variant; the symbol is
determined by the text. -/
theorem C24_single_lookup (b : Bool) (A : List (Str × Str)) (cs : List Node) :
    ∃ s, MiSymbol (normalize (tokenData cs)) s ∧
      (∀ s', MiSymbol (normalize (tokenData cs)) s' → s' = s) ∧
      latexIn b (.elem c!"mi" A cs) =
        .ok (applyAll (fonts miVariants [] (attr A c!"mathvariant")) s) := by
  refine ⟨_, (miSymbol_iff _ _).2 rfl, fun s' h => ((miSymbol_iff _ _).1 h).symm, latexIn_mi b A cs⟩

/-- **C24** A symbol is left alone by the accent and font conversion: nothing is converted twice. -/
theorem C24_not_twice (k s : Str) (h : MiSymbol k s) : Glyph s s := by
  rw [glyph_iff, ← (miSymbol_iff k s).1 h]
  exact hashConvert_characterApply k

example : latexIn false (.elem c!"mi" [(c!"mathvariant", c!"bold-italic")] [.text c!"é"]) =
    .ok c!"\\mathbf{\\mathit{\\acute{e}}}" := by decide +kernel

/-! ## C25 -/

/-- Keys with an empty entry are no accented or special letters. -/
def emptyRaw (d : Dict Str) : Bool :=
  d.all fun p => p.2 != [] || (decide (hashConvert p.1 = p.1))

set_option maxRecDepth 100000 in
theorem emptyRaw_opChar : emptyRaw allMathOperatorsByChar = true := by decide +kernel
set_option maxRecDepth 100000 in
theorem emptyRaw_opGlyph : emptyRaw allMathOperatorsByGlyph = true := by decide +kernel

/-- **C25** An operator with an empty table entry and no other one is passed through. -/
theorem C25_empty_entry_passes (b : Bool) (A : List (Str × Str)) (cs : List Node)
    (he : (normalize (tokenData cs), []) ∈ allMathOperatorsByChar ∨
      (normalize (tokenData cs), []) ∈ allMathOperatorsByGlyph)
    (hu : Untabulated [allMathOperatorsByChar, allMathOperatorsByGlyph, mathNumberByGlyph]
      (normalize (tokenData cs))) :
    latexIn b (.elem c!"mo" A cs) = .ok (normalize (tokenData cs)) := by
  refine (Renders.mo (A := A) (.inr ⟨hu, ?_⟩)).sound
  rw [glyph_iff]
  rcases he with he | he
  · simpa using forall_of_all emptyRaw_opChar _ _ he
  · simpa using forall_of_all emptyRaw_opGlyph _ _ he

theorem glyph_nil {k : Str} (h : Glyph k []) : k = [] := by
  generalize hs : ([] : Str) = s at h
  cases h with
  | alnum _ => rfl
  | accent _ _ _ => simp at hs
  | font _ _ _ => simp at hs
  | plain _ _ _ => rfl

theorem tabulated_ne_nil {ts : List (Dict Str)} {k v : Str} (h : Tabulated ts k v) : v ≠ [] := by
  induction h with
  | here _ h => exact h
  | skip _ _ ih => exact ih

/-- **C25** No operator is erased by the tables: only a blank one renders as nothing. -/
theorem C25_never_erased (b : Bool) (A : List (Str × Str)) (cs : List Node)
    (h : latexIn b (.elem c!"mo" A cs) = .ok []) : split (tokenData cs) = [] := by
  rw [latexIn_mo, Except.ok.injEq] at h
  have hk : normalize (tokenData cs) = [] := by
    rcases (moSymbol_iff _ _).2 h with ht | ⟨_, hg⟩
    · exact absurd rfl (tabulated_ne_nil ht)
    · exact glyph_nil hg
  rw [← split_normalize, hk]
  rfl

/-- INVISIBLE TIMES reaches the output. -/
example : latexIn false (.elem c!"mo" [] [.text c!"⁢"]) = .ok c!"⁢" := by decide +kernel

/-! ## C26 -/

namespace Spec
/-- A piece of an `mtext`: a run of letters, digits and blanks, or another character. -/
inductive Piece where
  | run (w : Str)
  | other (c : Char)

/-- The characters of a piece. -/
def Piece.chars : Piece → Str
  | run w => w
  | other c => [c]

/-- The letters, digits and blanks of a piece. -/
def Piece.runChars : Piece → Str
  | run w => w
  | other _ => []

/-- Pieces are well formed: runs are maximal. -/
def PiecesOk : List Piece → Prop
  | [] => True
  | .run w :: ps => w ≠ [] ∧ (∀ c ∈ w, IsTextChar c) ∧
      (∀ w' ps', ps = .run w' :: ps' → False) ∧ PiecesOk ps
  | .other c :: ps => ¬ IsTextChar c ∧ PiecesOk ps

/-- The LaTeX of a piece. -/
def PieceLatex (commands : List Str) : Piece → Str → Prop
  | .run w, s => s = applyAll commands w
  | .other c, s => MiSymbol (normalize [c]) s
end Spec

theorem Spec.MText.pieces {cmds : List Str} {x out : Str} (h : MText cmds x out) :
    ∃ (ps : List Piece) (ss : List Str), PiecesOk ps ∧ x = (ps.map Piece.chars).flatten ∧
      ps.length = ss.length ∧ (∀ p ∈ ps.zip ss, PieceLatex cmds p.1 p.2) ∧ out = ss.flatten := by
  induction h with
  | nil => exact ⟨[], [], trivial, rfl, rfl, by simp, rfl⟩
  | @run w rest out hne hw hr _ ih =>
    obtain ⟨ps, ss, h1, h2, h3, h4, h5⟩ := ih
    refine ⟨.run w :: ps, applyAll cmds w :: ss, ⟨hne, hw, ?_, h1⟩, by simp [Piece.chars, h2],
      by simp [h3], ?_, by simp [h5]⟩
    · rintro w' ps' rfl
      obtain ⟨hne', hw', _⟩ := h1
      obtain ⟨c, t, rfl⟩ := List.exists_cons_of_ne_nil hne'
      exact hr c _ (by rw [h2]; rfl) (hw' c List.mem_cons_self)
    · intro p hp
      rw [List.zip_cons_cons] at hp
      rcases List.mem_cons.1 hp with rfl | hp
      · rfl
      · exact h4 p hp
  | @other c rest s out hc hs _ ih =>
    obtain ⟨ps, ss, h1, h2, h3, h4, h5⟩ := ih
    refine ⟨.other c :: ps, s :: ss, ⟨hc, h1⟩, by simp [Piece.chars, h2], by simp [h3], ?_,
      by simp [h5]⟩
    intro p hp
    rw [List.zip_cons_cons] at hp
    rcases List.mem_cons.1 hp with rfl | hp
    · exact hs
    · exact h4 p hp

theorem runChars_filter {ps : List Piece} (h : PiecesOk ps) :
    (ps.map Piece.runChars).flatten = ((ps.map Piece.chars).flatten).filter (IsTextChar ·) := by
  induction ps with
  | nil => rfl
  | cons p ps ih =>
    cases p with
    | run w =>
      obtain ⟨_, hw, _, h⟩ := h
      simp only [List.map_cons, List.flatten_cons, List.filter_append, ih h, Piece.runChars,
        Piece.chars]
      rw [List.filter_eq_self (l := w) |>.2 (fun c hc => by simpa using hw c hc)]
    | other c =>
      obtain ⟨hc, h⟩ := h
      simp only [List.map_cons, List.flatten_cons, List.filter_append, ih h, Piece.runChars,
        Piece.chars]
      simp [hc]

/-- **C26** The LaTeX of `mtext` is that of its pieces one after the other: the maximal runs of
letters, digits and blanks, wrapped whole, and the symbols of the other characters.  The runs
hold exactly the letters, digits and blanks of the text, in order. -/
theorem C26_mtext_keeps_text (b : Bool) (A : List (Str × Str)) (cs : List Node) :
    ∃ (ps : List Piece) (ss : List Str),
      PiecesOk ps ∧ strip (tokenData cs) = (ps.map Piece.chars).flatten ∧
      (ps.map Piece.runChars).flatten = (strip (tokenData cs)).filter (IsTextChar ·) ∧
      ps.length = ss.length ∧
      (∀ p ∈ ps.zip ss,
        PieceLatex (fonts textVariants [c!"\\text"] (attr A c!"mathvariant")) p.1 p.2) ∧
      latexIn b (.elem c!"mtext" A cs) = .ok ss.flatten := by
  have h := (mtextConvert_iff (strip (tokenData cs)) (convertAttributes A) _).1 rfl
  rw [getD_attr] at h
  obtain ⟨ps, ss, h1, h2, h3, h4, h5⟩ := h.pieces
  refine ⟨ps, ss, h1, h2, ?_, h3, h4, ?_⟩
  · rw [h2]; exact runChars_filter h1
  · rw [latexIn_mtext, h5]

/-- **C26** The pieces of a text are determined by it. -/
theorem C26_pieces_unique {ps ps' : List Piece} (h : PiecesOk ps) (h' : PiecesOk ps')
    (he : (ps.map Piece.chars).flatten = (ps'.map Piece.chars).flatten) : ps = ps' := by
  have head : ∀ {qs : List Piece}, PiecesOk qs → (∀ w qs', qs = .run w :: qs' → False) →
      ∀ c t, (qs.map Piece.chars).flatten = c :: t → ¬ IsTextChar c := by
    intro qs hq hr c t e
    match qs, hq with
    | [], _ => simp at e
    | .run w :: qs', _ => exact (hr w qs' rfl).elim
    | .other d :: qs', hq =>
      simp only [List.map_cons, Piece.chars, List.flatten_cons, List.cons_append,
        List.cons.injEq] at e
      rw [← e.1]; exact hq.1
  induction ps generalizing ps' with
  | nil =>
    match ps', h' with
    | [], _ => rfl
    | .run w :: qs, h' => exact absurd he.symm (by simp [Piece.chars, h'.1])
    | .other c :: qs, _ => simp [Piece.chars] at he
  | cons p ps ih =>
    match p, h, ps', h' with
    | .run w, h, [], _ => exact absurd he (by simp [Piece.chars, h.1])
    | .other c, _, [], _ => simp [Piece.chars] at he
    | .run w, h, .run w' :: qs, h' =>
      simp only [List.map_cons, Piece.chars, List.flatten_cons] at he
      obtain ⟨rfl, he'⟩ := run_unique he h.2.1 h'.2.1 (head h.2.2.2 h.2.2.1) (head h'.2.2.2 h'.2.2.1)
      rw [ih h.2.2.2 h'.2.2.2 he']
    | .run w, h, .other c :: qs, h' =>
      obtain ⟨d, t, rfl⟩ := List.exists_cons_of_ne_nil h.1
      simp only [List.map_cons, Piece.chars, List.flatten_cons, List.cons_append,
        List.cons.injEq] at he
      exact absurd (he.1 ▸ h.2.1 d List.mem_cons_self) h'.1
    | .other c, h, .run w :: qs, h' =>
      obtain ⟨d, t, rfl⟩ := List.exists_cons_of_ne_nil h'.1
      simp only [List.map_cons, Piece.chars, List.flatten_cons, List.cons_append,
        List.cons.injEq] at he
      exact absurd (he.1 ▸ h'.2.1 d List.mem_cons_self) h.1
    | .other c, h, .other c' :: qs, h' =>
      simp only [List.map_cons, Piece.chars, List.flatten_cons, List.cons_append,
        List.nil_append, List.cons.injEq] at he
      obtain ⟨rfl, he⟩ := he
      rw [ih h.2 h'.2 he]

example : latexIn false (.elem c!"mtext" [(c!"mathvariant", c!"bold-italic")]
    [.text c!" if α2 = b "]) =
    .ok c!"\\textbf{\\textit{if }}\\alpha\\textbf{\\textit{2 }}=\\textbf{\\textit{ b}}" := by
  decide +kernel

/-! ## C40 -/

/-- **C40** `%`, `&`, `#`, `$` alone are escaped by `mi` and `mo`, and `\` becomes `\backslash`. -/
theorem C40_single_specials (b : Bool) (A : List (Str × Str)) (cs : List Node)
    (hA : attr A c!"mathvariant" = []) (c : Char) (hc : c ∈ ['%', '&', '#', '$'])
    (hw : normalize (tokenData cs) = [c]) :
    latexIn b (.elem c!"mi" A cs) = .ok ['\\', c] ∧ latexIn b (.elem c!"mo" A cs) = .ok ['\\', c] := by
  rw [latexIn_mi, latexIn_mo, hw, hA]
  have h : ∀ c ∈ ['%', '&', '#', '$'], characterApply [c] = ['\\', c] ∧ operate [c] = ['\\', c] := by
    decide +kernel
  rw [(h c hc).1, (h c hc).2]
  exact ⟨rfl, rfl⟩

/-- **C40** A single backslash. -/
theorem C40_backslash (b : Bool) (A : List (Str × Str)) (cs : List Node)
    (hA : attr A c!"mathvariant" = []) (hw : normalize (tokenData cs) = c!"\\") :
    latexIn b (.elem c!"mi" A cs) = .ok c!"\\backslash" ∧
      latexIn b (.elem c!"mo" A cs) = .ok c!"\\backslash" := by
  rw [latexIn_mi, latexIn_mo, hw, hA]
  decide +kernel

/-- **C40** Longer texts are not escaped: text in no table that starts with a letter, whatever it
contains, is emitted raw. -/
theorem C40_longer_raw (b : Bool) (c : Char) (s : Str) (hc : isAsciiAlnum c = true)
    (hs : normalize (c :: s) = c :: s) :
    latexIn b (.elem c!"mi" [] [.text (c :: s)]) = .ok (c :: s) ∧
      latexIn b (.elem c!"mo" [] [.text (c :: s)]) = .ok (c :: s) := by
  have h : tokenData [.text (c :: s)] = c :: s := by simp [tokenData, Node.isElem]
  have h1 := C23_mi b [] [.text (c :: s)] c s (by rw [h, hs]) hc (by simp)
  have h2 := (C23_alnum_verbatim b [] [.text (c :: s)] c s (by rw [h, hs]) hc).1
  rw [h, hs] at h1 h2
  exact ⟨h1, h2⟩

/-- **C40** The general claim is false: a comment character reaches the output. -/
theorem C40_not_always_escaped : docResult [.elem c!"math" [] [.elem c!"mi" [] [.text c!"x%y"]]] =
    .ok c!"x%y" := by
  rw [docResult_eq]; decide +kernel

/-! ## C41 -/

/-- **C41** `mn` is its normalised text unless that is in the table of number glyphs. -/
theorem C41_mn (b : Bool) (A : List (Str × Str)) (cs : List Node) (s : Str) :
    latexIn b (.elem c!"mn" A cs) = .ok s ↔
      ((normalize (tokenData cs), s) ∈ mathNumberByGlyph ∧ s ≠ []) ∨
      ((∀ v, (normalize (tokenData cs), v) ∈ mathNumberByGlyph → v = []) ∧
        s = normalize (tokenData cs)) := by
  rw [latexIn_mn, Except.ok.injEq, mnConvert_iff, normalize_strip, MnSymbol]
  constructor
  · rintro (h | ⟨h, rfl⟩)
    · cases h with
      | here h hne => exact .inl ⟨h, hne⟩
      | skip _ h => cases h
    · exact .inr ⟨fun v hv => h _ List.mem_cons_self v hv, rfl⟩
  · rintro (⟨h, hne⟩ | ⟨h, rfl⟩)
    · exact .inl (.here h hne)
    · refine .inr ⟨fun t ht v hv => ?_, rfl⟩
      simp only [List.mem_cons, List.not_mem_nil, or_false] at ht
      subst ht
      exact h v hv

/-- **C41** Distinct numerals that are no glyphs stay distinct. -/
theorem C41_distinct (b : Bool) (A A' : List (Str × Str)) (cs cs' : List Node)
    (h : ∀ v, (normalize (tokenData cs), v) ∉ mathNumberByGlyph)
    (h' : ∀ v, (normalize (tokenData cs'), v) ∉ mathNumberByGlyph)
    (he : latexIn b (.elem c!"mn" A cs) = latexIn b (.elem c!"mn" A' cs')) :
    normalize (tokenData cs) = normalize (tokenData cs') := by
  have h1 := (C41_mn b A cs (normalize (tokenData cs))).2 (.inr ⟨fun v hv => absurd hv (h v), rfl⟩)
  have h2 := (C41_mn b A' cs' (normalize (tokenData cs'))).2
    (.inr ⟨fun v hv => absurd hv (h' v), rfl⟩)
  rw [he, h2] at h1
  simpa using h1.symm

example : latexIn false (.elem c!"mn" [] [.text c!"1,234.5"]) = .ok c!"1,234.5" ∧
    latexIn false (.elem c!"mn" [] [.text c!"₀"]) = .ok c!"_{0}" := by decide +kernel

end Verif
