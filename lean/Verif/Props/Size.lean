import Verif.Spec.Size
import Verif.Props.Shown

/-! # The size of the output (C36) -/

namespace Verif
open Spec

/-! ## Tables -/

/-- No value is longer than 34 characters. -/
def shortTable (d : Dict Str) : Bool := d.all fun p => p.2.length ≤ 34

set_option maxRecDepth 100000 in
theorem short_symChar : shortTable allMathSymbolsByChar = true := by decide +kernel
set_option maxRecDepth 100000 in
theorem short_symGlyph : shortTable allMathSymbolsByGlyph = true := by decide +kernel
set_option maxRecDepth 100000 in
theorem short_number : shortTable mathNumberByGlyph = true := by decide +kernel
set_option maxRecDepth 100000 in
theorem short_opChar : shortTable allMathOperatorsByChar = true := by decide +kernel
set_option maxRecDepth 100000 in
theorem short_opGlyph : shortTable allMathOperatorsByGlyph = true := by decide +kernel

/-- Accented letters are short, with any accent. -/
def shortVowels : Bool :=
  vowelsWithAccents.all fun p => accentToLtxCmd.all fun q =>
    (c!"\\" ++ q.2 ++ c!"{" ++ p.2.1 ++ c!"}").length ≤ 34

set_option maxRecDepth 100000 in
theorem short_vowels : shortVowels = true := by decide +kernel

/-- Letters in special fonts are short. -/
def shortFonts : Bool :=
  specialFontChars.all fun p => (c!"\\" ++ p.2.2 ++ c!"{" ++ p.2.1 ++ c!"}").length ≤ 34

set_option maxRecDepth 100000 in
theorem short_fonts : shortFonts = true := by decide +kernel

theorem Spec.Tabulated.short {ts : List (Dict Str)} (hts : ∀ t ∈ ts, shortTable t = true)
    {k v : Str} (h : Tabulated ts k v) : v.length ≤ 34 := by
  induction h with
  | here hm _ =>
    have := forall_of_all (hts _ List.mem_cons_self) _ _ hm
    simpa using this
  | skip _ _ ih => exact ih fun t ht => hts t (List.mem_cons_of_mem _ ht)

theorem Spec.Glyph.short {k s : Str} (h : Glyph k s) : s.length ≤ 34 + k.length := by
  cases h with
  | alnum _ => omega
  | plain _ _ _ => omega
  | accent _ h1 h2 =>
    have hv := short_vowels
    unfold shortVowels at hv
    have := forall_of_all (forall_of_all hv _ _ h1) _ _ h2
    simp only [decide_eq_true_eq] at this
    omega
  | font _ _ h1 =>
    have hv := short_fonts
    unfold shortFonts at hv
    have := forall_of_all hv _ _ h1
    simp only [decide_eq_true_eq] at this
    omega

theorem Spec.Symbol.short {ts : List (Dict Str)} (hts : ∀ t ∈ ts, shortTable t = true)
    {k s : Str} (h : Symbol ts k s) : s.length ≤ 34 + k.length := by
  rcases h with h | ⟨_, h⟩
  · have := h.short hts; omega
  · exact h.short

theorem short_mi : ∀ t ∈ [allMathSymbolsByChar, allMathSymbolsByGlyph, mathNumberByGlyph],
    shortTable t = true := by
  intro t ht
  simp only [List.mem_cons, List.not_mem_nil, or_false] at ht
  rcases ht with rfl | rfl | rfl
  · exact short_symChar
  · exact short_symGlyph
  · exact short_number

theorem short_mo : ∀ t ∈ [allMathOperatorsByChar, allMathOperatorsByGlyph, mathNumberByGlyph],
    shortTable t = true := by
  intro t ht
  simp only [List.mem_cons, List.not_mem_nil, or_false] at ht
  rcases ht with rfl | rfl | rfl
  · exact short_opChar
  · exact short_opGlyph
  · exact short_number

/-- The characters that commands add. -/
def commandsSize : List Str → Nat
  | [] => 0
  | c :: cs => c.length + 2 + commandsSize cs

theorem length_applyAll (cs : List Str) (s : Str) :
    (applyAll cs s).length = commandsSize cs + s.length := by
  induction cs with
  | nil => simp [applyAll, commandsSize]
  | cons c cs ih => simp [applyAll, commandsSize, ih]; omega

theorem fonts_size {variants : Dict (List Str)} {dflt : List Str} {m : Nat}
    (hv : variants.all (fun p => commandsSize p.2 ≤ m) = true) (hd : commandsSize dflt ≤ m)
    (v : Str) : commandsSize (fonts variants dflt v) ≤ m := by
  unfold fonts
  split
  · rename_i p hp
    have := List.all_eq_true.1 hv p (List.mem_of_find?_eq_some hp)
    simpa using this
  · exact hd

theorem Spec.MText.size {cmds : List Str} (hc : commandsSize cmds ≤ 30) {x s : Str}
    (h : MText cmds x s) : s.length ≤ 35 * x.length := by
  induction h with
  | nil => simp
  | @run w rest out hw _ _ _ ih =>
    have : 0 < w.length := List.length_pos_iff.2 hw
    simp only [List.length_append, length_applyAll]
    omega
  | @other c rest s out _ hs _ ih =>
    have h1 := hs.short short_mi
    have h2 : (normalize [c]).length ≤ 1 := by
      by_cases hsp : isSpace c = true
      · unfold Verif.normalize; rw [split_cons_space _ hsp]; simp [join]
      · unfold Verif.normalize
        rw [split_word [c] (by simp) (by simpa using hsp)]; simp [join]
    simp only [List.length_append, List.length_cons]
    omega

/-! ## Lengths -/

theorem length_normalize_aux : ∀ s : Str, (join c!" " (split s)).length ≤ s.length ∧
    (join c!" " ((splitAux s).1 :: (splitAux s).2)).length ≤ s.length
  | [] => by decide
  | c :: s => by
    obtain ⟨h1, h2⟩ := length_normalize_aux s
    by_cases hc : isSpace c = true
    · rw [split_cons_space _ hc, splitAux_cons, if_pos hc]
      refine ⟨by simp only [List.length_cons]; omega, ?_⟩
      by_cases h0 : split s = []
      · rw [h0]; simp [join]
      · simp only
        rw [join_nil_cons _ h0]
        simp only [List.length_cons]; omega
    · have hc : isSpace c = false := by simpa using hc
      have := normalize_cons hc s
      unfold normalize at this
      rw [this, splitAux_cons, hc]
      simp only [Bool.false_eq_true, if_false]
      rw [join_cons_cons]
      simp only [List.length_cons]
      omega

theorem length_normalize (s : Str) : (normalize s).length ≤ s.length := (length_normalize_aux s).1

theorem length_strip (s : Str) : (strip s).length ≤ s.length := by
  unfold strip
  have h1 : ∀ t, (lstrip t).length ≤ t.length := by
    intro t; unfold lstrip; exact (List.dropWhile_sublist _).length_le
  have h2 : ∀ t, (rstrip t).length ≤ t.length := by
    intro t; obtain ⟨u, h, _⟩ := rstrip_append t
    have := congrArg List.length h
    simp only [List.length_append] at this
    omega
  first
    | exact Nat.le_trans (h2 _) (h1 _)
    | exact Nat.le_trans (h1 _) (h2 _)

theorem size_mem {n : Node} {ns : List Node} (h : n ∈ ns) : size n ≤ sizes ns := by
  induction ns with
  | nil => cases h
  | cons m ns ih =>
    rw [sizes]
    rcases List.mem_cons.1 h with rfl | h
    · omega
    · have := ih h; omega

theorem sizes_kids (cs : List Node) : sizes (kids cs) ≤ sizes cs := by
  induction cs with
  | nil => exact Nat.le_refl _
  | cons n ns ih =>
    unfold kids at *
    rw [List.filter_cons]
    split
    · rw [sizes, sizes]; omega
    · rw [sizes]; omega

theorem length_tokenData (cs : List Node) : (tokenData cs).length ≤ sizes cs := by
  unfold tokenData
  split
  · simp
  · split <;> simp only [sizes, size, List.length_nil] <;> omega

theorem attrsSize_mem {A : List (Str × Str)} {p : Str × Str} (h : p ∈ A) :
    p.1.length + p.2.length ≤ attrsSize A := by
  induction A with
  | nil => cases h
  | cons q A ih =>
    rw [attrsSize]
    rcases List.mem_cons.1 h with rfl | h
    · omega
    · have := ih h; omega

theorem length_attr (A : List (Str × Str)) (k : Str) : (attr A k).length ≤ attrsSize A := by
  unfold attr attr?
  cases h : A.reverse.find? (fun p => p.1 = k) with
  | none => simp
  | some p =>
    have := attrsSize_mem (List.mem_reverse.1 (List.mem_of_find?_eq_some h))
    simp only [Option.map_some, Option.getD_some]
    split
    · simp
    · omega

/-- The bound: it leaves room for a separator. -/
def Fits (n : Node) (s : Str) : Prop := s.length + 17 ≤ 40 * size n

/-- Together with separators. -/
def total : List Str → Nat
  | [] => 0
  | s :: ss => s.length + 17 + total ss

theorem total_fits {ns : List Node} {ss : List Str} (hl : ns.length = ss.length)
    (h : ∀ p ∈ ns.zip ss, Fits p.1 p.2) : total ss ≤ 40 * sizes ns := by
  induction ns generalizing ss with
  | nil =>
    cases ss with
    | nil => exact Nat.le_refl _
    | cons s ss => simp at hl
  | cons n ns ih =>
    cases ss with
    | nil => simp at hl
    | cons s ss =>
      have h1 : Fits n s := h (n, s) (by simp)
      have h2 := ih (ss := ss) (by simpa using hl) fun p hp => h p (by simp [hp])
      rw [total, sizes]
      unfold Fits at h1
      omega

theorem length_join {sep : Str} (hs : sep.length ≤ 17) : ∀ ss, (join sep ss).length ≤ total ss
  | [] => by simp [join]
  | [x] => by simp only [join, total]; omega
  | x :: y :: ss => by
    have := length_join hs (y :: ss)
    rw [total]
    simp only [join, List.length_append] at this ⊢
    omega

theorem length_flatten_total : ∀ ss : List Str, ss.flatten.length ≤ total ss
  | [] => by simp
  | s :: ss => by
    have := length_flatten_total ss
    rw [total, List.flatten_cons, List.length_append]
    omega

theorem length_interleave : ∀ (ss : List Str) (sep : Nat → Str), (∀ i, (sep i).length ≤ 17) →
    (interleave sep ss).length ≤ total ss
  | [], _, _ => by simp [interleave]
  | [x], _, _ => by simp only [interleave, total]; omega
  | x :: y :: ss, sep, h => by
    have := length_interleave (y :: ss) (fun i => sep (i + 1)) fun i => h _
    have h0 := h 0
    rw [total, interleave]
    simp only [List.length_append]
    omega

theorem length_separator (seps : Str) (i : Nat) : (separator seps i).length ≤ 17 := by
  unfold separator
  split
  · simp
  · split <;> simp

theorem length_parensIfLong (s : Str) : (parensIfLong s).length ≤ s.length + 13 := by
  unfold parensIfLong
  split
  · simp only [parens, List.length_append, List.length_cons, List.length_nil]; omega
  · omega

theorem length_parensIfSpace (s : Str) : (parensIfSpace s).length ≤ s.length + 13 := by
  unfold parensIfSpace
  split
  · simp only [parens, List.length_append, List.length_cons, List.length_nil]; omega
  · omega

theorem length_scriptBase (n : Node) (s : Str) : (scriptBase n s).length ≤ s.length + 13 := by
  unfold scriptBase
  split
  · exact length_parensIfLong s
  · omega

theorem length_braces (s : Str) : (braces s).length = s.length + 2 := by
  simp [braces]

theorem length_environment {env : Str} (he : env.length ≤ 7) (ss : List Str) :
    (environment env ss).length ≤ total ss + 31 := by
  have := length_flatten_total ss
  simp only [environment, List.length_append, List.length_cons, List.length_nil]
  omega

theorem length_matrix (op close : Str) (ss : List Str) :
    (matrix op close ss).length ≤ total ss + op.length + close.length + 42 := by
  unfold matrix
  split
  · rename_i p hp
    have h : ∀ p ∈ environments, p.2.length ≤ 7 := by decide
    have := length_environment (h p (List.mem_of_find?_eq_some hp)) ss
    omega
  · split
    · have := length_environment (env := c!"bmatrix") (by decide) ss
      omega
    · have := length_environment (env := c!"matrix") (by decide) ss
      simp only [List.length_append, List.length_cons, List.length_nil]
      omega

theorem length_stacked {cmd : Str} (hc : cmd.length ≤ 9) (x a : Str) :
    (stacked cmd x a).length ≤ x.length + a.length + 13 := by
  unfold stacked
  split <;> simp only [List.length_append, length_braces] <;> omega

theorem length_enclosure (k : Str) :
    (enclosure k).1.length + (enclosure k).2.length ≤ 30 := by
  unfold enclosure
  split
  · rename_i p hp
    have h : ∀ p ∈ enclosures, p.2.1.length + p.2.2.length ≤ 30 := by decide
    exact h p (List.mem_of_find?_eq_some hp)
  · decide

theorem length_orElse (s d : Str) : (orElse s d).length ≤ s.length + d.length := by
  unfold orElse; split <;> omega

theorem sizes_pre_post {x p q u v : Node} {ks : List Node}
    (h1 : prePair (x :: ks) = some (p, q)) (h2 : postPair (x :: ks) = some (u, v)) :
    size p + size q + size u + size v ≤ sizes ks := by
  rcases ks with _ | ⟨c1, _ | ⟨c2, ks⟩⟩
  · cases h2
  · cases h2
  · simp only [postPair] at h2
    split at h2
    · cases h2
    · rename_i hc
      cases h2
      rcases ks with _ | ⟨c3, _ | ⟨c4, _ | ⟨c5, ks⟩⟩⟩
      · cases h1
      · simp only [prePair, hc] at h1; cases h1
      · simp only [prePair, hc] at h1; cases h1
      · simp only [prePair, if_neg hc] at h1
        split at h1
        · cases h1; simp only [sizes]; omega
        · cases h1

theorem sizes_pair {ks : List Node} {p q x : Node}
    (h : prePair (x :: ks) = some (p, q) ∨ postPair (x :: ks) = some (p, q)) :
    size p + size q ≤ sizes ks := by
  rcases h with h | h
  · rcases ks with _ | ⟨c1, _ | ⟨c2, _ | ⟨c3, ks⟩⟩⟩
    · cases h
    · cases h
    · cases h
    · simp only [prePair] at h
      split at h
      · cases h; simp only [sizes]; omega
      · rcases ks with _ | ⟨c4, _ | ⟨c5, ks⟩⟩
        · cases h
        · cases h
        · simp only at h
          split at h
          · cases h; simp only [sizes]; omega
          · cases h
  · rcases ks with _ | ⟨c1, _ | ⟨c2, ks⟩⟩
    · cases h
    · cases h
    · simp only [postPair] at h
      split at h
      · cases h
      · cases h; simp only [sizes]; omega

theorem Spec.Renders.fits {b : Bool} {n : Node} {s : Str} (h : Renders b n s) : Fits n s := by
  induction h with
  | @row b tag A cs ss _ hl hr ih =>
    have h1 := total_fits hl ih
    have h2 := length_join (sep := c!" ") (by decide) ss
    have h3 := sizes_kids cs
    simp only [Fits, size]; omega
  | @math b A cs ss hl hr ih =>
    have h1 := total_fits hl ih
    have h2 := length_join (sep := c!" ") (by decide) ss
    have h3 := sizes_kids cs
    have h4 := length_normalize (join c!" " ss)
    simp only [Fits, size]; omega
  | @mi b A cs s h =>
    have h1 := h.short short_mi
    have h2 := length_normalize (tokenData cs)
    have h3 := length_tokenData cs
    have h4 := fonts_size (variants := miVariants) (dflt := []) (m := 27) (by decide) (by decide)
      (attr A c!"mathvariant")
    simp only [Fits, size, length_applyAll, List.length_cons, List.length_nil]; omega
  | @mo b A cs s h =>
    have h1 := h.short short_mo
    have h2 := length_normalize (tokenData cs)
    have h3 := length_tokenData cs
    simp only [Fits, size, List.length_cons, List.length_nil]; omega
  | @mn b A cs s h =>
    have h2 := length_normalize (tokenData cs)
    have h3 := length_tokenData cs
    have h1 : s.length ≤ 34 + (normalize (tokenData cs)).length := by
      rcases h with h | ⟨_, rfl⟩
      · have := h.short fun t ht => short_mi t (by simp at ht; simp [ht])
        omega
      · omega
    simp only [Fits, size, List.length_cons, List.length_nil]; omega
  | @mtext b A cs s h =>
    have h4 := fonts_size (variants := textVariants) (dflt := [c!"\\text"]) (m := 30) (by decide)
      (by decide) (attr A c!"mathvariant")
    have h1 := h.size h4
    have h2 := length_strip (tokenData cs)
    have h3 := length_tokenData cs
    simp only [Fits, size, List.length_cons, List.length_nil]; omega
  | @msqrt b A cs ss hl hr ih =>
    have h1 := total_fits hl ih
    have h2 := length_join (sep := c!" ") (by decide) ss
    have h3 := sizes_kids cs
    simp only [Fits, size, List.length_append, length_braces, List.length_cons, List.length_nil]
    omega
  | @merror b A cs ss hl hr ih =>
    have h1 := total_fits hl ih
    have h2 := length_join (sep := c!" ") (by decide) ss
    have h3 := sizes_kids cs
    simp only [Fits, size, List.length_append, length_braces, List.length_cons, List.length_nil]
    omega
  | @menclose b A cs ss hl hr ih =>
    have h1 := total_fits hl ih
    have h2 := length_join (sep := c!" ") (by decide) ss
    have h3 := sizes_kids cs
    have h4 := length_enclosure (attr A c!"notation")
    simp only [Fits, size, List.length_append, List.length_cons, List.length_nil]
    omega
  | mphantom =>
    simp only [Fits, size, List.length_cons, List.length_nil]; omega
  | @mfrac b A cs n d sn sd hk _ _ _ ih1 ih2 =>
    have h3 := sizes_kids cs
    rw [hk] at h3
    simp only [Fits, size, sizes, List.length_append, length_braces, List.length_cons,
      List.length_nil] at *
    omega
  | @bevelled b A cs n d sn sd hk _ _ _ ih1 ih2 =>
    have h3 := sizes_kids cs
    rw [hk] at h3
    have h4 := length_parensIfLong sn
    have h5 := length_parensIfLong sd
    simp only [Fits, size, sizes, List.length_append, length_braces, List.length_cons,
      List.length_nil] at *
    omega
  | @mroot b A cs n i sn si hk _ _ ih1 ih2 =>
    have h3 := sizes_kids cs
    rw [hk] at h3
    simp only [Fits, size, sizes, List.length_append, length_braces, List.length_cons,
      List.length_nil] at *
    omega
  | @msup b A cs x e sx se hk _ _ ih1 ih2 =>
    have h3 := sizes_kids cs
    rw [hk] at h3
    have h4 := length_scriptBase x sx
    simp only [Fits, size, sizes, List.length_append, length_braces, List.length_cons,
      List.length_nil] at *
    omega
  | @msub b A cs x e sx se hk _ _ ih1 ih2 =>
    have h3 := sizes_kids cs
    rw [hk] at h3
    have h4 := length_scriptBase x sx
    simp only [Fits, size, sizes, List.length_append, length_braces, List.length_cons,
      List.length_nil] at *
    omega
  | @msubsup b A cs x d e sx sd se hk _ _ _ ih1 ih2 ih3 =>
    have h3 := sizes_kids cs
    rw [hk] at h3
    have h4 := length_scriptBase x sx
    simp only [Fits, size, sizes, List.length_append, length_braces, List.length_cons,
      List.length_nil] at *
    omega
  | @munder b A cs x a sx sa hk _ _ ih1 ih2 =>
    have h3 := sizes_kids cs
    rw [hk] at h3
    have h4 := length_stacked (cmd := c!"\\underset") (by decide) sx sa
    simp only [Fits, size, sizes, List.length_cons, List.length_nil] at *
    omega
  | @mover b A cs x a sx sa hk _ _ ih1 ih2 =>
    have h3 := sizes_kids cs
    rw [hk] at h3
    have h4 := length_stacked (cmd := c!"\\overset") (by decide) sx sa
    simp only [Fits, size, sizes, List.length_cons, List.length_nil] at *
    omega
  | @munderover b A cs x d e sx sd se hk _ _ _ ih1 ih2 ih3 =>
    have h3 := sizes_kids cs
    rw [hk] at h3
    simp only [Fits, size, sizes, List.length_append, length_braces, List.length_cons,
      List.length_nil] at *
    omega
  | @mmultiscripts b A cs x ks sx s1 s2 s3 s4 hk _ _ _ _ _ _ ih0 ih1 ih2 ih3 ih4 =>
    have h3 := sizes_kids cs
    have h4 := length_parensIfSpace sx
    rw [hk] at h3 ih1 ih2 ih3 ih4 ⊢
    rcases hpre : prePair (x :: ks) with _ | ⟨p, q⟩ <;>
      rcases hpost : postPair (x :: ks) with _ | ⟨u, v⟩
    · simp only [Fits, size, sizes, scripts, Option.isSome_none, Option.isSome_some,
        Bool.false_eq_true, if_false, if_true, List.length_append, length_braces, List.length_cons,
        List.length_nil] at *
      omega
    · have h5 := sizes_pair (.inr hpost)
      have g3 := ih3 _ _ hpost
      have g4 := ih4 _ _ hpost
      simp only [Fits, size, sizes, scripts, Option.isSome_none, Option.isSome_some,
        Bool.false_eq_true, if_false, if_true, List.length_append, length_braces, List.length_cons,
        List.length_nil] at *
      omega
    · have h5 := sizes_pair (.inl hpre)
      have g1 := ih1 _ _ hpre
      have g2 := ih2 _ _ hpre
      simp only [Fits, size, sizes, scripts, Option.isSome_none, Option.isSome_some,
        Bool.false_eq_true, if_false, if_true, List.length_append, length_braces, List.length_cons,
        List.length_nil] at *
      omega
    · have h5 := sizes_pre_post hpre hpost
      have g1 := ih1 _ _ hpre
      have g2 := ih2 _ _ hpre
      have g3 := ih3 _ _ hpost
      have g4 := ih4 _ _ hpost
      simp only [Fits, size, sizes, scripts, Option.isSome_none, Option.isSome_some,
        Bool.false_eq_true, if_false, if_true, List.length_append, length_braces, List.length_cons,
        List.length_nil] at *
      omega
  | @toggle b A cs ss ht hl hr ih =>
    have h1 := total_fits hl ih
    have h2 := length_join (sep := c!" \\Longrightarrow ") (by decide) ss
    have h3 := sizes_kids cs
    simp only [Fits, size, List.length_cons, List.length_nil]
    omega
  | @maction b A cs x ks s ht hk hx ih =>
    have h3 := sizes_kids cs
    rw [hk] at h3
    simp only [Fits, size, sizes, List.length_cons, List.length_nil] at *
    omega
  | @mfenced b A cs ss _ hl hr ih =>
    have h1 := total_fits hl ih
    have h2 := length_interleave ss (separator (attr A c!"separators")) (length_separator _)
    have h3 := sizes_kids cs
    have h4 := length_attr A c!"open"
    have h5 := length_attr A c!"close"
    have h6 := length_orElse (attr A c!"open") c!"("
    have h7 := length_orElse (attr A c!"close") c!")"
    simp only [Fits, fence, size, List.length_append, List.length_cons, List.length_nil] at *
    omega
  | @matrix b A cs ss _ hl hr ih =>
    have h1 := total_fits hl ih
    have h2 := length_matrix (attr A c!"open") (attr A c!"close") ss
    have h3 := sizes_kids cs
    have h4 := length_attr A c!"open"
    have h5 := length_attr A c!"close"
    simp only [Fits, size, List.length_cons, List.length_nil]
    omega
  | @mtable A cs ss _ hl hr ih =>
    have h1 := total_fits hl ih
    have h2 := length_join (sep := c!" \\\\\n") (by decide) ss
    have h3 := sizes_kids cs
    simp only [Fits, size, List.length_cons, List.length_nil]
    omega
  | @innerTable b A cs ss _ hl hr ih =>
    have h1 := total_fits hl ih
    have h2 := length_join (sep := c!" \\\\\n") (by decide) ss
    have h3 := sizes_kids cs
    simp only [Fits, size, List.length_append, List.length_cons, List.length_nil]
    omega
  | @mtr b A cs ss hl hr ih =>
    have h1 := total_fits hl ih
    have h2 := length_join (sep := c!" & ") (by decide) ss
    have h3 := sizes_kids cs
    simp only [Fits, size, List.length_cons, List.length_nil]
    omega

/-- **C36** The LaTeX of an element is at most forty times as long as the element. -/
theorem C36_element (b : Bool) (n : Node) (s : Str) (h : latexIn b n = .ok s) :
    s.length ≤ 40 * size n := by
  by_cases hn : n.isElem = true
  · have := ((renders_iff hn b s).2 h).fits
    unfold Fits at this
    omega
  · cases n with
    | elem => simp [Node.isElem] at hn
    | _ => cases h; simp

/-! ## Documents -/

theorem maths_cons_elem (tag : Str) (A : List (Str × Str)) (cs ns : List Node) :
    maths (.elem tag A cs :: ns) =
      (if tag = c!"math" then [.elem tag A cs] else []) ++ maths cs ++ maths ns := by
  unfold maths
  rw [elements, elementsOf, List.filter_append, List.filter_cons]
  by_cases h : tag = c!"math" <;> simp [isMath, h]

mutual
theorem sizes_maths_of (n : Node) : sizes (maths [n]) ≤ mathDepthOf n * size n := by
  match n with
  | .text _ => exact Nat.zero_le _
  | .cdata _ => exact Nat.zero_le _
  | .comment _ => exact Nat.zero_le _
  | .pi _ _ => exact Nat.zero_le _
  | .elem tag A cs =>
    have ih := sizes_maths cs
    rw [maths_cons_elem, mathDepthOf]
    have h0 : maths [] = [] := rfl
    rw [h0, List.append_nil]
    have h1 : sizes cs ≤ size (.elem tag A cs) := by simp only [size]; omega
    have h2 := Nat.mul_le_mul_left (mathDepth cs) h1
    split
    · rw [Nat.add_mul, Nat.one_mul, List.cons_append, List.nil_append, sizes]
      omega
    · rw [Nat.zero_add, List.nil_append]
      omega
/-- The `math` elements together are as large as the document, once for each level of nesting. -/
theorem sizes_maths (ns : List Node) : sizes (maths ns) ≤ mathDepth ns * sizes ns := by
  match ns with
  | [] => exact Nat.zero_le _
  | n :: ns =>
    have h1 := sizes_maths_of n
    have h2 := sizes_maths ns
    have e : maths (n :: ns) = maths [n] ++ maths ns := maths_append [n] ns
    have es : ∀ a b : List Node, sizes (a ++ b) = sizes a + sizes b := by
      intro a b
      induction a with
      | nil => simp [sizes]
      | cons x a ih => simp only [List.cons_append, sizes, ih]; omega
    rw [e, es, mathDepth, sizes, Nat.mul_add]
    have h3 := Nat.mul_le_mul_right (size n) (Nat.le_max_left (mathDepthOf n) (mathDepth ns))
    have h4 := Nat.mul_le_mul_right (sizes ns) (Nat.le_max_right (mathDepthOf n) (mathDepth ns))
    omega
end

theorem length_maths {ms : List Node} {ss : List Str} (h : ms.map latexOf = ss.map .ok) :
    ss.flatten.length ≤ 40 * sizes ms := by
  induction ms generalizing ss with
  | nil =>
    cases ss with
    | nil => simp
    | cons => simp at h
  | cons n ms ih =>
    cases ss with
    | nil => simp at h
    | cons t ss =>
      simp only [List.map_cons, List.cons.injEq] at h
      have h1 := C36_element false n t (by rw [← latexOf_eq]; exact h.1)
      have h2 := ih h.2
      rw [List.flatten_cons, List.length_append, sizes]
      omega

/-- **C36** The output is at most forty times as long as the document, once for each level of
nesting of `math` elements. -/
theorem C36_nesting (env : Env) (x : Str) (d : Doc) (hd : ParsesTo env x d) (s : Str)
    (h : convert env x = .ok s) : s.length ≤ 40 * (mathDepth d * sizes d) := by
  rw [hd.convert] at h
  obtain ⟨ss, h1, rfl⟩ := (C04_document_order d s).1 h
  exact Nat.le_trans (length_maths h1) (Nat.mul_le_mul_left 40 (sizes_maths d))

mutual
theorem depthOf_zero (n : Node) (h : maths [n] = []) : mathDepthOf n = 0 := by
  match n with
  | .text _ => rfl
  | .cdata _ => rfl
  | .comment _ => rfl
  | .pi _ _ => rfl
  | .elem tag A cs =>
    rw [maths_cons_elem] at h
    simp only [List.append_eq_nil_iff] at h
    rw [mathDepthOf, depth_zero cs h.1.2]
    by_cases ht : tag = c!"math"
    · simp [ht] at h
    · simp [ht]
theorem depth_zero (ns : List Node) (h : maths ns = []) : mathDepth ns = 0 := by
  match ns with
  | [] => rfl
  | n :: ns =>
    have e : maths (n :: ns) = maths [n] ++ maths ns := maths_append [n] ns
    rw [e, List.append_eq_nil_iff] at h
    rw [mathDepth, depthOf_zero n h.1, depth_zero ns h.2]
    rfl
end

mutual
theorem depthOf_one (n : Node) (h : Unnested [n]) : mathDepthOf n ≤ 1 := by
  match n with
  | .text _ => exact Nat.zero_le _
  | .cdata _ => exact Nat.zero_le _
  | .comment _ => exact Nat.zero_le _
  | .pi _ _ => exact Nat.zero_le _
  | .elem tag A cs =>
    rw [mathDepthOf]
    split
    · rename_i ht
      rw [depth_zero cs (h tag A cs (by rw [maths_cons_elem, if_pos ht]; simp))]
      exact Nat.le_refl _
    · rename_i ht
      have := depth_one cs fun t B ds hm =>
        h t B ds (by rw [maths_cons_elem]; exact List.mem_append_left _ (List.mem_append_right _ hm))
      omega
theorem depth_one (ns : List Node) (h : Unnested ns) : mathDepth ns ≤ 1 := by
  match ns with
  | [] => exact Nat.zero_le _
  | n :: ns =>
    have e : maths (n :: ns) = maths [n] ++ maths ns := maths_append [n] ns
    have h1 := depthOf_one n fun t B ds hm => h t B ds (by rw [e]; exact List.mem_append_left _ hm)
    have h2 := depth_one ns fun t B ds hm => h t B ds (by rw [e]; exact List.mem_append_right _ hm)
    rw [mathDepth]
    exact Nat.max_le.2 ⟨h1, h2⟩
end

/-- **C36** Without nested `math` elements the length of the output is linear in the size of the
document. -/
theorem C36_linear (env : Env) (x : Str) (d : Doc) (hd : ParsesTo env x d) (hu : Unnested d) (s : Str)
    (h : convert env x = .ok s) : s.length ≤ 40 * sizes d := by
  have h1 := C36_nesting env x d hd s h
  have h2 := Nat.mul_le_mul_right (sizes d) (depth_one d hu)
  omega

/-! ### Nested `math` elements -/

/-- `math` elements in each other, each with an `x` of its own. -/
def tower : Nat → List Node
  | 0 => []
  | k + 1 => [.elem c!"math" [] (.elem c!"mi" [] [.text c!"x"] :: tower k)]

theorem size_tower : ∀ k, sizes (tower k) = 10 * k
  | 0 => rfl
  | k + 1 => by
    have := size_tower k
    simp only [tower, sizes, size, attrsSize, List.length_cons, List.length_nil, this]
    omega

/-- `k` times `x`, separated by blanks. -/
def towerLine (k : Nat) : Str := join c!" " (List.replicate k c!"x")

theorem kids_tower : ∀ k, kids (tower k) = tower k
  | 0 => rfl
  | _ + 1 => rfl

theorem towerLine_normal (k : Nat) : normalize (towerLine k) = towerLine k := by
  unfold normalize towerLine
  rw [split_join]
  intro w hw
  rw [List.mem_replicate] at hw
  rw [hw.2]
  decide

theorem towerLine_succ (k : Nat) : towerLine (k + 2) = c!"x " ++ towerLine (k + 1) := by
  simp [towerLine, List.replicate_succ, join]

theorem latex_x : latexIn false (.elem c!"mi" [] [.text c!"x"]) = .ok c!"x" := by decide +kernel

theorem latex_tower : ∀ k, LatexAll false (tower (k + 1)) [towerLine (k + 1)] := by
  intro k
  induction k with
  | zero =>
    unfold LatexAll
    decide +kernel
  | succ k ih =>
    have h1 : LatexAll false (kids (.elem c!"mi" [] [.text c!"x"] :: tower (k + 1)))
        [c!"x", towerLine (k + 1)] := by
      have : kids (.elem c!"mi" [] [.text c!"x"] :: tower (k + 1)) =
          .elem c!"mi" [] [.text c!"x"] :: tower (k + 1) := rfl
      rw [this]
      unfold LatexAll at *
      rw [List.map_cons, List.map_cons, ih, latex_x]
    rw [latexAll_iff] at h1
    unfold LatexAll
    rw [tower, List.map_cons, List.map_nil, latexIn_math, h1]
    have : join c!" " [c!"x", towerLine (k + 1)] = towerLine (k + 2) := by
      rw [towerLine_succ]; rfl
    show [Except.ok (normalize (join c!" " [c!"x", towerLine (k + 1)]))] = _
    rw [this, towerLine_normal]
    rfl

theorem length_towerLine : ∀ k, k ≤ (towerLine k).length
  | 0 => Nat.zero_le _
  | 1 => by decide
  | k + 2 => by
    have := length_towerLine (k + 1)
    rw [towerLine_succ]
    simp only [List.length_append, List.length_cons, List.length_nil]
    omega

theorem doc_tower : ∀ k, ∃ s, docResult (tower k) = .ok s ∧ k * k ≤ 2 * s.length
  | 0 => ⟨[], by rw [docResult_eq]; decide +kernel, by simp⟩
  | k + 1 => by
    obtain ⟨s, h1, h2⟩ := doc_tower k
    obtain ⟨ss, h3, rfl⟩ := (C04_document_order _ _).1 h1
    have e : maths (tower (k + 1)) = tower (k + 1) ++ maths (tower k) := by
      have h0 : maths (.elem c!"mi" [] [.text c!"x"] :: tower k) = maths (tower k) := by
        rw [maths_cons_elem, if_neg (by decide)]; rfl
      rw [tower, maths_cons_elem, if_pos rfl, h0]
      exact List.append_nil _
    have h4 := latex_tower k
    have hl : latexOf = latexIn false := funext latexOf_eq
    refine ⟨(towerLine (k + 1) :: ss).flatten, (C04_document_order _ _).2
      ⟨towerLine (k + 1) :: ss, ?_, rfl⟩, ?_⟩
    · rw [e, List.map_append, h3, hl]
      unfold LatexAll at h4
      rw [h4]
      rfl
    · have h5 := length_towerLine (k + 1)
      rw [List.flatten_cons, List.length_append]
      have : (k + 1) * (k + 1) = k * k + 2 * k + 1 := by
        rw [Nat.add_mul, Nat.mul_add]; omega
      omega

/-- **C36** With nested `math` elements no linear bound holds, whatever the factor. -/
theorem C36_not_linear (m : Nat) : ∃ d s, docResult d = .ok s ∧ m * sizes d < s.length := by
  obtain ⟨s, h1, h2⟩ := doc_tower (20 * m + 1)
  refine ⟨_, s, h1, ?_⟩
  rw [size_tower]
  have e : (20 * m + 1) * (20 * m + 1) = 20 * (m * (20 * m + 1)) + (20 * m + 1) := by
    rw [Nat.add_mul, Nat.one_mul, Nat.mul_assoc]
  have e2 : m * (10 * (20 * m + 1)) = 10 * (m * (20 * m + 1)) := by
    rw [Nat.mul_left_comm]
  omega

/-- The bound applies to a document with two `math` elements. -/
example : Unnested [.elem c!"p" [] [.elem c!"math" [] [.elem c!"mi" [] [.text c!"x"]],
    .elem c!"math" [] [.elem c!"mo" [] [.text c!"+"]]]] ∧
    docResult [.elem c!"p" [] [.elem c!"math" [] [.elem c!"mi" [] [.text c!"x"]],
      .elem c!"math" [] [.elem c!"mo" [] [.text c!"+"]]]] = .ok c!"x+" := by
  constructor
  · intro tag A cs h
    simp only [maths_cons_elem, show maths [] = [] from rfl, show maths [.text c!"x"] = [] from rfl,
      show maths [.text c!"+"] = [] from rfl] at h
    simp at h
    rcases h with ⟨_, _, rfl⟩ | ⟨_, _, rfl⟩ <;> rfl
  · rw [docResult_eq]; decide +kernel

end Verif
