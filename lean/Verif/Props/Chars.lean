import Verif.Spec.Chars
import Verif.Props.Nesting
import Verif.Props.Shown

/-! # Nothing foreign in the output (C64) -/

namespace Verif
open Spec

/-! ## Tables -/

/-- Printable ASCII, as a test. -/
def plainB (c : Char) : Bool := Nat.ble 32 c.toNat && Nat.ble c.toNat 126

theorem plainB_iff (c : Char) : plainB c = true ↔ Plain c := by
  simp [plainB, Plain]

/-- Printable ASCII or the end of a line. -/
def lineB (s : Str) : Bool := s.all fun c => plainB c || c == '\n'

/-- The values of a table are printable ASCII. -/
def plainTable (d : Dict Str) : Bool := d.all fun p => p.2.all plainB

/-- The values of a table are printable ASCII, up to characters of the key and the listed ones. -/
def nearlyPlainTable (d : Dict Str) : Bool :=
  d.all fun p => p.2.all fun c => plainB c || p.1.contains c || foreign.contains (p.1, c)

set_option maxRecDepth 100000 in
theorem plain_symChar : plainTable allMathSymbolsByChar = true := by decide +kernel

set_option maxRecDepth 100000 in
theorem plain_symGlyph : plainTable allMathSymbolsByGlyph = true := by decide +kernel

set_option maxRecDepth 100000 in
theorem plain_number : plainTable mathNumberByGlyph = true := by decide +kernel

set_option maxRecDepth 100000 in
theorem plain_opChar : nearlyPlainTable allMathOperatorsByChar = true := by decide +kernel

set_option maxRecDepth 100000 in
theorem plain_opGlyph : nearlyPlainTable allMathOperatorsByGlyph = true := by decide +kernel

set_option maxRecDepth 100000 in
theorem plain_vowels : vowelsWithAccents.all (fun p => p.2.1.all plainB) = true := by
  decide +kernel

set_option maxRecDepth 100000 in
theorem plain_accents : plainTable accentToLtxCmd = true := by decide +kernel

set_option maxRecDepth 100000 in
theorem plain_fonts : specialFontChars.all (fun p => p.2.1.all plainB && p.2.2.all plainB) = true := by
  decide +kernel

/-! ## Texts over an alphabet -/

/-- All characters are in `P`. -/
def Over (P : Char → Prop) (s : Str) : Prop := ∀ c ∈ s, P c

/-- `P` has printable ASCII and the end of a line. -/
structure Ascii (P : Char → Prop) : Prop where
  plain : ∀ c, Plain c → P c
  newline : P '\n'

variable {P : Char → Prop}

theorem Over.nil : Over P [] := by intro c hc; cases hc

theorem over_append {s t : Str} : Over P (s ++ t) ↔ Over P s ∧ Over P t := by
  simp only [Over, List.mem_append]
  exact ⟨fun h => ⟨fun c hc => h c (.inl hc), fun c hc => h c (.inr hc)⟩,
    fun h c hc => hc.elim (h.1 c) (h.2 c)⟩

theorem Over.append {s t : Str} (hs : Over P s) (ht : Over P t) : Over P (s ++ t) :=
  over_append.2 ⟨hs, ht⟩

theorem Ascii.plains (hP : Ascii P) {s : Str} (h : s.all plainB = true) : Over P s :=
  fun c hc => hP.plain c ((plainB_iff c).1 (List.all_eq_true.1 h c hc))

theorem Ascii.line (hP : Ascii P) {s : Str} (h : lineB s = true) : Over P s := by
  intro c hc
  have := List.all_eq_true.1 h c hc
  simp only [Bool.or_eq_true] at this
  rcases this with h | h
  · exact hP.plain c ((plainB_iff c).1 h)
  · rw [eq_of_beq h]; exact hP.newline

theorem Over.braces (hP : Ascii P) {s : Str} (h : Over P s) : Over P (braces s) :=
  ((hP.line (by decide)).append h).append (hP.line (by decide))

theorem Over.parens (hP : Ascii P) {s : Str} (h : Over P s) : Over P (parens s) :=
  ((hP.line (by decide)).append h).append (hP.line (by decide))

theorem Over.parensIfLong (hP : Ascii P) {s : Str} (h : Over P s) : Over P (parensIfLong s) := by
  unfold Spec.parensIfLong; split
  · exact h.parens hP
  · exact h

theorem Over.parensIfSpace (hP : Ascii P) {s : Str} (h : Over P s) : Over P (parensIfSpace s) := by
  unfold Spec.parensIfSpace; split
  · exact h.parens hP
  · exact h

theorem Over.scriptBase (hP : Ascii P) (n : Node) {s : Str} (h : Over P s) :
    Over P (scriptBase n s) := by
  unfold Spec.scriptBase; split
  · exact h.parensIfLong hP
  · exact h

theorem over_flatten {ss : List Str} (h : ∀ s ∈ ss, Over P s) : Over P ss.flatten := by
  intro c hc
  obtain ⟨s, hs, hc⟩ := List.mem_flatten.1 hc
  exact h s hs c hc

theorem over_join {sep : Str} (hsep : Over P sep) : ∀ {ss : List Str}, (∀ s ∈ ss, Over P s) →
    Over P (join sep ss)
  | [], _ => .nil
  | [s], h => h s (by simp)
  | s :: t :: ss, h =>
    ((h s (by simp)).append hsep).append (over_join hsep fun u hu => h u (List.mem_cons_of_mem _ hu))

theorem over_interleave : ∀ {ss : List Str} {sep : Nat → Str}, (∀ i, Over P (sep i)) →
    (∀ s ∈ ss, Over P s) → Over P (interleave sep ss)
  | [], _, _, _ => .nil
  | [s], _, _, h => h s (by simp)
  | s :: t :: ss, sep, hsep, h =>
    ((h s (by simp)).append (hsep 0)).append
      (over_interleave (fun i => hsep (i + 1)) fun u hu => h u (List.mem_cons_of_mem _ hu))

theorem Over.normalize (hP : Ascii P) {s : Str} (h : Over P s) : Over P (normalize s) := by
  intro c hc
  rcases mem_normalize hc with rfl | hc
  · exact hP.plain _ (by decide)
  · exact h c hc

theorem Over.orElse {s d : Str} (hs : Over P s) (hd : Over P d) : Over P (orElse s d) := by
  unfold Spec.orElse; split
  · exact hd
  · exact hs

theorem Over.separator (hP : Ascii P) {s : Str} (hs : Over P s) (i : Nat) :
    Over P (separator s i) := by
  unfold Spec.separator
  split
  · intro c hc
    rw [List.mem_singleton.1 hc]
    exact hs _ (List.getElem_mem _)
  · split
    · rename_i c t he
      intro d hd
      rw [List.mem_singleton.1 hd]
      exact hs _ (List.mem_reverse.1 (he ▸ List.mem_cons_self))
    · exact hP.line (by decide)

theorem over_environment (hP : Ascii P) {e : Str} (he : Over P e) {ss : List Str}
    (h : ∀ s ∈ ss, Over P s) : Over P (environment e ss) :=
  ((((((hP.line (by decide)).append he).append (hP.line (by decide))).append
    (over_flatten h)).append (hP.line (by decide))).append he).append (hP.line (by decide))

theorem over_matrix (hP : Ascii P) {op close : Str} (ho : Over P op) (hc : Over P close)
    {ss : List Str} (h : ∀ s ∈ ss, Over P s) : Over P (matrix op close ss) := by
  unfold Spec.matrix
  split
  · rename_i p hp
    have hl : ∀ p ∈ environments, lineB p.2 = true := by decide
    exact over_environment hP (hP.line (hl p (List.mem_of_find?_eq_some hp))) h
  · split
    · exact over_environment hP (hP.line (by decide)) h
    · exact ((((hP.line (by decide)).append ho).append
        (over_environment hP (hP.line (by decide)) h)).append (hP.line (by decide))).append hc

theorem over_stacked (hP : Ascii P) {cmd : Str} (hc : Over P cmd) {x a : Str} (hx : Over P x)
    (ha : Over P a) : Over P (stacked cmd x a) := by
  unfold Spec.stacked
  split
  · exact ha.append (hx.braces hP)
  · exact (hc.append (ha.braces hP)).append (hx.braces hP)

theorem over_enclosure (hP : Ascii P) (k : Str) :
    Over P (enclosure k).1 ∧ Over P (enclosure k).2 := by
  unfold enclosure
  split
  · rename_i p hp
    have hl : ∀ p ∈ enclosures, lineB p.2.1 = true ∧ lineB p.2.2 = true := by decide
    have := hl p (List.mem_of_find?_eq_some hp)
    exact ⟨hP.line this.1, hP.line this.2⟩
  · exact ⟨hP.line (by decide), hP.line (by decide)⟩

theorem over_scripts (hP : Ascii P) {lead : Str} (hl : Over P lead) {pair : Option (Node × Node)}
    {u v : Str} (hu : ∀ p q, pair = some (p, q) → Over P u)
    (hv : ∀ p q, pair = some (p, q) → Over P v) : Over P (scripts lead pair u v) := by
  unfold scripts
  rcases pair with _ | ⟨p, q⟩
  · exact .nil
  · exact ((hl.append ((hu p q rfl).braces hP)).append (hP.line (by decide))).append
      ((hv p q rfl).braces hP)

theorem over_applyAll (hP : Ascii P) {cmds : List Str} (hc : ∀ c ∈ cmds, Over P c) {s : Str}
    (hs : Over P s) : Over P (applyAll cmds s) := by
  induction cmds with
  | nil => exact hs
  | cons c cmds ih =>
    exact (((hc c (by simp)).append (hP.line (by decide))).append
      (ih fun d hd => hc d (by simp [hd]))).append (hP.line (by decide))

theorem over_fonts (hP : Ascii P) {variants : Dict (List Str)} {dflt : List Str}
    (hv : variants.all (fun p => p.2.all lineB) = true) (hd : dflt.all lineB = true) (v : Str) :
    ∀ c ∈ fonts variants dflt v, Over P c := by
  intro c hc
  unfold fonts at hc
  split at hc
  · rename_i p hp
    exact hP.line (List.all_eq_true.1 (List.all_eq_true.1 hv p (List.mem_of_find?_eq_some hp)) c hc)
  · exact hP.line (List.all_eq_true.1 hd c hc)

/-! ## Tokens -/

theorem over_glyph (hP : Ascii P) {k s : Str} (h : Glyph k s) (hk : Over P k) : Over P s := by
  cases h with
  | alnum _ => exact hk
  | accent _ h1 h2 =>
    have g1 := List.all_eq_true.1 plain_vowels _ h1
    have g2 := List.all_eq_true.1 plain_accents _ h2
    exact ((((hP.line (by decide)).append (hP.plains g2)).append (hP.line (by decide))).append
      (hP.plains g1)).append (hP.line (by decide))
  | font _ _ h1 =>
    have g1 := List.all_eq_true.1 plain_fonts _ h1
    simp only [Bool.and_eq_true] at g1
    exact ((((hP.line (by decide)).append (hP.plains g1.2)).append (hP.line (by decide))).append
      (hP.plains g1.1)).append (hP.line (by decide))
  | plain _ _ _ => exact hk

theorem Spec.Tabulated.mem {ts : List (Dict Str)} {k s : Str} (h : Tabulated ts k s) :
    ∃ t ∈ ts, (k, s) ∈ t := by
  induction h with
  | here h _ => exact ⟨_, List.mem_cons_self, h⟩
  | skip _ _ ih =>
    obtain ⟨t, ht, h⟩ := ih
    exact ⟨t, List.mem_cons_of_mem _ ht, h⟩

theorem over_plainTable (hP : Ascii P) {d : Dict Str} (hd : plainTable d = true) {k s : Str}
    (h : (k, s) ∈ d) : Over P s := hP.plains (List.all_eq_true.1 hd _ h)

theorem over_mi (hP : Ascii P) {k s : Str} (h : MiSymbol k s) (hk : Over P k) : Over P s := by
  rcases h with h | ⟨_, h⟩
  · obtain ⟨t, ht, h⟩ := h.mem
    simp only [List.mem_cons, List.not_mem_nil, or_false] at ht
    rcases ht with rfl | rfl | rfl
    · exact over_plainTable hP plain_symChar h
    · exact over_plainTable hP plain_symGlyph h
    · exact over_plainTable hP plain_number h
  · exact over_glyph hP h hk

theorem over_mo (hP : Ascii P) {k s : Str} (h : MoSymbol k s) (hk : Over P k)
    (hs : ∀ c, (k, c) ∈ foreign → P c) : Over P s := by
  have near : ∀ {t : Dict Str}, nearlyPlainTable t = true → (k, s) ∈ t → Over P s := by
    intro t ht h c hc
    have := List.all_eq_true.1 (List.all_eq_true.1 ht _ h) c hc
    simp only [Bool.or_eq_true, List.contains_iff_mem] at this
    rcases this with (h | h) | h
    · exact hP.plain c ((plainB_iff c).1 h)
    · exact hk c h
    · exact hs c h
  rcases h with h | ⟨_, h⟩
  · obtain ⟨t, ht, h⟩ := h.mem
    simp only [List.mem_cons, List.not_mem_nil, or_false] at ht
    rcases ht with rfl | rfl | rfl
    · exact near plain_opChar h
    · exact near plain_opGlyph h
    · exact over_plainTable hP plain_number h
  · exact over_glyph hP h hk

theorem over_mn (hP : Ascii P) {k s : Str} (h : MnSymbol k s) (hk : Over P k) : Over P s := by
  rcases h with h | ⟨_, rfl⟩
  · obtain ⟨t, ht, h⟩ := h.mem
    rw [List.mem_singleton.1 ht] at h
    exact over_plainTable hP plain_number h
  · exact hk

theorem over_mtext (hP : Ascii P) {cmds : List Str} (hc : ∀ c ∈ cmds, Over P c) {k s : Str}
    (h : MText cmds k s) (hk : Over P k) : Over P s := by
  induction h with
  | nil => exact .nil
  | run _ _ _ _ ih =>
    have := over_append.1 hk
    exact (over_applyAll hP hc this.1).append (ih this.2)
  | @other c rest s out _ hs _ ih =>
    have : Over P [c] ∧ Over P rest := over_append (s := [c]).1 hk
    exact (over_mi hP hs (this.1.normalize hP)).append (ih this.2)

/-! ## Elements -/

/-- What a rendered element may bring in is in `P`. -/
def Admits (P : Char → Prop) (n : Node) : Prop :=
  ∀ m ∈ evaluated n, (∀ t ∈ copied m, Over P t) ∧ (∀ c, Alien m c → P c)

theorem Admits.self {n : Node} (h : Admits P n) :
    (∀ t ∈ copied n, Over P t) ∧ (∀ c, Alien n c → P c) :=
  h n (by rw [evaluated_eq]; exact List.mem_cons_self)

theorem Admits.sub {n c : Node} (h : Admits P n) (hc : c ∈ selected n) : Admits P c :=
  fun m hm => h m (by
    rw [evaluated_eq]
    exact List.mem_cons_of_mem _ (List.mem_flatMap.2 ⟨c, hc, hm⟩))

theorem over_all {K : List Node} {ss : List Str} (hl : K.length = ss.length)
    (ih : ∀ p ∈ K.zip ss, Admits P p.1 → Over P p.2) (h : ∀ c ∈ K, Admits P c) :
    ∀ s ∈ ss, Over P s := by
  intro s hs
  obtain ⟨i, hi, rfl⟩ := List.getElem_of_mem hs
  have hz : i < (K.zip ss).length := by simp [hl, hi]
  have hm := List.getElem_mem hz
  rw [List.getElem_zip] at hm
  exact ih _ hm (h _ (List.getElem_mem _))

theorem Spec.Renders.over (hP : Ascii P) {b : Bool} {n : Node} {s : Str} (h : Renders b n s) :
    Admits P n → Over P s := by
  have lit : ∀ {s : Str}, lineB s = true → Over P s := fun h => hP.line h
  induction h with
  | @row b tag A cs ss hst hl hr ih =>
    intro hA
    have hk : selected (.elem tag A cs) = kids cs := by
      have hne : ∀ t ∈ structured, tag ≠ t := fun t ht e => hst (e ▸ ht)
      have h1 : tag ∉ leaves := fun h =>
        hst ((by decide : ∀ t ∈ leaves, t ∈ structured) tag h)
      rw [selected, if_neg h1, if_neg (fun h => hne _ (by decide) h.1), if_neg (hne _ (by decide))]
    exact over_join (lit (by decide)) (over_all hl ih fun c hc => hA.sub (hk ▸ hc))
  | @math b A cs ss hl hr ih =>
    intro hA
    exact (over_join (lit (by decide)) (over_all hl ih fun c hc => hA.sub hc)).normalize hP
  | @mi b A cs s h =>
    intro hA
    have hk : Over P (tokenData cs) := hA.self.1 _ List.mem_cons_self
    exact over_applyAll hP (over_fonts hP (by decide) (by decide) _) (over_mi hP h (hk.normalize hP))
  | @mo b A cs s h =>
    intro hA
    have hk : Over P (tokenData cs) := hA.self.1 _ List.mem_cons_self
    exact over_mo hP h (hk.normalize hP) fun c e => hA.self.2 c ⟨A, cs, rfl, e⟩
  | @mn b A cs s h =>
    intro hA
    have hk : Over P (tokenData cs) := hA.self.1 _ List.mem_cons_self
    exact over_mn hP h (hk.normalize hP)
  | @mtext b A cs s h =>
    intro hA
    have hk : Over P (tokenData cs) := hA.self.1 _ List.mem_cons_self
    exact over_mtext hP (over_fonts hP (by decide) (by decide) _) h fun c hc => hk c (mem_strip hc)
  | @msqrt b A cs ss hl hr ih =>
    intro hA
    exact (lit (by decide)).append
      ((over_join (lit (by decide)) (over_all hl ih fun c hc => hA.sub hc)).braces hP)
  | @merror b A cs ss hl hr ih =>
    intro hA
    exact (lit (by decide)).append
      ((over_join (lit (by decide)) (over_all hl ih fun c hc => hA.sub hc)).braces hP)
  | @menclose b A cs ss hl hr ih =>
    intro hA
    have he := over_enclosure hP (attr A c!"notation")
    exact (he.1.append (over_join (lit (by decide)) (over_all hl ih fun c hc => hA.sub hc))).append
      he.2
  | mphantom => exact fun _ => .nil
  | @mfrac b A cs n d sn sd hk _ _ _ ih1 ih2 =>
    intro hA
    have sub : ∀ c ∈ kids cs, Admits P c := fun c hc => hA.sub hc
    rw [hk] at sub
    exact ((lit (by decide)).append ((ih1 (sub _ (by simp))).braces hP)).append
      ((ih2 (sub _ (by simp))).braces hP)
  | @bevelled b A cs n d sn sd hk _ _ _ ih1 ih2 =>
    intro hA
    have sub : ∀ c ∈ kids cs, Admits P c := fun c hc => hA.sub hc
    rw [hk] at sub
    exact (((ih1 (sub _ (by simp))).parensIfLong hP).append (lit (by decide))).append
      ((ih2 (sub _ (by simp))).parensIfLong hP)
  | @mroot b A cs n i sn si hk _ _ ih1 ih2 =>
    intro hA
    have sub : ∀ c ∈ kids cs, Admits P c := fun c hc => hA.sub hc
    rw [hk] at sub
    exact (((lit (by decide)).append (ih2 (sub _ (by simp)))).append (lit (by decide))).append
      ((ih1 (sub _ (by simp))).braces hP)
  | @msup b A cs x e sx se hk _ _ ih1 ih2 =>
    intro hA
    have sub : ∀ c ∈ kids cs, Admits P c := fun c hc => hA.sub hc
    rw [hk] at sub
    exact (((ih1 (sub _ (by simp))).scriptBase hP x).append (lit (by decide))).append
      ((ih2 (sub _ (by simp))).braces hP)
  | @msub b A cs x e sx se hk _ _ ih1 ih2 =>
    intro hA
    have sub : ∀ c ∈ kids cs, Admits P c := fun c hc => hA.sub hc
    rw [hk] at sub
    exact (((ih1 (sub _ (by simp))).scriptBase hP x).append (lit (by decide))).append
      ((ih2 (sub _ (by simp))).braces hP)
  | @msubsup b A cs x d e sx sd se hk _ _ _ ih1 ih2 ih3 =>
    intro hA
    have sub : ∀ c ∈ kids cs, Admits P c := fun c hc => hA.sub hc
    rw [hk] at sub
    exact (((((ih1 (sub _ (by simp))).scriptBase hP x).append (lit (by decide))).append
      ((ih2 (sub _ (by simp))).braces hP)).append (lit (by decide))).append
      ((ih3 (sub _ (by simp))).braces hP)
  | @munder b A cs x a sx sa hk _ _ ih1 ih2 =>
    intro hA
    have sub : ∀ c ∈ kids cs, Admits P c := fun c hc => hA.sub hc
    rw [hk] at sub
    exact over_stacked hP (lit (by decide)) (ih1 (sub _ (by simp))) (ih2 (sub _ (by simp)))
  | @mover b A cs x a sx sa hk _ _ ih1 ih2 =>
    intro hA
    have sub : ∀ c ∈ kids cs, Admits P c := fun c hc => hA.sub hc
    rw [hk] at sub
    exact over_stacked hP (lit (by decide)) (ih1 (sub _ (by simp))) (ih2 (sub _ (by simp)))
  | @munderover b A cs x d e sx sd se hk _ _ _ ih1 ih2 ih3 =>
    intro hA
    have sub : ∀ c ∈ kids cs, Admits P c := fun c hc => hA.sub hc
    rw [hk] at sub
    exact ((((ih1 (sub _ (by simp))).append (lit (by decide))).append
      ((ih2 (sub _ (by simp))).braces hP)).append (lit (by decide))).append
      ((ih3 (sub _ (by simp))).braces hP)
  | @mmultiscripts b A cs x ks sx s1 s2 s3 s4 hk _ _ _ _ _ _ ih0 ih1 ih2 ih3 ih4 =>
    intro hA
    have sub : ∀ c ∈ (kids cs).take 1 ++ pairList (prePair (kids cs)) ++
        pairList (postPair (kids cs)), Admits P c := fun c hc => hA.sub hc
    have hx : x ∈ (kids cs).take 1 := by rw [hk]; simp
    refine ((over_scripts hP (lit (by decide)) (fun p q e => ih1 p q e (sub _ ?_))
      (fun p q e => ih2 p q e (sub _ ?_))).append
      ((ih0 (sub _ (by simp [hx]))).parensIfSpace hP)).append
      (over_scripts hP (lit (by decide)) (fun p q e => ih3 p q e (sub _ ?_))
      (fun p q e => ih4 p q e (sub _ ?_)))
    all_goals simp [e, pairList]
  | @toggle b A cs ss ht hl hr ih =>
    intro hA
    have hk : selected (.elem c!"maction" A cs) = kids cs := by
      rw [selected, if_neg (by decide), if_neg (fun h => h.2 ht), if_neg (by decide)]
    exact over_join (lit (by decide)) (over_all hl ih fun c hc => hA.sub (hk ▸ hc))
  | @maction b A cs x ks s ht hk hx ih =>
    intro hA
    have hs : selected (.elem c!"maction" A cs) = (kids cs).take 1 := by
      rw [selected, if_neg (by decide), if_pos ⟨rfl, ht⟩]
    exact ih (hA.sub (by rw [hs, hk]; simp))
  | @mfenced b A cs ss _ hl hr ih =>
    intro hA
    have h1 : Over P (attr A c!"open") := hA.self.1 _ (by simp [copied])
    have h2 : Over P (attr A c!"close") := hA.self.1 _ (by simp [copied])
    have h3 : Over P (attr A c!"separators") := hA.self.1 _ (by simp [copied])
    exact ((((lit (by decide)).append (h1.orElse (lit (by decide)))).append
      (over_interleave (h3.separator hP) (over_all hl ih fun c hc => hA.sub hc))).append
      (lit (by decide))).append (h2.orElse (lit (by decide)))
  | @matrix b A cs ss _ hl hr ih =>
    intro hA
    have h1 : Over P (attr A c!"open") := hA.self.1 _ (by simp [copied])
    have h2 : Over P (attr A c!"close") := hA.self.1 _ (by simp [copied])
    exact over_matrix hP h1 h2 (over_all hl ih fun c hc => hA.sub hc)
  | @mtable A cs ss _ hl hr ih =>
    intro hA
    exact over_join (lit (by decide)) (over_all hl ih fun c hc => hA.sub hc)
  | @innerTable b A cs ss _ hl hr ih =>
    intro hA
    exact ((lit (by decide)).append (over_join (lit (by decide))
      (over_all hl ih fun c hc => hA.sub hc))).append (lit (by decide))
  | @mtr b A cs ss hl hr ih =>
    intro hA
    exact over_join (lit (by decide)) (over_all hl ih fun c hc => hA.sub hc)

/-- **C64** Every character of the LaTeX of an element is printable ASCII, or the end of a line, or
occurs in the text of a visible token or in the delimiters or separators of a visible fence, or is
written for one of the seven exceptional operators. -/
theorem C64_element (b : Bool) (n : Node) (hn : n.isElem = true) (s : Str)
    (h : latexIn b n = .ok s) (c : Char) (hc : c ∈ s) :
    Plain c ∨ c = '\n' ∨ (∃ m ∈ evaluated n, ∃ t ∈ copied m, c ∈ t) ∨
      ∃ m ∈ evaluated n, Alien m c := by
  refine ((renders_iff hn b s).2 h).over (P := fun c => Plain c ∨ c = '\n' ∨
    (∃ m ∈ evaluated n, ∃ t ∈ copied m, c ∈ t) ∨ ∃ m ∈ evaluated n, Alien m c)
    ⟨fun c h => .inl h, .inr (.inl rfl)⟩ ?_ c hc
  intro m hm
  exact ⟨fun t ht c hc => .inr (.inr (.inl ⟨m, hm, t, ht, hc⟩)),
    fun c h => .inr (.inr (.inr ⟨m, hm, h⟩))⟩

/-- **C64** Every character of the output is printable ASCII, or one other than whitespace that
occurs in the text of a visible token or in the delimiters or separators of a visible fence, or is
written for one of the seven exceptional operators. -/
theorem C64_document (env : Env) (x : Str) (d : Doc) (hd : ParsesTo env x d) (s : Str)
    (h : convert env x = .ok s) (c : Char) (hc : c ∈ s) :
    Plain c ∨ (isSpace c = false ∧ ∃ n ∈ maths d, ∃ m ∈ evaluated n, ∃ t ∈ copied m, c ∈ t) ∨
      ∃ n ∈ maths d, ∃ m ∈ evaluated n, Alien m c := by
  rw [hd.convert] at h
  obtain ⟨ss, h1, rfl⟩ := (C04_document_order d s).1 h
  obtain ⟨t, ht, hc⟩ := List.mem_flatten.1 hc
  have h2 : (Except.ok t : Except Exc Str) ∈ (maths d).map latexOf := by
    rw [h1]; exact List.mem_map.2 ⟨t, ht, rfl⟩
  obtain ⟨n, hn, he⟩ := List.mem_map.1 h2
  rw [latexOf_eq] at he
  have hmath := maths_isMath n hn
  have hel : n.isElem = true := by cases n <;> first | rfl | cases hmath
  have hsp : isSpace c = true → c = ' ' := fun h =>
    (latexIn_math_normal hmath he).blanks c hc h
  rcases C64_element false n hel t he c hc with h | rfl | ⟨m, hm, u, hu, h⟩ | ⟨m, hm, g⟩
  · exact .inl h
  · exact absurd (hsp (by decide)) (by decide)
  · by_cases hw : isSpace c = true
    · rw [hsp hw]; exact .inl (by decide)
    · exact .inr (.inl ⟨by simpa using hw, n, hn, m, hm, u, hu, h⟩)
  · exact .inr (.inr ⟨n, hn, m, hm, g⟩)

/-- An identifier in Cyrillic in a fence with typographic brackets: both are copied. -/
example : latexIn false (.elem c!"mfenced" [(c!"open", c!"⟪"), (c!"close", c!"⟫")]
    [.elem c!"mi" [] [.text c!"ж"]]) = .ok c!"\\left⟪ж\\right⟫" := by decide +kernel

/-- **C64** When the visible tokens and fences are written in printable ASCII and whitespace, and
have no ampersand, the output is a line of printable ASCII. -/
theorem C64_ascii (env : Env) (x : Str) (d : Doc) (hd : ParsesTo env x d)
    (ha : ∀ n ∈ maths d, ∀ m ∈ evaluated n, ∀ t ∈ copied m,
      (∀ c ∈ t, Plain c ∨ isSpace c = true) ∧ '&' ∉ t) (s : Str)
    (h : convert env x = .ok s) : ∀ c ∈ s, Plain c := by
  intro c hc
  rcases C64_document env x d hd s h c hc with h | ⟨hsp, n, hn, m, hm, t, ht, h⟩ | ⟨n, hn, m, hm, h⟩
  · exact h
  · rcases (ha n hn m hm t ht).1 c h with h | h
    · exact h
    · rw [hsp] at h; cases h
  · obtain ⟨A, cs, rfl, e⟩ := h
    have h1 : tokenData cs ∈ copied (.elem c!"mo" A cs) := List.mem_cons_self
    have hf : ∀ p ∈ foreign, ∃ c ∈ p.1, c = '&' ∨ (¬ Plain c ∧ isSpace c = false) := by decide
    obtain ⟨a, ha1, ha2⟩ := hf _ e
    have h2 := ha n hn _ hm _ h1
    have h3 : a = ' ' ∨ a ∈ tokenData cs := mem_normalize ha1
    rcases ha2 with rfl | ⟨hp, hw⟩
    · rcases h3 with h | h
      · cases h
      · exact absurd h h2.2
    · rcases h3 with rfl | h
      · exact absurd (by decide) hp
      · rcases h2.1 a h with h | h
        · exact absurd h hp
        · rw [hw] at h; cases h

/-- A table in ASCII, with the end of a line in an identifier. -/
example : docResult [.elem c!"math" [] [.elem c!"mtable" [] [.elem c!"mtr" [] [.elem c!"mtd" []
    [.elem c!"mi" [] [.text c!" x\n1 "]]], .elem c!"mtr" [] [.elem c!"mtd" []
      [.elem c!"mo" [] [.text c!"<="]]]]]] = .ok c!"x 1 \\\\ <=" := by
  rw [docResult_eq]; decide +kernel

/-- **C64** Every exception occurs: the character is written for the operator, whatever the
attributes. -/
theorem C64_exceptions (b : Bool) (A : List (Str × Str)) :
    ∀ p ∈ foreign, ∃ s, latexIn b (.elem c!"mo" A [.text p.1]) = .ok s ∧ p.2 ∈ s := by
  have h : ∀ p ∈ foreign, p.2 ∈ operate (normalize (tokenData [.text p.1])) := by decide +kernel
  intro p hp
  exact ⟨_, latexIn_mo b A _, h p hp⟩

/-- **C64** So tokens in printable ASCII are not enough: the operator written `&amp;#xB4;`, whose
text is the six characters `&#xB4;`, comes out as the accent itself. -/
theorem C64_ascii_not_enough : ∃ d : Doc, ∃ s, (∀ n ∈ maths d, ∀ m ∈ evaluated n, ∀ t ∈ copied m,
      ∀ c ∈ t, Plain c) ∧ docResult d = .ok s ∧ ∃ c ∈ s, ¬ Plain c := by
  refine ⟨[.elem c!"math" [] [.elem c!"mo" [] [.text c!"&#xB4;"]]], c!"´", ?_, ?_, '´', ?_, ?_⟩
  · intro n hn m hm t ht
    have e1 : maths [.elem c!"math" [] [.elem c!"mo" [] [.text c!"&#xB4;"]]] =
        [.elem c!"math" [] [.elem c!"mo" [] [.text c!"&#xB4;"]]] := by rfl
    rw [e1] at hn
    rw [List.mem_singleton.1 hn, evaluated_eq] at hm
    have e2 : selected (.elem c!"math" [] [.elem c!"mo" [] [.text c!"&#xB4;"]]) =
        [.elem c!"mo" [] [.text c!"&#xB4;"]] := by rfl
    rw [e2] at hm
    simp only [List.flatMap_cons, List.flatMap_nil, List.append_nil, List.mem_cons] at hm
    rcases hm with rfl | hm
    · cases ht
    · rw [evaluated_eq] at hm
      have e3 : selected (.elem c!"mo" [] [.text c!"&#xB4;"]) = [] := by rfl
      rw [e3] at hm
      rw [List.mem_singleton.1 hm] at ht
      rw [List.mem_singleton.1 ht]
      decide
  · rw [docResult_eq]; decide +kernel
  · simp
  · decide

end Verif
