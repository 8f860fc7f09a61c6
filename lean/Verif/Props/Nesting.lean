import Verif.Spec.Safe
import Verif.Props.Rules

/-! # Groups, delimiters and environments are properly nested (C13) -/

namespace Verif
open Spec

/-! ## The tables -/

/-- The values are neutral, but for the entries of braces. -/
def neutralTable (d : Dict Str) : Bool :=
  d.all fun p => p.1 == c!"{" || p.1 == c!"}" || turnsB p.2 [] []

set_option maxRecDepth 100000 in
theorem neutral_symChar : neutralTable allMathSymbolsByChar = true := by decide +kernel
set_option maxRecDepth 100000 in
theorem neutral_symGlyph : neutralTable allMathSymbolsByGlyph = true := by decide +kernel
set_option maxRecDepth 100000 in
theorem neutral_number : neutralTable mathNumberByGlyph = true := by decide +kernel
set_option maxRecDepth 100000 in
theorem neutral_opChar : neutralTable allMathOperatorsByChar = true := by decide +kernel
set_option maxRecDepth 100000 in
theorem neutral_opGlyph : neutralTable allMathOperatorsByGlyph = true := by decide +kernel

/-- All accented letters, with all accents. -/
def neutralVowels : Bool :=
  vowelsWithAccents.all fun p => accentToLtxCmd.all fun q =>
    turnsB (c!"\\" ++ q.2 ++ c!"{" ++ p.2.1 ++ c!"}") [] []

set_option maxRecDepth 100000 in
theorem neutral_vowels : neutralVowels = true := by decide +kernel

def neutralFonts : Bool :=
  specialFontChars.all fun p => turnsB (c!"\\" ++ p.2.2 ++ c!"{" ++ p.2.1 ++ c!"}") [] []

set_option maxRecDepth 100000 in
theorem neutral_fonts : neutralFonts = true := by decide +kernel

theorem Spec.Tabulated.neutral {ts : List (Dict Str)} (hts : ∀ t ∈ ts, neutralTable t = true)
    {k v : Str} (h : Tabulated ts k v) (h1 : k ≠ c!"{") (h2 : k ≠ c!"}") : Neutral v := by
  induction h with
  | here hm _ =>
    have := forall_of_all (hts _ List.mem_cons_self) _ _ hm
    simp only [Bool.or_eq_true, beq_iff_eq, h1, h2, false_or] at this
    exact turns_of this
  | skip _ _ ih => exact ih (fun t ht => hts t (List.mem_cons_of_mem _ ht)) h1 h2

theorem Spec.Glyph.neutral {k s : Str} (h : Glyph k s) : s = k ∨ Neutral s := by
  cases h with
  | alnum _ => exact .inl rfl
  | plain _ _ _ => exact .inl rfl
  | accent _ h1 h2 =>
    refine .inr (turns_of ?_)
    have hv := neutral_vowels
    unfold neutralVowels at hv
    have := forall_of_all hv _ _ h1
    exact forall_of_all this _ _ h2
  | font _ _ h1 =>
    refine .inr (turns_of ?_)
    have hv := neutral_fonts
    unfold neutralFonts at hv
    exact forall_of_all hv _ _ h1

theorem safeChar_iff {c : Char} : c ∉ texSpecials ↔ SafeChar c := by
  simp [texSpecials, SafeChar]

theorem Spec.Symbol.neutral {ts : List (Dict Str)} (hts : ∀ t ∈ ts, neutralTable t = true)
    {k s : Str} (h : Symbol ts k s) (hk : ∀ c ∈ k, SafeChar c) : Neutral s := by
  rcases h with h | ⟨_, h⟩
  · refine h.neutral hts ?_ ?_ <;> rintro rfl
    · exact absurd (hk '{' (by simp)) (by decide)
    · exact absurd (hk '}' (by simp)) (by decide)
  · rcases h.neutral with rfl | h
    · exact .chars hk
    · exact h

theorem neutral_mi : ∀ t ∈ [allMathSymbolsByChar, allMathSymbolsByGlyph, mathNumberByGlyph],
    neutralTable t = true := by
  intro t ht
  simp only [List.mem_cons, List.not_mem_nil, or_false] at ht
  rcases ht with rfl | rfl | rfl
  · exact neutral_symChar
  · exact neutral_symGlyph
  · exact neutral_number

theorem neutral_mo : ∀ t ∈ [allMathOperatorsByChar, allMathOperatorsByGlyph, mathNumberByGlyph],
    neutralTable t = true := by
  intro t ht
  simp only [List.mem_cons, List.not_mem_nil, or_false] at ht
  rcases ht with rfl | rfl | rfl
  · exact neutral_opChar
  · exact neutral_opGlyph
  · exact neutral_number

/-- The special characters with entries of their own. -/
theorem special_symbols : ∀ c ∈ ['\\', '%', '$', '#'],
    turnsB (characterApply [c]) [] [] = true ∧ turnsB (operate [c]) [] [] = true := by
  decide +kernel

theorem MiSymbol.neutral_special {c : Char} (hc : c ∈ ['\\', '%', '$', '#']) {s : Str}
    (h : MiSymbol [c] s) : Neutral s := by
  rw [← (miSymbol_iff _ _).1 h]; exact turns_of (special_symbols c hc).1

theorem MoSymbol.neutral_special {c : Char} (hc : c ∈ ['\\', '%', '$', '#']) {s : Str}
    (h : MoSymbol [c] s) : Neutral s := by
  rw [← (moSymbol_iff _ _).1 h]; exact turns_of (special_symbols c hc).2

theorem mem_join_blank {ws : List Str} {c : Char} (h : c ∈ join c!" " ws) :
    c = ' ' ∨ ∃ w ∈ ws, c ∈ w := by
  induction ws with
  | nil => simp [join] at h
  | cons w ws ih =>
    rw [join_blanked] at h
    simp only [blanked, List.mem_append, List.mem_flatten, List.mem_map] at h
    rcases h with h | ⟨_, ⟨v, hv, rfl⟩, h⟩
    · exact .inr ⟨w, by simp, h⟩
    · rcases List.mem_cons.1 h with h | h
      · exact .inl h
      · exact .inr ⟨v, by simp [hv], h⟩

theorem Spec.Spaced.mem {ws : List Str} {s : Str} (h : Spaced ws s) :
    ∀ w ∈ ws, ∀ c ∈ w, c ∈ s := by
  induction h with
  | none _ => simp
  | word _ _ _ _ _ ih =>
    intro v hv c hc
    rcases List.mem_cons.1 hv with rfl | hv
    · simp [hc]
    · simp [ih v hv c hc]

theorem mem_normalize {s : Str} {c : Char} (h : c ∈ normalize s) : c = ' ' ∨ c ∈ s := by
  rcases mem_join_blank h with h | ⟨w, hw, h⟩
  · exact .inl h
  · exact .inr ((spaced_split s).mem w hw c h)

theorem safe_normalize {s : Str} (h : ∀ c ∈ s, c ∉ texSpecials) : ∀ c ∈ normalize s, SafeChar c := by
  intro c hc
  rcases mem_normalize hc with rfl | hc
  · decide
  · exact safeChar_iff.1 (h c hc)

theorem mem_strip {s : Str} {c : Char} (h : c ∈ strip s) : c ∈ s := by
  unfold strip rstrip lstrip at h
  rw [List.mem_reverse] at h
  have := (List.dropWhile_sublist _).subset h
  rw [List.mem_reverse] at this
  exact (List.dropWhile_sublist _).subset this

/-! ## Pieces of the constructs -/

/-- The commands take one argument in braces. -/
def commandsOk (cs : List Str) : Bool := cs.all fun c => turnsB (c ++ c!"{") [] [.brace]

theorem Neutral.applyAll {cs : List Str} (h : commandsOk cs = true) {s : Str} (hs : Neutral s) :
    Neutral (applyAll cs s) := by
  induction cs with
  | nil => exact hs
  | cons c cs ih =>
    rw [commandsOk, List.all_cons, Bool.and_eq_true] at h
    exact .between (J := [.brace]) (turns_of h.1) (ih h.2) (turns_of (by decide))

theorem fonts_commandsOk {variants : Dict (List Str)} {dflt : List Str}
    (hv : variants.all (fun p => commandsOk p.2) = true) (hd : commandsOk dflt = true) (v : Str) :
    commandsOk (fonts variants dflt v) = true := by
  unfold fonts
  split
  · rename_i p hp
    exact List.all_eq_true.1 hv p (List.mem_of_find?_eq_some hp)
  · exact hd

theorem Spec.MText.neutral {cmds : List Str} (hc : commandsOk cmds = true) {x s : Str}
    (h : MText cmds x s) (hx : ∀ c ∈ x, c ≠ '{' ∧ c ≠ '}') : Neutral s := by
  induction h with
  | nil => exact .nil
  | @run w rest out _ hw _ _ ih =>
    refine (Neutral.applyAll hc (.chars fun c hc => ?_)).append
      (ih fun c hc => hx c (List.mem_append_right _ hc))
    have := hw c hc
    refine ⟨?_, ?_, ?_, ?_, ?_, ?_⟩ <;> rintro rfl <;> revert this <;> first | decide | exact fun h => absurd h (by decide)
  | @other c rest s out _ hs _ ih =>
    refine Neutral.append ?_ (ih fun c hc => hx c (List.mem_cons_of_mem _ hc))
    by_cases hsp : isSpace c = true
    · have : normalize [c] = [] := by
        unfold Verif.normalize; rw [split_cons_space _ hsp]; rfl
      rw [this] at hs
      exact hs.neutral neutral_mi (by simp)
    · have : normalize [c] = [c] := by
        unfold Verif.normalize
        rw [split_word [c] (by simp) (by simpa using hsp)]; rfl
      rw [this] at hs
      by_cases hc : c ∈ ['\\', '%', '$', '#']
      · exact MiSymbol.neutral_special hc hs
      · refine Symbol.neutral neutral_mi hs ?_
        intro d hd
        rw [List.mem_singleton] at hd; subst hd
        have h2 := hx d (by simp)
        simp only [List.mem_cons, List.not_mem_nil, or_false, not_or] at hc
        exact ⟨hc.1, h2.1, h2.2, hc.2.1, hc.2.2.1, hc.2.2.2⟩

theorem Neutral.parens {s : Str} (h : Neutral s) : Neutral (parens s) :=
  .between (J := [.left]) (turns_of (by decide)) h (turns_of (by decide))

theorem Neutral.parensIfLong {s : Str} (h : Neutral s) : Neutral (parensIfLong s) := by
  unfold Spec.parensIfLong; split
  · exact h.parens
  · exact h

theorem Neutral.scriptBase {n : Node} {s : Str} (h : Neutral s) : Neutral (scriptBase n s) := by
  unfold Spec.scriptBase; split
  · exact h.parensIfLong
  · exact h

theorem Neutral.parensIfSpace {s : Str} (h : Neutral s) : Neutral (parensIfSpace s) := by
  unfold Spec.parensIfSpace; split
  · exact h.parens
  · exact h

theorem Neutral.stacked {cmd x a : Str} (hc : Neutral cmd) (hx : Neutral x) (ha : Neutral a) :
    Neutral (stacked cmd x a) := by
  unfold Spec.stacked; split
  · exact ha.append hx.braces
  · exact (hc.append ha.braces).append hx.braces

theorem Neutral.scripts {lead : Str} {pq : Option (Node × Node)} {x y : Str} (hl : Neutral lead)
    (h : pq.isSome = true → Neutral x ∧ Neutral y) : Neutral (scripts lead pq x y) := by
  unfold Spec.scripts; split
  · rename_i hs
    exact ((hl.append (h hs).1.braces).append (turns_of (by decide))).append (h hs).2.braces
  · exact .nil

theorem Neutral.interleave {sep : Nat → Str} (hsep : ∀ i, Neutral (sep i)) : ∀ {ss : List Str},
    (∀ s ∈ ss, Neutral s) → Neutral (interleave sep ss)
  | [], _ => .nil
  | [s], h => h s (by simp)
  | s :: t :: ss, h =>
    ((h s (by simp)).append (hsep 0)).append
      (Neutral.interleave (fun i => hsep (i + 1)) fun u hu => h u (List.mem_cons_of_mem _ hu))

theorem Neutral.separator {seps : Str} (h : ∀ c ∈ seps, c ∉ texSpecials) (i : Nat) :
    Neutral (separator seps i) := by
  unfold Spec.separator
  split
  · exact .char (safeChar_iff.1 (h _ (List.getElem_mem _)))
  · split
    · rename_i c t e
      refine .char (safeChar_iff.1 (h c ?_))
      rw [← List.mem_reverse, e]; simp
    · exact turns_of (by decide)

theorem Spec.SafeDelim.turns {d : Str} (h : SafeDelim d) :
    Turns (c!"\\left" ++ d) [] [.left] ∧ Turns (c!"\\right" ++ d) [.left] [] := by
  obtain ⟨c, t, rfl, h1, h2, h3, h4⟩ := h
  have ht : Neutral t := .chars fun x hx => safeChar_iff.1 (h4 x hx)
  obtain ⟨f1, f2⟩ := turns_fence h1 h2 h3
  have e : ∀ p : Str, p ++ c :: t = p ++ [c] ++ t := by simp
  exact ⟨by rw [e]; exact f1.append (ht.turns _), by rw [e]; exact f2.append (ht.turns _)⟩

theorem Neutral.environment {env : Str} {ss : List Str} (h : ∀ s ∈ ss, Neutral s)
    (he : env ∈ [c!"matrix", c!"pmatrix", c!"bmatrix", c!"Bmatrix", c!"vmatrix", c!"Vmatrix"]) :
    Neutral (environment env ss) := by
  have : Turns (c!"\\begin{" ++ env ++ c!"}\n") [] [.env env] ∧
      Turns (c!"\n\\end{" ++ env ++ c!"}") [.env env] [] := by
    simp only [List.mem_cons, List.not_mem_nil, or_false] at he
    rcases he with rfl | rfl | rfl | rfl | rfl | rfl <;>
      exact ⟨turns_of (by decide), turns_of (by decide)⟩
  have e : Spec.environment env ss =
      (c!"\\begin{" ++ env ++ c!"}\n") ++ ss.flatten ++ (c!"\n\\end{" ++ env ++ c!"}") := by
    simp [Spec.environment]
  rw [e]
  exact .between this.1 (.flatten h) this.2

theorem Neutral.matrix {op close : Str} {ss : List Str} (h : ∀ s ∈ ss, Neutral s)
    (hd : (op = c!"{" ∧ close = c!"}") ∨ op = close ∨ (SafeDelim op ∧ SafeDelim close)) :
    Neutral (Spec.matrix op close ss) := by
  unfold Spec.matrix
  split
  · rename_i p hp
    refine .environment h ?_
    have : ∀ p ∈ environments, p.2 ∈
        [c!"matrix", c!"pmatrix", c!"bmatrix", c!"Bmatrix", c!"vmatrix", c!"Vmatrix"] := by decide
    exact this p (List.mem_of_find?_eq_some hp)
  · rename_i hp
    split
    · exact .environment h (by decide)
    · rename_i hne
      rcases hd with ⟨rfl, rfl⟩ | hd | ⟨h1, h2⟩
      · exact absurd hp (by decide)
      · exact absurd hd hne
      · have e : c!"\\left" ++ op ++ Spec.environment c!"matrix" ss ++ c!"\\right" ++ close =
            (c!"\\left" ++ op) ++ Spec.environment c!"matrix" ss ++ (c!"\\right" ++ close) := by simp
        rw [e]
        exact .between h1.turns.1 (.environment h (by decide)) h2.turns.2

theorem Neutral.fence {op close seps : Str} {ss : List Str} (h : ∀ s ∈ ss, Neutral s)
    (ho : op = [] ∨ SafeDelim op) (hc : close = [] ∨ SafeDelim close)
    (hs : ∀ c ∈ seps, c ∉ texSpecials) : Neutral (fence op close seps ss) := by
  have p1 : SafeDelim c!"(" := ⟨'(', [], rfl, by decide, by decide, by decide, by simp⟩
  have p2 : SafeDelim c!")" := ⟨')', [], rfl, by decide, by decide, by decide, by simp⟩
  have h1 : SafeDelim (orElse op c!"(") := by
    unfold orElse; split
    · exact p1
    · rename_i hne; exact ho.resolve_left hne
  have h2 : SafeDelim (orElse close c!")") := by
    unfold orElse; split
    · exact p2
    · rename_i hne; exact hc.resolve_left hne
  unfold Spec.fence
  have e : ∀ a b x : Str, c!"\\left" ++ a ++ x ++ c!"\\right" ++ b =
      (c!"\\left" ++ a) ++ x ++ (c!"\\right" ++ b) := by simp
  rw [e]
  exact .between h1.turns.1 (.interleave (Neutral.separator hs) h) h2.turns.2

/-- The parts of an enclosure match. -/
def enclosureOk (p : Str × Str) : Bool :=
  match srun ([], .normal) p.1 with
  | some (J, m) => Good m && turnsB p.2 J []
  | none => false

theorem Neutral.enclosure {p : Str × Str} (hp : enclosureOk p = true) {s : Str} (h : Neutral s) :
    Neutral (p.1 ++ s ++ p.2) := by
  unfold enclosureOk at hp
  split at hp
  · rename_i J m hr
    rw [Bool.and_eq_true] at hp
    refine .between (J := J) (turns_of ?_) h (turns_of hp.2)
    rw [turnsB, hr]; simp [hp.1]
  · cases hp

theorem enclosures_ok : ∀ p ∈ enclosures,
    p.1 ∉ [c!"left", c!"right", c!"madruwb"] → enclosureOk p.2 = true := by decide

theorem enclosure_ok {k : Str} (h : k ∉ [c!"left", c!"right", c!"madruwb"]) :
    enclosureOk (enclosure k) = true := by
  unfold Spec.enclosure
  split
  · rename_i p hp
    have hk : p.1 = k := by simpa using List.find?_some hp
    exact enclosures_ok p (List.mem_of_find?_eq_some hp) (hk ▸ h)
  · decide

/-! ## Elements -/

theorem mem_elements_of_mem {n x : Node} : ∀ {ns : List Node}, n ∈ ns → x ∈ elementsOf n →
    x ∈ elements ns
  | m :: ns, hn, hx => by
    rw [elements, List.mem_append]
    rcases List.mem_cons.1 hn with rfl | hn
    · exact .inl hx
    · exact .inr (mem_elements_of_mem hn hx)

theorem Spec.Safe.kid {tag : Str} {A : List (Str × Str)} {cs : List Node}
    (h : Safe (.elem tag A cs)) {n : Node} (hn : n ∈ kids cs) : Safe n := by
  intro x hx
  refine h x ?_
  rw [elementsOf]
  exact List.mem_cons_of_mem _ (mem_elements_of_mem (mem_kids.1 hn).1 hx)

theorem Spec.Safe.self {tag : Str} {A : List (Str × Str)} {cs : List Node}
    (h : Safe (.elem tag A cs)) : SafeElem (.elem tag A cs) :=
  h _ (by rw [elementsOf]; exact List.mem_cons_self)

theorem all_neutral {ns : List Node} {ss : List Str} (hl : ns.length = ss.length)
    (hs : ∀ n ∈ ns, Safe n) (h : ∀ p ∈ ns.zip ss, Safe p.1 → Neutral p.2) :
    ∀ s ∈ ss, Neutral s := by
  induction ns generalizing ss with
  | nil => cases ss with
    | nil => simp
    | cons => simp at hl
  | cons n ns ih =>
    cases ss with
    | nil => simp
    | cons s ss =>
      intro t ht
      rw [List.zip_cons_cons] at h
      rcases List.mem_cons.1 ht with rfl | ht
      · exact h (n, t) List.mem_cons_self (hs n List.mem_cons_self)
      · exact ih (by simpa using hl) (fun m hm => hs m (List.mem_cons_of_mem _ hm))
          (fun p hp => h p (List.mem_cons_of_mem _ hp)) t ht

theorem neutral_blank : Neutral c!" " := turns_of (by decide)

theorem Spec.Renders.neutral {b : Bool} {n : Node} {s : Str} (h : Renders b n s) :
    Safe n → Neutral s := by
  induction h with
  | row _ hl _ ih => intro hs; exact .join neutral_blank (all_neutral hl (fun _ => hs.kid) ih)
  | math hl _ ih =>
    intro hs; exact (Neutral.join neutral_blank (all_neutral hl (fun _ => hs.kid) ih)).normalize
  | @mi b A cs s h =>
    intro hs
    refine .applyAll (fonts_commandsOk (by decide) (by decide) _) ?_
    rcases hs.self.1 (.inl rfl) with hc | ⟨c, hc, hw⟩
    · exact Symbol.neutral neutral_mi h (safe_normalize hc)
    · rw [show normalize (tokenData cs) = [c] by unfold Verif.normalize; rw [hw]; rfl] at h
      exact MiSymbol.neutral_special hc h
  | @mo b A cs s h =>
    intro hs
    rcases hs.self.1 (.inr rfl) with hc | ⟨c, hc, hw⟩
    · exact Symbol.neutral neutral_mo h (safe_normalize hc)
    · rw [show normalize (tokenData cs) = [c] by unfold Verif.normalize; rw [hw]; rfl] at h
      exact MoSymbol.neutral_special hc h
  | @mn b A cs s h =>
    intro hs
    have hk := safe_normalize (hs.self.2.1 rfl)
    rcases h with h | ⟨_, rfl⟩
    · refine h.neutral (by simpa using neutral_number) ?_ ?_ <;> intro e <;> rw [e] at hk
      · exact absurd (hk '{' (by simp)) (by decide)
      · exact absurd (hk '}' (by simp)) (by decide)
    · exact .chars hk
  | mtext h =>
    intro hs
    exact h.neutral (fonts_commandsOk (by decide) (by decide) _)
      fun c hc => hs.self.2.2.1 rfl c (mem_strip hc)
  | msqrt hl _ ih =>
    intro hs
    exact Neutral.append (turns_of (by decide))
      (Neutral.join neutral_blank (all_neutral hl (fun _ => hs.kid) ih)).braces
  | merror hl _ ih =>
    intro hs
    exact Neutral.append (turns_of (by decide))
      (Neutral.join neutral_blank (all_neutral hl (fun _ => hs.kid) ih)).braces
  | menclose hl _ ih =>
    intro hs
    exact .enclosure (enclosure_ok (hs.self.2.2.2.2 rfl))
      (.join neutral_blank (all_neutral hl (fun _ => hs.kid) ih))
  | mphantom => intro _; exact .nil
  | mfrac hk _ _ _ ih1 ih2 =>
    intro hs
    have h1 := ih1 (hs.kid (by rw [hk]; simp))
    have h2 := ih2 (hs.kid (by rw [hk]; simp))
    exact (Neutral.append (turns_of (by decide)) h1.braces).append h2.braces
  | bevelled hk _ _ _ ih1 ih2 =>
    intro hs
    have h1 := ih1 (hs.kid (by rw [hk]; simp))
    have h2 := ih2 (hs.kid (by rw [hk]; simp))
    exact (h1.parensIfLong.append (turns_of (by decide))).append h2.parensIfLong
  | @mroot b A cs n i sn si hk _ _ ih1 ih2 =>
    intro hs
    have h1 := ih1 (hs.kid (by rw [hk]; simp))
    have h2 := ih2 (hs.kid (by rw [hk]; simp))
    exact ((Neutral.append (turns_of (by decide)) h2).append (turns_of (by decide))).append h1.braces
  | msup hk _ _ ih1 ih2 =>
    intro hs
    have h1 := ih1 (hs.kid (by rw [hk]; simp))
    have h2 := ih2 (hs.kid (by rw [hk]; simp))
    exact (h1.scriptBase.append (turns_of (by decide))).append h2.braces
  | msub hk _ _ ih1 ih2 =>
    intro hs
    have h1 := ih1 (hs.kid (by rw [hk]; simp))
    have h2 := ih2 (hs.kid (by rw [hk]; simp))
    exact (h1.scriptBase.append (turns_of (by decide))).append h2.braces
  | msubsup hk _ _ _ ih1 ih2 ih3 =>
    intro hs
    have h1 := ih1 (hs.kid (by rw [hk]; simp))
    have h2 := ih2 (hs.kid (by rw [hk]; simp))
    have h3 := ih3 (hs.kid (by rw [hk]; simp))
    exact (((h1.scriptBase.append (turns_of (by decide))).append h2.braces).append
      (turns_of (by decide))).append h3.braces
  | munder hk _ _ ih1 ih2 =>
    intro hs
    exact .stacked (turns_of (by decide)) (ih1 (hs.kid (by rw [hk]; simp)))
      (ih2 (hs.kid (by rw [hk]; simp)))
  | mover hk _ _ ih1 ih2 =>
    intro hs
    exact .stacked (turns_of (by decide)) (ih1 (hs.kid (by rw [hk]; simp)))
      (ih2 (hs.kid (by rw [hk]; simp)))
  | munderover hk _ _ _ ih1 ih2 ih3 =>
    intro hs
    have h1 := ih1 (hs.kid (by rw [hk]; simp))
    have h2 := ih2 (hs.kid (by rw [hk]; simp))
    have h3 := ih3 (hs.kid (by rw [hk]; simp))
    exact (((h1.append (turns_of (by decide))).append h2.braces).append
      (turns_of (by decide))).append h3.braces
  | @mmultiscripts b A cs x ks sx s1 s2 s3 s4 hk _ _ _ _ _ _ ih ih1 ih2 ih3 ih4 =>
    intro hs
    refine ((Neutral.scripts (turns_of (by decide)) ?_).append
      (ih (hs.kid (by rw [hk]; simp))).parensIfSpace).append
      (Neutral.scripts (turns_of (by decide)) ?_)
    · intro h
      obtain ⟨⟨p, q⟩, hp⟩ := Option.isSome_iff_exists.1 h
      have := prePair_mem hp
      exact ⟨ih1 p q hp (hs.kid this.1), ih2 p q hp (hs.kid this.2)⟩
    · intro h
      obtain ⟨⟨p, q⟩, hp⟩ := Option.isSome_iff_exists.1 h
      have := postPair_mem hp
      exact ⟨ih3 p q hp (hs.kid this.1), ih4 p q hp (hs.kid this.2)⟩
  | toggle _ hl _ ih =>
    intro hs; exact .join (turns_of (by decide)) (all_neutral hl (fun _ => hs.kid) ih)
  | maction _ hk _ ih => intro hs; exact ih (hs.kid (by rw [hk]; simp))
  | mfenced ht hl _ ih =>
    intro hs
    rcases hs.self.2.2.2.1 rfl with ⟨h, _⟩ | ⟨h1, h2, h3, _⟩
    · exact absurd h ht
    · exact .fence (all_neutral hl (fun _ => hs.kid) ih) h1 h2 h3
  | matrix ht hl _ ih =>
    intro hs
    refine .matrix (all_neutral hl (fun _ => hs.kid) ih) ?_
    rcases hs.self.2.2.2.1 rfl with ⟨_, h1, h2⟩ | ⟨h1, h2, _, h4⟩
    · exact .inl ⟨h1, h2⟩
    · rcases h1 with h1 | h1
      · exact .inr (.inl (h1.trans ((h4 ht).1 h1).symm))
      · rcases h2 with h2 | h2
        · exact .inr (.inl (((h4 ht).2 h2).trans h2.symm))
        · exact .inr (.inr ⟨h1, h2⟩)
  | mtable _ hl _ ih =>
    intro hs; exact .join (turns_of (by decide)) (all_neutral hl (fun _ => hs.kid) ih)
  | @innerTable b A cs ss _ hl _ ih =>
    intro hs
    exact .between (J := [.env c!"matrix"]) (turns_of (by decide))
      (.join (turns_of (by decide)) (all_neutral hl (fun _ => hs.kid) ih)) (turns_of (by decide))
  | mtr hl _ ih =>
    intro hs; exact .join (turns_of (by decide)) (all_neutral hl (fun _ => hs.kid) ih)

/-! ## C13 -/

/-- **C13** The LaTeX of an element with harmless texts is properly nested, in every context. -/
theorem C13_element (b : Bool) (n : Node) (hs : Safe n) (s : Str) (h : latexIn b n = .ok s) :
    Nested s := by
  cases he : n.isElem with
  | true => exact (Renders.neutral ((renders_iff he b s).2 h) hs).nested
  | false =>
    have : s = [] := by
      cases n with
      | elem => cases he
      | text => cases h; rfl
      | cdata => cases h; rfl
      | comment => cases h; rfl
      | pi => cases h; rfl
    rw [this]; exact Neutral.nil.nested

/-- **C13** The result for a document whose `math` elements are harmless is properly nested. -/
theorem C13_document (d : Doc) (hs : ∀ n ∈ maths d, Safe n) (s : Str) (h : docResult d = .ok s) :
    Nested s := by
  rw [docResult_firstOrAll] at h
  cases hf : firstOrAll ((maths d).map (latexIn false)) with
  | error e => rw [hf] at h; cases h
  | ok ss =>
    rw [hf] at h
    cases h
    rw [firstOrAll_ok] at hf
    refine (Neutral.flatten ?_).nested
    intro s hm
    have : Except.ok s ∈ (maths d).map (latexIn false) := by
      rw [hf]; exact List.mem_map_of_mem hm
    obtain ⟨n, hn, e⟩ := List.mem_map.1 this
    have he : n.isElem = true := by
      have := maths_isMath n hn
      cases n <;> first | rfl | cases this
    exact Renders.neutral ((renders_iff he false s).2 e) (hs n hn)

/-- **C13** at the API. -/
theorem C13_convert (env : Env) (x : Str) (d : Doc) (hp : env.parse (prep x) = .ok d)
    (hs : ∀ n ∈ maths d, Safe n) (s : Str) (h : convert env x = .ok s) : Nested s := by
  rw [C05_accepted_never_repaired env x d hp] at h
  exact C13_document d hs s h

instance (s : Str) : Decidable (Nested s) :=
  match h : scan ([], .normal) s with
  | some ([], m) =>
    if hm : m.complete = true then .isTrue ⟨m, h, hm⟩
    else .isFalse (by rintro ⟨m', h', hm'⟩; rw [h] at h'; cases h'; exact hm hm')
  | some (_ :: _, _) => .isFalse (by rintro ⟨m', h', _⟩; rw [h] at h'; cases h')
  | none => .isFalse (by rintro ⟨m', h', _⟩; rw [h] at h'; cases h')

/-- A safe document with a fence, a matrix inside a fence, accents and special characters. -/
def safeMath : Node := .elem c!"math" []
  [.elem c!"mfenced" [(c!"open", c!"["), (c!"separators", c!";")]
    [.elem c!"mi" [] [.text c!"α"], .elem c!"mtext" [] [.text c!"a % é"],
     .elem c!"mo" [] [.text c!" % "]],
   .elem c!"mfenced" [(c!"open", c!"{"), (c!"close", c!"}")]
    [.elem c!"mtable" [] [.elem c!"mtr" [] [.elem c!"mtd" [] [.elem c!"msup" []
      [.elem c!"mi" [] [.text c!"x"], .elem c!"mn" [] [.text c!"2"]]]]]],
   .elem c!"menclose" [(c!"notation", c!"actuarial")] [.elem c!"mi" [] [.text c!"y"]]]

theorem safeMath_safe : Safe safeMath := by
  have d1 : SafeDelim c!"[" := ⟨'[', [], rfl, by decide, by decide, by decide, by simp⟩
  have t1 : HasTable [.elem c!"mtable" [] [.elem c!"mtr" [] [.elem c!"mtd" [] [.elem c!"msup" []
      [.elem c!"mi" [] [.text c!"x"], .elem c!"mn" [] [.text c!"2"]]]]]] :=
    ⟨_, by simp [elements, elementsOf]; left; rfl, rfl⟩
  intro x hx
  simp only [safeMath, elementsOf, elements, List.mem_cons, List.append_nil, List.cons_append,
    List.nil_append, List.not_mem_nil, or_false] at hx
  rcases hx with rfl | rfl | rfl | rfl | rfl | rfl | rfl | rfl | rfl | rfl | rfl | rfl | rfl | rfl
  · refine ⟨?_, ?_, ?_, ?_, ?_⟩ <;> first | decide | exact fun h => absurd h (by decide)
  · refine ⟨by decide, by decide, by decide, fun _ => ?_, by decide⟩
    refine .inr ⟨.inr d1, .inl (by decide), by decide, ?_⟩
    rintro ⟨n, hn, ht⟩
    simp only [elementsOf, elements, List.mem_cons, List.append_nil, List.cons_append,
      List.nil_append, List.not_mem_nil, or_false] at hn
    rcases hn with rfl | rfl | rfl <;> exact absurd ht (by decide)
  · refine ⟨?_, ?_, ?_, ?_, ?_⟩ <;> first | decide | exact fun h => absurd h (by decide)
  · refine ⟨?_, ?_, ?_, ?_, ?_⟩ <;> first | decide | exact fun h => absurd h (by decide)
  · refine ⟨fun _ => .inr ⟨'%', by decide, by decide⟩, ?_, ?_, ?_, ?_⟩ <;> first | decide | exact fun h => absurd h (by decide)
  · exact ⟨by decide, by decide, by decide, fun _ => .inl ⟨t1, by decide, by decide⟩, by decide⟩
  all_goals (refine ⟨?_, ?_, ?_, ?_, ?_⟩ <;> first | decide | exact fun h => absurd h (by decide))

/-- The theorem applies to it. -/
example : ∃ s, latexIn false safeMath = .ok s ∧ Nested s :=
  ⟨c!"\\left[\\alpha;\\text{a }\\%\\text{ }\\acute{e};\\%\\right) \\begin{Bmatrix} x^{2} \\end{Bmatrix} \\overline{\\left.y\\right|}",
    by decide +kernel, C13_element false safeMath safeMath_safe _ (by decide +kernel)⟩

/-- **C13** The conditions are needed: braces as operators or as delimiters of a fence, one-sided
enclosures, and matrices with one delimiter break the nesting. -/
theorem C13_conditions_needed :
    (∃ s, latexIn false (.elem c!"mo" [] [.text c!"{"]) = .ok s ∧ ¬ Nested s) ∧
    (∃ s, latexIn false (.elem c!"mi" [] [.text c!"{"]) = .ok s ∧ ¬ Nested s) ∧
    (∃ s, latexIn false (.elem c!"mi" [] [.text c!"a%"]) = .ok s ∧ ¬ Nested s) ∧
    (∃ s, latexIn false (.elem c!"mfenced" [(c!"open", c!"{"), (c!"close", c!"}")]
      [.elem c!"mi" [] [.text c!"x"]]) = .ok s ∧ ¬ Nested s) ∧
    (∃ s, latexIn false (.elem c!"menclose" [(c!"notation", c!"left")]
      [.elem c!"mi" [] [.text c!"x"]]) = .ok s ∧ ¬ Nested s) ∧
    (∃ s, latexIn false (.elem c!"mfenced" [(c!"open", c!"(")]
      [.elem c!"mtable" [] [.elem c!"mtr" [] [.elem c!"mi" [] [.text c!"x"]]]]) = .ok s ∧
      ¬ Nested s) := by
  refine ⟨⟨c!"\\left{\\right.", ?_, ?_⟩, ⟨c!"{", ?_, ?_⟩, ⟨c!"a%", ?_, ?_⟩,
    ⟨c!"\\left{x\\right}", ?_, ?_⟩, ⟨c!"\\left|x", ?_, ?_⟩,
    ⟨c!"\\left(\\begin{matrix}\nx\n\\end{matrix}\\right", ?_, ?_⟩⟩ <;> decide +kernel

end Verif
