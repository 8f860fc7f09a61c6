import Verif.Lemmas.Proper
import Verif.Lemmas.ProperCheck
import Verif.Lemmas.Reads
import Verif.Props.Commands

/-! # Proper documents have a formula in LaTeX (C59) -/

namespace Verif
open Spec

/-! ## Pieces -/

theorem Starts.cons {c : Char} {t : Str} (h1 : isLetter c = false) (h2 : c ≠ '\'') :
    Starts (c :: t) := by
  rintro d u ⟨⟩; exact ⟨h1, h2⟩

theorem starts_braces (s t : Str) : Starts (braces s ++ t) := Starts.cons (by decide) (by decide)
theorem starts_braces' (s : Str) : Starts (braces s) := Starts.cons (by decide) (by decide)

theorem tokens_braces {s : Str} (h : lexed s ≠ .bs) :
    tokens (braces s) = .char '{' :: (tokens s ++ [.char '}']) ∧ lexed (braces s) = .plain := by
  have e : braces s = c!"{" ++ (s ++ c!"}") := by simp [Spec.braces]
  have hs : Starts c!"}" := .cons (by decide) (by decide)
  rw [e, tokens_append_plain (by decide), tokens_append h hs, lexed_append_plain (by decide),
    lexed_starts h hs (by simp)]
  exact ⟨rfl, by decide⟩

theorem Spec.Latex.braced {q : Room} {s : Str} (h : Latex (.run fresh q) (tokens s)) :
    Latex .group (tokens (Spec.braces s)) ∧ Verif.lexed (Spec.braces s) = .plain := by
  rw [(tokens_braces h.lexed).1]
  exact ⟨.group h, (tokens_braces h.lexed).2⟩

theorem Spec.Latex.braced₂ {q q' : Room} {s t : Str} (h : Latex (.run fresh q) (tokens s))
    (h' : Latex (.run fresh q') (tokens t)) :
    Latex (.groups 2) (tokens (Spec.braces s ++ Spec.braces t)) := by
  rw [tokens_append_plain h.braced.2]
  exact .two h.braced.1 h'.braced.1

/-- A command before its arguments. -/
theorem Spec.Latex.cmd {p w t : Str} {n : Nat} (hp : tokens p = [.word w]) (hl : Verif.lexed p ≠ .bs)
    (hw : (w, n) ∈ commands) (ht : Starts t) (h : Latex (.groups n) (tokens t)) :
    Latex .nucleus (tokens (p ++ t)) := by
  rw [tokens_append hl ht, hp]
  exact .command hw h

/-- The fence that is put around a base. -/
theorem tokens_parens {s : Str} (h : lexed s ≠ .bs) :
    tokens (parens s) = .word c!"left" :: .char '(' :: (tokens s ++ [.word c!"right", .char ')']) ∧
    lexed (parens s) = .plain := by
  have e : parens s = c!"\\left(" ++ (s ++ c!"\\right)") := by simp [Spec.parens]
  have hs : Starts c!"\\right)" := .cons (by decide) (by decide)
  rw [e, tokens_append_plain (by decide), tokens_append h hs, lexed_append_plain (by decide),
    lexed_starts h hs (by simp)]
  exact ⟨rfl, by decide⟩

theorem Spec.Latex.paren {q : Room} {s : Str} (h : Latex (.run fresh q) (tokens s)) :
    Latex .nucleus (tokens (Spec.parens s)) := by
  rw [(tokens_parens h.lexed).1]
  exact .fence (by decide) (by decide) h

/-- A superscript. -/
theorem Spec.Latex.raise {q q2 : Room} {c : Bool} {x e : Str}
    (hx : Latex (.run q ⟨true, c⟩) (tokens x)) (he : Latex (.run fresh q2) (tokens e)) :
    Latex (.run q ⟨false, c⟩) (tokens (x ++ c!"^" ++ Spec.braces e)) := by
  rw [List.append_assoc, tokens_append hx.lexed (t := c!"^" ++ Spec.braces e)
      (Starts.cons (by decide) (by decide)), tokens_append_plain (s := c!"^") (by decide)]
  refine hx.run_append ?_
  have := Latex.sup (b := c) he.braced.1 .nil
  rwa [List.append_nil] at this

/-- A subscript. -/
theorem Spec.Latex.lower {q q2 : Room} {c : Bool} {x e : Str}
    (hx : Latex (.run q ⟨c, true⟩) (tokens x)) (he : Latex (.run fresh q2) (tokens e)) :
    Latex (.run q ⟨c, false⟩) (tokens (x ++ c!"_" ++ Spec.braces e)) := by
  rw [List.append_assoc, tokens_append hx.lexed (t := c!"_" ++ Spec.braces e)
      (Starts.cons (by decide) (by decide)), tokens_append_plain (s := c!"_") (by decide)]
  refine hx.run_append ?_
  have := Latex.sub (b := c) he.braced.1 .nil
  rwa [List.append_nil] at this

theorem Spec.Latex.long {b : Bool} {n : Node} {q q0 q1 q' : Room} {s : Str}
    (h : Latex (.run q0 q1) (tokens s)) (hr : Renders b n s)
    (ha : Around (Short b n) (Long b n) q q0 q1 q') :
    Latex (.run q q') (tokens (parensIfLong s)) := by
  rcases ha with ⟨h1, rfl, rfl⟩ | ⟨h1, rfl, rfl⟩
  · rw [parensIfLong, if_neg (by have := h1 s hr; omega)]; exact h
  · rw [parensIfLong, if_pos (h1 s hr)]; exact h.paren.nuc q

theorem Spec.Latex.base {b : Bool} {n : Node} {q q0 q1 q' : Room} {s : Str}
    (h : Latex (.run q0 q1) (tokens s)) (hr : Renders b n s) (ha : AroundBase b n q q0 q1 q') :
    Latex (.run q q') (tokens (scriptBase n s)) := by
  unfold scriptBase
  rcases ha with ⟨h1, rfl, rfl⟩ | ⟨⟨h1, h2⟩, rfl, rfl⟩
  · split
    · rcases h1 with h1 | h1
      · omega
      · exact h.long hr (.inl ⟨h1, rfl, rfl⟩)
    · exact h
  · rw [if_pos h1]; exact h.long hr (.inr ⟨h2, rfl, rfl⟩)

/-! ## Sequences -/

theorem Spec.Latex.chain {b : Bool} {sep : Str} (h1 : Starts sep) (h2 : Verif.lexed sep = .plain)
    (hne : sep ≠ []) (ks : List Node) : ∀ {src rooms : Nat → Room},
    (∀ i, Latex (.run (rooms (i + 1)) (src (i + 1))) (tokens sep)) →
    (∀ i (h : i < ks.length), ∃ s, Renders b ks[i] s ∧
      Latex (.run (src i) (rooms (i + 1))) (tokens s)) →
    src 0 = rooms 0 →
    ∃ ss, ks.length = ss.length ∧ (∀ p ∈ ks.zip ss, Renders b p.1 p.2) ∧
      Latex (.run (rooms 0) (rooms ks.length)) (tokens (join sep ss)) := by
  have key : ∀ (ks : List Node) (k : Node) {src rooms : Nat → Room},
      (∀ i, Latex (.run (rooms (i + 1)) (src (i + 1))) (tokens sep)) →
      (∀ i (h : i < (k :: ks).length), ∃ s, Renders b (k :: ks)[i] s ∧
        Latex (.run (src i) (rooms (i + 1))) (tokens s)) →
      ∃ ss, (k :: ks).length = ss.length ∧ (∀ p ∈ (k :: ks).zip ss, Renders b p.1 p.2) ∧
        Latex (.run (src 0) (rooms (k :: ks).length)) (tokens (join sep ss)) := by
    intro ks
    induction ks with
    | nil =>
      intro k src rooms _ h
      obtain ⟨s, hr, hs⟩ := h 0 (by simp)
      refine ⟨[s], rfl, ?_, hs⟩
      simpa using hr
    | cons k2 ks ih =>
      intro k src rooms hsep h
      obtain ⟨s, hr, hs⟩ := h 0 (by simp)
      obtain ⟨ss, e1, e2, e3⟩ := ih k2 (src := fun i => src (i + 1))
        (rooms := fun i => rooms (i + 1)) (fun i => hsep (i + 1))
        (fun i hi => h (i + 1) (by simpa using hi))
      cases ss with
      | nil => simp at e1
      | cons t ss =>
        refine ⟨s :: t :: ss, by simp only [List.length_cons] at *; omega, ?_, ?_⟩
        · simp only [List.zip_cons_cons, List.mem_cons]
          rintro p (rfl | hp)
          · exact hr
          · exact e2 p (by simpa using hp)
        · have e : join sep (s :: t :: ss) = s ++ (sep ++ join sep (t :: ss)) := by
            simp [Verif.join]
          rw [e, tokens_append hs.lexed ?_, tokens_append_plain h2]
          · exact hs.run_append ((hsep 0).run_append e3)
          · cases sep with
            | nil => exact absurd rfl hne
            | cons c u => exact .cons (h1 c u rfl).1 (h1 c u rfl).2
  intro src rooms hsep h h0
  cases ks with
  | nil => exact ⟨[], rfl, by simp, .nil⟩
  | cons k ks =>
    rw [← h0]
    exact key ks k hsep h

theorem Spec.Latex.row {b : Bool} {ks : List Node} {rooms : Nat → Room}
    (h : ∀ i (h : i < ks.length), ∃ s, Renders b ks[i] s ∧
      Latex (.run (rooms i) (rooms (i + 1))) (tokens s)) :
    ∃ ss, ks.length = ss.length ∧ (∀ p ∈ ks.zip ss, Renders b p.1 p.2) ∧
      Latex (.run (rooms 0) (rooms ks.length)) (tokens (join c!" " ss)) :=
  Latex.chain (.cons (by decide) (by decide)) (by decide) (by simp) ks (src := rooms)
    (fun _ => .nil) h rfl

/-- Independent elements. -/
theorem all_rendered {b : Bool} {f : Node → Room} (ks : List Node)
    (h : ∀ k ∈ ks, ∃ s, Renders b k s ∧ Latex (.run fresh (f k)) (tokens s)) :
    ∃ ss, ks.length = ss.length ∧ (∀ p ∈ ks.zip ss, Renders b p.1 p.2) ∧
      ∀ s ∈ ss, ∃ q, Latex (.run fresh q) (tokens s) := by
  induction ks with
  | nil => exact ⟨[], rfl, by simp, by simp⟩
  | cons k ks ih =>
    obtain ⟨s, hr, hs⟩ := h k List.mem_cons_self
    obtain ⟨ss, e1, e2, e3⟩ := ih fun k hk => h k (List.mem_cons_of_mem _ hk)
    refine ⟨s :: ss, by simp [e1], ?_, ?_⟩
    · simp only [List.zip_cons_cons, List.mem_cons]
      rintro p (rfl | hp)
      · exact hr
      · exact e2 p hp
    · simp only [List.mem_cons]
      rintro t (rfl | ht)
      · exact ⟨_, hs⟩
      · exact e3 t ht

/-! ## Texts -/

/-- No value begins with a prime. -/
def noPrime (d : Dict Str) : Bool := d.all fun p => p.2.head? != some '\''

set_option maxRecDepth 100000 in
theorem noPrime_mi : (noPrime allMathSymbolsByChar && noPrime allMathSymbolsByGlyph &&
    noPrime mathNumberByGlyph) = true := by decide +kernel

theorem Spec.Tabulated.noPrime {ts : List (Dict Str)} (hts : ∀ t ∈ ts, noPrime t = true)
    {k v : Str} (h : Tabulated ts k v) : v.head? ≠ some '\'' := by
  induction h with
  | here hm _ =>
    have hv := hts _ List.mem_cons_self
    unfold Verif.noPrime at hv
    have := forall_of_all hv _ _ hm
    simpa using this
  | skip _ _ ih => exact ih fun t ht => hts t (List.mem_cons_of_mem _ ht)

theorem Spec.MiSymbol.noPrime {k s : Str} (h : MiSymbol k s) (hk : k.head? ≠ some '\'') :
    s.head? ≠ some '\'' := by
  rcases h with h | ⟨_, h⟩
  · have hn := noPrime_mi
    simp only [Bool.and_eq_true] at hn
    refine h.noPrime ?_
    intro t ht
    simp only [List.mem_cons, List.not_mem_nil, or_false] at ht
    rcases ht with rfl | rfl | rfl
    · exact hn.1.1
    · exact hn.1.2
    · exact hn.2
  · cases h with
    | alnum _ => exact hk
    | plain _ _ _ => exact hk
    | accent _ _ _ => simp
    | font _ _ _ => simp

theorem normalize_one (c : Char) : normalize [c] = if isSpace c = true then [] else [c] := by
  split
  · rename_i h; unfold Verif.normalize; rw [split_cons_space _ h]; rfl
  · rename_i h; unfold Verif.normalize; rw [split_word [c] (by simp) (by simpa using h)]; rfl

theorem Spec.MText.starts {cmds : List Str} (hc : knownCommands cmds = true) (hne : cmds ≠ [])
    (hb : ∀ c ∈ cmds, c.head? = some '\\') {x s : Str} (h : MText cmds x s)
    (hx : ∀ c ∈ x, c ∉ disguised ∧ c ≠ '\'') : Starts s := by
  have h1 := (h.ok hc hne fun c hc => (hx c hc).1).2
  have h2 : s.head? ≠ some '\'' := by
    clear h1
    induction h with
    | nil => simp
    | run _ _ _ _ _ =>
      cases cmds with
      | nil => exact absurd rfl hne
      | cons c cs =>
        have := hb c List.mem_cons_self
        cases c with
        | nil => cases this
        | cons d c =>
          simp only [List.head?_cons, Option.some.injEq] at this
          subst this
          simp [applyAll]
    | @other c rest s out hnt hs _ ih =>
      have ih := ih fun c hc => hx c (List.mem_cons_of_mem _ hc)
      have hp := hs.noPrime (by
        rw [normalize_one]; split
        · simp
        · simpa using (hx c (by simp)).2)
      cases s with
      | nil => exact ih
      | cons d s => simpa using hp
  intro c u e
  subst e
  exact ⟨h1 c u rfl, by simpa using h2⟩

theorem Spec.IsTextChar.ordinary {c : Char} (h : IsTextChar c) : ordinary c = true := by
  have h1 : ∀ d ∈ c!"\\{}$%#&^_~'", ¬ IsTextChar d := by decide
  have h2 : 32 ≤ c.toNat ∧ c.toNat ≠ 127 := by
    rcases h with h | h | h | rfl
    · have a : ('0' : Char).toNat ≤ c.toNat := h.1
      have b : c.toNat ≤ ('9' : Char).toNat := h.2
      simp at a b; omega
    · have a : ('A' : Char).toNat ≤ c.toNat := h.1
      have b : c.toNat ≤ ('Z' : Char).toNat := h.2
      simp at a b; omega
    · have a : ('a' : Char).toNat ≤ c.toNat := h.1
      have b : c.toNat ≤ ('z' : Char).toNat := h.2
      simp at a b; omega
    · decide
  have h3 : (c!"\\{}$%#&^_~'").contains c = false := by
    rw [Bool.eq_false_iff, Ne, List.contains_iff_mem]
    exact fun hm => h1 c hm h
  unfold Spec.ordinary
  rw [h3, decide_eq_true h2.1, decide_eq_true h2.2]; rfl

/-- Ordinary characters as text. -/
theorem Spec.Latex.textChars {k : Str} (h : ∀ c ∈ k, Spec.ordinary c = true) :
    Latex .text (tokens k) := by
  induction k with
  | nil => exact .textEnd
  | cons c k ih =>
    have hc := h c List.mem_cons_self
    have h1 : c ≠ '\\' := by rintro rfl; revert hc; decide
    have h2 : c ≠ '\'' := by rintro rfl; revert hc; decide
    have ih := ih fun d hd => h d (List.mem_cons_of_mem _ hd)
    by_cases hs : isSpace c = true
    · have e : tokens (c :: k) = tokens k := by
        simp [tokens, tokensFrom, lexStep, lexStart, h1, hs]
      rw [e]; exact ih
    · have e : tokens (c :: k) = .char c :: tokens k := by
        simp [tokens, tokensFrom, lexStep, lexStart, h1, h2, hs]
      rw [e]; exact .textChar hc ih

/-- The commands around texts. -/
def textFonts : List (List Str) :=
  [[c!"\\text"], [c!"\\textbf"], [c!"\\textit"], [c!"\\textbf", c!"\\textit"], [c!"\\mathbb"],
   [c!"\\mathtt"], [c!"\\mathfrak"]]

theorem fonts_text (v : Str) : fonts textVariants [c!"\\text"] v ∈ textFonts := by
  unfold fonts
  split
  · rename_i p hp
    have : ∀ p ∈ textVariants, p.2 ∈ textFonts := by decide
    exact this p (List.mem_of_find?_eq_some hp)
  · decide

theorem Spec.Latex.wrapped {cmds : List Str} (hc : cmds ∈ textFonts) {w : Str}
    (hw : ∀ c ∈ w, IsTextChar c) :
    Latex .nucleus (tokens (applyAll cmds w)) ∧ Verif.lexed (applyAll cmds w) = .plain := by
  have ho : ∀ c ∈ w, Spec.ordinary c = true := fun c hc => (hw c hc).ordinary
  have ht := Latex.textChars ho
  have hr := Latex.chars_fresh ho
  have hs : Starts c!"}" := .cons (by decide) (by decide)
  have key : ∀ {p : Str} (u : Str), Verif.lexed p = .plain → Verif.lexed u ≠ .bs →
      tokens (p ++ u ++ c!"}") = tokens p ++ (tokens u ++ [.char '}']) ∧
      Verif.lexed (p ++ u ++ c!"}") = .plain := by
    intro p u hp hu
    rw [List.append_assoc, tokens_append_plain hp, tokens_append hu hs, lexed_append_plain hp,
      lexed_starts hu hs (by simp)]
    exact ⟨rfl, by decide⟩
  simp only [textFonts, List.mem_cons, List.not_mem_nil, or_false] at hc
  rcases hc with rfl | rfl | rfl | rfl | rfl | rfl | rfl
  · obtain ⟨e1, e2⟩ := key (p := c!"\\text" ++ c!"{") w (by decide) ht.lexed
    exact ⟨by rw [applyAll, applyAll, e1]; exact .text (w := c!"text") (by decide) ht, e2⟩
  · obtain ⟨e1, e2⟩ := key (p := c!"\\textbf" ++ c!"{") w (by decide) ht.lexed
    exact ⟨by rw [applyAll, applyAll, e1]; exact .text (w := c!"textbf") (by decide) ht, e2⟩
  · obtain ⟨e1, e2⟩ := key (p := c!"\\textit" ++ c!"{") w (by decide) ht.lexed
    exact ⟨by rw [applyAll, applyAll, e1]; exact .text (w := c!"textit") (by decide) ht, e2⟩
  · obtain ⟨e1, e2⟩ := key (p := c!"\\textit" ++ c!"{") w (by decide) ht.lexed
    obtain ⟨e3, e4⟩ := key (p := c!"\\textbf" ++ c!"{") _ (by decide)
      (by rw [e2]; decide : Verif.lexed (c!"\\textit" ++ c!"{" ++ w ++ c!"}") ≠ .bs)
    refine ⟨?_, e4⟩
    rw [applyAll, applyAll, applyAll, e3, e1]
    have : Latex .text (.word c!"textit" :: .char '{' :: (tokens w ++ .char '}' :: [])) :=
      .nested (by decide) ht .textEnd
    exact .text (w := c!"textbf") (by decide) this
  · obtain ⟨e1, e2⟩ := key (p := c!"\\mathbb" ++ c!"{") w (by decide) ht.lexed
    exact ⟨by rw [applyAll, applyAll, e1]; exact .command (w := c!"mathbb") (n := 1) (by decide) (Latex.group hr).one, e2⟩
  · obtain ⟨e1, e2⟩ := key (p := c!"\\mathtt" ++ c!"{") w (by decide) ht.lexed
    exact ⟨by rw [applyAll, applyAll, e1]; exact .command (w := c!"mathtt") (n := 1) (by decide) (Latex.group hr).one, e2⟩
  · obtain ⟨e1, e2⟩ := key (p := c!"\\mathfrak" ++ c!"{") w (by decide) ht.lexed
    exact ⟨by rw [applyAll, applyAll, e1]; exact .command (w := c!"mathfrak") (n := 1) (by decide) (Latex.group hr).one, e2⟩

theorem Spec.Letters.run {q q' : Room} {w rest : Str} (hne : w ≠ []) (hw : ∀ c ∈ w, IsTextChar c)
    (h : Letters q (w ++ rest) q') : Letters fresh rest q' := by
  induction w generalizing q with
  | nil => exact absurd rfl hne
  | cons c w ih =>
    rw [List.cons_append] at h
    cases h with
    | text _ h =>
      cases w with
      | nil => exact h
      | cons d w => exact ih (by simp) (fun e he => hw e (List.mem_cons_of_mem _ he)) h
    | other hn _ _ _ _ _ => exact absurd (hw c List.mem_cons_self) hn

theorem Spec.Letters.chars {q q' : Room} {s : Str} (h : Letters q s q') :
    ∀ c ∈ s, c ∉ disguised ∧ c ≠ '\'' := by
  induction h with
  | nil => simp
  | text hc _ ih =>
    simp only [List.mem_cons]
    rintro c (rfl | h)
    · have : ∀ d ∈ '\'' :: disguised, ¬ IsTextChar d := by decide
      exact ⟨fun hm => this _ (List.mem_cons_of_mem _ hm) hc,
        fun e => this '\'' (by simp) (e ▸ hc)⟩
    · exact ih c h
  | other _ h1 h2 _ _ _ ih =>
    simp only [List.mem_cons]
    rintro c (rfl | h)
    · exact ⟨h1, h2⟩
    · exact ih c h

theorem Spec.MText.latex {cmds : List Str} (hc : cmds ∈ textFonts) {x s : Str}
    (h : MText cmds x s) {q q' : Room} (hl : Letters q x q') : Latex (.run q q') (tokens s) := by
  have hk : ∀ cmds ∈ textFonts, knownCommands cmds = true ∧ cmds ≠ [] ∧
      ∀ c ∈ cmds, c.head? = some '\\' := by decide +kernel
  obtain ⟨k1, k2, k3⟩ := hk cmds hc
  induction h generalizing q with
  | nil => cases hl; exact .nil
  | @run w rest out hne hw _ _ ih =>
    have := Latex.wrapped hc hw
    rw [tokens_append_plain this.2]
    exact (this.1.nuc q).run_append (ih (hl.run hne hw))
  | @other c rest s out hnt hs hm ih =>
    have hch := hl.chars
    cases hl with
    | text ht _ => exact absurd ht hnt
    | other _ h1 h2 h3 h4 h5 =>
      have := h3.mi (by
        intro d t e
        rw [normalize_one] at e
        split at e
        · cases e
        · rename_i hsp; cases e; simpa using hsp) hs h4
      rw [tokens_append this.lexed
        (hm.starts k1 k2 k3 fun c hc => hch c (List.mem_cons_of_mem _ hc))]
      exact this.run_append (ih h5)

/-! ## Fonts of identifiers -/

/-- Commands with one argument, by name. -/
def mathFont (c : Str) : Bool :=
  commands.any fun p => p.2 == 1 && c == c!"\\" ++ p.1 && tokens c == [.word p.1] &&
    lexed c != .bs

theorem mathFonts : ∀ p ∈ miVariants, p.2.all mathFont = true := by decide +kernel

theorem Spec.Latex.fonted {cmds : List Str} (hc : cmds.all mathFont = true) {q : Room} {s : Str}
    (hs : Latex (.run fresh q) (tokens s)) (hne : cmds ≠ []) :
    Latex .nucleus (tokens (applyAll cmds s)) := by
  induction cmds with
  | nil => exact absurd rfl hne
  | cons c cs ih =>
    rw [List.all_cons, Bool.and_eq_true] at hc
    have hc1 := hc.1
    simp only [mathFont, List.any_eq_true, Bool.and_eq_true, beq_iff_eq, bne_iff_ne] at hc1
    obtain ⟨⟨w, n⟩, hm, ⟨⟨rfl, -⟩, e2⟩, e3⟩ := hc1
    have hin : ∃ q, Latex (.run fresh q) (tokens (applyAll cs s)) := by
      cases cs with
      | nil => exact ⟨_, hs⟩
      | cons d ds => exact ⟨_, (ih hc.2 (by simp)).nuc fresh⟩
    obtain ⟨q1, hin⟩ := hin
    have e : applyAll (c :: cs) s = c ++ Spec.braces (applyAll cs s) := by
      simp [applyAll, Spec.braces]
    rw [e]
    exact Latex.cmd e2 e3 hm (starts_braces' _) hin.braced.1.one

theorem miFonts (v : Str) : (fonts miVariants [] v).all mathFont = true := by
  unfold fonts
  split
  · rename_i p hp; exact mathFonts p (List.mem_of_find?_eq_some hp)
  · rfl

/-! ## Constructs with literal texts around them -/

/-- A text between two literal texts. -/
theorem tokens_between {l s r : Str} (hl : lexed l = .plain) (hs : lexed s ≠ .bs) (hr : Starts r) :
    tokens (l ++ s ++ r) = tokens l ++ (tokens s ++ tokens r) := by
  rw [List.append_assoc, tokens_append_plain hl, tokens_append hs hr]

/-- The parts of the enclosures that are formulas. -/
def goodEnclosures : List (Str × Str) :=
  [(c!"\\overline{\\left.", c!"\\right|}"), (c!"\\sqrt{", c!"}"), (c!"\\boxed{", c!"}"),
   (c!"\\overline{", c!"}"), (c!"\\underline{", c!"}"), (c!"\\cancel{", c!"}"),
   (c!"\\bcancel{", c!"}"), (c!"\\cancelto{}{", c!"}"), (c!"{\\angle \\underline{", c!"}}"),
   (c!"\\overline{\\left.\\right)", c!"}")]

theorem enclosure_good {k : Str} (h : k ∉ roughNotations) : enclosure k ∈ goodEnclosures := by
  unfold enclosure
  split
  · rename_i p hp
    have key : ∀ p ∈ enclosures, p.1 ∉ roughNotations → p.2 ∈ goodEnclosures := by decide +kernel
    have e : p.1 = k := by simpa using List.find?_some hp
    exact key p (List.mem_of_find?_eq_some hp) (e ▸ h)
  · decide +kernel

theorem Spec.Latex.enclosed {p : Str × Str} (hp : p ∈ goodEnclosures) {q : Room} {s : Str}
    (h : Latex (.run fresh q) (tokens s)) : Latex .nucleus (tokens (p.1 ++ s ++ p.2)) := by
  simp only [goodEnclosures, List.mem_cons, List.not_mem_nil, or_false] at hp
  have g := Latex.group h
  have simple : ∀ w, (w, 1) ∈ commands →
      Latex .nucleus ([.word w, .char '{'] ++ (tokens s ++ [.char '}'])) :=
    fun w hw => .command hw g.one
  rcases hp with rfl | rfl | rfl | rfl | rfl | rfl | rfl | rfl | rfl | rfl <;>
    rw [tokens_between (by decide) h.lexed (Starts.cons (by decide) (by decide))]
  · have := Latex.fence (l := .char '.') (r := .char '|') (by decide) (by decide) h
    have := (Latex.group (this.nuc fresh)).one
    have := Latex.command (w := c!"overline") (by decide) this
    have e : tokens c!"\\overline{\\left." =
      [.word c!"overline", .char '{', .word c!"left", .char '.'] := by decide
    have e' : tokens c!"\\right|}" = [.word c!"right", .char '|', .char '}'] := by decide
    rw [e, e']
    simpa using this
  · exact simple c!"sqrt" (by decide)
  · exact simple c!"boxed" (by decide)
  · exact simple c!"overline" (by decide)
  · exact simple c!"underline" (by decide)
  · exact simple c!"cancel" (by decide)
  · exact simple c!"bcancel" (by decide)
  · have := Latex.command (w := c!"cancelto") (by decide) (Latex.two (.group (.nil (q := fresh))) g)
    exact this
  · have := Latex.command (w := c!"underline") (by decide) g.one
    have := Latex.atom (q := fresh) (.word (w := c!"angle") (by decide)) (this.nuc fresh)
    have := Latex.braces (.group this)
    have e : tokens c!"{\\angle \\underline{" =
      [.char '{', .word c!"angle", .word c!"underline", .char '{'] := by decide
    have e' : tokens c!"}}" = [.char '}', .char '}'] := by decide
    rw [e, e']
    simpa using this
  · have := Latex.fence (l := .char '.') (r := .char ')') (by decide) (by decide) (.nil (q := fresh))
    have := Latex.command (w := c!"overline") (by decide)
      (Latex.group (Latex.atom (q := fresh) this h)).one
    have e : tokens c!"\\overline{\\left.\\right)" =
      [.word c!"overline", .char '{', .word c!"left", .char '.', .word c!"right", .char ')'] := by
      decide
    have e' : tokens c!"}" = [.char '}'] := by decide
    rw [e, e']
    simpa using this

/-! ## Fences -/

theorem delimiters_tokens : ∀ d ∈ delimiters, delimiter (delimTok d) = true ∧
    tokens (c!"\\left" ++ d) = [.word c!"left", delimTok d] ∧ lexed (c!"\\left" ++ d) = .plain ∧
    tokens (c!"\\right" ++ d) = [.word c!"right", delimTok d] := by decide +kernel

theorem Spec.Latex.fenced {op close body : Str} {q : Room} (h1 : op ∈ delimiters)
    (h2 : close ∈ delimiters) (h : Latex (.run fresh q) (tokens body)) :
    Latex .nucleus (tokens (c!"\\left" ++ op ++ body ++ c!"\\right" ++ close)) := by
  obtain ⟨a1, a2, a3, -⟩ := delimiters_tokens op h1
  obtain ⟨b1, -, -, b2⟩ := delimiters_tokens close h2
  rw [List.append_assoc (_ ++ body), tokens_between a3 h.lexed (r := c!"\\right" ++ close)
    (Starts.cons (by decide) (by decide)), a2, b2]
  exact .fence a1 b1 h

/-- A separator. -/
theorem tokens_sep {c : Char} (h1 : ordinary c = true) (h2 : isSpace c = false) :
    tokens [c] = [.char c] ∧ lexed [c] = .plain ∧ c ≠ '\'' := by
  have e1 : c ≠ '\\' := by rintro rfl; revert h1; decide
  have e2 : c ≠ '\'' := by rintro rfl; revert h1; decide
  simp [tokens, tokensFrom, lexed, lexAll, lexStep, lexStart, lexEnd, e1, e2, h2]

theorem Spec.Latex.interleaved {sep : Nat → Str} (hsep : ∀ i, ∃ c, sep i = [c] ∧
    ordinary c = true ∧ isLetter c = false ∧ isSpace c = false) : ∀ {ss : List Str},
    (∀ s ∈ ss, ∃ q, Latex (.run fresh q) (tokens s)) →
    ∃ q, Latex (.run fresh q) (tokens (interleave sep ss))
  | [], _ => ⟨fresh, .nil⟩
  | [s], h => h s (by simp)
  | s :: t :: ss, h => by
    obtain ⟨q1, h1⟩ := h s (by simp)
    obtain ⟨q2, h2⟩ := Latex.interleaved (fun i => hsep (i + 1)) (ss := t :: ss)
      fun u hu => h u (List.mem_cons_of_mem _ hu)
    obtain ⟨c, e, e1, e2, e3⟩ := hsep 0
    obtain ⟨f1, f2, f3⟩ := tokens_sep e1 e3
    refine ⟨q2, ?_⟩
    rw [interleave, e, List.append_assoc, tokens_append h1.lexed
      (t := [c] ++ interleave (fun i => sep (i + 1)) (t :: ss)) (Starts.cons e2 f3),
      tokens_append_plain f2, f1]
    exact h1.run_append (.atom (.char e1) h2)

theorem separator_char {seps : Str}
    (h : ∀ c ∈ seps, ordinary c = true ∧ isLetter c = false ∧ isSpace c = false) (i : Nat) :
    ∃ c, separator seps i = [c] ∧ ordinary c = true ∧ isLetter c = false ∧ isSpace c = false := by
  unfold Spec.separator
  split
  · exact ⟨_, rfl, h _ (List.getElem_mem _)⟩
  · split
    · rename_i c t e
      refine ⟨c, rfl, h c ?_⟩
      rw [← List.mem_reverse, e]; simp
    · exact ⟨',', rfl, by decide⟩

/-! ## Tables -/

theorem lineOption_false_of_append {f g : List Tok} (hf : ∀ t u, f = t :: u → lineOption t = false)
    (hg : ∀ t u, g = t :: u → lineOption t = false) :
    ∀ t u, f ++ g = t :: u → lineOption t = false := by
  cases f with
  | nil => exact hg
  | cons c f => rintro t u ⟨⟩; exact hf _ _ rfl

/-- A row, and possibly more rows. -/
theorem Spec.Latex.cells {g : List Tok} (hg : ∀ {q f}, Latex (.run fresh q) f → Latex .body (f ++ g)) :
    ∀ {ss : List Str}, (∀ s ∈ ss, ∃ q, Latex (.run fresh q) (tokens s)) →
    Latex .body (tokens (join c!" & " ss) ++ g) ∧ Verif.lexed (join c!" & " ss) ≠ .bs
  | [], _ => ⟨hg (q := fresh) .nil, by decide⟩
  | [s], h => by
    obtain ⟨q, h⟩ := h s (by simp)
    exact ⟨hg h, h.lexed⟩
  | s :: t :: ss, h => by
    obtain ⟨q, h1⟩ := h s (by simp)
    obtain ⟨h2, h3⟩ := Latex.cells hg (ss := t :: ss) fun u hu => h u (List.mem_cons_of_mem _ hu)
    have e : join c!" & " (s :: t :: ss) = s ++ (c!" & " ++ join c!" & " (t :: ss)) := by
      simp [Verif.join]
    have hst : Starts (c!" & " ++ join c!" & " (t :: ss)) := Starts.cons (by decide) (by decide)
    constructor
    · rw [e, tokens_append h1.lexed hst, tokens_append_plain (s := c!" & ") (by decide)]
      have := Latex.column h1 h2
      have e' : tokens c!" & " = [.char '&'] := by decide
      rw [e']
      simpa using this
    · rw [e, lexed_starts h1.lexed hst (by simp), lexed_append_plain (s := c!" & ") (by decide)]
      exact h3

/-- The strings of the cells of a row. -/
def RowOf (s : Str) : Prop :=
  ∃ ss, s = join c!" & " ss ∧ ∀ t ∈ ss, ∃ q, Latex (.run fresh q) (tokens t)

theorem Spec.Latex.rows : ∀ {ss : List Str}, (∀ s ∈ ss, RowOf s) →
    (∀ s ∈ ss.tail, ∀ t u, tokens s = t :: u → lineOption t = false) →
    Latex .body (tokens (join c!" \\\\\n" ss)) ∧ Verif.lexed (join c!" \\\\\n" ss) ≠ .bs
  | [], _, _ => ⟨.cell (q := fresh) .nil, by decide⟩
  | [s], h, _ => by
    obtain ⟨cs, rfl, hc⟩ := h s (by simp)
    have := Latex.cells (g := []) (fun h => by rw [List.append_nil]; exact .cell h) hc
    rw [List.append_nil] at this
    exact this
  | s :: t :: ss, h, ho => by
    obtain ⟨cs, rfl, hc⟩ := h s (by simp)
    obtain ⟨h2, h3⟩ := Latex.rows (ss := t :: ss) (fun u hu => h u (List.mem_cons_of_mem _ hu))
      (fun u hu => ho u (by
        rw [List.tail_cons]
        exact List.mem_of_mem_tail hu))
    have hd : ∀ x u, tokens (join c!" \\\\\n" (t :: ss)) = x :: u → lineOption x = false := by
      have h0 := ho t (by simp)
      cases ss with
      | nil => exact h0
      | cons t2 ss =>
        obtain ⟨cs2, e2, hc2⟩ := h t (by simp)
        have hl : Verif.lexed t ≠ .bs := by
          have := Latex.cells (g := []) (fun h => by rw [List.append_nil]; exact .cell h) hc2
          rw [e2]; exact this.2
        have e : join c!" \\\\\n" (t :: t2 :: ss) = t ++ (c!" \\\\\n" ++ join c!" \\\\\n" (t2 :: ss)) := by
          simp [Verif.join]
        rw [e, tokens_append hl (t := c!" \\\\\n" ++ join c!" \\\\\n" (t2 :: ss))
          (Starts.cons (by decide) (by decide)), tokens_append_plain (s := c!" \\\\\n") (by decide)]
        refine lineOption_false_of_append h0 ?_
        have e' : tokens c!" \\\\\n" = [.symb '\\'] := by decide
        rw [e']
        rintro x u ⟨⟩; rfl
    have hc' := Latex.cells (g := .symb '\\' :: tokens (join c!" \\\\\n" (t :: ss)))
      (fun h => .line h h2 hd) hc
    have e : join c!" \\\\\n" (join c!" & " cs :: t :: ss) =
        join c!" & " cs ++ (c!" \\\\\n" ++ join c!" \\\\\n" (t :: ss)) := by
      simp [Verif.join]
    have hst : Starts (c!" \\\\\n" ++ join c!" \\\\\n" (t :: ss)) :=
      Starts.cons (by decide) (by decide)
    have e' : tokens c!" \\\\\n" = [.symb '\\'] := by decide
    constructor
    · rw [e, tokens_append hc'.2 hst, tokens_append_plain (s := c!" \\\\\n") (by decide), e']
      exact hc'.1
    · rw [e, lexed_starts hc'.2 hst (by simp), lexed_append_plain (s := c!" \\\\\n") (by decide)]
      exact h3

theorem environment_tokens : ∀ env ∈ matrixNames,
    tokens (c!"\\begin{" ++ env ++ c!"}\n") = .word c!"begin" :: named env ∧
    lexed (c!"\\begin{" ++ env ++ c!"}\n") = .plain ∧
    tokens (c!"\n\\end{" ++ env ++ c!"}") = .word c!"end" :: named env := by decide +kernel

theorem Spec.Latex.environ {env s : Str} (he : env ∈ matrixNames) (h : Latex .body (tokens s)) :
    Latex .nucleus (tokens (environment env [s])) := by
  obtain ⟨a, b, c⟩ := environment_tokens env he
  have e : environment env [s] =
      (c!"\\begin{" ++ env ++ c!"}\n") ++ s ++ (c!"\n\\end{" ++ env ++ c!"}") := by
    simp [environment]
  rw [e, tokens_between b h.lexed (r := c!"\n\\end{" ++ env ++ c!"}")
    (Starts.cons (by decide) (by decide)), a, c]
  have := Latex.matrix he h
  simpa using this

theorem Spec.Latex.matrixed {op close s : Str} (hf : Fits op close) (h : Latex .body (tokens s)) :
    Latex .nucleus (tokens (Spec.matrix op close [s])) := by
  unfold Spec.matrix
  split
  · rename_i p hp
    refine Latex.environ ?_ h
    have : ∀ p ∈ environments, p.2 ∈ matrixNames := by decide
    exact this p (List.mem_of_find?_eq_some hp)
  · rename_i hn
    split
    · exact Latex.environ (by decide) h
    · rename_i hne
      have hd : op ∈ delimiters ∧ close ∈ delimiters := by
        rcases hf with ⟨e, hm⟩ | hf | hf
        · have := List.find?_eq_none.1 hn _ hm
          simp at this
        · exact absurd hf hne
        · exact hf
      exact Latex.fenced hd.1 hd.2 ((Latex.environ (env := c!"matrix") (by decide) h).nuc fresh)

theorem Spec.TableOf.hasTable {t : Node} {rs : List Node} (h : TableOf t rs) :
    ∃ n ∈ elementsOf t, tagIs c!"mtable" n = true := by
  induction h with
  | table _ => exact ⟨_, by rw [elementsOf]; exact List.mem_cons_self, rfl⟩
  | @row tag A cs n rs _ hk _ ih =>
    obtain ⟨x, hx, ht⟩ := ih
    refine ⟨x, ?_, ht⟩
    rw [elementsOf]
    have hn : n ∈ kids cs := by rw [hk]; simp
    exact List.mem_cons_of_mem _ (mem_elements_of_mem (mem_kids.1 hn).1 hx)

theorem Spec.TableOf.renders {t : Node} {rs : List Node} (h : TableOf t rs) {ss : List Str}
    (hl : rs.length = ss.length) (hr : ∀ p ∈ rs.zip ss, Renders true p.1 p.2) :
    Renders false t (join c!" \\\\\n" ss) := by
  induction h with
  | table ha => exact .mtable ha hl hr
  | @row tag A cs n rs ht hk _ ih =>
    have := Renders.row (b := false) (A := A) (cs := cs) (ss := [join c!" \\\\\n" ss]) ht
      (by rw [hk]; rfl) (by rw [hk]; simpa using ih hl hr)
    exact this

/-- The rows of a table. -/
theorem rows_rendered {f : Node → Room} (rs : List Node)
    (h : ∀ r ∈ rs, ∀ c ∈ Spec.cells r, ∃ s, Renders true c s ∧ Latex (.run fresh (f c)) (tokens s)) :
    ∃ ss, rs.length = ss.length ∧ (∀ p ∈ rs.zip ss, Renders true p.1 p.2) ∧ ∀ s ∈ ss, RowOf s := by
  induction rs with
  | nil => exact ⟨[], rfl, by simp, by simp⟩
  | cons r rs ih =>
    obtain ⟨ss, e1, e2, e3⟩ := ih fun r hr => h r (List.mem_cons_of_mem _ hr)
    have hr : ∃ s, Renders true r s ∧ RowOf s := by
      have hc := h r List.mem_cons_self
      unfold Spec.cells at hc
      split at hc
      · rename_i ht
        cases r with
        | elem tag A cs =>
          have ht : tag = c!"mtr" := by simpa [tagIs] using ht
          subst ht
          obtain ⟨ts, f1, f2, f3⟩ := all_rendered (kids cs) hc
          exact ⟨_, .mtr f1 f2, ts, rfl, f3⟩
        | _ => cases ht
      · obtain ⟨s, h1, h2⟩ := hc r (by simp)
        exact ⟨s, h1, [s], rfl, by simpa using ⟨_, h2⟩⟩
    obtain ⟨s, h1, h2⟩ := hr
    refine ⟨s :: ss, by simp [e1], ?_, ?_⟩
    · simp only [List.zip_cons_cons, List.mem_cons]
      rintro p (rfl | hp)
      · exact h1
      · exact e2 p hp
    · simp only [List.mem_cons]
      rintro t (rfl | ht)
      · exact h2
      · exact e3 t ht

/-- The lines after the first. -/
theorem tail_options {rs : List Node} {ss : List Str} (hl : rs.length = ss.length)
    (hr : ∀ p ∈ rs.zip ss, Renders true p.1 p.2) (h : ∀ r ∈ rs.tail, NoOption r) :
    ∀ s ∈ ss.tail, ∀ t u, tokens s = t :: u → lineOption t = false := by
  have key : ∀ (rs : List Node) (ss : List Str), rs.length = ss.length →
      (∀ p ∈ rs.zip ss, Renders true p.1 p.2) → (∀ r ∈ rs, NoOption r) →
      ∀ s ∈ ss, ∀ t u, tokens s = t :: u → lineOption t = false := by
    intro rs
    induction rs with
    | nil => intro ss hl; cases ss with
      | nil => simp
      | cons => simp at hl
    | cons r rs ih =>
      intro ss hl hr h
      cases ss with
      | nil => simp
      | cons s ss =>
        simp only [List.zip_cons_cons, List.mem_cons] at hr
        simp only [List.mem_cons]
        rintro x (rfl | hx)
        · exact h r List.mem_cons_self x (hr _ (.inl rfl))
        · exact ih ss (by simpa using hl) (fun p hp => hr p (.inr hp))
            (fun r hr => h r (List.mem_cons_of_mem _ hr)) x hx
  cases rs with
  | nil => cases ss with
    | nil => simp
    | cons => simp at hl
  | cons r rs =>
    cases ss with
    | nil => simp
    | cons s ss =>
      exact key rs ss (by simpa using hl)
        (fun p hp => hr p (by rw [List.zip_cons_cons]; exact List.mem_cons_of_mem _ hp)) h

/-! ## Roots, stacks and multiple scripts -/

theorem tokens_no_char {c : Char} {s : Str} (h : c ∉ s) : ∀ {st : Lex}, (st = .bs → c ≠ '\\') →
    (.char c : Tok) ∉ tokensFrom st s := by
  induction s with
  | nil =>
    intro st hst hm
    cases st <;> simp [tokensFrom, lexEnd] at hm
    exact hst rfl hm
  | cons d s ih =>
    intro st hst
    have hd : c ≠ d := fun e => h (by simp [e])
    have ih := @ih fun hm => h (List.mem_cons_of_mem _ hm)
    have start : (.char c : Tok) ∉ (lexStart d).1 ∧ ((lexStart d).2 = .bs → c ≠ '\\') := by
      unfold lexStart
      split
      · rename_i e; subst e; exact ⟨by simp, fun _ => hd⟩
      · split
        · exact ⟨by simp, by simp⟩
        · split <;> exact ⟨by simp [hd], by simp⟩
    have step : (.char c : Tok) ∉ (lexStep st d).1 ∧ ((lexStep st d).2 = .bs → c ≠ '\\') := by
      unfold lexStep
      split
      · exact start
      · split <;> exact ⟨by simp, by simp⟩
      · split
        · exact ⟨by simp, by simp⟩
        · exact ⟨by simpa using start.1, start.2⟩
      · split
        · exact ⟨by simp, by simp⟩
        · exact start
    rw [tokensFrom, List.mem_append]
    rintro (hm | hm)
    · exact step.1 hm
    · exact ih step.2 hm

theorem Spec.Latex.rooted {q q' : Room} {n i : Str} (hi : Latex (.run fresh q) (tokens i))
    (hb : ']' ∉ i) (hn : Latex (.run fresh q') (tokens n)) :
    Latex .nucleus (tokens (c!"\\sqrt[" ++ i ++ c!"]" ++ Spec.braces n)) := by
  have hst : Starts (c!"]" ++ Spec.braces n) := .cons (by decide) (by decide)
  rw [List.append_assoc, tokens_between (by decide) hi.lexed hst,
    tokens_append_plain (s := c!"]") (by decide)]
  exact .root hi (tokens_no_char hb (by simp)) hn.braced.1

theorem accents_tokens : ∀ a ∈ accentCommands, ∃ p ∈ commands, tokens a = [.word p.1] ∧
    p.2 = 1 ∧ lexed a ≠ .bs := by decide +kernel

theorem Spec.Latex.accented {q : Room} {set x a : Str} (ha : a ∈ accentCommands)
    (hx : Latex (.run fresh q) (tokens x)) : Latex .nucleus (tokens (stacked set x a)) := by
  rw [stacked, if_pos ha]
  obtain ⟨⟨w, n⟩, hm, e, rfl, hl⟩ := accents_tokens a ha
  exact Latex.cmd e hl hm (starts_braces' _) hx.braced.1.one

theorem Spec.Latex.stack {q q' : Room} {set x a w : Str} (hx : Latex (.run fresh q) (tokens x))
    (ha : Latex (.run fresh q') (tokens a)) (hs : tokens set = [.word w])
    (hl : Verif.lexed set ≠ .bs) (hw : (w, 2) ∈ commands) :
    Latex .nucleus (tokens (stacked set x a)) := by
  by_cases h : a ∈ accentCommands
  · exact Latex.accented h hx
  · rw [stacked, if_neg h, List.append_assoc]
    exact Latex.cmd hs hl hw (starts_braces _ _) (ha.braced₂ hx)

/-- Scripts before a base. -/
theorem Spec.Latex.pre {q q1 q2 : Room} {a b : Str} (ha : Latex (.run fresh q1) (tokens a))
    (hb : Latex (.run fresh q2) (tokens b)) :
    Latex (.run q ⟨false, true⟩) (tokens (c!"\\_" ++ Spec.braces a ++ c!"^" ++ Spec.braces b)) ∧
    Verif.lexed (c!"\\_" ++ Spec.braces a ++ c!"^" ++ Spec.braces b) = .plain := by
  have e : c!"\\_" ++ Spec.braces a ++ c!"^" ++ Spec.braces b =
      c!"\\_" ++ (Spec.braces a ++ (c!"^" ++ Spec.braces b)) := by simp
  rw [e, tokens_append_plain (by decide), tokens_append_plain ha.braced.2,
    tokens_append_plain (by decide), lexed_append_plain (by decide),
    lexed_append_plain ha.braced.2, lexed_append_plain (by decide)]
  refine ⟨.atom (.symb (c := '_') (by decide)) (.atom (.braces ha.braced.1) ?_), hb.braced.2⟩
  have := Latex.sup (b := true) hb.braced.1 .nil
  rwa [List.append_nil] at this

theorem Spec.Latex.spaced {b : Bool} {n : Node} {q q0 q1 q' : Room} {s : Str}
    (h : Latex (.run q0 q1) (tokens s)) (hr : Renders b n s)
    (ha : Around (∀ s, Renders b n s → ∀ c ∈ s, isSpace c = false)
      (∀ s, Renders b n s → ∃ c ∈ s, isSpace c = true) q q0 q1 q') :
    Latex (.run q q') (tokens (parensIfSpace s)) := by
  rcases ha with ⟨h1, rfl, rfl⟩ | ⟨h1, rfl, rfl⟩
  · rw [parensIfSpace, if_neg]
    · exact h
    · rintro ⟨c, hc, he⟩
      rw [h1 s hr c hc] at he; cases he
  · rw [parensIfSpace, if_pos (h1 s hr)]; exact h.paren.nuc q

theorem head_normalize (s : Str) : ∀ c t, normalize s = c :: t → isSpace c = false := by
  intro c t e
  have := (normalize_wsNormal s).head
  rw [e] at this
  simpa using this

/-- A text for a possible element. -/
theorem optional {o : Option (Node × Node)} {b : Bool}
    {f : Node × Node → Node} {g : Node → Room}
    (h : ∀ p r, o = some (p, r) → ∃ s, Renders b (f (p, r)) s ∧
      Latex (.run fresh (g (f (p, r)))) (tokens s)) :
    ∃ s, ∀ p r, o = some (p, r) → Renders b (f (p, r)) s ∧
      Latex (.run fresh (g (f (p, r)))) (tokens s) := by
  cases o with
  | none => exact ⟨[], by simp⟩
  | some pr =>
    obtain ⟨p, r⟩ := pr
    obtain ⟨s, hs⟩ := h p r rfl
    refine ⟨s, ?_⟩
    rintro p' r' ⟨⟩
    exact hs

theorem environ_inner {s : Str} (h : Latex .body (tokens s)) :
    Latex .nucleus (tokens (c!"\\begin{matrix}" ++ s ++ c!"\\end{matrix}")) := by
  rw [tokens_between (by decide) h.lexed (Starts.cons (by decide) (by decide))]
  have := Latex.matrix (name := c!"matrix") (by decide) h
  have e : tokens c!"\\begin{matrix}" = .word c!"begin" :: named c!"matrix" := by decide
  have e' : tokens c!"\\end{matrix}" = .word c!"end" :: named c!"matrix" := by decide
  rw [e, e']
  simpa using this

/-! ## The theorem -/

/-- **C59** A proper element has LaTeX, and that is a part of a formula which needs and leaves the
scripts the rules say. -/
theorem C59_phrase {b : Bool} {q q' : Room} {n : Node} (h : Proper b q n q') :
    ∃ s, Renders b n s ∧ Latex (.run q q') (tokens s) := by
  induction h with
  | row ht h0 _ ih =>
    obtain ⟨ss, e1, e2, e3⟩ := Latex.row ih
    exact ⟨_, .row ht e1 e2, h0 ▸ e3⟩
  | math h0 _ ih =>
    obtain ⟨ss, e1, e2, e3⟩ := Latex.row ih
    refine ⟨_, .math e1 e2, ?_⟩
    rw [tokens_normalize e3.sane]
    exact h0 ▸ e3
  | @mi b q q0 q1 q' A cs e hs hm ha =>
    refine ⟨_, .mi ((miSymbol_iff _ _).2 rfl), ?_⟩
    have := hs.mi (head_normalize _) ((miSymbol_iff _ _).2 rfl) hm
    rcases ha with ⟨h1, rfl, rfl⟩ | ⟨h1, rfl, rfl⟩
    · rw [h1]; exact this
    · exact (Latex.fonted (miFonts _) this h1).nuc q
  | mo hs hm => exact ⟨_, .mo ((moSymbol_iff _ _).2 rfl),
      hs.mo (head_normalize _) ((moSymbol_iff _ _).2 rfl) hm⟩
  | mn hs hm => exact ⟨_, .mn ((mnSymbol_iff _ _).2 rfl),
      hs.mn (head_normalize _) ((mnSymbol_iff _ _).2 rfl) hm⟩
  | @mtext b q q' A cs hl =>
    have := pieces_mtext (attr A c!"mathvariant") (strip (tokenData cs)) [] (by simp)
    exact ⟨_, .mtext this, this.latex (fonts_text _) hl⟩
  | mphantom => exact ⟨_, .mphantom, .nil⟩
  | @msqrt b q A cs rooms h0 _ ih =>
    obtain ⟨ss, e1, e2, e3⟩ := Latex.row ih
    rw [h0] at e3
    exact ⟨_, .msqrt e1 e2, (Latex.cmd (p := c!"\\sqrt") (w := c!"sqrt") (n := 1) (by decide)
      (by decide) (by decide) (starts_braces' _) e3.braced.1.one).nuc q⟩
  | @merror b q A cs rooms h0 _ ih =>
    obtain ⟨ss, e1, e2, e3⟩ := Latex.row ih
    rw [h0] at e3
    refine ⟨_, .merror e1 e2, ?_⟩
    rw [tokens_append_plain (by decide)]
    exact (Latex.color e3.braced.1).nuc q
  | @menclose b q A cs rooms hk h0 _ ih =>
    obtain ⟨ss, e1, e2, e3⟩ := Latex.row ih
    rw [h0] at e3
    exact ⟨_, .menclose e1 e2, (Latex.enclosed (enclosure_good hk) e3).nuc q⟩
  | @mfrac b q q1 q2 A cs n d hk ha _ _ ih1 ih2 =>
    obtain ⟨s1, r1, l1⟩ := ih1
    obtain ⟨s2, r2, l2⟩ := ih2
    refine ⟨_, .mfrac hk ha r1 r2, ?_⟩
    rw [List.append_assoc]
    exact (Latex.cmd (p := c!"\\frac") (w := c!"frac") (n := 2) (by decide)
      (by decide) (by decide) (starts_braces _ _) (l1.braced₂ l2)).nuc q
  | bevelled hk ha h1 _ h2 _ ih1 ih2 =>
    obtain ⟨s1, r1, l1⟩ := ih1
    obtain ⟨s2, r2, l2⟩ := ih2
    refine ⟨_, .bevelled hk ha r1 r2, ?_⟩
    have l1 := l1.long r1 h1
    have l2 := l2.long r2 h2
    rw [List.append_assoc, tokens_append l1.lexed (t := c!"/" ++ parensIfLong s2)
      (Starts.cons (by decide) (by decide)), tokens_append_plain (s := c!"/") (by decide)]
    exact l1.run_append (.atom (.char (c := '/') (by decide)) l2)
  | @mroot b q q1 q2 A cs n i hk hb _ _ ih1 ih2 =>
    obtain ⟨s1, r1, l1⟩ := ih1
    obtain ⟨s2, r2, l2⟩ := ih2
    exact ⟨_, .mroot hk r1 r2, (Latex.rooted l2 (hb _ r2) l1).nuc q⟩
  | msup hk ha _ _ ih1 ih2 =>
    obtain ⟨s1, r1, l1⟩ := ih1
    obtain ⟨s2, r2, l2⟩ := ih2
    exact ⟨_, .msup hk r1 r2, (l1.base r1 ha).raise l2⟩
  | msub hk ha _ _ ih1 ih2 =>
    obtain ⟨s1, r1, l1⟩ := ih1
    obtain ⟨s2, r2, l2⟩ := ih2
    exact ⟨_, .msub hk r1 r2, (l1.base r1 ha).lower l2⟩
  | msubsup hk ha _ _ _ ih1 ih2 ih3 =>
    obtain ⟨s1, r1, l1⟩ := ih1
    obtain ⟨s2, r2, l2⟩ := ih2
    obtain ⟨s3, r3, l3⟩ := ih3
    exact ⟨_, .msubsup hk r1 r2 r3, ((l1.base r1 ha).lower l2).raise l3⟩
  | munderover hk _ _ _ ih1 ih2 ih3 =>
    obtain ⟨s1, r1, l1⟩ := ih1
    obtain ⟨s2, r2, l2⟩ := ih2
    obtain ⟨s3, r3, l3⟩ := ih3
    exact ⟨_, .munderover hk r1 r2 r3, (l1.lower (c := true) l2).raise l3⟩
  | @under b q q1 q2 A cs x a hk _ _ ih1 ih2 =>
    obtain ⟨s1, r1, l1⟩ := ih1
    obtain ⟨s2, r2, l2⟩ := ih2
    exact ⟨_, .munder hk r1 r2, (l1.stack l2 (w := c!"underset") (by decide) (by decide)
      (by decide)).nuc q⟩
  | @underAccent b q q1 A cs x a hk _ ha ih1 =>
    obtain ⟨s1, r1, l1⟩ := ih1
    obtain ⟨s2, h2, r2⟩ := ha
    exact ⟨_, .munder hk r1 r2, (l1.accented h2).nuc q⟩
  | @over b q q1 q2 A cs x a hk _ _ ih1 ih2 =>
    obtain ⟨s1, r1, l1⟩ := ih1
    obtain ⟨s2, r2, l2⟩ := ih2
    exact ⟨_, .mover hk r1 r2, (l1.stack l2 (w := c!"overset") (by decide) (by decide)
      (by decide)).nuc q⟩
  | @overAccent b q q1 A cs x a hk _ ha ih1 =>
    obtain ⟨s1, r1, l1⟩ := ih1
    obtain ⟨s2, h2, r2⟩ := ha
    exact ⟨_, .mover hk r1 r2, (l1.accented h2).nuc q⟩
  | @mmultiscripts b q q0 q1 q2 q' A cs x ks f hk hl _ _ hx _ _ _ hq ih1 ih2 ih3 ih4 ih5 =>
    obtain ⟨s1, h1⟩ := optional (f := fun p => p.1) ih1
    obtain ⟨s2, h2⟩ := optional (f := fun p => p.2) ih2
    obtain ⟨sx, rx, lx⟩ := ih3
    obtain ⟨s3, h3⟩ := optional (f := fun p => p.1) ih4
    obtain ⟨s4, h4⟩ := optional (f := fun p => p.2) ih5
    refine ⟨_, .mmultiscripts hk hl rx (fun p r h => (h1 p r h).1) (fun p r h => (h2 p r h).1)
      (fun p r h => (h3 p r h).1) (fun p r h => (h4 p r h).1), ?_⟩
    have lx := lx.spaced rx hx
    have hpost : ∃ t, scripts c!"_" (postPair (kids cs)) s3 s4 = t ∧
        Latex (.run (if (prePair (kids cs)).isSome then ⟨false, true⟩ else q) q')
          (tokens (parensIfSpace sx ++ t)) := by
      refine ⟨_, rfl, ?_⟩
      unfold scripts
      cases hp : postPair (kids cs) with
      | none =>
        rw [hp] at hq
        simp only [Option.isSome_none, Bool.false_eq_true, if_false] at hq ⊢
        rw [List.append_nil, hq]; exact lx
      | some pr =>
        obtain ⟨p, r⟩ := pr
        rw [hp] at hq
        simp only [Option.isSome_some, if_true] at hq ⊢
        obtain ⟨rfl, rfl⟩ := hq
        have := (lx.lower (c := true) (h3 p r hp).2).raise (h4 p r hp).2
        simpa only [List.append_assoc] using this
    obtain ⟨t, et, ht⟩ := hpost
    rw [et, List.append_assoc]
    unfold scripts
    cases hp : prePair (kids cs) with
    | none =>
      rw [hp] at ht
      simpa using ht
    | some pr =>
      obtain ⟨p, r⟩ := pr
      rw [hp] at ht
      simp only [Option.isSome_some, if_true] at ht ⊢
      obtain ⟨a, c⟩ := (h1 p r hp).2.pre (q := q) (h2 p r hp).2
      rw [tokens_append_plain c]
      exact a.run_append ht
  | @toggle b q A cs rooms ht h0 _ ih =>
    obtain ⟨ss, e1, e2, e3⟩ := Latex.chain (sep := c!" \\Longrightarrow ")
      (.cons (by decide) (by decide)) (by decide) (by simp) (kids cs)
      (src := fun i => if i = 0 then q else fresh)
      (fun i => by
        rw [if_neg (by omega)]
        exact (Latex.word (w := c!"Longrightarrow") (by decide)).nuc _) ih (by simp [h0])
    exact ⟨_, .toggle ht e1 e2, h0 ▸ e3⟩
  | maction ht hk _ ih =>
    obtain ⟨s, r, l⟩ := ih
    exact ⟨s, .maction ht hk r, l⟩
  | @mfenced b q A cs f ht ho hc hs _ ih =>
    obtain ⟨ss, e1, e2, e3⟩ := all_rendered (kids cs) ih
    obtain ⟨q1, l⟩ := Latex.interleaved (separator_char hs) e3
    exact ⟨_, .mfenced ht e1 e2, (Latex.fenced ho hc l).nuc q⟩
  | @matrix q A cs t rs f hk ht hf _ hn ih =>
    obtain ⟨ss, e1, e2, e3⟩ := rows_rendered rs ih
    have hb := Latex.rows e3 (tail_options e1 e2 hn)
    obtain ⟨x, hx, hxt⟩ := ht.hasTable
    have htab : HasTable cs :=
      ⟨x, mem_elements_of_mem (mem_kids.1 (by rw [hk]; simp)).1 hx, hxt⟩
    refine ⟨_, .matrix (ss := [join c!" \\\\\n" ss]) htab (by rw [hk]; rfl) ?_,
      (Latex.matrixed hf hb.1).nuc q⟩
    rw [hk]
    simpa using ht.renders e1 e2
  | @inMatrix b q q1 A cs t hk ht hf _ ih =>
    obtain ⟨s, r, l⟩ := ih
    refine ⟨_, .matrix (ss := [s]) ht (by rw [hk]; rfl) ?_, (Latex.matrixed hf (.cell l)).nuc q⟩
    rw [hk]
    simpa using r
  | @innerTable b q A cs f hb _ hn ih =>
    obtain ⟨ss, e1, e2, e3⟩ := rows_rendered (kids cs) ih
    exact ⟨_, .innerTable hb e1 e2,
      (environ_inner (Latex.rows e3 (tail_options e1 e2 hn)).1).nuc q⟩

/-- **C59** An element that is proper on its own has LaTeX, and that is a formula. -/
theorem C59_element {b : Bool} {q : Room} {n : Node} (h : Proper b fresh n q) :
    ∃ s, latexIn b n = .ok s ∧ Formula s := by
  obtain ⟨s, hr, hl⟩ := C59_phrase h
  have he : n.isElem = true := by cases h <;> rfl
  exact ⟨s, (renders_iff he b s).1 hr, q, hl⟩

/-- **C59** The same of a document with one proper `math` element. -/
theorem C59_document (d : Doc) (hl : (maths d).length ≤ 1)
    (h : ∀ n ∈ maths d, ∃ q, Proper false fresh n q) : ∃ s, docResult d = .ok s ∧ Formula s := by
  rw [docResult_firstOrAll]
  match hm : maths d, hl with
  | [], _ => exact ⟨[], by simp [firstOrAll], fresh, .nil⟩
  | [n], _ =>
    obtain ⟨q, hp⟩ := h n (by simp [hm])
    obtain ⟨s, e, hf⟩ := C59_element hp
    exact ⟨s, by simp [firstOrAll, e], hf⟩
  | _ :: _ :: _, hl => simp only [List.length_cons] at hl; omega

/-- **C59** at the API. -/
theorem C59_convert (env : Env) (x : Str) (d : Doc) (hp : env.parse (prep x) = .ok d)
    (hl : (maths d).length ≤ 1) (h : ∀ n ∈ maths d, ∃ q, Proper false fresh n q) :
    ∃ s, convert env x = .ok s ∧ Formula s := by
  rw [C05_accepted_never_repaired env x d hp]
  exact C59_document d hl h

/-- A quadratic formula, a matrix, a text and a sum. -/
def properMath : Node :=
  .elem c!"math" [] [
    .elem c!"msub" [] [.elem c!"mi" [] [.text c!"x"], .elem c!"mn" [] [.text c!"1"]],
    .elem c!"mo" [] [.text c!"="],
    .elem c!"mfrac" [] [
      .elem c!"mrow" [] [.elem c!"mo" [] [.text c!"−"], .elem c!"mi" [] [.text c!"b"],
        .elem c!"mo" [] [.text c!"±"],
        .elem c!"msqrt" [] [
          .elem c!"msup" [] [.elem c!"mrow" [] [.elem c!"mi" [] [.text c!"b"],
            .elem c!"mo" [] [.text c!"+"], .elem c!"mi" [] [.text c!"α"]],
            .elem c!"mn" [] [.text c!"2"]]]],
      .elem c!"mrow" [] [.elem c!"mn" [] [.text c!"2"], .elem c!"mi" [] [.text c!"a"]]],
    .elem c!"mtext" [] [.text c!"for all % é"],
    .elem c!"mfenced" [(c!"open", c!"["), (c!"close", c!"]")] [
      .elem c!"mtable" [] [
        .elem c!"mtr" [] [.elem c!"mtd" [] [.elem c!"mi" [] [.text c!"a"]],
          .elem c!"mtd" [] [.elem c!"mn" [] [.text c!"0"]]],
        .elem c!"mtr" [] [.elem c!"mtd" [] [.elem c!"mn" [] [.text c!"1"]],
          .elem c!"mtd" [] [.elem c!"mover" [] [.elem c!"mi" [] [.text c!"x"],
            .elem c!"mo" [] [.text c!"^"]]]]]],
    .elem c!"munderover" [] [.elem c!"mo" [] [.text c!"∑"], .elem c!"mi" [] [.text c!"i"],
      .elem c!"mi" [] [.text c!"∞"]]]

/-- The hypotheses hold of it. -/
example : (∃ q, Proper false fresh properMath q) ∧ ∃ s, latexIn false properMath = .ok s ∧
    Formula s ∧ s = c!"x_{1} = \\frac{- b \\pm \\sqrt{\\left(b + \\alpha\\right)^{2}}}{2 a} \\text{for all }\\%\\text{ }\\acute{e} \\begin{bmatrix} a & 0 \\\\ 1 & \\hat{x} \\end{bmatrix} \\sum_{i}^{\\infty}" := by
  have h : Proper false fresh properMath ⟨false, false⟩ :=
    check_sound 9 (q' := ⟨false, false⟩) (by decide +kernel)
  refine ⟨⟨_, h⟩, ?_⟩
  obtain ⟨s, hs, hf⟩ := C59_element h
  have e : latexIn false properMath = .ok c!"x_{1} = \\frac{- b \\pm \\sqrt{\\left(b + \\alpha\\right)^{2}}}{2 a} \\text{for all }\\%\\text{ }\\acute{e} \\begin{bmatrix} a & 0 \\\\ 1 & \\hat{x} \\end{bmatrix} \\sum_{i}^{\\infty}" := by decide +kernel
  rw [e] at hs
  cases hs
  exact ⟨_, e, hf, rfl⟩

/-! ## What is excluded is not a formula -/

/-- The LaTeX of an element is not a formula. -/
def broken (n : Node) : Bool :=
  match latexIn false n with
  | .ok s => !accepts s
  | .error _ => false

theorem broken_sound {n : Node} (h : broken n = true) :
    ∃ s, latexIn false n = .ok s ∧ ¬ Formula s := by
  unfold broken at h
  split at h
  · rename_i s e
    exact ⟨s, e, not_formula (by simpa using h)⟩
  · cases h

/-- **C59** The excluded characters are exactly those that have to be: each of them alone in its
element gives something that is no formula. -/
theorem C59_rough_characters : ∀ p ∈ [(c!"mi", miSigns), (c!"mo", moSigns), (c!"mn", mnSigns)],
    ∀ c ∈ p.2.rough, ∃ s, latexIn false (.elem p.1 [] [.text [c]]) = .ok s ∧ ¬ Formula s := by
  have h : ∀ p ∈ [(c!"mi", miSigns), (c!"mo", moSigns), (c!"mn", mnSigns)],
      ∀ c ∈ p.2.rough, broken (.elem p.1 [] [.text [c]]) = true := by decide +kernel
  exact fun p hp c hc => broken_sound (h p hp c hc)

/-- **C59** So are the excluded notations. -/
theorem C59_rough_notations : ∀ k ∈ roughNotations,
    ∃ s, latexIn false (.elem c!"menclose" [(c!"notation", k)]
      [.elem c!"mi" [] [.text c!"x"]]) = .ok s ∧ ¬ Formula s := by
  have h : ∀ k ∈ roughNotations, broken (.elem c!"menclose" [(c!"notation", k)]
      [.elem c!"mi" [] [.text c!"x"]]) = true := by decide +kernel
  exact fun k hk => broken_sound (h k hk)

/-- **C59** A script on a script, an accent without its argument, braces and angle brackets as
delimiters, a table without fence, an index with a bracket, a line that begins with one, a
separator that is a script sign, a percent sign in a number, a caret in an identifier or in a text:
the LaTeX is no formula. -/
theorem C59_conditions_needed :
    (∃ s, latexIn false (.elem c!"msup" [] [.elem c!"mrow" [] [.elem c!"msup" []
      [.elem c!"mi" [] [.text c!"x"], .elem c!"mn" [] [.text c!"2"]]],
      .elem c!"mn" [] [.text c!"3"]]) = .ok s ∧ ¬ Formula s) ∧
    (∃ s, latexIn false (.elem c!"msup" [] [.elem c!"mi" [] [.text c!"x²"],
      .elem c!"mo" [] [.text c!"‾"]]) = .ok s ∧ ¬ Formula s) ∧
    (∃ s, latexIn false (.elem c!"mover" [] [.elem c!"mi" [] [.text c!"x"],
      .elem c!"mo" [] [.text c!"‾"]]) = .ok s ∧ ¬ Formula s) ∧
    (∃ s, latexIn false (.elem c!"mfenced" [(c!"open", c!"{"), (c!"close", c!"}")]
      [.elem c!"mi" [] [.text c!"x"]]) = .ok s ∧ ¬ Formula s) ∧
    (∃ s, latexIn false (.elem c!"mfenced" [(c!"open", c!"⟨"), (c!"close", c!"⟩")]
      [.elem c!"mi" [] [.text c!"x"]]) = .ok s ∧ ¬ Formula s) ∧
    (∃ s, latexIn false (.elem c!"mtable" [] [.elem c!"mtr" [] [
      .elem c!"mtd" [] [.elem c!"mi" [] [.text c!"x"]],
      .elem c!"mtd" [] [.elem c!"mi" [] [.text c!"y"]]]]) = .ok s ∧ ¬ Formula s) ∧
    (∃ s, latexIn false (.elem c!"mroot" [] [.elem c!"mi" [] [.text c!"x"],
      .elem c!"mi" [] [.text c!"a]"]]) = .ok s ∧ ¬ Formula s) ∧
    (∃ s, latexIn false (.elem c!"mfenced" [] [.elem c!"mtable" [] [
      .elem c!"mtr" [] [.elem c!"mtd" [] [.elem c!"mi" [] [.text c!"x"]]],
      .elem c!"mtr" [] [.elem c!"mtd" [] [.elem c!"mi" [] [.text c!"["]]]]]) = .ok s ∧
      ¬ Formula s) ∧
    (∃ s, latexIn false (.elem c!"mfenced" [(c!"separators", c!"^")]
      [.elem c!"mi" [] [.text c!"x"], .elem c!"mi" [] [.text c!"y"]]) = .ok s ∧ ¬ Formula s) ∧
    (∃ s, latexIn false (.elem c!"mn" [] [.text c!"50%"]) = .ok s ∧ ¬ Formula s) ∧
    (∃ s, latexIn false (.elem c!"mi" [] [.text c!"^"]) = .ok s ∧ ¬ Formula s) ∧
    (∃ s, latexIn false (.elem c!"mtext" [] [.text c!"x^y"]) = .ok s ∧ ¬ Formula s) := by
  refine ⟨?_, ?_, ?_, ?_, ?_, ?_, ?_, ?_, ?_, ?_, ?_, ?_⟩ <;> exact broken_sound (by decide +kernel)

end Verif
