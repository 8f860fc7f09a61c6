import Verif.Props.Latex
import Verif.Spec.Means

/-! # Readings of the pieces the library writes -/

namespace Verif
open Spec

/-! ## Pieces -/

theorem Spec.Reads.braced {v : List Item} {s : Str} (h : Reads (.run [] v) (tokens s)) :
    Reads (.group v) (tokens (Spec.braces s)) ∧ Verif.lexed (Spec.braces s) = .plain := by
  rw [(tokens_braces h.lexed).1]
  exact ⟨.group h, (tokens_braces h.lexed).2⟩

theorem Spec.Reads.braced₂ {v w : List Item} {s t : Str} (h : Reads (.run [] v) (tokens s))
    (h' : Reads (.run [] w) (tokens t)) :
    Reads (.groups [v, w]) (tokens (Spec.braces s ++ Spec.braces t)) := by
  rw [tokens_append_plain h.braced.2]
  exact .two h.braced.1 h'.braced.1

/-- A command before its arguments. -/
theorem Spec.Reads.cmd {p w t : Str} {ls : List (List Item)} (hp : tokens p = [.word w])
    (hl : Verif.lexed p ≠ .bs) (hw : (w, ls.length) ∈ commands) (ht : Starts t)
    (h : Reads (.groups ls) (tokens t)) : Reads (.nucleus (.app w ls)) (tokens (p ++ t)) := by
  rw [tokens_append hl ht, hp]
  exact .command hw rfl h

theorem Spec.Reads.paren {v : List Item} {s : Str} (h : Reads (.run [] v) (tokens s)) :
    Reads (.nucleus (inParens v)) (tokens (Spec.parens s)) := by
  rw [(tokens_parens h.lexed).1]
  exact .fence (by decide) (by decide) h

/-- A superscript. -/
theorem Spec.Reads.raise {l0 l v : List Item} {i : Item} {x e : Str}
    (hx : Reads (.run l0 (l ++ [i])) (tokens x)) (hi : i.hasSup = false)
    (he : Reads (.run [] v) (tokens e)) :
    Reads (.run l0 (l ++ [.sup i v])) (tokens (x ++ c!"^" ++ Spec.braces e)) := by
  rw [List.append_assoc, tokens_append hx.lexed (t := c!"^" ++ Spec.braces e)
      (Starts.cons (by decide) (by decide)), tokens_append_plain (s := c!"^") (by decide)]
  refine hx.run_append ?_
  have := Reads.sup (l := l ++ [i]) (l' := l ++ [.sup i v]) (e := v)
    (by rw [lastItem_concat]; exact hi) he.braced.1 (by rw [onLast_concat]; exact .nil)
  rwa [List.append_nil] at this

/-- A subscript. -/
theorem Spec.Reads.lower {l0 l v : List Item} {i : Item} {x e : Str}
    (hx : Reads (.run l0 (l ++ [i])) (tokens x)) (hi : i.hasSub = false)
    (he : Reads (.run [] v) (tokens e)) :
    Reads (.run l0 (l ++ [.sub i v])) (tokens (x ++ c!"_" ++ Spec.braces e)) := by
  rw [List.append_assoc, tokens_append hx.lexed (t := c!"_" ++ Spec.braces e)
      (Starts.cons (by decide) (by decide)), tokens_append_plain (s := c!"_") (by decide)]
  refine hx.run_append ?_
  have := Reads.sub (l := l ++ [i]) (l' := l ++ [.sub i v]) (e := v)
    (by rw [lastItem_concat]; exact hi) he.braced.1 (by rw [onLast_concat]; exact .nil)
  rwa [List.append_nil] at this

theorem Spec.Reads.base {b : Bool} {n : Node} {l l0 l1 : List Item} {i : Item} {s : Str}
    (h : Reads (.run l0 l1) (tokens s)) (hr : Renders b n s) (ha : OneBase b n l l0 l1 i) :
    Reads (.run l (l ++ [i])) (tokens (scriptBase n s)) := by
  unfold scriptBase
  rcases ha with ⟨h1, rfl, rfl⟩ | ⟨⟨h1, h2⟩, rfl, rfl⟩
  · split
    · rcases h1 with h1 | h1
      · omega
      · rw [parensIfLong, if_neg (by have := h1 s hr; omega)]; exact h
    · exact h
  · rw [if_pos h1, parensIfLong, if_pos (h2 s hr)]; exact h.paren.nuc l

theorem Spec.Reads.part {b : Bool} {n : Node} {l l0 l1 l' : List Item} {s : Str}
    (h : Reads (.run l0 l1) (tokens s)) (hr : Renders b n s) (ha : Part b n l l0 l1 l') :
    Reads (.run l l') (tokens (parensIfLong s)) := by
  rcases ha with ⟨h1, rfl, rfl⟩ | ⟨h1, rfl, rfl⟩
  · rw [parensIfLong, if_neg (by have := h1 s hr; omega)]; exact h
  · rw [parensIfLong, if_pos (h1 s hr)]; exact h.paren.nuc l

theorem Spec.Reads.spaced {b : Bool} {n : Node} {l l0 l1 : List Item} {i : Item} {s : Str}
    (h : Reads (.run l0 l1) (tokens s)) (hr : Renders b n s)
    (ha : OneItem (∀ s, Renders b n s → ∀ c ∈ s, isSpace c = false)
      (∀ s, Renders b n s → ∃ c ∈ s, isSpace c = true) l l0 l1 i) :
    Reads (.run l (l ++ [i])) (tokens (parensIfSpace s)) := by
  rcases ha with ⟨h1, rfl, rfl⟩ | ⟨h1, rfl, rfl⟩
  · rw [parensIfSpace, if_neg]
    · exact h
    · rintro ⟨c, hc, he⟩
      rw [h1 s hr c hc] at he; cases he
  · rw [parensIfSpace, if_pos (h1 s hr)]; exact h.paren.nuc l

theorem Spec.Reads.spacePart {b : Bool} {n : Node} {l l0 l1 l' : List Item} {s : Str}
    (h : Reads (.run l0 l1) (tokens s)) (hr : Renders b n s) (ha : SpacePart b n l l0 l1 l') :
    Reads (.run l l') (tokens (parensIfSpace s)) := by
  rcases ha with ⟨h1, rfl, rfl⟩ | ⟨h1, rfl, rfl⟩
  · rw [parensIfSpace, if_neg]
    · exact h
    · rintro ⟨c, hc, he⟩
      rw [h1 s hr c hc] at he; cases he
  · rw [parensIfSpace, if_pos (h1 s hr)]; exact h.paren.nuc l

/-- Scripts in front of a base. -/
theorem Spec.Reads.pre {l l' v w : List Item} {s t u : Str} (h : Reads (.run [] v) (tokens s))
    (h' : Reads (.run [] w) (tokens t)) (hu : Reads (.run (l ++ underscore v w) l') (tokens u)) :
    Reads (.run l l') (tokens (c!"\\_" ++ Spec.braces s ++ c!"^" ++ Spec.braces t ++ u)) := by
  have e : c!"\\_" ++ Spec.braces s ++ c!"^" ++ Spec.braces t ++ u =
      c!"\\_" ++ (Spec.braces s ++ (c!"^" ++ (Spec.braces t ++ u))) := by simp
  rw [e, tokens_append_plain (by decide), tokens_append_plain h.braced.2,
    tokens_append_plain (by decide), tokens_append_plain h'.braced.2]
  refine .atom (.symb (c := '_') (by decide)) (.atom (.braces h.braced.1) ?_)
  refine Reads.sup (g := tokens (Spec.braces t)) (f := tokens u) (by rw [lastItem_concat]; rfl)
    h'.braced.1 ?_
  rw [onLast_concat]
  simpa [underscore] using hu

/-! ## Sequences -/

theorem join_interleave (sep : Str) : ∀ ss : List Str,
    join sep ss = interleave (fun _ => sep) ss
  | [] => rfl
  | [s] => rfl
  | s :: t :: ss => by
    have := join_interleave sep (t :: ss)
    rw [interleave, ← this]; simp [join]

/-- Elements with something between them. -/
theorem Spec.Reads.chain {b : Bool} (ks : List Node) : ∀ {sep : Nat → Str}
    {src out : Nat → List Item},
    (∀ i, Starts (sep i) ∧ Verif.lexed (sep i) = .plain ∧ sep i ≠ []) →
    (∀ i, Reads (.run (out (i + 1)) (src (i + 1))) (tokens (sep i))) →
    (∀ i (h : i < ks.length), ∃ s, Renders b ks[i] s ∧
      Reads (.run (src i) (out (i + 1))) (tokens s)) →
    src 0 = out 0 →
    ∃ ss, ks.length = ss.length ∧ (∀ p ∈ ks.zip ss, Renders b p.1 p.2) ∧
      Reads (.run (out 0) (out ks.length)) (tokens (interleave sep ss)) := by
  have key : ∀ (ks : List Node) (k : Node) {sep : Nat → Str} {src out : Nat → List Item},
      (∀ i, Starts (sep i) ∧ Verif.lexed (sep i) = .plain ∧ sep i ≠ []) →
      (∀ i, Reads (.run (out (i + 1)) (src (i + 1))) (tokens (sep i))) →
      (∀ i (h : i < (k :: ks).length), ∃ s, Renders b (k :: ks)[i] s ∧
        Reads (.run (src i) (out (i + 1))) (tokens s)) →
      ∃ ss, (k :: ks).length = ss.length ∧ (∀ p ∈ (k :: ks).zip ss, Renders b p.1 p.2) ∧
        Reads (.run (src 0) (out (k :: ks).length)) (tokens (interleave sep ss)) := by
    intro ks
    induction ks with
    | nil =>
      intro k sep src out _ _ h
      obtain ⟨s, hr, hs⟩ := h 0 (by simp)
      refine ⟨[s], rfl, ?_, hs⟩
      simpa using hr
    | cons k2 ks ih =>
      intro k sep src out hst hsep h
      obtain ⟨s, hr, hs⟩ := h 0 (by simp)
      obtain ⟨ss, e1, e2, e3⟩ := ih k2 (sep := fun i => sep (i + 1)) (src := fun i => src (i + 1))
        (out := fun i => out (i + 1)) (fun i => hst (i + 1)) (fun i => hsep (i + 1))
        (fun i hi => h (i + 1) (by simpa using hi))
      cases ss with
      | nil => simp at e1
      | cons t ss =>
        refine ⟨s :: t :: ss, by simp only [List.length_cons] at *; omega, ?_, ?_⟩
        · simp only [List.zip_cons_cons, List.mem_cons]
          rintro p (rfl | hp)
          · exact hr
          · exact e2 p (by simpa using hp)
        · obtain ⟨h1, h2, hne⟩ := hst 0
          rw [interleave, List.append_assoc, tokens_append hs.lexed ?_, tokens_append_plain h2]
          · exact hs.run_append ((hsep 0).run_append e3)
          · cases hc : sep 0 with
            | nil => exact absurd hc hne
            | cons c u => exact .cons (h1 c u hc).1 (h1 c u hc).2
  intro sep src out hst hsep h h0
  cases ks with
  | nil => exact ⟨[], rfl, by simp, .nil⟩
  | cons k ks =>
    rw [← h0]
    exact key ks k hst hsep h

theorem Spec.Reads.row {b : Bool} {ks : List Node} {ls : Nat → List Item}
    (h : ∀ i (h : i < ks.length), ∃ s, Renders b ks[i] s ∧
      Reads (.run (ls i) (ls (i + 1))) (tokens s)) :
    ∃ ss, ks.length = ss.length ∧ (∀ p ∈ ks.zip ss, Renders b p.1 p.2) ∧
      Reads (.run (ls 0) (ls ks.length)) (tokens (join c!" " ss)) := by
  obtain ⟨ss, e1, e2, e3⟩ := Reads.chain ks (sep := fun _ => c!" ") (src := ls) (out := ls)
    (fun _ => ⟨.cons (by decide) (by decide), by decide, by simp⟩) (fun _ => .nil) h rfl
  exact ⟨ss, e1, e2, by rw [join_interleave]; exact e3⟩

/-! ## Texts -/

theorem charItems_cons (c : Char) (k : Str) :
    charItems (c :: k) = if isSpace c then charItems k else .sym (.char c) :: charItems k := by
  unfold charItems
  cases h : isSpace c <;> simp [h]

theorem Spec.Reads.chars {k : Str} (h : ∀ c ∈ k, ordinary c = true) (l : List Item) :
    Reads (.run l (l ++ charItems k)) (tokens k) := by
  induction k generalizing l with
  | nil => rw [show charItems [] = [] from rfl, List.append_nil]; exact .nil
  | cons c k ih =>
    have hc := h c List.mem_cons_self
    have h1 : c ≠ '\\' := by rintro rfl; revert hc; decide
    have h2 : c ≠ '\'' := by rintro rfl; revert hc; decide
    have ih := fun l => ih (fun d hd => h d (List.mem_cons_of_mem _ hd)) l
    rw [charItems_cons]
    by_cases hs : isSpace c = true
    · have e : tokens (c :: k) = tokens k := by
        simp [tokens, tokensFrom, lexStep, lexStart, h1, hs]
      rw [e, if_pos hs]; exact ih l
    · have e : tokens (c :: k) = [.char c] ++ tokens k := by
        simp [tokens, tokensFrom, lexStep, lexStart, h1, h2, hs]
      rw [e, if_neg hs]
      refine .atom (.char hc) ?_
      have := ih (l ++ [.sym (.char c)])
      simpa using this

theorem Spec.Reads.textChars {k : Str} (h : ∀ c ∈ k, ordinary c = true) :
    Reads (.text (charItems k)) (tokens k) := by
  induction k with
  | nil => exact .textEnd
  | cons c k ih =>
    have hc := h c List.mem_cons_self
    have h1 : c ≠ '\\' := by rintro rfl; revert hc; decide
    have h2 : c ≠ '\'' := by rintro rfl; revert hc; decide
    have ih := ih fun d hd => h d (List.mem_cons_of_mem _ hd)
    rw [charItems_cons]
    by_cases hs : isSpace c = true
    · have e : tokens (c :: k) = tokens k := by
        simp [tokens, tokensFrom, lexStep, lexStart, h1, hs]
      rw [e, if_pos hs]; exact ih
    · have e : tokens (c :: k) = .char c :: tokens k := by
        simp [tokens, tokensFrom, lexStep, lexStart, h1, h2, hs]
      rw [e, if_neg hs]; exact .textChar hc ih

theorem Spec.Reads.wrapped {cmds : List Str} (hc : cmds ∈ textFonts) {w : Str}
    (hw : ∀ c ∈ w, IsTextChar c) (l : List Item) :
    Reads (.run l (l ++ inFonts cmds (charItems w))) (tokens (applyAll cmds w)) ∧
      Verif.lexed (applyAll cmds w) = .plain := by
  refine ⟨?_, (Latex.wrapped hc hw).2⟩
  have ho : ∀ c ∈ w, Spec.ordinary c = true := fun c hc => (hw c hc).ordinary
  have ht := Reads.textChars ho
  have hr : Reads (.run [] (charItems w)) (tokens w) := by
    simpa using Reads.chars ho []
  have hs : Starts c!"}" := .cons (by decide) (by decide)
  have key : ∀ {p : Str} (u : Str), Verif.lexed p = .plain → Verif.lexed u ≠ .bs →
      tokens (p ++ u ++ c!"}") = tokens p ++ (tokens u ++ [.char '}']) ∧
      Verif.lexed (p ++ u ++ c!"}") = .plain := by
    intro p u hp hu
    rw [List.append_assoc, tokens_append_plain hp, tokens_append hu hs, lexed_append_plain hp,
      lexed_starts hu hs (by simp)]
    exact ⟨rfl, by decide⟩
  simp only [textFonts, List.mem_cons, List.not_mem_nil, or_false] at hc
  rcases hc with rfl | rfl | rfl | rfl | rfl | rfl | rfl
  · obtain ⟨e1, e2⟩ := key (p := c!"\\text" ++ c!"{") w (by decide) ht.lexed
    rw [applyAll, applyAll, e1]
    exact (Reads.text (w := c!"text") (by decide) ht).nuc l
  · obtain ⟨e1, e2⟩ := key (p := c!"\\textbf" ++ c!"{") w (by decide) ht.lexed
    rw [applyAll, applyAll, e1]
    exact (Reads.text (w := c!"textbf") (by decide) ht).nuc l
  · obtain ⟨e1, e2⟩ := key (p := c!"\\textit" ++ c!"{") w (by decide) ht.lexed
    rw [applyAll, applyAll, e1]
    exact (Reads.text (w := c!"textit") (by decide) ht).nuc l
  · obtain ⟨e1, e2⟩ := key (p := c!"\\textit" ++ c!"{") w (by decide) ht.lexed
    obtain ⟨e3, e4⟩ := key (p := c!"\\textbf" ++ c!"{") _ (by decide)
      (by rw [e2]; decide : Verif.lexed (c!"\\textit" ++ c!"{" ++ w ++ c!"}") ≠ .bs)
    rw [applyAll, applyAll, applyAll, e3, e1]
    have : Reads (.text [.text c!"textit" (charItems w)])
        (.word c!"textit" :: .char '{' :: (tokens w ++ .char '}' :: [])) :=
      .nested (by decide) ht .textEnd
    exact (Reads.text (w := c!"textbf") (by decide) this).nuc l
  · obtain ⟨e1, e2⟩ := key (p := c!"\\mathbb" ++ c!"{") w (by decide) ht.lexed
    rw [applyAll, applyAll, e1]
    exact (Reads.command (w := c!"mathbb") (n := 1) (by decide) rfl (Reads.group hr).one).nuc l
  · obtain ⟨e1, e2⟩ := key (p := c!"\\mathtt" ++ c!"{") w (by decide) ht.lexed
    rw [applyAll, applyAll, e1]
    exact (Reads.command (w := c!"mathtt") (n := 1) (by decide) rfl (Reads.group hr).one).nuc l
  · obtain ⟨e1, e2⟩ := key (p := c!"\\mathfrak" ++ c!"{") w (by decide) ht.lexed
    rw [applyAll, applyAll, e1]
    exact (Reads.command (w := c!"mathfrak") (n := 1) (by decide) rfl (Reads.group hr).one).nuc l

/-- A text is written as `mtext` does it. -/
theorem Spec.MeansText.written {cmds : List Str} (hc : cmds ∈ textFonts) {l l' : List Item}
    {x : Str} (h : MeansText cmds l x l') :
    ∃ s, MText cmds x s ∧ Reads (.run l l') (tokens s) ∧ (∀ c ∈ x, c ∉ disguised ∧ c ≠ '\'') := by
  have hk : ∀ cmds ∈ textFonts, knownCommands cmds = true ∧ cmds ≠ [] ∧
      ∀ c ∈ cmds, c.head? = some '\\' := by decide +kernel
  obtain ⟨k1, k2, k3⟩ := hk cmds hc
  induction h with
  | nil => exact ⟨_, .nil, .nil, by simp⟩
  | @run l l' w rest hne hw hrest _ ih =>
    obtain ⟨s, h1, h2, h3⟩ := ih
    refine ⟨_, .run hne hw hrest h1, ?_, ?_⟩
    · have := Reads.wrapped hc hw l
      rw [tokens_append_plain this.2]
      exact this.1.run_append h2
    · intro c hm
      rcases List.mem_append.1 hm with hm | hm
      · have : ∀ d ∈ '\'' :: disguised, ¬ IsTextChar d := by decide
        exact ⟨fun hd => this _ (List.mem_cons_of_mem _ hd) (hw c hm),
          fun e => this '\'' (by simp) (e ▸ hw c hm)⟩
      · exact h3 c hm
  | other hn h1 h2 hs hr _ ih =>
    obtain ⟨s, h3, h4, h5⟩ := ih
    refine ⟨_, .other hn hs h3, ?_, ?_⟩
    · rw [tokens_append hr.lexed (h3.starts k1 k2 k3 h5)]
      exact hr.run_append h4
    · simp only [List.mem_cons]
      rintro c (rfl | hm)
      · exact ⟨h1, h2⟩
      · exact h5 c hm

/-! ## Fonts -/

/-- Commands with one argument, by name, which are not for texts. -/
def mathFont' (c : Str) : Bool :=
  commands.any fun p => p.2 == 1 && c == c!"\\" ++ p.1 && tokens c == [.word p.1] &&
    lexed c != .bs && !textMacros.contains p.1

theorem mathFonts' : ∀ p ∈ miVariants, p.2.all mathFont' = true := by decide +kernel

theorem miFonts' (v : Str) : (fonts miVariants [] v).all mathFont' = true := by
  unfold fonts
  split
  · rename_i p hp; exact mathFonts' p (List.mem_of_find?_eq_some hp)
  · rfl

theorem Spec.Reads.fonted {cmds : List Str} (hc : cmds.all mathFont' = true) {v : List Item}
    {s : Str} (hs : Reads (.run [] v) (tokens s)) (hne : cmds ≠ []) :
    ∃ i, inFonts cmds v = [i] ∧ Reads (.nucleus i) (tokens (applyAll cmds s)) := by
  induction cmds with
  | nil => exact absurd rfl hne
  | cons c cs ih =>
    rw [List.all_cons, Bool.and_eq_true] at hc
    have hc1 := hc.1
    simp only [mathFont', List.any_eq_true, Bool.and_eq_true, beq_iff_eq, bne_iff_ne,
      Bool.not_eq_true'] at hc1
    obtain ⟨⟨w, n⟩, hm, ⟨⟨⟨e0, rfl⟩, e2⟩, e3⟩, e4⟩ := hc1
    dsimp only at e0 e2 e3 e4; subst e0
    have hin : Reads (.run [] (inFonts cs v)) (tokens (applyAll cs s)) := by
      cases cs with
      | nil => exact hs
      | cons d ds =>
        obtain ⟨i, e, hi⟩ := ih hc.2 (by simp)
        rw [e]; exact hi.nuc []
    have e : applyAll ((c!"\\" ++ w) :: cs) s = (c!"\\" ++ w) ++ Spec.braces (applyAll cs s) := by
      simp [applyAll, Spec.braces]
    rw [e]
    refine ⟨.app w [inFonts cs v], ?_, Reads.cmd e2 e3 hm (starts_braces' _) hin.braced.1.one⟩
    have : (c!"\\" ++ w).tail = w := rfl
    rw [inFonts, this, e4]; rfl

/-! ## Enclosures -/

theorem enclosure_starts (k : Str) : Starts (enclosure k).2 := by
  have h : ∀ p ∈ enclosures, (p.2.2.take 1).all (fun c => !isLetter c && c != '\'') = true := by
    decide
  unfold enclosure
  split
  · rename_i p hp
    have h := h p (List.mem_of_find?_eq_some hp)
    intro c u e
    simp only [e, List.take_succ_cons, List.all_cons, Bool.and_eq_true, Bool.not_eq_true',
      bne_iff_ne] at h
    exact h.1
  · exact .cons (by decide) (by decide)

theorem Spec.Reads.enclosed {k : Str} {f : List Item → Item} (hp : (k, f) ∈ enclosedItems)
    {v : List Item} {s : Str} (h : Reads (.run [] v) (tokens s)) :
    Reads (.nucleus (f v)) (tokens ((enclosure k).1 ++ s ++ (enclosure k).2)) := by
  have g := Reads.group h
  have simple : ∀ w, (w, 1) ∈ commands →
      Reads (.nucleus (.app w [v])) ([.word w, .char '{'] ++ (tokens s ++ [.char '}'])) :=
    fun w hw => .command hw rfl g.one
  simp only [enclosedItems, List.mem_cons, List.not_mem_nil, or_false, Prod.mk.injEq] at hp
  rcases hp with ⟨rfl, rfl⟩ | ⟨rfl, rfl⟩ | ⟨rfl, rfl⟩ | ⟨rfl, rfl⟩ | ⟨rfl, rfl⟩ | ⟨rfl, rfl⟩ |
    ⟨rfl, rfl⟩ | ⟨rfl, rfl⟩ | ⟨rfl, rfl⟩ | ⟨rfl, rfl⟩ | ⟨rfl, rfl⟩ <;>
    rw [tokens_between (by decide) h.lexed (enclosure_starts _)]
  · have := Reads.fence (a := .char '.') (b := .char '|') (by decide) (by decide) h
    have := (Reads.group (this.nuc [])).one
    have := Reads.command (w := c!"overline") (n := 1) (by decide) rfl this
    have e : tokens (enclosure c!"actuarial").1 =
      [.word c!"overline", .char '{', .word c!"left", .char '.'] := by decide
    have e' : tokens (enclosure c!"actuarial").2 = [.word c!"right", .char '|', .char '}'] := by
      decide
    rw [e, e']
    simpa using this
  · exact simple c!"sqrt" (by decide)
  · exact simple c!"boxed" (by decide)
  · exact simple c!"boxed" (by decide)
  · exact simple c!"boxed" (by decide)
  · exact simple c!"overline" (by decide)
  · exact simple c!"underline" (by decide)
  · exact simple c!"cancel" (by decide)
  · exact simple c!"bcancel" (by decide)
  · have := Reads.command (w := c!"cancelto") (n := 2) (by decide) rfl
      (Reads.two (.group (.nil (l := []))) g)
    exact this
  · have := Reads.command (w := c!"underline") (n := 1) (by decide) rfl g.one
    have := Reads.atom (l := []) (.word (w := c!"angle") (by decide)) (this.nuc _)
    have := Reads.braces (.group this)
    have e : tokens (enclosure c!"phasorangle").1 =
      [.char '{', .word c!"angle", .word c!"underline", .char '{'] := by decide
    have e' : tokens (enclosure c!"phasorangle").2 = [.char '}', .char '}'] := by decide
    rw [e, e']
    simpa using this

theorem Spec.Reads.divided {k : Str} (hk : ∀ p ∈ enclosures, p.1 ≠ k) {v : List Item} {s : Str}
    (h : Reads (.run [.fence (.char '.') (.char ')') []] v) (tokens s)) :
    Reads (.nucleus (.app c!"overline" [v])) (tokens ((enclosure k).1 ++ s ++ (enclosure k).2)) := by
  have e0 : enclosure k = (c!"\\overline{\\left.\\right)", c!"}") := by
    unfold enclosure
    rw [List.find?_eq_none.2 (by simpa using hk)]
  rw [e0, tokens_between (by decide) h.lexed (Starts.cons (by decide) (by decide))]
  have := Reads.fence (a := .char '.') (b := .char ')') (by decide) (by decide) (.nil (l := []))
  have := Reads.command (w := c!"overline") (n := 1) (by decide) rfl
    (Reads.group (Reads.atom (l := []) this h)).one
  have e : tokens c!"\\overline{\\left.\\right)" =
    [.word c!"overline", .char '{', .word c!"left", .char '.', .word c!"right", .char ')'] := by
    decide
  have e' : tokens c!"}" = [.char '}'] := by decide
  rw [e, e']
  simpa using this

/-! ## Fences -/

theorem Spec.Reads.fenced {op close body : Str} {v : List Item} (h1 : op ∈ delimiters)
    (h2 : close ∈ delimiters) (h : Reads (.run [] v) (tokens body)) :
    Reads (.nucleus (.fence (delimTok op) (delimTok close) v))
      (tokens (c!"\\left" ++ op ++ body ++ c!"\\right" ++ close)) := by
  obtain ⟨a1, a2, a3, -⟩ := delimiters_tokens op h1
  obtain ⟨b1, -, -, b2⟩ := delimiters_tokens close h2
  rw [List.append_assoc (_ ++ body), tokens_between a3 h.lexed (r := c!"\\right" ++ close)
    (Starts.cons (by decide) (by decide)), a2, b2]
  exact .fence a1 b1 h

/-! ## Tables -/

/-- The strings of cells with these readings. -/
def CellsOf (r : List (List Item)) (ss : List Str) : Prop :=
  r.length = ss.length ∧ ∀ p ∈ r.zip ss, Reads (.run [] p.1) (tokens p.2)

/-- A row, and possibly more rows. -/
theorem Spec.Reads.cells {g : List Tok} {tail : List (List (List Item))}
    (hg : ∀ {l f}, Reads (.run [] l) f → Reads (.body ([l] :: tail)) (f ++ g)) :
    ∀ {r : List (List Item)} {ss : List Str}, r ≠ [] → CellsOf r ss →
    Reads (.body (r :: tail)) (tokens (join c!" & " ss) ++ g) ∧
      Verif.lexed (join c!" & " ss) ≠ .bs
  | [], _, hne, _ => absurd rfl hne
  | [l], ss, _, ⟨hl, h⟩ => by
    match ss, hl with
    | [s], _ =>
      have h : Reads (.run [] l) (tokens s) := by simpa using h
      exact ⟨hg h, h.lexed⟩
  | l :: m :: r, ss, _, ⟨hl, h⟩ => by
    match ss, hl with
    | s :: t :: ss, hl =>
      simp only [List.zip_cons_cons, List.mem_cons] at h
      have h1 : Reads (.run [] l) (tokens s) := h _ (.inl rfl)
      obtain ⟨h2, h3⟩ := Reads.cells hg (r := m :: r) (ss := t :: ss) (by simp)
        ⟨by simpa using hl, fun p hp => h p (.inr (by simpa using hp))⟩
      have e : join c!" & " (s :: t :: ss) = s ++ (c!" & " ++ join c!" & " (t :: ss)) := by
        simp [Verif.join]
      have hst : Starts (c!" & " ++ join c!" & " (t :: ss)) := Starts.cons (by decide) (by decide)
      constructor
      · rw [e, tokens_append h1.lexed hst, tokens_append_plain (s := c!" & ") (by decide)]
        have := Reads.column h1 h2
        have e' : tokens c!" & " = [.char '&'] := by decide
        rw [e']
        simpa using this
      · rw [e, lexed_starts h1.lexed hst (by simp), lexed_append_plain (s := c!" & ") (by decide)]
        exact h3

/-- The string of a row with this reading. -/
def RowAs (r : List (List Item)) (s : Str) : Prop :=
  r ≠ [] ∧ ∃ ss, s = join c!" & " ss ∧ CellsOf r ss

theorem RowAs.one {r : List (List Item)} {s : Str} (h : RowAs r s) :
    Reads (.body [r]) (tokens s) := by
  obtain ⟨hne, ss, rfl, hc⟩ := h
  have := Reads.cells (g := []) (tail := []) (fun h => by rw [List.append_nil]; exact .cell h)
    hne hc
  rw [List.append_nil] at this
  exact this.1

theorem Spec.Reads.rows : ∀ {rows : List (List (List Item))} {ss : List Str}, rows ≠ [] →
    rows.length = ss.length → (∀ p ∈ rows.zip ss, RowAs p.1 p.2) →
    (∀ s ∈ ss.tail, ∀ t u, tokens s = t :: u → lineOption t = false) →
    Reads (.body rows) (tokens (join c!" \\\\\n" ss))
  | [], _, hne, _, _, _ => absurd rfl hne
  | [r], ss, _, hl, h, _ => by
    match ss, hl with
    | [s], _ =>
      have h : RowAs r s := by simpa using h
      exact h.one
  | r :: r2 :: rows, ss, _, hl, h, ho => by
    match ss, hl with
    | s :: t :: ss, hl =>
      simp only [List.zip_cons_cons, List.mem_cons] at h
      have hs : RowAs r s := h (r, s) (.inl rfl)
      have ht : RowAs r2 t := h (r2, t) (.inr (.inl rfl))
      have h2 := Reads.rows (rows := r2 :: rows) (ss := t :: ss) (by simp) (by simpa using hl)
        (fun p hp => h p (.inr (by simpa using hp)))
        (fun u hu => ho u (by
          rw [List.tail_cons]
          exact List.mem_of_mem_tail hu))
      have hd : ∀ x u, tokens (join c!" \\\\\n" (t :: ss)) = x :: u → lineOption x = false := by
        have h0 := ho t (by simp)
        cases ss with
        | nil => exact h0
        | cons t2 ss =>
          have e : join c!" \\\\\n" (t :: t2 :: ss) =
              t ++ (c!" \\\\\n" ++ join c!" \\\\\n" (t2 :: ss)) := by
            simp [Verif.join]
          rw [e, tokens_append ht.one.lexed (t := c!" \\\\\n" ++ join c!" \\\\\n" (t2 :: ss))
            (Starts.cons (by decide) (by decide)), tokens_append_plain (s := c!" \\\\\n") (by decide)]
          refine lineOption_false_of_append h0 ?_
          have e' : tokens c!" \\\\\n" = [.symb '\\'] := by decide
          rw [e']
          rintro x u ⟨⟩; rfl
      obtain ⟨hne, cs, rfl, hc⟩ := hs
      have hc' := Reads.cells (g := .symb '\\' :: tokens (join c!" \\\\\n" (t :: ss)))
        (tail := r2 :: rows) (fun h => .line h h2 hd) hne hc
      have e : join c!" \\\\\n" (join c!" & " cs :: t :: ss) =
          join c!" & " cs ++ (c!" \\\\\n" ++ join c!" \\\\\n" (t :: ss)) := by
        simp [Verif.join]
      have hst : Starts (c!" \\\\\n" ++ join c!" \\\\\n" (t :: ss)) :=
        Starts.cons (by decide) (by decide)
      have e' : tokens c!" \\\\\n" = [.symb '\\'] := by decide
      rw [e, tokens_append hc'.2 hst, tokens_append_plain (s := c!" \\\\\n") (by decide), e']
      exact hc'.1

theorem Spec.Reads.environ {env s : Str} {rows : List (List (List Item))} (he : env ∈ matrixNames)
    (h : Reads (.body rows) (tokens s)) :
    Reads (.nucleus (.matrix env rows)) (tokens (environment env [s])) := by
  obtain ⟨a, b, c⟩ := environment_tokens env he
  have e : environment env [s] =
      (c!"\\begin{" ++ env ++ c!"}\n") ++ s ++ (c!"\n\\end{" ++ env ++ c!"}") := by
    simp [environment]
  rw [e, tokens_between b h.lexed (r := c!"\n\\end{" ++ env ++ c!"}")
    (Starts.cons (by decide) (by decide)), a, c]
  have := Reads.matrix he h
  simpa using this

theorem Spec.Reads.inner {s : Str} {rows : List (List (List Item))}
    (h : Reads (.body rows) (tokens s)) :
    Reads (.nucleus (.matrix c!"matrix" rows))
      (tokens (c!"\\begin{matrix}" ++ s ++ c!"\\end{matrix}")) := by
  rw [tokens_between (by decide) h.lexed (Starts.cons (by decide) (by decide))]
  have := Reads.matrix (name := c!"matrix") (by decide) h
  have e : tokens c!"\\begin{matrix}" = .word c!"begin" :: named c!"matrix" := by decide
  have e' : tokens c!"\\end{matrix}" = .word c!"end" :: named c!"matrix" := by decide
  rw [e, e']
  simpa using this

/-- Elements and their readings. -/
theorem all_read {b : Bool} : ∀ (ks : List Node) (vs : List (List Item)), ks.length = vs.length →
    (∀ p ∈ ks.zip vs, ∃ s, Renders b p.1 s ∧ Reads (.run [] p.2) (tokens s)) →
    ∃ ss, ks.length = ss.length ∧ (∀ p ∈ ks.zip ss, Renders b p.1 p.2) ∧ CellsOf vs ss
  | [], [], _, _ => ⟨[], rfl, by simp, rfl, by simp⟩
  | k :: ks, v :: vs, hl, h => by
    simp only [List.zip_cons_cons, List.mem_cons] at h
    obtain ⟨s, hr, hs⟩ := h (k, v) (.inl rfl)
    obtain ⟨ss, e1, e2, e3, e4⟩ := all_read ks vs (by simpa using hl) fun p hp => h p (.inr hp)
    refine ⟨s :: ss, by simp [e1], ?_, by simp [e3], ?_⟩
    · simp only [List.zip_cons_cons, List.mem_cons]
      rintro p (rfl | hp)
      · exact hr
      · exact e2 p hp
    · simp only [List.zip_cons_cons, List.mem_cons]
      rintro p (rfl | hp)
      · exact hs
      · exact e4 p hp

/-- The rows of a table. -/
theorem rows_read : ∀ (rs : List Node) (rows : List (List (List Item))), rs.length = rows.length →
    (∀ p ∈ rs.zip rows, Spec.cells p.1 ≠ [] ∧ (Spec.cells p.1).length = p.2.length) →
    (∀ p ∈ rs.zip rows, ∀ q ∈ (Spec.cells p.1).zip p.2,
      ∃ s, Renders true q.1 s ∧ Reads (.run [] q.2) (tokens s)) →
    ∃ ss, rs.length = ss.length ∧ (∀ p ∈ rs.zip ss, Renders true p.1 p.2) ∧
      rows.length = ss.length ∧ ∀ p ∈ rows.zip ss, RowAs p.1 p.2
  | [], [], _, _, _ => ⟨[], rfl, by simp, rfl, by simp⟩
  | r :: rs, v :: vs, hl, hn, h => by
    simp only [List.zip_cons_cons, List.mem_cons] at h hn
    obtain ⟨ss, e1, e2, e3, e4⟩ := rows_read rs vs (by simpa using hl)
      (fun p hp => hn p (.inr hp)) (fun p hp => h p (.inr hp))
    have hr : ∃ s, Renders true r s ∧ RowAs v s := by
      have hc := h (r, v) (.inl rfl)
      obtain ⟨hne, hlen⟩ := hn (r, v) (.inl rfl)
      obtain ⟨ts, f1, f2, f3⟩ := all_read _ _ hlen hc
      have hv : v ≠ [] := by
        rintro rfl
        exact hne (List.length_eq_zero_iff.1 hlen)
      unfold Spec.cells at f1 f2
      dsimp only at f1 f2
      split at f1
      · rename_i ht
        rw [if_pos ht] at f2
        cases r with
        | elem tag A cs =>
          have ht : tag = c!"mtr" := by simpa [tagIs] using ht
          subst ht
          exact ⟨_, .mtr f1 f2, hv, ts, rfl, f3⟩
        | _ => cases ht
      · rename_i ht
        rw [if_neg ht] at f2
        match ts, f1 with
        | [s], _ => exact ⟨s, by simpa using f2, hv, [s], rfl, f3⟩
    obtain ⟨s, h1, h2⟩ := hr
    refine ⟨s :: ss, by simp [e1], ?_, by simp [e3], ?_⟩
    · simp only [List.zip_cons_cons, List.mem_cons]
      rintro p (rfl | hp)
      · exact h1
      · exact e2 p hp
    · simp only [List.zip_cons_cons, List.mem_cons]
      rintro p (rfl | hp)
      · exact h2
      · exact e4 p hp

/-! ## Roots and stacks -/

theorem Spec.Reads.rooted {v w : List Item} {n i : Str} (hi : Reads (.run [] w) (tokens i))
    (hb : ']' ∉ i) (hn : Reads (.run [] v) (tokens n)) :
    Reads (.nucleus (.root w v)) (tokens (c!"\\sqrt[" ++ i ++ c!"]" ++ Spec.braces n)) := by
  have hst : Starts (c!"]" ++ Spec.braces n) := .cons (by decide) (by decide)
  rw [List.append_assoc, tokens_between (by decide) hi.lexed hst,
    tokens_append_plain (s := c!"]") (by decide)]
  exact .root hi (tokens_no_char hb (by simp)) hn.braced.1

theorem accents_tokens' : ∀ a ∈ accentCommands, tokens a = [.word a.tail] ∧
    (a.tail, 1) ∈ commands ∧ lexed a ≠ .bs ∧ accepts a = false := by decide +kernel

theorem Spec.Reads.accented {v : List Item} {set x a : Str} (ha : a ∈ accentCommands)
    (hx : Reads (.run [] v) (tokens x)) :
    Reads (.nucleus (.app a.tail [v])) (tokens (stacked set x a)) := by
  rw [stacked, if_pos ha]
  obtain ⟨e, hm, hl, -⟩ := accents_tokens' a ha
  exact Reads.cmd e hl hm (starts_braces' _) hx.braced.1.one

theorem Spec.Reads.stack {v u : List Item} {set x a w : Str} (hx : Reads (.run [] v) (tokens x))
    (ha : Reads (.run [] u) (tokens a)) (hs : tokens set = [.word w])
    (hl : Verif.lexed set ≠ .bs) (hw : (w, 2) ∈ commands) :
    Reads (.nucleus (.app w [u, v])) (tokens (stacked set x a)) := by
  have h : a ∉ accentCommands := by
    intro h
    exact not_formula (accents_tokens' a h).2.2.2 ((formula_iff a).2 ⟨u, ha⟩)
  rw [stacked, if_neg h, List.append_assoc]
  exact Reads.cmd hs hl hw (starts_braces _ _) (ha.braced₂ hx)

end Verif
