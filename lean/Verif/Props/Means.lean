import Verif.Lemmas.Means

/-!
# C60 — the LaTeX is read as what the document says

`Spec.Reads` says what a reader of LaTeX makes of a string: fractions, roots, scripts and the thing
they belong to, fences, matrices with their rows and cells.  `Spec.Means` says what an element
stands for.  The two agree.
-/

namespace Verif
open Spec

theorem Spec.TableOf.matrix {A : Attrs} {cs : List Node} {t : Node} {rs : List Node}
    {ss : List Str} (hk : kids cs = [t]) (ht : TableOf t rs) (e1 : rs.length = ss.length)
    (e2 : ∀ p ∈ rs.zip ss, Renders true p.1 p.2) :
    Renders false (.elem c!"mfenced" A cs)
      (Spec.matrix (attr A c!"open") (attr A c!"close") [join c!" \\\\\n" ss]) := by
  obtain ⟨x, hx, hxt⟩ := ht.hasTable
  have htab : HasTable cs :=
    ⟨x, mem_elements_of_mem (mem_kids.1 (by rw [hk]; simp)).1 hx, hxt⟩
  refine .matrix (ss := [join c!" \\\\\n" ss]) htab (by rw [hk]; rfl) ?_
  rw [hk]
  simpa using ht.renders e1 e2

theorem rows_ne {α β : Type} {rs : List α} {rows : List β} (h : rs ≠ [])
    (hl : rs.length = rows.length) : rows ≠ [] := by
  rintro rfl
  exact h (List.length_eq_zero_iff.1 hl)

/-- **C60** What an element stands for is what its LaTeX is read as, wherever it stands. -/
theorem C60_phrase {b : Bool} {l l' : List Item} {n : Node} (h : Means b l n l') :
    ∃ s, Renders b n s ∧ Reads (.run l l') (tokens s) := by
  induction h with
  | row ht h0 _ ih =>
    obtain ⟨ss, e1, e2, e3⟩ := Reads.row ih
    exact ⟨_, .row ht e1 e2, h0 ▸ e3⟩
  | math h0 _ ih =>
    obtain ⟨ss, e1, e2, e3⟩ := Reads.row ih
    refine ⟨_, .math e1 e2, ?_⟩
    rw [tokens_normalize e3.latex.sane]
    exact h0 ▸ e3
  | mi hs hf hr =>
    refine ⟨_, .mi hs, ?_⟩
    rw [hf]; exact hr
  | @font b l v A cs s hs hf hr =>
    refine ⟨_, .mi hs, ?_⟩
    obtain ⟨i, e, h⟩ := Reads.fonted (miFonts' _) hr hf
    rw [e]; exact h.nuc l
  | mo hs hr => exact ⟨_, .mo hs, hr⟩
  | mn hs hr => exact ⟨_, .mn hs, hr⟩
  | mtext h =>
    obtain ⟨s, h1, h2, -⟩ := h.written (fonts_text _)
    exact ⟨s, .mtext h1, h2⟩
  | mphantom => exact ⟨_, .mphantom, .nil⟩
  | @msqrt b l A cs ls h0 _ ih =>
    obtain ⟨ss, e1, e2, e3⟩ := Reads.row ih
    rw [h0] at e3
    exact ⟨_, .msqrt e1 e2, (Reads.cmd (p := c!"\\sqrt") (w := c!"sqrt") (ls := [_]) (by decide) (by decide)
      (by decide : (c!"sqrt", 1) ∈ commands) (starts_braces' _) e3.braced.1.one).nuc l⟩
  | @merror b l A cs ls h0 _ ih =>
    obtain ⟨ss, e1, e2, e3⟩ := Reads.row ih
    rw [h0] at e3
    refine ⟨_, .merror e1 e2, ?_⟩
    rw [tokens_append_plain (by decide)]
    exact (Reads.color e3.braced.1).nuc l
  | @menclose b l A cs ls f hk h0 _ ih =>
    obtain ⟨ss, e1, e2, e3⟩ := Reads.row ih
    rw [h0] at e3
    exact ⟨_, .menclose e1 e2, (Reads.enclosed hk e3).nuc l⟩
  | @longdiv b l A cs ls hk h0 _ ih =>
    obtain ⟨ss, e1, e2, e3⟩ := Reads.row ih
    rw [h0] at e3
    exact ⟨_, .menclose e1 e2, (Reads.divided hk e3).nuc l⟩
  | @mfrac b l v w A cs n d hk ha _ _ ih1 ih2 =>
    obtain ⟨s1, r1, l1⟩ := ih1
    obtain ⟨s2, r2, l2⟩ := ih2
    refine ⟨_, .mfrac hk ha r1 r2, ?_⟩
    rw [List.append_assoc]
    exact (Reads.cmd (p := c!"\\frac") (w := c!"frac") (ls := [_, _]) (by decide) (by decide)
      (by decide : (c!"frac", 2) ∈ commands) (starts_braces _ _) (l1.braced₂ l2)).nuc l
  | bevelled hk ha h1 _ h2 _ ih1 ih2 =>
    obtain ⟨s1, r1, l1⟩ := ih1
    obtain ⟨s2, r2, l2⟩ := ih2
    refine ⟨_, .bevelled hk ha r1 r2, ?_⟩
    have l1 := l1.part r1 h1
    have l2 := l2.part r2 h2
    rw [List.append_assoc, tokens_append l1.lexed (t := c!"/" ++ parensIfLong s2)
      (Starts.cons (by decide) (by decide)), tokens_append_plain (s := c!"/") (by decide)]
    exact l1.run_append (.atom (.char (c := '/') (by decide)) l2)
  | @mroot b l v w A cs n i hk hb _ _ ih1 ih2 =>
    obtain ⟨s1, r1, l1⟩ := ih1
    obtain ⟨s2, r2, l2⟩ := ih2
    exact ⟨_, .mroot hk r1 r2, (Reads.rooted l2 (hb _ r2) l1).nuc l⟩
  | msup hk ha _ hi _ ih1 ih2 =>
    obtain ⟨s1, r1, l1⟩ := ih1
    obtain ⟨s2, r2, l2⟩ := ih2
    exact ⟨_, .msup hk r1 r2, (l1.base r1 ha).raise hi l2⟩
  | msub hk ha _ hi _ ih1 ih2 =>
    obtain ⟨s1, r1, l1⟩ := ih1
    obtain ⟨s2, r2, l2⟩ := ih2
    exact ⟨_, .msub hk r1 r2, (l1.base r1 ha).lower hi l2⟩
  | msubsup hk ha _ hi hi' _ _ ih1 ih2 ih3 =>
    obtain ⟨s1, r1, l1⟩ := ih1
    obtain ⟨s2, r2, l2⟩ := ih2
    obtain ⟨s3, r3, l3⟩ := ih3
    exact ⟨_, .msubsup hk r1 r2 r3, ((l1.base r1 ha).lower hi l2).raise (by simpa [Item.hasSup]) l3⟩
  | munderover hk _ hi hi' _ _ ih1 ih2 ih3 =>
    obtain ⟨s1, r1, l1⟩ := ih1
    obtain ⟨s2, r2, l2⟩ := ih2
    obtain ⟨s3, r3, l3⟩ := ih3
    exact ⟨_, .munderover hk r1 r2 r3, (l1.lower hi l2).raise (by simpa [Item.hasSup]) l3⟩
  | @under b l v w A cs x a hk _ _ ih1 ih2 =>
    obtain ⟨s1, r1, l1⟩ := ih1
    obtain ⟨s2, r2, l2⟩ := ih2
    exact ⟨_, .munder hk r1 r2, (l1.stack l2 (w := c!"underset") (by decide) (by decide)
      (by decide)).nuc l⟩
  | @underAccent b l v A cs x a s hk _ hs ha ih1 =>
    obtain ⟨s1, r1, l1⟩ := ih1
    exact ⟨_, .munder hk r1 ha, (l1.accented hs).nuc l⟩
  | @over b l v w A cs x a hk _ _ ih1 ih2 =>
    obtain ⟨s1, r1, l1⟩ := ih1
    obtain ⟨s2, r2, l2⟩ := ih2
    exact ⟨_, .mover hk r1 r2, (l1.stack l2 (w := c!"overset") (by decide) (by decide)
      (by decide)).nuc l⟩
  | @overAccent b l v A cs x a s hk _ hs ha ih1 =>
    obtain ⟨s1, r1, l1⟩ := ih1
    exact ⟨_, .mover hk r1 ha, (l1.accented hs).nuc l⟩
  | @postscripts b l l0 l1 v w i A cs x d e hk hp hx _ hi hi' _ _ ih1 ih2 ih3 =>
    obtain ⟨s1, r1, l1⟩ := ih1
    obtain ⟨s2, r2, l2⟩ := ih2
    obtain ⟨s3, r3, l3⟩ := ih3
    have e1 : prePair (kids cs) = none := by rw [hk]; rfl
    have e2 : postPair (kids cs) = some (d, e) := by rw [hk]; simp [postPair, hp]
    refine ⟨_, .mmultiscripts (s1 := []) (s2 := []) (s3 := s2) (s4 := s3) hk (by simp) r1
      (by simp [e1]) (by simp [e1]) ?_ ?_, ?_⟩
    · rw [e2]; rintro p q ⟨⟩; exact r2
    · rw [e2]; rintro p q ⟨⟩; exact r3
    · rw [e1, e2]
      have := ((l1.spaced r1 hx).lower hi l2).raise (by simpa [Item.hasSup]) l3
      simpa only [scripts, Option.isSome_none, Option.isSome_some, Bool.false_eq_true, if_false,
        if_true, List.nil_append, List.append_assoc] using this
  | @prescripts b l l0 l1 l' v w A cs x m p r hk hm _ _ hx _ ih1 ih2 ih3 =>
    obtain ⟨s1, r1, l1⟩ := ih1
    obtain ⟨s2, r2, l2⟩ := ih2
    obtain ⟨s3, r3, l3⟩ := ih3
    have e1 : prePair (kids cs) = some (p, r) := by rw [hk]; simp [prePair, hm]
    have e2 : postPair (kids cs) = none := by rw [hk]; simp [postPair, hm]
    refine ⟨_, .mmultiscripts (s1 := s1) (s2 := s2) (s3 := []) (s4 := []) hk (by simp) r3
      ?_ ?_ (by simp [e2]) (by simp [e2]), ?_⟩
    · rw [e1]; rintro p q ⟨⟩; exact r1
    · rw [e1]; rintro p q ⟨⟩; exact r2
    · rw [e1, e2]
      have := Reads.pre l1 l2 (l3.spacePart r3 hx)
      simpa only [scripts, Option.isSome_none, Option.isSome_some, Bool.false_eq_true, if_false,
        if_true, List.append_nil] using this
  | @allscripts b l l0 l1 v w v' w' i A cs x d e m p r hk hd hm _ _ hx _ hi hi' _ _ ih1 ih2 ih3 ih4 ih5 =>
    obtain ⟨s1, r1, l1⟩ := ih1
    obtain ⟨s2, r2, l2⟩ := ih2
    obtain ⟨s3, r3, l3⟩ := ih3
    obtain ⟨s4, r4, l4⟩ := ih4
    obtain ⟨s5, r5, l5⟩ := ih5
    have e1 : prePair (kids cs) = some (p, r) := by rw [hk]; simp [prePair, hd, hm]
    have e2 : postPair (kids cs) = some (d, e) := by rw [hk]; simp [postPair, hd]
    refine ⟨_, .mmultiscripts (s1 := s1) (s2 := s2) (s3 := s4) (s4 := s5) hk (by simp) r3
      ?_ ?_ ?_ ?_, ?_⟩
    · rw [e1]; rintro p q ⟨⟩; exact r1
    · rw [e1]; rintro p q ⟨⟩; exact r2
    · rw [e2]; rintro p q ⟨⟩; exact r4
    · rw [e2]; rintro p q ⟨⟩; exact r5
    · rw [e1, e2]
      have := Reads.pre l1 l2 (((l3.spaced r3 hx).lower hi l4).raise (by simpa [Item.hasSup]) l5)
      simpa only [scripts, Option.isSome_some, if_true, List.append_assoc] using this
  | @toggle b l A cs ls ht h0 _ ih =>
    obtain ⟨ss, e1, e2, e3⟩ := Reads.chain (kids cs) (sep := fun _ => c!" \\Longrightarrow ")
      (src := fun i => if i = 0 then l else ls i ++ [arrowItem]) (out := ls)
      (fun _ => ⟨.cons (by decide) (by decide), by decide, by simp⟩)
      (fun i => by
        rw [if_neg (by omega)]
        exact (Reads.word (w := c!"Longrightarrow") (by decide)).nuc _) ih (by simp [h0])
    exact ⟨_, .toggle ht e1 e2, by rw [join_interleave]; exact h0 ▸ e3⟩
  | maction ht hk _ ih =>
    obtain ⟨s, r, l⟩ := ih
    exact ⟨s, .maction ht hk r, l⟩
  | @mfenced b l A cs ls ht ho hc hs h0 _ ih =>
    obtain ⟨ss, e1, e2, e3⟩ := Reads.chain (kids cs) (sep := separator (attr A c!"separators"))
      (src := fun i => if i = 0 then [] else ls i ++ [sepItem (attr A c!"separators") (i - 1)])
      (out := ls)
      (fun i => by
        obtain ⟨c, e, a1, a2, a3⟩ := separator_char hs i
        obtain ⟨f1, f2, f3⟩ := tokens_sep a1 a3
        rw [e]
        exact ⟨.cons a2 f3, f2, by simp⟩)
      (fun i => by
        obtain ⟨c, e, a1, a2, a3⟩ := separator_char hs i
        obtain ⟨f1, f2, f3⟩ := tokens_sep a1 a3
        rw [if_neg (by omega), Nat.add_sub_cancel, sepItem, e, f1]
        exact (Reads.char a1).nuc _) ih (by simp [h0])
    rw [h0] at e3
    exact ⟨_, .mfenced ht e1 e2, (Reads.fenced ho hc e3).nuc l⟩
  | @matrix l A cs t rs env rows hk ht he hne hl hc _ hn ih =>
    obtain ⟨ss, e1, e2, e3, e4⟩ := rows_read rs rows hl hc ih
    have hb := Reads.rows (rows_ne hne hl) e3 e4 (tail_options e1 e2 hn)
    refine ⟨_, ht.matrix hk e1 e2, ?_⟩
    have hf : environments.find? (fun p => p.1 = (attr A c!"open", attr A c!"close")) =
        some ((attr A c!"open", attr A c!"close"), env) := by
      generalize (attr A c!"open", attr A c!"close") = k at he
      revert he
      simp only [environments, List.mem_cons, List.not_mem_nil, or_false, Prod.mk.injEq]
      rintro (⟨rfl, rfl⟩ | ⟨rfl, rfl⟩ | ⟨rfl, rfl⟩ | ⟨rfl, rfl⟩ | ⟨rfl, rfl⟩) <;> rfl
    rw [Spec.matrix, hf]
    have hm : ∀ p ∈ environments, p.2 ∈ matrixNames := by decide
    exact (Reads.environ (hm _ he) hb).nuc l
  | @twice l A cs t rs rows hk ht he hoc hne hl hc _ hn ih =>
    obtain ⟨ss, e1, e2, e3, e4⟩ := rows_read rs rows hl hc ih
    have hb := Reads.rows (rows_ne hne hl) e3 e4 (tail_options e1 e2 hn)
    refine ⟨_, ht.matrix hk e1 e2, ?_⟩
    have hf : environments.find? (fun p => p.1 = (attr A c!"open", attr A c!"close")) = none := by
      rw [List.find?_eq_none]
      rintro ⟨p, env⟩ hp e
      exact he env ((by simpa using e : p = _) ▸ hp)
    rw [Spec.matrix, hf]
    simp only [hoc, if_true]
    exact (Reads.environ (env := c!"bmatrix") (by decide) hb).nuc l
  | @delimited l A cs t rs rows hk ht he hoc ho hcl hne hl hc _ hn ih =>
    obtain ⟨ss, e1, e2, e3, e4⟩ := rows_read rs rows hl hc ih
    have hb := Reads.rows (rows_ne hne hl) e3 e4 (tail_options e1 e2 hn)
    refine ⟨_, ht.matrix hk e1 e2, ?_⟩
    have hf : environments.find? (fun p => p.1 = (attr A c!"open", attr A c!"close")) = none := by
      rw [List.find?_eq_none]
      rintro ⟨p, env⟩ hp e
      exact he env ((by simpa using e : p = _) ▸ hp)
    rw [Spec.matrix, hf]
    simp only [hoc, if_false]
    exact (Reads.fenced ho hcl ((Reads.environ (env := c!"matrix") (by decide) hb).nuc [])).nuc l
  | @innerTable b l A cs rows hb hne hl hc _ hn ih =>
    obtain ⟨ss, e1, e2, e3, e4⟩ := rows_read (kids cs) rows hl hc ih
    exact ⟨_, .innerTable hb e1 e2,
      (Reads.inner (Reads.rows (rows_ne hne hl) e3 e4 (tail_options e1 e2 hn))).nuc l⟩


/-- **C60** A formula can be read in one way only. -/
theorem C60_reading_unique {s : Str} {v w : List Item} (h : ReadsAs s v) (h' : ReadsAs s w) :
    v = w := h.unique h'

/-- **C60** The formulas of C59 are the texts that can be read. -/
theorem C60_formula_reads (s : Str) : Formula s ↔ ∃ v, ReadsAs s v := formula_iff s

/-- **C60** What an element stands for is what its LaTeX is read as. -/
theorem C60_element {b : Bool} {n : Node} {v : List Item} (h : Means b [] n v) :
    ∃ s, latexIn b n = .ok s ∧ ReadsAs s v := by
  obtain ⟨s, hr, hl⟩ := C60_phrase h
  have he : n.isElem = true := by cases h <;> rfl
  exact ⟨s, (renders_iff he b s).1 hr, hl⟩

/-- **C60** An element stands for one thing only. -/
theorem C60_meaning_unique {b : Bool} {n : Node} {v w : List Item} (h : Means b [] n v)
    (h' : Means b [] n w) : v = w := by
  obtain ⟨s, e, r⟩ := C60_element h
  obtain ⟨s', e', r'⟩ := C60_element h'
  rw [e] at e'
  cases e'
  exact r.unique r'

/-- **C60** Elements that stand for different things have different LaTeX. -/
theorem C60_no_confusion {b b' : Bool} {n n' : Node} {v v' : List Item} (h : Means b [] n v)
    (h' : Means b' [] n' v') (he : latexIn b n = latexIn b' n') : v = v' := by
  obtain ⟨s, e, r⟩ := C60_element h
  obtain ⟨s', e', r'⟩ := C60_element h'
  rw [he, e'] at e
  cases e
  exact r.unique r'

/-- **C60** The same of a document with one `math` element. -/
theorem C60_document (d : Doc) (n : Node) (v : List Item) (hm : maths d = [n])
    (h : Means false [] n v) : ∃ s, docResult d = .ok s ∧ ReadsAs s v := by
  rw [docResult_firstOrAll, hm]
  obtain ⟨s, e, hr⟩ := C60_element h
  exact ⟨s, by simp [firstOrAll, e], hr⟩

/-- **C60** at the API. -/
theorem C60_convert (env : Env) (x : Str) (d : Doc) (n : Node) (v : List Item)
    (hp : env.parse (prep x) = .ok d) (hm : maths d = [n]) (h : Means false [] n v) :
    ∃ s, convert env x = .ok s ∧ ReadsAs s v := by
  rw [C05_accepted_never_repaired env x d hp]
  exact C60_document d n v hm h

/-! ## An example -/

/-- Elements one after the other. -/
inductive MeansAll (b : Bool) : List Item → List Node → List Item → Prop
  | nil {l} : MeansAll b l [] l
  | cons {l l1 l' n ns} : Means b l n l1 → MeansAll b l1 ns l' → MeansAll b l (n :: ns) l'

theorem MeansAll.chain {b : Bool} {l l' : List Item} {ns : List Node} (h : MeansAll b l ns l') :
    ∃ ls : Nat → List Item, ls 0 = l ∧ ls ns.length = l' ∧
      ∀ i (h : i < ns.length), Means b (ls i) ns[i] (ls (i + 1)) := by
  induction h with
  | @nil l => exact ⟨fun _ => l, rfl, rfl, by simp⟩
  | @cons l l1 l' n ns h _ ih =>
    obtain ⟨ls, e0, e1, e2⟩ := ih
    refine ⟨fun i => if i = 0 then l else ls (i - 1), rfl, by simpa using e1, ?_⟩
    intro i hi
    match i, hi with
    | 0, _ => simpa [e0] using h
    | i + 1, hi => simpa using e2 i (by simpa using hi)

theorem MeansAll.row {b : Bool} {l l' : List Item} {tag : Str} {A : Attrs} {cs : List Node}
    (ht : tag ∉ structured) (h : MeansAll b l (kids cs) l') : Means b l (.elem tag A cs) l' := by
  obtain ⟨ls, e0, e1, e2⟩ := h.chain
  exact e1 ▸ .row ht e0 e2

theorem MeansAll.math {b : Bool} {l l' : List Item} {A : Attrs} {cs : List Node}
    (h : MeansAll b l (kids cs) l') : Means b l (.elem c!"math" A cs) l' := by
  obtain ⟨ls, e0, e1, e2⟩ := h.chain
  exact e1 ▸ .math e0 e2

theorem MeansAll.msqrt {b : Bool} {l v : List Item} {A : Attrs} {cs : List Node}
    (h : MeansAll b [] (kids cs) v) :
    Means b l (.elem c!"msqrt" A cs) (l ++ [.app c!"sqrt" [v]]) := by
  obtain ⟨ls, e0, e1, e2⟩ := h.chain
  exact e1 ▸ .msqrt e0 e2

/-- A symbol. -/
def symTok : Tok → Bool
  | .char c => ordinary c
  | .symb c => controlSymbols.contains c
  | .word w => symbols.contains w

theorem reads_symbol (l : List Item) {s : Str} {t : Tok} (h : tokens s = [t])
    (ht : symTok t = true) : Reads (.run l (l ++ [.sym t])) (tokens s) := by
  rw [h]
  cases t with
  | char c => exact (Reads.char ht).nuc l
  | symb c => exact (Reads.symb (List.contains_iff_mem.1 ht)).nuc l
  | word w => exact (Reads.word (List.contains_iff_mem.1 ht)).nuc l

theorem means_mi {b : Bool} (l : List Item) {x : Str} {t : Tok}
    (h : tokens (characterApply (normalize (tokenData [.text x]))) = [t])
    (ht : symTok t = true) : Means b l (.elem c!"mi" [] [.text x]) (l ++ [.sym t]) :=
  .mi ((miSymbol_iff _ _).2 rfl) (by decide) (reads_symbol l h ht)

theorem means_mo {b : Bool} (l : List Item) {x : Str} {t : Tok}
    (h : tokens (operate (normalize (tokenData [.text x]))) = [t])
    (ht : symTok t = true) : Means b l (.elem c!"mo" [] [.text x]) (l ++ [.sym t]) :=
  .mo ((moSymbol_iff _ _).2 rfl) (reads_symbol l h ht)

theorem means_mn {b : Bool} (l : List Item) {x : Str} {t : Tok}
    (h : tokens ((fun k => if (Dict.get? mathNumberByGlyph k).getD [] ≠ [] then
      (Dict.get? mathNumberByGlyph k).getD [] else k) (normalize (tokenData [.text x]))) = [t])
    (ht : symTok t = true) : Means b l (.elem c!"mn" [] [.text x]) (l ++ [.sym t]) :=
  .mn ((mnSymbol_iff _ _).2 rfl) (reads_symbol l h ht)

theorem renders_ok {b : Bool} {n : Node} {t : Str} (he : n.isElem = true)
    (h : latexIn b n = .ok t) {P : Str → Prop} (hp : P t) : ∀ s, Renders b n s → P s := by
  intro s hs
  have := (renders_iff he b s).1 hs
  rw [h] at this
  cases this
  exact hp

/-- `<mi>x</mi>` and so on. -/
def tokenOf (tag x : Str) : Node := .elem tag [] [.text x]

/-- `b + α` -/
def sumNode : Node :=
  .elem c!"mrow" [] [tokenOf c!"mi" c!"b", tokenOf c!"mo" c!"+", tokenOf c!"mi" c!"α"]

/-- The root of a quadratic equation, so to speak. -/
def rootNode : Node :=
  .elem c!"math" [] [
    .elem c!"msub" [] [tokenOf c!"mi" c!"x", tokenOf c!"mn" c!"1"],
    tokenOf c!"mo" c!"=",
    .elem c!"mfrac" [] [
      .elem c!"mrow" [] [tokenOf c!"mo" c!"−", tokenOf c!"mi" c!"b", tokenOf c!"mo" c!"±",
        .elem c!"msqrt" [] [.elem c!"msup" [] [sumNode, tokenOf c!"mn" c!"2"]]],
      .elem c!"mrow" [] [tokenOf c!"mn" c!"2", tokenOf c!"mi" c!"a"]]]

/-- What it stands for: the square belongs to the sum in parentheses, the numerator has four
items, the denominator two. -/
def rootItems : List Item :=
  [.sub (.sym (.char 'x')) [.sym (.char '1')], .sym (.char '='),
   .app c!"frac" [
    [.sym (.char '-'), .sym (.char 'b'), .sym (.word c!"pm"),
     .app c!"sqrt" [[.sup (.fence (.char '(') (.char ')')
       [.sym (.char 'b'), .sym (.char '+'), .sym (.word c!"alpha")]) [.sym (.char '2')]]]],
    [.sym (.char '2'), .sym (.char 'a')]]]

theorem rootNode_means : Means false [] rootNode rootItems := by
  have sum : Means false [] sumNode [.sym (.char 'b'), .sym (.char '+'), .sym (.word c!"alpha")] :=
    MeansAll.row (by decide) (.cons (means_mi _ (by decide +kernel) (by decide +kernel))
      (.cons (means_mo _ (by decide +kernel) (by decide +kernel))
        (.cons (means_mi _ (by decide +kernel) (by decide +kernel)) .nil)))
  have x1 : Means false [] (.elem c!"msub" [] [tokenOf c!"mi" c!"x", tokenOf c!"mn" c!"1"])
      [.sub (.sym (.char 'x')) [.sym (.char '1')]] :=
    .msub rfl (.inl ⟨.inl (by decide), rfl, rfl⟩)
      (means_mi [] (by decide +kernel) (by decide +kernel)) rfl
      (means_mn [] (by decide +kernel) (by decide +kernel))
  have sq : Means false [] (.elem c!"msup" [] [sumNode, tokenOf c!"mn" c!"2"])
      [.sup (.fence (.char '(') (.char ')')
       [.sym (.char 'b'), .sym (.char '+'), .sym (.word c!"alpha")]) [.sym (.char '2')]] :=
    .msup (l := []) rfl (.inr ⟨⟨by decide, renders_ok rfl (t := c!"b + \\alpha")
      (by decide +kernel) (by decide)⟩, rfl, rfl⟩) sum rfl
      (means_mn [] (by decide +kernel) (by decide +kernel))
  refine MeansAll.math (.cons x1 (.cons (means_mo _ (by decide +kernel) (by decide +kernel))
    (.cons (.mfrac rfl rfl ?_ ?_) .nil)))
  · exact MeansAll.row (by decide) (.cons (means_mo _ (by decide +kernel) (by decide +kernel))
      (.cons (means_mi _ (by decide +kernel) (by decide +kernel))
        (.cons (means_mo _ (by decide +kernel) (by decide +kernel))
          (.cons (MeansAll.msqrt (.cons sq .nil)) .nil))))
  · exact MeansAll.row (by decide) (.cons (means_mn _ (by decide +kernel) (by decide +kernel))
      (.cons (means_mi _ (by decide +kernel) (by decide +kernel)) .nil))

/-- The hypotheses hold of it, and this is the string that is read. -/
example : Means false [] rootNode rootItems ∧
    latexIn false rootNode = .ok c!"x_{1} = \\frac{- b \\pm \\sqrt{\\left(b + \\alpha\\right)^{2}}}{2 a}" ∧
    ReadsAs c!"x_{1} = \\frac{- b \\pm \\sqrt{\\left(b + \\alpha\\right)^{2}}}{2 a}" rootItems := by
  refine ⟨rootNode_means, by decide +kernel, ?_⟩
  obtain ⟨s, e, h⟩ := C60_element rootNode_means
  have e' : latexIn false rootNode =
    .ok c!"x_{1} = \\frac{- b \\pm \\sqrt{\\left(b + \\alpha\\right)^{2}}}{2 a}" := by decide +kernel
  rw [e'] at e
  cases e
  exact h

/-- `<mtd>…</mtd>` -/
def tdOf (n : Node) : Node := .elem c!"mtd" [] [n]

/-- A table with two rows, and one letter or digit in each cell. -/
def tableNode : Node :=
  .elem c!"mtable" [] [
    .elem c!"mtr" [] [tdOf (tokenOf c!"mi" c!"a"), tdOf (tokenOf c!"mn" c!"0")],
    .elem c!"mtr" [] [tdOf (tokenOf c!"mn" c!"1"), tdOf (tokenOf c!"mi" c!"β")]]

def tableRows : List (List (List Item)) :=
  [[[.sym (.char 'a')], [.sym (.char '0')]], [[.sym (.char '1')], [.sym (.word c!"beta")]]]

theorem mem_pair {α : Type} {x a b : α} {P : α → Prop} (h : x ∈ [a, b]) (ha : P a) (hb : P b) :
    P x := by
  simp only [List.mem_cons, List.not_mem_nil, or_false] at h
  rcases h with rfl | rfl
  · exact ha
  · exact hb

theorem tableNode_cells : ∀ p ∈ (childElems tableNode).zip tableRows,
    (Spec.cells p.1 ≠ [] ∧ (Spec.cells p.1).length = p.2.length) ∧
    ∀ q ∈ (Spec.cells p.1).zip p.2, Means true [] q.1 q.2 := by
  have td : ∀ {n : Node} {i : Item}, n.isElem = true → Means true [] n [i] →
      Means true [] (tdOf n) [i] := fun {n i} hn h =>
    MeansAll.row (by decide) (by rw [kids, List.filter_cons, hn]; exact .cons h .nil)
  intro p hp
  refine mem_pair (P := fun p => (Spec.cells p.1 ≠ [] ∧ (Spec.cells p.1).length = p.2.length) ∧
    ∀ q ∈ (Spec.cells p.1).zip p.2, Means true [] q.1 q.2) hp
    ⟨⟨by simp [Spec.cells, tagIs, childElems, kids, tdOf, Node.isElem], rfl⟩, fun q hq => ?_⟩
    ⟨⟨by simp [Spec.cells, tagIs, childElems, kids, tdOf, Node.isElem], rfl⟩, fun q hq => ?_⟩
  · exact mem_pair (P := fun q => Means true [] q.1 q.2) hq
      (td rfl (means_mi [] (by decide +kernel) (by decide +kernel)))
      (td rfl (means_mn [] (by decide +kernel) (by decide +kernel)))
  · exact mem_pair (P := fun q => Means true [] q.1 q.2) hq
      (td rfl (means_mn [] (by decide +kernel) (by decide +kernel)))
      (td rfl (means_mi [] (by decide +kernel) (by decide +kernel)))

theorem tableNode_options : ∀ r ∈ (childElems tableNode).tail, NoOption r := by
  intro r hr
  have hr : r = .elem c!"mtr" [] [tdOf (tokenOf c!"mn" c!"1"), tdOf (tokenOf c!"mi" c!"β")] := by
    exact List.mem_singleton.1 hr
  subst hr
  refine renders_ok rfl (t := c!"1 & \\beta") (by decide +kernel) ?_
  rintro t u h
  have : tokens c!"1 & \\beta" = [.char '1', .char '&', .word c!"beta"] := by decide
  rw [this] at h
  cases h
  rfl

/-- A table between a bracket and nothing. -/
def casesNode : Node :=
  .elem c!"mfenced" [(c!"open", c!"["), (c!"close", c!".")] [.elem c!"mrow" [] [tableNode]]

/-- It is a matrix between delimiters; with `[` and `]` it would be another kind of matrix. -/
example : Means false [] casesNode
      [.fence (.char '[') (.char '.') [.matrix c!"matrix" tableRows]] ∧
    Means false [] (.elem c!"mfenced" [(c!"open", c!"["), (c!"close", c!"]")] [tableNode])
      [.matrix c!"bmatrix" tableRows] ∧
    latexIn false casesNode =
      .ok c!"\\left[\\begin{matrix}\na & 0 \\\\\n1 & \\beta\n\\end{matrix}\\right." := by
  refine ⟨?_, ?_, by decide +kernel⟩
  · refine Means.delimited (l := []) (A := [(c!"open", c!"["), (c!"close", c!".")])
      (t := .elem c!"mrow" [] [tableNode]) (rs := childElems tableNode) rfl
      (.row (tag := c!"mrow") (by decide) (n := tableNode) rfl (.table rfl)) ?_ (by decide) (by decide) (by decide) (by decide) rfl
      (fun p hp => (tableNode_cells p hp).1) (fun p hp => (tableNode_cells p hp).2)
      tableNode_options
    have : ∀ p ∈ environments, p.1 ≠ (c!"[", c!".") := by decide
    exact fun env h => this _ h rfl
  · exact Means.matrix (l := []) (rs := childElems tableNode) rfl (.table rfl) (by decide)
      (by decide) rfl (fun p hp => (tableNode_cells p hp).1)
      (fun p hp => (tableNode_cells p hp).2) tableNode_options

/-! ## Where the LaTeX is read as something else -/

/-- **C60** The parentheses depend on the children of the base, not on what they are.  A base
without two children of its own gets none, however much is in it, and the superscript belongs to
its last item. -/
theorem C60_superscript_lands_last {b : Bool} {l v w : List Item} {i : Item} {A : Attrs}
    {cs : List Node} {x e : Node} (hk : kids cs = [x, e]) (hx : (childElems x).length < 2)
    (h1 : Means b l x (v ++ [i])) (hi : i.hasSup = false) (h2 : Means b [] e w) :
    ∃ s, Renders b (.elem c!"msup" A cs) s ∧ Reads (.run l (v ++ [.sup i w])) (tokens s) := by
  obtain ⟨s1, r1, l1⟩ := C60_phrase h1
  obtain ⟨s2, r2, l2⟩ := C60_phrase h2
  refine ⟨_, .msup hk r1 r2, Reads.raise ?_ hi l2⟩
  rw [scriptBase, if_neg (by omega)]
  exact l1

/-- **C60** The same of subscripts. -/
theorem C60_subscript_lands_last {b : Bool} {l v w : List Item} {i : Item} {A : Attrs}
    {cs : List Node} {x e : Node} (hk : kids cs = [x, e]) (hx : (childElems x).length < 2)
    (h1 : Means b l x (v ++ [i])) (hi : i.hasSub = false) (h2 : Means b [] e w) :
    ∃ s, Renders b (.elem c!"msub" A cs) s ∧ Reads (.run l (v ++ [.sub i w])) (tokens s) := by
  obtain ⟨s1, r1, l1⟩ := C60_phrase h1
  obtain ⟨s2, r2, l2⟩ := C60_phrase h2
  refine ⟨_, .msub hk r1 r2, Reads.lower ?_ hi l2⟩
  rw [scriptBase, if_neg (by omega)]
  exact l1

/-- **C60** So the square of a sum in a row of its own is the sum of something and a square. -/
theorem C60_square_of_row_lost :
    ∃ n s, n = .elem c!"msup" [] [.elem c!"mrow" [] [sumNode], tokenOf c!"mn" c!"2"] ∧
      latexIn false n = .ok s ∧ s = c!"b + \\alpha^{2}" ∧
      ReadsAs s [.sym (.char 'b'), .sym (.char '+'),
        .sup (.sym (.word c!"alpha")) [.sym (.char '2')]] := by
  have sum : Means false [] sumNode ([.sym (.char 'b'), .sym (.char '+')] ++
      [.sym (.word c!"alpha")]) :=
    MeansAll.row (by decide) (.cons (means_mi _ (by decide +kernel) (by decide +kernel))
      (.cons (means_mo _ (by decide +kernel) (by decide +kernel))
        (.cons (means_mi _ (by decide +kernel) (by decide +kernel)) .nil)))
  have row : Means false [] (.elem c!"mrow" [] [sumNode]) ([.sym (.char 'b'), .sym (.char '+')] ++
      [.sym (.word c!"alpha")]) := MeansAll.row (by decide) (.cons sum .nil)
  obtain ⟨s, hr, hs⟩ := C60_superscript_lands_last (A := [])
    (cs := [.elem c!"mrow" [] [sumNode], tokenOf c!"mn" c!"2"]) rfl (by decide) row rfl
    (means_mn [] (t := .char '2') (by decide +kernel) (by decide +kernel))
  have e := (renders_iff rfl _ _).1 hr
  have e' : latexIn false (.elem c!"msup" [] [.elem c!"mrow" [] [sumNode], tokenOf c!"mn" c!"2"]) =
    .ok c!"b + \\alpha^{2}" := by decide +kernel
  refine ⟨_, _, rfl, e, ?_, hs⟩
  rw [e'] at e
  cases e
  rfl

/-- **C60** A table in fences without attributes stands in brackets, not in the parentheses that are
the default of `mfenced`. -/
theorem C60_default_fences_brackets {l : List Item} {A : Attrs} {cs : List Node} {t : Node}
    {rs : List Node} {rows : List (List (List Item))} (hk : kids cs = [t]) (ht : TableOf t rs)
    (ho : attr A c!"open" = []) (hcl : attr A c!"close" = []) (hne : rs ≠ [])
    (hl : rs.length = rows.length)
    (hc : ∀ p ∈ rs.zip rows, Spec.cells p.1 ≠ [] ∧ (Spec.cells p.1).length = p.2.length)
    (h : ∀ p ∈ rs.zip rows, ∀ q ∈ (Spec.cells p.1).zip p.2, Means true [] q.1 q.2)
    (hn : ∀ r ∈ rs.tail, NoOption r) :
    ∃ s, Renders false (.elem c!"mfenced" A cs) s ∧
      Reads (.run l (l ++ [.matrix c!"bmatrix" rows])) (tokens s) := by
  obtain ⟨ss, e1, e2, e3, e4⟩ := rows_read rs rows hl hc fun p hp q hq => C60_phrase (h p hp q hq)
  have hb := Reads.rows (rows_ne hne hl) e3 e4 (tail_options e1 e2 hn)
  refine ⟨_, ht.matrix hk e1 e2, ?_⟩
  rw [ho, hcl]
  exact (Reads.environ (env := c!"bmatrix") (by decide) hb).nuc l

/-- The table of the last example. -/
example : ∃ s, latexIn false (.elem c!"mfenced" [] [tableNode]) = .ok s ∧
    ReadsAs s [.matrix c!"bmatrix" tableRows] := by
  obtain ⟨s, hr, hs⟩ := C60_default_fences_brackets (l := []) (A := []) (cs := [tableNode])
    (rs := childElems tableNode) (rows := tableRows) rfl (.table rfl) rfl rfl (by decide) rfl
    (fun p hp => (tableNode_cells p hp).1) (fun p hp => (tableNode_cells p hp).2) tableNode_options
  exact ⟨s, (renders_iff rfl _ _).1 hr, hs⟩

/-- **C60** Prescripts are read as an underscore, a group with a superscript, and then the base. -/
theorem C60_prescripts {b : Bool} {l v w u : List Item} {A : Attrs} {cs : List Node}
    {x m p r : Node} (hk : kids cs = [x, m, p, r]) (hm : isPre m = true)
    (h1 : Means b [] p v) (h2 : Means b [] r w)
    (hx : ∀ s, Renders b x s → ∀ c ∈ s, isSpace c = false)
    (h3 : Means b (l ++ [.sym (.symb '_'), .sup (.group v) w]) x u) :
    ∃ s, Renders b (.elem c!"mmultiscripts" A cs) s ∧ Reads (.run l u) (tokens s) := by
  obtain ⟨s1, r1, l1⟩ := C60_phrase h1
  obtain ⟨s2, r2, l2⟩ := C60_phrase h2
  obtain ⟨s3, r3, l3⟩ := C60_phrase h3
  have e1 : prePair (kids cs) = some (p, r) := by rw [hk]; simp [prePair, hm]
  have e2 : postPair (kids cs) = none := by rw [hk]; simp [postPair, hm]
  refine ⟨_, .mmultiscripts (s1 := s1) (s2 := s2) (s3 := []) (s4 := []) hk (by simp) r3
    ?_ ?_ (by simp [e2]) (by simp [e2]), ?_⟩
  · rw [e1]; rintro p q ⟨⟩; exact r1
  · rw [e1]; rintro p q ⟨⟩; exact r2
  · rw [e1, e2, parensIfSpace, if_neg (by
      rintro ⟨c, hc, he⟩
      rw [hx _ r3 c hc] at he; cases he)]
    have e : scripts c!"\\_" (some (p, r)) s1 s2 ++ s3 ++ scripts c!"_" none [] [] =
        c!"\\_" ++ (Spec.braces s1 ++ (c!"^" ++ (Spec.braces s2 ++ s3))) := by
      simp [scripts]
    rw [e, tokens_append_plain (by decide), tokens_append_plain l1.braced.2,
      tokens_append_plain (by decide), tokens_append_plain l2.braced.2]
    refine .atom (.symb (c := '_') (by decide)) (.atom (.braces l1.braced.1) ?_)
    have := Reads.sup (l := l ++ [.sym (.symb '_')] ++ [.group v])
      (by rw [lastItem_concat]; rfl) l2.braced.1 (l' := u) (f := tokens s3)
      (by rw [onLast_concat]; simpa using l3)
    exact this

/-- Carbon with an atomic and a mass number: the `6` is no subscript of anything. -/
example : ∃ s, latexIn false (.elem c!"mmultiscripts" [] [tokenOf c!"mi" c!"C",
      .elem c!"mprescripts" [] [], tokenOf c!"mn" c!"6", tokenOf c!"mn" c!"9"]) = .ok s ∧
    s = c!"\\_{6}^{9}C" ∧
    ReadsAs s [.sym (.symb '_'), .sup (.group [.sym (.char '6')]) [.sym (.char '9')],
      .sym (.char 'C')] := by
  have hx : latexIn false (tokenOf c!"mi" c!"C") = .ok c!"C" := by decide +kernel
  obtain ⟨s, hr, hs⟩ := C60_prescripts (b := false) (l := []) (A := []) (cs := [tokenOf c!"mi" c!"C",
      .elem c!"mprescripts" [] [], tokenOf c!"mn" c!"6", tokenOf c!"mn" c!"9"])
    rfl rfl (means_mn [] (t := .char '6') (by decide +kernel) (by decide +kernel))
    (means_mn [] (t := .char '9') (by decide +kernel) (by decide +kernel)) (renders_ok rfl hx (by decide))
    (means_mi _ (t := .char 'C') (by decide +kernel) (by decide +kernel))
  have e := (renders_iff rfl _ _).1 hr
  have e' : latexIn false (.elem c!"mmultiscripts" [] [tokenOf c!"mi" c!"C",
      .elem c!"mprescripts" [] [], tokenOf c!"mn" c!"6", tokenOf c!"mn" c!"9"]) =
    .ok c!"\\_{6}^{9}C" := by decide +kernel
  refine ⟨_, e, ?_, hs⟩
  rw [e'] at e
  cases e
  rfl

end Verif
