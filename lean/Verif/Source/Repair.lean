import Verif.Source.Building

/-!
# Preparing and repairing the text

error_handler.py and the methods of adapter.py that change the text: the patterns compile
to those of the model, and the loops do what the model says.
-/

namespace Verif.Src

attribute [local irreducible] vowelsWithAccents accentToLtxCmd specialFontChars allMathSymbolsByChar
  allMathSymbolsByGlyph mathNumberByGlyph allMathOperatorsByChar allMathOperatorsByGlyph

variable {env : Env}

/-! ## Patterns -/

/-- The same matches, tried in the same order. -/
def SameRe (a b : Re) : Prop :=
  ∀ (β : Type) (s : Str) (g : Caps) (k : Str → Caps → Option β), a.run s g k = b.run s g k

theorem SameRe.matchHere {a b : Re} (h : SameRe a b) (must : Bool) (s : Str) :
    a.matchHere must s = b.matchHere must s := h _ _ _ _

theorem SameRe.search {a b : Re} (h : SameRe a b) : ∀ s : Str, a.search s = b.search s
  | [] => by rw [Re.search, Re.search, h.matchHere]
  | c :: s => by rw [Re.search, Re.search, h.matchHere, h.search s]

theorem SameRe.subGo {a b : Re} (h : SameRe a b) (f : Caps → Str) : ∀ (n : Nat) (must : Bool) (s : Str),
    a.subGo f n must s = b.subGo f n must s
  | 0, _, _ => rfl
  | n + 1, must, s => by
    simp only [Re.subGo, h.matchHere, h.subGo f n]

theorem SameRe.sub {a b : Re} (h : SameRe a b) (f : Caps → Str) (s : Str) : a.sub f s = b.sub f s :=
  h.subGo f _ _ s

/-- The pattern `p` without anchors is `r`. -/
structure IsRe (p : Pattern) (r : Re) : Prop where
  bos : p.bos = false
  eos : p.eos = false
  same : SameRe p.re r

theorem IsRe.search {p : Pattern} {r : Re} (h : IsRe p r) (s : Str) : p.search? s = some (r.search s) := by
  rw [Pattern.search?, h.bos, h.eos, h.same.search]
  rfl

theorem IsRe.sub {p : Pattern} {r : Re} (h : IsRe p r) {repl : Str} {f : Caps → Str}
    (hf : template repl = some f) (s : Str) : p.sub? repl s = some (r.sub f s) := by
  rw [Pattern.sub?, h.bos, h.eos, hf, Option.map_some, h.same.sub]
  rfl

theorem compile_lineBreaks (w : Char → Bool) : ∃ p, compilePattern w false false c!"\\n|\\r\\n|\\r" = some p ∧
    IsRe p lineBreakPattern :=
  ⟨_, rfl, rfl, rfl, fun _ _ _ _ => rfl⟩

theorem compile_mml (w : Char → Bool) : ∃ p, compilePattern w false false c!"mml:" = some p ∧
    IsRe p (Re.lit c!"mml:") :=
  ⟨_, rfl, rfl, rfl, fun _ _ _ _ => rfl⟩

theorem inClass_quotes : inClass false [('\'', '\''), ('"', '"')] = isQuote := by
  funext c
  have h : ∀ d : Char, (decide (d.toNat ≤ c.toNat) && decide (c.toNat ≤ d.toNat)) = (c == d) := by
    intro d
    rw [Bool.eq_iff_iff, Bool.and_eq_true, decide_eq_true_eq, decide_eq_true_eq, beq_iff_eq,
      ← Nat.le_antisymm_iff, eq_comm]
    exact ⟨fun h => Char.ext (UInt32.toNat_inj.1 h), fun h => by rw [h]⟩
  simp only [inClass, Bool.false_eq_true, if_false, List.any_cons, List.any_nil, Bool.or_false, h, isQuote]
  exact Bool.or_comm _ _

theorem compile_generic (env : Env) :
    ∃ p, compilePattern env.isWord false true c!"(<.* )(\\w+=(?!([\"\\'])))?(.*>)" = some p ∧
      IsRe p (genericPattern env) := by
  refine ⟨_, rfl, rfl, rfl, ?_⟩
  rw [inClass_quotes]
  exact fun _ _ _ _ => rfl

/-- What `re.escape` puts a backslash before. -/
abbrev escapes : Str := c!"()[]{}?*+-|^$\\.&~# \t\n\r\x0b\x0c"

theorem escaped_chr (w : Char → Bool) {c : Char} (h : escapes.contains c = true) :
    escaped w c = some (.chr c) := by
  have h : c ∈ escapes := by simpa using h
  simp only [List.mem_cons, List.not_mem_nil, or_false] at h
  rcases h with h | h | h | h | h | h | h | h | h | h | h | h | h | h | h | h | h | h | h | h | h | h | h | h <;> (subst h; rfl)

theorem read_plain (w : Char → Bool) {c : Char} (h : ¬ escapes.contains c = true) (t : Str) (items alts : List Re)
    (stack : List (Open × List Re × List Re)) (n : Nat) :
    readPattern w false (c :: t) items alts stack n =
      readPattern w false t (.chr c :: items) alts stack n := by
  have h : ∀ d ∈ escapes, c ≠ d := fun d hd he => h (by rw [he]; simpa using hd)
  have hs : isSpecial c = false := by
    rw [isSpecial, Bool.eq_false_iff]
    intro hc
    have hc : c ∈ c!"()[]{}?*+|^$." := by simpa using hc
    simp only [List.mem_cons, List.not_mem_nil, or_false] at hc
    rcases hc with hc | hc | hc | hc | hc | hc | hc | hc | hc | hc | hc | hc | hc <;> exact h _ (by simp) hc
  rw [readPattern.eq_def]
  split
  case h_1 he => cases he
  case h_8 he =>
    injection he with he1 he2
    subst he1 he2
    rw [if_neg (h '.' (by simp)), if_neg (h '$' (by simp)), if_neg, if_neg]
    · rfl
    · rw [hs]; simp [h '\\' (by simp)]
    · simp [h '*' (by simp), h '+' (by simp), h '?' (by simp)]
  all_goals
    next he =>
      injection he with he1 he2
      exact absurd he1 (h _ (by simp))

/-- Reading an escaped string. -/
theorem read_escape (w : Char → Bool) (alts : List Re) (stack : List (Open × List Re × List Re)) (n : Nat) (t : Str) :
    ∀ (s : Str) (items : List Re), readPattern w false (reEscape s ++ t) items alts stack n =
      readPattern w false t ((s.map Re.chr).reverse ++ items) alts stack n
  | [], items => rfl
  | c :: s, items => by
    rw [reEscape]
    split
    · next h =>
      rw [List.cons_append, List.cons_append, readPattern, escaped_chr w h]
      simp only
      rw [read_escape w alts stack n t s]
      simp
    · next h =>
      rw [List.cons_append, read_plain w h, read_escape w alts stack n t s]
      simp

theorem run_literals (β : Type) (l : List Re) : ∀ (t s : Str) (g : Caps) (k : Str → Caps → Option β),
    ((t.map Re.chr ++ l).foldr Re.seq .eps).run s g k =
      (Re.lit t).run s g fun s' g' => (l.foldr Re.seq .eps).run s' g' k
  | [], _, _, _ => rfl
  | c :: t, s, g, k => by
    rw [List.map_cons, List.cons_append, List.foldr_cons, Re.run, Re.lit, Re.run]
    simp only [run_literals β l t]

/-- `(?!(["\']))` with the group number `n`. -/
abbrev noQuote (n : Nat) : Re :=
  .nla (.seq (.grp n (.seq (.cls (inClass false [('\'', '\''), ('"', '"')])) .eps)) .eps)

theorem read_noQuote (w : Char → Bool) (items alts : List Re) (stack : List (Open × List Re × List Re)) (n : Nat) (t : Str) :
    readPattern w false (c!"(?!([\"\\']))" ++ t) items alts stack n =
      readPattern w false t (noQuote n :: items) alts stack (n + 1) := rfl

theorem read_open (w : Char → Bool) {x : Str} (hx : ∀ y, x ≠ '?' :: y) (items alts : List Re)
    (stack : List (Open × List Re × List Re)) (n : Nat) :
    readPattern w false ('(' :: x) items alts stack n =
      readPattern w false x [] [] ((.group n, items, alts) :: stack) (n + 1) := by
  rw [readPattern.eq_def]
  split
  case h_2 he =>
    injection he with he1 he2
    exact absurd he2 (hx _)
  case h_3 he =>
    injection he with he1 he2
    rw [he2]
  case h_8 h1 h2 h3 h4 h5 h6 he =>
    injection he with he1 he2
    subst he1
    exact absurd rfl h2
  all_goals next he => first | (cases he; done) | (injection he with he1 he2; cases he1)

theorem escape_head (t : Str) {s : Str} (hs : ∀ y, s ≠ '?' :: y) (y : Str) : reEscape t ++ s ≠ '?' :: y := by
  cases t with
  | nil => exact hs y
  | cons c t =>
    rw [reEscape]
    split
    · intro h
      injection h with h
      cases h
    · next hc =>
      intro h
      injection h with h
      exact hc (by rw [h]; rfl)

theorem read_missing (w : Char → Bool) (t : Str) :
    readPattern w false (c!"(" ++ (reEscape t ++ (c!"=(?!([\"\\'])))|(" ++ (reEscape t ++ c!"(?!([\"\\'])))")))) [] [] [] 1 =
      some (.alt (.seq (.grp 1 ((t.map Re.chr ++ [Re.chr '=', noQuote 2]).foldr Re.seq .eps)) .eps)
        (.seq (.grp 3 ((t.map Re.chr ++ [noQuote 4]).foldr Re.seq .eps)) .eps), false) := by
  rw [show ∀ s : Str, c!"(" ++ s = '(' :: s from fun _ => rfl,
    read_open w (escape_head t (by simp)), read_escape]
  have h1 : ∀ s items, readPattern w false (c!"=(?!([\"\\'])))|(" ++ s) items [] [(.group 1, [], [])] 2 =
      readPattern w false ('(' :: s) [] [mkSeq [.grp 1 (mkSeq (noQuote 2 :: Re.chr '=' :: items))]] [] 3 := by
    intro s items
    rfl
  rw [h1, read_open w (escape_head t (by simp)), read_escape]
  have h2 : ∀ alts items, readPattern w false c!"(?!([\"\\'])))" items [] [(.group 3, [], [alts])] 4 =
      some (.alt alts (mkSeq [.grp 3 (mkSeq (noQuote 4 :: items))]), false) := by
    intro alts items
    rfl
  rw [h2]
  simp [mkSeq]

theorem compile_missing (w : Char → Bool) (t : Str) :
    ∃ p, compilePattern w false true (c!"(" ++ (reEscape t ++ (c!"=(?!([\"\\'])))|(" ++ (reEscape t ++ c!"(?!([\"\\'])))")))) = some p ∧
      IsRe p (missingValuePattern t) := by
  refine ⟨⟨false, .alt (.seq (.grp 1 ((t.map Re.chr ++ [Re.chr '=', noQuote 2]).foldr Re.seq .eps)) .eps)
        (.seq (.grp 3 ((t.map Re.chr ++ [noQuote 4]).foldr Re.seq .eps)) .eps), false⟩, ?_, rfl, rfl, ?_⟩
  · have := read_missing w t
    rw [show ∀ s : Str, c!"(" ++ s = '(' :: s from fun _ => rfl] at this ⊢
    unfold compilePattern
    dsimp only
    rw [if_neg (by simp), this]
    rfl
  · intro β s g k
    unfold noQuote
    rw [inClass_quotes]
    simp only [Re.run, run_literals, List.foldr_cons, List.foldr_nil, missingValuePattern]

/-! ## The word at a position -/

/-- error_handler.py 70 -/
abbrev startCond : Expr :=
  .and (.cmp .gt (.name .start) (.int 0)) (.cmp .ne (.item (.name .string) (.sub (.name .start) (.int 1))) (.str c!" "))
/-- error_handler.py 71 -/
abbrev startBody : List Stmt := [.assign .start (.sub (.name .start) (.int 1))]

theorem start_loop (C : Ctx) (string : Str) (h : Store) : ∀ (s m : Nat) (l : Locals), s < m →
    look .start l = some (.int s) → look .string l = some (.str string) →
    match wordStart string s with
    | none => ∃ l', whileOut (eval C startCond) (execs C startBody) m l h = .exc (.exc .indexError) l' h
    | some j => ∃ l', whileOut (eval C startCond) (execs C startBody) m l h = .next l' h ∧
        look .start l' = some (.int j) ∧ (∀ x, x ≠ .start → look x l' = look x l)
  | 0, m + 1, l, _, hs, hl => by
    rw [wordStart]
    refine ⟨l, ?_, hs, fun _ _ => rfl⟩
    rw [whileOut]
    sym [] [hs, hl]
  | s + 1, m + 1, l, hm, hs, hl => by
    have hi : ((s + 1 : Nat) : Int) - 1 = (s : Int) := by omega
    have hg : (0 : Int) < ((s + 1 : Nat) : Int) := by omega
    have hp := pyIndex_nat string s
    rw [wordStart]
    cases hc : string[s]? with
    | none =>
      rw [hc] at hp
      dsimp only
      refine ⟨l, ?_⟩
      rw [whileOut]
      sym [] [hs, hl, hi, hp] [hi, hg]
    | some c =>
      rw [hc] at hp
      dsimp only
      by_cases hb : c = ' '
      · subst hb
        rw [if_neg (by simp)]
        refine ⟨l, ?_, hs, fun _ _ => rfl⟩
        rw [whileOut]
        sym [] [hs, hl, hi, hp] [hi, hg]
      · rw [if_pos (by simp [hb])]
        have ih := start_loop C string h s m ((.start, .int s) :: l) (by omega) rfl hl
        have ht : whileOut (eval C startCond) (execs C startBody) (m + 1) l h =
            whileOut (eval C startCond) (execs C startBody) m ((.start, .int s) :: l) h := by
          rw [whileOut]
          sym [] [hs, hl, hi, hp] [hi, hg, hb]
          rw [hi]
        rw [ht]
        cases hw : wordStart string s with
        | none => rw [hw] at ih; exact ih
        | some j =>
          rw [hw] at ih
          obtain ⟨l', h1, h2, h3⟩ := ih
          refine ⟨l', h1, h2, fun x hx => ?_⟩
          rw [h3 x hx, look, if_neg hx]

/-- error_handler.py 72 -/
abbrev endCond : Expr :=
  .and (.cmp .lt (.name .«end») (.call (.name .len) [.name .string] [] [])) (.and (.cmp .ne (.item (.name .string) (.name .«end»)) (.str c!" ")) (.cmp .ne (.item (.name .string) (.name .«end»)) (.str c!">")))
/-- error_handler.py 73 -/
abbrev endBody : List Stmt := [.assign .«end» (.add (.name .«end») (.int 1))]

theorem end_loop (C : Ctx) (string : Str) (h : Store) : ∀ (t : Str) (e m : Nat) (l : Locals), t.length < m →
    string.drop e = t → look .«end» l = some (.int e) → look .string l = some (.str string) →
    look .len l = none →
    ∃ l', whileOut (eval C endCond) (execs C endBody) m l h = .next l' h ∧
        look .«end» l' = some (.int (e + (wordEnd t).length : Nat)) ∧
        (∀ x, x ≠ .«end» → look x l' = look x l)
  | [], e, m + 1, l, _, ht, hs, hl, hn => by
    refine ⟨l, ?_, hs, fun _ _ => rfl⟩
    have hg : ¬ (e : Int) < (string.length : Int) := by
      have := List.drop_eq_nil_iff.1 ht
      omega
    rw [whileOut]
    sym [] [hs, hl, hn] [hg]
  | c :: t, e, m + 1, l, hm, ht, hs, hl, hn => by
    have hp := pyIndex_nat string e
    have hc : string[e]? = some c := by
      rw [← List.head?_drop, ht]; rfl
    rw [hc] at hp
    have hg : (e : Int) < (string.length : Int) := by
      have := (List.getElem?_eq_some_iff.1 hc).1
      omega
    have ht' : string.drop (e + 1) = t := by
      rw [← List.drop_drop, ht]; rfl
    rw [wordEnd]
    by_cases h1 : c = ' '
    · subst h1
      refine ⟨l, ?_, hs, fun _ _ => rfl⟩
      rw [whileOut]
      sym [] [hs, hl, hn, hp] [hg]
    · by_cases h2 : c = '>'
      · subst h2
        refine ⟨l, ?_, hs, fun _ _ => rfl⟩
        rw [whileOut]
        sym [] [hs, hl, hn, hp] [hg]
      · rw [if_pos (by simp [h1, h2])]
        obtain ⟨l', q1, q2, q3⟩ := end_loop C string h t (e + 1) m ((.«end», .int ((e + 1 : Nat) : Int)) :: l)
          (by simp at hm; omega) ht' rfl hl hn
        refine ⟨l', ?_, ?_, fun x hx => ?_⟩
        · rw [← q1, whileOut]
          sym [] [hs, hl, hn, hp] [hg, h1, h2]
          rfl
        · rw [q2, List.length_cons]
          congr 3
          omega
        · rw [q3 x hx, look, if_neg hx]

theorem wordEnd_take : ∀ s : Str, s.take (wordEnd s).length = wordEnd s
  | [] => rfl
  | c :: s => by
    rw [wordEnd]
    split
    · rw [List.length_cons, List.take_succ_cons, wordEnd_take s]
    · rfl

theorem wordStart_le (string : Str) : ∀ (s j : Nat), wordStart string s = some j → j ≤ s ∧ (s ≤ string.length)
  | 0, j, h => by
    rw [wordStart] at h
    injection h with h
    omega
  | s + 1, j, h => by
    rw [wordStart] at h
    cases hc : string[s]? with
    | none => rw [hc] at h; cases h
    | some c =>
      have := (List.getElem?_eq_some_iff.1 hc).1
      rw [hc] at h
      dsimp only at h
      split at h
      · have := wordStart_le string s j h
        omega
      · injection h with h
        omega

/-- An instance of `ErrorHandler`. -/
abbrev handlerObj (d : Nat) : Obj := .inst .ErrorHandler [(.error_locator, .obj d)]

theorem run_getWord {S : Store} {a pos : Nat} (string : Str) (n : Nat) (hn : pos + string.length + 2 ≤ n) :
    call env n ErrorHandler__get_word_at_str_pos [.obj a, .str string, .int pos] [] S =
      match getWordAtStrPos string pos with
      | none => .exc (.exc .indexError) S
      | some w => .ok (.str w) S := by
  obtain ⟨n, rfl⟩ : ∃ m, n = m + 1 := ⟨n - 1, by omega⟩
  have h1 := start_loop ⟨env, call env n, n⟩ string S pos n
    [(.«end», .int pos), (.start, .int pos), (.self, .obj a), (.string, .str string), (.pos, .int pos)]
    (by omega) rfl rfl
  rw [getWordAtStrPos]
  cases hw : wordStart string pos with
  | none =>
    rw [hw] at h1
    obtain ⟨l', h1⟩ := h1
    sym [ErrorHandler__get_word_at_str_pos] [h1]
  | some j =>
    rw [hw] at h1
    obtain ⟨l', h1, h2, h3⟩ := h1
    obtain ⟨hj, hp⟩ := wordStart_le string pos j hw
    obtain ⟨l'', g1, g2, g3⟩ := end_loop ⟨env, call env n, n⟩ string S (string.drop pos) pos n l'
      (by simp; omega) rfl (by rw [h3 _ (by decide)]; rfl) (by rw [h3 _ (by decide)]; rfl)
      (by rw [h3 _ (by decide)]; rfl)
    have hs : look .start l'' = some (.int (Int.ofNat j)) := by rw [g3 _ (by decide), h2]; rfl
    have hst : look .string l'' = some (.str string) := by
      rw [g3 _ (by decide), h3 _ (by decide)]; rfl
    have g2 : look .«end» l'' = some (.int (Int.ofNat (pos + (wordEnd (string.drop pos)).length))) := g2
    sym [ErrorHandler__get_word_at_str_pos] [h1, g1, hs, hst, g2]
    rw [List.take_add, wordEnd_take, List.drop_append_of_le_length (by simp; omega)]

/-! ## Repairs -/

theorem pyIndex_map {α β : Type} (f : α → β) (l : List α) (i : Int) :
    pyIndex (l.map f) i = (pyIndex l i).map f := by
  simp only [pyIndex, List.length_map, List.getElem?_map]
  split
  · rfl
  · split <;> rfl

theorem run_missingPattern {S : Store} {a : Nat} (w : Str) : ∃ p, IsRe p (missingValuePattern w) ∧
    ∀ n, call env (n + 1) ErrorHandler__match_missing_value_for_attribute [.obj a, .str w] [] S =
      .ok (.pattern p) S := by
  obtain ⟨p, h1, h2⟩ := compile_missing env.isWord w
  refine ⟨p, h2, fun n => ?_⟩
  have hf : formats [.str c!"(", .str (reEscape w), .str c!"=(?!([\"\\'])))|(", .str (reEscape w), .str c!"(?!([\"\\'])))"] =
      some (c!"(" ++ (reEscape w ++ (c!"=(?!([\"\\'])))|(" ++ (reEscape w ++ c!"(?!([\"\\'])))")))) := by
    simp only [formats, format, List.append_nil]
  sym [ErrorHandler__match_missing_value_for_attribute] [hf, h1]

theorem run_genericPattern {S : Store} {a : Nat} : ∃ p, IsRe p (genericPattern env) ∧
    ∀ n, call env (n + 1) ErrorHandler__math_generic_missing_value [.obj a] [] S =
      .ok (.pattern p) S := by
  obtain ⟨p, h1, h2⟩ := compile_generic env
  refine ⟨p, h2, fun n => ?_⟩
  sym [ErrorHandler__math_generic_missing_value] [h1]

theorem template_nil : template [] = some fun _ => [] := rfl

theorem template_groups : template c!"\\1\\3" = some fun g => capText 1 g ++ capText 3 g := by
  simp [template]

/-- What a repair leaves: the text or the exception of the model, and some new objects. -/
def Repaired (S : Store) (x : Except Exc Str) (r : Res Val) : Prop :=
  ∃ L, r = match x with
    | .ok t => .ok (.str t) (S ++ L)
    | .error e => .exc (.exc e) (S ++ L)

theorem run_fixValue {S : Store} {a d : Nat} (ha : S[a]? = some (handlerObj d)) (code line offset : Nat) (xml : Str) :
    Runs (fun n => call env n ErrorHandler__fix_missing_attribute_value
        [.obj a, .exc (.expat code line offset), .str xml] [] S)
      (Repaired S (fixMissingAttributeValue code line offset xml)) := by
  unfold fixMissingAttributeValue
  by_cases hc : code = 4
  · rw [if_neg (by simp [hc])]
    have hi := pyIndex_map Val.str (splitOn '\n' xml) ((line : Int) - 1)
    cases hl : pyIndex (splitOn '\n' xml) ((line : Int) - 1) with
    | none =>
      rw [hl] at hi
      fuel 1
      sym [ErrorHandler__fix_missing_attribute_value] [ha, hi] [hc]
      exact ⟨_, rfl⟩
    | some goal =>
      rw [hl] at hi
      have hw := run_getWord (env := env) (S := S ++ [.list ((splitOn '\n' xml).map .str)]) (a := a) (pos := offset) goal
      dsimp only
      cases hg : getWordAtStrPos goal offset with
      | none =>
        rw [hg] at hw
        fuel 1
        fuel (offset + goal.length + 2)
        sym [ErrorHandler__fix_missing_attribute_value] [ha, hi, hw] [hc]
        exact ⟨_, rfl⟩
      | some w =>
        rw [hg] at hw
        obtain ⟨p, hp, hr⟩ := run_missingPattern (env := env) (S := S ++ [.list ((splitOn '\n' xml).map .str)]) (a := a) w
        have hs := hp.sub template_nil xml
        fuel 2
        fuel (offset + goal.length + 2)
        sym [ErrorHandler__fix_missing_attribute_value] [ha, hi, hw, hr, hs] [hc]
        exact ⟨_, rfl⟩
  · rw [if_pos hc]
    fuel 1
    have hc' : ¬ (code : Int) = 4 := by omega
    sym [ErrorHandler__fix_missing_attribute_value] [] [hc, hc']
    exact ⟨[], by simp⟩

/-- error_handler.py 22 -/
abbrev genericCond : Expr :=
  .and (.call (.attr (.name .re) .search) [.name .pattern, .name .xml] [] []) (.cmp .lt (.name .counter) (.int 5))
/-- error_handler.py 23–25 -/
abbrev genericBody : List Stmt :=
   [.assign .counter (.add (.name .counter) (.int 1)),
    .assign .result (.call (.attr (.name .re) .sub) [.name .pattern, .str c!"\\1\\3", .name .xml] [] [])]

theorem generic_loop {C : Ctx} {S : Store} {p : Pattern} (hp : IsRe p (genericPattern env)) (xml : Str) :
    ∀ (k m : Nat) (j : Int) (t : Str) (l : Locals), k < m → j + k = 5 → look .re l = none →
      look .pattern l = some (.pattern p) → look .xml l = some (.str xml) →
      look .counter l = some (.int j) → look .result l = some (.str t) →
      ∃ l', whileOut (eval C genericCond) (execs C genericBody) m l S = .next l' S ∧
        look .result l' = some (.str (genericLoop env xml k t))
  | 0, m + 1, j, t, l, _, hj, h1, h2, h3, h4, h5 => by
    refine ⟨l, ?_, by rw [genericLoop]; exact h5⟩
    have hs := hp.search xml
    have hj : ¬ j < 5 := by omega
    rw [whileOut]
    cases hq : (genericPattern env).search xml with
    | true => rw [hq] at hs; sym [] [h1, h2, h3, h4, hs] [hj]
    | false => rw [hq] at hs; sym [] [h1, h2, h3, h4, hs] [hj]
  | k + 1, m + 1, j, t, l, hm, hj, h1, h2, h3, h4, h5 => by
    have hs := hp.search xml
    have hb := hp.sub template_groups xml
    have hj' : j < 5 := by omega
    rw [genericLoop]
    cases hq : (genericPattern env).search xml with
    | true =>
      rw [hq] at hs
      rw [if_pos rfl]
      obtain ⟨l', q1, q2⟩ := generic_loop hp xml k m (j + 1)
        ((genericPattern env).sub (fun g => capText 1 g ++ capText 3 g) xml)
        ((.result, .str ((genericPattern env).sub (fun g => capText 1 g ++ capText 3 g) xml)) :: (.counter, .int (j + 1)) :: l)
        (by omega) (by omega) h1 h2 h3 rfl rfl
      refine ⟨l', ?_, q2⟩
      rw [← q1, whileOut]
      sym [] [h1, h2, h3, h4, hs, hb] [hj']
    | false =>
      rw [hq] at hs
      rw [if_neg (by simp)]
      refine ⟨l, ?_, h5⟩
      rw [whileOut]
      sym [] [h1, h2, h3, h4, hs] [hj]

theorem run_fixMissing {S : Store} {a d : Nat} (ha : S[a]? = some (handlerObj d)) (code line offset : Nat) (xml : Str) :
    Runs (fun n => call env n ErrorHandler__fix_missing_attribute
        [.obj a, .exc (.expat code line offset), .str xml] [] S)
      (Repaired S (fixMissingAttribute env code line offset xml)) := by
  unfold fixMissingAttribute
  obtain ⟨_, ⟨L, rfl⟩, k, hk⟩ := run_fixValue (env := env) ha code line offset xml
  cases hx : fixMissingAttributeValue code line offset xml with
  | error e =>
    rw [hx] at hk
    dsimp only at hk ⊢
    fuel 1
    fuel k
    sym [ErrorHandler__fix_missing_attribute] [ha, hk]
    exact ⟨L, rfl⟩
  | ok t =>
    rw [hx] at hk
    dsimp only at hk ⊢
    by_cases ht : t = xml
    · rw [if_neg (by simp [ht])]
      obtain ⟨p, hp, hr⟩ := run_genericPattern (env := env) (S := S ++ L) (a := a)
      have hl := fun n (hn : 5 < n) => generic_loop (C := ⟨env, call env n, n⟩) (S := S ++ L) hp xml 5 n 0 t
        [(.counter, .int 0), (.pattern, .pattern p), (.result, .str t), (.self, .obj a),
          (.error, .exc (.expat code line offset)), (.xml, .str xml)] hn rfl rfl rfl rfl rfl rfl
      refine ⟨_, ⟨L, rfl⟩, k + 7, fun n hn => ?_⟩
      obtain ⟨n, rfl⟩ : ∃ m, n = m + k + 7 := ⟨n - (k + 7), by omega⟩
      obtain ⟨l', q1, q2⟩ := hl (n + k + 6) (by omega)
      sym [ErrorHandler__fix_missing_attribute] [ha, hk, hr, q1, q2] [ht]
    · rw [if_pos ht]
      fuel 1
      fuel k
      sym [ErrorHandler__fix_missing_attribute] [ha, hk] [ht]
      exact ⟨L, rfl⟩

theorem run_fixError {S : Store} {a d : Nat} (ha : S[a]? = some (handlerObj d)) (e : ParseErr) (xml : Str) :
    Runs (fun n => call env n ErrorHandler_fix_error [.obj a, .str xml, .exc e.toExc] [] S)
      (Repaired S (fixError env xml e)) := by
  cases e with
  | other i =>
    unfold fixError ParseErr.toExc
    fuel 1
    sym [ErrorHandler_fix_error] [ha]
    exact ⟨[], by simp⟩
  | expat code line offset =>
    unfold fixError ParseErr.toExc
    obtain ⟨_, ⟨L, rfl⟩, k, hk⟩ := run_fixMissing (env := env) ha code line offset xml
    dsimp only
    cases hx : fixMissingAttribute env code line offset xml with
    | error e =>
      rw [hx] at hk
      dsimp only at hk ⊢
      fuel 1
      fuel k
      sym [ErrorHandler_fix_error] [ha, hk]
      exact ⟨L, rfl⟩
    | ok t =>
      rw [hx] at hk
      dsimp only at hk ⊢
      fuel 1
      fuel k
      sym [ErrorHandler_fix_error] [ha, hk]
      exact ⟨L, rfl⟩

end Verif.Src
