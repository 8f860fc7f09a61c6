import Verif.Model.Xml

/-! # Facts about the regular-expression engine and the patterns of the code base -/

namespace Verif

/-! ## General facts -/

theorem orElse_eq_some {β : Type} {x : Option β} {f : Unit → Option β} {b : β} :
    x.orElse f = some b ↔ x = some b ∨ (x = none ∧ f () = some b) := by
  cases x <;> simp [Option.orElse]

theorem starM_spec {β : Type} (p : Char → Bool) (s : Str) (k : Str → Option β) (b : β)
    (h : starM p s k = some b) : ∃ s', s' <:+ s ∧ k s' = some b := by
  induction s with
  | nil => exact ⟨[], List.suffix_refl _, h⟩
  | cons c s ih =>
    rw [starM] at h
    split at h
    · rw [orElse_eq_some] at h
      rcases h with h | ⟨_, h⟩
      · obtain ⟨s', h1, h2⟩ := ih h
        exact ⟨s', h1.trans (List.suffix_cons _ _), h2⟩
      · exact ⟨_, List.suffix_refl _, h⟩
    · exact ⟨_, List.suffix_refl _, h⟩

/-- A successful match calls the continuation on a suffix of the input. -/
theorem Re.run_suffix {β : Type} (r : Re) (s : Str) (g : Caps) (k : Str → Caps → Option β) (b : β)
    (h : r.run s g k = some b) : ∃ s' g', s' <:+ s ∧ k s' g' = some b := by
  induction r generalizing s g k with
  | eps => exact ⟨s, g, List.suffix_refl _, h⟩
  | cls p =>
    cases s with
    | nil => simp [Re.run] at h
    | cons c s =>
      simp only [Re.run] at h
      split at h
      · exact ⟨s, g, List.suffix_cons _ _, h⟩
      · simp at h
  | seq a b iha ihb =>
    obtain ⟨s1, g1, h1, h2⟩ := iha _ _ _ h
    obtain ⟨s2, g2, h3, h4⟩ := ihb _ _ _ h2
    exact ⟨s2, g2, h3.trans h1, h4⟩
  | alt a b iha ihb =>
    simp only [Re.run, orElse_eq_some] at h
    rcases h with h | ⟨_, h⟩
    · exact iha _ _ _ h
    · exact ihb _ _ _ h
  | star p =>
    obtain ⟨s', h1, h2⟩ := starM_spec p s _ _ h
    exact ⟨s', g, h1, h2⟩
  | opt a iha =>
    simp only [Re.run, orElse_eq_some] at h
    rcases h with h | ⟨_, h⟩
    · exact iha _ _ _ h
    · exact ⟨s, g, List.suffix_refl _, h⟩
  | grp n a iha =>
    obtain ⟨s1, g1, h1, h2⟩ := iha _ _ _ h
    exact ⟨s1, _, h1, h2⟩
  | nla a iha =>
    simp only [Re.run] at h
    split at h
    · simp at h
    · exact ⟨s, g, List.suffix_refl _, h⟩

theorem Re.matchHere_suffix {r : Re} {must : Bool} {s s' : Str} {g : Caps}
    (h : r.matchHere must s = some (s', g)) :
    s' <:+ s ∧ (must = true → s'.length < s.length) := by
  obtain ⟨s1, g1, h1, h2⟩ := Re.run_suffix _ _ _ _ _ h
  split at h2
  · simp at h2
  · rename_i hc
    simp only [Option.some.injEq, Prod.mk.injEq] at h2
    obtain ⟨rfl, rfl⟩ := h2
    refine ⟨h1, ?_⟩
    rintro rfl
    have hl := h1.length_le
    simp at hc
    omega

/-- Steps that `subGo` may still need. -/
def subMeasure (must : Bool) (s : Str) : Nat := 2 * s.length + (if must then 0 else 1)

theorem Re.subGo_fuel (r : Re) (repl : Caps → Str) : ∀ (n m : Nat) (must : Bool) (s : Str),
    subMeasure must s < n → subMeasure must s < m →
      r.subGo repl n must s = r.subGo repl m must s := by
  intro n
  induction n with
  | zero => intro m must s h; simp at h
  | succ n ih =>
    intro m must s hn hm
    cases m with
    | zero => simp at hm
    | succ m =>
      rw [Re.subGo.eq_def, Re.subGo.eq_def r repl (m + 1)]
      dsimp only
      cases hmatch : r.matchHere must s with
      | some p =>
        obtain ⟨s', g⟩ := p
        obtain ⟨h1, h2⟩ := Re.matchHere_suffix hmatch
        have hl := h1.length_le
        simp only
        congr 1
        apply ih
        all_goals
          unfold subMeasure at *
          cases must with
          | true =>
            have := h2 rfl
            simp at hn hm ⊢
            split <;> omega
          | false =>
            simp at hn hm ⊢
            by_cases he : s'.length = s.length
            · simp [he]; omega
            · simp [he]; omega
      | none =>
        cases s with
        | nil => rfl
        | cons c s =>
          simp only
          congr 1
          apply ih <;>
          · unfold subMeasure at *
            simp at hn hm ⊢
            omega

/-- `sub` continued at some position (with `must`: an empty match was just made there). -/
def Re.subFrom (r : Re) (repl : Caps → Str) (must : Bool) (s : Str) : Str :=
  r.subGo repl (2 * s.length + 2) must s

theorem Re.sub_eq (r : Re) (repl : Caps → Str) (s : Str) :
    r.sub repl s = r.subFrom repl false s := rfl

/-- Unfolding of `re.sub`, without fuel. -/
theorem Re.subFrom_eq (r : Re) (repl : Caps → Str) (must : Bool) (s : Str) :
    r.subFrom repl must s =
      match r.matchHere must s with
      | some (s', g) => repl g ++ r.subFrom repl (s'.length == s.length) s'
      | none =>
        match s with
        | [] => []
        | c :: s' => c :: r.subFrom repl false s' := by
  have h0 : r.subFrom repl must s = r.subGo repl (2 * s.length + 2) must s := rfl
  rw [h0, Re.subGo.eq_def]
  dsimp only
  cases hmatch : r.matchHere must s with
  | some p =>
    obtain ⟨s', g⟩ := p
    obtain ⟨h1, h2⟩ := Re.matchHere_suffix hmatch
    have hl := h1.length_le
    simp only
    congr 1
    apply Re.subGo_fuel
    · unfold subMeasure
      cases must with
      | true =>
        have := h2 rfl
        split <;> omega
      | false =>
        by_cases he : s'.length = s.length
        · simp [he]
        · simp [he]; omega
    · unfold subMeasure; split <;> omega
  | none =>
    cases s with
    | nil => rfl
    | cons c s =>
      simp only
      congr 1
      apply Re.subGo_fuel <;>
      · unfold subMeasure; simp <;> omega

/-- Substitution by the empty string only deletes characters. -/
theorem Re.subFrom_sublist (r : Re) (must : Bool) (s : Str) :
    (r.subFrom (fun _ => []) must s).Sublist s := by
  suffices H : ∀ n must s, subMeasure must s < n → (r.subFrom (fun _ => []) must s).Sublist s from
    H _ must s (Nat.lt_succ_self _)
  intro n
  induction n with
  | zero => intro must s h; simp at h
  | succ n ih =>
    intro must s h
    rw [Re.subFrom_eq]
    cases hmatch : r.matchHere must s with
    | some p =>
      obtain ⟨s', g⟩ := p
      obtain ⟨h1, h2⟩ := Re.matchHere_suffix hmatch
      have hl := h1.length_le
      simp only [List.nil_append]
      refine (ih _ _ ?_).trans h1.sublist
      unfold subMeasure at *
      cases must with
      | true =>
        have := h2 rfl
        simp at h
        split <;> omega
      | false =>
        simp at h
        by_cases he : s'.length = s.length
        · simp [he]; omega
        · simp [he]; omega
    | none =>
      cases s with
      | nil => simp
      | cons c s =>
        simp only
        refine (ih _ _ ?_).cons_cons c
        unfold subMeasure at *
        simp at h ⊢
        omega

theorem Re.sub_sublist (r : Re) (s : Str) : (r.sub (fun _ => []) s).Sublist s :=
  Re.subFrom_sublist r false s

/-! ## Literals -/

theorem Re.run_chr {β : Type} (c : Char) (s : Str) (g : Caps) (k : Str → Caps → Option β) :
    (Re.chr c).run s g k = match s with
      | [] => none
      | x :: s' => if x = c then k s' g else none := by
  cases s with
  | nil => rfl
  | cons x s => simp [Re.chr, Re.run]

theorem Re.run_lit {β : Type} (w s : Str) (g : Caps) (k : Str → Caps → Option β) :
    (Re.lit w).run s g k = if w <+: s then k (s.drop w.length) g else none := by
  induction w generalizing s with
  | nil => simp [Re.lit, Re.run]
  | cons c w ih =>
    simp only [Re.lit, Re.run]
    cases s with
    | nil => simp [Re.chr, Re.run]
    | cons x s =>
      rw [Re.run_chr]
      simp only [ih]
      by_cases hx : x = c
      · subst hx; simp [List.cons_prefix_cons]
      · simp [hx, List.cons_prefix_cons, Ne.symm hx]

/-! ## Line breaks -/

/-- CR or LF -/
def isLineBreak (c : Char) : Bool := c == '\n' || c == '\r'

theorem lineBreak_subFrom (s : Str) : ∀ must, lineBreakPattern.subFrom (fun _ => []) must s =
    s.filter (fun c => !isLineBreak c) := by
  suffices H : ∀ n (s : Str) must, s.length < n → lineBreakPattern.subFrom (fun _ => []) must s =
      s.filter (fun c => !isLineBreak c) from fun must => H _ s must (Nat.lt_succ_self _)
  intro n
  induction n with
  | zero => intro s must h; simp at h
  | succ n ih =>
    intro s must h
    rw [Re.subFrom_eq]
    cases s with
    | nil => simp [Re.matchHere, lineBreakPattern, Re.run, Re.chr]
    | cons c s =>
      simp only [List.length_cons] at h
      have hl : (s.length == (c :: s).length) = false := by simp
      by_cases h1 : c = '\n'
      · subst h1
        have : lineBreakPattern.matchHere must ('\n' :: s) = some (s, []) := by
          simp [Re.matchHere, lineBreakPattern, Re.run, Re.chr]
        rw [this]
        simp only [hl, List.nil_append]
        rw [ih _ _ (by omega)]
        simp [isLineBreak]
      · by_cases h2 : c = '\r'
        · subst h2
          cases s with
          | nil =>
            have : lineBreakPattern.matchHere must ['\r'] = some ([], []) := by
              simp [Re.matchHere, lineBreakPattern, Re.run, Re.chr]
            rw [this]
            simp only [List.nil_append]
            rw [ih _ _ (by simp; omega)]
            simp [isLineBreak]
          | cons d s =>
            by_cases h3 : d = '\n'
            · subst h3
              have : lineBreakPattern.matchHere must ('\r' :: '\n' :: s) = some (s, []) := by
                have hx : ¬ (s.length = s.length + 1 + 1) := by omega
                simp [Re.matchHere, lineBreakPattern, Re.run, Re.chr, hx]
              rw [this]
              simp only [List.nil_append]
              rw [ih _ _ (by simp at h; omega)]
              simp [isLineBreak]
            · have : lineBreakPattern.matchHere must ('\r' :: d :: s) = some (d :: s, []) := by
                simp [Re.matchHere, lineBreakPattern, Re.run, Re.chr, h3]
              rw [this]
              simp only [List.nil_append]
              rw [ih _ _ (by simp at h ⊢; omega)]
              simp [isLineBreak]
        · have : lineBreakPattern.matchHere must (c :: s) = none := by
            simp [Re.matchHere, lineBreakPattern, Re.run, Re.chr, h1, h2]
          rw [this]
          simp only
          rw [ih _ _ (by omega)]
          simp [isLineBreak, h1, h2]

/-- Line-break removal deletes exactly the CR and LF characters. -/
theorem removeLineBreaks_eq (s : Str) : removeLineBreaks s = s.filter (fun c => !isLineBreak c) :=
  lineBreak_subFrom s false

/-! ## The prefix `mml:` -/

theorem msWord_eq (s : Str) :
    removeMsWordPrefixes s =
      if c!"mml:" <+: s then removeMsWordPrefixes (s.drop 4)
      else match s with
        | [] => []
        | c :: t => c :: removeMsWordPrefixes t := by
  unfold removeMsWordPrefixes
  rw [Re.sub_eq, Re.subFrom_eq, Re.matchHere, Re.run_lit]
  by_cases hp : c!"mml:" <+: s
  · have h4 : s.length ≥ 4 := hp.length_le
    have hne : ((s.drop 4).length == s.length) = false := by simp; omega
    simp only [hp, if_true]
    simp only [List.length_cons, List.length_nil, Nat.zero_add, Bool.false_and, Bool.false_eq_true,
      if_false, List.nil_append, Nat.reduceAdd, hne, Re.sub_eq]
  · simp only [hp, if_false, Re.sub_eq]

end Verif
