import Verif.Lemmas.Regex

/-! # Exact effect of the two repair patterns of error_handler.py -/

namespace Verif

theorem starM_eq_none {β : Type} (p : Char → Bool) (s : Str) (k : Str → Option β)
    (h : ∀ s', s' <:+ s → k s' = none) : starM p s k = none := by
  cases hs : starM p s k with
  | none => rfl
  | some b =>
    obtain ⟨s', h1, h2⟩ := starM_spec p s k b hs
    rw [h s' h1] at h2
    exact absurd h2 (by simp)

theorem starM_stop {β : Type} (p : Char → Bool) (v : Str) (k : Str → Option β)
    (h : ∀ c v', v = c :: v' → ∀ s', s' <:+ v' → k s' = none) : starM p v k = k v := by
  cases v with
  | nil => rfl
  | cons c v =>
    rw [starM]
    split
    · rw [starM_eq_none p v k (h c v rfl)]; rfl
    · rfl

/-- Greedy repetition stops at the last position where the continuation succeeds. -/
theorem starM_last {β : Type} (p : Char → Bool) (a v : Str) (k : Str → Option β) (b : β)
    (ha : ∀ c ∈ a, p c = true) (hv : k v = some b)
    (h : ∀ c v', v = c :: v' → ∀ s', s' <:+ v' → k s' = none) : starM p (a ++ v) k = some b := by
  induction a with
  | nil => rw [List.nil_append, starM_stop p v k h, hv]
  | cons c a ih =>
    rw [List.cons_append, starM, if_pos (ha c List.mem_cons_self),
      ih fun x hx => ha x (List.mem_cons_of_mem _ hx)]
    rfl

/-! ## The generic pattern -/

/-- `(.*>)` as group 4 -/
def tailGrp : Re := .grp 4 (.seq (.star isDot) (.chr '>'))

/-- `(\w+=(?!(["'])))` as group 2 -/
def wordGrp (env : Env) : Re :=
  .grp 2 (.seq (.plus env.isWord) (.seq (.chr '=') (.nla (.grp 3 (.cls isQuote)))))

/-- Everything after the blank. -/
def tailPat (env : Env) : Re := .seq (.opt (wordGrp env)) tailGrp

theorem genericPattern_eq (env : Env) :
    genericPattern env = .seq (.grp 1 (.seq (.chr '<') (.seq (.star isDot) (.chr ' ')))) (tailPat env) :=
  rfl

theorem tailGrp_mem {β : Type} {u : Str} {g : Caps} {k : Str → Caps → Option β} {b : β}
    (h : tailGrp.run u g k = some b) : '>' ∈ u := by
  simp only [tailGrp, Re.run] at h
  obtain ⟨s', h1, h2⟩ := starM_spec _ _ _ _ h
  rw [Re.run_chr] at h2
  cases s' with
  | nil => simp at h2
  | cons x s' =>
    simp only at h2
    split at h2
    · rename_i hx; subst hx; exact h1.subset List.mem_cons_self
    · simp at h2

theorem tailPat_mem {β : Type} {env : Env} {u : Str} {g : Caps} {k : Str → Caps → Option β} {b : β}
    (h : (tailPat env).run u g k = some b) : '>' ∈ u := by
  simp only [tailPat, Re.run, orElse_eq_some] at h
  rcases h with h | ⟨_, h⟩
  · obtain ⟨s1, g1, h1, h2⟩ := Re.run_suffix _ _ _ _ _ h
    exact h1.subset (tailGrp_mem h2)
  · exact tailGrp_mem h

theorem isDot_of_noLF {s : Str} (h : '\n' ∉ s) : ∀ c ∈ s, isDot c = true := by
  intro c hc
  simp only [isDot, bne_iff_ne, ne_eq]
  rintro rfl
  exact h hc

theorem tailGrp_run {β : Type} (m t : Str) (g : Caps) (k : Str → Caps → Option β)
    (hm : '\n' ∉ m) (ht : '>' ∉ t) (b : β)
    (hk : k t ((4, (m ++ '>' :: t).take ((m ++ '>' :: t).length - t.length)) :: g) = some b) :
    tailGrp.run (m ++ '>' :: t) g k = some b := by
  simp only [tailGrp, Re.run]
  apply starM_last
  · exact isDot_of_noLF hm
  · rw [Re.run_chr]; simpa using hk
  · intro c v' hv s' hs'
    simp only [List.cons.injEq] at hv
    obtain ⟨rfl, rfl⟩ := hv
    rw [Re.run_chr]
    cases s' with
    | nil => rfl
    | cons x s' =>
      simp only
      rw [if_neg]
      rintro rfl
      exact ht (hs'.subset List.mem_cons_self)

/-- The text that remains and the relevant groups after matching the tail. -/
theorem tailPat_run (env : Env) (m t : Str) (g : Caps) (hm : '\n' ∉ m) (ht : '>' ∉ t) :
    ∃ g', (tailPat env).run (m ++ '>' :: t) g (fun s g => some (s, g)) = some (t, g') ∧
      capText 1 g' = capText 1 g ∧ capText 3 g' = capText 3 g := by
  simp only [tailPat, Re.run]
  cases h : (wordGrp env).run (m ++ '>' :: t) g
      (fun s' g' => tailGrp.run s' g' fun s g => some (s, g)) with
  | none =>
    refine ⟨(4, (m ++ '>' :: t).take ((m ++ '>' :: t).length - t.length)) :: g, ?_, rfl, rfl⟩
    rw [tailGrp_run m t g (fun s g => some (s, g)) hm ht _ rfl]
    rfl
  | some p =>
    refine ⟨p.2, ?_⟩
    simp only [wordGrp, Re.run, Re.plus] at h
    generalize hu : m ++ '>' :: t = u at h
    cases u with
    | nil => simp at h
    | cons c u =>
      simp only at h
      split at h
      · obtain ⟨s1, h1, h2⟩ := starM_spec _ _ _ _ h
        rw [Re.run_chr] at h2
        cases s1 with
        | nil => simp at h2
        | cons x s1 =>
          simp only at h2
          split at h2
          · split at h2
            · simp at h2
            · have hsuf : s1 <:+ m ++ '>' :: t := by
                rw [hu]
                exact ((List.suffix_cons x s1).trans h1).trans (List.suffix_cons c u)
              have hmem := tailGrp_mem h2
              -- `s1` is a suffix that still contains `>`
              obtain ⟨m', hm', hs1⟩ : ∃ m', '\n' ∉ m' ∧ s1 = m' ++ '>' :: t := by
                obtain ⟨z, hz⟩ := hsuf
                rw [List.append_eq_append_iff] at hz
                rcases hz with ⟨w, h1', h2'⟩ | ⟨w, h1', h2'⟩
                · exact ⟨w, fun hw => hm (by rw [h1']; simp [hw]), h2'⟩
                · cases w with
                  | nil => exact ⟨[], by simp, by simpa using h2'.symm⟩
                  | cons y w =>
                    simp only [List.cons_append, List.cons.injEq] at h2'
                    exact absurd (by rw [h2'.2]; simp [hmem]) ht
              subst hs1
              have := tailGrp_run m' t ((2, ((c :: u).take ((c :: u).length - (m' ++ '>' :: t).length))) :: g)
                (fun s g => some (s, g)) hm' ht _ rfl
              rw [this] at h2
              simp only [Option.some.injEq] at h2
              subst h2
              exact ⟨rfl, rfl, rfl⟩
          · simp at h2
      · simp at h

/-- The match of the generic pattern at a `<`. -/
theorem generic_matchHere (env : Env) (a m t : Str) (hnl : '\n' ∉ a ++ ' ' :: m)
    (hb : ' ' ∉ m) (ht : '>' ∉ t) :
    ∃ g, (genericPattern env).matchHere false ('<' :: (a ++ ' ' :: (m ++ '>' :: t))) = some (t, g) ∧
      capText 1 g = '<' :: (a ++ [' ']) ∧ capText 3 g = [] := by
  have hnla : '\n' ∉ a := fun h => hnl (by simp [h])
  have hnlm : '\n' ∉ m := fun h => hnl (by simp [h])
  rw [genericPattern_eq]
  simp only [Re.matchHere, Re.run, Bool.false_and, Bool.false_eq_true, if_false]
  obtain ⟨g', h1, h2, h3⟩ := tailPat_run env m t
    [(1, ('<' :: (a ++ ' ' :: (m ++ '>' :: t))).take
      (('<' :: (a ++ ' ' :: (m ++ '>' :: t))).length - (m ++ '>' :: t).length))] hnlm ht
  refine ⟨g', ?_, ?_, ?_⟩
  · rw [Re.run_chr]
    simp only [if_true]
    apply starM_last
    · exact isDot_of_noLF hnla
    · rw [Re.run_chr]
      simpa using h1
    · intro c v' hv s' hs'
      simp only [List.cons.injEq] at hv
      obtain ⟨rfl, rfl⟩ := hv
      rw [Re.run_chr]
      cases s' with
      | nil => rfl
      | cons x s' =>
        simp only
        split
        · rename_i hx
          subst hx
          match hr : (tailPat env).run s' _ (fun s g => some (s, g)) with
          | none => rfl
          | some b =>
            have hmem := tailPat_mem hr
            -- the blank lies in `t`, so `s'` has no `>`
            exfalso
            obtain ⟨z, hz⟩ := hs'
            rw [List.append_eq_append_iff] at hz
            rcases hz with ⟨w, h1', h2'⟩ | ⟨w, h1', h2'⟩
            · cases w with
              | nil => simp at h2'
              | cons y w =>
                simp only [List.cons_append, List.cons.injEq] at h2'
                apply hb; rw [h1', ← h2'.1]; simp
            · cases w with
              | nil => simp at h2'
              | cons y w =>
                simp only [List.cons_append, List.cons.injEq] at h2'
                apply ht; rw [h2'.2]; simp [hmem]
        · rfl
  · rw [h2]
    simp only [capText, if_true]
    have : ('<' :: (a ++ ' ' :: (m ++ '>' :: t))) = ('<' :: (a ++ [' '])) ++ (m ++ '>' :: t) := by simp
    rw [this, List.length_append, Nat.add_sub_cancel, List.take_left]
  · rw [h3]; rfl

/-- A match of the generic pattern needs a `<`, a later blank and a later `>`. -/
theorem generic_match_decomp {env : Env} {must : Bool} {s : Str} {p : Str × Caps}
    (h : (genericPattern env).matchHere must s = some p) :
    ∃ b c d, s = '<' :: (b ++ ' ' :: (c ++ '>' :: d)) := by
  rw [genericPattern_eq] at h
  simp only [Re.matchHere, Re.run] at h
  rw [Re.run_chr] at h
  cases s with
  | nil => simp at h
  | cons x s =>
    simp only at h
    split at h
    · rename_i hx
      subst hx
      obtain ⟨s1, h1, h2⟩ := starM_spec _ _ _ _ h
      rw [Re.run_chr] at h2
      cases s1 with
      | nil => simp at h2
      | cons y s1 =>
        simp only at h2
        split at h2
        · rename_i hy
          subst hy
          have hmem := tailPat_mem h2
          obtain ⟨b, hb⟩ := h1
          obtain ⟨c, d, hcd⟩ := List.append_of_mem hmem
          exact ⟨b, c, d, by rw [← hb, hcd]⟩
        · simp at h2
    · simp at h

/-- The replacement `\1\3`. -/
def genericRepl (g : Caps) : Str := capText 1 g ++ capText 3 g

/-- Without `<`, blank, `>` in this order nothing is replaced. -/
theorem generic_subFrom_none (env : Env) (s : Str) :
    ∀ must, (¬ ∃ a b c d, s = a ++ '<' :: (b ++ ' ' :: (c ++ '>' :: d))) →
      (genericPattern env).subFrom genericRepl must s = s := by
  induction s with
  | nil =>
    intro must h
    rw [Re.subFrom_eq]
    cases hm : (genericPattern env).matchHere must [] with
    | none => rfl
    | some p =>
      obtain ⟨b, c, d, hd⟩ := generic_match_decomp hm
      exact absurd ⟨[], b, c, d, hd⟩ h
  | cons x s ih =>
    intro must h
    rw [Re.subFrom_eq]
    cases hm : (genericPattern env).matchHere must (x :: s) with
    | none =>
      simp only
      rw [ih]
      rintro ⟨a, b, c, d, rfl⟩
      exact h ⟨x :: a, b, c, d, rfl⟩
    | some p =>
      obtain ⟨b, c, d, hd⟩ := generic_match_decomp hm
      exact absurd ⟨[], b, c, d, hd⟩ h

/-- Otherwise the text between the last blank before the last `>` and that `>` (inclusive) is
removed. -/
theorem generic_subFrom_some (env : Env) (a m t : Str) (hnl : '\n' ∉ a ++ ' ' :: m)
    (hlt : '<' ∈ a) (hb : ' ' ∉ m) (ht : '>' ∉ t) :
    (genericPattern env).subFrom genericRepl false (a ++ ' ' :: (m ++ '>' :: t)) = a ++ ' ' :: t := by
  induction a with
  | nil => simp at hlt
  | cons x a ih =>
    rw [Re.subFrom_eq]
    by_cases hx : x = '<'
    · subst hx
      obtain ⟨g, h1, h2, h3⟩ := generic_matchHere env a m t
        (fun h => hnl (by simp at h ⊢; exact h)) hb ht
      rw [List.cons_append, h1]
      simp only
      rw [generic_subFrom_none]
      · simp [genericRepl, h2, h3]
      · rintro ⟨a', b', c', d', rfl⟩
        exact ht (by simp)
    · have hm : (genericPattern env).matchHere false (x :: a ++ ' ' :: (m ++ '>' :: t)) = none := by
        cases hm : (genericPattern env).matchHere false (x :: a ++ ' ' :: (m ++ '>' :: t)) with
        | none => rfl
        | some p =>
          obtain ⟨b, c, d, hd⟩ := generic_match_decomp hm
          simp only [List.cons_append, List.cons.injEq] at hd
          exact absurd hd.1 hx
      rw [hm]
      simp only [List.cons_append]
      rw [ih]
      · intro h; apply hnl; simp at h ⊢; right; exact h
      · rcases List.mem_cons.1 hlt with h | h
        · exact absurd h.symm hx
        · exact h

theorem generic_search (env : Env) (a m t : Str) (hnl : '\n' ∉ a ++ ' ' :: m)
    (hlt : '<' ∈ a) (hb : ' ' ∉ m) (ht : '>' ∉ t) :
    (genericPattern env).search (a ++ ' ' :: (m ++ '>' :: t)) = true := by
  induction a with
  | nil => simp at hlt
  | cons x a ih =>
    simp only [List.cons_append, Re.search, Bool.or_eq_true]
    by_cases hx : x = '<'
    · subst hx
      obtain ⟨g, h1, h2, h3⟩ := generic_matchHere env a m t
        (fun h => hnl (by simp at h ⊢; exact h)) hb ht
      left; rw [h1]; rfl
    · right
      apply ih
      · intro h; apply hnl; simp at h ⊢; right; exact h
      · rcases List.mem_cons.1 hlt with h | h
        · exact absurd h.symm hx
        · exact h

/-- Last occurrence of a character. -/
theorem last_occurrence {c : Char} {s : Str} (h : c ∈ s) : ∃ a t, s = a ++ c :: t ∧ c ∉ t := by
  induction s with
  | nil => simp at h
  | cons x s ih =>
    by_cases hs : c ∈ s
    · obtain ⟨a, t, h1, h2⟩ := ih hs
      exact ⟨x :: a, t, by simp [h1], h2⟩
    · rcases List.mem_cons.1 h with h | h
      · subst h; exact ⟨[], s, rfl, hs⟩
      · exact absurd h hs

/-- Either the text has no `<`, blank, `>` in this order, or it decomposes at the last blank
before the last `>`. -/
theorem generic_cases (s : Str) :
    (¬ ∃ a b c d, s = a ++ '<' :: (b ++ ' ' :: (c ++ '>' :: d))) ∨
    ∃ a m t, s = a ++ ' ' :: (m ++ '>' :: t) ∧ '<' ∈ a ∧ ' ' ∉ m ∧ '>' ∉ t := by
  by_cases h : ∃ a b c d, s = a ++ '<' :: (b ++ ' ' :: (c ++ '>' :: d))
  · right
    obtain ⟨a, b, c, d, h⟩ := h
    obtain ⟨u, t, h1, h2⟩ := last_occurrence (c := '>') (s := c ++ '>' :: d) (by simp)
    obtain ⟨v, m, h3, h4⟩ := last_occurrence (c := ' ') (s := ' ' :: u) (by simp)
    refine ⟨a ++ '<' :: (b ++ v), m, t, ?_, by simp, h4, h2⟩
    rw [h, h1]
    have : ' ' :: (u ++ '>' :: t) = (' ' :: u) ++ '>' :: t := by simp
    rw [this, h3]
    simp
  · left; exact h

/-- The loop of `_fix_missing_attribute` performs the substitution once. -/
theorem genericLoop_eq (env : Env) (xml : Str) (hnl : '\n' ∉ xml) :
    genericLoop env xml 5 xml = (genericPattern env).sub genericRepl xml := by
  rcases generic_cases xml with h | ⟨a, m, t, rfl, h1, h2, h3⟩
  · have h0 := generic_subFrom_none env xml false h
    have : ∀ n, genericLoop env xml n xml = xml := by
      intro n
      induction n with
      | zero => rfl
      | succ n ih =>
        rw [genericLoop]
        split
        · have h0' : (genericPattern env).sub (fun g => capText 1 g ++ capText 3 g) xml = xml := h0
          rw [h0']; exact ih
        · rfl
    rw [this, Re.sub_eq, h0]
  · have hs := generic_search env a m t (fun h => hnl (by simp at h ⊢; rcases h with h | h <;> simp [h])) h1 h2 h3
    have : ∀ n r, genericLoop env (a ++ ' ' :: (m ++ '>' :: t)) (n + 1) r =
        (genericPattern env).sub genericRepl (a ++ ' ' :: (m ++ '>' :: t)) := by
      intro n
      induction n with
      | zero => intro r; rw [genericLoop, if_pos hs]; rfl
      | succ n ih => intro r; rw [genericLoop, if_pos hs]; exact ih _
    exact this 4 _

/-! ## The missing-value pattern -/

/-- The next character is not a quotation mark. -/
def NoQuote (s : Str) : Prop := ∀ c t, s = c :: t → isQuote c = false

instance (s : Str) : Decidable (NoQuote s) :=
  match s with
  | [] => isTrue (by simp [NoQuote])
  | c :: t =>
    if h : isQuote c = false then isTrue (by rintro c' t' h'; cases h'; exact h)
    else isFalse (fun hq => h (hq c t rfl))

theorem run_nla_quote {β : Type} (n : Nat) (s : Str) (g : Caps) (k : Str → Caps → Option β) :
    (Re.nla (.grp n (.cls isQuote))).run s g k = if NoQuote s then k s g else none := by
  cases s with
  | nil => simp [Re.run, NoQuote]
  | cons c s =>
    simp only [Re.run]
    by_cases hq : isQuote c = true
    · have : ¬ NoQuote (c :: s) := fun h => by simp [h c s rfl] at hq
      simp [hq, this]
    · have : NoQuote (c :: s) := by rintro c' t' h'; cases h'; simpa using hq
      simp [hq, this]

theorem Re.run_alt {β : Type} (a b : Re) (s : Str) (g : Caps) (k : Str → Caps → Option β) :
    (Re.alt a b).run s g k = (a.run s g k).orElse (fun _ => b.run s g k) := rfl

theorem Re.run_seq {β : Type} (a b : Re) (s : Str) (g : Caps) (k : Str → Caps → Option β) :
    (Re.seq a b).run s g k = a.run s g (fun s' g' => b.run s' g' k) := rfl

theorem Re.run_grp {β : Type} (n : Nat) (a : Re) (s : Str) (g : Caps)
    (k : Str → Caps → Option β) :
    (Re.grp n a).run s g k =
      a.run s g (fun s' g' => k s' ((n, s.take (s.length - s'.length)) :: g')) := rfl

/-- What the pattern matches at a position. -/
theorem missing_matchHere (w s : Str) (must : Bool) :
    (∃ t g, s = w ++ '=' :: t ∧ NoQuote t ∧ (missingValuePattern w).matchHere must s = some (t, g)) ∨
    ((¬ ∃ t, s = w ++ '=' :: t ∧ NoQuote t) ∧
      ((∃ t g, s = w ++ t ∧ NoQuote t ∧ (must = false ∨ w ≠ []) ∧
        (missingValuePattern w).matchHere must s = some (t, g)) ∨
      ((¬ ∃ t, s = w ++ t ∧ NoQuote t ∧ (must = false ∨ w ≠ [])) ∧
        (missingValuePattern w).matchHere must s = none))) := by
  unfold Re.matchHere missingValuePattern
  simp only [Re.run_alt, Re.run_seq, Re.run_grp, run_nla_quote]
  by_cases hw : w <+: s
  · obtain ⟨t, rfl⟩ := hw
    simp only [Re.run_lit, List.prefix_append, if_true, List.drop_left, Re.run_chr]
    have key : ∀ (R : Option (Str × Caps)),
        (∃ g, R = if NoQuote t ∧ (must = false ∨ w ≠ []) then some (t, g) else none) →
        ((∃ t_1 g, w ++ t = w ++ t_1 ∧ NoQuote t_1 ∧ (must = false ∨ w ≠ []) ∧ R = some (t_1, g)) ∨
        ((¬ ∃ t_1, w ++ t = w ++ t_1 ∧ NoQuote t_1 ∧ (must = false ∨ w ≠ [])) ∧ R = none)) := by
      rintro R ⟨g, rfl⟩
      by_cases hc : NoQuote t ∧ (must = false ∨ w ≠ [])
      · left; exact ⟨t, g, rfl, hc.1, hc.2, by rw [if_pos hc]⟩
      · right
        refine ⟨?_, by rw [if_neg hc]⟩
        rintro ⟨t', h1, h2, h3⟩
        have := List.append_cancel_left h1
        subst this
        exact hc ⟨h2, h3⟩
    have alt2 : ∀ (gg : Caps), ∃ g, (if NoQuote t then
        (if (must && t.length == (w ++ t).length) = true then none else some (t, gg)) else none) =
        if NoQuote t ∧ (must = false ∨ w ≠ []) then some (t, g) else none := by
      intro gg
      refine ⟨gg, ?_⟩
      by_cases hq : NoQuote t
      · cases must with
        | false => simp [hq]
        | true =>
          by_cases hw0 : w = []
          · subst hw0; simp [hq]
          · have : ¬ t.length = (w ++ t).length := by
              have : w.length ≠ 0 := by simpa using hw0
              simp; omega
            simp [hq, hw0]
      · simp [hq]
    cases t with
    | nil =>
      right
      refine ⟨by rintro ⟨t', h1, -⟩; have := List.append_cancel_left h1; simp at this, ?_⟩
      simp only [Option.orElse_none]
      apply key
      have := run_nla_quote (β := Str × Caps) 4 []
      simp only [Re.run] at this
      exact alt2 _
    | cons x t =>
      by_cases hx : x = '='
      · subst hx
        by_cases hq : NoQuote t
        · left
          refine ⟨t, [(1, (w ++ '=' :: t).take ((w ++ '=' :: t).length - t.length))], rfl, hq, ?_⟩
          have := run_nla_quote (β := Str × Caps) 2 t
          simp only [Re.run] at this
          simp only [if_true, hq]
          have hl : (t.length == (w ++ '=' :: t).length) = false := by simp; omega
          simp only [hl, Bool.and_false, Bool.false_eq_true, if_false]
          rfl
        · right
          refine ⟨?_, ?_⟩
          · rintro ⟨t', h1, h2⟩
            have := List.append_cancel_left h1
            simp only [List.cons.injEq, true_and] at this
            subst this
            exact hq h2
          · simp only [if_true, hq, if_false, Option.orElse_none]
            apply key
            exact alt2 _
      · right
        refine ⟨?_, ?_⟩
        · rintro ⟨t', h1, h2⟩
          have := List.append_cancel_left h1
          simp only [List.cons.injEq] at this
          exact hx this.1
        · simp only [hx, if_false, Option.orElse_none]
          apply key
          exact alt2 _
  · right
    refine ⟨?_, Or.inr ⟨?_, ?_⟩⟩
    · rintro ⟨t, rfl, -⟩; exact hw (List.prefix_append _ _)
    · rintro ⟨t, rfl, -⟩; exact hw (List.prefix_append _ _)
    · simp [Re.run_lit, hw]

end Verif
