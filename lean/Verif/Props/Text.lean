import Verif.Spec.Text
import Verif.Lemmas.Renders
import Verif.Lemmas.Tokens
import Verif.Props.Doc
import Verif.Props.Tokens

/-! # Whitespace -/

namespace Verif
open Spec

/-! ## The string operations against their descriptions -/

theorem isSpace_iff (c : Char) : isSpace c = true ↔ White c := by
  unfold isSpace White whiteCodes
  simp only [Bool.or_eq_true, Bool.and_eq_true, decide_eq_true_eq, beq_iff_eq, List.mem_cons,
    List.not_mem_nil, or_false]
  omega

theorem isSpace_not_iff (c : Char) : isSpace c = false ↔ ¬ White c := by
  rw [← isSpace_iff]; simp

theorem White_blank : White ' ' := by unfold White; decide

/-- `" ".join` and its like put the separator between neighbours and nowhere else. -/
theorem join_iff (sep : Str) (ss : List Str) (t : Str) : join sep ss = t ↔ Glued sep ss t := by
  constructor
  · rintro rfl
    induction ss with
    | nil => exact .nil
    | cons s ss ih =>
      cases ss with
      | nil => exact .one
      | cons x xs => exact .more ih
  · intro h
    induction h with
    | nil => rfl
    | one => rfl
    | more _ ih => rw [join, ih]

theorem split_gap (gap s : Str) (h : ∀ c ∈ gap, White c) : split (gap ++ s) = split s := by
  induction gap with
  | nil => rfl
  | cons c gap ih =>
    rw [List.cons_append, split_cons_space _ ((isSpace_iff c).2 (h c List.mem_cons_self)),
      ih fun c hc => h c (List.mem_cons_of_mem _ hc)]

theorem Spec.Words.split {s : Str} {ws : List Str} (h : Words s ws) : split s = ws := by
  induction h with
  | none h => simpa using split_gap _ [] h
  | last h h0 hw h' =>
    rw [List.append_assoc, split_gap _ _ h,
      split_append_spaces _ _ fun c hc => (isSpace_iff c).2 (h' c hc),
      split_word _ h0 fun c hc => (isSpace_not_iff c).2 (hw c hc)]
  | more h h0 hw hc _ ih =>
    rw [List.append_assoc, split_gap _ _ h, split_append_space _ _ _ ((isSpace_iff _).2 hc),
      split_word _ h0 fun c hc => (isSpace_not_iff c).2 (hw c hc), ih]
    rfl

theorem lstrip_gap (s : Str) : ∃ gap, s = gap ++ lstrip s ∧ ∀ c ∈ gap, White c := by
  refine ⟨s.takeWhile isSpace, by simp [lstrip], fun c hc => (isSpace_iff c).1 ?_⟩
  exact mem_takeWhile_imp hc

theorem lstrip_head (s : Str) (c : Char) (u : Str) (h : lstrip s = c :: u) : ¬ White c := by
  induction s with
  | nil => simp [lstrip] at h
  | cons a s ih =>
    unfold lstrip at h ih
    rw [List.dropWhile_cons] at h
    split at h
    · exact ih h
    · rename_i ha
      rw [← (List.cons.inj h).1, ← isSpace_iff]
      exact ha

/-- Every text consists of its words. -/
theorem words_split (s : Str) : Words s (split s) := by
  induction hn : s.length using Nat.strongRecOn generalizing s with
  | _ n ih =>
    obtain ⟨gap, hg, hgw⟩ := lstrip_gap s
    have hh := lstrip_head s
    rw [← split_lstrip]
    generalize lstrip s = r at hg hh
    rcases first_space r with hr | ⟨w, c, t, rfl, hw, hc⟩
    · cases r with
      | nil => rw [hg, List.append_nil]; exact .none hgw
      | cons a r =>
        rw [split_word _ (by simp) hr, hg]
        have := Words.last (gap' := []) hgw (w := a :: r) (by simp)
          (fun c hc => (isSpace_not_iff c).1 (hr c hc)) (by simp)
        simpa using this
    · cases w with
      | nil => exact absurd ((isSpace_iff c).1 hc) (hh c t rfl)
      | cons a w =>
        rw [split_append_space _ _ _ hc, split_word _ (by simp) hw, hg, ← List.append_assoc]
        refine Words.more hgw (by simp) (fun c hc => (isSpace_not_iff c).1 (hw c hc))
          ((isSpace_iff c).1 hc) (ih t.length ?_ t rfl)
        rw [← hn, hg]
        simp
        omega

/-- `str.split()` yields the words. -/
theorem split_iff (s : Str) (ws : List Str) : split s = ws ↔ Words s ws :=
  ⟨fun h => h ▸ words_split s, Spec.Words.split⟩

theorem rstrip_last (s : Str) (c : Char) (u : Str) (h : rstrip s = u ++ [c]) : ¬ White c := by
  have : lstrip s.reverse = c :: u.reverse := by
    have := congrArg List.reverse h
    simpa [rstrip, lstrip] using this
  exact lstrip_head _ _ _ this

theorem rstrip_gap (s : Str) : ∃ gap, s = rstrip s ++ gap ∧ ∀ c ∈ gap, White c := by
  obtain ⟨t, h1, h2⟩ := rstrip_append s
  exact ⟨t, h1, fun c hc => (isSpace_iff c).1 (h2 c hc)⟩

theorem strip_trimmed (s : Str) : Trimmed s (strip s) := by
  obtain ⟨l, hl, hlw⟩ := lstrip_gap s
  obtain ⟨r, hr, hrw⟩ := rstrip_gap (lstrip s)
  refine ⟨⟨l, r, ?_, hlw, hrw⟩, ?_, ?_⟩
  · rw [List.append_assoc]; unfold strip; rw [← hr]; exact hl
  · intro c u h
    unfold strip at h
    rw [h] at hr
    exact lstrip_head s c (u ++ r) (by rw [hr]; rfl)
  · intro c u h
    exact rstrip_last _ c u h

/-- `str.strip()` removes exactly the whitespace at the ends. -/
theorem strip_iff (s t : Str) : strip s = t ↔ Trimmed s t := by
  refine ⟨fun h => h ▸ strip_trimmed s, ?_⟩
  rintro ⟨⟨l, r, rfl, hl, hr⟩, hh, ht⟩
  have hr' : ∀ u : Str, rstrip (u ++ r) = rstrip u := by
    intro u
    unfold rstrip
    rw [List.reverse_append, List.dropWhile_append_of_pos]
    intro c hc
    exact (isSpace_iff c).2 (hr c (by simpa using hc))
  have hl' : ∀ u : Str, lstrip (l ++ u) = lstrip u := by
    intro u
    unfold lstrip
    rw [List.dropWhile_append_of_pos]
    intro c hc
    exact (isSpace_iff c).2 (hl c hc)
  unfold strip
  rw [List.append_assoc, hl']
  cases t with
  | nil =>
    have : lstrip r = [] := by
      have := List.dropWhile_append_of_pos (p := isSpace) (l₁ := r) (l₂ := [])
        fun c hc => (isSpace_iff c).2 (hr c hc)
      simpa [lstrip] using this
    rw [List.nil_append, this]; rfl
  | cons c u =>
    have : lstrip ((c :: u) ++ r) = (c :: u) ++ r :=
      lstrip_eq fun c' t' h => by
        rw [List.cons_append] at h
        exact (List.cons.inj h).1 ▸ (isSpace_not_iff c).2 (hh c u rfl)
    rw [this, hr']
    exact rstrip_eq fun c' t' h => (isSpace_not_iff c').2 (ht c' t' h)

theorem normalize_iff (s t : Str) : normalize s = t ↔ Tidied s t := by
  unfold normalize Tidied
  rw [join_iff]
  constructor
  · intro h; exact ⟨_, words_split s, h⟩
  · rintro ⟨ws, hw, h⟩; rw [hw.split]; exact h

theorem alnum_iff (c : Char) : alnumIgnoreCase c = true ↔ c.toNat ∈ letterCodes := by
  unfold alnumIgnoreCase isAsciiAlnum letterCodes
  simp only [Bool.or_eq_true, Bool.and_eq_true, decide_eq_true_eq, beq_iff_eq, List.mem_append,
    List.mem_range'_1, List.mem_cons, List.not_mem_nil, or_false]
  omega

/-! ## The properties -/

/-- The words of joined texts are those of the texts, in order. -/
theorem split_join_flatten (ss : List Str) : split (join c!" " ss) = (ss.map split).flatten := by
  induction ss with
  | nil => rfl
  | cons s ss ih =>
    cases ss with
    | nil => simp [join]
    | cons x xs =>
      rw [join, List.append_assoc]
      show split (s ++ ' ' :: join c!" " (x :: xs)) = _
      rw [split_append_space _ _ _ isSpace_blank, ih]
      rfl

theorem zip_map_mem {α β γ : Type} (f : β → γ) : ∀ (xs : List α) (ys : List β) (p : α × γ),
    p ∈ xs.zip (ys.map f) ↔ ∃ q ∈ xs.zip ys, p = (q.1, f q.2)
  | [], ys, p => by simp
  | x :: xs, [], p => by simp
  | x :: xs, y :: ys, p => by
    simp only [List.map_cons, List.zip_cons_cons, List.mem_cons, zip_map_mem f xs ys p]
    constructor
    · rintro (rfl | ⟨q, hq, rfl⟩)
      · exact ⟨(x, y), .inl rfl, rfl⟩
      · exact ⟨q, .inr hq, rfl⟩
    · rintro ⟨q, rfl | hq, rfl⟩
      · exact .inl rfl
      · exact .inr ⟨q, hq, rfl⟩

theorem choose_words (b : Bool) : ∀ (ns : List Node) (wss : List (List Str)),
    ns.length = wss.length → (∀ p ∈ ns.zip wss, ∃ s, latexIn b p.1 = .ok s ∧ Words s p.2) →
    ∃ ss, (ns.length = ss.length ∧ ∀ p ∈ ns.zip ss, latexIn b p.1 = .ok p.2) ∧ ss.map split = wss
  | [], [], _, _ => ⟨[], by simp, rfl⟩
  | n :: ns, ws :: wss, hl, h => by
    obtain ⟨ss, ⟨h1, h2⟩, h3⟩ := choose_words b ns wss (by simpa using hl)
      fun p hp => h p (List.mem_cons_of_mem _ hp)
    obtain ⟨s, hs, hw⟩ := h (n, ws) (by simp)
    refine ⟨s :: ss, ⟨by simp [h1], ?_⟩, by simp [h3, hw.split]⟩
    intro p hp
    rcases List.mem_cons.1 (by simpa using hp) with rfl | hp
    · exact hs
    · exact h2 p hp

/-- **C55** the output of a `math` element consists of the words of the outputs of its child
elements, in order, with single blanks between them; it exists exactly if all of these do. -/
theorem C55_math (b : Bool) (A : List (Str × Str)) (cs : List Node) (t : Str) :
    latexIn b (.elem c!"math" A cs) = .ok t ↔
      ∃ wss : List (List Str), (kids cs).length = wss.length ∧
        (∀ p ∈ (kids cs).zip wss, ∃ s, latexIn b p.1 = .ok s ∧ Words s p.2) ∧
        Glued [' '] wss.flatten t := by
  rw [latexIn_math]
  constructor
  · intro h
    cases hs : seqAll (outcomes b (kids cs)) with
    | error e => rw [hs] at h; cases h
    | ok ss =>
      rw [hs] at h
      have h : normalize (join c!" " ss) = t := Except.ok.inj h
      have hk := (seqAll_outcomes b _ _).1 hs
      refine ⟨ss.map split, by simp [hk.1], ?_, ?_⟩
      · intro p hp
        obtain ⟨q, hq, rfl⟩ := (zip_map_mem split _ _ _).1 hp
        exact ⟨_, hk.2 q hq, words_split _⟩
      · rw [← split_join_flatten, ← join_iff]; exact h
  · rintro ⟨wss, hl, hk, hg⟩
    obtain ⟨ss, h1, rfl⟩ := choose_words b _ _ hl hk
    rw [(seqAll_outcomes b _ _).2 h1]
    rw [← split_join_flatten, ← join_iff] at hg
    exact congrArg Except.ok hg

/-- **C55** identifiers, operators and numbers see the words of their text and nothing else. -/
theorem C55_words (b : Bool) (tag : Str) (ht : tag = c!"mi" ∨ tag = c!"mo" ∨ tag = c!"mn")
    (A : List (Str × Str)) (s s' : Str) (ws : List Str) (h : Words s ws) (h' : Words s' ws) :
    latexIn b (.elem tag A [.text s]) = latexIn b (.elem tag A [.text s']) := by
  refine C22_words_only b tag ?_ A [.text s] [.text s'] (h.split.trans h'.split.symm)
  rcases ht with rfl | rfl | rfl <;> decide

/-- **C55** `mtext` ignores the whitespace at the ends of its text. -/
theorem C55_text (b : Bool) (A : List (Str × Str)) (s t : Str) (h : Trimmed s t) :
    latexIn b (.elem c!"mtext" A [.text s]) = latexIn b (.elem c!"mtext" A [.text t]) := by
  have hd : ∀ u : Str, tokenData [.text u] = u := fun u => rfl
  have h1 := (strip_iff s t).2 h
  have h2 := (strip_iff t t).2 ⟨⟨[], [], by simp, by simp, by simp⟩, h.2⟩
  rw [latexIn_mtext, latexIn_mtext, hd, hd, h1, h2]

/-- **C01** The only whitespace character in the output is the blank. -/
theorem C01_code_points (env : Env) (x s : Str) (h : convert env x = .ok s) :
    ∀ c ∈ s, White c → c = ' ' :=
  fun c hc hw => (C01_output_normal env x s h).1 c hc ((isSpace_iff c).2 hw)

/-- **C55** The string operations in terms of which the other specifications are written are the
ones described in `Spec/Text.lean`. -/
theorem C55_vocabulary :
    (∀ c, isSpace c = true ↔ White c) ∧ (∀ s ws, split s = ws ↔ Words s ws) ∧
    (∀ s t, strip s = t ↔ Trimmed s t) ∧ (∀ sep ss t, join sep ss = t ↔ Glued sep ss t) ∧
    (∀ s t, normalize s = t ↔ Tidied s t) ∧
    (∀ c, alnumIgnoreCase c = true ↔ c.toNat ∈ letterCodes) :=
  ⟨isSpace_iff, split_iff, strip_iff, join_iff, normalize_iff, alnum_iff⟩

example : latexIn false (.elem c!"math" [] [.elem c!"mi" [] [.text c!" a\u00a0\tb "], .text c!"  ",
    .elem c!"mrow" [] [], .elem c!"mtext" [] [.text c!"x  y"]]) = .ok c!"a b \\text{x y}" := by
  decide +kernel

example : latexIn false (.elem c!"mtext" [] [.text c!"\u3000x  y\n"]) = .ok c!"\\text{x  y}" := by
  decide +kernel

example : Words c!" a\u00a0\tb " [c!"a", c!"b"] := (split_iff _ _).1 (by decide)
example : Trimmed c!"\u3000x  y\n" c!"x  y" := (strip_iff _ _).1 (by decide)
example : ¬ Trimmed c!" x" c!" x" := fun h => by
  have := (strip_iff _ _).2 h
  revert this; decide

end Verif
