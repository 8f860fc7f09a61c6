import Verif.Model.Latex

/-! # Facts about `split`, `strip`, `join`, `normalize` -/

namespace Verif

/-- A list of non-empty strings without whitespace. -/
def GoodWords (ws : List Str) : Prop := ∀ w ∈ ws, w ≠ [] ∧ ∀ c ∈ w, isSpace c = false

theorem splitAux_fst_nospace (s : Str) : ∀ c ∈ (splitAux s).1, isSpace c = false := by
  induction s with
  | nil => simp [splitAux]
  | cons a s ih =>
    simp only [splitAux]
    split
    · simp
    · rename_i h; intro c hc
      simp only [List.mem_cons] at hc
      rcases hc with rfl | hc
      · simpa using h
      · exact ih c hc

theorem splitAux_snd_good (s : Str) : GoodWords (splitAux s).2 := by
  induction s with
  | nil => simp [splitAux, GoodWords]
  | cons a s ih =>
    simp only [splitAux]
    split
    · split
      · exact ih
      · intro w hw
        simp only [List.mem_cons] at hw
        rcases hw with rfl | hw
        · exact ⟨by assumption, splitAux_fst_nospace s⟩
        · exact ih w hw
    · exact ih

theorem split_good (s : Str) : GoodWords (split s) := by
  unfold split
  simp only
  split
  · exact splitAux_snd_good s
  · intro w hw
    simp only [List.mem_cons] at hw
    rcases hw with rfl | hw
    · exact ⟨by assumption, splitAux_fst_nospace s⟩
    · exact splitAux_snd_good s w hw

@[simp] theorem split_nil : split [] = [] := rfl

theorem split_cons_space {c : Char} (s : Str) (h : isSpace c = true) : split (c :: s) = split s := by
  simp [split, splitAux, h]

theorem splitAux_append_space (s : Str) (c : Char) (t : Str) (h : isSpace c = true) :
    splitAux (s ++ c :: t) = ((splitAux s).1, (splitAux s).2 ++ split t) := by
  induction s with
  | nil => simp [splitAux, h, split]
  | cons a s ih =>
    simp only [List.cons_append, splitAux, ih]
    split
    · split <;> simp
    · rfl

theorem split_append_space (s : Str) (c : Char) (t : Str) (h : isSpace c = true) :
    split (s ++ c :: t) = split s ++ split t := by
  rw [split, splitAux_append_space s c t h]
  simp only [split]
  split <;> simp

theorem splitAux_word (w : Str) (h : ∀ c ∈ w, isSpace c = false) : splitAux w = (w, []) := by
  induction w with
  | nil => rfl
  | cons a w ih =>
    rw [splitAux, ih fun c hc => h c (List.mem_cons_of_mem _ hc)]
    simp [h a List.mem_cons_self]

theorem split_word (w : Str) (hne : w ≠ []) (h : ∀ c ∈ w, isSpace c = false) : split w = [w] := by
  simp [split, splitAux_word w h, hne]

theorem isSpace_blank : isSpace ' ' = true := by decide

theorem split_word_blank (w : Str) (hne : w ≠ []) (h : ∀ c ∈ w, isSpace c = false) (t : Str) :
    split (w ++ ' ' :: t) = w :: split t := by
  rw [split_append_space _ _ _ isSpace_blank, split_word w hne h]; rfl

/-- The words of a joined list of words. -/
theorem split_join {ws : List Str} (h : GoodWords ws) : split (join c!" " ws) = ws := by
  induction ws with
  | nil => rfl
  | cons w ws ih =>
    have hw := h w List.mem_cons_self
    have ih := ih fun x hx => h x (List.mem_cons_of_mem _ hx)
    cases ws with
    | nil => simpa [join] using split_word w hw.1 hw.2
    | cons x xs =>
      rw [join]
      simp only [List.append_assoc, List.singleton_append]
      rw [split_word_blank w hw.1 hw.2, ih]

theorem normalize_idem (s : Str) : normalize (normalize s) = normalize s := by
  unfold normalize; rw [split_join (split_good s)]

theorem split_normalize (s : Str) : split (normalize s) = split s := split_join (split_good s)

theorem normalize_eq_of_split {s t : Str} (h : split s = split t) : normalize s = normalize t := by
  unfold normalize; rw [h]

/-! ## Whitespace normal form -/

/-- Whitespace normal form: no leading or trailing whitespace, no whitespace character but the
blank, no two adjacent blanks. -/
structure WsNormal (s : Str) : Prop where
  blanks : ∀ c ∈ s, isSpace c = true → c = ' '
  single : ¬ ∃ a b, s = a ++ ' ' :: ' ' :: b
  head : ∀ c t, s = c :: t → isSpace c = false
  last : ∀ c t, s = t ++ [c] → isSpace c = false

theorem WsNormal.nil : WsNormal [] :=
  ⟨by simp, by simp, by simp, by simp⟩

theorem WsNormal.word {w : Str} (h : ∀ c ∈ w, isSpace c = false) : WsNormal w := by
  refine ⟨fun c hc hs => by simp [h c hc] at hs, ?_, ?_, ?_⟩
  · rintro ⟨a, b, rfl⟩
    have := h ' ' (by simp)
    simp [isSpace_blank] at this
  · rintro c t rfl; exact h c (by simp)
  · rintro c t rfl; exact h c (by simp)

/-- Two blanks inside `u ++ v` lie in `u`, in `v`, or at the seam. -/
theorem pair_in_append {x y : Char} {u v a b : Str} (h : u ++ v = a ++ x :: y :: b) :
    (∃ a' b', u = a' ++ x :: y :: b') ∨ (∃ a' b', v = a' ++ x :: y :: b') ∨
      ∃ u' v', u = u' ++ [x] ∧ v = y :: v' := by
  rw [List.append_eq_append_iff] at h
  rcases h with ⟨w, h1, h2⟩ | ⟨w, h1, h2⟩
  · exact Or.inr (Or.inl ⟨w, b, h2⟩)
  · cases w with
    | nil => simp at h2; exact Or.inr (Or.inl ⟨[], b, by simp [h2]⟩)
    | cons p w =>
      simp only [List.cons_append, List.cons.injEq] at h2
      obtain ⟨rfl, h2⟩ := h2
      cases w with
      | nil => simp at h2; exact Or.inr (Or.inr ⟨a, b, by simp [h1], by simp [h2]⟩)
      | cons q w =>
        simp only [List.cons_append, List.cons.injEq] at h2
        obtain ⟨rfl, h2⟩ := h2
        exact Or.inl ⟨a, w, by simp [h1]⟩

theorem WsNormal.append {u v : Str} (hu : WsNormal u) (hv : WsNormal v) : WsNormal (u ++ v) := by
  refine ⟨?_, ?_, ?_, ?_⟩
  · intro c hc hs
    rcases List.mem_append.1 hc with hc | hc
    · exact hu.blanks c hc hs
    · exact hv.blanks c hc hs
  · rintro ⟨a, b, h⟩
    rcases pair_in_append h with ⟨a', b', h⟩ | ⟨a', b', h⟩ | ⟨u', v', h1, h2⟩
    · exact hu.single ⟨a', b', h⟩
    · exact hv.single ⟨a', b', h⟩
    · have := hu.last ' ' u' h1
      simp [isSpace_blank] at this
  · intro c t h
    cases u with
    | nil => exact hv.head c t h
    | cons x u =>
      simp only [List.cons_append, List.cons.injEq] at h
      obtain ⟨rfl, -⟩ := h
      exact hu.head x u rfl
  · intro c t h
    rcases List.eq_nil_or_concat v with rfl | ⟨v', y, rfl⟩
    · simp at h; exact hu.last c t h
    · rw [List.concat_eq_append, ← List.append_assoc] at h
      have := List.append_inj_right' h rfl
      simp at this
      subst this
      exact hv.last y v' (by simp)

/-- Two non-empty normal strings joined by a blank. -/
theorem WsNormal.append_blank {u v : Str} (hu : WsNormal u) (hv : WsNormal v) (hu0 : u ≠ [])
    (hv0 : v ≠ []) : WsNormal (u ++ ' ' :: v) := by
  refine ⟨?_, ?_, ?_, ?_⟩
  · intro c hc hs
    rcases List.mem_append.1 hc with hc | hc
    · exact hu.blanks c hc hs
    · rcases List.mem_cons.1 hc with hc | hc
      · exact hc
      · exact hv.blanks c hc hs
  · rintro ⟨a, b, h⟩
    rcases pair_in_append h with ⟨a', b', h⟩ | ⟨a', b', h⟩ | ⟨u', v', h1, h2⟩
    · exact hu.single ⟨a', b', h⟩
    · cases a' with
      | nil =>
        simp at h
        have := hv.head ' ' b' h
        simp [isSpace_blank] at this
      | cons x a' =>
        simp only [List.cons_append, List.cons.injEq] at h
        exact hv.single ⟨a', b', h.2⟩
    · have := hu.last ' ' u' h1
      simp [isSpace_blank] at this
  · intro c t h
    cases u with
    | nil => exact absurd rfl hu0
    | cons x u =>
      simp only [List.cons_append, List.cons.injEq] at h
      obtain ⟨rfl, -⟩ := h
      exact hu.head x u rfl
  · intro c t h
    rcases List.eq_nil_or_concat v with rfl | ⟨v', y, rfl⟩
    · exact absurd rfl hv0
    · rw [List.concat_eq_append] at h
      have h : (u ++ ' ' :: v') ++ [y] = t ++ [c] := by simpa using h
      have := List.append_inj_right' h rfl
      simp at this
      subst this
      exact hv.last y v' (by simp)

theorem join_ne_nil {ws : List Str} (h : GoodWords ws) (h0 : ws ≠ []) : join c!" " ws ≠ [] := by
  cases ws with
  | nil => exact absurd rfl h0
  | cons w ws =>
    have := (h w List.mem_cons_self).1
    cases ws with
    | nil => simpa [join]
    | cons x xs => simp [join]

theorem WsNormal.join {ws : List Str} (h : GoodWords ws) : WsNormal (join c!" " ws) := by
  induction ws with
  | nil => exact .nil
  | cons w ws ih =>
    have hw := h w List.mem_cons_self
    have hg : GoodWords ws := fun x hx => h x (List.mem_cons_of_mem _ hx)
    cases ws with
    | nil => simpa [Verif.join] using WsNormal.word hw.2
    | cons x xs =>
      rw [Verif.join]
      simp only [List.append_assoc, List.singleton_append]
      exact (WsNormal.word hw.2).append_blank (ih hg) hw.1 (join_ne_nil hg (by simp))

theorem normalize_wsNormal (s : Str) : WsNormal (normalize s) := WsNormal.join (split_good s)

theorem WsNormal.flatten {ss : List Str} (h : ∀ s ∈ ss, WsNormal s) : WsNormal ss.flatten := by
  induction ss with
  | nil => exact .nil
  | cons s ss ih =>
    exact (h s List.mem_cons_self).append (ih fun x hx => h x (List.mem_cons_of_mem _ hx))

/-! ## strip -/

theorem lstrip_eq {s : Str} (h : ∀ c t, s = c :: t → isSpace c = false) : lstrip s = s := by
  cases s with
  | nil => rfl
  | cons c t => simp [lstrip, List.dropWhile, h c t rfl]

theorem rstrip_eq {s : Str} (h : ∀ c t, s = t ++ [c] → isSpace c = false) : rstrip s = s := by
  rcases List.eq_nil_or_concat s with rfl | ⟨t, c, rfl⟩
  · rfl
  · simp [rstrip, h c t (by simp)]

theorem WsNormal.strip_eq {s : Str} (h : WsNormal s) : strip s = s := by
  unfold strip; rw [lstrip_eq h.head, rstrip_eq h.last]

/-- Decompose a string at its first whitespace character. -/
theorem first_space (s : Str) : (∀ c ∈ s, isSpace c = false) ∨
    ∃ w c t, s = w ++ c :: t ∧ (∀ x ∈ w, isSpace x = false) ∧ isSpace c = true := by
  induction s with
  | nil => left; simp
  | cons a s ih =>
    by_cases ha : isSpace a = true
    · right; exact ⟨[], a, s, rfl, by simp, ha⟩
    · rcases ih with ih | ⟨w, c, t, h1, h2, h3⟩
      · left
        intro c hc
        rcases List.mem_cons.1 hc with rfl | hc
        · simpa using ha
        · exact ih c hc
      · right
        refine ⟨a :: w, c, t, by simp [h1], ?_, h3⟩
        intro x hx
        rcases List.mem_cons.1 hx with rfl | hx
        · simpa using ha
        · exact h2 x hx

/-- A normal string is the join of its words. -/
theorem WsNormal.normalize_eq : ∀ {s : Str}, WsNormal s → normalize s = s := by
  intro s
  induction hn : s.length using Nat.strongRecOn generalizing s with
  | _ n ih =>
    intro h
    rcases first_space s with hs | ⟨w, c, t, rfl, hw, hc⟩
    · by_cases h0 : s = []
      · subst h0; rfl
      · unfold normalize; rw [split_word s h0 hs]; rfl
    · have hcb : c = ' ' := h.blanks c (by simp) hc
      subst hcb
      have hw0 : w ≠ [] := by
        rintro rfl
        have := h.head ' ' t rfl
        simp [isSpace_blank] at this
      have ht0 : t ≠ [] := by
        rintro rfl
        have := h.last ' ' w rfl
        simp [isSpace_blank] at this
      have ht : WsNormal t := by
        refine ⟨fun c hc => h.blanks c (by simp [hc]), ?_, ?_, ?_⟩
        · rintro ⟨a, b, rfl⟩
          exact h.single ⟨w ++ ' ' :: a, b, by simp⟩
        · rintro x u rfl
          cases hx : isSpace x with
          | false => rfl
          | true =>
            have := h.blanks x (by simp) hx
            subst this
            exact absurd ⟨w, u, rfl⟩ h.single
        · rintro x u rfl
          exact h.last x (w ++ ' ' :: u) (by simp)
      have ht1 := ih t.length (by subst hn; simp; omega) rfl ht
      unfold normalize at ht1 ⊢
      rw [split_word_blank w hw0 hw]
      cases hs : split t with
      | nil => rw [hs] at ht1; exact absurd ht1.symm ht0
      | cons x xs => rw [hs] at ht1; rw [Verif.join, ht1]; simp

theorem normalize_ne_blank (s : Str) : normalize s ≠ c!" " := by
  intro h
  have := (normalize_wsNormal s).head ' ' [] h
  simp [isSpace_blank] at this

theorem strip_normalize (s : Str) : strip (normalize s) = normalize s :=
  (normalize_wsNormal s).strip_eq

theorem split_lstrip (s : Str) : split (lstrip s) = split s := by
  induction s with
  | nil => rfl
  | cons c s ih =>
    unfold lstrip at ih ⊢
    rw [List.dropWhile_cons]
    split
    · rename_i h; rw [ih, split_cons_space s h]
    · rfl

theorem split_append_spaces (s t : Str) (h : ∀ c ∈ t, isSpace c = true) : split (s ++ t) = split s := by
  induction t generalizing s with
  | nil => simp
  | cons c t ih =>
    have hc := h c List.mem_cons_self
    rw [split_append_space _ _ _ hc]
    have : split t = [] := by
      have := ih [] fun c hc => h c (List.mem_cons_of_mem _ hc)
      simpa using this
    simp [this]

theorem mem_takeWhile_imp {α : Type} {p : α → Bool} {l : List α} {x : α}
    (h : x ∈ l.takeWhile p) : p x = true := by
  induction l with
  | nil => simp at h
  | cons a l ih =>
    rw [List.takeWhile_cons] at h
    split at h
    · rcases List.mem_cons.1 h with rfl | h
      · assumption
      · exact ih h
    · simp at h

theorem rstrip_append (s : Str) : ∃ t, s = rstrip s ++ t ∧ ∀ c ∈ t, isSpace c = true := by
  refine ⟨(s.reverse.takeWhile isSpace).reverse, ?_, ?_⟩
  · unfold rstrip
    rw [← List.reverse_append, List.takeWhile_append_dropWhile, List.reverse_reverse]
  · intro c hc
    rw [List.mem_reverse] at hc
    exact mem_takeWhile_imp hc

theorem split_rstrip (s : Str) : split (rstrip s) = split s := by
  obtain ⟨t, h1, h2⟩ := rstrip_append s
  conv => rhs; rw [h1]
  rw [split_append_spaces _ _ h2]

theorem split_strip (s : Str) : split (strip s) = split s := by
  unfold strip; rw [split_rstrip, split_lstrip]

theorem normalize_strip (s : Str) : normalize (strip s) = normalize s :=
  normalize_eq_of_split (split_strip s)

end Verif
