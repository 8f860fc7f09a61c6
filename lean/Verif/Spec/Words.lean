import Verif.Lemmas.Str

/-! # Words separated by whitespace -/

namespace Verif

namespace Spec
/-- The text consists of these words, with whitespace between them and possibly around them. -/
inductive Spaced : List Str → Str → Prop
  | none {g} : (∀ c ∈ g, isSpace c = true) → Spaced [] g
  | word {g w ws rest} : (∀ c ∈ g, isSpace c = true) → w ≠ [] → (∀ c ∈ w, isSpace c = false) →
      (∀ c t, rest = c :: t → isSpace c = true) → Spaced ws rest → Spaced (w :: ws) (g ++ w ++ rest)
end Spec

open Spec

theorem split_spaces_append {g : Str} (hg : ∀ c ∈ g, isSpace c = true) (t : Str) :
    split (g ++ t) = split t := by
  induction g with
  | nil => rfl
  | cons c g ih =>
    rw [List.cons_append, split_cons_space _ (hg c List.mem_cons_self)]
    exact ih fun d hd => hg d (List.mem_cons_of_mem _ hd)

theorem Spec.Spaced.split_eq {ws : List Str} {s : Str} (h : Spaced ws s) : split s = ws := by
  induction h with
  | @none g hg =>
    have := split_spaces_append hg []
    rw [List.append_nil] at this
    rw [this]; rfl
  | @word g w ws rest hg hw hw' hr _ ih =>
    rw [List.append_assoc, split_spaces_append hg]
    cases rest with
    | nil => rw [List.append_nil, split_word w hw hw']; rw [← ih]; rfl
    | cons c t =>
      have hc := hr c t rfl
      rw [split_append_space _ _ _ hc, split_word w hw hw', ← ih, split_cons_space _ hc]
      rfl

theorem exists_gap (s : Str) : ∃ g t, s = g ++ t ∧ (∀ c ∈ g, isSpace c = true) ∧
    ∀ c r, t = c :: r → isSpace c = false := by
  refine ⟨s.takeWhile isSpace, s.dropWhile isSpace, (List.takeWhile_append_dropWhile).symm, ?_, ?_⟩
  · intro c hc; exact mem_takeWhile_imp hc
  · intro c r h
    have := List.head?_dropWhile_not isSpace s
    rw [h] at this
    simpa using this

/-- Every text consists of its words. -/
theorem spaced_split (s : Str) : Spaced (split s) s := by
  generalize hn : s.length = n
  induction n using Nat.strongRecOn generalizing s with
  | _ n ih =>
    obtain ⟨g, t, rfl, hg, ht⟩ := exists_gap s
    rw [split_spaces_append hg]
    cases t with
    | nil => simpa using Spaced.none hg
    | cons c r =>
      have hc := ht c r rfl
      rcases first_space (c :: r) with h | ⟨w, d, u, h, hw, hd⟩
      · rw [split_word _ (by simp) h]
        have := Spaced.word (ws := []) (rest := []) hg (by simp) h (by simp) (.none (by simp))
        simpa using this
      · have hne : w ≠ [] := by
          rintro rfl
          simp only [List.nil_append, List.cons.injEq] at h
          rw [h.1, hd] at hc; cases hc
        rw [h, split_append_space _ _ _ hd, split_word w hne hw]
        have hr := ih (d :: u).length (by
          rw [← hn, h]; simp only [List.length_append]
          have : 0 < w.length := List.length_pos_iff.2 hne
          omega) (d :: u) rfl
        rw [split_cons_space _ hd] at hr
        have := Spaced.word hg hne hw (by rintro c t ⟨⟩; exact hd) hr
        simpa using this

end Verif
