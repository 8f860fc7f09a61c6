import Verif.Spec.Commands
import Verif.Lemmas.Tex
import Verif.Lemmas.Fast

/-! # Composing texts with control words -/

namespace Verif
open Spec

/-- Lookup in the vocabulary. -/
def fastVocabulary : KM Unit := KM.ofDict (vocabulary.map fun w => (w, ()))

def known (w : Str) : Bool := (fastVocabulary.find (keyCode w)).isSome

theorem mem_of_known {w : Str} (h : known w = true) : w ∈ vocabulary := by
  unfold known fastVocabulary at h
  rw [KM.find_ofDict] at h
  obtain ⟨u, hu⟩ := Option.isSome_iff_exists.1 h
  have := Dict.get?_mem hu
  obtain ⟨w', hw', e⟩ := List.mem_map.1 this
  cases e
  exact hw'

/-- One character; unknown words and blanks behind a backslash are refused. -/
def wstep : CS → Char → Option CS
  | .plain, c => some (.start c)
  | .bs, c => if isLetter c then some (.word [c]) else if isSpace c then none else some .plain
  | .word w, c =>
    if isLetter c then some (.word (w ++ [c])) else if known w then some (.start c) else none

def wrun : CS → Str → Option CS
  | st, [] => some st
  | st, c :: s => (wstep st c).bind fun st => wrun st s

theorem wrun_append (st : CS) (s t : Str) :
    wrun st (s ++ t) = (wrun st s).bind fun st => wrun st t := by
  induction s generalizing st with
  | nil => rfl
  | cons c s ih =>
    rw [List.cons_append, wrun, wrun]
    cases wstep st c with
    | none => rfl
    | some st' => exact ih st'

/-- States in which a piece of text may end. -/
def fine : CS → Bool
  | .plain => true
  | .bs => false
  | .word w => known w

theorem wrun_words {st st' : CS} {s : Str} (h : wrun st s = some st') (hf : fine st' = true) :
    ∀ w ∈ wordsFrom st s, w ∈ vocabulary := by
  induction s generalizing st with
  | nil =>
    simp only [wrun, Option.some.injEq] at h
    subst h
    cases st with
    | plain => simp [wordsFrom]
    | bs => simp [wordsFrom]
    | word w =>
      simp only [wordsFrom, List.mem_singleton, forall_eq]
      exact mem_of_known hf
  | cons c s ih =>
    rw [wrun] at h
    cases st with
    | plain => exact ih h
    | bs =>
      simp only [wstep] at h
      rw [wordsFrom]
      split
      · rename_i hc; rw [if_pos hc] at h; exact ih h
      · rename_i hc
        rw [if_neg hc] at h
        split at h
        · cases h
        · exact ih h
    | word w =>
      simp only [wstep] at h
      rw [wordsFrom]
      split
      · rename_i hc; rw [if_pos hc] at h; exact ih h
      · rename_i hc
        rw [if_neg hc] at h
        split at h
        · rename_i hk
          intro v hv
          rcases List.mem_cons.1 hv with rfl | hv
          · exact mem_of_known hk
          · exact ih h v hv
        · cases h

/-- A text with known control words, which may end in one. -/
def Ok (s : Str) : Prop := ∃ st, wrun .plain s = some st ∧ fine st = true

/-- A text with known control words, which does not end in one. -/
def Done (s : Str) : Prop := wrun .plain s = some .plain

/-- The text does not begin with a letter. -/
def NoLetter (s : Str) : Prop := ∀ c t, s = c :: t → isLetter c = false

/-- `Ok`, decided. -/
def okB (s : Str) : Bool :=
  match wrun .plain s with
  | some st => fine st
  | none => false

/-- `Done` and a first character that is no letter, decided. -/
def sepB (s : Str) : Bool :=
  match s with
  | [] => false
  | c :: _ => !isLetter c && (match wrun .plain s with | some .plain => true | _ => false)

theorem ok_of {s : Str} (h : okB s = true) : Ok s := by
  unfold okB at h
  split at h
  · rename_i st hst; exact ⟨st, hst, h⟩
  · cases h

/-- A separator: complete, not empty, and not beginning with a letter. -/
def Sep (s : Str) : Prop := Done s ∧ s ≠ [] ∧ NoLetter s

theorem sep_of {s : Str} (h : sepB s = true) : Sep s := by
  match s, h with
  | c :: s, h =>
    simp only [sepB, Bool.and_eq_true, Bool.not_eq_true'] at h
    refine ⟨?_, by simp, ?_⟩
    · have := h.2
      unfold Done
      split at this
      · assumption
      · cases this
    · rintro d t ⟨⟩; exact h.1

theorem Done.ok {s : Str} (h : Done s) : Ok s := ⟨.plain, h, rfl⟩

theorem Done.nil : Done [] := rfl
theorem Ok.nil : Ok [] := Done.nil.ok
theorem NoLetter.nil : NoLetter [] := by intro c t h; cases h

theorem NoLetter.append {s t : Str} (hs : NoLetter s) (ht : NoLetter t) : NoLetter (s ++ t) := by
  cases s with
  | nil => exact ht
  | cons c s => rintro d u ⟨⟩; exact hs c s rfl

/-- In fine states everything but a letter is as at the beginning. -/
theorem wstep_fine {st : CS} (hf : fine st = true) {c : Char} (hc : isLetter c = false) :
    wstep st c = wstep .plain c := by
  cases st with
  | plain => rfl
  | bs => cases hf
  | word w =>
    have hk : known w = true := hf
    simp [wstep, hc, hk]

theorem wrun_fine {st : CS} (hf : fine st = true) {s : Str} (hs : NoLetter s) (hne : s ≠ []) :
    wrun st s = wrun .plain s := by
  cases s with
  | nil => exact absurd rfl hne
  | cons c s => rw [wrun, wrun, wstep_fine hf (hs c s rfl)]

theorem Ok.append {s t : Str} (hs : Ok s) (ht : Ok t) (hl : NoLetter t) : Ok (s ++ t) := by
  obtain ⟨st, h1, f1⟩ := hs
  cases t with
  | nil => exact ⟨st, by simpa using h1, f1⟩
  | cons c t =>
    obtain ⟨st', h2, f2⟩ := ht
    exact ⟨st', by rw [wrun_append, h1, Option.bind_some, wrun_fine f1 hl (by simp), h2], f2⟩

theorem Done.append_ok {s t : Str} (hs : Done s) (ht : Ok t) : Ok (s ++ t) := by
  obtain ⟨st', h2, f2⟩ := ht
  exact ⟨st', by rw [wrun_append, hs, Option.bind_some, h2], f2⟩

theorem Done.append {s t : Str} (hs : Done s) (ht : Done t) : Done (s ++ t) := by
  unfold Done at *
  rw [wrun_append, hs, Option.bind_some, ht]

theorem Ok.append_sep {s t : Str} (hs : Ok s) (ht : Sep t) : Done (s ++ t) := by
  obtain ⟨st, h1, f1⟩ := hs
  obtain ⟨h2, h3, h4⟩ := ht
  unfold Done at *
  rw [wrun_append, h1, Option.bind_some, wrun_fine f1 h4 h3, h2]

/-- A text between two pieces. -/
theorem Ok.between {l s r : Str} (hs : Ok s) (hl : Done l) (hr : Sep r) : Done (l ++ s ++ r) :=
  (hl.append_ok hs).append_sep hr

theorem sep_lbrace : Sep c!"{" := sep_of (by decide)
theorem sep_rbrace : Sep c!"}" := sep_of (by decide)

theorem Ok.braces {s : Str} (hs : Ok s) : Sep (braces s) :=
  ⟨hs.between sep_lbrace.1 sep_rbrace, by simp [Spec.braces], by rintro c t ⟨⟩; decide⟩

theorem Sep.append {s t : Str} (hs : Sep s) (ht : Done t) : Sep (s ++ t) := by
  obtain ⟨h1, h2, h3⟩ := hs
  refine ⟨h1.append ht, by simp [h2], ?_⟩
  cases s with
  | nil => exact absurd rfl h2
  | cons c s => rintro d u ⟨⟩; exact h3 c s rfl

theorem Ok.join {sep : Str} (hsep : Sep sep) : ∀ {ss : List Str}, (∀ s ∈ ss, Ok s) →
    Ok (Verif.join sep ss)
  | [], _ => .nil
  | [s], h => h s (by simp)
  | s :: t :: ss, h =>
    ((h s (by simp)).append_sep hsep).append_ok
      (Ok.join hsep fun u hu => h u (List.mem_cons_of_mem _ hu))

/-- Texts without a backslash. -/
theorem Done.chars {s : Str} (h : '\\' ∉ s) : Done s := by
  induction s with
  | nil => rfl
  | cons c s ih =>
    rw [List.mem_cons, not_or] at h
    unfold Done at *
    rw [wrun]
    simp only [wstep, CS.start, Ne.symm h.1, if_false, Option.bind_some]
    exact ih h.2

/-! ## Whitespace -/

theorem wstep_space {c : Char} (h : isSpace c = true) (st : CS) : wstep st c = wstep st ' ' := by
  obtain ⟨h0, h1, -⟩ := space_facts h
  have hsp : isSpace ' ' = true := by decide
  have hlp : isLetter ' ' = false := by decide
  have e : CS.start c = CS.start ' ' := by simp [CS.start, h1]
  cases st <;> simp [wstep, h, h0, hsp, hlp, e]

theorem wstep_blank {st st' : CS} (h : wstep st ' ' = some st') : st' = .plain ∧ fine st = true := by
  have hsp : isSpace ' ' = true := by decide
  have hlp : isLetter ' ' = false := by decide
  have e : CS.start ' ' = .plain := by decide
  cases st with
  | plain => simp only [wstep, e, Option.some.injEq] at h; exact ⟨h.symm, rfl⟩
  | bs => simp [wstep, hsp, hlp] at h
  | word w =>
    simp only [wstep, hlp, e] at h
    cases hk : known w with
    | true => rw [hk] at h; simp at h; exact ⟨h.symm, hk⟩
    | false => rw [hk] at h; simp at h

theorem wrun_gap {g : Str} (hg : ∀ c ∈ g, isSpace c = true) (hne : g ≠ []) (st : CS) :
    wrun st g = wstep st ' ' := by
  induction g generalizing st with
  | nil => exact absurd rfl hne
  | cons c g ih =>
    rw [wrun, wstep_space (hg c List.mem_cons_self)]
    cases hs : wstep st ' ' with
    | none => rfl
    | some st' =>
      show wrun st' g = some st'
      cases g with
      | nil => rfl
      | cons d g =>
        rw [ih (fun e he => hg e (List.mem_cons_of_mem _ he)) (by simp), (wstep_blank hs).1]
        decide

theorem wrun_blanked {ws : List Str} {s : Str} (h : Spaced ws s)
    (hs : ∀ c t, s = c :: t → isSpace c = true) {st st' : CS}
    (hr : wrun st s = some st') (hf : fine st' = true) :
    ∃ st'', fine st'' = true ∧ wrun st (blanked ws) = some st'' := by
  induction h generalizing st with
  | @none g hgap =>
    cases g with
    | nil =>
      simp only [wrun, Option.some.injEq] at hr
      exact ⟨st, hr ▸ hf, rfl⟩
    | cons c g =>
      rw [wrun_gap hgap (by simp)] at hr
      exact ⟨st, (wstep_blank hr).2, rfl⟩
  | @word g w ws rest hgap hne hw hrest hsp ih =>
    have hgne : g ≠ [] := by
      rintro rfl
      obtain ⟨c, t, rfl⟩ := List.exists_cons_of_ne_nil hne
      have := hs c (t ++ rest) (by simp)
      rw [hw c List.mem_cons_self] at this; cases this
    rw [wrun_append, wrun_append, wrun_gap hgap hgne] at hr
    have e : blanked (w :: ws) = ' ' :: (w ++ blanked ws) := by simp [blanked]
    rw [e, wrun]
    cases h1 : wstep st ' ' with
    | none => rw [h1] at hr; cases hr
    | some st1 =>
      rw [h1] at hr
      simp only [Option.bind_some] at hr ⊢
      rw [wrun_append]
      cases h2 : wrun st1 w with
      | none => rw [h2] at hr; cases hr
      | some st2 =>
        rw [h2] at hr
        exact ih hrest hr

theorem Ok.normalize {s : Str} (h : Ok s) : Ok (normalize s) := by
  obtain ⟨st, hr, hf⟩ := h
  have hsp := spaced_split s
  unfold Verif.normalize
  generalize split s = ws at hsp
  cases hsp with
  | none _ => exact .nil
  | @word g w ws rest hgap hne hw hrest hsp =>
    rw [join_blanked]
    rw [wrun_append, wrun_append] at hr
    have hg : wrun .plain g = some .plain := by
      cases g with
      | nil => rfl
      | cons c g => rw [wrun_gap hgap (by simp)]; decide
    rw [hg, Option.bind_some] at hr
    cases h2 : wrun .plain w with
    | none => rw [h2] at hr; cases hr
    | some st2 =>
      rw [h2] at hr
      obtain ⟨st'', f, e⟩ := wrun_blanked hsp hrest hr hf
      exact ⟨st'', by rw [wrun_append, h2]; exact e, f⟩

end Verif
