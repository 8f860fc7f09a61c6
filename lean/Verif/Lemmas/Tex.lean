import Verif.Spec.Tex
import Verif.Spec.Words

/-! # Composing texts for the scanner -/

namespace Verif
open Spec

def specialWords : List Str := [c!"left", c!"right", c!"begin", c!"end"]

/-- No continuation of the word is special. -/
def inert (w : Str) : Bool := !(specialWords.any fun x => w.isPrefixOf x)

/-- Modes in which a piece of text may end. -/
def Good : Mode → Bool
  | .normal => true
  | .dword => true
  | .word w => inert w
  | _ => false

/-- Steps that the strict scanner refuses: a finished word that could have become special, and a
blank after a backslash. -/
def refused : Mode → Char → Bool
  | .word w, c => !isLetter c && !specialWords.contains w && !inert w
  | .bs, c => isSpace c
  | _, _ => false

def sstep (st : Scan) (c : Char) : Option Scan := if refused st.2 c then none else scanStep st c

def srun : Scan → Str → Option Scan
  | st, [] => some st
  | st, c :: s => (sstep st c).bind fun st => srun st s

theorem srun_append (st : Scan) (s t : Str) : srun st (s ++ t) = (srun st s).bind fun st => srun st t := by
  induction s generalizing st with
  | nil => rfl
  | cons c s ih =>
    rw [List.cons_append, srun, srun]
    cases sstep st c with
    | none => rfl
    | some st' => exact ih st'

theorem srun_scan {st st' : Scan} {s : Str} (h : srun st s = some st') : scan st s = some st' := by
  induction s generalizing st with
  | nil => exact h
  | cons c s ih =>
    rw [srun] at h
    rw [scan]
    unfold sstep at h
    split at h
    · cases h
    · cases hs : scanStep st c with
      | none => rw [hs] at h; cases h
      | some st1 => rw [hs] at h; exact ih h

theorem inert_append {w : Str} (h : inert w = true) (c : Char) : inert (w ++ [c]) = true := by
  unfold inert at *
  rw [Bool.not_eq_true', List.any_eq_false] at *
  intro x hx hp
  refine h x hx ?_
  rw [List.isPrefixOf_iff_prefix] at *
  exact (List.prefix_append w [c]).trans hp

theorem inert_not_special {w : Str} (h : inert w = true) : specialWords.contains w = false := by
  cases hc : specialWords.contains w with
  | false => rfl
  | true =>
    unfold inert at h
    rw [Bool.not_eq_true', List.any_eq_false] at h
    have hm : w ∈ specialWords := by simpa using hc
    exact absurd (List.isPrefixOf_iff_prefix.2 (List.prefix_refl w)) (h w hm)

theorem scanAfter_plain {w : Str} (h : specialWords.contains w = false) (K : List Open) (c : Char) :
    scanAfter K w c = scanPlain K c := by
  have hm : w ∉ specialWords := by simpa using h
  simp only [specialWords, List.mem_cons, List.not_mem_nil, or_false, not_or] at hm
  unfold scanAfter
  rw [if_neg hm.1, if_neg hm.2.1, if_neg hm.2.2.1, if_neg hm.2.2.2]

theorem isLetter_ne {c : Char} (h : isLetter c = true) :
    c ≠ '\\' ∧ c ≠ '{' ∧ c ≠ '}' ∧ c ≠ '%' ∧ c ≠ '$' ∧ c ≠ '#' := by
  refine ⟨?_, ?_, ?_, ?_, ?_, ?_⟩ <;> rintro rfl <;> revert h <;> decide

theorem scanPlain_other {K : List Open} {c : Char} (h1 : c ≠ '\\') (h2 : c ≠ '{') (h3 : c ≠ '}')
    (h4 : c ≠ '%') (h5 : c ≠ '$') (h6 : c ≠ '#') : scanPlain K c = some (K, .normal) := by
  unfold scanPlain
  rw [if_neg h1, if_neg h2, if_neg h3, if_neg (by simp [h4, h5, h6])]

/-- In good modes letters change nothing. -/
theorem good_letter {m : Mode} (hm : Good m = true) {c : Char} (hc : isLetter c = true)
    (K : List Open) : ∃ m', Good m' = true ∧ sstep (K, m) c = some (K, m') := by
  have := isLetter_ne hc
  cases m with
  | normal =>
    refine ⟨.normal, rfl, ?_⟩
    show scanPlain K c = _
    exact scanPlain_other this.1 this.2.1 this.2.2.1 this.2.2.2.1 this.2.2.2.2.1 this.2.2.2.2.2
  | dword => exact ⟨.dword, rfl, by simp [sstep, refused, scanStep, hc]⟩
  | word w => exact ⟨.word (w ++ [c]), inert_append hm c, by simp [sstep, refused, scanStep, hc]⟩
  | bs => cases hm
  | delim _ => cases hm
  | dbs _ => cases hm
  | env _ => cases hm
  | name _ _ => cases hm

/-- In good modes other characters are plain. -/
theorem good_other {m : Mode} (hm : Good m = true) {c : Char} (hc : isLetter c = false)
    (K : List Open) : sstep (K, m) c = scanPlain K c := by
  cases m with
  | normal => rfl
  | dword => simp [sstep, refused, scanStep, hc]
  | word w =>
    have hi : inert w = true := hm
    simp [sstep, refused, scanStep, hc, hi, scanAfter_plain (inert_not_special hi)]
  | bs => cases hm
  | delim _ => cases hm
  | dbs _ => cases hm
  | env _ => cases hm
  | name _ _ => cases hm

/-- All good modes are equivalent. -/
theorem srun_good {s : Str} {K K' : List Open} {m1 m1' m2 : Mode} (h1 : Good m1 = true)
    (h2 : Good m2 = true) (h : srun (K, m1) s = some (K', m1')) (h1' : Good m1' = true) :
    ∃ m2', Good m2' = true ∧ srun (K, m2) s = some (K', m2') := by
  induction s generalizing K m1 m2 with
  | nil =>
    simp only [srun, Option.some.injEq, Prod.mk.injEq] at h
    exact ⟨m2, h2, by rw [srun, h.1]⟩
  | cons c s ih =>
    cases hc : isLetter c with
    | true =>
      obtain ⟨n1, g1, e1⟩ := good_letter h1 hc K
      obtain ⟨n2, g2, e2⟩ := good_letter h2 hc K
      rw [srun, e1] at h
      rw [srun, e2]
      exact ih g1 g2 h
    | false =>
      rw [srun, good_other h1 hc, ← good_other h2 hc] at h
      exact ⟨m1', h1', by rw [srun]; exact h⟩

theorem scanPlain_frame {K K' : List Open} {m' : Mode} {c : Char} (J : List Open)
    (h : scanPlain K c = some (K', m')) : scanPlain (K ++ J) c = some (K' ++ J, m') := by
  unfold scanPlain at *
  split
  · rename_i e; simp only [e, if_true, Option.some.injEq, Prod.mk.injEq] at h; simp [← h.1, h.2]
  split
  · rename_i e1 e
    rw [if_neg e1, if_pos e, Option.some.injEq, Prod.mk.injEq] at h; simp [← h.1, ← h.2]
  split
  · rename_i e1 e2 e
    simp only [e] at h
    match K, h with
    | .brace :: K, h => simp at h; simp [h.1, h.2]
    | .left :: K, h => simp at h
    | .env _ :: K, h => simp at h
    | [], h => simp at h
  split
  · rename_i e1 e2 e3 e; simp [e1, e2, e3, e] at h
  · rename_i e1 e2 e3 e; simp [e1, e2, e3, e] at h; simp [h.1, h.2]

theorem scanFence_frame {K K' : List Open} {l : Bool} (J : List Open)
    (h : scanFence K l = some K') : scanFence (K ++ J) l = some (K' ++ J) := by
  cases l with
  | true => simp only [scanFence, if_true, Option.some.injEq] at *; rw [← h]; rfl
  | false =>
    match K, h with
    | .left :: K, h => simp [scanFence] at h ⊢; rw [h]
    | .brace :: K, h => simp [scanFence] at h
    | .env _ :: K, h => simp [scanFence] at h
    | [], h => simp [scanFence] at h

theorem scanDelim_frame {K K' : List Open} {m' : Mode} {l : Bool} {c : Char} (J : List Open)
    (h : scanDelim K l c = some (K', m')) : scanDelim (K ++ J) l c = some (K' ++ J, m') := by
  unfold scanDelim at *
  split
  · rename_i e; simp [e] at h; simp [h.1, h.2]
  split
  · rename_i e1 e
    rw [if_neg e1, if_pos e, Option.some.injEq, Prod.mk.injEq] at h; simp [← h.1, ← h.2]
  split
  · rename_i e1 e2 e; simp [e1, e2, e] at h
  · rename_i e1 e2 e
    simp only [e1, e2, e] at h
    simp only [Bool.false_eq_true, if_false, Option.map_eq_some_iff, Prod.mk.injEq] at h
    obtain ⟨K1, h1, rfl, rfl⟩ := h
    rw [scanFence_frame J h1]; rfl

theorem scanEnv_frame {K K' : List Open} {m' : Mode} {b : Bool} {c : Char} (J : List Open)
    (h : scanEnv K b c = some (K', m')) : scanEnv (K ++ J) b c = some (K' ++ J, m') := by
  unfold scanEnv at *
  split
  · rename_i e; simp [e] at h; simp [h.1, h.2]
  split
  · rename_i e1 e
    rw [if_neg e1, if_pos e, Option.some.injEq, Prod.mk.injEq] at h; simp [← h.1, ← h.2]
  · rename_i e1 e; simp [e1, e] at h

theorem scanName_frame {K K' : List Open} {m' : Mode} {b : Bool} {acc : Str} {c : Char}
    (J : List Open) (h : scanName K b acc c = some (K', m')) :
    scanName (K ++ J) b acc c = some (K' ++ J, m') := by
  unfold scanName at *
  split
  · rename_i e
    simp only [e, if_true] at h
    cases b with
    | true => simp at h; simp [← h.1, h.2]
    | false =>
      match K, h with
      | .env n :: K, h =>
        by_cases hn : n = acc
        · simp [hn] at h; simp [hn, h.1, h.2]
        · simp [hn] at h
      | .brace :: K, h => simp at h
      | .left :: K, h => simp at h
      | [], h => simp at h
  split
  · rename_i e1 e; simp only [e1, e] at h; simp at h
  · rename_i e1 e; simp only [e1, e] at h; simp at h; simp [h.1, h.2]

theorem scanAfter_frame {K K' : List Open} {m' : Mode} {w : Str} {c : Char} (J : List Open)
    (h : scanAfter K w c = some (K', m')) : scanAfter (K ++ J) w c = some (K' ++ J, m') := by
  unfold scanAfter at *
  split
  · rename_i e; simp only [e, if_true] at h; exact scanDelim_frame J h
  split
  · rename_i e1 e; rw [if_neg e1, if_pos e] at h; exact scanDelim_frame J h
  split
  · rename_i e1 e2 e; rw [if_neg e1, if_neg e2, if_pos e] at h; exact scanEnv_frame J h
  split
  · rename_i e1 e2 e3 e; rw [if_neg e1, if_neg e2, if_neg e3, if_pos e] at h; exact scanEnv_frame J h
  · rename_i e1 e2 e3 e; simp only [e1, e2, e3, e, if_false] at h; exact scanPlain_frame J h

theorem sstep_frame {K K' : List Open} {m m' : Mode} {c : Char} (J : List Open)
    (h : sstep (K, m) c = some (K', m')) : sstep (K ++ J, m) c = some (K' ++ J, m') := by
  unfold sstep at *
  split
  · rename_i e; simp only [e, if_true] at h; cases h
  rename_i e
  simp only [e] at h
  rw [if_neg (by simp)] at h
  cases m with
  | normal => exact scanPlain_frame J h
  | bs =>
    simp only [scanStep] at *
    split <;> rename_i e <;> simp [e] at h <;> simp [h.1, h.2]
  | word w =>
    simp only [scanStep] at *
    split
    · rename_i e; simp [e] at h; simp [h.1, h.2]
    · rename_i e; simp only [e] at h; exact scanAfter_frame J h
  | delim l => exact scanDelim_frame J h
  | dbs l =>
    simp only [scanStep] at *
    split
    · rename_i e; simp [e] at h
    · rename_i e
      simp only [e, Bool.false_eq_true, if_false, Option.map_eq_some_iff, Prod.mk.injEq] at h
      obtain ⟨K1, h1, rfl, rfl⟩ := h
      rw [scanFence_frame J h1]; rfl
  | dword =>
    simp only [scanStep] at *
    split
    · rename_i e; simp [e] at h; simp [h.1, h.2]
    · rename_i e; simp only [e] at h; exact scanPlain_frame J h
  | env b => exact scanEnv_frame J h
  | name b acc => exact scanName_frame J h

theorem srun_frame {s : Str} {K K' : List Open} {m m' : Mode} (J : List Open)
    (h : srun (K, m) s = some (K', m')) : srun (K ++ J, m) s = some (K' ++ J, m') := by
  induction s generalizing K m with
  | nil => simp only [srun, Option.some.injEq, Prod.mk.injEq] at *; simp [h.1, h.2]
  | cons c s ih =>
    rw [srun] at h ⊢
    cases hs : sstep (K, m) c with
    | none => rw [hs] at h; cases h
    | some st =>
      obtain ⟨K1, m1⟩ := st
      rw [hs] at h
      rw [sstep_frame J hs]
      exact ih h

/-! ## Pieces of text -/

/-- The text turns the open groups `J` into `J'`, whatever is open around it. -/
def Turns (s : Str) (J J' : List Open) : Prop :=
  ∀ K m, Good m = true → ∃ m', Good m' = true ∧ srun (J ++ K, m) s = some (J' ++ K, m')

/-- The text opens and closes its own groups. -/
def Neutral (s : Str) : Prop := Turns s [] []

/-- Decides `Turns`. -/
def turnsB (s : Str) (J J' : List Open) : Bool :=
  match srun (J, .normal) s with
  | some (K, m) => K == J' && Good m
  | none => false

theorem turns_of {s : Str} {J J' : List Open} (h : turnsB s J J' = true) : Turns s J J' := by
  unfold turnsB at h
  split at h
  · rename_i K m hs
    simp only [Bool.and_eq_true, beq_iff_eq] at h
    obtain ⟨rfl, hm⟩ := h
    intro K2 m2 h2
    exact srun_good (m1 := .normal) rfl h2 (srun_frame K2 hs) hm
  · cases h

theorem Turns.append {s t : Str} {J J' J'' : List Open} (h : Turns s J J') (h' : Turns t J' J'') :
    Turns (s ++ t) J J'' := by
  intro K m hm
  obtain ⟨m1, g1, e1⟩ := h K m hm
  obtain ⟨m2, g2, e2⟩ := h' K m1 g1
  exact ⟨m2, g2, by rw [srun_append, e1]; exact e2⟩

theorem Neutral.turns {s : Str} (h : Neutral s) (J : List Open) : Turns s J J :=
  fun K m hm => h (J ++ K) m hm

theorem Neutral.nil : Neutral [] := fun _ m hm => ⟨m, hm, rfl⟩

theorem Neutral.append {s t : Str} (h : Neutral s) (h' : Neutral t) : Neutral (s ++ t) :=
  Turns.append h h'

/-- A neutral text between two pieces that match. -/
theorem Neutral.between {l s r : Str} {J : List Open} (hl : Turns l [] J) (hs : Neutral s)
    (hr : Turns r J []) : Neutral (l ++ s ++ r) := (hl.append (hs.turns J)).append hr

theorem Neutral.flatten {ss : List Str} (h : ∀ s ∈ ss, Neutral s) : Neutral ss.flatten := by
  induction ss with
  | nil => exact .nil
  | cons s ss ih =>
    exact (h s List.mem_cons_self).append (ih fun t ht => h t (List.mem_cons_of_mem _ ht))

theorem Neutral.join {sep : Str} (hsep : Neutral sep) : ∀ {ss : List Str},
    (∀ s ∈ ss, Neutral s) → Neutral (Verif.join sep ss)
  | [], _ => .nil
  | [s], h => h s (by simp)
  | s :: t :: ss, h =>
    ((h s (by simp)).append hsep).append
      (Neutral.join hsep fun u hu => h u (List.mem_cons_of_mem _ hu))

/-- Characters without a meaning for nesting. -/
def SafeChar (c : Char) : Prop := c ≠ '\\' ∧ c ≠ '{' ∧ c ≠ '}' ∧ c ≠ '%' ∧ c ≠ '$' ∧ c ≠ '#'

instance (c : Char) : Decidable (SafeChar c) := by unfold SafeChar; infer_instance

theorem Neutral.char {c : Char} (h : SafeChar c) : Neutral [c] := by
  obtain ⟨h1, h2, h3, h4, h5, h6⟩ := h
  intro K m hm
  cases hc : isLetter c with
  | true =>
    obtain ⟨m', g, e⟩ := good_letter hm hc ([] ++ K)
    exact ⟨m', g, by rw [srun, e]; rfl⟩
  | false =>
    refine ⟨.normal, rfl, ?_⟩
    rw [srun, good_other hm hc, scanPlain_other h1 h2 h3 h4 h5 h6]; rfl

theorem Neutral.chars {s : Str} (h : ∀ c ∈ s, SafeChar c) : Neutral s := by
  induction s with
  | nil => exact .nil
  | cons c s ih =>
    exact (Neutral.char (h c List.mem_cons_self)).append
      (ih fun d hd => h d (List.mem_cons_of_mem _ hd))

theorem Neutral.braces {s : Str} (h : Neutral s) : Neutral (c!"{" ++ s ++ c!"}") :=
  .between (J := [.brace]) (turns_of (by decide)) h (turns_of (by decide))

/-- `\left` and `\right` with a delimiter. -/
theorem turns_fence {c : Char} (hs : isSpace c = false) (hb : c ≠ '\\') (hd : noDelim c = false) :
    Turns (c!"\\left" ++ [c]) [] [.left] ∧ Turns (c!"\\right" ++ [c]) [.left] [] := by
  have hl : isLetter c = false := by
    unfold noDelim at hd; rw [Bool.or_eq_false_iff] at hd; exact hd.1
  constructor
  · refine turns_of ?_
    have : srun ([], .normal) (c!"\\left" ++ [c]) = some ([.left], .normal) := by
      rw [srun_append, show srun ([], .normal) c!"\\left" = some ([], .word c!"left") by decide]
      simp [srun, sstep, refused, scanStep, hl, scanAfter, scanDelim, hs, hb, hd, scanFence,
        specialWords]
    rw [turnsB, this]; rfl
  · refine turns_of ?_
    have : srun ([.left], .normal) (c!"\\right" ++ [c]) = some ([], .normal) := by
      rw [srun_append, show srun ([.left], .normal) c!"\\right" = some ([.left], .word c!"right") by decide]
      simp [srun, sstep, refused, scanStep, hl, scanAfter, scanDelim, hs, hb, hd, scanFence,
        specialWords]
    rw [turnsB, this]; rfl

/-! ## Whitespace -/

theorem space_facts {c : Char} (h : isSpace c = true) : isLetter c = false ∧ c ≠ '\\' ∧ c ≠ '{' ∧
    c ≠ '}' ∧ c ≠ '%' ∧ c ≠ '$' ∧ c ≠ '#' := by
  refine ⟨?_, ?_, ?_, ?_, ?_, ?_, ?_⟩
  · cases hl : isLetter c with
    | false => rfl
    | true =>
      exfalso
      simp only [isLetter, Bool.or_eq_true, Bool.and_eq_true, decide_eq_true_eq, Char.le_def,
        UInt32.le_iff_toNat_le] at hl
      simp only [isSpace, Bool.or_eq_true, Bool.and_eq_true, decide_eq_true_eq, beq_iff_eq,
        Char.toNat] at h
      have a1 : 'a'.val.toNat = 97 := rfl
      have a2 : 'z'.val.toNat = 122 := rfl
      have a3 : 'A'.val.toNat = 65 := rfl
      have a4 : 'Z'.val.toNat = 90 := rfl
      omega
  all_goals (rintro rfl; revert h; decide)

/-- What a whitespace character does. -/
theorem sstep_space {c : Char} (h : isSpace c = true) (st : Scan) : sstep st c = sstep st ' ' := by
  obtain ⟨h0, h1, h2, h3, h4, h5, h6⟩ := space_facts h
  obtain ⟨K, m⟩ := st
  have hp : scanPlain K c = scanPlain K ' ' := by
    rw [scanPlain_other h1 h2 h3 h4 h5 h6]; rfl
  have hsp : isSpace ' ' = true := by decide
  have hlp : isLetter ' ' = false := by decide
  cases m <;>
    simp [sstep, refused, scanStep, h, h0, hsp, hlp, hp, scanDelim, scanEnv, scanName, scanAfter, h3]

/-- A second whitespace character does nothing. -/
theorem sstep_space_twice {st st' : Scan} (h : sstep st ' ' = some st') : sstep st' ' ' = some st' := by
  have hsp : isSpace ' ' = true := by decide
  have hlp : isLetter ' ' = false := by decide
  have hn : ∀ K, scanPlain K ' ' = some (K, .normal) := fun K => rfl
  obtain ⟨K, m⟩ := st
  unfold sstep at h
  split at h
  · cases h
  cases m with
  | normal => cases h; rfl
  | bs => rename_i hr; simp [refused, hsp] at hr
  | dword => cases h; rfl
  | delim l => cases h; rfl
  | dbs l => cases h
  | env b => cases h; rfl
  | name b acc => cases h
  | word w =>
    simp only [scanStep, hlp, scanAfter] at h
    simp only [Bool.false_eq_true, if_false] at h
    repeat' split at h
    all_goals (cases h; rfl)

/-- A whitespace character after which nothing is unfinished can be left out. -/
theorem sstep_space_good {K K' : List Open} {m m' : Mode} (h : sstep (K, m) ' ' = some (K', m'))
    (hg : Good m' = true) : K' = K ∧ Good m = true := by
  have hsp : isSpace ' ' = true := by decide
  have hlp : isLetter ' ' = false := by decide
  unfold sstep at h
  split at h
  · cases h
  rename_i hr
  cases m with
  | normal => cases h; exact ⟨rfl, rfl⟩
  | bs => simp [refused, hsp] at hr
  | dword => cases h; exact ⟨rfl, rfl⟩
  | delim l => cases h; cases hg
  | dbs l => cases h
  | env b => cases h; cases hg
  | name b acc => cases h
  | word w =>
    simp only [refused, hlp, Bool.not_false, Bool.true_and, Bool.and_eq_true, not_and] at hr
    cases hw : specialWords.contains w with
    | false =>
      rw [hw] at hr
      simp only [Bool.not_false, Bool.not_eq_true', Bool.not_eq_false, forall_const] at hr
      simp only [scanStep, hlp, scanAfter_plain hw] at h
      cases h
      exact ⟨rfl, hr⟩
    | true =>
      have hm : w ∈ specialWords := by simpa using hw
      simp only [specialWords, List.mem_cons, List.not_mem_nil, or_false] at hm
      rcases hm with rfl | rfl | rfl | rfl <;> cases h <;> cases hg

/-- Whitespace is worth one blank. -/
theorem srun_gap {g : Str} (hg : ∀ c ∈ g, isSpace c = true) (hne : g ≠ []) (st : Scan) :
    srun st g = sstep st ' ' := by
  induction g generalizing st with
  | nil => exact absurd rfl hne
  | cons c g ih =>
    rw [srun, sstep_space (hg c List.mem_cons_self)]
    cases hs : sstep st ' ' with
    | none => rfl
    | some st' =>
      show srun st' g = some st'
      cases g with
      | nil => rfl
      | cons d g =>
        rw [ih (fun e he => hg e (List.mem_cons_of_mem _ he)) (by simp), sstep_space_twice hs]

/-- Words with a blank before each. -/
def blanked (ws : List Str) : Str := (ws.map fun w => ' ' :: w).flatten

theorem join_blanked (w : Str) (ws : List Str) : join c!" " (w :: ws) = w ++ blanked ws := by
  induction ws generalizing w with
  | nil => simp [join, blanked]
  | cons v ws ih => rw [join, ih]; simp [blanked]

/-- Normalising everything behind a word. -/
theorem srun_blanked {ws : List Str} {s : Str} (h : Spaced ws s)
    (hs : ∀ c t, s = c :: t → isSpace c = true) {K K' : List Open} {m m' : Mode}
    (hr : srun (K, m) s = some (K', m')) (hg : Good m' = true) :
    ∃ m'', Good m'' = true ∧ srun (K, m) (blanked ws) = some (K', m'') := by
  induction h generalizing K m with
  | @none g hgap =>
    cases g with
    | nil =>
      simp only [srun, Option.some.injEq, Prod.mk.injEq] at hr
      exact ⟨m, hr.2 ▸ hg, by simp [blanked, srun, hr.1]⟩
    | cons c g =>
      rw [srun_gap hgap (by simp)] at hr
      obtain ⟨rfl, h1⟩ := sstep_space_good hr hg
      exact ⟨m, h1, rfl⟩
  | @word g w ws rest hgap hne hw hrest hsp ih =>
    have hgne : g ≠ [] := by
      rintro rfl
      obtain ⟨c, t, rfl⟩ := List.exists_cons_of_ne_nil hne
      have := hs c (t ++ rest) (by simp)
      rw [hw c List.mem_cons_self] at this; cases this
    rw [srun_append, srun_append, srun_gap hgap hgne] at hr
    have e : blanked (w :: ws) = ' ' :: (w ++ blanked ws) := by simp [blanked]
    rw [e, srun]
    cases h1 : sstep (K, m) ' ' with
    | none => rw [h1] at hr; cases hr
    | some st1 =>
      rw [h1] at hr
      simp only [Option.bind_some] at hr ⊢
      rw [srun_append]
      cases h2 : srun st1 w with
      | none => rw [h2] at hr; cases hr
      | some st2 =>
        rw [h2] at hr
        exact ih hrest hr

theorem Neutral.normalize {s : Str} (h : Neutral s) : Neutral (normalize s) := by
  intro K m hm
  obtain ⟨m', hg, hr⟩ := h K m hm
  have hsp := spaced_split s
  unfold Verif.normalize
  generalize split s = ws at hsp
  cases hsp with
  | none _ => exact ⟨m, hm, rfl⟩
  | @word g w ws rest hgap hne hw hrest hsp =>
    rw [join_blanked]
    rw [srun_append, srun_append] at hr
    have key : ∀ m0, Good m0 = true → ((srun ([] ++ K, m0) w).bind fun st => srun st rest) =
        some ([] ++ K, m') → ∃ m'', Good m'' = true ∧
          srun ([] ++ K, m0) (w ++ blanked ws) = some ([] ++ K, m'') := by
      intro m0 _ h0
      rw [srun_append]
      cases h2 : srun ([] ++ K, m0) w with
      | none => rw [h2] at h0; cases h0
      | some st2 =>
        rw [h2] at h0
        exact srun_blanked hsp hrest h0 hg
    cases g with
    | nil => exact key m hm hr
    | cons c g =>
      rw [srun_gap hgap (by simp), good_other hm (by decide)] at hr
      obtain ⟨m'', g'', e''⟩ := key .normal rfl hr
      exact srun_good (m1 := .normal) rfl hm e'' g''

theorem good_complete {m : Mode} (h : Good m = true) : m.complete = true := by
  cases m with
  | normal => rfl
  | dword => rfl
  | word w =>
    show (!specialWords.contains w) = true
    rw [inert_not_special h]; rfl
  | bs => cases h
  | delim _ => cases h
  | dbs _ => cases h
  | env _ => cases h
  | name _ _ => cases h

theorem Neutral.nested {s : Str} (h : Neutral s) : Nested s := by
  obtain ⟨m, hg, hr⟩ := h [] .normal rfl
  exact ⟨m, srun_scan hr, good_complete hg⟩

end Verif
