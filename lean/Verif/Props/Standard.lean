import Verif.Props.Symbols
import Verif.Spec.Standard

/-! # Names of symbols (C56) and negated relations (C57) -/

namespace Verif
open Spec

/-! ## C56 -/

def isKey (c : Char) (l : List (Char × Str)) : Bool := l.any fun p => p.1.toNat == c.toNat

theorem isKey_false {c : Char} {l : List (Char × Str)} (h : ∀ s, (c, s) ∉ l) : isKey c l = false := by
  cases hk : isKey c l with
  | false => rfl
  | true =>
    obtain ⟨p, hp, e⟩ := List.any_eq_true.1 hk
    have := char_of_toNat (beq_iff_eq.1 e)
    exact absurd (this ▸ hp) (h p.2)

def operatorNameCheck : Bool := standardCommands.all fun p =>
  unnamedOperators.any (fun c => c.toNat == p.1.toNat) || isKey p.1 renamedOperators ||
    keyCode (fastOperate [p.1]) == keyCode p.2

set_option maxRecDepth 100000 in
theorem operatorName_check : operatorNameCheck = true := by decide +kernel

/-- **C56** An operator that has a name in LaTeX is written by that name, unless it is in one of
two lists of exceptions. -/
theorem C56_operators (c : Char) (cmd : Str) (h : (c, cmd) ∈ standardCommands)
    (h1 : c ∉ unnamedOperators) (h2 : ∀ s, (c, s) ∉ renamedOperators) : OperAs [c] cmd := by
  have hv := operatorName_check
  unfold operatorNameCheck at hv
  have := List.all_eq_true.1 hv _ h
  simp only [Bool.or_eq_true, any_toNat, h1, isKey_false h2, Bool.false_eq_true, false_or] at this
  exact operAs_of this

example : ('≤', c!"\\leq") ∈ standardCommands ∧ '≤' ∉ unnamedOperators ∧
    isKey '≤' renamedOperators = false := by decide +kernel

set_option maxRecDepth 100000 in
theorem unnamed_check : unnamedOperators.all (fun c =>
    keyCode (fastOperate [c]) == keyCode [c]) = true := by decide +kernel

set_option maxRecDepth 100000 in
theorem renamed_check : renamedOperators.all (fun p =>
    keyCode (fastOperate [p.1]) == keyCode p.2) = true := by decide +kernel

/-- **C56** What is written for the exceptions. -/
theorem C56_operator_exceptions : (∀ c ∈ unnamedOperators, OperAs [c] [c]) ∧
    (∀ c s, (c, s) ∈ renamedOperators → OperAs [c] s) :=
  ⟨fun _ h => by
      have := List.all_eq_true.1 unnamed_check _ h
      exact operAs_of this,
    fun _ _ h => by
      have := List.all_eq_true.1 renamed_check _ h
      exact operAs_of this⟩

def identNameCheck : Bool := standardCommands.all fun p =>
  isKey p.1 renamedIdentifiers ||
    keyCode (fastCharacter [p.1]) ==
      keyCode (if namedIdentifiers.any (fun c => c.toNat == p.1.toNat) then p.2 else [p.1])

set_option maxRecDepth 100000 in
theorem identName_check : identNameCheck = true := by decide +kernel

/-- **C56** An identifier among these symbols is written by its name if it is in the list of those
that are known, and otherwise left as it is, apart from sixteen exceptions. -/
theorem C56_identifiers (c : Char) (cmd : Str) (h : (c, cmd) ∈ standardCommands)
    (h2 : ∀ s, (c, s) ∉ renamedIdentifiers) :
    (c ∈ namedIdentifiers → IdentAs [c] cmd) ∧ (c ∉ namedIdentifiers → IdentAs [c] [c]) := by
  have hv := identName_check
  unfold identNameCheck at hv
  have := List.all_eq_true.1 hv _ h
  simp only [Bool.or_eq_true, any_toNat, isKey_false h2, Bool.false_eq_true, false_or] at this
  constructor
  · intro hc; rw [if_pos hc] at this; exact identAs_of this
  · intro hc; rw [if_neg hc] at this; exact identAs_of this

set_option maxRecDepth 100000 in
theorem renamedIdent_check : renamedIdentifiers.all (fun p =>
    keyCode (fastCharacter [p.1]) == keyCode p.2) = true := by decide +kernel

/-- **C56** What is written for the exceptions. -/
theorem C56_identifier_exceptions : ∀ c s, (c, s) ∈ renamedIdentifiers → IdentAs [c] s :=
  fun _ _ h => by
    have := List.all_eq_true.1 renamedIdent_check _ h
    exact identAs_of this

example : ('∞', c!"\\infty") ∈ standardCommands ∧ '∞' ∈ namedIdentifiers ∧
    isKey '∞' renamedIdentifiers = false := by decide +kernel

example : ('≥', c!"\\geq") ∈ standardCommands ∧ '≥' ∉ namedIdentifiers ∧
    isKey '≥' renamedIdentifiers = false := by decide +kernel

/-! ## C57 -/

def strokeCheck : Bool := strokes.all fun p =>
  !(keyCode (fastOperate [p.1]) == keyCode (fastOperate [p.2]))

set_option maxRecDepth 100000 in
theorem stroke_check : strokeCheck = true := by decide +kernel

theorem normalize_char {c : Char} (h : isSpace c = false) : normalize [c] = [c] := by
  unfold normalize
  rw [split_word [c] (by simp) (by simpa using h)]
  rfl

theorem operAs_fast (k : Str) : OperAs k (fastOperate k) := operAs_of (by simp)

set_option maxRecDepth 100000 in
theorem stroke_spaces : strokes.all (fun p => !isSpace p.1 && !isSpace p.2) = true := by
  decide +kernel

/-- **C57** The operator with a stroke is never written like the one without. -/
theorem C57_stroke_kept (c b : Char) (h : (c, b) ∈ strokes) (s t : Str) (hs : OperAs [c] s)
    (ht : OperAs [b] t) : s ≠ t := by
  rintro rfl
  have hv := stroke_check
  unfold strokeCheck at hv
  have hn := List.all_eq_true.1 hv _ h
  have hsp := List.all_eq_true.1 stroke_spaces _ h
  simp only [Bool.and_eq_true, Bool.not_eq_true'] at hsp
  have h1 := Verif.OperAs.unique (normalize_char hsp.1) hs (operAs_fast _)
  have h2 := Verif.OperAs.unique (normalize_char hsp.2) ht (operAs_fast _)
  rw [← h1, ← h2] at hn
  simp at hn

def negationCheck : Bool := strokes.all fun p =>
  unnamedStrokes.contains p.1.toNat || oddStrokes.any (fun c => c.toNat == p.1.toNat) ||
    (negations (fastOperate [p.2])).any (fun s => keyCode (fastOperate [p.1]) == keyCode s) ||
    standardCommands.any (fun q => q.1.toNat == p.1.toNat &&
      keyCode (fastOperate [p.1]) == keyCode q.2)

set_option maxRecDepth 100000 in
theorem negation_check : negationCheck = true := by decide +kernel

/-- **C57** The operator with a stroke is written as the negation of what is written for the one
without, or by its name, unless it is in one of two lists of exceptions. -/
theorem C57_negation (c b : Char) (h : (c, b) ∈ strokes) (h1 : c.toNat ∉ unnamedStrokes)
    (h2 : c ∉ oddStrokes) :
    (∃ r, OperAs [b] r ∧ ∃ s ∈ negations r, OperAs [c] s) ∨
      ∃ cmd, (c, cmd) ∈ standardCommands ∧ OperAs [c] cmd := by
  have hv := negation_check
  unfold negationCheck at hv
  have := List.all_eq_true.1 hv _ h
  simp only [Bool.or_eq_true, any_toNat, h2, or_false, List.contains_iff_mem, h1, false_or] at this
  rcases this with this | this
  · obtain ⟨s, hs, e⟩ := List.any_eq_true.1 this
    exact .inl ⟨_, operAs_fast _, s, hs, operAs_of e⟩
  · obtain ⟨q, hq, e⟩ := List.any_eq_true.1 this
    rw [Bool.and_eq_true] at e
    have hc := char_of_toNat (beq_iff_eq.1 e.1)
    exact .inr ⟨q.2, hc ▸ hq, operAs_of e.2⟩

example : ('⊄', '⊂') ∈ strokes ∧ '⊄'.toNat ∉ unnamedStrokes ∧ '⊄' ∉ oddStrokes := by
  decide +kernel

set_option maxRecDepth 100000 in
theorem unnamedStroke_check : strokes.all (fun p => !unnamedStrokes.contains p.1.toNat ||
    keyCode (fastOperate [p.1]) == keyCode [p.1]) = true := by decide +kernel

/-- **C57** Three of them are left as they are. -/
theorem C57_unnamed (c b : Char) (h : (c, b) ∈ strokes) (h1 : c.toNat ∈ unnamedStrokes) :
    OperAs [c] [c] := by
  have := List.all_eq_true.1 unnamedStroke_check _ h
  simp only [Bool.or_eq_true, Bool.not_eq_true', List.contains_eq_mem, h1, decide_true,
    Bool.true_eq_false, false_or] at this
  exact operAs_of this

/-- **C57** Mistakes among the rest: not preceding becomes preceding or equal, not equivalent
becomes unequal, not containing becomes not contained, and two different negations coincide. -/
theorem C57_wrong : (OperAs c!"⊀" c!"\\preceq" ∧ OperAs c!"≼" c!"\\preceq") ∧
    (OperAs c!"≭" c!"\\neq" ∧ OperAs c!"≠" c!"\\neq") ∧
    (OperAs c!"∌" c!"\\not\\in" ∧ OperAs c!"∈" c!"\\in") ∧
    (∃ s, OperAs c!"≸" s ∧ OperAs c!"≹" s) ∧ (∃ s, OperAs c!"⊬" s ∧ OperAs c!"⊭" s) ∧
    (∃ s, OperAs c!"⊁" s ∧ OperAs c!"⋡" s) :=
  ⟨⟨operAs_of (by decide +kernel), operAs_of (by decide +kernel)⟩,
    ⟨operAs_of (by decide +kernel), operAs_of (by decide +kernel)⟩,
    ⟨operAs_of (by decide +kernel), operAs_of (by decide +kernel)⟩,
    ⟨_, operAs_fast _, operAs_of (by decide +kernel)⟩,
    ⟨_, operAs_fast _, operAs_of (by decide +kernel)⟩,
    ⟨_, operAs_fast _, operAs_of (by decide +kernel)⟩⟩

set_option maxRecDepth 100000 in
theorem identStroke_check : strokes.all (fun p =>
    keyCode (fastCharacter [p.1]) == keyCode (if p.1.toNat == '≠'.toNat then c!"\\neq" else
      if p.1.toNat == '↛'.toNat then c!"\\nrightarrow" else [p.1])) = true := by decide +kernel

/-- **C57** As identifiers, only two of them are converted. -/
theorem C57_identifiers (c b : Char) (h : (c, b) ∈ strokes) :
    IdentAs [c] (if c = '≠' then c!"\\neq" else if c = '↛' then c!"\\nrightarrow" else [c]) := by
  have := List.all_eq_true.1 identStroke_check _ h
  have hc : ∀ d : Char, (c.toNat == d.toNat) = decide (c = d) := by
    intro d
    by_cases e : c = d
    · simp [e]
    · have : c.toNat ≠ d.toNat := fun e' => e (char_of_toNat e')
      simp [e, this]
  simp only [hc, decide_eq_true_eq] at this
  exact identAs_of this

end Verif
