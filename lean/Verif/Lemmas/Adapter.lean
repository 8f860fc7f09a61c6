import Verif.Lemmas.Repair
import Verif.Spec.Repair
import Verif.Refine.Heap

/-! # The adapter meets its specification -/

namespace Verif
open Spec

theorem noQuote_iff (s : Str) : NoQuote s ↔ Unquoted s := by
  constructor
  · intro h c t hs
    have := h c t hs
    simpa [isQuote] using this
  · intro h c t hs
    have := h c t hs
    simpa [isQuote] using this

/-! ## Preprocessing -/

theorem removeLineBreaks_spec (s : Str) : removeLineBreaks s = dropBreaks s := by
  rw [removeLineBreaks_eq, dropBreaks]
  congr 1
  funext c
  simp [isLineBreak, Bool.and_comm, bne]

theorem dropMml_eq (s : Str) :
    dropMml s = if c!"mml:" <+: s then dropMml (s.drop 4)
      else match s with
        | [] => []
        | c :: t => c :: dropMml t := by
  by_cases h : c!"mml:" <+: s
  · rw [if_pos h]
    obtain ⟨t, rfl⟩ := h
    rfl
  · rw [if_neg h]
    conv => lhs; unfold dropMml
    split
    · exact absurd ⟨_, rfl⟩ h
    · rfl
    · rfl

theorem removeMsWordPrefixes_spec (s : Str) : removeMsWordPrefixes s = dropMml s := by
  suffices H : ∀ n (s : Str), s.length < n → removeMsWordPrefixes s = dropMml s from
    H _ s (Nat.lt_succ_self _)
  intro n
  induction n with
  | zero => intro s h; simp at h
  | succ n ih =>
    intro s h
    rw [msWord_eq, dropMml_eq]
    by_cases hp : c!"mml:" <+: s
    · rw [if_pos hp, if_pos hp]
      have := hp.length_le
      simp at this
      apply ih
      simp; omega
    · rw [if_neg hp, if_neg hp]
      cases s with
      | nil => rfl
      | cons c s => simp only; rw [ih]; simpa using h

theorem dropMml_sublist (s : Str) : (dropMml s).Sublist s := by
  rw [← removeMsWordPrefixes_spec]; exact Re.sub_sublist _ _

theorem dropBreaks_noLF (s : Str) : '\n' ∉ dropBreaks s := by
  simp [dropBreaks]

theorem prep_sublist (s : Str) : (prep s).Sublist s :=
  (dropMml_sublist _).trans List.filter_sublist

theorem prep_noLF (s : Str) : '\n' ∉ prep s :=
  fun h => dropBreaks_noLF s ((dropMml_sublist _).subset h)

theorem domElements_fst (env : Env) (a : Adapter) (x : Str) :
    (a.domElements env x).1 = (mathmlElements env 5 none (prep x)).1 := by
  simp only [Adapter.domElements, removeLineBreaks_spec, removeMsWordPrefixes_spec, prep]

theorem prefixed_dropBreaks {s s' : Str} (h : Prefixed s s') :
    Prefixed (dropBreaks s) (dropBreaks s') := by
  induction h with
  | nil => exact .nil
  | copy c _ ih =>
    simp only [dropBreaks, List.filter_cons]
    split
    · exact .copy _ ih
    · exact ih
  | openTag _ ih =>
    simp only [dropBreaks, List.filter_cons, List.filter_append]
    exact .openTag ih
  | closeTag _ ih =>
    simp only [dropBreaks, List.filter_cons, List.filter_append]
    exact .closeTag ih

theorem Spec.Prefixed.noLt {c : Char} {s u : Str} (hc : c ≠ '<') (h : Prefixed s (c :: u)) :
    ∃ t, s = c :: t ∧ Prefixed t u := by
  cases h with
  | copy _ h => exact ⟨_, rfl, h⟩
  | openTag => exact absurd rfl hc
  | closeTag => exact absurd rfl hc

theorem Spec.Prefixed.noLt' {c : Char} {s u : Str} (hc : c ≠ '<') (h : Prefixed (c :: s) u) :
    ∃ t, u = c :: t ∧ Prefixed s t := by
  cases h with
  | copy _ h => exact ⟨_, rfl, h⟩
  | openTag => exact absurd rfl hc
  | closeTag => exact absurd rfl hc

theorem dropMml_cons {c : Char} {s : Str} (h : c ≠ 'm') : dropMml (c :: s) = c :: dropMml s := by
  rw [dropMml_eq, if_neg]
  rintro ⟨t, ht⟩
  simp at ht
  exact h ht.1.symm

theorem prefixed_dropMml (n : Nat) : ∀ {s s' : Str}, s.length < n → Prefixed s s' →
    dropMml s' = dropMml s := by
  induction n with
  | zero => intro s s' h; simp at h
  | succ n ih =>
    intro s s' hl h
    cases h with
    | nil => rfl
    | openTag h =>
      simp only [List.length_cons] at hl
      rw [dropMml_cons (by decide), dropMml_cons (by decide)]
      have : ∀ u, dropMml (c!"mml:" ++ u) = dropMml u := fun u => rfl
      rw [this, ih (by omega) h]
    | closeTag h =>
      simp only [List.length_cons] at hl
      rw [dropMml_cons (by decide), dropMml_cons (by decide), dropMml_cons (by decide),
        dropMml_cons (by decide)]
      have : ∀ u, dropMml (c!"mml:" ++ u) = dropMml u := fun u => rfl
      rw [this, ih (by omega) h]
    | @copy c s s' h =>
      simp only [List.length_cons] at hl
      by_cases hp : c!"mml:" <+: c :: s
      · obtain ⟨t, ht⟩ := hp
        simp only [List.cons_append, List.nil_append, List.cons.injEq] at ht
        obtain ⟨rfl, rfl⟩ := ht
        obtain ⟨t1, rfl, h1⟩ := Prefixed.noLt' (by decide) h
        obtain ⟨t2, rfl, h2⟩ := Prefixed.noLt' (by decide) h1
        obtain ⟨t3, rfl, h3⟩ := Prefixed.noLt' (by decide) h2
        show dropMml t3 = dropMml t
        simp only [List.length_cons] at hl
        exact ih (by omega) h3
      · have hp' : ¬ c!"mml:" <+: c :: s' := by
          rintro ⟨t, ht⟩
          apply hp
          simp only [List.cons_append, List.nil_append, List.cons.injEq] at ht
          obtain ⟨rfl, rfl⟩ := ht
          obtain ⟨t1, rfl, h1⟩ := Prefixed.noLt (by decide) h
          obtain ⟨t2, rfl, h2⟩ := Prefixed.noLt (by decide) h1
          obtain ⟨t3, rfl, h3⟩ := Prefixed.noLt (by decide) h2
          exact ⟨t3, rfl⟩
        rw [dropMml_eq, if_neg hp', dropMml_eq, if_neg hp]
        simp only
        rw [ih (by omega) h]

/-! ## Repair of code 4 -/

/-- The pattern at one position, in terms of `Deletable`. -/
theorem missing_deletable {w : Str} (hw : w ≠ []) (s : Str) (must : Bool) :
    (∃ t g, Deletable w s t ∧ (missingValuePattern w).matchHere must s = some (t, g)) ∨
    ((¬ ∃ t, Deletable w s t) ∧ (missingValuePattern w).matchHere must s = none) := by
  rcases missing_matchHere w s must with ⟨t, g, h1, h2, h3⟩ | ⟨h0, ⟨t, g, h1, h2, _, h3⟩ | ⟨h1, h3⟩⟩
  · exact .inl ⟨t, g, .inl ⟨h1, (noQuote_iff _).1 h2⟩, h3⟩
  · refine .inl ⟨t, g, .inr ⟨h1, (noQuote_iff _).1 h2, ?_⟩, h3⟩
    rintro ⟨u, rfl, hu⟩
    exact h0 ⟨u, h1, (noQuote_iff _).2 hu⟩
  · refine .inr ⟨?_, h3⟩
    rintro ⟨t, ⟨h, hu⟩ | ⟨h, hu, _⟩⟩
    · exact h0 ⟨t, h, (noQuote_iff _).2 hu⟩
    · exact h1 ⟨t, h, (noQuote_iff _).2 hu, .inr hw⟩

theorem Spec.Deletable.unique {w s t t' : Str} (h : Deletable w s t) (h' : Deletable w s t') : t = t' := by
  rcases h with ⟨rfl, h2⟩ | ⟨rfl, h2, h3⟩ <;> rcases h' with ⟨e, h2'⟩ | ⟨e, h2', h3'⟩
  · simpa using e
  · have := List.append_cancel_left e
    exact absurd ⟨t, this.symm, h2⟩ h3'
  · have := List.append_cancel_left e
    exact absurd ⟨t', this, h2'⟩ h3
  · simpa using e

theorem Spec.Deletable.lt {w s t : Str} (hw : w ≠ []) (h : Deletable w s t) : t.length < s.length := by
  have : 0 < w.length := List.length_pos_iff.2 hw
  rcases h with ⟨rfl, h2⟩ | ⟨rfl, h2, h3⟩ <;> simp <;> omega

theorem deleted_subFrom {w : Str} (hw : w ≠ []) (n : Nat) : ∀ (s : Str) (must : Bool), s.length < n →
    Deleted w s ((missingValuePattern w).subFrom (fun _ => []) must s) := by
  induction n with
  | zero => intro s must h; simp at h
  | succ n ih =>
    intro s must h
    rw [Re.subFrom_eq]
    rcases missing_deletable hw s must with ⟨t, g, h1, h2⟩ | ⟨h1, h2⟩
    · rw [h2]
      have := h1.lt hw
      exact .delete h1 (ih _ _ (by omega))
    · rw [h2]
      cases s with
      | nil => exact .nil
      | cons c s => exact .keep h1 (ih _ _ (by simpa using h))

theorem Spec.Deleted.unique {w : Str} (hw : w ≠ []) {s a b : Str} (h : Deleted w s a)
    (h' : Deleted w s b) : a = b := by
  induction h generalizing b with
  | nil =>
    cases h' with
    | nil => rfl
    | delete h1 _ => have := h1.lt hw; simp at this
  | delete h1 _ ih =>
    cases h' with
    | nil => have := h1.lt hw; simp at this
    | delete h1' h2' => rw [h1.unique h1'] at ih; exact ih h2'
    | keep h1' _ => exact absurd ⟨_, h1⟩ h1'
  | keep h1 _ ih =>
    cases h' with
    | delete h1' h2' => exact absurd ⟨_, h1'⟩ h1
    | keep h1' h2' => rw [ih h2']

/-- The substitution deletes exactly the deletable occurrences. -/
theorem missing_sub_iff {w : Str} (hw : w ≠ []) (s s' : Str) :
    (missingValuePattern w).sub (fun _ => []) s = s' ↔ Deleted w s s' := by
  have h := deleted_subFrom hw (s.length + 1) s false (Nat.lt_succ_self _)
  rw [Re.sub_eq]
  constructor
  · rintro rfl; exact h
  · intro h'; exact h.unique hw h'

theorem missing_empty (s : Str) (must : Bool) :
    (∃ t g, s = '=' :: t ∧ Unquoted t ∧ (missingValuePattern []).matchHere must s = some (t, g)) ∨
    ((¬ ∃ t, s = '=' :: t ∧ Unquoted t) ∧
      ((∃ g, must = false ∧ (missingValuePattern []).matchHere must s = some (s, g)) ∨
       (missingValuePattern []).matchHere must s = none)) := by
  rcases missing_matchHere [] s must with ⟨t, g, h1, h2, h3⟩ | ⟨h0, ⟨t, g, h1, h2, hm, h3⟩ | ⟨h1, h3⟩⟩
  · exact .inl ⟨t, g, h1, (noQuote_iff _).1 h2, h3⟩
  · simp only [List.nil_append] at h1
    subst h1
    refine .inr ⟨?_, .inl ⟨g, by simpa using hm, h3⟩⟩
    rintro ⟨u, rfl, hu⟩
    exact h0 ⟨u, rfl, (noQuote_iff _).2 hu⟩
  · refine .inr ⟨?_, .inr h3⟩
    rintro ⟨u, rfl, hu⟩
    exact h0 ⟨u, rfl, (noQuote_iff _).2 hu⟩

theorem missing_empty_subFrom (n : Nat) : ∀ (s : Str), s.length < n →
    DeletedEq s ((missingValuePattern []).subFrom (fun _ => []) true s) ∧
    DeletedEq s ((missingValuePattern []).subFrom (fun _ => []) false s) := by
  induction n with
  | zero => intro s h; simp at h
  | succ n ih =>
    intro s h
    have step : ∀ must, (missingValuePattern []).matchHere must s = none →
        (¬ ∃ t, s = '=' :: t ∧ Unquoted t) →
        DeletedEq s ((missingValuePattern []).subFrom (fun _ => []) must s) := by
      intro must h2 h1
      rw [Re.subFrom_eq, h2]
      cases s with
      | nil => exact .nil
      | cons c s =>
        refine .keep ?_ (ih s (by simpa using h)).2
        rintro ⟨rfl, hu⟩
        exact h1 ⟨s, rfl, hu⟩
    have eqstep : ∀ must t g, s = '=' :: t → Unquoted t →
        (missingValuePattern []).matchHere must s = some (t, g) →
        DeletedEq s ((missingValuePattern []).subFrom (fun _ => []) must s) := by
      intro must t g h1 h2 h3
      rw [Re.subFrom_eq, h3]
      subst h1
      have : (t.length == ('=' :: t).length) = false := by simp
      simp only [this, List.nil_append]
      exact .delete h2 (ih t (by simpa using h)).2
    have htrue : DeletedEq s ((missingValuePattern []).subFrom (fun _ => []) true s) := by
      rcases missing_empty s true with ⟨t, g, h1, h2, h3⟩ | ⟨h0, ⟨g, h1, h3⟩ | h3⟩
      · exact eqstep _ _ _ h1 h2 h3
      · simp at h1
      · exact step _ h3 h0
    refine ⟨htrue, ?_⟩
    rcases missing_empty s false with ⟨t, g, h1, h2, h3⟩ | ⟨h0, ⟨g, h1, h3⟩ | h3⟩
    · exact eqstep _ _ _ h1 h2 h3
    · rw [Re.subFrom_eq, h3]
      simp only [beq_self_eq_true, List.nil_append]
      exact htrue
    · exact step _ h3 h0

theorem Spec.DeletedEq.unique {s a b : Str} (h : DeletedEq s a) (h' : DeletedEq s b) : a = b := by
  induction h generalizing b with
  | nil => cases h'; rfl
  | delete h1 _ ih =>
    cases h' with
    | delete _ h2 => exact ih h2
    | keep h2 _ => exact absurd ⟨rfl, h1⟩ h2
  | keep h1 _ ih =>
    cases h' with
    | delete h2 _ => exact absurd ⟨rfl, h2⟩ h1
    | keep _ h2 => rw [ih h2]

theorem missing_sub_empty_iff (s s' : Str) :
    (missingValuePattern []).sub (fun _ => []) s = s' ↔ DeletedEq s s' := by
  have h := (missing_empty_subFrom (s.length + 1) s (Nat.lt_succ_self _)).2
  rw [Re.sub_eq]
  constructor
  · rintro rfl; exact h
  · intro h'; exact h.unique h'

/-! ## The word at a position -/

theorem wordStart_none {x : Str} {o : Nat} (h : x.length < o) : wordStart x o = none := by
  cases o with
  | zero => simp at h
  | succ o =>
    rw [wordStart, List.getElem?_eq_none (by omega)]

theorem wordStart_some {x : Str} {o : Nat} (h : o ≤ x.length) :
    ∃ p u q, x = p ++ (u ++ q) ∧ (p ++ u).length = o ∧ ' ' ∉ u ∧
      (p = [] ∨ ∃ p', p = p' ++ [' ']) ∧ wordStart x o = some p.length := by
  induction o with
  | zero => exact ⟨[], [], x, rfl, rfl, by simp, .inl rfl, rfl⟩
  | succ o ih =>
    obtain ⟨p, u, q, rfl, h1, h2, h3, h4⟩ := ih (by omega)
    have hq : q ≠ [] := by
      rintro rfl
      simp at h h1; omega
    obtain ⟨c, q, rfl⟩ := List.exists_cons_of_ne_nil hq
    have hget : (p ++ (u ++ c :: q))[o]? = some c := by
      rw [← List.append_assoc, List.getElem?_append_right (by omega), h1]
      simp
    by_cases hc : c = ' '
    · subst hc
      refine ⟨p ++ (u ++ [' ']), [], q, by simp, ?_, by simp, .inr ⟨p ++ u, by simp⟩, ?_⟩
      · simp at h1 ⊢; omega
      · rw [wordStart, hget]
        simp at h1 ⊢; omega
    · refine ⟨p, u ++ [c], q, by simp, ?_, ?_, h3, ?_⟩
      · simp at h1 ⊢; omega
      · simp [h2]; exact fun h => hc h.symm
      · rw [wordStart, hget]
        simp only
        rw [if_pos (by simpa using hc)]
        exact h4

theorem wordEnd_spec (s : Str) : ∃ q, s = wordEnd s ++ q ∧ ' ' ∉ wordEnd s ∧ '>' ∉ wordEnd s ∧
    (q = [] ∨ ∃ q', q = ' ' :: q' ∨ q = '>' :: q') := by
  induction s with
  | nil => exact ⟨[], rfl, by simp [wordEnd], by simp [wordEnd], .inl rfl⟩
  | cons c s ih =>
    obtain ⟨q, h1, h2, h3, h4⟩ := ih
    by_cases hc : c = ' '
    · subst hc; exact ⟨' ' :: s, by simp [wordEnd], by simp [wordEnd], by simp [wordEnd], .inr ⟨s, .inl rfl⟩⟩
    · by_cases hc' : c = '>'
      · subst hc'; exact ⟨'>' :: s, by simp [wordEnd], by simp [wordEnd], by simp [wordEnd], .inr ⟨s, .inr rfl⟩⟩
      · have : wordEnd (c :: s) = c :: wordEnd s := by
          rw [wordEnd, if_pos]; simp [hc, hc']
        rw [this]
        refine ⟨q, by rw [List.cons_append, ← h1], ?_, ?_, h4⟩
        · simp only [List.mem_cons, not_or]; exact ⟨fun h => hc h.symm, h2⟩
        · simp only [List.mem_cons, not_or]; exact ⟨fun h => hc' h.symm, h3⟩

theorem getWord_some {x : Str} {o : Nat} (h : o ≤ x.length) :
    ∃ w, getWordAtStrPos x o = some w ∧ WordAt x o w := by
  obtain ⟨p, u, q, rfl, h1, h2, h3, h4⟩ := wordStart_some h
  obtain ⟨q', e1, e2, e3, e4⟩ := wordEnd_spec q
  refine ⟨u ++ wordEnd q, ?_, p, u, wordEnd q, q', ?_, h1, rfl, h2, h3, e2, e3, e4⟩
  · rw [getWordAtStrPos, h4]
    simp only [Option.some.injEq]
    rw [← List.append_assoc, List.take_left' h1, List.drop_left' h1]
    simp
  · rw [← e1]

/-- First part of a list up to a separator is unique. -/
theorem prefix_unique {P : Char → Prop} {v q v' q' : Str} (h : v ++ q = v' ++ q')
    (h1 : ∀ c ∈ v, ¬ P c) (h2 : ∀ c ∈ v', ¬ P c)
    (h3 : q = [] ∨ ∃ c t, q = c :: t ∧ P c) (h4 : q' = [] ∨ ∃ c t, q' = c :: t ∧ P c) :
    v = v' := by
  induction v generalizing v' with
  | nil =>
    cases v' with
    | nil => rfl
    | cons c v' =>
      exfalso
      simp only [List.nil_append, List.cons_append] at h
      subst h
      rcases h3 with h3 | ⟨c', t, h3, hp⟩
      · simp at h3
      · simp only [List.cons.injEq] at h3
        rw [h3.1] at h2
        exact h2 c' (by simp) hp
  | cons c v ih =>
    cases v' with
    | nil =>
      exfalso
      simp only [List.nil_append, List.cons_append] at h
      subst h
      rcases h4 with h4 | ⟨c', t, h4, hp⟩
      · simp at h4
      · simp only [List.cons.injEq] at h4
        rw [h4.1] at h1
        exact h1 c' (by simp) hp
    | cons c' v' =>
      simp only [List.cons_append, List.cons.injEq] at h
      rw [h.1, ih h.2 (fun x hx => h1 x (by simp [hx])) (fun x hx => h2 x (by simp [hx]))]

theorem Spec.WordAt.unique {x : Str} {o : Nat} {w w' : Str} (h : WordAt x o w) (h' : WordAt x o w') :
    w = w' := by
  obtain ⟨p, u, v, q, rfl, hl, rfl, hu, hp, hv1, hv2, hq⟩ := h
  obtain ⟨p', u', v', q', hx, hl', rfl, hu', hp', hv1', hv2', hq'⟩ := h'
  have hx' : (p ++ u) ++ (v ++ q) = (p' ++ u') ++ (v' ++ q') := by simpa using hx
  obtain ⟨e1, e2⟩ := List.append_inj hx' (by rw [hl, hl'])
  have hvv : v = v' := by
    apply prefix_unique (P := fun c => c = ' ' ∨ c = '>') e2
    · rintro c hc (rfl | rfl)
      · exact hv1 hc
      · exact hv2 hc
    · rintro c hc (rfl | rfl)
      · exact hv1' hc
      · exact hv2' hc
    · rcases hq with h | ⟨t, h | h⟩
      · exact .inl h
      · exact .inr ⟨_, t, h, .inl rfl⟩
      · exact .inr ⟨_, t, h, .inr rfl⟩
    · rcases hq' with h | ⟨t, h | h⟩
      · exact .inl h
      · exact .inr ⟨_, t, h, .inl rfl⟩
      · exact .inr ⟨_, t, h, .inr rfl⟩
  have huu : u.reverse = u'.reverse := by
    have e3 : u.reverse ++ p.reverse = u'.reverse ++ p'.reverse := by
      rw [← List.reverse_append, ← List.reverse_append, e1]
    apply prefix_unique (P := fun c => c = ' ') e3
    · rintro c hc rfl; exact hu (by simpa using hc)
    · rintro c hc rfl; exact hu' (by simpa using hc)
    · rcases hp with rfl | ⟨t, rfl⟩
      · exact .inl rfl
      · exact .inr ⟨' ', t.reverse, by simp, rfl⟩
    · rcases hp' with rfl | ⟨t, rfl⟩
      · exact .inl rfl
      · exact .inr ⟨' ', t.reverse, by simp, rfl⟩
  rw [hvv, List.reverse_inj.1 huu]

theorem splitOn_noSep {c : Char} {x : Str} (h : c ∉ x) : splitOn c x = [x] := by
  induction x with
  | nil => rfl
  | cons d x ih =>
    simp only [List.mem_cons, not_or] at h
    rw [splitOn, if_neg (fun e => h.1 e.symm), ih h.2]

theorem pyIndex_one {α : Type} (x : α) (l : Nat) :
    pyIndex [x] ((l : Int) - 1) = if l ≤ 1 then some x else none := by
  match l with
  | 0 => rfl
  | 1 => rfl
  | l + 2 =>
    rw [if_neg (by omega), pyIndex, if_pos (by omega)]
    have : (((l + 2 : Nat) : Int) - 1).toNat = l + 1 := by omega
    rw [this]; rfl

/-! ## Generic repair -/

theorem Spec.Truncated.unique {x a b : Str} (h : Truncated x a) (h' : Truncated x b) : a = b := by
  have cutu : ∀ {a m t a' m' t' : Str}, ' ' ∉ m → '>' ∉ t → ' ' ∉ m' → '>' ∉ t' →
      a ++ ' ' :: (m ++ '>' :: t) = a' ++ ' ' :: (m' ++ '>' :: t') → a = a' ∧ t = t' := by
    intro a m t a' m' t' h1 h2 h3 h4 he
    have e : t.reverse ++ ('>' :: (m.reverse ++ ' ' :: a.reverse)) =
        t'.reverse ++ ('>' :: (m'.reverse ++ ' ' :: a'.reverse)) := by
      have := congrArg List.reverse he
      simpa using this
    have ht := prefix_unique (P := fun c => c = '>') e
      (by rintro c hc rfl; exact h2 (by simpa using hc))
      (by rintro c hc rfl; exact h4 (by simpa using hc))
      (.inr ⟨_, _, rfl, rfl⟩) (.inr ⟨_, _, rfl, rfl⟩)
    rw [ht] at e
    have e2 := List.append_cancel_left e
    simp only [List.cons.injEq, true_and] at e2
    have hm := prefix_unique (P := fun c => c = ' ') e2
      (by rintro c hc rfl; exact h1 (by simpa using hc))
      (by rintro c hc rfl; exact h3 (by simpa using hc))
      (.inr ⟨_, _, rfl, rfl⟩) (.inr ⟨_, _, rfl, rfl⟩)
    rw [hm] at e2
    have e3 := List.append_cancel_left e2
    simp only [List.cons.injEq, true_and] at e3
    exact ⟨List.reverse_inj.1 e3, List.reverse_inj.1 ht⟩
  have dec : ∀ {a m t : Str}, '<' ∈ a →
      ∃ a' b c d, a ++ ' ' :: (m ++ '>' :: t) = a' ++ '<' :: (b ++ ' ' :: (c ++ '>' :: d)) := by
    intro a m t ha
    obtain ⟨p, q, rfl⟩ := List.append_of_mem ha
    exact ⟨p, q, m, t, by simp⟩
  cases h with
  | unchanged h =>
    cases h' with
    | unchanged => rfl
    | cut h1 h2 h3 => exact absurd (dec h1) h
  | cut h1 h2 h3 =>
    generalize hx : _ ++ ' ' :: (_ ++ '>' :: _) = x at h'
    cases h' with
    | unchanged h => subst hx; exact absurd (dec h1) h
    | cut h1' h2' h3' =>
      obtain ⟨rfl, rfl⟩ := cutu h2 h3 h2' h3' hx
      rfl

theorem genericLoop_truncated (env : Env) {x : Str} (hnl : '\n' ∉ x) :
    Truncated x (genericLoop env x 5 x) := by
  rw [genericLoop_eq env x hnl, Re.sub_eq]
  rcases generic_cases x with h | ⟨a, m, t, rfl, h1, h2, h3⟩
  · rw [generic_subFrom_none env x false h]
    exact .unchanged h
  · rw [generic_subFrom_some env a m t _ h1 h2 h3]
    · exact .cut h1 h2 h3
    · intro h; apply hnl; simp at h ⊢; rcases h with h | h <;> simp [h]

/-! ## Repair -/

theorem fixError_spec (env : Env) {x : Str} (hnl : '\n' ∉ x) (e : ParseErr) :
    (∃ x', fixError env x e = .ok x' ∧ Repaired x e x') ∨
    (fixError env x e = .error .indexError ∧ RepairFails x e) := by
  cases e with
  | other i => exact .inl ⟨x, rfl, .other⟩
  | expat code l o =>
    simp only [fixError, fixMissingAttribute, fixMissingAttributeValue]
    by_cases hc : code = 4
    · subst hc
      simp only [ne_eq, not_true_eq_false, if_false, splitOn_noSep hnl, pyIndex_one]
      by_cases hl : l ≤ 1
      · simp only [hl, if_true]
        by_cases ho : o ≤ x.length
        · obtain ⟨w, hw, hwa⟩ := getWord_some ho
          simp only [hw]
          left
          by_cases hw0 : w = []
          · subst hw0
            have hd := (missing_sub_empty_iff x _).1 rfl
            split
            · rename_i hne
              exact ⟨_, rfl, .emptyWord hl hwa hd hne⟩
            · rename_i he
              simp only [Decidable.not_not] at he
              rw [he] at hd
              rw [he]
              exact ⟨_, rfl, .emptyWordGeneric hl hwa hd (genericLoop_truncated env hnl)⟩
          · have hd := (missing_sub_iff hw0 x _).1 rfl
            split
            · rename_i hne
              exact ⟨_, rfl, .word hl hwa hw0 hd hne⟩
            · rename_i he
              simp only [Decidable.not_not] at he
              rw [he] at hd
              rw [he]
              exact ⟨_, rfl, .wordGeneric hl hwa hw0 hd (genericLoop_truncated env hnl)⟩
        · right
          have : getWordAtStrPos x o = none := by
            rw [getWordAtStrPos, wordStart_none (by omega)]
          simp only [this]
          exact ⟨trivial, l, o, rfl, .inr (by omega)⟩
      · right
        simp only [hl, if_false]
        exact ⟨trivial, l, o, rfl, .inl (by omega)⟩
    · left
      simp only [ne_eq, hc, not_false_eq_true, if_true, not_true_eq_false, if_false]
      exact ⟨_, rfl, .generic hc (genericLoop_truncated env hnl)⟩

theorem Spec.WordAt.le {x : Str} {o : Nat} {w : Str} (h : WordAt x o w) : o ≤ x.length := by
  obtain ⟨p, u, v, q, rfl, h1, _⟩ := h
  simp at h1 ⊢; omega

theorem Spec.Repaired.not_fails {x x' : Str} {e : ParseErr} (h : Repaired x e x') : ¬ RepairFails x e := by
  rintro ⟨l, o, rfl, hf⟩
  cases h with
  | generic h => exact h rfl
  | word h1 h2 => have := h2.le; omega
  | emptyWord h1 h2 => have := h2.le; omega
  | wordGeneric h1 h2 => have := h2.le; omega
  | emptyWordGeneric h1 h2 => have := h2.le; omega

theorem Spec.Repaired.unique {x a b : Str} {e : ParseErr} (h : Repaired x e a) (h' : Repaired x e b) :
    a = b := by
  cases h with
  | other => cases h'; rfl
  | generic h1 h2 =>
    cases h' with
    | generic _ h2' => exact h2.unique h2'
    | _ => exact absurd rfl h1
  | word h1 h2 h3 h4 h5 =>
    cases h' with
    | generic h1' => exact absurd rfl h1'
    | word h1' h2' h3' h4' h5' => have := h2.unique h2'; subst this; exact h4.unique h3 h4'
    | emptyWord h1' h2' => exact absurd (h2.unique h2') h3
    | wordGeneric h1' h2' h3' h4' =>
      have := h2.unique h2'; subst this; exact absurd (h4.unique h3 h4') h5
    | emptyWordGeneric h1' h2' => exact absurd (h2.unique h2') h3
  | emptyWord h1 h2 h4 h5 =>
    cases h' with
    | generic h1' => exact absurd rfl h1'
    | word h1' h2' h3' => exact absurd (h2'.unique h2) h3'
    | emptyWord h1' h2' h4' => exact h4.unique h4'
    | wordGeneric h1' h2' h3' => exact absurd (h2'.unique h2) h3'
    | emptyWordGeneric h1' h2' h4' => exact absurd (h4.unique h4') h5
  | wordGeneric h1 h2 h3 h4 h5 =>
    cases h' with
    | generic h1' => exact absurd rfl h1'
    | word h1' h2' h3' h4' h5' =>
      have := h2.unique h2'; subst this; exact absurd (h4'.unique h3 h4) h5'
    | emptyWord h1' h2' => exact absurd (h2.unique h2') h3
    | wordGeneric h1' h2' h3' h4' h5' => exact h5.unique h5'
    | emptyWordGeneric h1' h2' => exact absurd (h2.unique h2') h3
  | emptyWordGeneric h1 h2 h4 h5 =>
    cases h' with
    | generic h1' => exact absurd rfl h1'
    | word h1' h2' h3' => exact absurd (h2'.unique h2) h3'
    | emptyWord h1' h2' h4' h5' => exact absurd (h4'.unique h4) h5'
    | wordGeneric h1' h2' h3' => exact absurd (h2'.unique h2) h3'
    | emptyWordGeneric h1' h2' h4' h5' => exact h5.unique h5'

theorem fixError_ok {env : Env} {x x' : Str} (hnl : '\n' ∉ x) {e : ParseErr} :
    fixError env x e = .ok x' ↔ Repaired x e x' := by
  rcases fixError_spec env hnl e with ⟨y, h1, h2⟩ | ⟨h1, h2⟩
  · rw [h1]
    constructor
    · rintro ⟨⟩; exact h2
    · intro h; rw [h.unique h2]
  · rw [h1]
    constructor
    · intro h; simp at h
    · intro h; exact absurd h2 h.not_fails

theorem fixError_fails {env : Env} {x : Str} (hnl : '\n' ∉ x) {e : ParseErr} {e' : Exc} :
    fixError env x e = .error e' ↔ RepairFails x e ∧ e' = .indexError := by
  rcases fixError_spec env hnl e with ⟨y, h1, h2⟩ | ⟨h1, h2⟩
  · rw [h1]
    constructor
    · intro h; simp at h
    · intro h; exact absurd h.1 h2.not_fails
  · rw [h1]
    constructor
    · rintro ⟨⟩; exact ⟨h2, rfl⟩
    · rintro ⟨_, rfl⟩; rfl

theorem Spec.Deleted.sublist {w s s' : Str} (h : Deleted w s s') : s'.Sublist s := by
  induction h with
  | nil => exact .slnil
  | delete h1 _ ih =>
    refine ih.trans ?_
    rcases h1 with ⟨rfl, _⟩ | ⟨rfl, _, _⟩
    · exact ((List.sublist_cons_self _ _).trans (List.sublist_append_right _ _))
    · exact List.sublist_append_right _ _
  | keep _ _ ih => exact ih.cons_cons _

theorem Spec.DeletedEq.sublist {s s' : Str} (h : DeletedEq s s') : s'.Sublist s := by
  induction h with
  | nil => exact .slnil
  | delete _ _ ih => exact ih.cons _
  | keep _ _ ih => exact ih.cons_cons _

theorem Spec.Truncated.sublist {s s' : Str} (h : Truncated s s') : s'.Sublist s := by
  cases h with
  | unchanged => exact List.Sublist.refl _
  | cut =>
    apply List.Sublist.append (List.Sublist.refl _)
    apply List.Sublist.cons_cons
    exact (List.sublist_cons_self _ _).trans (List.sublist_append_right _ _)

theorem Spec.Repaired.sublist {x x' : Str} {e : ParseErr} (h : Repaired x e x') : x'.Sublist x := by
  cases h with
  | other => exact List.Sublist.refl _
  | generic _ h => exact h.sublist
  | word _ _ _ h => exact h.sublist
  | emptyWord _ _ h => exact h.sublist
  | wordGeneric _ _ _ _ h => exact h.sublist
  | emptyWordGeneric _ _ _ h => exact h.sublist

theorem Spec.Consulted.sublist {env : Env} {x y : Str} {n : Nat} (h : Consulted env x n y) :
    y.Sublist (prep x) := by
  induction h with
  | first => exact List.Sublist.refl _
  | next _ _ h ih => exact h.sublist.trans ih

theorem Spec.Consulted.noLF {env : Env} {x y : Str} {n : Nat} (h : Consulted env x n y) :
    '\n' ∉ y := fun hm => prep_noLF x (h.sublist.subset hm)

theorem Spec.Consulted.unique {env : Env} {x y z : Str} {n : Nat} (h : Consulted env x n y)
    (h' : Consulted env x n z) : y = z := by
  induction h generalizing z with
  | first => cases h'; rfl
  | next h1 h2 h3 ih =>
    cases h' with
    | next h1' h2' h3' =>
      have := ih h1'
      subst this
      rw [h2] at h2'
      cases h2'
      exact h3.unique h3'

theorem docResult_eq (d : Doc) : docResult d = renderDoc d := by
  apply convert_of_domElements
  rw [domElements_fst, mathmlElements]

end Verif
