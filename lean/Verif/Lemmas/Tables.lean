import Verif.Refine.Heap

/-!
# Facts about the symbol tables

Every entry of every table is checked by the kernel.
-/

namespace Verif

/-! ## Distinct keys -/

/-- Search trees of numbers. -/
inductive KT where
  | leaf
  | node (l : KT) (k : Nat) (r : KT)

namespace KT

/-- Insert a number that must be new. -/
def ins (k : Nat) : KT → Option KT
  | .leaf => some (.node .leaf k .leaf)
  | .node l j r =>
    if Nat.blt k j then match ins k l with | some l' => some (.node l' j r) | none => none
    else if Nat.blt j k then match ins k r with | some r' => some (.node l j r') | none => none
    else none

/-- Insert all numbers; `false` if one occurs twice. -/
def insAll : List Nat → KT → Bool
  | [], _ => true
  | k :: ks, t => match t.ins k with | some t' => insAll ks t' | none => false

/-- Search. -/
def find (k : Nat) : KT → Bool
  | .leaf => false
  | .node l j r => if Nat.blt k j then find k l else if Nat.blt j k then find k r else true

theorem blt_iff {a b : Nat} : Nat.blt a b = true ↔ a < b := by simp [Nat.blt_eq]

theorem ins_find {k : Nat} : ∀ {t t' : KT}, t.ins k = some t' →
    t.find k = false ∧ t'.find k = true ∧ ∀ j, t.find j = true → t'.find j = true := by
  intro t
  induction t with
  | leaf =>
    intro t' h
    simp only [ins, Option.some.injEq] at h
    subst h
    simp [find]
  | node l i r ihl ihr =>
    intro t' h
    rw [ins] at h
    split at h
    · rename_i h1
      split at h
      · rename_i l' hl
        simp only [Option.some.injEq] at h
        subst h
        obtain ⟨a, b, c⟩ := ihl hl
        refine ⟨by simp [find, h1, a], by simp [find, h1, b], fun j hj => ?_⟩
        rw [find] at hj ⊢
        split at hj
        · rename_i h2; rw [if_pos h2]; exact c j hj
        · rename_i h2; rw [if_neg h2]; exact hj
      · simp at h
    · rename_i h1
      split at h
      · rename_i h2
        split at h
        · rename_i r' hr
          simp only [Option.some.injEq] at h
          subst h
          obtain ⟨a, b, c⟩ := ihr hr
          refine ⟨by simp [find, h1, h2, a], by simp [find, h1, h2, b], fun j hj => ?_⟩
          rw [find] at hj ⊢
          split at hj
          · rename_i h3; rw [if_pos h3]; exact hj
          · rename_i h3
            rw [if_neg h3]
            split at hj
            · rename_i h4; rw [if_pos h4]; exact c j hj
            · rename_i h4; rw [if_neg h4]
        · simp at h
      · simp at h

theorem insAll_nodup : ∀ {ks : List Nat} {t : KT}, insAll ks t = true →
    ks.Nodup ∧ ∀ k ∈ ks, t.find k = false := by
  intro ks
  induction ks with
  | nil => simp
  | cons k ks ih =>
    intro t h
    rw [insAll] at h
    split at h
    · rename_i t' ht
      obtain ⟨a, b, c⟩ := ins_find ht
      obtain ⟨d, e⟩ := ih h
      refine ⟨List.nodup_cons.2 ⟨fun hk => ?_, d⟩, ?_⟩
      · have := e k hk; rw [b] at this; simp at this
      · intro j hj
        rcases List.mem_cons.1 hj with rfl | hj
        · exact a
        · cases hf : t.find j with
          | false => rfl
          | true => have := e j hj; rw [c j hf] at this; simp at this
    · simp at h

end KT

/-- A number for a string. -/
def keyCode : Str → Nat
  | [] => 0
  | c :: s => keyCode s * 2097152 + (c.toNat + 1)

/-- No key occurs twice (fast check). -/
def distinctKeys {β : Type} (d : Dict β) : Bool := KT.insAll (d.map fun p => keyCode p.1) .leaf

theorem distinctKeys_nodup {β : Type} {d : Dict β} (h : distinctKeys d = true) :
    (d.map Prod.fst).Nodup := by
  have h1 := (KT.insAll_nodup h).1
  have h2 : (d.map fun p => keyCode p.1) = (d.map Prod.fst).map keyCode := by
    simp [List.map_map, Function.comp_def]
  rw [h2] at h1
  exact List.Pairwise.of_map keyCode (fun a b hab e => hab (by rw [e])) h1

/-- With distinct keys, lookup is membership. -/
theorem Dict.get?_iff {β : Type} {d : Dict β} (h : (d.map Prod.fst).Nodup) (k : Str) (v : β) :
    Dict.get? d k = some v ↔ (k, v) ∈ d := by
  induction d with
  | nil => simp [Dict.get?]
  | cons p d ih =>
    obtain ⟨k', v'⟩ := p
    simp only [List.map_cons, List.nodup_cons] at h
    have ih := ih h.2
    rw [Dict.get?]
    cases hg : Dict.get? d k with
    | some w =>
      rw [hg] at ih
      simp only [Option.some.injEq, List.mem_cons, Prod.mk.injEq]
      refine ⟨fun e => .inr (ih.1 (by rw [e])), fun e => ?_⟩
      rcases e with ⟨rfl, rfl⟩ | e
      · exfalso
        apply h.1
        have : (k, w) ∈ d := Dict.get?_mem hg
        exact List.mem_map.2 ⟨_, this, rfl⟩
      · simpa using ih.2 e
    | none =>
      rw [hg] at ih
      simp only [List.mem_cons, Prod.mk.injEq]
      by_cases e : k' = k
      · subst e
        rw [if_pos rfl, Option.some.injEq]
        refine ⟨fun e => .inl ⟨rfl, e.symm⟩, fun e => ?_⟩
        rcases e with ⟨_, rfl⟩ | e
        · rfl
        · exact absurd (ih.2 e) (by simp)
      · rw [if_neg e]
        refine ⟨fun e => by simp at e, fun h' => ?_⟩
        rcases h' with ⟨rfl, _⟩ | h'
        · exact absurd rfl e
        · exact absurd (ih.2 h') (by simp)

theorem Dict.get?_none_iff {β : Type} {d : Dict β} (h : (d.map Prod.fst).Nodup) (k : Str) :
    Dict.get? d k = none ↔ ∀ v, (k, v) ∉ d := by
  constructor
  · intro e v hv
    rw [(Dict.get?_iff h k v).2 hv] at e
    simp at e
  · intro e
    cases hg : Dict.get? d k with
    | none => rfl
    | some v => exact absurd ((Dict.get?_iff h k v).1 hg) (e v)

set_option maxRecDepth 100000 in
theorem nodup_vowels : (vowelsWithAccents.map Prod.fst).Nodup :=
  distinctKeys_nodup (by decide +kernel)
set_option maxRecDepth 100000 in
theorem nodup_accents : (accentToLtxCmd.map Prod.fst).Nodup :=
  distinctKeys_nodup (by decide +kernel)
set_option maxRecDepth 100000 in
theorem nodup_fonts : (specialFontChars.map Prod.fst).Nodup :=
  distinctKeys_nodup (by decide +kernel)
set_option maxRecDepth 100000 in
theorem nodup_symChar : (allMathSymbolsByChar.map Prod.fst).Nodup :=
  distinctKeys_nodup (by decide +kernel)
set_option maxRecDepth 100000 in
theorem nodup_symGlyph : (allMathSymbolsByGlyph.map Prod.fst).Nodup :=
  distinctKeys_nodup (by decide +kernel)
set_option maxRecDepth 100000 in
theorem nodup_number : (mathNumberByGlyph.map Prod.fst).Nodup :=
  distinctKeys_nodup (by decide +kernel)
set_option maxRecDepth 100000 in
theorem nodup_opChar : (allMathOperatorsByChar.map Prod.fst).Nodup :=
  distinctKeys_nodup (by decide +kernel)
set_option maxRecDepth 100000 in
theorem nodup_opGlyph : (allMathOperatorsByGlyph.map Prod.fst).Nodup :=
  distinctKeys_nodup (by decide +kernel)

/-! ## Entry checks -/

/-- Every entry of a table passes a check. -/
theorem forall_of_all {β : Type} {d : Dict β} {p : Str × β → Bool} (h : d.all p = true) :
    ∀ k v, (k, v) ∈ d → p (k, v) = true := fun k v hm => List.all_eq_true.1 h (k, v) hm

/-- Vowels are keyed by one character that is no ASCII letter or digit; the letter is not empty
and the accent has a command. -/
def vowelOk (p : Str × (Str × Str)) : Bool :=
  p.1.length == 1 && (match p.1 with | [] => false | c :: _ => !alnumIgnoreCase c) &&
    p.2.1.length == 1 && p.2.1.all isAsciiAlnum &&
    (match Dict.get? accentToLtxCmd p.2.2 with
      | some (c :: cs) => (c :: cs).all isAsciiAlnum | _ => false)

set_option maxRecDepth 100000 in
theorem vowels_ok : vowelsWithAccents.all vowelOk = true := by decide +kernel

/-- Special font characters. -/
def fontOk (p : Str × (Str × Str)) : Bool :=
  p.1.length == 1 && (match p.1 with | [] => false | c :: _ => !alnumIgnoreCase c) &&
    p.2.1.length != 0 &&
    (match p.2.1 with | [] => false | c :: cs => (c == '\\' || isAsciiAlnum c) && cs.all isAsciiAlnum) &&
    p.2.2.length != 0 && p.2.2.all isAsciiAlnum

set_option maxRecDepth 100000 in
theorem fonts_ok : specialFontChars.all fontOk = true := by decide +kernel

end Verif
