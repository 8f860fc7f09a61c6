import Verif.Lemmas.Tables

/-!
# Fast lookups

Search trees for the symbol tables, proved to agree with the lookups of the model, so that the
kernel can go through whole tables.
-/

namespace Verif

/-- Search trees with values. -/
inductive KM (β : Type) where
  | leaf
  | node (l : KM β) (k : Nat) (v : β) (r : KM β)

namespace KM
variable {β : Type}

/-- Set the value of a key. -/
def set (k : Nat) (v : β) : KM β → KM β
  | .leaf => .node .leaf k v .leaf
  | .node l j w r =>
    if Nat.blt k j then .node (set k v l) j w r
    else if Nat.blt j k then .node l j w (set k v r)
    else .node l k v r

/-- The value of a key. -/
def find (k : Nat) : KM β → Option β
  | .leaf => none
  | .node l j w r => if Nat.blt k j then find k l else if Nat.blt j k then find k r else some w

theorem find_set (k j : Nat) (v : β) (t : KM β) :
    (t.set k v).find j = if j = k then some v else t.find j := by
  induction t with
  | leaf =>
    simp only [set, find, KT.blt_iff]
    split
    · rw [if_neg (by omega)]
    · split
      · rw [if_neg (by omega)]
      · rw [if_pos (by omega)]
  | node l i w r ihl ihr =>
    rw [set]
    simp only [KT.blt_iff] at *
    by_cases h1 : k < i
    · rw [if_pos h1]
      simp only [find, KT.blt_iff, ihl]
      by_cases h2 : j < i
      · rw [if_pos h2, if_pos h2]
      · rw [if_neg h2, if_neg h2, if_neg (show ¬ j = k by omega)]
    · rw [if_neg h1]
      by_cases h3 : i < k
      · rw [if_pos h3]
        simp only [find, KT.blt_iff, ihr]
        by_cases h2 : j < i
        · rw [if_pos h2, if_pos h2, if_neg (show ¬ j = k by omega)]
        · rw [if_neg h2, if_neg h2]
          by_cases h4 : i < j
          · rw [if_pos h4, if_pos h4]
          · rw [if_neg h4, if_neg h4, if_neg (show ¬ j = k by omega)]
      · rw [if_neg h3]
        have : i = k := by omega
        subst this
        simp only [find, KT.blt_iff]
        by_cases h2 : j < i
        · rw [if_pos h2, if_pos h2, if_neg (show ¬ j = i by omega)]
        · rw [if_neg h2, if_neg h2]
          by_cases h4 : i < j
          · rw [if_pos h4, if_pos h4, if_neg (show ¬ j = i by omega)]
          · rw [if_neg h4, if_neg h4, if_pos (show j = i by omega)]

end KM

theorem keyCode_inj : ∀ {s t : Str}, keyCode s = keyCode t → s = t
  | [], [], _ => rfl
  | [], c :: t, h => by simp only [keyCode] at h; omega
  | c :: s, [], h => by simp only [keyCode] at h; omega
  | c :: s, d :: t, h => by
    simp only [keyCode] at h
    have hb : ∀ x : Char, x.toNat + 1 < 2097152 := fun x => by
      have := x.valid
      simp only [UInt32.isValidChar, Nat.isValidChar] at this
      have e : x.toNat = x.val.toNat := rfl
      omega
    have h1 := hb c
    have h2 := hb d
    have h3 : c.toNat = d.toNat := by omega
    have h4 : keyCode s = keyCode t := by omega
    have h5 : c = d := Char.ext (UInt32.toNat_inj.1 h3)
    rw [h5, keyCode_inj h4]

/-- The tree of a dictionary. -/
def KM.ofDict {β : Type} (d : Dict β) : KM β :=
  d.foldl (fun t p => t.set (keyCode p.1) p.2) .leaf

theorem KM.find_foldl {β : Type} (k : Str) (d : Dict β) (t : KM β) :
    (d.foldl (fun t p => t.set (keyCode p.1) p.2) t).find (keyCode k) =
      (Dict.get? d k).or (t.find (keyCode k)) := by
  induction d generalizing t with
  | nil => simp [Dict.get?]
  | cons p d ih =>
    obtain ⟨k', v⟩ := p
    rw [List.foldl_cons, ih, KM.find_set, Dict.get?]
    cases Dict.get? d k with
    | some w => rfl
    | none =>
      by_cases h : k' = k
      · subst h; simp
      · have : ¬ keyCode k = keyCode k' := fun e => h (keyCode_inj e).symm
        simp [h, this]

theorem KM.find_ofDict {β : Type} (k : Str) (d : Dict β) :
    (KM.ofDict d).find (keyCode k) = Dict.get? d k := by
  rw [KM.ofDict, KM.find_foldl]
  simp [KM.find]

def fastVowels : KM (Str × Str) := KM.ofDict vowelsWithAccents
def fastAccents : KM Str := KM.ofDict accentToLtxCmd
def fastFonts : KM (Str × Str) := KM.ofDict specialFontChars
def fastSymChar : KM Str := KM.ofDict allMathSymbolsByChar
def fastSymGlyph : KM Str := KM.ofDict allMathSymbolsByGlyph
def fastNumber : KM Str := KM.ofDict mathNumberByGlyph
def fastOpChar : KM Str := KM.ofDict allMathOperatorsByChar
def fastOpGlyph : KM Str := KM.ofDict allMathOperatorsByGlyph

/-- `hashConvert` with search trees. -/
def fastHash (char : Str) : Str :=
  if (match char with | [] => false | c :: _ => alnumIgnoreCase c) then char
  else
    match fastVowels.find (keyCode char) with
    | some accentChar =>
      match fastAccents.find (keyCode accentChar.2) with
      | none => char
      | some cmd => if cmd = [] then char else c!"\\" ++ cmd ++ c!"{" ++ accentChar.1 ++ c!"}"
    | none =>
      match fastFonts.find (keyCode char) with
      | none => char
      | some (letter, fontCmd) => c!"\\" ++ fontCmd ++ c!"{" ++ letter ++ c!"}"

theorem fastHash_eq (s : Str) : fastHash s = hashConvert s := by
  unfold fastHash hashConvert convertAccentCharToLtx convertSpecialCharToLtx
  unfold fastVowels fastAccents fastFonts
  simp only [KM.find_ofDict]
  generalize Dict.get? vowelsWithAccents s = v
  generalize Dict.get? specialFontChars s = f
  generalize Dict.get? accentToLtxCmd = g
  refine ite_congr rfl (fun _ => rfl) fun _ => ?_
  match v, f with
  | some a, _ =>
    simp only
    match g a.2 with
    | none => rfl
    | some cmd => simp only; split <;> rfl
  | none, none => rfl
  | none, some _ => rfl

/-- Lookup in several trees, skipping empty entries. -/
def fastFirst : List (KM Str) → Nat → Option Str
  | [], _ => none
  | t :: ts, k =>
    match t.find k with
    | some (c :: cs) => some (c :: cs)
    | _ => fastFirst ts k

/-- `operate` with search trees. -/
def fastOperate (value : Str) : Str :=
  match fastFirst [fastOpChar, fastOpGlyph, fastNumber] (keyCode value) with
  | some s => s
  | none => fastHash value

/-- `characterApply` with search trees. -/
def fastCharacter (value : Str) : Str :=
  match fastFirst [fastSymChar, fastSymGlyph, fastNumber] (keyCode value) with
  | some s => s
  | none => fastHash value

theorem fastOperate_eq (s : Str) : fastOperate s = operate s := by
  unfold fastOperate operate fastOpChar fastOpGlyph fastNumber
  simp only [fastFirst, KM.find_ofDict, fastHash_eq]
  split <;> rename_i h
  · split at h
    · rename_i e; rw [e]; simpa using h.symm
    · rename_i e1
      split at h
      · rename_i e
        split
        · rename_i e2; exact absurd e2 (e1 _ _)
        · rw [e]; simpa using h.symm
      · rename_i e2
        split at h
        · rename_i e
          split
          · rename_i e3; exact absurd e3 (e1 _ _)
          · split
            · rename_i e3; exact absurd e3 (e2 _ _)
            · rw [e]; simpa using h.symm
        · simp at h
  · split at h
    · simp at h
    · rename_i e1
      split at h
      · simp at h
      · rename_i e2
        split at h
        · simp at h
        · rename_i e3
          split
          · rename_i e; exact absurd e (e1 _ _)
          · split
            · rename_i e; exact absurd e (e2 _ _)
            · split
              · rename_i e; exact absurd e (e3 _ _)
              · rfl

theorem getD_ne_nil {o : Option Str} {c : Char} {cs : Str} (h : o = some (c :: cs)) :
    o.getD [] = c :: cs := by rw [h]; rfl

theorem getD_nil {o : Option Str} (h : ∀ c cs, o ≠ some (c :: cs)) : o.getD [] = [] := by
  match o with
  | none => rfl
  | some [] => rfl
  | some (c :: cs) => exact absurd rfl (h c cs)

theorem fastCharacter_eq (s : Str) : fastCharacter s = characterApply s := by
  unfold fastCharacter characterApply fastSymChar fastSymGlyph fastNumber
  simp only [fastFirst, KM.find_ofDict, fastHash_eq]
  split <;> rename_i h
  · split at h
    · rename_i e; rw [getD_ne_nil e]; simpa using h.symm
    · rename_i e1
      rw [getD_nil e1]
      split at h
      · rename_i e; rw [getD_ne_nil e]; simpa using h.symm
      · rename_i e2
        rw [getD_nil e2]
        split at h
        · rename_i e; rw [getD_ne_nil e]; simpa using h.symm
        · simp at h
  · split at h
    · simp at h
    · rename_i e1
      rw [getD_nil e1]
      split at h
      · simp at h
      · rename_i e2
        rw [getD_nil e2]
        split at h
        · simp at h
        · rename_i e3
          rw [getD_nil e3]
          simp

end Verif
