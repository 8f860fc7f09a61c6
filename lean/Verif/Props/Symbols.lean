import Verif.Props.Tables
import Verif.Props.Tokens
import Verif.Lemmas.Fast
import Verif.Spec.Symbols

/-! # The meaning of the symbol tables (C46–C51) -/

namespace Verif
open Spec

theorem identAs_of {k s : Str} (h : (keyCode (fastCharacter k) == keyCode s) = true) :
    IdentAs k s := by
  have := keyCode_inj (beq_iff_eq.1 h)
  intro b A cs hk
  rw [latexIn_mi, hk, ← fastCharacter_eq, this]

theorem operAs_of {k s : Str} (h : (keyCode (fastOperate k) == keyCode s) = true) : OperAs k s := by
  have := keyCode_inj (beq_iff_eq.1 h)
  intro b A cs hk
  rw [latexIn_mo, hk, ← fastOperate_eq, this]

/-- `MnSymbol` with search trees. -/
def fastMn (k : Str) : Str := (fastFirst [fastNumber] (keyCode k)).getD k

theorem numAs_of {k s : Str} (h : (keyCode (fastMn k) == keyCode s) = true) : NumAs k s := by
  have := keyCode_inj (beq_iff_eq.1 h)
  intro b A cs hk
  rw [C41_mn, hk, ← this, fastMn, fastNumber]
  simp only [fastFirst, KM.find_ofDict]
  have hm := fun v => Dict.get?_iff nodup_number k v
  revert hm
  generalize Dict.get? mathNumberByGlyph k = o
  intro hm
  match o with
  | none =>
    refine .inr ⟨fun v hv => ?_, rfl⟩
    have := (hm v).2 hv
    simp at this
  | some [] =>
    refine .inr ⟨fun v hv => ?_, rfl⟩
    have := (hm v).2 hv
    simpa using this.symm
  | some (c :: cs) => exact .inl ⟨(hm _).1 rfl, by simp⟩

/-- A text is rendered in one way only. -/
theorem IdentAs.unique {k s t : Str} (hk : normalize k = k) (h : IdentAs k s) (h' : IdentAs k t) :
    s = t := by
  have e : tokenData [.text k] = k := by simp [tokenData, Node.isElem]
  have h1 := h false [] [.text k] (by rw [e, hk])
  rw [h' false [] [.text k] (by rw [e, hk])] at h1
  have ha : fonts miVariants [] (attr [] c!"mathvariant") = [] := by decide
  rw [ha] at h1
  simpa [applyAll] using h1.symm

/-- A text is rendered in one way only. -/
theorem OperAs.unique {k s t : Str} (hk : normalize k = k) (h : OperAs k s) (h' : OperAs k t) :
    s = t := by
  have e : tokenData [.text k] = k := by simp [tokenData, Node.isElem]
  have h1 := h false [] [.text k] (by rw [e, hk])
  rw [h' false [] [.text k] (by rw [e, hk])] at h1
  simpa using h1.symm

/-! ## C46 -/

def accentCheck : Bool := composed.all fun p => markCommands.all fun q =>
  !(q.1.toNat == p.2.2.toNat) || unaccented.any (fun c => c.toNat == p.1.toNat) ||
    misaccented.any (fun c => c.toNat == p.1.toNat) ||
    (keyCode (fastCharacter [p.1]) == keyCode (command q.2 [p.2.1]) &&
      keyCode (fastOperate [p.1]) == keyCode (command q.2 [p.2.1]))

set_option maxRecDepth 100000 in
theorem accent_check : accentCheck = true := by decide +kernel

theorem char_of_toNat {c d : Char} (h : c.toNat = d.toNat) : c = d :=
  Char.ext (UInt32.toNat_inj.1 h)

theorem any_toNat {s : Str} {c : Char} : s.any (fun d => d.toNat == c.toNat) = true ↔ c ∈ s := by
  rw [List.any_eq_true]
  constructor
  · rintro ⟨d, hd, e⟩
    rw [← char_of_toNat (beq_iff_eq.1 e)]; exact hd
  · exact fun h => ⟨c, h, by simp⟩

/-- **C46** A letter with a mark becomes the accent of the mark on the letter, as an identifier and
as an operator, unless it is in a list of letters that are not supported. -/
theorem C46_accents (c letter mark : Char) (cmd : Str) (h : (c, letter, mark) ∈ composed)
    (hm : (mark, cmd) ∈ markCommands) (h1 : c ∉ unaccented) (h2 : c ∉ misaccented) :
    IdentAs [c] (command cmd [letter]) ∧ OperAs [c] (command cmd [letter]) := by
  have hv := accent_check
  unfold accentCheck at hv
  have := List.all_eq_true.1 (List.all_eq_true.1 hv _ h) _ hm
  simp only [Bool.or_eq_true, Bool.and_eq_true, Bool.not_eq_true', beq_self_eq_true,
    Bool.true_eq_false, false_or, any_toNat, h1, h2] at this
  exact ⟨identAs_of this.1, operAs_of this.2⟩

example : ('é', 'e', '́') ∈ composed ∧ ('́', c!"acute") ∈ markCommands ∧ 'é' ∉ unaccented ∧
    'é' ∉ misaccented := by decide +kernel

set_option maxRecDepth 100000 in
theorem unaccented_check : unaccented.all (fun c => keyCode (fastCharacter [c]) == keyCode [c] &&
    keyCode (fastOperate [c]) == keyCode [c]) = true := by decide +kernel

/-- **C46** The unsupported letters stay as they are. -/
theorem C46_unsupported (c : Char) (h : c ∈ unaccented) : IdentAs [c] [c] ∧ OperAs [c] [c] := by
  have := List.all_eq_true.1 unaccented_check _ h
  rw [Bool.and_eq_true] at this
  exact ⟨identAs_of this.1, operAs_of this.2⟩

example : 'č' ∈ unaccented := by decide +kernel

/-- **C46** Three letters get a wrong accent, or lose it. -/
theorem C46_wrong : IdentAs c!"Ż" (command c!"hat" c!"Z") ∧ OperAs c!"Ż" (command c!"hat" c!"Z") ∧
    IdentAs c!"ż" (command c!"hat" c!"z") ∧ OperAs c!"ż" (command c!"hat" c!"z") ∧
    IdentAs c!"ṁ" c!"m" ∧ OperAs c!"ṁ" c!"ṁ" :=
  ⟨identAs_of (by decide +kernel), operAs_of (by decide +kernel), identAs_of (by decide +kernel),
    operAs_of (by decide +kernel), identAs_of (by decide +kernel), operAs_of (by decide +kernel)⟩

/-- The commands of accents. -/
def accentNames : List Str := accentToLtxCmd.map Prod.snd

def baseCheck : Bool := latinBase.all fun p => misbased.any (fun c => c.toNat == p.1.toNat) ||
  ((keyCode (fastCharacter [p.1]) == keyCode [p.1] ||
      accentNames.any fun q => keyCode (fastCharacter [p.1]) == keyCode (command q [p.2])) &&
    (keyCode (fastOperate [p.1]) == keyCode [p.1] ||
      accentNames.any fun q => keyCode (fastOperate [p.1]) == keyCode (command q [p.2])))

set_option maxRecDepth 100000 in
theorem base_check : baseCheck = true := by decide +kernel

/-- **C46** No other letter is confused: a letter built on a Latin letter stays as it is or becomes
a command on that Latin letter. -/
theorem C46_base (c letter : Char) (h : (c, letter) ∈ latinBase) (h1 : c ∉ misbased) :
    (IdentAs [c] [c] ∨ ∃ cmd, IdentAs [c] (command cmd [letter])) ∧
    (OperAs [c] [c] ∨ ∃ cmd, OperAs [c] (command cmd [letter])) := by
  have hv := base_check
  unfold baseCheck at hv
  have := List.all_eq_true.1 hv _ h
  simp only [Bool.or_eq_true, Bool.and_eq_true, any_toNat, h1, false_or] at this
  simp only [List.any_eq_true] at this
  obtain ⟨h2, h3⟩ := this
  refine ⟨?_, ?_⟩
  · rcases h2 with h | ⟨q, -, h⟩
    · exact .inl (identAs_of h)
    · exact .inr ⟨q, identAs_of h⟩
  · rcases h3 with h | ⟨q, -, h⟩
    · exact .inl (operAs_of h)
    · exact .inr ⟨q, operAs_of h⟩

example : ('ű', 'u') ∈ latinBase ∧ 'ű' ∉ misbased := by decide +kernel

/-- **C46** The exceptions: a wrong base letter and a lost one. -/
theorem C46_base_wrong : IdentAs c!"ȇ" (command c!"hat" c!"i") ∧ ('ȇ', 'e') ∈ latinBase ∧
    IdentAs c!"ơ" c!"o" ∧ ('ơ', 'o') ∈ latinBase :=
  ⟨identAs_of (by decide +kernel), by decide +kernel, identAs_of (by decide +kernel),
    by decide +kernel⟩

/-! ## C47 -/

def letterlikeCheck : Bool := letterlike.all fun p =>
  keyCode (fastCharacter [p.1]) == keyCode (command p.2.2 [p.2.1]) &&
    keyCode (fastOperate [p.1]) == keyCode (command p.2.2 [p.2.1])

set_option maxRecDepth 100000 in
theorem letterlike_check : letterlikeCheck = true := by decide +kernel

def alphabetCheck : Bool := alphabets.all fun p => (List.range p.2.1).all fun i =>
  alphabetHoles.any (fun h => h == p.1 + i) ||
    (keyCode (fastCharacter [Char.ofNat (p.1 + i)]) ==
        keyCode (command p.2.2.2 [Char.ofNat (p.2.2.1.toNat + i)]) &&
      keyCode (fastOperate [Char.ofNat (p.1 + i)]) ==
        keyCode (command p.2.2.2 [Char.ofNat (p.2.2.1.toNat + i)]))

set_option maxRecDepth 100000 in
theorem alphabet_check : alphabetCheck = true := by decide +kernel

/-- **C47** A capital or digit in a font is rendered as the command of the font on the letter. -/
theorem C47_fonts (c : Char) (f : Str) (l : Char) (h : InFont c f l) :
    IdentAs [c] (command f [l]) ∧ OperAs [c] (command f [l]) := by
  rcases h with h | ⟨start, len, first, h, i, hi, rfl, hh, rfl⟩
  · have hv := letterlike_check
    unfold letterlikeCheck at hv
    have := List.all_eq_true.1 hv _ h
    rw [Bool.and_eq_true] at this
    exact ⟨identAs_of this.1, operAs_of this.2⟩
  · have hv := alphabet_check
    unfold alphabetCheck at hv
    have := List.all_eq_true.1 (List.all_eq_true.1 hv _ h) i (List.mem_range.2 hi)
    rw [Bool.or_eq_true, Bool.and_eq_true] at this
    rcases this with h | h
    · obtain ⟨x, hx, e⟩ := List.any_eq_true.1 h
      rw [beq_iff_eq] at e
      exact absurd (e ▸ hx) hh
    · exact ⟨identAs_of h.1, operAs_of h.2⟩

example : InFont '𝔸' c!"mathbb" 'A' ∧ InFont 'ℝ' c!"mathbb" 'R' :=
  ⟨.inr ⟨0x1D538, 26, 'A', by decide, 0, by decide, by decide, by decide, by decide⟩,
    .inl (by decide)⟩

def smallItalicCheck : Bool := (List.range 26).all fun i => i == 7 ||
  (keyCode (fastCharacter [Char.ofNat (0x1D44E + i)]) == keyCode [Char.ofNat (97 + i)] &&
    keyCode (fastOperate [Char.ofNat (0x1D44E + i)]) == keyCode [Char.ofNat (0x1D44E + i)])

set_option maxRecDepth 100000 in
theorem smallItalic_check : smallItalicCheck = true := by decide +kernel

/-- **C47** Small italic letters are plain letters as identifiers and stay as they are as operators
(the code point of `h` is unassigned). -/
theorem C47_small_italic (i : Nat) (hi : i < 26) (h7 : i ≠ 7) :
    IdentAs [Char.ofNat (0x1D44E + i)] [Char.ofNat (97 + i)] ∧
    OperAs [Char.ofNat (0x1D44E + i)] [Char.ofNat (0x1D44E + i)] := by
  have hv := smallItalic_check
  unfold smallItalicCheck at hv
  have := List.all_eq_true.1 hv i (List.mem_range.2 hi)
  simp only [Bool.or_eq_true, Bool.and_eq_true, beq_iff_eq (a := i), h7, false_or] at this
  exact ⟨identAs_of this.1, operAs_of this.2⟩

/-- **C47** Elsewhere in the block letters are confused: bold capital rho is a `Q`, fraktur and
script are not told apart, and two different letters give the same LaTeX. -/
theorem C47_wrong : IdentAs c!"𝚸" (command c!"mathtt" c!"Q") ∧
    IdentAs c!"𝕽" (command c!"mathcal" c!"R") ∧ IdentAs c!"ℛ" (command c!"mathcal" c!"R") :=
  ⟨identAs_of (by decide +kernel), identAs_of (by decide +kernel), identAs_of (by decide +kernel)⟩

/-! ## C48 -/

/-- Decode a sequence of character references. -/
def unref (acc : Nat) : Str → Str
  | [] => []
  | c :: s =>
    if c.toNat == 59 then Char.ofNat acc :: unref 0 s
    else if Nat.ble 48 c.toNat && Nat.ble c.toNat 57 then unref (acc * 16 + (c.toNat - 48)) s
    else if Nat.ble 65 c.toNat && Nat.ble c.toNat 70 then unref (acc * 16 + (c.toNat - 55)) s
    else unref acc s

theorem unref_hexDigit (acc m : Nat) (h : m < 16) (s : Str) :
    unref acc (hexDigit m :: s) = unref (acc * 16 + m) s := by
  have key : (hexDigit m).toNat = if m < 10 then 48 + m else 55 + m := by
    have : ∀ m < 16, (hexDigit m).toNat = if m < 10 then 48 + m else 55 + m := by decide
    exact this m h
  rw [unref, key]
  by_cases hm : m < 10
  · rw [if_pos hm, if_neg (by simp; omega), if_pos (by simp; omega)]
    congr 1; omega
  · rw [if_neg hm, if_neg (by simp; omega), if_neg (by simp; omega), if_pos (by simp; omega)]
    congr 1; omega

theorem unref_hex (n : Nat) (s : Str) : unref 0 (hex n ++ s) = unref n s := by
  induction n using Nat.strongRecOn generalizing s with
  | _ n ih =>
    rw [hex]
    split
    · rename_i h
      rw [List.singleton_append, unref_hexDigit _ _ h]; congr 1; omega
    · rename_i h
      rw [List.append_assoc, ih _ (by omega), List.singleton_append, unref_hexDigit _ _ (by omega)]
      congr 1; omega

theorem unref_reference (c : Char) (s : Str) : unref 0 (reference c ++ s) = c :: unref 0 s := by
  have : reference c ++ s = '&' :: '#' :: 'x' :: (hex c.toNat ++ (';' :: s)) := by
    simp [reference]
  rw [this]
  have h3 : ∀ t, unref 0 ('&' :: '#' :: 'x' :: t) = unref 0 t := fun t => by
    simp [unref]
  rw [h3, unref_hex]
  simp [unref, Char.ofNat_toNat]

theorem unref_references (k : Str) : unref 0 (references k) = k := by
  induction k with
  | nil => rfl
  | cons c k ih =>
    have : references (c :: k) = reference c ++ references k := by simp [references]
    rw [this, unref_reference, ih]

theorem references_inj {k k' : Str} (h : references k = references k') : k = k' := by
  rw [← unref_references k, h, unref_references]

/-- Keys that begin like a character reference. -/
def isRef : Str → Bool
  | a :: b :: c :: _ => a.toNat == 38 && b.toNat == 35 && c.toNat == 120
  | _ => false

theorem isRef_references {k : Str} (h : k ≠ []) : isRef (references k) = true := by
  match k with
  | c :: k => simp [references, reference, isRef]

def noRefs {β : Type} (d : Dict β) : Bool := d.all fun p => !isRef p.1

set_option maxRecDepth 100000 in
theorem noRefs_all : (noRefs allMathSymbolsByGlyph && noRefs allMathOperatorsByGlyph &&
    noRefs mathNumberByGlyph && noRefs vowelsWithAccents && noRefs specialFontChars) = true := by
  decide +kernel

theorem not_mem_of_noRefs {β : Type} {d : Dict β} (h : noRefs d = true) {k : Str}
    (hk : isRef k = true) (v : β) : (k, v) ∉ d := fun hm => by
  have := forall_of_all h _ _ hm
  simp [hk] at this

theorem not_startsAlnum_ref {k : Str} (hk : isRef k = true) : ¬ StartsAlnum k := by
  rintro ⟨c, t, rfl, h⟩
  match t with
  | [] => simp [isRef] at hk
  | [_] => simp [isRef] at hk
  | b :: d :: t =>
    simp only [isRef, Bool.and_eq_true, beq_iff_eq] at hk
    have : c = '&' := char_of_toNat hk.1.1
    subst this
    revert h; decide

def identRefCheck : Bool := allMathSymbolsByChar.all fun p => !isRef p.1 || p.2.isEmpty ||
  identReferenceExceptions.any (fun e => keyCode e == keyCode (unref 0 p.1)) ||
  keyCode (fastCharacter (unref 0 p.1)) == keyCode p.2

set_option maxRecDepth 100000 in
theorem identRef_check : identRefCheck = true := by decide +kernel

def operRefCheck : Bool := allMathOperatorsByChar.all fun p => !isRef p.1 || p.2.isEmpty ||
  operReferenceExceptions.any (fun e => keyCode e == keyCode (unref 0 p.1)) ||
  keyCode (fastOperate (unref 0 p.1)) == keyCode p.2

set_option maxRecDepth 100000 in
theorem operRef_check : operRefCheck = true := by decide +kernel

theorem any_keyCode {l : List Str} {k : Str} :
    l.any (fun e => keyCode e == keyCode k) = true → k ∈ l := fun h => by
  obtain ⟨e, he, hk⟩ := List.any_eq_true.1 h
  rw [← keyCode_inj (beq_iff_eq.1 hk)]; exact he

theorem identAs_iff {k s : Str} (h : MiSymbol k s) : IdentAs k s := by
  intro b A cs hk
  rw [latexIn_mi, hk, (miSymbol_iff _ _).1 h]

theorem operAs_iff {k s : Str} (h : MoSymbol k s) : OperAs k s := by
  intro b A cs hk
  rw [latexIn_mo, hk, (moSymbol_iff _ _).1 h]

/-- **C39** Lookups are exact: a text that is no key of any table, character by character, is
written as it is, as an identifier, as an operator and as a number. -/
theorem C39_exact (k : Str) (h : ∀ t ∈ symbolTables, ∀ v, (k, v) ∉ t)
    (hv : ∀ x, (k, x) ∉ vowelsWithAccents) (hf : ∀ x, (k, x) ∉ specialFontChars) :
    IdentAs k k ∧ OperAs k k ∧ NumAs k k := by
  have hg : Glyph k k := by
    by_cases ha : StartsAlnum k
    · exact .alnum ha
    · exact .plain ha hv hf
  refine ⟨identAs_iff (.inr ⟨?_, hg⟩), operAs_iff (.inr ⟨?_, hg⟩), fun b A cs hk => ?_⟩
  · intro t ht v hm
    exact absurd hm (h t (by simp only [symbolTables, List.mem_cons] at ht ⊢; grind) v)
  · intro t ht v hm
    exact absurd hm (h t (by simp only [symbolTables, List.mem_cons] at ht ⊢; grind) v)
  · rw [C41_mn]
    subst hk
    exact .inr ⟨fun v hm => absurd hm (h _ (by simp [symbolTables]) v), rfl⟩

/-- The case of a character reference matters: one is the symbol, the other stays. -/
example : IdentAs c!"&#x21D4;" c!"\\iff" ∧ IdentAs c!"&#x21d4;" c!"&#x21d4;" :=
  ⟨identAs_of (by decide +kernel), identAs_of (by decide +kernel)⟩

/-- There are such texts. -/
example : (∀ t ∈ symbolTables, ∀ v, (c!"&#x21d4;", v) ∉ t) ∧
    (∀ x, (c!"&#x21d4;", x) ∉ vowelsWithAccents) ∧ (∀ x, (c!"&#x21d4;", x) ∉ specialFontChars) := by
  refine ⟨mem_symbolTables ?_ ?_ ?_ ?_ ?_, ?_, ?_⟩
  · rw [← Dict.get?_none_iff nodup_symChar]; decide +kernel
  · rw [← Dict.get?_none_iff nodup_symGlyph]; decide +kernel
  · rw [← Dict.get?_none_iff nodup_number]; decide +kernel
  · rw [← Dict.get?_none_iff nodup_opChar]; decide +kernel
  · rw [← Dict.get?_none_iff nodup_opGlyph]; decide +kernel
  · rw [← Dict.get?_none_iff nodup_vowels]; decide +kernel
  · rw [← Dict.get?_none_iff nodup_fonts]; decide +kernel

/-- A text in no table that begins like a reference stays. -/
theorem symbol_ref {d g : Dict Str} (hg : noRefs g = true) {k : Str} (hk : isRef k = true)
    (hd : ∀ v, (k, v) ∈ d → v = []) : Symbol [d, g, mathNumberByGlyph] k k := by
  have hn := noRefs_all
  simp only [Bool.and_eq_true] at hn
  obtain ⟨⟨⟨⟨-, -⟩, h3⟩, h4⟩, h5⟩ := hn
  refine .inr ⟨fun t ht v hv => ?_, .plain (not_startsAlnum_ref hk) (not_mem_of_noRefs h4 hk)
    (not_mem_of_noRefs h5 hk)⟩
  simp only [List.mem_cons, List.not_mem_nil, or_false] at ht
  rcases ht with rfl | rfl | rfl
  · exact hd v hv
  · exact absurd hv (not_mem_of_noRefs hg hk v)
  · exact absurd hv (not_mem_of_noRefs h3 hk v)

/-- **C48** A text made of character references (left over by a doubly escaped source, or in a
CDATA section) is rendered like the characters themselves, or stays as it is. -/
theorem C48_ident (k : Str) (hne : k ≠ []) (hx : k ∉ identReferenceExceptions) :
    IdentAs (references k) (references k) ∨ ∃ s, IdentAs (references k) s ∧ IdentAs k s := by
  have hr := isRef_references hne
  by_cases h : ∃ v, (references k, v) ∈ allMathSymbolsByChar ∧ v ≠ []
  · obtain ⟨v, hv, hv0⟩ := h
    refine .inr ⟨v, identAs_iff (.inl (.here hv hv0)), ?_⟩
    have hc := identRef_check
    unfold identRefCheck at hc
    have := forall_of_all hc _ _ hv
    simp only [hr, unref_references, Bool.or_eq_true, Bool.not_true, Bool.false_eq_true,
      false_or, List.isEmpty_iff, hv0] at this
    rcases this with h | h
    · exact absurd (any_keyCode h) hx
    · exact identAs_of h
  · refine .inl (identAs_iff (symbol_ref ?_ hr fun v hv => ?_))
    · have := noRefs_all
      simp only [Bool.and_eq_true] at this
      exact this.1.1.1.1
    · exact Decidable.byContradiction fun hv0 => h ⟨v, hv, hv0⟩

/-- **C48** The same for operators. -/
theorem C48_oper (k : Str) (hne : k ≠ []) (hx : k ∉ operReferenceExceptions) :
    OperAs (references k) (references k) ∨ ∃ s, OperAs (references k) s ∧ OperAs k s := by
  have hr := isRef_references hne
  by_cases h : ∃ v, (references k, v) ∈ allMathOperatorsByChar ∧ v ≠ []
  · obtain ⟨v, hv, hv0⟩ := h
    refine .inr ⟨v, operAs_iff (.inl (.here hv hv0)), ?_⟩
    have hc := operRef_check
    unfold operRefCheck at hc
    have := forall_of_all hc _ _ hv
    simp only [hr, unref_references, Bool.or_eq_true, Bool.not_true, Bool.false_eq_true,
      false_or, List.isEmpty_iff, hv0] at this
    rcases this with h | h
    · exact absurd (any_keyCode h) hx
    · exact operAs_of h
  · refine .inl (operAs_iff (symbol_ref ?_ hr fun v hv => ?_))
    · have := noRefs_all
      simp only [Bool.and_eq_true] at this
      exact this.1.1.1.2
    · exact Decidable.byContradiction fun hv0 => h ⟨v, hv, hv0⟩

example : references c!"∈" = c!"&#x2208;" ∧ c!"∈" ∉ operReferenceExceptions ∧
    OperAs c!"&#x2208;" c!"\\in" ∧ OperAs c!"∈" c!"\\in" :=
  ⟨by simp [references, reference, hex, hexDigit], by decide, operAs_of (by decide +kernel),
    operAs_of (by decide +kernel)⟩

/-- **C48** The exceptions are real: for the bowtie products the reference gives the mirror image
of what the character gives. -/
theorem C48_mirrored : ∃ s t, OperAs c!"&#x22C9;" s ∧ OperAs c!"⋉" t ∧ OperAs c!"&#x22CA;" t ∧
    OperAs c!"⋊" s ∧ s ≠ t :=
  ⟨c!"\\ltimes", c!"\\rtimes", operAs_of (by decide +kernel), operAs_of (by decide +kernel),
    operAs_of (by decide +kernel), operAs_of (by decide +kernel), by decide⟩

/-! ## C49 -/

/-- Two-byte UTF-8 from percent-encoded text. -/
def unpercent : Str → Str
  | [_, a, b, _, c, d] =>
    let v := fun (x : Char) => if Nat.ble x.toNat 57 then x.toNat - 48 else x.toNat - 55
    [Char.ofNat ((v a * 16 + v b - 192) * 64 + (v c * 16 + v d - 128))]
  | _ => []

theorem hex_byte {n : Nat} (h : 16 ≤ n) (h' : n < 256) :
    hex n = [hexDigit (n / 16), hexDigit (n % 16)] := by
  rw [hex, dif_neg (by omega), hex, dif_pos (by omega)]; rfl

theorem percent_eq {c : Char} (h : c.toNat < 2048) : percent c =
    ['%', hexDigit ((192 + c.toNat / 64) / 16), hexDigit ((192 + c.toNat / 64) % 16), '%',
      hexDigit ((128 + c.toNat % 64) / 16), hexDigit ((128 + c.toNat % 64) % 16)] := by
  rw [percent, hex_byte (by omega) (by omega), hex_byte (by omega) (by omega)]; rfl

theorem unpercent_percent {c : Char} (h : c.toNat < 2048) : unpercent (percent c) = [c] := by
  have hv : ∀ m < 16, (if Nat.ble (hexDigit m).toNat 57 then (hexDigit m).toNat - 48
      else (hexDigit m).toNat - 55) = m := by decide
  rw [percent_eq h, unpercent]
  simp only []
  rw [hv _ (by omega), hv _ (by omega), hv _ (by omega), hv _ (by omega)]
  have : ((192 + c.toNat / 64) / 16 * 16 + (192 + c.toNat / 64) % 16 - 192) * 64 +
      ((128 + c.toNat % 64) / 16 * 16 + (128 + c.toNat % 64) % 16 - 128) = c.toNat := by omega
  rw [this, Char.ofNat_toNat]

/-- Keys of six characters that begin with a percent sign. -/
def isPercent : Str → Bool
  | [a, _, _, _, _, _] => a.toNat == 37
  | _ => false

theorem isPercent_percent {c : Char} (h : c.toNat < 2048) : isPercent (percent c) = true := by
  rw [percent_eq h]; rfl

def noPercent {β : Type} (d : Dict β) : Bool := d.all fun p => !isPercent p.1

set_option maxRecDepth 100000 in
theorem noPercent_all : (noPercent allMathSymbolsByChar && noPercent allMathSymbolsByGlyph &&
    noPercent allMathOperatorsByGlyph && noPercent mathNumberByGlyph &&
    noPercent vowelsWithAccents && noPercent specialFontChars) = true := by
  decide +kernel

theorem not_mem_of_noPercent {β : Type} {d : Dict β} (h : noPercent d = true) {k : Str}
    (hk : isPercent k = true) (v : β) : (k, v) ∉ d := fun hm => by
  have := forall_of_all h _ _ hm
  simp [hk] at this

theorem not_startsAlnum_percent {c : Char} (h : c.toNat < 2048) : ¬ StartsAlnum (percent c) := by
  rw [percent_eq h]
  rintro ⟨d, t, e, h⟩
  rw [List.cons.injEq] at e
  rw [← e.1] at h
  revert h; decide

def percentCheck : Bool := allMathOperatorsByChar.all fun p => !isPercent p.1 ||
  keyCode (unpercent p.1) == keyCode c!"ρ" ||
  keyCode (fastOperate (unpercent p.1)) == keyCode p.2

set_option maxRecDepth 100000 in
theorem percent_check : percentCheck = true := by decide +kernel

/-- **C49** The percent-encoded form of a character of two bytes stays as it is as an identifier;
as an operator it may also be rendered like the character. -/
theorem C49_percent (c : Char) (h : c.toNat < 2048) (hr : c ≠ 'ρ') :
    IdentAs (percent c) (percent c) ∧
    (OperAs (percent c) (percent c) ∨ ∃ s, OperAs (percent c) s ∧ OperAs [c] s) := by
  have hp := isPercent_percent h
  have hn := noPercent_all
  simp only [Bool.and_eq_true] at hn
  obtain ⟨⟨⟨⟨⟨h1, h2⟩, h3⟩, h4⟩, h5⟩, h6⟩ := hn
  have hg : Glyph (percent c) (percent c) := .plain (not_startsAlnum_percent h)
    (not_mem_of_noPercent h5 hp) (not_mem_of_noPercent h6 hp)
  refine ⟨identAs_iff (.inr ⟨fun t ht v hv => ?_, hg⟩), ?_⟩
  · simp only [List.mem_cons, List.not_mem_nil, or_false] at ht
    rcases ht with rfl | rfl | rfl
    · exact absurd hv (not_mem_of_noPercent h1 hp v)
    · exact absurd hv (not_mem_of_noPercent h2 hp v)
    · exact absurd hv (not_mem_of_noPercent h4 hp v)
  · by_cases hx : ∃ v, (percent c, v) ∈ allMathOperatorsByChar ∧ v ≠ []
    · obtain ⟨v, hv, hv0⟩ := hx
      refine .inr ⟨v, operAs_iff (.inl (.here hv hv0)), ?_⟩
      have hc := percent_check
      unfold percentCheck at hc
      have := forall_of_all hc _ _ hv
      simp only [hp, unpercent_percent h, Bool.or_eq_true, Bool.not_true, Bool.false_eq_true,
        false_or] at this
      rcases this with h | h
      · have := keyCode_inj (beq_iff_eq.1 h)
        rw [List.cons.injEq] at this
        exact absurd this.1 hr
      · exact operAs_of h
    · refine .inl (operAs_iff (.inr ⟨fun t ht v hv => ?_, hg⟩))
      simp only [List.mem_cons, List.not_mem_nil, or_false] at ht
      rcases ht with rfl | rfl | rfl
      · exact Decidable.byContradiction fun hv0 => hx ⟨v, hv, hv0⟩
      · exact absurd hv (not_mem_of_noPercent h3 hp v)
      · exact absurd hv (not_mem_of_noPercent h4 hp v)

example : percent 'α' = c!"%CE%B1" ∧ OperAs c!"%CE%B1" c!"\\alpha" ∧ OperAs c!"α" c!"\\alpha" :=
  ⟨by simp [percent, hex, hexDigit], operAs_of (by decide +kernel), operAs_of (by decide +kernel)⟩

/-- **C49** The exception: the percent-encoded rho becomes a command that does not exist. -/
theorem C49_rho : OperAs c!"%CF%81" c!"\\pho" ∧ OperAs c!"ρ" c!"\\rho" ∧ percent 'ρ' = c!"%CF%81" :=
  ⟨operAs_of (by decide +kernel), operAs_of (by decide +kernel), by
    simp [percent, hex, hexDigit]⟩

/-! ## C50 -/

def numeralCheck (f : Str → Str) : Bool :=
  (vulgarFractions.all fun p => p.1.toNat == 0x2189 ||
    keyCode (f [p.1]) == keyCode (c!"\\dfrac{" ++ p.2.1 ++ c!"}{" ++ p.2.2 ++ c!"}")) &&
  (scriptDigits.all fun p => keyCode (f [p.1]) ==
    keyCode ((if p.2.1 then c!"^" else c!"_") ++ c!"{" ++ [p.2.2] ++ c!"}")) &&
  (circledNumbers.all fun p => keyCode (f [p.1]) == keyCode (command c!"textcircled" p.2))

set_option maxRecDepth 100000 in
theorem numeral_check : (numeralCheck fastCharacter && numeralCheck fastMn) = true := by
  decide +kernel

/-- **C50** Fractions, superscript and subscript digits and circled numbers mean what they show, as
identifiers and as numbers. -/
theorem C50_numerals :
    (∀ c n d, (c, n, d) ∈ vulgarFractions → c ≠ '↉' →
      IdentAs [c] (c!"\\dfrac{" ++ n ++ c!"}{" ++ d ++ c!"}") ∧
      NumAs [c] (c!"\\dfrac{" ++ n ++ c!"}{" ++ d ++ c!"}")) ∧
    (∀ c up d, (c, up, d) ∈ scriptDigits →
      IdentAs [c] ((if up then c!"^" else c!"_") ++ c!"{" ++ [d] ++ c!"}") ∧
      NumAs [c] ((if up then c!"^" else c!"_") ++ c!"{" ++ [d] ++ c!"}")) ∧
    (∀ c n, (c, n) ∈ circledNumbers →
      IdentAs [c] (command c!"textcircled" n) ∧ NumAs [c] (command c!"textcircled" n)) := by
  have hv := numeral_check
  unfold numeralCheck at hv
  simp only [Bool.and_eq_true] at hv
  obtain ⟨⟨⟨h1, h2⟩, h3⟩, ⟨h4, h5⟩, h6⟩ := hv
  refine ⟨fun c n d h hc => ?_, fun c up d h => ?_, fun c n h => ?_⟩
  · have hc' : (c.toNat == 0x2189) = false := by
      rw [beq_eq_false_iff_ne]
      exact fun e => hc (char_of_toNat e)
    have a := List.all_eq_true.1 h1 _ h
    have b := List.all_eq_true.1 h4 _ h
    rw [hc', Bool.false_or] at a b
    exact ⟨identAs_of a, numAs_of b⟩
  · have a := List.all_eq_true.1 h2 _ h
    have b := List.all_eq_true.1 h5 _ h
    simp only [] at a b
    exact ⟨identAs_of a, numAs_of b⟩
  · have a := List.all_eq_true.1 h3 _ h
    have b := List.all_eq_true.1 h6 _ h
    simp only [] at a b
    exact ⟨identAs_of a, numAs_of b⟩

/-- **C50** As operators, the superscripts one, two and three lose their position, so that they
cannot be told from the digits. -/
theorem C50_operators : OperAs c!"²" c!"2" ∧ OperAs c!"2" c!"2" ∧ OperAs c!"³" c!"3" ∧
    OperAs c!"¹" c!"1" ∧ OperAs c!"⁴" c!"^{4}" :=
  ⟨operAs_of (by decide +kernel), operAs_of (by decide +kernel), operAs_of (by decide +kernel),
    operAs_of (by decide +kernel), operAs_of (by decide +kernel)⟩

/-- **C50** The fraction zero thirds is not supported. -/
theorem C50_zero_thirds : IdentAs c!"↉" c!"↉" ∧ OperAs c!"↉" c!"↉" ∧ NumAs c!"↉" c!"↉" :=
  ⟨identAs_of (by decide +kernel), operAs_of (by decide +kernel), numAs_of (by decide +kernel)⟩

/-! ## C51 -/

def greekCheck : Bool := greekNames.all fun p =>
  (identGreekExceptions.any (fun c => c.toNat == p.1.toNat) ||
    keyCode (fastCharacter [p.1]) == keyCode (c!"\\" ++ p.2)) &&
  (operGreekExceptions.any (fun c => c.toNat == p.1.toNat) ||
    keyCode (fastOperate [p.1]) == keyCode (c!"\\" ++ p.2))

set_option maxRecDepth 100000 in
theorem greek_check : greekCheck = true := by decide +kernel

/-- **C51** A Greek letter is rendered by its name, with an explicit list of exceptions for
identifiers and one for operators. -/
theorem C51_greek (c : Char) (name : Str) (h : (c, name) ∈ greekNames) :
    (c ∉ identGreekExceptions → IdentAs [c] (c!"\\" ++ name)) ∧
    (c ∉ operGreekExceptions → OperAs [c] (c!"\\" ++ name)) := by
  have hv := greek_check
  unfold greekCheck at hv
  have := List.all_eq_true.1 hv _ h
  simp only [Bool.or_eq_true, Bool.and_eq_true, any_toNat] at this
  exact ⟨fun hc => identAs_of (this.1.resolve_left hc), fun hc => operAs_of (this.2.resolve_left hc)⟩

example : ('α', c!"alpha") ∈ greekNames ∧ 'α' ∉ identGreekExceptions ∧ 'α' ∉ operGreekExceptions ∧
    ('Ω', c!"Omega") ∈ greekNames ∧ 'Ω' ∉ identGreekExceptions := by decide +kernel

def greekWrong (f : Str → Str) (exceptions : Str) : Bool := greekNames.all fun p =>
  !exceptions.any (fun c => c.toNat == p.1.toNat) || !(keyCode (f [p.1]) == keyCode (c!"\\" ++ p.2))

set_option maxRecDepth 100000 in
theorem greek_wrong : (greekWrong fastCharacter identGreekExceptions &&
    greekWrong fastOperate operGreekExceptions) = true := by decide +kernel

theorem normalize_greek : greekNames.all (fun p => keyCode (normalize [p.1]) == keyCode [p.1]) =
    true := by decide +kernel

/-- **C51** The exceptions are exact: none of them is rendered by its name. -/
theorem C51_exact (c : Char) (name : Str) (h : (c, name) ∈ greekNames) :
    (c ∈ identGreekExceptions → ¬ IdentAs [c] (c!"\\" ++ name)) ∧
    (c ∈ operGreekExceptions → ¬ OperAs [c] (c!"\\" ++ name)) := by
  have hv := greek_wrong
  unfold greekWrong at hv
  rw [Bool.and_eq_true] at hv
  have hn := keyCode_inj (beq_iff_eq.1 (List.all_eq_true.1 normalize_greek _ h))
  have h1 := List.all_eq_true.1 hv.1 _ h
  have h2 := List.all_eq_true.1 hv.2 _ h
  refine ⟨fun hc hi => ?_, fun hc hi => ?_⟩
  · have e := IdentAs.unique hn hi (identAs_of (s := fastCharacter [c]) (by simp))
    rw [any_toNat.2 hc, ← e] at h1
    simp at h1
  · have e := OperAs.unique hn hi (operAs_of (s := fastOperate [c]) (by simp))
    rw [any_toNat.2 hc, ← e] at h2
    simp at h2

/-- **C51** Capital nu is confused with small nu, and capital rho with the Latin letter. -/
theorem C51_confused : IdentAs c!"Ν" c!"\\nu" ∧ IdentAs c!"ν" c!"\\nu" ∧ IdentAs c!"Ρ" c!"P" ∧
    IdentAs c!"P" c!"P" :=
  ⟨identAs_of (by decide +kernel), identAs_of (by decide +kernel), identAs_of (by decide +kernel),
    identAs_of (by decide +kernel)⟩

end Verif
