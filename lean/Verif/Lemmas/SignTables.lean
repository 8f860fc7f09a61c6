import Verif.Lemmas.Latex
import Verif.Spec.Proper

/-! # What the symbols of the tables are in formulas -/

namespace Verif
open Spec

/-- The scripts that are used up. -/
def none' : Room := ⟨false, false⟩

/-- From everywhere to a new nucleus. -/
def nucleic (v : Str) : Bool := parses none' fresh v

theorem nucleic_sound {v : Str} (h : nucleic v = true) (q : Room) :
    Latex (.run q fresh) (tokens v) := by
  have := parses_sound h
  generalize tokens v = f at this
  generalize hp : Phrase.run none' fresh = p at this
  cases this with
  | nil => cases hp
  | atom h1 h2 => cases hp; exact .atom h1 h2
  | sup => cases hp
  | sub => cases hp
  | prime => cases hp
  | _ => cases hp

/-- A superscript. -/
def supic (v : Str) : Bool := parses fresh ⟨false, true⟩ v && parses ⟨true, false⟩ none' v

theorem supic_sound {v : Str} (h : supic v = true) (b : Bool) :
    Latex (.run ⟨true, b⟩ ⟨false, b⟩) (tokens v) := by
  rw [supic, Bool.and_eq_true] at h
  cases b
  · exact parses_sound h.2
  · exact parses_sound h.1

/-- A subscript. -/
def subic (v : Str) : Bool := parses fresh ⟨true, false⟩ v && parses ⟨false, true⟩ none' v

theorem subic_sound {v : Str} (h : subic v = true) (b : Bool) :
    Latex (.run ⟨b, true⟩ ⟨b, false⟩) (tokens v) := by
  rw [subic, Bool.and_eq_true] at h
  cases b
  · exact parses_sound h.2
  · exact parses_sound h.1

def blankic (v : Str) : Bool := tokens v = []

/-- Membership of a character. -/
def has (s : Str) (c : Char) : Bool := s.any fun d => d.toNat == c.toNat

theorem has_iff {s : Str} {c : Char} : has s c = true ↔ c ∈ s := by
  simp only [has, List.any_eq_true, beq_iff_eq]
  constructor
  · rintro ⟨d, hd, e⟩; exact Char.toNat_inj.1 e ▸ hd
  · exact fun h => ⟨c, h, rfl⟩

/-- The value does what the key promises. -/
def entryOk (S : Signs) (k v : Str) : Bool :=
  match k with
  | [] => blankic v
  | [c] =>
    if has S.rough c then true
    else if has S.sups c then supic v
    else if has S.subs c then subic v
    else if has S.blanks c then blankic v
    else if c = '\'' then false
    else if ordinary c || has S.escapes c then nucleic v
    else true
  | c :: k => if c = '\'' then false else if (c :: k).all ordinary then nucleic v else true

/-- The key has a value. -/
def listed (ts : List (Dict Str)) (k : Str) : Bool :=
  ts.any fun t => t.any fun p => p.1 == k && p.2 != []

/-- All entries that are ever used. -/
def tableOk (S : Signs) (earlier : List (Dict Str)) (t : Dict Str) : Bool :=
  t.all fun p => p.2 == [] || entryOk S p.1 p.2 || listed earlier p.1

/-- The characters with an effect of their own have a value. -/
def allListed (S : Signs) (ts : List (Dict Str)) : Bool :=
  (S.sups ++ S.subs ++ S.blanks ++ S.escapes).all fun c => listed ts [c]

/-- No character has two effects. -/
def disjoint (S : Signs) : Bool :=
  S.sups.all (fun c => !has S.rough c) && S.subs.all (fun c => !has (S.rough ++ S.sups) c) &&
  S.blanks.all (fun c => !has (S.rough ++ S.sups ++ S.subs) c) && !has (S.rough ++ S.sups ++ S.subs ++ S.blanks ++ S.escapes) '\''

set_option maxRecDepth 100000 in
theorem tableOk_mi1 : tableOk miSigns [] allMathSymbolsByChar = true := by decide +kernel
set_option maxRecDepth 100000 in
theorem tableOk_mi2 : tableOk miSigns [allMathSymbolsByChar] allMathSymbolsByGlyph = true := by
  decide +kernel
set_option maxRecDepth 100000 in
theorem tableOk_mi3 : tableOk miSigns [allMathSymbolsByChar, allMathSymbolsByGlyph]
    mathNumberByGlyph = true := by decide +kernel
set_option maxRecDepth 100000 in
theorem tableOk_mo1 : tableOk moSigns [] allMathOperatorsByChar = true := by decide +kernel
set_option maxRecDepth 100000 in
theorem tableOk_mo2 : tableOk moSigns [allMathOperatorsByChar] allMathOperatorsByGlyph = true := by
  decide +kernel
set_option maxRecDepth 100000 in
theorem tableOk_mo3 : tableOk moSigns [allMathOperatorsByChar, allMathOperatorsByGlyph]
    mathNumberByGlyph = true := by decide +kernel
set_option maxRecDepth 100000 in
theorem tableOk_mn : tableOk mnSigns [] mathNumberByGlyph = true := by decide +kernel

set_option maxRecDepth 100000 in
theorem allListed_mi : allListed miSigns [allMathSymbolsByChar, allMathSymbolsByGlyph,
    mathNumberByGlyph] = true := by decide +kernel
set_option maxRecDepth 100000 in
theorem allListed_mo : allListed moSigns [allMathOperatorsByChar, allMathOperatorsByGlyph,
    mathNumberByGlyph] = true := by decide +kernel
set_option maxRecDepth 100000 in
theorem allListed_mn : allListed mnSigns [mathNumberByGlyph] = true := by decide +kernel

theorem disjoint_signs : (disjoint miSigns && disjoint moSigns && disjoint mnSigns) = true := by
  decide +kernel

/-- The glyphs that are taken apart. -/
def nucleicVowels : Bool :=
  vowelsWithAccents.all fun p => p.1 != [] && p.1.head? != some '\'' && accentToLtxCmd.all fun q =>
    nucleic (c!"\\" ++ q.2 ++ c!"{" ++ p.2.1 ++ c!"}")
def nucleicFonts : Bool :=
  specialFontChars.all fun p => p.1 != [] && p.1.head? != some '\'' &&
    nucleic (c!"\\" ++ p.2.2 ++ c!"{" ++ p.2.1 ++ c!"}")

set_option maxRecDepth 100000 in
theorem nucleic_vowels : nucleicVowels = true := by decide +kernel
set_option maxRecDepth 100000 in
theorem nucleic_fonts : nucleicFonts = true := by decide +kernel

end Verif
