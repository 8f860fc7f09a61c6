import Verif.Tables

/-! # syntax.py, `HashUTF8ToLtXConverter` -/

namespace Verif

/-- ASCII letters and digits. -/
def isAsciiAlnum (c : Char) : Bool :=
  let n := c.toNat
  (0x30 ≤ n && n ≤ 0x39) || (0x41 ≤ n && n ≤ 0x5A) || (0x61 ≤ n && n ≤ 0x7A)

/-- syntax.py 26: the class `[a-z0-9]` with `re.IGNORECASE` on `str` patterns.  Besides
the ASCII letters and digits it matches İ, ı, ſ and the Kelvin sign, whose case
variants are ASCII letters. -/
def alnumIgnoreCase (c : Char) : Bool :=
  isAsciiAlnum c || c.toNat == 0x130 || c.toNat == 0x131 || c.toNat == 0x17F || c.toNat == 0x212A

/-- syntax.py 43–47 `convert_accent_char_to_ltx`. -/
def convertAccentCharToLtx (charAccent : Str × Str) : Option Str :=
  match Dict.get? accentToLtxCmd charAccent.2 with
  | none => none
  | some cmd => if cmd = [] then none else some (c!"\\" ++ cmd ++ c!"{" ++ charAccent.1 ++ c!"}")

/-- syntax.py 49–53 `convert_special_char_to_ltx`. -/
def convertSpecialCharToLtx (char : Str) : Option Str :=
  match Dict.get? specialFontChars char with
  | none => none
  | some (letter, fontCmd) => some (c!"\\" ++ fontCmd ++ c!"{" ++ letter ++ c!"}")

/-- syntax.py 25–41 `HashUTF8ToLtXConverter.convert`. (Dataclass instances are truthy,
and a command string built in lines 47/53 is never empty, so the `if` tests on them
are presence tests; `re.match` looks at the first character only.) -/
def hashConvert (char : Str) : Str :=
  if (match char with | [] => false | c :: _ => alnumIgnoreCase c) then char
  else
    match Dict.get? vowelsWithAccents char with
    | some accentChar =>
      match convertAccentCharToLtx accentChar with
      | some ltx => ltx
      | none => char
    | none =>
      match convertSpecialCharToLtx char with
      | some ltx => ltx
      | none => char

end Verif
