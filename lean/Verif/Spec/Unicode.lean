import Verif.Py

/-!
# Facts about Unicode characters

Generated by tools/gen_unicode.py from the Unicode character database, not from the code base.
-/

namespace Verif.Spec

/-- Combining marks with a LaTeX math accent. -/
def markCommands : List (Char × Str) :=
  [('\u0301', c!"acute"), ('\u0300', c!"grave"), ('\u0302', c!"hat"), ('\u0303', c!"tilde"),
   ('\u0308', c!"ddot"), ('\u030a', c!"mathring"), ('\u0306', c!"breve"), ('\u030c', c!"check"),
   ('\u0307', c!"dot"), ('\u0304', c!"bar"), ('\u030b', c!"ddot")]

set_option maxRecDepth 100000 in
/-- All characters whose canonical decomposition is an ASCII letter and one of these marks. -/
def composed : List (Char × Char × Char) :=
  [('À', 'A', '\u0300'), ('Á', 'A', '\u0301'), ('Â', 'A', '\u0302'), ('Ã', 'A', '\u0303'), ('Ä', 'A', '\u0308'),
   ('Å', 'A', '\u030a'), ('È', 'E', '\u0300'), ('É', 'E', '\u0301'), ('Ê', 'E', '\u0302'), ('Ë', 'E', '\u0308'),
   ('Ì', 'I', '\u0300'), ('Í', 'I', '\u0301'), ('Î', 'I', '\u0302'), ('Ï', 'I', '\u0308'), ('Ñ', 'N', '\u0303'),
   ('Ò', 'O', '\u0300'), ('Ó', 'O', '\u0301'), ('Ô', 'O', '\u0302'), ('Õ', 'O', '\u0303'), ('Ö', 'O', '\u0308'),
   ('Ù', 'U', '\u0300'), ('Ú', 'U', '\u0301'), ('Û', 'U', '\u0302'), ('Ü', 'U', '\u0308'), ('Ý', 'Y', '\u0301'),
   ('à', 'a', '\u0300'), ('á', 'a', '\u0301'), ('â', 'a', '\u0302'), ('ã', 'a', '\u0303'), ('ä', 'a', '\u0308'),
   ('å', 'a', '\u030a'), ('è', 'e', '\u0300'), ('é', 'e', '\u0301'), ('ê', 'e', '\u0302'), ('ë', 'e', '\u0308'),
   ('ì', 'i', '\u0300'), ('í', 'i', '\u0301'), ('î', 'i', '\u0302'), ('ï', 'i', '\u0308'), ('ñ', 'n', '\u0303'),
   ('ò', 'o', '\u0300'), ('ó', 'o', '\u0301'), ('ô', 'o', '\u0302'), ('õ', 'o', '\u0303'), ('ö', 'o', '\u0308'),
   ('ù', 'u', '\u0300'), ('ú', 'u', '\u0301'), ('û', 'u', '\u0302'), ('ü', 'u', '\u0308'), ('ý', 'y', '\u0301'),
   ('ÿ', 'y', '\u0308'), ('Ā', 'A', '\u0304'), ('ā', 'a', '\u0304'), ('Ă', 'A', '\u0306'), ('ă', 'a', '\u0306'),
   ('Ć', 'C', '\u0301'), ('ć', 'c', '\u0301'), ('Ĉ', 'C', '\u0302'), ('ĉ', 'c', '\u0302'), ('Ċ', 'C', '\u0307'),
   ('ċ', 'c', '\u0307'), ('Č', 'C', '\u030c'), ('č', 'c', '\u030c'), ('Ď', 'D', '\u030c'), ('ď', 'd', '\u030c'),
   ('Ē', 'E', '\u0304'), ('ē', 'e', '\u0304'), ('Ĕ', 'E', '\u0306'), ('ĕ', 'e', '\u0306'), ('Ė', 'E', '\u0307'),
   ('ė', 'e', '\u0307'), ('Ě', 'E', '\u030c'), ('ě', 'e', '\u030c'), ('Ĝ', 'G', '\u0302'), ('ĝ', 'g', '\u0302'),
   ('Ğ', 'G', '\u0306'), ('ğ', 'g', '\u0306'), ('Ġ', 'G', '\u0307'), ('ġ', 'g', '\u0307'), ('Ĥ', 'H', '\u0302'),
   ('ĥ', 'h', '\u0302'), ('Ĩ', 'I', '\u0303'), ('ĩ', 'i', '\u0303'), ('Ī', 'I', '\u0304'), ('ī', 'i', '\u0304'),
   ('Ĭ', 'I', '\u0306'), ('ĭ', 'i', '\u0306'), ('İ', 'I', '\u0307'), ('Ĵ', 'J', '\u0302'), ('ĵ', 'j', '\u0302'),
   ('Ĺ', 'L', '\u0301'), ('ĺ', 'l', '\u0301'), ('Ľ', 'L', '\u030c'), ('ľ', 'l', '\u030c'), ('Ń', 'N', '\u0301'),
   ('ń', 'n', '\u0301'), ('Ň', 'N', '\u030c'), ('ň', 'n', '\u030c'), ('Ō', 'O', '\u0304'), ('ō', 'o', '\u0304'),
   ('Ŏ', 'O', '\u0306'), ('ŏ', 'o', '\u0306'), ('Ő', 'O', '\u030b'), ('ő', 'o', '\u030b'), ('Ŕ', 'R', '\u0301'),
   ('ŕ', 'r', '\u0301'), ('Ř', 'R', '\u030c'), ('ř', 'r', '\u030c'), ('Ś', 'S', '\u0301'), ('ś', 's', '\u0301'),
   ('Ŝ', 'S', '\u0302'), ('ŝ', 's', '\u0302'), ('Š', 'S', '\u030c'), ('š', 's', '\u030c'), ('Ť', 'T', '\u030c'),
   ('ť', 't', '\u030c'), ('Ũ', 'U', '\u0303'), ('ũ', 'u', '\u0303'), ('Ū', 'U', '\u0304'), ('ū', 'u', '\u0304'),
   ('Ŭ', 'U', '\u0306'), ('ŭ', 'u', '\u0306'), ('Ů', 'U', '\u030a'), ('ů', 'u', '\u030a'), ('Ű', 'U', '\u030b'),
   ('ű', 'u', '\u030b'), ('Ŵ', 'W', '\u0302'), ('ŵ', 'w', '\u0302'), ('Ŷ', 'Y', '\u0302'), ('ŷ', 'y', '\u0302'),
   ('Ÿ', 'Y', '\u0308'), ('Ź', 'Z', '\u0301'), ('ź', 'z', '\u0301'), ('Ż', 'Z', '\u0307'), ('ż', 'z', '\u0307'),
   ('Ž', 'Z', '\u030c'), ('ž', 'z', '\u030c'), ('Ǎ', 'A', '\u030c'), ('ǎ', 'a', '\u030c'), ('Ǐ', 'I', '\u030c'),
   ('ǐ', 'i', '\u030c'), ('Ǒ', 'O', '\u030c'), ('ǒ', 'o', '\u030c'), ('Ǔ', 'U', '\u030c'), ('ǔ', 'u', '\u030c'),
   ('Ǧ', 'G', '\u030c'), ('ǧ', 'g', '\u030c'), ('Ǩ', 'K', '\u030c'), ('ǩ', 'k', '\u030c'), ('ǰ', 'j', '\u030c'),
   ('Ǵ', 'G', '\u0301'), ('ǵ', 'g', '\u0301'), ('Ǹ', 'N', '\u0300'), ('ǹ', 'n', '\u0300'), ('Ȟ', 'H', '\u030c'),
   ('ȟ', 'h', '\u030c'), ('Ȧ', 'A', '\u0307'), ('ȧ', 'a', '\u0307'), ('Ȯ', 'O', '\u0307'), ('ȯ', 'o', '\u0307'),
   ('Ȳ', 'Y', '\u0304'), ('ȳ', 'y', '\u0304'), ('Ḃ', 'B', '\u0307'), ('ḃ', 'b', '\u0307'), ('Ḋ', 'D', '\u0307'),
   ('ḋ', 'd', '\u0307'), ('Ḟ', 'F', '\u0307'), ('ḟ', 'f', '\u0307'), ('Ḡ', 'G', '\u0304'), ('ḡ', 'g', '\u0304'),
   ('Ḣ', 'H', '\u0307'), ('ḣ', 'h', '\u0307'), ('Ḧ', 'H', '\u0308'), ('ḧ', 'h', '\u0308'), ('Ḱ', 'K', '\u0301'),
   ('ḱ', 'k', '\u0301'), ('Ḿ', 'M', '\u0301'), ('ḿ', 'm', '\u0301'), ('Ṁ', 'M', '\u0307'), ('ṁ', 'm', '\u0307'),
   ('Ṅ', 'N', '\u0307'), ('ṅ', 'n', '\u0307'), ('Ṕ', 'P', '\u0301'), ('ṕ', 'p', '\u0301'), ('Ṗ', 'P', '\u0307'),
   ('ṗ', 'p', '\u0307'), ('Ṙ', 'R', '\u0307'), ('ṙ', 'r', '\u0307'), ('Ṡ', 'S', '\u0307'), ('ṡ', 's', '\u0307'),
   ('Ṫ', 'T', '\u0307'), ('ṫ', 't', '\u0307'), ('Ṽ', 'V', '\u0303'), ('ṽ', 'v', '\u0303'), ('Ẁ', 'W', '\u0300'),
   ('ẁ', 'w', '\u0300'), ('Ẃ', 'W', '\u0301'), ('ẃ', 'w', '\u0301'), ('Ẅ', 'W', '\u0308'), ('ẅ', 'w', '\u0308'),
   ('Ẇ', 'W', '\u0307'), ('ẇ', 'w', '\u0307'), ('Ẋ', 'X', '\u0307'), ('ẋ', 'x', '\u0307'), ('Ẍ', 'X', '\u0308'),
   ('ẍ', 'x', '\u0308'), ('Ẏ', 'Y', '\u0307'), ('ẏ', 'y', '\u0307'), ('Ẑ', 'Z', '\u0302'), ('ẑ', 'z', '\u0302'),
   ('ẗ', 't', '\u0308'), ('ẘ', 'w', '\u030a'), ('ẙ', 'y', '\u030a'), ('Ẽ', 'E', '\u0303'), ('ẽ', 'e', '\u0303'),
   ('Ỳ', 'Y', '\u0300'), ('ỳ', 'y', '\u0300'), ('Ỹ', 'Y', '\u0303'), ('ỹ', 'y', '\u0303'), ('Å', 'A', '\u030a')]

set_option maxRecDepth 100000 in
/-- All characters whose canonical decomposition is an ASCII letter and marks of any kind, with
the letter. -/
def latinBase : List (Char × Char) :=
  [('À', 'A'), ('Á', 'A'), ('Â', 'A'), ('Ã', 'A'), ('Ä', 'A'), ('Å', 'A'), ('Ç', 'C'), ('È', 'E'), ('É', 'E'),
   ('Ê', 'E'), ('Ë', 'E'), ('Ì', 'I'), ('Í', 'I'), ('Î', 'I'), ('Ï', 'I'), ('Ñ', 'N'), ('Ò', 'O'), ('Ó', 'O'),
   ('Ô', 'O'), ('Õ', 'O'), ('Ö', 'O'), ('Ù', 'U'), ('Ú', 'U'), ('Û', 'U'), ('Ü', 'U'), ('Ý', 'Y'), ('à', 'a'),
   ('á', 'a'), ('â', 'a'), ('ã', 'a'), ('ä', 'a'), ('å', 'a'), ('ç', 'c'), ('è', 'e'), ('é', 'e'), ('ê', 'e'),
   ('ë', 'e'), ('ì', 'i'), ('í', 'i'), ('î', 'i'), ('ï', 'i'), ('ñ', 'n'), ('ò', 'o'), ('ó', 'o'), ('ô', 'o'),
   ('õ', 'o'), ('ö', 'o'), ('ù', 'u'), ('ú', 'u'), ('û', 'u'), ('ü', 'u'), ('ý', 'y'), ('ÿ', 'y'), ('Ā', 'A'),
   ('ā', 'a'), ('Ă', 'A'), ('ă', 'a'), ('Ą', 'A'), ('ą', 'a'), ('Ć', 'C'), ('ć', 'c'), ('Ĉ', 'C'), ('ĉ', 'c'),
   ('Ċ', 'C'), ('ċ', 'c'), ('Č', 'C'), ('č', 'c'), ('Ď', 'D'), ('ď', 'd'), ('Ē', 'E'), ('ē', 'e'), ('Ĕ', 'E'),
   ('ĕ', 'e'), ('Ė', 'E'), ('ė', 'e'), ('Ę', 'E'), ('ę', 'e'), ('Ě', 'E'), ('ě', 'e'), ('Ĝ', 'G'), ('ĝ', 'g'),
   ('Ğ', 'G'), ('ğ', 'g'), ('Ġ', 'G'), ('ġ', 'g'), ('Ģ', 'G'), ('ģ', 'g'), ('Ĥ', 'H'), ('ĥ', 'h'), ('Ĩ', 'I'),
   ('ĩ', 'i'), ('Ī', 'I'), ('ī', 'i'), ('Ĭ', 'I'), ('ĭ', 'i'), ('Į', 'I'), ('į', 'i'), ('İ', 'I'), ('Ĵ', 'J'),
   ('ĵ', 'j'), ('Ķ', 'K'), ('ķ', 'k'), ('Ĺ', 'L'), ('ĺ', 'l'), ('Ļ', 'L'), ('ļ', 'l'), ('Ľ', 'L'), ('ľ', 'l'),
   ('Ń', 'N'), ('ń', 'n'), ('Ņ', 'N'), ('ņ', 'n'), ('Ň', 'N'), ('ň', 'n'), ('Ō', 'O'), ('ō', 'o'), ('Ŏ', 'O'),
   ('ŏ', 'o'), ('Ő', 'O'), ('ő', 'o'), ('Ŕ', 'R'), ('ŕ', 'r'), ('Ŗ', 'R'), ('ŗ', 'r'), ('Ř', 'R'), ('ř', 'r'),
   ('Ś', 'S'), ('ś', 's'), ('Ŝ', 'S'), ('ŝ', 's'), ('Ş', 'S'), ('ş', 's'), ('Š', 'S'), ('š', 's'), ('Ţ', 'T'),
   ('ţ', 't'), ('Ť', 'T'), ('ť', 't'), ('Ũ', 'U'), ('ũ', 'u'), ('Ū', 'U'), ('ū', 'u'), ('Ŭ', 'U'), ('ŭ', 'u'),
   ('Ů', 'U'), ('ů', 'u'), ('Ű', 'U'), ('ű', 'u'), ('Ų', 'U'), ('ų', 'u'), ('Ŵ', 'W'), ('ŵ', 'w'), ('Ŷ', 'Y'),
   ('ŷ', 'y'), ('Ÿ', 'Y'), ('Ź', 'Z'), ('ź', 'z'), ('Ż', 'Z'), ('ż', 'z'), ('Ž', 'Z'), ('ž', 'z'), ('Ơ', 'O'),
   ('ơ', 'o'), ('Ư', 'U'), ('ư', 'u'), ('Ǎ', 'A'), ('ǎ', 'a'), ('Ǐ', 'I'), ('ǐ', 'i'), ('Ǒ', 'O'), ('ǒ', 'o'),
   ('Ǔ', 'U'), ('ǔ', 'u'), ('Ǖ', 'U'), ('ǖ', 'u'), ('Ǘ', 'U'), ('ǘ', 'u'), ('Ǚ', 'U'), ('ǚ', 'u'), ('Ǜ', 'U'),
   ('ǜ', 'u'), ('Ǟ', 'A'), ('ǟ', 'a'), ('Ǡ', 'A'), ('ǡ', 'a'), ('Ǧ', 'G'), ('ǧ', 'g'), ('Ǩ', 'K'), ('ǩ', 'k'),
   ('Ǫ', 'O'), ('ǫ', 'o'), ('Ǭ', 'O'), ('ǭ', 'o'), ('ǰ', 'j'), ('Ǵ', 'G'), ('ǵ', 'g'), ('Ǹ', 'N'), ('ǹ', 'n'),
   ('Ǻ', 'A'), ('ǻ', 'a'), ('Ȁ', 'A'), ('ȁ', 'a'), ('Ȃ', 'A'), ('ȃ', 'a'), ('Ȅ', 'E'), ('ȅ', 'e'), ('Ȇ', 'E'),
   ('ȇ', 'e'), ('Ȉ', 'I'), ('ȉ', 'i'), ('Ȋ', 'I'), ('ȋ', 'i'), ('Ȍ', 'O'), ('ȍ', 'o'), ('Ȏ', 'O'), ('ȏ', 'o'),
   ('Ȑ', 'R'), ('ȑ', 'r'), ('Ȓ', 'R'), ('ȓ', 'r'), ('Ȕ', 'U'), ('ȕ', 'u'), ('Ȗ', 'U'), ('ȗ', 'u'), ('Ș', 'S'),
   ('ș', 's'), ('Ț', 'T'), ('ț', 't'), ('Ȟ', 'H'), ('ȟ', 'h'), ('Ȧ', 'A'), ('ȧ', 'a'), ('Ȩ', 'E'), ('ȩ', 'e'),
   ('Ȫ', 'O'), ('ȫ', 'o'), ('Ȭ', 'O'), ('ȭ', 'o'), ('Ȯ', 'O'), ('ȯ', 'o'), ('Ȱ', 'O'), ('ȱ', 'o'), ('Ȳ', 'Y'),
   ('ȳ', 'y'), ('Ḁ', 'A'), ('ḁ', 'a'), ('Ḃ', 'B'), ('ḃ', 'b'), ('Ḅ', 'B'), ('ḅ', 'b'), ('Ḇ', 'B'), ('ḇ', 'b'),
   ('Ḉ', 'C'), ('ḉ', 'c'), ('Ḋ', 'D'), ('ḋ', 'd'), ('Ḍ', 'D'), ('ḍ', 'd'), ('Ḏ', 'D'), ('ḏ', 'd'), ('Ḑ', 'D'),
   ('ḑ', 'd'), ('Ḓ', 'D'), ('ḓ', 'd'), ('Ḕ', 'E'), ('ḕ', 'e'), ('Ḗ', 'E'), ('ḗ', 'e'), ('Ḙ', 'E'), ('ḙ', 'e'),
   ('Ḛ', 'E'), ('ḛ', 'e'), ('Ḝ', 'E'), ('ḝ', 'e'), ('Ḟ', 'F'), ('ḟ', 'f'), ('Ḡ', 'G'), ('ḡ', 'g'), ('Ḣ', 'H'),
   ('ḣ', 'h'), ('Ḥ', 'H'), ('ḥ', 'h'), ('Ḧ', 'H'), ('ḧ', 'h'), ('Ḩ', 'H'), ('ḩ', 'h'), ('Ḫ', 'H'), ('ḫ', 'h'),
   ('Ḭ', 'I'), ('ḭ', 'i'), ('Ḯ', 'I'), ('ḯ', 'i'), ('Ḱ', 'K'), ('ḱ', 'k'), ('Ḳ', 'K'), ('ḳ', 'k'), ('Ḵ', 'K'),
   ('ḵ', 'k'), ('Ḷ', 'L'), ('ḷ', 'l'), ('Ḹ', 'L'), ('ḹ', 'l'), ('Ḻ', 'L'), ('ḻ', 'l'), ('Ḽ', 'L'), ('ḽ', 'l'),
   ('Ḿ', 'M'), ('ḿ', 'm'), ('Ṁ', 'M'), ('ṁ', 'm'), ('Ṃ', 'M'), ('ṃ', 'm'), ('Ṅ', 'N'), ('ṅ', 'n'), ('Ṇ', 'N'),
   ('ṇ', 'n'), ('Ṉ', 'N'), ('ṉ', 'n'), ('Ṋ', 'N'), ('ṋ', 'n'), ('Ṍ', 'O'), ('ṍ', 'o'), ('Ṏ', 'O'), ('ṏ', 'o'),
   ('Ṑ', 'O'), ('ṑ', 'o'), ('Ṓ', 'O'), ('ṓ', 'o'), ('Ṕ', 'P'), ('ṕ', 'p'), ('Ṗ', 'P'), ('ṗ', 'p'), ('Ṙ', 'R'),
   ('ṙ', 'r'), ('Ṛ', 'R'), ('ṛ', 'r'), ('Ṝ', 'R'), ('ṝ', 'r'), ('Ṟ', 'R'), ('ṟ', 'r'), ('Ṡ', 'S'), ('ṡ', 's'),
   ('Ṣ', 'S'), ('ṣ', 's'), ('Ṥ', 'S'), ('ṥ', 's'), ('Ṧ', 'S'), ('ṧ', 's'), ('Ṩ', 'S'), ('ṩ', 's'), ('Ṫ', 'T'),
   ('ṫ', 't'), ('Ṭ', 'T'), ('ṭ', 't'), ('Ṯ', 'T'), ('ṯ', 't'), ('Ṱ', 'T'), ('ṱ', 't'), ('Ṳ', 'U'), ('ṳ', 'u'),
   ('Ṵ', 'U'), ('ṵ', 'u'), ('Ṷ', 'U'), ('ṷ', 'u'), ('Ṹ', 'U'), ('ṹ', 'u'), ('Ṻ', 'U'), ('ṻ', 'u'), ('Ṽ', 'V'),
   ('ṽ', 'v'), ('Ṿ', 'V'), ('ṿ', 'v'), ('Ẁ', 'W'), ('ẁ', 'w'), ('Ẃ', 'W'), ('ẃ', 'w'), ('Ẅ', 'W'), ('ẅ', 'w'),
   ('Ẇ', 'W'), ('ẇ', 'w'), ('Ẉ', 'W'), ('ẉ', 'w'), ('Ẋ', 'X'), ('ẋ', 'x'), ('Ẍ', 'X'), ('ẍ', 'x'), ('Ẏ', 'Y'),
   ('ẏ', 'y'), ('Ẑ', 'Z'), ('ẑ', 'z'), ('Ẓ', 'Z'), ('ẓ', 'z'), ('Ẕ', 'Z'), ('ẕ', 'z'), ('ẖ', 'h'), ('ẗ', 't'),
   ('ẘ', 'w'), ('ẙ', 'y'), ('Ạ', 'A'), ('ạ', 'a'), ('Ả', 'A'), ('ả', 'a'), ('Ấ', 'A'), ('ấ', 'a'), ('Ầ', 'A'),
   ('ầ', 'a'), ('Ẩ', 'A'), ('ẩ', 'a'), ('Ẫ', 'A'), ('ẫ', 'a'), ('Ậ', 'A'), ('ậ', 'a'), ('Ắ', 'A'), ('ắ', 'a'),
   ('Ằ', 'A'), ('ằ', 'a'), ('Ẳ', 'A'), ('ẳ', 'a'), ('Ẵ', 'A'), ('ẵ', 'a'), ('Ặ', 'A'), ('ặ', 'a'), ('Ẹ', 'E'),
   ('ẹ', 'e'), ('Ẻ', 'E'), ('ẻ', 'e'), ('Ẽ', 'E'), ('ẽ', 'e'), ('Ế', 'E'), ('ế', 'e'), ('Ề', 'E'), ('ề', 'e'),
   ('Ể', 'E'), ('ể', 'e'), ('Ễ', 'E'), ('ễ', 'e'), ('Ệ', 'E'), ('ệ', 'e'), ('Ỉ', 'I'), ('ỉ', 'i'), ('Ị', 'I'),
   ('ị', 'i'), ('Ọ', 'O'), ('ọ', 'o'), ('Ỏ', 'O'), ('ỏ', 'o'), ('Ố', 'O'), ('ố', 'o'), ('Ồ', 'O'), ('ồ', 'o'),
   ('Ổ', 'O'), ('ổ', 'o'), ('Ỗ', 'O'), ('ỗ', 'o'), ('Ộ', 'O'), ('ộ', 'o'), ('Ớ', 'O'), ('ớ', 'o'), ('Ờ', 'O'),
   ('ờ', 'o'), ('Ở', 'O'), ('ở', 'o'), ('Ỡ', 'O'), ('ỡ', 'o'), ('Ợ', 'O'), ('ợ', 'o'), ('Ụ', 'U'), ('ụ', 'u'),
   ('Ủ', 'U'), ('ủ', 'u'), ('Ứ', 'U'), ('ứ', 'u'), ('Ừ', 'U'), ('ừ', 'u'), ('Ử', 'U'), ('ử', 'u'), ('Ữ', 'U'),
   ('ữ', 'u'), ('Ự', 'U'), ('ự', 'u'), ('Ỳ', 'Y'), ('ỳ', 'y'), ('Ỵ', 'Y'), ('ỵ', 'y'), ('Ỷ', 'Y'), ('ỷ', 'y'),
   ('Ỹ', 'Y'), ('ỹ', 'y'), ('Å', 'A')]

/-- Capitals in a special font that are not in the block of mathematical alphanumeric symbols. -/
def letterlike : List (Char × Char × Str) :=
  [('ℂ', 'C', c!"mathbb"), ('ℋ', 'H', c!"mathcal"), ('ℌ', 'H', c!"mathfrak"), ('ℍ', 'H', c!"mathbb"),
   ('ℐ', 'I', c!"mathcal"), ('ℑ', 'I', c!"mathfrak"), ('ℒ', 'L', c!"mathcal"), ('ℕ', 'N', c!"mathbb"),
   ('ℙ', 'P', c!"mathbb"), ('ℚ', 'Q', c!"mathbb"), ('ℛ', 'R', c!"mathcal"), ('ℜ', 'R', c!"mathfrak"),
   ('ℝ', 'R', c!"mathbb"), ('ℤ', 'Z', c!"mathbb"), ('ℨ', 'Z', c!"mathfrak"), ('ℬ', 'B', c!"mathcal"),
   ('ℭ', 'C', c!"mathfrak"), ('ℰ', 'E', c!"mathcal"), ('ℱ', 'F', c!"mathcal"), ('ℳ', 'M', c!"mathcal")]

/-- Fractions: numerator and denominator. -/
def vulgarFractions : List (Char × Str × Str) :=
  [('¼', c!"1", c!"4"), ('½', c!"1", c!"2"), ('¾', c!"3", c!"4"), ('⅐', c!"1", c!"7"),
   ('⅑', c!"1", c!"9"), ('⅒', c!"1", c!"10"), ('⅓', c!"1", c!"3"), ('⅔', c!"2", c!"3"),
   ('⅕', c!"1", c!"5"), ('⅖', c!"2", c!"5"), ('⅗', c!"3", c!"5"), ('⅘', c!"4", c!"5"),
   ('⅙', c!"1", c!"6"), ('⅚', c!"5", c!"6"), ('⅛', c!"1", c!"8"), ('⅜', c!"3", c!"8"),
   ('⅝', c!"5", c!"8"), ('⅞', c!"7", c!"8"), ('↉', c!"0", c!"3")]

/-- Superscript (true) and subscript (false) digits. -/
def scriptDigits : List (Char × Bool × Char) :=
  [('²', true, '2'), ('³', true, '3'), ('¹', true, '1'), ('⁰', true, '0'), ('⁴', true, '4'),
   ('⁵', true, '5'), ('⁶', true, '6'), ('⁷', true, '7'), ('⁸', true, '8'), ('⁹', true, '9'),
   ('₀', false, '0'), ('₁', false, '1'), ('₂', false, '2'), ('₃', false, '3'), ('₄', false, '4'),
   ('₅', false, '5'), ('₆', false, '6'), ('₇', false, '7'), ('₈', false, '8'), ('₉', false, '9')]

/-- Circled numbers. -/
def circledNumbers : List (Char × Str) :=
  [('①', c!"1"), ('②', c!"2"), ('③', c!"3"), ('④', c!"4"), ('⑤', c!"5"), ('⑥', c!"6"), ('⑦', c!"7"),
   ('⑧', c!"8"), ('⑨', c!"9"), ('⑩', c!"10"), ('⑪', c!"11"), ('⑫', c!"12"), ('⑬', c!"13"), ('⑭', c!"14"),
   ('⑮', c!"15"), ('⑯', c!"16"), ('⑰', c!"17"), ('⑱', c!"18"), ('⑲', c!"19"), ('⑳', c!"20"), ('⓪', c!"0"),
   ('㉑', c!"21"), ('㉒', c!"22"), ('㉓', c!"23"), ('㉔', c!"24"), ('㉕', c!"25"), ('㉖', c!"26"), ('㉗', c!"27"),
   ('㉘', c!"28"), ('㉙', c!"29"), ('㉚', c!"30"), ('㉛', c!"31"), ('㉜', c!"32"), ('㉝', c!"33"), ('㉞', c!"34"),
   ('㉟', c!"35"), ('㊱', c!"36"), ('㊲', c!"37"), ('㊳', c!"38"), ('㊴', c!"39"), ('㊵', c!"40"), ('㊶', c!"41"),
   ('㊷', c!"42"), ('㊸', c!"43"), ('㊹', c!"44"), ('㊺', c!"45"), ('㊻', c!"46"), ('㊼', c!"47"), ('㊽', c!"48"),
   ('㊾', c!"49"), ('㊿', c!"50")]

/-- Greek letters with their names. -/
def greekNames : List (Char × Str) :=
  [('Α', c!"Alpha"), ('Β', c!"Beta"), ('Γ', c!"Gamma"), ('Δ', c!"Delta"), ('Ε', c!"Epsilon"), ('Ζ', c!"Zeta"),
   ('Η', c!"Eta"), ('Θ', c!"Theta"), ('Ι', c!"Iota"), ('Κ', c!"Kappa"), ('Λ', c!"Lambda"), ('Μ', c!"Mu"),
   ('Ν', c!"Nu"), ('Ξ', c!"Xi"), ('Ο', c!"Omicron"), ('Π', c!"Pi"), ('Ρ', c!"Rho"), ('Σ', c!"Sigma"),
   ('Τ', c!"Tau"), ('Υ', c!"Upsilon"), ('Φ', c!"Phi"), ('Χ', c!"Chi"), ('Ψ', c!"Psi"), ('Ω', c!"Omega"),
   ('α', c!"alpha"), ('β', c!"beta"), ('γ', c!"gamma"), ('δ', c!"delta"), ('ε', c!"epsilon"), ('ζ', c!"zeta"),
   ('η', c!"eta"), ('θ', c!"theta"), ('ι', c!"iota"), ('κ', c!"kappa"), ('λ', c!"lambda"), ('μ', c!"mu"),
   ('ν', c!"nu"), ('ξ', c!"xi"), ('ο', c!"omicron"), ('π', c!"pi"), ('ρ', c!"rho"), ('σ', c!"sigma"),
   ('τ', c!"tau"), ('υ', c!"upsilon"), ('φ', c!"phi"), ('χ', c!"chi"), ('ψ', c!"psi"), ('ω', c!"omega")]

end Verif.Spec
