import Verif.Py

/-!
Generated by tools/gen_tables.py from /repo/src/mathml_to_latex/syntax.py.
One entry per Python dictionary entry, in source order.
-/

namespace Verif

set_option maxRecDepth 100000 in
/-- syntax.py 56–194, `vowels_with_accents` (value: pair of constructor arguments). -/
def vowelsWithAccents : List (Str × (Str × Str)) := [
  (c!"á", (c!"a", c!"´")),
  (c!"à", (c!"a", c!"`")),
  (c!"â", (c!"a", c!"^")),
  (c!"ã", (c!"a", c!"~")),
  (c!"ä", (c!"a", c!"¨")),
  (c!"å", (c!"a", c!"˚")),
  (c!"ą", (c!"a", c!"˙")),
  (c!"ă", (c!"a", c!"˘")),
  (c!"ǎ", (c!"a", c!"ˇ")),
  (c!"ǟ", (c!"a", c!"ˆ")),
  (c!"ǻ", (c!"a", c!"˙")),
  (c!"ǡ", (c!"a", c!"-")),
  (c!"ā", (c!"a", c!"-")),
  (c!"é", (c!"e", c!"´")),
  (c!"è", (c!"e", c!"`")),
  (c!"ê", (c!"e", c!"^")),
  (c!"ë", (c!"e", c!"¨")),
  (c!"ę", (c!"e", c!"˙")),
  (c!"ě", (c!"e", c!"ˇ")),
  (c!"ȇ", (c!"i", c!"^")),
  (c!"ё", (c!"e", c!"¨")),
  (c!"ē", (c!"e", c!"-")),
  (c!"í", (c!"i", c!"´")),
  (c!"ì", (c!"i", c!"`")),
  (c!"î", (c!"i", c!"^")),
  (c!"ï", (c!"i", c!"¨")),
  (c!"į", (c!"i", c!"˙")),
  (c!"ǐ", (c!"i", c!"ˇ")),
  (c!"ȉ", (c!"i", c!"`")),
  (c!"ȋ", (c!"i", c!"¨")),
  (c!"ī", (c!"i", c!"-")),
  (c!"ó", (c!"o", c!"´")),
  (c!"ò", (c!"o", c!"`")),
  (c!"ô", (c!"o", c!"^")),
  (c!"õ", (c!"o", c!"~")),
  (c!"ö", (c!"o", c!"¨")),
  (c!"ő", (c!"o", c!"˝")),
  (c!"ǒ", (c!"o", c!"ˇ")),
  (c!"ȍ", (c!"o", c!"`")),
  (c!"ȏ", (c!"o", c!"¨")),
  (c!"ȫ", (c!"o", c!"˘")),
  (c!"ȭ", (c!"o", c!"˝")),
  (c!"ȯ", (c!"o", c!"˙")),
  (c!"ō", (c!"o", c!"-")),
  (c!"ú", (c!"u", c!"´")),
  (c!"ù", (c!"u", c!"`")),
  (c!"û", (c!"u", c!"^")),
  (c!"ü", (c!"u", c!"¨")),
  (c!"ű", (c!"u", c!"˝")),
  (c!"ǔ", (c!"u", c!"ˇ")),
  (c!"ǖ", (c!"u", c!"¨")),
  (c!"ǘ", (c!"u", c!"¨")),
  (c!"ǚ", (c!"u", c!"¨")),
  (c!"ǜ", (c!"u", c!"¨")),
  (c!"ȕ", (c!"u", c!"`")),
  (c!"ȗ", (c!"u", c!"¨")),
  (c!"ū", (c!"u", c!"-")),
  (c!"ý", (c!"y", c!"´")),
  (c!"ỳ", (c!"y", c!"`")),
  (c!"ŷ", (c!"y", c!"^")),
  (c!"ÿ", (c!"y", c!"¨")),
  (c!"ȳ", (c!"y", c!"-")),
  (c!"Á", (c!"A", c!"´")),
  (c!"À", (c!"A", c!"`")),
  (c!"Â", (c!"A", c!"^")),
  (c!"Ã", (c!"A", c!"~")),
  (c!"Ä", (c!"A", c!"¨")),
  (c!"Å", (c!"A", c!"˚")),
  (c!"Å", (c!"A", c!"˚")),
  (c!"Ȧ", (c!"A", c!"˙")),
  (c!"Ă", (c!"A", c!"˘")),
  (c!"Ǎ", (c!"A", c!"ˇ")),
  (c!"Ǟ", (c!"A", c!"˝")),
  (c!"Ǻ", (c!"A", c!"˚")),
  (c!"Ǡ", (c!"A", c!"-")),
  (c!"Ā", (c!"A", c!"-")),
  (c!"É", (c!"E", c!"´")),
  (c!"È", (c!"E", c!"`")),
  (c!"Ė", (c!"E", c!"˙")),
  (c!"Ê", (c!"E", c!"^")),
  (c!"Ë", (c!"E", c!"¨")),
  (c!"Ě", (c!"E", c!"ˇ")),
  (c!"Ȅ", (c!"E", c!"`")),
  (c!"Ȇ", (c!"E", c!"¨")),
  (c!"Ē", (c!"E", c!"-")),
  (c!"Í", (c!"I", c!"´")),
  (c!"Ì", (c!"I", c!"`")),
  (c!"Î", (c!"I", c!"^")),
  (c!"Ï", (c!"I", c!"¨")),
  (c!"Ĭ", (c!"I", c!"˘")),
  (c!"Ǐ", (c!"I", c!"ˇ")),
  (c!"Ȉ", (c!"I", c!"`")),
  (c!"Ȋ", (c!"I", c!"¨")),
  (c!"Ī", (c!"I", c!"-")),
  (c!"Ó", (c!"O", c!"´")),
  (c!"Ò", (c!"O", c!"`")),
  (c!"Ô", (c!"O", c!"^")),
  (c!"Õ", (c!"O", c!"~")),
  (c!"Ö", (c!"O", c!"¨")),
  (c!"Ő", (c!"O", c!"˝")),
  (c!"Ǒ", (c!"O", c!"ˇ")),
  (c!"Ȍ", (c!"O", c!"`")),
  (c!"Ȏ", (c!"O", c!"¨")),
  (c!"Ȫ", (c!"O", c!"˘")),
  (c!"Ȭ", (c!"O", c!"˝")),
  (c!"Ȯ", (c!"O", c!"˙")),
  (c!"Ō", (c!"O", c!"-")),
  (c!"Ú", (c!"U", c!"´")),
  (c!"Ù", (c!"U", c!"`")),
  (c!"Û", (c!"U", c!"^")),
  (c!"Ü", (c!"U", c!"¨")),
  (c!"Ű", (c!"U", c!"˝")),
  (c!"Ǔ", (c!"U", c!"ˇ")),
  (c!"Ǖ", (c!"U", c!"¨")),
  (c!"Ȕ", (c!"U", c!"`")),
  (c!"Ȗ", (c!"U", c!"¨")),
  (c!"Ū", (c!"U", c!"-")),
  (c!"Ý", (c!"Y", c!"´")),
  (c!"Ỳ", (c!"Y", c!"`")),
  (c!"Ŷ", (c!"Y", c!"^")),
  (c!"Ÿ", (c!"Y", c!"¨")),
  (c!"Ȳ", (c!"Y", c!"-")),
  (c!"ñ", (c!"n", c!"~")),
  (c!"Ñ", (c!"N", c!"~")),
  (c!"ç", (c!"c", c!"˙")),
  (c!"Ç", (c!"C", c!"˙")),
  (c!"ṽ", (c!"v", c!"~")),
  (c!"Ṽ", (c!"V", c!"~")),
  (c!"ĵ", (c!"j", c!"^")),
  (c!"Ĵ", (c!"J", c!"^")),
  (c!"ź", (c!"z", c!"´")),
  (c!"Ź", (c!"Z", c!"´")),
  (c!"Ż", (c!"Z", c!"^")),
  (c!"ż", (c!"z", c!"^")),
  (c!"Ž", (c!"Z", c!"ˇ")),
  (c!"ž", (c!"z", c!"ˇ")),
  (c!"ẑ", (c!"z", c!"ˆ"))]

set_option maxRecDepth 100000 in
/-- syntax.py 196–210, `accent_to_ltx_cmd`. -/
def accentToLtxCmd : List (Str × Str) := [
  (c!"´", c!"acute"),
  (c!"`", c!"grave"),
  (c!"^", c!"hat"),
  (c!"~", c!"tilde"),
  (c!"¨", c!"ddot"),
  (c!"˚", c!"mathring"),
  (c!"˘", c!"breve"),
  (c!"ˇ", c!"check"),
  (c!"˝", c!"ddot"),
  (c!"˙", c!"dot"),
  (c!"-", c!"bar"),
  (c!"ˆ", c!"hat"),
  (c!"˜", c!"tilde")]

set_option maxRecDepth 100000 in
/-- syntax.py 212–442, `special_font_chars` (value: pair of constructor arguments). -/
def specialFontChars : List (Str × (Str × Str)) := [
  (c!"𝐀", (c!"A", c!"mathbf")),
  (c!"𝐁", (c!"B", c!"mathbf")),
  (c!"𝐂", (c!"C", c!"mathbf")),
  (c!"𝐃", (c!"D", c!"mathbf")),
  (c!"𝐄", (c!"E", c!"mathbf")),
  (c!"Ε", (c!"E", c!"mathbf")),
  (c!"𝐅", (c!"F", c!"mathbf")),
  (c!"𝐆", (c!"G", c!"mathbf")),
  (c!"𝐇", (c!"H", c!"mathbf")),
  (c!"𝐈", (c!"I", c!"mathbf")),
  (c!"𝐉", (c!"J", c!"mathbf")),
  (c!"𝐊", (c!"K", c!"mathbf")),
  (c!"𝐋", (c!"L", c!"mathbf")),
  (c!"𝐌", (c!"M", c!"mathbf")),
  (c!"𝐍", (c!"N", c!"mathbf")),
  (c!"𝐎", (c!"O", c!"mathbf")),
  (c!"𝐏", (c!"P", c!"mathbf")),
  (c!"𝐐", (c!"Q", c!"mathbf")),
  (c!"𝐑", (c!"R", c!"mathbf")),
  (c!"𝐒", (c!"S", c!"mathbf")),
  (c!"𝐓", (c!"T", c!"mathbf")),
  (c!"𝐔", (c!"U", c!"mathbf")),
  (c!"𝐕", (c!"V", c!"mathbf")),
  (c!"𝐖", (c!"W", c!"mathbf")),
  (c!"𝐗", (c!"X", c!"mathbf")),
  (c!"𝞆", (c!"X", c!"mathbf")),
  (c!"𝐘", (c!"Y", c!"mathbf")),
  (c!"𝐙", (c!"Z", c!"mathbf")),
  (c!"𝟎", (c!"0", c!"mathbf")),
  (c!"𝟏", (c!"1", c!"mathbf")),
  (c!"𝟐", (c!"2", c!"mathbf")),
  (c!"𝟑", (c!"3", c!"mathbf")),
  (c!"𝟒", (c!"4", c!"mathbf")),
  (c!"𝟓", (c!"5", c!"mathbf")),
  (c!"𝟔", (c!"6", c!"mathbf")),
  (c!"𝟕", (c!"7", c!"mathbf")),
  (c!"𝟖", (c!"8", c!"mathbf")),
  (c!"𝟗", (c!"9", c!"mathbf")),
  (c!"𝐴", (c!"A", c!"mathit")),
  (c!"𝐵", (c!"B", c!"mathit")),
  (c!"𝐶", (c!"C", c!"mathit")),
  (c!"𝐷", (c!"D", c!"mathit")),
  (c!"𝐸", (c!"E", c!"mathit")),
  (c!"𝐹", (c!"F", c!"mathit")),
  (c!"𝐺", (c!"G", c!"mathit")),
  (c!"𝐻", (c!"H", c!"mathit")),
  (c!"𝐼", (c!"I", c!"mathit")),
  (c!"Ι", (c!"I", c!"mathit")),
  (c!"𝐽", (c!"J", c!"mathit")),
  (c!"𝐾", (c!"K", c!"mathit")),
  (c!"𝐿", (c!"L", c!"mathit")),
  (c!"𝑀", (c!"M", c!"mathit")),
  (c!"𝑁", (c!"N", c!"mathit")),
  (c!"𝑂", (c!"O", c!"mathit")),
  (c!"𝑃", (c!"P", c!"mathit")),
  (c!"𝑄", (c!"Q", c!"mathit")),
  (c!"𝑅", (c!"R", c!"mathit")),
  (c!"𝑆", (c!"S", c!"mathit")),
  (c!"𝑇", (c!"T", c!"mathit")),
  (c!"𝑈", (c!"U", c!"mathit")),
  (c!"𝑉", (c!"V", c!"mathit")),
  (c!"𝑊", (c!"W", c!"mathit")),
  (c!"𝑋", (c!"X", c!"mathit")),
  (c!"𝑌", (c!"Y", c!"mathit")),
  (c!"𝑍", (c!"Z", c!"mathit")),
  (c!"𝔸", (c!"A", c!"mathbb")),
  (c!"𝔹", (c!"B", c!"mathbb")),
  (c!"ℂ", (c!"C", c!"mathbb")),
  (c!"𝔻", (c!"D", c!"mathbb")),
  (c!"𝔼", (c!"E", c!"mathbb")),
  (c!"𝔽", (c!"F", c!"mathbb")),
  (c!"𝔾", (c!"G", c!"mathbb")),
  (c!"ℍ", (c!"H", c!"mathbb")),
  (c!"𝕀", (c!"I", c!"mathbb")),
  (c!"𝕁", (c!"J", c!"mathbb")),
  (c!"𝕂", (c!"K", c!"mathbb")),
  (c!"𝕃", (c!"L", c!"mathbb")),
  (c!"𝕄", (c!"M", c!"mathbb")),
  (c!"ℕ", (c!"N", c!"mathbb")),
  (c!"𝕆", (c!"O", c!"mathbb")),
  (c!"ℙ", (c!"P", c!"mathbb")),
  (c!"ℚ", (c!"Q", c!"mathbb")),
  (c!"ℝ", (c!"R", c!"mathbb")),
  (c!"𝕊", (c!"S", c!"mathbb")),
  (c!"𝕋", (c!"T", c!"mathbb")),
  (c!"𝕌", (c!"U", c!"mathbb")),
  (c!"𝕍", (c!"V", c!"mathbb")),
  (c!"𝕎", (c!"W", c!"mathbb")),
  (c!"𝕏", (c!"X", c!"mathbb")),
  (c!"𝕐", (c!"Y", c!"mathbb")),
  (c!"ℤ", (c!"Z", c!"mathbb")),
  (c!"𝟘", (c!"0", c!"mathbb")),
  (c!"𝟙", (c!"1", c!"mathbb")),
  (c!"𝟚", (c!"2", c!"mathbb")),
  (c!"𝟛", (c!"3", c!"mathbb")),
  (c!"𝟜", (c!"4", c!"mathbb")),
  (c!"𝟝", (c!"5", c!"mathbb")),
  (c!"𝟞", (c!"6", c!"mathbb")),
  (c!"𝟟", (c!"7", c!"mathbb")),
  (c!"𝟠", (c!"8", c!"mathbb")),
  (c!"𝟡", (c!"9", c!"mathbb")),
  (c!"𝒜", (c!"A", c!"mathcal")),
  (c!"𝓐", (c!"A", c!"mathcal")),
  (c!"ℬ", (c!"B", c!"mathcal")),
  (c!"𝒞", (c!"C", c!"mathcal")),
  (c!"𝒟", (c!"D", c!"mathcal")),
  (c!"𝓓", (c!"D", c!"mathcal")),
  (c!"ℰ", (c!"E", c!"mathcal")),
  (c!"ℱ", (c!"F", c!"mathcal")),
  (c!"𝓕", (c!"F", c!"mathcal")),
  (c!"𝒢", (c!"G", c!"mathcal")),
  (c!"ℋ", (c!"H", c!"mathcal")),
  (c!"ℐ", (c!"I", c!"mathcal")),
  (c!"𝒥", (c!"J", c!"mathcal")),
  (c!"𝒦", (c!"K", c!"mathcal")),
  (c!"ℒ", (c!"L", c!"mathcal")),
  (c!"𝓛", (c!"L", c!"mathcal")),
  (c!"ℳ", (c!"M", c!"mathcal")),
  (c!"𝒩", (c!"N", c!"mathcal")),
  (c!"𝒪", (c!"O", c!"mathcal")),
  (c!"𝓞", (c!"O", c!"mathcal")),
  (c!"𝒫", (c!"P", c!"mathcal")),
  (c!"𝒬", (c!"Q", c!"mathcal")),
  (c!"ℛ", (c!"R", c!"mathcal")),
  (c!"𝕽", (c!"R", c!"mathcal")),
  (c!"℟", (c!"R", c!"mathcal")),
  (c!"𝒮", (c!"S", c!"mathcal")),
  (c!"𝒯", (c!"T", c!"mathcal")),
  (c!"𝒰", (c!"U", c!"mathcal")),
  (c!"𝒱", (c!"V", c!"mathcal")),
  (c!"𝒲", (c!"W", c!"mathcal")),
  (c!"𝒳", (c!"X", c!"mathcal")),
  (c!"𝒴", (c!"Y", c!"mathcal")),
  (c!"𝒵", (c!"Z", c!"mathcal")),
  (c!"𝔄", (c!"A", c!"mathfrak")),
  (c!"𝔅", (c!"B", c!"mathfrak")),
  (c!"ℭ", (c!"C", c!"mathfrak")),
  (c!"𝔇", (c!"D", c!"mathfrak")),
  (c!"𝔈", (c!"E", c!"mathfrak")),
  (c!"𝔉", (c!"F", c!"mathfrak")),
  (c!"𝔊", (c!"G", c!"mathfrak")),
  (c!"ℌ", (c!"H", c!"mathfrak")),
  (c!"ℑ", (c!"I", c!"mathfrak")),
  (c!"𝔍", (c!"J", c!"mathfrak")),
  (c!"𝔎", (c!"K", c!"mathfrak")),
  (c!"𝔏", (c!"L", c!"mathfrak")),
  (c!"𝔐", (c!"M", c!"mathfrak")),
  (c!"𝔑", (c!"N", c!"mathfrak")),
  (c!"𝔒", (c!"O", c!"mathfrak")),
  (c!"𝔓", (c!"P", c!"mathfrak")),
  (c!"𝔔", (c!"Q", c!"mathfrak")),
  (c!"ℜ", (c!"R", c!"mathfrak")),
  (c!"𝔖", (c!"S", c!"mathfrak")),
  (c!"𝔗", (c!"T", c!"mathfrak")),
  (c!"𝔘", (c!"U", c!"mathfrak")),
  (c!"𝔙", (c!"V", c!"mathfrak")),
  (c!"𝔚", (c!"W", c!"mathfrak")),
  (c!"𝔛", (c!"X", c!"mathfrak")),
  (c!"𝔜", (c!"Y", c!"mathfrak")),
  (c!"ℨ", (c!"Z", c!"mathfrak")),
  (c!"𝖠", (c!"A", c!"mathsf")),
  (c!"Α", (c!"A", c!"mathsf")),
  (c!"𝖡", (c!"B", c!"mathsf")),
  (c!"Β", (c!"B", c!"mathsf")),
  (c!"𝖢", (c!"C", c!"mathsf")),
  (c!"𝖣", (c!"D", c!"mathsf")),
  (c!"𝖤", (c!"E", c!"mathsf")),
  (c!"𝖥", (c!"F", c!"mathsf")),
  (c!"𝖦", (c!"G", c!"mathsf")),
  (c!"𝖧", (c!"H", c!"mathsf")),
  (c!"𝖨", (c!"I", c!"mathsf")),
  (c!"𝖩", (c!"J", c!"mathsf")),
  (c!"ȷ", (c!"J", c!"mathsf")),
  (c!"𝖪", (c!"K", c!"mathsf")),
  (c!"Κ", (c!"K", c!"mathsf")),
  (c!"𝖫", (c!"L", c!"mathsf")),
  (c!"𝖬", (c!"M", c!"mathsf")),
  (c!"𝖭", (c!"N", c!"mathsf")),
  (c!"𝖮", (c!"O", c!"mathsf")),
  (c!"𝖯", (c!"P", c!"mathsf")),
  (c!"𝖰", (c!"Q", c!"mathsf")),
  (c!"𝖱", (c!"R", c!"mathsf")),
  (c!"𝖲", (c!"S", c!"mathsf")),
  (c!"𝖳", (c!"T", c!"mathsf")),
  (c!"𝖴", (c!"U", c!"mathsf")),
  (c!"𝖵", (c!"V", c!"mathsf")),
  (c!"𝖶", (c!"W", c!"mathsf")),
  (c!"𝖷", (c!"X", c!"mathsf")),
  (c!"Χ", (c!"X", c!"mathsf")),
  (c!"𝖸", (c!"Y", c!"mathsf")),
  (c!"𝖹", (c!"Z", c!"mathsf")),
  (c!"𝚨", (c!"A", c!"mathtt")),
  (c!"𝚩", (c!"B", c!"mathtt")),
  (c!"𝚪", (c!"\\Gamma", c!"mathtt")),
  (c!"𝚫", (c!"\\Delta", c!"mathtt")),
  (c!"𝚬", (c!"E", c!"mathtt")),
  (c!"𝚭", (c!"F", c!"mathtt")),
  (c!"𝚮", (c!"G", c!"mathtt")),
  (c!"𝚯", (c!"\\Theta", c!"mathtt")),
  (c!"𝚰", (c!"I", c!"mathtt")),
  (c!"𝚱", (c!"J", c!"mathtt")),
  (c!"𝚲", (c!"\\Lambda", c!"mathtt")),
  (c!"𝚳", (c!"L", c!"mathtt")),
  (c!"𝚴", (c!"M", c!"mathtt")),
  (c!"𝚵", (c!"\\Pi", c!"mathtt")),
  (c!"𝚶", (c!"O", c!"mathtt")),
  (c!"𝚷", (c!"\\Pi", c!"mathtt")),
  (c!"𝚸", (c!"Q", c!"mathtt")),
  (c!"𝚹", (c!"R", c!"mathtt")),
  (c!"𝚺", (c!"S", c!"mathtt")),
  (c!"𝚻", (c!"T", c!"mathtt")),
  (c!"𝚼", (c!"U", c!"mathtt")),
  (c!"𝚽", (c!"\\Phi", c!"mathtt")),
  (c!"𝚾", (c!"W", c!"mathtt")),
  (c!"𝚿", (c!"\\Psi", c!"mathtt")),
  (c!"𝛀", (c!"\\Omega", c!"mathtt"))]

set_option maxRecDepth 100000 in
/-- syntax.py 444–534, `all_math_symbols_by_char`. -/
def allMathSymbolsByChar : List (Str × Str) := [
  (c!"&#xA0;", c!"\\textrm{ }"),
  (c!"&#x2203;", c!"\\exists"),
  (c!"&#x2200;", c!"\\forall"),
  (c!"&#x21D4;", c!"\\iff"),
  (c!"&#x21D2;", c!"=>"),
  (c!"&#xAC;", c!"\\neg"),
  (c!"&#x2124;", c!"\\mathbb{Z}"),
  (c!"&#x211D;", c!"\\mathbb{R}"),
  (c!"&#x211A;", c!"\\mathbb{Q}"),
  (c!"&#x2115;", c!"\\mathbb{N}"),
  (c!"&#x2102;", c!"CC"),
  (c!"&#x25A1;", c!"\\square"),
  (c!"&#x22C4;", c!"\\diamond"),
  (c!"&#x25B3;", c!"\\triangle"),
  (c!"&#x2322;", c!"\\frown"),
  (c!"&#x2220;", c!"\\angle"),
  (c!"&#x22F1;", c!"\\ddots"),
  (c!"&#x22EE;", c!"\\vdots"),
  (c!"&#x2235;", c!"\\because"),
  (c!"&#x2234;", c!"\\therefore"),
  (c!"&#x2135;", c!"\\aleph"),
  (c!"&#x2205;", c!"\\oslash"),
  (c!"&#xB1;", c!"\\pm"),
  (c!"&#x2207;", c!"\\nabla"),
  (c!"&#x2202;", c!"\\partial"),
  (c!"&#x222E;", c!"\\oint"),
  (c!"&#x222B;", c!"\\int"),
  (c!"&#x22C3;", c!"\\cup"),
  (c!"&#x222A;", c!"\\cup"),
  (c!"&#x22C2;", c!"\\cap"),
  (c!"&#x2229;", c!"\\cap"),
  (c!"&#x22C1;", c!"\\vee"),
  (c!"&#x2228;", c!"\\vee"),
  (c!"&#x22C0;", c!"\\wedge"),
  (c!"&#x2227;", c!"\\wedge"),
  (c!"&#x220F;", c!"\\prod"),
  (c!"&#x2211;", c!"\\sum"),
  (c!"&#x2299;", c!"\\bigodot"),
  (c!"&#x2297;", c!"\\bigoplus"),
  (c!"&#x2295;", c!"o+"),
  (c!"&#x2218;", c!"@"),
  (c!"&#x22C8;", c!"\\bowtie"),
  (c!"&#x22CA;", c!"\\rtimes"),
  (c!"&#x22C9;", c!"\\ltimes"),
  (c!"&#xF7;", c!"\\div"),
  (c!"&#xD7;", c!"\\times"),
  (c!"\\", c!"\\backslash"),
  (c!"&#x22C6;", c!"\\star"),
  (c!"&#x2217;", c!"\\star"),
  (c!"&#x22C5;", c!"\\cdot"),
  (c!"&#x3A9;", c!"\\Omega"),
  (c!"&#x3C9;", c!"\\omega"),
  (c!"&#x3A8;", c!"\\Psi"),
  (c!"&#x3C8;", c!"\\psi"),
  (c!"&#x3C7;", c!"\\chi"),
  (c!"&#x3C6;", c!"\\varphi"),
  (c!"&#x3A6;", c!"\\Phi"),
  (c!"&#x3D5;", c!"\\phi"),
  (c!"&#x3C5;", c!"\\upsilon"),
  (c!"&#x3C4;", c!"\\tau"),
  (c!"&#x3A3;", c!"\\Sigma"),
  (c!"&#x3C3;", c!"\\sigma"),
  (c!"&#x3C1;", c!"\\rho"),
  (c!"&#x3A0;", c!"\\Pi"),
  (c!"&#x3C0;", c!"\\pi"),
  (c!"&#x39E;", c!"\\Xi"),
  (c!"&#x3BE;", c!"\\xi"),
  (c!"&#x3BD;", c!"\\nu"),
  (c!"&#x3BC;", c!"\\mu"),
  (c!"&#x39B;", c!"\\Lambda"),
  (c!"&#x3BB;", c!"\\lambda"),
  (c!"&#x3BA;", c!"\\kappa"),
  (c!"&#x3B9;", c!"\\iota"),
  (c!"&#x3D1;", c!"\\vartheta"),
  (c!"&#x398;", c!"\\Theta"),
  (c!"&#x3B8;", c!"\\theta"),
  (c!"&#x3B7;", c!"\\eta"),
  (c!"&#x3B6;", c!"\\zeta"),
  (c!"&#x25B;", c!"\\varepsilon"),
  (c!"&#x3B5;", c!"\\epsilon"),
  (c!"&#x394;", c!"\\Delta"),
  (c!"&#x3B4;", c!"\\delta"),
  (c!"&#x393;", c!"\\Gamma"),
  (c!"&#x3B3;", c!"\\gamma"),
  (c!"&#x3B2;", c!"\\beta"),
  (c!"&#x3B1;", c!"\\alpha"),
  (c!"&#x221E;", c!"\\infty"),
  (c!"\u202c", c!"\\text{\\textdir TRT}"),
  (c!"\u200e", c!"\\text{\\textdir LTR}")]

set_option maxRecDepth 100000 in
/-- syntax.py 536–889, `all_math_symbols_by_glyph`. -/
def allMathSymbolsByGlyph : List (Str × Str) := [
  (c!" ", c!"\\textrm{ }"),
  (c!"∃", c!"\\exists"),
  (c!"∀", c!"\\forall"),
  (c!"⇔", c!"\\iff"),
  (c!"⇒", c!"\\Rightarrow"),
  (c!"¬", c!"\\neg"),
  (c!"□", c!"\\square"),
  (c!"⋄", c!"\\diamond"),
  (c!"△", c!"\\triangle"),
  (c!"⌢", c!"\\frown"),
  (c!"∠", c!"\\angle"),
  (c!"⋱", c!"\\ddots"),
  (c!"⋮", c!"\\vdots"),
  (c!"∵", c!"\\because"),
  (c!"∴", c!"\\therefore"),
  (c!"ℵ", c!"\\aleph"),
  (c!"∅", c!"\\emptyset"),
  (c!"±", c!"\\pm"),
  (c!"∇", c!"\\nabla"),
  (c!"∂", c!"\\partial"),
  (c!"∮", c!"\\oint"),
  (c!"∫", c!"\\int"),
  (c!"⋃", c!"\\cup"),
  (c!"∪", c!"\\cup"),
  (c!"⋂", c!"\\cap"),
  (c!"∩", c!"\\cap"),
  (c!"⋁", c!"\\vee"),
  (c!"∨", c!"\\vee"),
  (c!"⋀", c!"\\wedge"),
  (c!"∧", c!"\\wedge"),
  (c!"∏", c!"\\prod"),
  (c!"∑", c!"\\sum"),
  (c!"⊙", c!"\\bigodot"),
  (c!"⊗", c!"\\bigoplus"),
  (c!"⊕", c!"o+"),
  (c!"∘", c!"@"),
  (c!"⋈", c!"\\bowtie"),
  (c!"⋊", c!"\\rtimes"),
  (c!"⋉", c!"\\ltimes"),
  (c!"÷", c!"\\div"),
  (c!"×", c!"\\times"),
  (c!"\\", c!"\\backslash"),
  (c!"⋆", c!"\\star"),
  (c!"∗", c!"\\star"),
  (c!"⋅", c!"\\cdot"),
  (c!"Ω", c!"\\Omega"),
  (c!"ω", c!"\\omega"),
  (c!"Ψ", c!"\\Psi"),
  (c!"ψ", c!"\\psi"),
  (c!"χ", c!"\\chi"),
  (c!"φ", c!"\\varphi"),
  (c!"Φ", c!"\\Phi"),
  (c!"ϕ", c!"\\phi"),
  (c!"υ", c!"\\upsilon"),
  (c!"τ", c!"\\tau"),
  (c!"Σ", c!"\\Sigma"),
  (c!"σ", c!"\\sigma"),
  (c!"ρ", c!"\\rho"),
  (c!"Π", c!"\\Pi"),
  (c!"π", c!"\\pi"),
  (c!"Ξ", c!"\\Xi"),
  (c!"ξ", c!"\\xi"),
  (c!"ν", c!"\\nu"),
  (c!"μ", c!"\\mu"),
  (c!"Λ", c!"\\Lambda"),
  (c!"λ", c!"\\lambda"),
  (c!"κ", c!"\\kappa"),
  (c!"ι", c!"\\iota"),
  (c!"ϑ", c!"\\vartheta"),
  (c!"Θ", c!"\\Theta"),
  (c!"θ", c!"\\theta"),
  (c!"η", c!"\\eta"),
  (c!"ζ", c!"\\zeta"),
  (c!"ɛ", c!"\\varepsilon"),
  (c!"ε", c!"\\epsilon"),
  (c!"Δ", c!"\\Delta"),
  (c!"δ", c!"\\delta"),
  (c!"Γ", c!"\\Gamma"),
  (c!"γ", c!"\\gamma"),
  (c!"β", c!"\\beta"),
  (c!"α", c!"\\alpha"),
  (c!"∞", c!"\\infty"),
  (c!"ϵ", c!"\\epsilon"),
  (c!"µ", c!"\\mu"),
  (c!"²", c!"^{2}"),
  (c!"ı", c!"\\imath"),
  (c!"∎", c!"\\blacksquare"),
  (c!"ม", c!"\\mathbf{m}"),
  (c!"Ω", c!"\\Omega"),
  (c!"⟲", c!"\\circlearrowleft"),
  (c!"⟳", c!"\\circlearrowright"),
  (c!"त", c!" "),
  (c!"¥", c!"\\yen"),
  (c!"⁽", c!"^{(}"),
  (c!"⁾", c!"^{)}"),
  (c!"ß", c!"\\ss"),
  (c!"Ћ", c!"\\hbar"),
  (c!"⦵", c!"\\ominus"),
  (c!"⊿", c!"\\bigtriangleup"),
  (c!"↛'", c!"\\nrightarrow"),
  (c!"†", c!"\\dagger"),
  (c!"เ", c!"\\prime"),
  (c!"白", c!" "),
  (c!"⿱", c!" "),
  (c!"ℸ", c!"\\wp"),
  (c!"픀", c!" "),
  (c!"ⁿ", c!"^{n}"),
  (c!"✔", c!"\\checkmark"),
  (c!"✗", c!"\\times"),
  (c!"½", c!"\\dfrac{1}{2}"),
  (c!"Ө", c!"\\theta"),
  (c!"✓", c!"\\checkmark"),
  (c!"⟩", c!"\\rangle"),
  (c!"⟨", c!"\\langle"),
  (c!"〈", c!"\\langle"),
  (c!"¼", c!"\\dfrac{1}{4}"),
  (c!"…", c!"\\ldots"),
  (c!"ℏ", c!"\\hbar"),
  (c!"ℜ", c!"\\mathfrak{R}"),
  (c!"Ѳ", c!"\\theta"),
  (c!"Ø", c!"\\emptyset"),
  (c!"ϱ", c!"\\varrho"),
  (c!"ф", c!"\\phi"),
  (c!"T", c!"T"),
  (c!"∙", c!"\\cdot"),
  (c!"Ρ", c!"P"),
  (c!"ᐁ", c!"\\nabla"),
  (c!"ƞ", c!"\\eta"),
  (c!"ɣ", c!"\\gamma"),
  (c!"ћ", c!"\\hbar"),
  (c!"Ɛ", c!"\\varepsilon"),
  (c!"ⅅ", c!"\\_{D}"),
  (c!"𝜆", c!"\\lambda"),
  (c!"〗", c!"\\rangle"),
  (c!"〖", c!"\\langle"),
  (c!";", c!";"),
  (c!"𝑥", c!"x"),
  (c!"𝑦", c!"y"),
  (c!"𝑧", c!"z"),
  (c!"𝑖", c!"i"),
  (c!"𝑗", c!"j"),
  (c!"𝑘", c!"k"),
  (c!"𝑚", c!"m"),
  (c!"𝑒", c!"e"),
  (c!"𝑟", c!"r"),
  (c!"ɳ", c!"\\eta"),
  (c!"𝛽", c!"\\beta"),
  (c!"⍵", c!"\\omega"),
  (c!"℘", c!"\\wp"),
  (c!"𝜋", c!"\\pi"),
  (c!"Є", c!"\\epsilon"),
  (c!"є", c!"\\epsilon"),
  (c!"𝜀", c!"\\epsilon"),
  (c!"п", c!"\\pi"),
  (c!"Ν", c!"\\nu"),
  (c!"ɵ", c!"\\theta"),
  (c!"𝜓", c!"\\psi"),
  (c!"ϴ", c!"\\theta"),
  (c!"ɸ", c!"\\phi"),
  (c!"Ӷ", c!"\\Gamma"),
  (c!"ɭ", c!"\\ell"),
  (c!"ʋ", c!"\\upsilon"),
  (c!"𝛟", c!"\\varphi"),
  (c!"⍬", c!"\\theta"),
  (c!"Ф", c!"\\Phi"),
  (c!"𝜑", c!"\\varphi"),
  (c!"ⅈ", c!"i"),
  (c!"ο", c!"o"),
  (c!"ơ", c!"o"),
  (c!"ƒ", c!"f"),
  (c!"⍴", c!"\\rho"),
  (c!"🇽", c!"x"),
  (c!"𝑝", c!"p"),
  (c!"𝑞", c!"q"),
  (c!"𝑠", c!"s"),
  (c!"𝑡", c!"t"),
  (c!"𝑢", c!"u"),
  (c!"𝑣", c!"v"),
  (c!"𝑤", c!"w"),
  (c!"𝑎", c!"a"),
  (c!"𝑏", c!"b"),
  (c!"𝑐", c!"c"),
  (c!"𝑑", c!"d"),
  (c!"𝑓", c!"f"),
  (c!"𝑔", c!"g"),
  (c!"𝑙", c!"l"),
  (c!"𝑛", c!"n"),
  (c!"𝑜", c!"o"),
  (c!"𝔀", c!"w"),
  (c!"𝚟", c!"v"),
  (c!"ṁ", c!"m"),
  (c!"൦", c!"\\circ"),
  (c!"┴", c!"\\perp"),
  (c!"✕", c!"\\times"),
  (c!"∣", c!"\\mid"),
  (c!"Փ", c!"\\Phi"),
  (c!"⎜", c!"\\mid"),
  (c!"ħ", c!"\\hbar"),
  (c!"ፈ", c!" "),
  (c!"⦨", c!"\\llbracket"),
  (c!"ế", c!"\\hat{e}"),
  (c!"¢", c!"\\cent"),
  (c!"⤹", c!"\\downarrow"),
  (c!"⤸", c!"\\downarrow"),
  (c!"⤷", c!"\\Rsh"),
  (c!"⤶", c!"\\Lsh"),
  (c!"⤵", c!"\\downarrow"),
  (c!"⤴", c!"\\uparrow"),
  (c!"⤳", c!"\\rightarrow"),
  (c!"|", c!"\\mid"),
  (c!"⎥", c!"\\mid"),
  (c!"♥", c!"\\heartsuit"),
  (c!"О", c!"0"),
  (c!"Υ", c!"Y"),
  (c!"х", c!"x"),
  (c!"𝓏", c!"z"),
  (c!"𝓎", c!"y"),
  (c!"𝓍", c!"x"),
  (c!"р", c!"p"),
  (c!"а", c!"a"),
  (c!"£", c!"\\pounds"),
  (c!"m", c!"m"),
  (c!"𝚵", c!"\\Xi"),
  (c!"⓪", c!"\\textcircled{0}"),
  (c!"①", c!"\\textcircled{1}"),
  (c!"②", c!"\\textcircled{2}"),
  (c!"③", c!"\\textcircled{3}"),
  (c!"④", c!"\\textcircled{4}"),
  (c!"⑤", c!"\\textcircled{5}"),
  (c!"⑥", c!"\\textcircled{6}"),
  (c!"⑦", c!"\\textcircled{7}"),
  (c!"⑧", c!"\\textcircled{8}"),
  (c!"⑨", c!"\\textcircled{9}"),
  (c!"⑩", c!"\\textcircled{10}"),
  (c!"⑪", c!"\\textcircled{11}"),
  (c!"⑫", c!"\\textcircled{12}"),
  (c!"⑬", c!"\\textcircled{13}"),
  (c!"⑭", c!"\\textcircled{14}"),
  (c!"⑮", c!"\\textcircled{15}"),
  (c!"⑯", c!"\\textcircled{16}"),
  (c!"⑰", c!"\\textcircled{17}"),
  (c!"⑱", c!"\\textcircled{18}"),
  (c!"⑲", c!"\\textcircled{19}"),
  (c!"⑳", c!"\\textcircled{20}"),
  (c!"㉑", c!"\\textcircled{21}"),
  (c!"㉒", c!"\\textcircled{22}"),
  (c!"㉓", c!"\\textcircled{23}"),
  (c!"㉔", c!"\\textcircled{24}"),
  (c!"㉕", c!"\\textcircled{25}"),
  (c!"㉖", c!"\\textcircled{26}"),
  (c!"㉗", c!"\\textcircled{27}"),
  (c!"㉘", c!"\\textcircled{28}"),
  (c!"㉙", c!"\\textcircled{29}"),
  (c!"㉚", c!"\\textcircled{30}"),
  (c!"㉛", c!"\\textcircled{31}"),
  (c!"㉜", c!"\\textcircled{32}"),
  (c!"㉝", c!"\\textcircled{33}"),
  (c!"㉞", c!"\\textcircled{34}"),
  (c!"㉟", c!"\\textcircled{35}"),
  (c!"㊱", c!"\\textcircled{36}"),
  (c!"㊲", c!"\\textcircled{37}"),
  (c!"㊳", c!"\\textcircled{38}"),
  (c!"㊴", c!"\\textcircled{39}"),
  (c!"㊵", c!"\\textcircled{40}"),
  (c!"㊶", c!"\\textcircled{41}"),
  (c!"㊷", c!"\\textcircled{42}"),
  (c!"㊸", c!"\\textcircled{43}"),
  (c!"㊹", c!"\\textcircled{44}"),
  (c!"㊺", c!"\\textcircled{45}"),
  (c!"㊻", c!"\\textcircled{46}"),
  (c!"㊼", c!"\\textcircled{47}"),
  (c!"㊽", c!"\\textcircled{48}"),
  (c!"㊾", c!"\\textcircled{49}"),
  (c!"㊿", c!"\\textcircled{50}"),
  (c!"&", c!"\\&"),
  (c!"‖", c!"\\parallel"),
  (c!"%", c!"\\%"),
  (c!"“", c!"\\text{``}"),
  (c!"$", c!"\\$"),
  (c!"#", c!"\\#"),
  (c!"℃", c!"\\text{\\textdegree C}"),
  (c!"℉", c!"\\text{\\textdegree F}"),
  (c!"█", c!"\\blacksquare"),
  (c!"℧", c!"\\mho"),
  (c!"⌋", c!"\\rfloor"),
  (c!"⌊", c!"\\lfloor"),
  (c!"⌉", c!"\\rceil"),
  (c!"⌈", c!"\\lceil"),
  (c!"ℇ", c!"\\varepsilon"),
  (c!"ⅇ", c!"\\text{e}"),
  (c!"ɼ", c!"r"),
  (c!"↛", c!"\\nrightarrow"),
  (c!"ˆ", c!"\\hat{}"),
  (c!"‾", c!"\\overline"),
  (c!"→", c!"\\rightarrow"),
  (c!"‡", c!"\\ddagger"),
  (c!"・", c!"\\cdot"),
  (c!"▱", c!"\\square"),
  (c!"∆", c!"\\Delta"),
  (c!"ἱ", c!"i"),
  (c!"∡", c!"\\angle"),
  (c!"ϒ", c!"\\Upsilon"),
  (c!"↓", c!"\\downarrow"),
  (c!"↑", c!"\\uparrow"),
  (c!"»", c!"\\gg"),
  (c!"⊤", c!"\\top"),
  (c!"⧸", c!"/"),
  (c!"𝛿", c!"\\delta"),
  (c!"˳", c!"\\cdot"),
  (c!"։", c!":"),
  (c!"⦪", c!"\\measuredangle"),
  (c!"⦩", c!"\\measuredangle"),
  (c!"⦫", c!"\\measuredangle"),
  (c!"⦁", c!"\\cdot"),
  (c!"ѳ", c!"\\theta"),
  (c!"⦢", c!"\\measuredangle"),
  (c!"¸", c!","),
  (c!"⎻", c!"\\overline"),
  (c!"⟦", c!"\\llbracket"),
  (c!"𝜙", c!"\\phi"),
  (c!"П", c!"\\prod"),
  (c!"о", c!"o"),
  (c!"≈", c!"\\approx"),
  (c!"≤", c!"\\leq"),
  (c!"ђ", c!"\\hbar"),
  (c!"Ʌ", c!"\\Lambda"),
  (c!"土", c!"\\pm"),
  (c!"⎼", c!"-"),
  (c!"十", c!"+"),
  (c!"≠", c!"\\neq"),
  (c!"←", c!"\\leftarrow"),
  (c!"।", c!"\\mid"),
  (c!"€", c!"\\euro"),
  (c!"˘", c!" "),
  (c!"ῡ", c!"\\bar{u}"),
  (c!"∥", c!"\\parallel"),
  (c!"↔", c!"\\leftrightarrow"),
  (c!"√", c!"\\sqrt{}"),
  (c!"ȼ", c!"c"),
  (c!"𝞮", c!"\\epsilon"),
  (c!"·", c!"\\cdot"),
  (c!"⦬", c!"\\measuredangle"),
  (c!"⦮", c!"\\measuredangle"),
  (c!"⦭", c!"\\measuredangle"),
  (c!"«", c!"\\ll"),
  (c!"Χ", c!"\\mathsf{X}"),
  (c!"│", c!"\\mid"),
  (c!"〉", c!"\\rangle"),
  (c!"ₙ", c!"_{n}"),
  (c!"▫", c!"\\square"),
  (c!"●", c!"\\circle"),
  (c!"”", c!"\\\\\"")]

set_option maxRecDepth 100000 in
/-- syntax.py 891–983, `math_number_by_glyph`. -/
def mathNumberByGlyph : List (Str × Str) := [
  (c!"₀", c!"_{0}"),
  (c!"₁", c!"_{1}"),
  (c!"₂", c!"_{2}"),
  (c!"₃", c!"_{3}"),
  (c!"₄", c!"_{4}"),
  (c!"₅", c!"_{5}"),
  (c!"₆", c!"_{6}"),
  (c!"₇", c!"_{7}"),
  (c!"₈", c!"_{8}"),
  (c!"₉", c!"_{9}"),
  (c!"⁰", c!"^{0}"),
  (c!"¹", c!"^{1}"),
  (c!"²", c!"^{2}"),
  (c!"³", c!"^{3}"),
  (c!"⁴", c!"^{4}"),
  (c!"⁵", c!"^{5}"),
  (c!"⁶", c!"^{6}"),
  (c!"⁷", c!"^{7}"),
  (c!"⁸", c!"^{8}"),
  (c!"⁹", c!"^{9}"),
  (c!"ⁿ", c!"^{n}"),
  (c!"ₙ", c!"_{n}"),
  (c!"⓪", c!"\\textcircled{0}"),
  (c!"①", c!"\\textcircled{1}"),
  (c!"②", c!"\\textcircled{2}"),
  (c!"③", c!"\\textcircled{3}"),
  (c!"④", c!"\\textcircled{4}"),
  (c!"⑤", c!"\\textcircled{5}"),
  (c!"⑥", c!"\\textcircled{6}"),
  (c!"⑦", c!"\\textcircled{7}"),
  (c!"⑧", c!"\\textcircled{8}"),
  (c!"⑨", c!"\\textcircled{9}"),
  (c!"⑩", c!"\\textcircled{10}"),
  (c!"⑪", c!"\\textcircled{11}"),
  (c!"⑫", c!"\\textcircled{12}"),
  (c!"⑬", c!"\\textcircled{13}"),
  (c!"⑭", c!"\\textcircled{14}"),
  (c!"⑮", c!"\\textcircled{15}"),
  (c!"⑯", c!"\\textcircled{16}"),
  (c!"⑰", c!"\\textcircled{17}"),
  (c!"⑱", c!"\\textcircled{18}"),
  (c!"⑲", c!"\\textcircled{19}"),
  (c!"⑳", c!"\\textcircled{20}"),
  (c!"㉑", c!"\\textcircled{21}"),
  (c!"㉒", c!"\\textcircled{22}"),
  (c!"㉓", c!"\\textcircled{23}"),
  (c!"㉔", c!"\\textcircled{24}"),
  (c!"㉕", c!"\\textcircled{25}"),
  (c!"㉖", c!"\\textcircled{26}"),
  (c!"㉗", c!"\\textcircled{27}"),
  (c!"㉘", c!"\\textcircled{28}"),
  (c!"㉙", c!"\\textcircled{29}"),
  (c!"㉚", c!"\\textcircled{30}"),
  (c!"㉛", c!"\\textcircled{31}"),
  (c!"㉜", c!"\\textcircled{32}"),
  (c!"㉝", c!"\\textcircled{33}"),
  (c!"㉞", c!"\\textcircled{34}"),
  (c!"㉟", c!"\\textcircled{35}"),
  (c!"㊱", c!"\\textcircled{36}"),
  (c!"㊲", c!"\\textcircled{37}"),
  (c!"㊳", c!"\\textcircled{38}"),
  (c!"㊴", c!"\\textcircled{39}"),
  (c!"㊵", c!"\\textcircled{40}"),
  (c!"㊶", c!"\\textcircled{41}"),
  (c!"㊷", c!"\\textcircled{42}"),
  (c!"㊸", c!"\\textcircled{43}"),
  (c!"㊹", c!"\\textcircled{44}"),
  (c!"㊺", c!"\\textcircled{45}"),
  (c!"㊻", c!"\\textcircled{46}"),
  (c!"㊼", c!"\\textcircled{47}"),
  (c!"㊽", c!"\\textcircled{48}"),
  (c!"㊾", c!"\\textcircled{49}"),
  (c!"㊿", c!"\\textcircled{50}"),
  (c!"½", c!"\\dfrac{1}{2}"),
  (c!"⅓", c!"\\dfrac{1}{3}"),
  (c!"⅔", c!"\\dfrac{2}{3}"),
  (c!"¼", c!"\\dfrac{1}{4}"),
  (c!"¾", c!"\\dfrac{3}{4}"),
  (c!"⅕", c!"\\dfrac{1}{5}"),
  (c!"⅖", c!"\\dfrac{2}{5}"),
  (c!"⅗", c!"\\dfrac{3}{5}"),
  (c!"⅘", c!"\\dfrac{4}{5}"),
  (c!"⅙", c!"\\dfrac{1}{6}"),
  (c!"⅚", c!"\\dfrac{5}{6}"),
  (c!"⅐", c!"\\dfrac{1}{7}"),
  (c!"⅛", c!"\\dfrac{1}{8}"),
  (c!"⅜", c!"\\dfrac{3}{8}"),
  (c!"⅝", c!"\\dfrac{5}{8}"),
  (c!"⅞", c!"\\dfrac{7}{8}"),
  (c!"⅑", c!"\\dfrac{1}{9}"),
  (c!"⅒", c!"\\dfrac{1}{10}")]

set_option maxRecDepth 100000 in
/-- syntax.py 985–2105, `all_math_operators_by_char`. -/
def allMathOperatorsByChar : List (Str × Str) := [
  (c!"_", c!"\\underline"),
  (c!"&#x23E1;", c!"\\underbrace"),
  (c!"&#x23E0;", c!"\\overbrace"),
  (c!"&#x23DF;", c!"\\underbrace"),
  (c!"&#x23DE;", c!"\\overbrace"),
  (c!"&#x23DD;", c!"\\underbrace"),
  (c!"&#x23DC;", c!"\\overbrace"),
  (c!"&#x23B5;", c!"\\underbrace"),
  (c!"&#x23B4;", c!"\\overbrace"),
  (c!"&#x20DC;", c!"\\square"),
  (c!"&#x20DB;", c!"\\square"),
  (c!"&#x2064;", c!""),
  (c!"&#x2057;", c!"''''"),
  (c!"&#x203E;", c!"\\bar"),
  (c!"&#x2037;", c!"```"),
  (c!"&#x2036;", c!"``"),
  (c!"&#x2035;", c!"`"),
  (c!"&#x2034;", c!"'''"),
  (c!"&#x2033;", c!"''"),
  (c!"&#x201F;", c!"``"),
  (c!"&#x201E;", c!",,"),
  (c!"&#x201B;", c!"`"),
  (c!"&#x201A;", c!","),
  (c!"&#x302;", c!"\\hat"),
  (c!"&#x2F7;", c!"\\sim"),
  (c!"&#x2DD;", c!"\\sim"),
  (c!"&#x2DC;", c!"\\sim"),
  (c!"&#x2DA;", c!"\\circ"),
  (c!"&#x2D9;", c!"\\cdot"),
  (c!"&#x2D8;", c!""),
  (c!"&#x2CD;", c!"\\_"),
  (c!"&#x2CB;", c!"ˋ"),
  (c!"&#x2CA;", c!"ˊ"),
  (c!"&#x2C9;", c!"ˉ"),
  (c!"&#x2C7;", c!""),
  (c!"&#x2C6;", c!"\\hat"),
  (c!"&#xBA;", c!"o"),
  (c!"&#xB9;", c!"1"),
  (c!"&#xB8;", c!"¸"),
  (c!"&#xB4;", c!"´"),
  (c!"&#xB3;", c!"3"),
  (c!"&#xB2;", c!"2"),
  (c!"&#xB0;", c!"\\circ"),
  (c!"&#xAF;", c!"\\bar"),
  (c!"&#xAA;", c!"a"),
  (c!"&#xA8;", c!"\\cdot\\cdot"),
  (c!"~", c!"\\sim"),
  (c!"`", c!"`"),
  (c!"^", c!"\\hat"),
  (c!"--", c!"--"),
  (c!"++", c!"++"),
  (c!"&amp;", c!"\\&"),
  (c!"&#x2061;", c!""),
  (c!"&#x221C;", c!"\\sqrt[4]{}"),
  (c!"&#x221B;", c!"\\sqrt[3]{}"),
  (c!"&#x221A;", c!"\\sqrt{}"),
  (c!"&#x2146;", c!"d"),
  (c!"&#x2145;", c!"\\mathbb{D}"),
  (c!"?", c!"?"),
  (c!"@", c!"@"),
  (c!"//", c!"//"),
  (c!"!!", c!"!!"),
  (c!"!", c!"!"),
  (c!"&#x266F;", c!"\\#"),
  (c!"&#x266E;", c!""),
  (c!"&#x266D;", c!""),
  (c!"&#x2032;", c!"'"),
  (c!"&lt;>", c!"<>"),
  (c!"**", c!"\\star\\star"),
  (c!"&#x2207;", c!"\\nabla"),
  (c!"&#x2202;", c!"\\partial"),
  (c!"&#x2299;", c!"\\bigodot"),
  (c!"&#xAC;", c!"\\neg"),
  (c!"&#x2222;", c!"\\measuredangle"),
  (c!"&#x2221;", c!"\\measuredangle"),
  (c!"&#x2220;", c!"\\angle"),
  (c!"&#xF7;", c!"\\div"),
  (c!"/", c!"/"),
  (c!"&#x2216;", c!"\\backslash"),
  (c!"\\", c!"\\backslash"),
  (c!"%", c!"\\%"),
  (c!"&#x2297;", c!"\\bigotimes"),
  (c!"&#xB7;", c!"\\cdot"),
  (c!"&#x2A3F;", c!"\\coprod"),
  (c!"&#x2A2F;", c!"\\times"),
  (c!"&#x22C5;", c!"\\cdot"),
  (c!"&#x22A1;", c!"\\boxdot"),
  (c!"&#x22A0;", c!"\\boxtimes"),
  (c!"&#x2062;", c!""),
  (c!"&#x2043;", c!"-"),
  (c!"&#x2022;", c!"\\cdot"),
  (c!"&#xD7;", c!"\\times"),
  (c!".", c!"."),
  (c!"*", c!"\\star"),
  (c!"&#x222A;", c!"\\cup"),
  (c!"&#x2229;", c!"\\cap"),
  (c!"&#x2210;", c!"\\coprod"),
  (c!"&#x220F;", c!"\\prod"),
  (c!"&#x2240;", c!""),
  (c!"&#x2AFF;", c!""),
  (c!"&#x2AFC;", c!"\\mid\\mid\\mid"),
  (c!"&#x2A09;", c!"\\times"),
  (c!"&#x2A08;", c!""),
  (c!"&#x2A07;", c!""),
  (c!"&#x2A06;", c!"\\sqcup"),
  (c!"&#x2A05;", c!"\\sqcap"),
  (c!"&#x2A02;", c!"\\otimes"),
  (c!"&#x2A00;", c!"\\odot"),
  (c!"&#x22C2;", c!"\\cap"),
  (c!"&#x22C1;", c!"\\vee"),
  (c!"&#x22C0;", c!"\\wedge"),
  (c!"&#x2A04;", c!"\\uplus"),
  (c!"&#x2A03;", c!"\\cup"),
  (c!"&#x22C3;", c!"\\cup"),
  (c!"&#x2A1C;", c!"\\underline{\\int}"),
  (c!"&#x2A1B;", c!"\\overline{\\int}"),
  (c!"&#x2A1A;", c!"\\int"),
  (c!"&#x2A19;", c!"\\int"),
  (c!"&#x2A18;", c!"\\int"),
  (c!"&#x2A17;", c!"\\int"),
  (c!"&#x2A16;", c!"\\oint"),
  (c!"&#x2A15;", c!"\\oint"),
  (c!"&#x2A14;", c!"\\int"),
  (c!"&#x2A13;", c!"\\int"),
  (c!"&#x2A12;", c!"\\int"),
  (c!"&#x2A11;", c!"\\int"),
  (c!"&#x2A10;", c!"\\int"),
  (c!"&#x2A0F;", c!"\\bcancel{\\int}"),
  (c!"&#x2A0E;", c!""),
  (c!"&#x2A0D;", c!"\\hcancel{\\int}"),
  (c!"&#x2A0C;", c!"\\iiiint"),
  (c!"&#x2233;", c!"\\oint"),
  (c!"&#x2232;", c!"\\oint"),
  (c!"&#x2231;", c!"\\int"),
  (c!"&#x2230;", c!"\\oiint"),
  (c!"&#x222F;", c!"\\oiint"),
  (c!"&#x222E;", c!"\\oint"),
  (c!"&#x222B;", c!"\\int"),
  (c!"&#x2A01;", c!"\\oplus"),
  (c!"&#x2298;", c!"\\oslash"),
  (c!"&#x2296;", c!"\\ominus"),
  (c!"&#x2295;", c!"\\oplus"),
  (c!"&#x222D;", c!"\\iiint"),
  (c!"&#x222C;", c!"\\iint"),
  (c!"&#x2A0B;", c!""),
  (c!"&#x2A0A;", c!""),
  (c!"&#x2211;", c!"\\sum"),
  (c!"&#x229F;", c!"\\boxminus"),
  (c!"&#x229E;", c!"\\boxplus"),
  (c!"&#x2214;", c!"\\dot{+}"),
  (c!"&#x2213;", c!"+-"),
  (c!"&#x2212;", c!"-"),
  (c!"&#xB1;", c!"\\pm"),
  (c!"-", c!"-"),
  (c!"+", c!"+"),
  (c!"&#x2B46;", c!"\\Rrightarrow"),
  (c!"&#x2B45;", c!"\\Lleftarrow"),
  (c!"&#x29F4;", c!":\\rightarrow"),
  (c!"&#x29EF;", c!""),
  (c!"&#x29DF;", c!"\\bullet-\\bullet"),
  (c!"&#x299F;", c!"\\angle"),
  (c!"&#x299E;", c!"\\measuredangle"),
  (c!"&#x299D;", c!"\\measuredangle"),
  (c!"&#x299C;", c!"\\perp"),
  (c!"&#x299B;", c!"\\measuredangle"),
  (c!"&#x299A;", c!""),
  (c!"&#x2999;", c!"\\vdots"),
  (c!"&#x297F;", c!""),
  (c!"&#x297E;", c!""),
  (c!"&#x297D;", c!"\\prec"),
  (c!"&#x297C;", c!"\\succ"),
  (c!"&#x297B;", c!"\\underset{\\rightarrow}{\\supset}"),
  (c!"&#x297A;", c!""),
  (c!"&#x2979;", c!"\\underset{\\rightarrow}{\\subset}"),
  (c!"&#x2978;", c!"\\underset{\\rightarrow}{>}"),
  (c!"&#x2977;", c!""),
  (c!"&#x2976;", c!"\\underset{\\leftarrow}{<}"),
  (c!"&#x2975;", c!"\\underset{\\approx}{\\rightarrow}"),
  (c!"&#x2974;", c!"\\underset{\\sim}{\\rightarrow}"),
  (c!"&#x2973;", c!"\\underset{\\sim}{\\leftarrow}"),
  (c!"&#x2972;", c!"\\overset{\\sim}{\\rightarrow}"),
  (c!"&#x2971;", c!"\\overset{=}{\\rightarrow}"),
  (c!"&#x2970;", c!""),
  (c!"&#x296F;", c!""),
  (c!"&#x296E;", c!""),
  (c!"&#x296D;", c!"\\overline{\\rightharpoondown}"),
  (c!"&#x296C;", c!"\\underline{\\rightharpoonup}"),
  (c!"&#x296B;", c!"\\overline{\\leftharpoondown}"),
  (c!"&#x296A;", c!"\\underline{\\leftharpoonup}"),
  (c!"&#x2969;", c!"\\rightleftharpoons"),
  (c!"&#x2968;", c!"\\rightleftharpoons"),
  (c!"&#x2967;", c!"\\rightleftharpoons"),
  (c!"&#x2966;", c!"\\rightleftharpoons"),
  (c!"&#x2965;", c!"\\Downarrow"),
  (c!"&#x2964;", c!"\\Rightarrow"),
  (c!"&#x2963;", c!"\\Uparrow"),
  (c!"&#x2962;", c!"\\Leftarrow"),
  (c!"&#x2961;", c!"\\downarrow"),
  (c!"&#x2960;", c!"\\uparrow"),
  (c!"&#x295F;", c!"\\rightarrow"),
  (c!"&#x295E;", c!"\\leftarrow"),
  (c!"&#x295D;", c!"\\downarrow"),
  (c!"&#x295C;", c!"\\uparrow"),
  (c!"&#x295B;", c!"\\rightarrow"),
  (c!"&#x295A;", c!"\\leftarrow"),
  (c!"&#x2959;", c!"\\downarrow"),
  (c!"&#x2958;", c!"\\uparrow"),
  (c!"&#x2957;", c!"\\rightarrow"),
  (c!"&#x2956;", c!"\\leftarrow"),
  (c!"&#x2955;", c!"\\downarrow"),
  (c!"&#x2954;", c!"\\uparrow"),
  (c!"&#x2953;", c!"\\rightarrow"),
  (c!"&#x2952;", c!"\\leftarrow"),
  (c!"&#x2951;", c!"\\updownarrow"),
  (c!"&#x2950;", c!"\\leftrightarrow"),
  (c!"&#x294F;", c!"\\updownarrow"),
  (c!"&#x294E;", c!"\\leftrightarrow"),
  (c!"&#x294D;", c!"\\updownarrow"),
  (c!"&#x294C;", c!"\\updownarrow"),
  (c!"&#x294B;", c!"\\leftrightarrow"),
  (c!"&#x294A;", c!"\\leftrightarrow"),
  (c!"&#x2949;", c!""),
  (c!"&#x2948;", c!"\\leftrightarrow"),
  (c!"&#x2947;", c!"\\nrightarrow"),
  (c!"&#x2946;", c!""),
  (c!"&#x2945;", c!""),
  (c!"&#x2944;", c!"\\rightleftarrows"),
  (c!"&#x2943;", c!"\\leftrightarrows"),
  (c!"&#x2942;", c!"\\rightleftarrows"),
  (c!"&#x2941;", c!"\\circlearrowright"),
  (c!"&#x2940;", c!"\\circlearrowleft"),
  (c!"&#x293F;", c!"\\rightarrow"),
  (c!"&#x293E;", c!"\\leftarrow"),
  (c!"&#x293D;", c!""),
  (c!"&#x293C;", c!""),
  (c!"&#x293B;", c!""),
  (c!"&#x293A;", c!""),
  (c!"&#x2939;", c!""),
  (c!"&#x2938;", c!""),
  (c!"&#x2937;", c!"\\Rsh"),
  (c!"&#x2936;", c!"\\Lsh"),
  (c!"&#x2935;", c!"\\downarrow"),
  (c!"&#x2934;", c!"\\uparrow"),
  (c!"&#x2933;", c!"\\leadsto"),
  (c!"&#x2932;", c!""),
  (c!"&#x2931;", c!""),
  (c!"&#x2930;", c!""),
  (c!"&#x292F;", c!""),
  (c!"&#x292E;", c!""),
  (c!"&#x292D;", c!""),
  (c!"&#x292C;", c!"\\times"),
  (c!"&#x292B;", c!"\\times"),
  (c!"&#x292A;", c!""),
  (c!"&#x2929;", c!""),
  (c!"&#x2928;", c!""),
  (c!"&#x2927;", c!""),
  (c!"&#x2926;", c!""),
  (c!"&#x2925;", c!""),
  (c!"&#x2924;", c!""),
  (c!"&#x2923;", c!""),
  (c!"&#x2922;", c!""),
  (c!"&#x2921;", c!""),
  (c!"&#x2920;", c!"\\mapsto\\cdot"),
  (c!"&#x291F;", c!"\\cdot\\leftarrow"),
  (c!"&#x291E;", c!"\\rightarrow\\cdot"),
  (c!"&#x291D;", c!"\\leftarrow"),
  (c!"&#x291C;", c!"\\rightarrow"),
  (c!"&#x291B;", c!"\\leftarrow"),
  (c!"&#x291A;", c!"\\rightarrow"),
  (c!"&#x2919;", c!"\\leftarrow"),
  (c!"&#x2918;", c!"\\rightarrow"),
  (c!"&#x2917;", c!"\\rightarrow"),
  (c!"&#x2916;", c!"\\rightarrow"),
  (c!"&#x2915;", c!"\\rightarrow"),
  (c!"&#x2914;", c!"\\rightarrow"),
  (c!"&#x2913;", c!"\\downarrow"),
  (c!"&#x2912;", c!"\\uparrow"),
  (c!"&#x2911;", c!"\\rightarrow"),
  (c!"&#x2910;", c!"\\rightarrow"),
  (c!"&#x290F;", c!"\\rightarrow"),
  (c!"&#x290E;", c!"\\leftarrow"),
  (c!"&#x290D;", c!"\\rightarrow"),
  (c!"&#x290C;", c!"\\leftarrow"),
  (c!"&#x290B;", c!"\\Downarrow"),
  (c!"&#x290A;", c!"\\Uparrow"),
  (c!"&#x2909;", c!"\\uparrow"),
  (c!"&#x2908;", c!"\\downarrow"),
  (c!"&#x2907;", c!"\\Rightarrow"),
  (c!"&#x2906;", c!"\\Leftarrow"),
  (c!"&#x2905;", c!"\\mapsto"),
  (c!"&#x2904;", c!"\\nLeftrightarrow"),
  (c!"&#x2903;", c!"\\nRightarrow"),
  (c!"&#x2902;", c!"\\nLeftarrow"),
  (c!"&#x2901;", c!"\\rightsquigarrow"),
  (c!"&#x2900;", c!"\\rightsquigarrow"),
  (c!"&#x27FF;", c!"\\rightsquigarrow"),
  (c!"&#x27FE;", c!"\\Rightarrow"),
  (c!"&#x27FD;", c!"\\Leftarrow"),
  (c!"&#x27FC;", c!"\\mapsto"),
  (c!"&#x27FB;", c!"\\leftarrow"),
  (c!"&#x27FA;", c!"\\Longleftrightarrow"),
  (c!"&#x27F9;", c!"\\Longrightarrow"),
  (c!"&#x27F8;", c!"\\Longleftarrow"),
  (c!"&#x27F7;", c!"\\leftrightarrow"),
  (c!"&#x27F6;", c!"\\rightarrow"),
  (c!"&#x27F5;", c!"\\leftarrow"),
  (c!"&#x27F1;", c!"\\Downarrow"),
  (c!"&#x27F0;", c!"\\Uparrow"),
  (c!"&#x22B8;", c!"\\rightarrow"),
  (c!"&#x21FF;", c!"\\leftrightarrow"),
  (c!"&#x21FE;", c!"\\rightarrow"),
  (c!"&#x21FD;", c!"\\leftarrow"),
  (c!"&#x21FC;", c!"\\nleftrightarrow"),
  (c!"&#x21FB;", c!"\\nrightarrow"),
  (c!"&#x21FA;", c!"\\nleftarrow"),
  (c!"&#x21F9;", c!"\\nleftrightarrow"),
  (c!"&#x21F8;", c!"\\nrightarrow"),
  (c!"&#x21F7;", c!"\\nleftarrow"),
  (c!"&#x21F6;", c!"\\Rrightarrow"),
  (c!"&#x21F5;", c!""),
  (c!"&#x21F4;", c!"\\rightarrow"),
  (c!"&#x21F3;", c!"\\Updownarrow"),
  (c!"&#x21F2;", c!"\\searrow"),
  (c!"&#x21F1;", c!"\\nwarrow"),
  (c!"&#x21F0;", c!"\\Leftarrow"),
  (c!"&#x21EF;", c!"\\Uparrow"),
  (c!"&#x21EE;", c!"\\Uparrow"),
  (c!"&#x21ED;", c!"\\Uparrow"),
  (c!"&#x21EC;", c!"\\Uparrow"),
  (c!"&#x21EB;", c!"\\Uparrow"),
  (c!"&#x21EA;", c!"\\Uparrow"),
  (c!"&#x21E9;", c!"\\Downarrow"),
  (c!"&#x21E8;", c!"\\Rightarrow"),
  (c!"&#x21E7;", c!"\\Uparrow"),
  (c!"&#x21E6;", c!"\\Leftarrow"),
  (c!"&#x21E5;", c!"\\rightarrow"),
  (c!"&#x21E4;", c!"\\leftarrow"),
  (c!"&#x21E3;", c!"\\downarrow"),
  (c!"&#x21E2;", c!"\\rightarrow"),
  (c!"&#x21E1;", c!"\\uparrow"),
  (c!"&#x21E0;", c!"\\leftarrow"),
  (c!"&#x21DF;", c!"\\downarrow"),
  (c!"&#x21DE;", c!"\\uparrow"),
  (c!"&#x21DD;", c!"\\rightsquigarrow"),
  (c!"&#x21DC;", c!"\\leftarrow"),
  (c!"&#x21DB;", c!"\\Rrightarrow"),
  (c!"&#x21DA;", c!"\\Lleftarrow"),
  (c!"&#x21D9;", c!"\\swarrow"),
  (c!"&#x21D8;", c!"\\searrow"),
  (c!"&#x21D7;", c!"\\nearrow"),
  (c!"&#x21D6;", c!"\\nwarrow"),
  (c!"&#x21D5;", c!"\\Updownarrow"),
  (c!"&#x21D4;", c!"\\Leftrightarrow"),
  (c!"&#x21D3;", c!"\\Downarrow"),
  (c!"&#x21D2;", c!"\\Rightarrow"),
  (c!"&#x21D1;", c!"\\Uparrow"),
  (c!"&#x21D0;", c!"\\Leftarrow"),
  (c!"&#x21CF;", c!"\\nRightarrow"),
  (c!"&#x21CE;", c!"\\nLeftrightarrow"),
  (c!"&#x21CD;", c!"\\nLeftarrow"),
  (c!"&#x21CC;", c!"\\rightleftharpoons"),
  (c!"&#x21CB;", c!"\\leftrightharpoons"),
  (c!"&#x21CA;", c!"\\downdownarrows"),
  (c!"&#x21C9;", c!"\\rightrightarrows"),
  (c!"&#x21C8;", c!"\\upuparrows"),
  (c!"&#x21C7;", c!"\\leftleftarrows"),
  (c!"&#x21C6;", c!"\\leftrightarrows"),
  (c!"&#x21C5;", c!""),
  (c!"&#x21C4;", c!"\\rightleftarrows"),
  (c!"&#x21C3;", c!"\\downharpoonleft"),
  (c!"&#x21C2;", c!"\\downharpoonright"),
  (c!"&#x21C1;", c!"\\rightharpoondown"),
  (c!"&#x21C0;", c!"\\rightharpoonup"),
  (c!"&#x21BF;", c!"\\upharpoonleft"),
  (c!"&#x21BE;", c!"\\upharpoonright"),
  (c!"&#x21BD;", c!"\\leftharpoondown"),
  (c!"&#x21BC;", c!"\\leftharpoonup"),
  (c!"&#x21BB;", c!"\\circlearrowright"),
  (c!"&#x21BA;", c!"\\circlearrowleft"),
  (c!"&#x21B9;", c!"\\leftrightarrows"),
  (c!"&#x21B8;", c!"\\overline{\\nwarrow}"),
  (c!"&#x21B7;", c!"\\curvearrowright"),
  (c!"&#x21B6;", c!"\\curvearrowleft"),
  (c!"&#x21B5;", c!"\\swarrow"),
  (c!"&#x21B4;", c!"\\searrow"),
  (c!"&#x21B3;", c!"\\Rsh"),
  (c!"&#x21B2;", c!"\\Lsh"),
  (c!"&#x21B1;", c!"\\Rsh"),
  (c!"&#x21B0;", c!"\\Lsh"),
  (c!"&#x21AF;", c!"\\swarrow"),
  (c!"&#x21AE;", c!""),
  (c!"&#x21AD;", c!"\\leftrightsquigarrow"),
  (c!"&#x21AC;", c!"\\looparrowright"),
  (c!"&#x21AB;", c!"\\looparrowleft"),
  (c!"&#x21AA;", c!"\\hookrightarrow"),
  (c!"&#x21A9;", c!"\\hookleftarrow"),
  (c!"&#x21A8;", c!"\\underline{\\updownarrow}"),
  (c!"&#x21A7;", c!"\\downarrow"),
  (c!"&#x21A6;", c!"\\rightarrowtail"),
  (c!"&#x21A5;", c!"\\uparrow"),
  (c!"&#x21A4;", c!"\\leftarrowtail"),
  (c!"&#x21A3;", c!"\\rightarrowtail"),
  (c!"&#x21A2;", c!"\\leftarrowtail"),
  (c!"&#x21A1;", c!"\\downarrow"),
  (c!"&#x21A0;", c!"\\twoheadrightarrow"),
  (c!"&#x219F;", c!"\\uparrow"),
  (c!"&#x219E;", c!"\\twoheadleftarrow"),
  (c!"&#x219D;", c!"\\nearrow"),
  (c!"&#x219C;", c!"\\nwarrow"),
  (c!"&#x219B;", c!""),
  (c!"&#x219A;", c!""),
  (c!"&#x2199;", c!"\\swarrow"),
  (c!"&#x2198;", c!"\\searrow"),
  (c!"&#x2197;", c!"\\nearrow"),
  (c!"&#x2196;", c!"\\nwarrow"),
  (c!"&#x2195;", c!"\\updownarrow"),
  (c!"&#x2194;", c!"\\leftrightarrow"),
  (c!"&#x2193;", c!"\\downarrow"),
  (c!"&#x2192;", c!"\\rightarrow"),
  (c!"&#x2191;", c!"\\uparrow"),
  (c!"&#x2190;", c!"\\leftarrow"),
  (c!"|||", c!"\\left|||\\right."),
  (c!"||", c!"\\left||\\right."),
  (c!"|", c!"\\left|\\right."),
  (c!"&#x2AFE;", c!""),
  (c!"&#x2AFD;", c!"//"),
  (c!"&#x2AFB;", c!"///"),
  (c!"&#x2AFA;", c!""),
  (c!"&#x2AF9;", c!""),
  (c!"&#x2AF8;", c!""),
  (c!"&#x2AF7;", c!""),
  (c!"&#x2AF6;", c!"\\vdots"),
  (c!"&#x2AF5;", c!""),
  (c!"&#x2AF4;", c!""),
  (c!"&#x2AF3;", c!""),
  (c!"&#x2AF2;", c!"\\nparallel"),
  (c!"&#x2AF1;", c!""),
  (c!"&#x2AF0;", c!""),
  (c!"&#x2AEF;", c!""),
  (c!"&#x2AEE;", c!"\\bcancel{\\mid}"),
  (c!"&#x2AED;", c!""),
  (c!"&#x2AEC;", c!""),
  (c!"&#x2AEB;", c!""),
  (c!"&#x2AEA;", c!""),
  (c!"&#x2AE9;", c!""),
  (c!"&#x2AE8;", c!"\\underline{\\perp}"),
  (c!"&#x2AE7;", c!"\\overline{\\top}"),
  (c!"&#x2AE6;", c!""),
  (c!"&#x2AE5;", c!""),
  (c!"&#x2AE4;", c!""),
  (c!"&#x2AE3;", c!""),
  (c!"&#x2AE2;", c!""),
  (c!"&#x2AE1;", c!""),
  (c!"&#x2AE0;", c!"\\perp"),
  (c!"&#x2ADF;", c!"\\top"),
  (c!"&#x2ADE;", c!"\\dashv"),
  (c!"&#x2ADD;&#x338;", c!""),
  (c!"&#x2ADD;", c!""),
  (c!"&#x2ADB;", c!"\\pitchfork"),
  (c!"&#x2ADA;", c!""),
  (c!"&#x2AD9;", c!""),
  (c!"&#x2AD8;", c!""),
  (c!"&#x2AD7;", c!""),
  (c!"&#x2AD6;", c!""),
  (c!"&#x2AD5;", c!""),
  (c!"&#x2AD4;", c!""),
  (c!"&#x2AD3;", c!""),
  (c!"&#x2AD2;", c!""),
  (c!"&#x2AD1;", c!""),
  (c!"&#x2AD0;", c!""),
  (c!"&#x2ACF;", c!""),
  (c!"&#x2ACE;", c!""),
  (c!"&#x2ACD;", c!""),
  (c!"&#x2ACC;", c!"\\underset{\\neq}{\\supset}"),
  (c!"&#x2ACB;", c!"\\underset{\\neq}{\\subset}"),
  (c!"&#x2ACA;", c!"\\underset{\\approx}{\\supset}"),
  (c!"&#x2AC9;", c!"\\underset{\\approx}{\\subset}"),
  (c!"&#x2AC8;", c!"\\underset{\\sim}{\\supset}"),
  (c!"&#x2AC7;", c!"\\underset{\\sim}{\\subset}"),
  (c!"&#x2AC6;", c!"\\supseteqq"),
  (c!"&#x2AC5;", c!"\\subseteqq"),
  (c!"&#x2AC4;", c!"\\dot{\\supseteq}"),
  (c!"&#x2AC3;", c!"\\dot{\\subseteq}"),
  (c!"&#x2AC2;", c!"\\underset{\\times}{\\supset}"),
  (c!"&#x2AC1;", c!"\\underset{\\times}{\\subset}"),
  (c!"&#x2AC0;", c!"\\underset{+}{\\supset}"),
  (c!"&#x2ABF;", c!"\\underset{+}{\\subset}"),
  (c!"&#x2ABE;", c!""),
  (c!"&#x2ABD;", c!""),
  (c!"&#x2ABC;", c!"\\gg "),
  (c!"&#x2ABB;", c!"\\ll"),
  (c!"&#x2ABA;", c!"\\underset{\\cancel{\\approx}}{\\succ}"),
  (c!"&#x2AB9;", c!"\\underset{\\cancel{\\approx}}{\\prec}"),
  (c!"&#x2AB8;", c!"\\underset{\\approx}{\\succ}"),
  (c!"&#x2AB7;", c!"\\underset{\\approx}{\\prec}"),
  (c!"&#x2AB6;", c!"\\underset{\\cancel{=}}{\\succ}"),
  (c!"&#x2AB5;", c!"\\underset{\\cancel{=}}{\\prec}"),
  (c!"&#x2AB4;", c!"\\underset{=}{\\succ}"),
  (c!"&#x2AB3;", c!"\\underset{=}{\\prec}"),
  (c!"&#x2AB2;", c!""),
  (c!"&#x2AB1;", c!""),
  (c!"&#x2AAE;", c!""),
  (c!"&#x2AAD;", c!"\\underline{\\hcancel{>}}"),
  (c!"&#x2AAC;", c!"\\underline{\\hcancel{>}}"),
  (c!"&#x2AAB;", c!"\\hcancel{>}"),
  (c!"&#x2AAA;", c!"\\hcancel{<}"),
  (c!"&#x2AA9;", c!""),
  (c!"&#x2AA8;", c!""),
  (c!"&#x2AA7;", c!"\\vartriangleright"),
  (c!"&#x2AA6;", c!"\\vartriangleleft"),
  (c!"&#x2AA5;", c!"><"),
  (c!"&#x2AA4;", c!"><"),
  (c!"&#x2AA3;", c!"\\underline{\\ll}"),
  (c!"&#x2AA2;&#x338;", c!"\\cancel{\\gg}"),
  (c!"&#x2AA2;", c!"\\gg"),
  (c!"&#x2AA1;&#x338;", c!"\\cancel{\\ll}"),
  (c!"&#x2AA1;", c!"\\ll"),
  (c!"&#x2AA0;", c!"\\overset{\\sim}{\\geqq}"),
  (c!"&#x2A9F;", c!"\\overset{\\sim}{\\leqq}"),
  (c!"&#x2A9E;", c!"\\overset{\\sim}{>}"),
  (c!"&#x2A9D;", c!"\\overset{\\sim}{<}"),
  (c!"&#x2A9C;", c!""),
  (c!"&#x2A9B;", c!""),
  (c!"&#x2A9A;", c!"\\overset{=}{>}"),
  (c!"&#x2A99;", c!"\\overset{=}{<}"),
  (c!"&#x2A98;", c!""),
  (c!"&#x2A97;", c!""),
  (c!"&#x2A96;", c!""),
  (c!"&#x2A95;", c!""),
  (c!"&#x2A94;", c!""),
  (c!"&#x2A93;", c!""),
  (c!"&#x2A92;", c!"\\underset{=}{\\gtrless}"),
  (c!"&#x2A91;", c!"\\underset{=}{\\lessgtr}"),
  (c!"&#x2A90;", c!"\\underset{<}{\\gtrsim}"),
  (c!"&#x2A8F;", c!"\\underset{>}{\\lesssim}"),
  (c!"&#x2A8E;", c!"\\underset{\\simeq}{>}"),
  (c!"&#x2A8D;", c!"\\underset{\\simeq}{<}"),
  (c!"&#x2A8C;", c!"\\gtreqqless"),
  (c!"&#x2A8B;", c!"\\lesseqqgtr"),
  (c!"&#x2A8A;", c!"\\underset{\\cancel{\\approx}}{>}"),
  (c!"&#x2A89;", c!"\\underset{\\approx}{<}"),
  (c!"&#x2A86;", c!"\\underset{\\approx}{>}"),
  (c!"&#x2A85;", c!"\\underset{\\approx}{<}"),
  (c!"&#x2A84;", c!""),
  (c!"&#x2A83;", c!""),
  (c!"&#x2A82;", c!""),
  (c!"&#x2A81;", c!""),
  (c!"&#x2A80;", c!""),
  (c!"&#x2A7F;", c!""),
  (c!"&#x2A7E;&#x338;", c!"\\bcancel{\\geq}"),
  (c!"&#x2A7E;", c!"\\geq"),
  (c!"&#x2A7D;&#x338;", c!"\\bcancel{\\leq}"),
  (c!"&#x2A7D;", c!"\\leq"),
  (c!"&#x2A7C;", c!""),
  (c!"&#x2A7B;", c!""),
  (c!"&#x2A7A;", c!""),
  (c!"&#x2A79;", c!""),
  (c!"&#x2A78;", c!"\\overset{\\dots}{\\equiv}"),
  (c!"&#x2A77;", c!""),
  (c!"&#x2A76;", c!"==="),
  (c!"&#x2A75;", c!"=="),
  (c!"&#x2A74;", c!"::="),
  (c!"&#x2A73;", c!""),
  (c!"&#x2A72;", c!"\\underset{=}{+}"),
  (c!"&#x2A71;", c!"\\overset{=}{+}"),
  (c!"&#x2A70;", c!"\\overset{\\approx}{=}"),
  (c!"&#x2A6F;", c!"\\overset{\\wedge}{=}"),
  (c!"&#x2A6E;", c!"\\overset{*}{=}"),
  (c!"&#x2A6D;", c!"\\dot{\\approx}"),
  (c!"&#x2A6C;", c!""),
  (c!"&#x2A6B;", c!""),
  (c!"&#x2A6A;", c!"\\dot{\\sim}"),
  (c!"&#x2A69;", c!""),
  (c!"&#x2A68;", c!""),
  (c!"&#x2A67;", c!"\\dot{\\equiv}"),
  (c!"&#x2A66;", c!"\\underset{\\cdot}{=}"),
  (c!"&#x2A65;", c!""),
  (c!"&#x2A64;", c!""),
  (c!"&#x2A63;", c!"\\underset{=}{\\vee}"),
  (c!"&#x2A62;", c!"\\overset{=}{\\vee}"),
  (c!"&#x2A61;", c!"ul(vv)"),
  (c!"&#x2A60;", c!"\\underset{=}{\\wedge}"),
  (c!"&#x2A5F;", c!"\\underline{\\wedge}"),
  (c!"&#x2A5E;", c!"\\overset{=}{\\wedge}"),
  (c!"&#x2A5D;", c!"\\hcancel{\\vee}"),
  (c!"&#x2A5C;", c!"\\hcancel{\\wedge}"),
  (c!"&#x2A5B;", c!""),
  (c!"&#x2A5A;", c!""),
  (c!"&#x2A59;", c!""),
  (c!"&#x2A58;", c!"\\vee"),
  (c!"&#x2A57;", c!"\\wedge"),
  (c!"&#x2A56;", c!""),
  (c!"&#x2A55;", c!""),
  (c!"&#x2A54;", c!""),
  (c!"&#x2A53;", c!""),
  (c!"&#x2A52;", c!"\\dot{\\vee}"),
  (c!"&#x2A51;", c!"\\dot{\\wedge}"),
  (c!"&#x2A50;", c!""),
  (c!"&#x2A4F;", c!""),
  (c!"&#x2A4E;", c!""),
  (c!"&#x2A4D;", c!"\\overline{\\cap}"),
  (c!"&#x2A4C;", c!"\\overline{\\cup}"),
  (c!"&#x2A4B;", c!""),
  (c!"&#x2A4A;", c!""),
  (c!"&#x2A49;", c!""),
  (c!"&#x2A48;", c!""),
  (c!"&#x2A47;", c!""),
  (c!"&#x2A46;", c!""),
  (c!"&#x2A45;", c!""),
  (c!"&#x2A44;", c!""),
  (c!"&#x2A43;", c!"\\overline{\\cap}"),
  (c!"&#x2A42;", c!"\\overline{\\cup}"),
  (c!"&#x2A41;", c!""),
  (c!"&#x2A40;", c!""),
  (c!"&#x2A3E;", c!""),
  (c!"&#x2A3D;", c!"\\llcorner"),
  (c!"&#x2A3C;", c!"\\lrcorner"),
  (c!"&#x2A3B;", c!""),
  (c!"&#x2A3A;", c!""),
  (c!"&#x2A39;", c!""),
  (c!"&#x2A38;", c!""),
  (c!"&#x2A37;", c!""),
  (c!"&#x2A36;", c!"\\hat{\\otimes}"),
  (c!"&#x2A35;", c!""),
  (c!"&#x2A34;", c!""),
  (c!"&#x2A33;", c!""),
  (c!"&#x2A32;", c!"\\underline{\\times}"),
  (c!"&#x2A31;", c!"\\underline{\\times}"),
  (c!"&#x2A30;", c!"\\dot{\\times}"),
  (c!"&#x2A2E;", c!""),
  (c!"&#x2A2D;", c!""),
  (c!"&#x2A2C;", c!""),
  (c!"&#x2A2B;", c!""),
  (c!"&#x2A2A;", c!""),
  (c!"&#x2A29;", c!""),
  (c!"&#x2A28;", c!""),
  (c!"&#x2A27;", c!""),
  (c!"&#x2A26;", c!"\\underset{\\sim}{+}"),
  (c!"&#x2A25;", c!"\\underset{\\circ}{+}"),
  (c!"&#x2A24;", c!"\\overset{\\sim}{+}"),
  (c!"&#x2A23;", c!"\\hat{+}"),
  (c!"&#x2A22;", c!"\\dot{+}"),
  (c!"&#x2A21;", c!"\\upharpoonright"),
  (c!"&#x2A20;", c!">>"),
  (c!"&#x2A1F;", c!""),
  (c!"&#x2A1E;", c!"\\triangleleft"),
  (c!"&#x2A1D;", c!"\\bowtie"),
  (c!"&#x29FF;", c!""),
  (c!"&#x29FE;", c!"+"),
  (c!"&#x29FB;", c!"\\hcancel{|||}"),
  (c!"&#x29FA;", c!"\\hcancel{||}"),
  (c!"&#x29F9;", c!"\\backslash"),
  (c!"&#x29F8;", c!"/"),
  (c!"&#x29F7;", c!"hcancel{\u0008ackslash}"),
  (c!"&#x29F6;", c!""),
  (c!"&#x29F5;", c!"\\backslash"),
  (c!"&#x29F2;", c!"\\Phi"),
  (c!"&#x29F1;", c!""),
  (c!"&#x29F0;", c!""),
  (c!"&#x29EE;", c!""),
  (c!"&#x29ED;", c!""),
  (c!"&#x29EC;", c!""),
  (c!"&#x29EB;", c!"\\lozenge"),
  (c!"&#x29EA;", c!""),
  (c!"&#x29E9;", c!""),
  (c!"&#x29E8;", c!""),
  (c!"&#x29E7;", c!"\\ddagger"),
  (c!"&#x29E2;", c!"\\sqcup\\sqcup"),
  (c!"&#x29E1;", c!""),
  (c!"&#x29E0;", c!"\\square"),
  (c!"&#x29DE;", c!""),
  (c!"&#x29DD;", c!""),
  (c!"&#x29DC;", c!""),
  (c!"&#x29DB;", c!"\\{\\{"),
  (c!"&#x29D9;", c!"\\{"),
  (c!"&#x29D8;", c!"\\}"),
  (c!"&#x29D7;", c!""),
  (c!"&#x29D6;", c!""),
  (c!"&#x29D5;", c!"\\bowtie"),
  (c!"&#x29D4;", c!"\\bowtie"),
  (c!"&#x29D3;", c!"\\bowtie"),
  (c!"&#x29D2;", c!"\\bowtie"),
  (c!"&#x29D1;", c!"\\bowtie"),
  (c!"&#x29D0;&#x338;", c!"| \\not\\triangleright"),
  (c!"&#x29D0;", c!"| \\triangleright"),
  (c!"&#x29CF;&#x338;", c!"\\not\\triangleleft |"),
  (c!"&#x29CF;", c!"\\triangleleft |"),
  (c!"&#x29CE;", c!""),
  (c!"&#x29CD;", c!"\\triangle"),
  (c!"&#x29CC;", c!""),
  (c!"&#x29CB;", c!"\\underline{\\triangle}"),
  (c!"&#x29CA;", c!"\\dot{\\triangle}"),
  (c!"&#x29C9;", c!""),
  (c!"&#x29C8;", c!"\\boxed{\\circ}"),
  (c!"&#x29C7;", c!"\\boxed{\\circ}"),
  (c!"&#x29C6;", c!"\\boxed{\\rightarrow}"),
  (c!"&#x29C5;", c!"\\bcancel{\\square}"),
  (c!"&#x29C4;", c!"\\cancel{\\square}"),
  (c!"&#x29C3;", c!"\\odot"),
  (c!"&#x29C2;", c!"\\odot"),
  (c!"&#x29BF;", c!"\\odot"),
  (c!"&#x29BE;", c!"\\odot"),
  (c!"&#x29BD;", c!"\\varnothing"),
  (c!"&#x29BC;", c!"\\oplus"),
  (c!"&#x29BB;", c!"\\otimes"),
  (c!"&#x29BA;", c!""),
  (c!"&#x29B9;", c!"\\varnothing"),
  (c!"&#x29B8;", c!"\\varnothing"),
  (c!"&#x29B7;", c!"\\ominus"),
  (c!"&#x29B6;", c!"\\ominus"),
  (c!"&#x29B5;", c!"\\ominus"),
  (c!"&#x29B4;", c!"\\vec{\\varnothing}"),
  (c!"&#x29B3;", c!"\\vec{\\varnothing}"),
  (c!"&#x29B2;", c!"\\dot{\\varnothing}"),
  (c!"&#x29B1;", c!"\\overline{\\varnothing}"),
  (c!"&#x29B0;", c!"\\varnothing"),
  (c!"&#x29AF;", c!""),
  (c!"&#x29AE;", c!""),
  (c!"&#x29AD;", c!""),
  (c!"&#x29AC;", c!""),
  (c!"&#x29AB;", c!""),
  (c!"&#x29AA;", c!""),
  (c!"&#x29A9;", c!""),
  (c!"&#x29A8;", c!""),
  (c!"&#x29A7;", c!""),
  (c!"&#x29A6;", c!""),
  (c!"&#x29A5;", c!""),
  (c!"&#x29A4;", c!""),
  (c!"&#x29A3;", c!""),
  (c!"&#x29A2;", c!""),
  (c!"&#x29A1;", c!"\\not\\lor"),
  (c!"&#x29A0;", c!"\\bcancel{>}"),
  (c!"&#x2982;", c!":"),
  (c!"&#x2981;", c!"\\circ"),
  (c!"&#x2758;", c!"|"),
  (c!"&#x25B2;", c!"\\bigtriangleup"),
  (c!"&#x22FF;", c!"\\Epsilon"),
  (c!"&#x22FE;", c!"\\overline{\\ni}"),
  (c!"&#x22FD;", c!"\\overline{\\ni}"),
  (c!"&#x22FC;", c!"\\in"),
  (c!"&#x22FB;", c!"\\in"),
  (c!"&#x22FA;", c!"\\in"),
  (c!"&#x22F9;", c!"\\underline{\\in}"),
  (c!"&#x22F8;", c!"\\underline{\\in}"),
  (c!"&#x22F7;", c!"\\overline{\\in}"),
  (c!"&#x22F6;", c!"\\overline{\\in}"),
  (c!"&#x22F5;", c!"\\dot{\\in}"),
  (c!"&#x22F4;", c!"\\in"),
  (c!"&#x22F3;", c!"\\in"),
  (c!"&#x22F2;", c!"\\in"),
  (c!"&#x22F0;", c!"\\ddots"),
  (c!"&#x22E9;", c!"\\underset{\\sim}{\\succ}"),
  (c!"&#x22E8;", c!"\\underset{\\sim}{\\prec}"),
  (c!"&#x22E7;", c!"\\underset{\\not\\sim}{>}"),
  (c!"&#x22E6;", c!"\\underset{\\not\\sim}{<}"),
  (c!"&#x22E5;", c!"\\not\\sqsupseteq"),
  (c!"&#x22E4;", c!"\\not\\sqsubseteq"),
  (c!"&#x22E3;", c!"\\not\\sqsupseteq"),
  (c!"&#x22E2;", c!"\\not\\sqsubseteq"),
  (c!"&#x22E1;", c!"\\nsucc"),
  (c!"&#x22E0;", c!"\\nprec"),
  (c!"&#x22DF;", c!"\\succ"),
  (c!"&#x22DE;", c!"\\prec"),
  (c!"&#x22DD;", c!"\\overline{>}"),
  (c!"&#x22DC;", c!"\\overline{<}"),
  (c!"&#x22DB;", c!"\\underset{>}{\\leq}"),
  (c!"&#x22DA;", c!"\\underset{<}{\\geq}"),
  (c!"&#x22D5;", c!"\\#"),
  (c!"&#x22D3;", c!"\\cup"),
  (c!"&#x22D2;", c!"\\cap"),
  (c!"&#x22D1;", c!"\\supset"),
  (c!"&#x22D0;", c!"\\subset"),
  (c!"&#x22CF;", c!"\\wedge"),
  (c!"&#x22CE;", c!"\\vee"),
  (c!"&#x22CD;", c!"\\simeq"),
  (c!"&#x22C8;", c!"\\bowtie"),
  (c!"&#x22C7;", c!"\\ast"),
  (c!"&#x22C6;", c!"\\star"),
  (c!"&#x22C4;", c!"\\diamond"),
  (c!"&#x22BF;", c!"\\triangle"),
  (c!"&#x22BE;", c!"\\measuredangle"),
  (c!"&#x22BD;", c!"\\overline{\\lor}"),
  (c!"&#x22BC;", c!"\\overline{\\land}"),
  (c!"&#x22BB;", c!"\\underline{\\lor}"),
  (c!"&#x22BA;", c!"\\top"),
  (c!"&#x22B9;", c!""),
  (c!"&#x22B7;", c!"\\circ\\multimap"),
  (c!"&#x22B6;", c!"\\circ\\multimap"),
  (c!"&#x22B3;", c!"\\triangleright"),
  (c!"&#x22B2;", c!"\\triangleleft"),
  (c!"&#x22B1;", c!"\\succ"),
  (c!"&#x22B0;", c!"\\prec"),
  (c!"&#x22AB;", c!"|\\models"),
  (c!"&#x22AA;", c!"|\\models"),
  (c!"&#x22A7;", c!"\\models"),
  (c!"&#x22A6;", c!"\\vdash"),
  (c!"&#x229D;", c!"\\ominus"),
  (c!"&#x229C;", c!"\\ominus"),
  (c!"&#x229B;", c!"\\odot"),
  (c!"&#x229A;", c!"\\odot"),
  (c!"&#x2294;", c!"\\sqcup"),
  (c!"&#x2293;", c!"\\sqcap"),
  (c!"&#x2292;", c!"\\sqsupseteq"),
  (c!"&#x2291;", c!"\\sqsubseteq"),
  (c!"&#x2290;&#x338;", c!"\\not\\sqsupset"),
  (c!"&#x2290;", c!"\\sqsupset"),
  (c!"&#x228F;&#x338;", c!"\\not\\sqsubset"),
  (c!"&#x228F;", c!"\\sqsubset"),
  (c!"&#x228E;", c!"\\cup"),
  (c!"&#x228D;", c!"\\cup"),
  (c!"&#x228C;", c!"\\cup"),
  (c!"&#x227F;&#x338;", c!"\\not\\succsim"),
  (c!"&#x227F;", c!"\\succsim"),
  (c!"&#x227E;", c!"\\precsim"),
  (c!"&#x2279;", c!"\\not\\overset{>}{<}"),
  (c!"&#x2278;", c!"\\not\\overset{>}{<}"),
  (c!"&#x2277;", c!"\\overset{>}{<}"),
  (c!"&#x2276;", c!"\\overset{<}{>}"),
  (c!"&#x2275;", c!"\\not\\geg"),
  (c!"&#x2274;", c!"\\not\\leq"),
  (c!"&#x2273;", c!"\\geg"),
  (c!"&#x2272;", c!"\\leq"),
  (c!"&#x226C;", c!""),
  (c!"&#x2267;", c!"\\geg"),
  (c!"&#x2266;&#x338;", c!"\\not\\leq"),
  (c!"&#x2266;", c!"\\leq"),
  (c!"&#x2263;", c!"\\overset{=}{=} "),
  (c!"&#x225E;", c!"\\overset{m}{=} "),
  (c!"&#x225D;", c!"\\overset{def}{=}"),
  (c!"&#x2258;", c!"="),
  (c!"&#x2256;", c!"="),
  (c!"&#x2255;", c!"=:"),
  (c!"&#x2253;", c!"\\doteq"),
  (c!"&#x2252;", c!"\\doteq"),
  (c!"&#x2251;", c!"\\doteq"),
  (c!"&#x2250;", c!"\\doteq"),
  (c!"&#x224F;&#x338;", c!""),
  (c!"&#x224F;", c!""),
  (c!"&#x224E;&#x338;", c!""),
  (c!"&#x224E;", c!""),
  (c!"&#x224C;", c!"\\approx"),
  (c!"&#x224B;", c!"\\approx"),
  (c!"&#x224A;", c!"\\approx"),
  (c!"&#x2242;&#x338;", c!"\\neq"),
  (c!"&#x2242;", c!"="),
  (c!"&#x223F;", c!"\\sim"),
  (c!"&#x223E;", c!"\\infty"),
  (c!"&#x223D;&#x331;", c!"\\sim"),
  (c!"&#x223D;", c!"\\sim"),
  (c!"&#x223B;", c!"\\sim"),
  (c!"&#x223A;", c!":-:"),
  (c!"&#x2239;", c!"-:"),
  (c!"&#x2238;", c!"\\bot"),
  (c!"&#x2237;", c!"::"),
  (c!"&#x2236;", c!":"),
  (c!"&#x2223;", c!"|"),
  (c!"&#x221F;", c!"\\llcorner"),
  (c!"&#x2219;", c!"\\cdot"),
  (c!"&#x2218;", c!"\\circ"),
  (c!"&#x2217;", c!"*"),
  (c!"&#x2215;", c!"/"),
  (c!"&#x220E;", c!"\\square"),
  (c!"&#x220D;", c!"\\ni"),
  (c!"&#x220A;", c!"\\in"),
  (c!"&#x2206;", c!"\\Delta"),
  (c!"&#x2044;", c!"/"),
  (c!"&#x2AB0;&#x338;", c!"\\nsucceq"),
  (c!"&#x2AB0;", c!"\\succeq"),
  (c!"&#x2AAF;&#x338;", c!"\\npreceq"),
  (c!"&#x2AAF;", c!"\\preceq"),
  (c!"&#x2A88;", c!"\\ngeqslant"),
  (c!"&#x2A87;", c!"\\nleqslant"),
  (c!"&#x29F3;", c!"\\Phi"),
  (c!"&#x29E6;", c!"\\models"),
  (c!"&#x29E5;", c!"\\not\\equiv"),
  (c!"&#x29E4;", c!"\\approx\\neq"),
  (c!"&#x29E3;", c!"\\neq"),
  (c!"&#x29C1;", c!"\\circle"),
  (c!"&#x29C0;", c!"\\circle"),
  (c!"&#x25E6;", c!"\\circle"),
  (c!"&#x25D7;", c!"\\circle"),
  (c!"&#x25D6;", c!"\\circle"),
  (c!"&#x25CF;", c!"\\circle"),
  (c!"&#x25CE;", c!"\\circledcirc"),
  (c!"&#x25CD;", c!"\\circledcirc"),
  (c!"&#x25CC;", c!"\\circledcirc"),
  (c!"&#x25C9;", c!"\\circledcirc"),
  (c!"&#x25C8;", c!"\\diamond"),
  (c!"&#x25C7;", c!"\\diamond"),
  (c!"&#x25C6;", c!"\\diamond"),
  (c!"&#x25C5;", c!"\\triangleleft"),
  (c!"&#x25C4;", c!"\\triangleleft"),
  (c!"&#x25C3;", c!"\\triangleleft"),
  (c!"&#x25C2;", c!"\\triangleleft"),
  (c!"&#x25C1;", c!"\\triangleleft"),
  (c!"&#x25C0;", c!"\\triangleleft"),
  (c!"&#x25BF;", c!"\\triangledown"),
  (c!"&#x25BE;", c!"\\triangledown"),
  (c!"&#x25BD;", c!"\\triangledown"),
  (c!"&#x25BC;", c!"\\triangledown"),
  (c!"&#x25B9;", c!"\\triangleright"),
  (c!"&#x25B8;", c!"\\triangleright"),
  (c!"&#x25B7;", c!"\\triangleright"),
  (c!"&#x25B6;", c!"\\triangleright"),
  (c!"&#x25B5;", c!"\\triangle"),
  (c!"&#x25B4;", c!"\\triangle"),
  (c!"&#x25B3;", c!"\\triangle"),
  (c!"&#x25B1;", c!"\\square"),
  (c!"&#x25B0;", c!"\\square"),
  (c!"&#x25AF;", c!"\\square"),
  (c!"&#x25AE;", c!"\\square"),
  (c!"&#x25AD;", c!"\\square"),
  (c!"&#x25AB;", c!"\\square"),
  (c!"&#x25AA;", c!"\\square"),
  (c!"&#x25A1;", c!"\\square"),
  (c!"&#x25A0;", c!"\\square"),
  (c!"&#x22ED;", c!"\\not\\triangleright"),
  (c!"&#x22EC;", c!"\\not\\triangleleft"),
  (c!"&#x22EB;", c!"\\not\\triangleright"),
  (c!"&#x22EA;", c!"\\not\\triangleleft"),
  (c!"&#x22D9;", c!"\\ggg"),
  (c!"&#x22D8;", c!"\\lll"),
  (c!"&#x22D7;", c!"*>"),
  (c!"&#x22D6;", c!"<*"),
  (c!"&#x22D4;", c!"\\pitchfork"),
  (c!"&#x22CC;", c!""),
  (c!"&#x22CB;", c!""),
  (c!"&#x22CA;", c!"\\rtimes"),
  (c!"&#x22C9;", c!"\\ltimes"),
  (c!"&#x22B5;", c!"\\triangleright"),
  (c!"&#x22B4;", c!""),
  (c!"&#x22A5;", c!"\\bot"),
  (c!"&#x2281;", c!"\\nsucc"),
  (c!"&#x2280;", c!"\\preceq"),
  (c!"&#x227D;", c!"\\succeq"),
  (c!"&#x227C;", c!"\\preceq"),
  (c!"&#x227B;", c!"\\succ"),
  (c!"&#x227A;", c!"\\prec"),
  (c!"&#x2271;", c!"\\geq/"),
  (c!"&#x2270;", c!"\\leq/"),
  (c!"&#x226D;", c!"\\neq"),
  (c!"&#x226B;&#x338;", c!"\\not\\gg"),
  (c!"&#x226B;", c!"\\gg"),
  (c!"&#x226A;&#x338;", c!"\\not\\ll"),
  (c!"&#x226A;", c!"\\ll"),
  (c!"&#x2269;", c!"\\ngeqslant"),
  (c!"&#x2268;", c!"\\nleqslant"),
  (c!"&#x2261;", c!"\\equiv"),
  (c!"&#x225F;", c!"\\doteq"),
  (c!"&#x225C;", c!"\\triangleq"),
  (c!"&#x225B;", c!"\\doteq"),
  (c!"&#x225A;", c!"\\triangleq"),
  (c!"&#x2259;", c!"\\triangleq"),
  (c!"&#x2257;", c!"\\doteq"),
  (c!"&#x2254;", c!":="),
  (c!"&#x224D;", c!"\\asymp"),
  (c!"&#x2247;", c!"\\ncong"),
  (c!"&#x2246;", c!"\\ncong"),
  (c!"&#x2245;", c!"\\cong"),
  (c!"&#x2244;", c!"\\not\\simeq"),
  (c!"&#x2243;", c!"\\simeq"),
  (c!"&#x2241;", c!"\\not\\sim"),
  (c!"&#x2226;", c!"\\not\\parallel"),
  (c!"&#x2225;", c!"\\parallel"),
  (c!"&#x2224;", c!"\\not|"),
  (c!"&#x221D;", c!"\\propto"),
  (c!"==", c!"=="),
  (c!"=", c!"="),
  (c!":=", c!":="),
  (c!"/=", c!"="),
  (c!"-=", c!"-="),
  (c!"+=", c!"+="),
  (c!"*=", c!"*="),
  (c!"!=", c!"!="),
  (c!"&#x2260;", c!"\\neq"),
  (c!"&#x2262;", c!"\\equiv /"),
  (c!"&#x2249;", c!"\\approx /"),
  (c!"&#x223C;", c!"sim"),
  (c!"&#x2248;", c!"\\approx"),
  (c!"&#x226E;", c!"</"),
  (c!"&lt;", c!"<"),
  (c!"&#x226F;", c!">/"),
  (c!">=", c!">="),
  (c!">", c!">"),
  (c!"&#x2265;", c!"\\geq"),
  (c!"&#x2264;", c!"\\leq"),
  (c!"&lt;=", c!"<="),
  (c!"&#x228B;", c!"\\supsetneq"),
  (c!"&#x228A;", c!"\\subsetneq"),
  (c!"&#x2289;", c!"\\nsupseteq"),
  (c!"&#x2288;", c!"\\nsubseteq"),
  (c!"&#x2287;", c!"\\supseteq"),
  (c!"&#x2286;", c!"\\subseteq"),
  (c!"&#x2285;", c!"\\not\\supset"),
  (c!"&#x2284;", c!"\\not\\subset"),
  (c!"&#x2283;&#x20D2;", c!"\\supset |"),
  (c!"&#x2283;", c!"\\supset"),
  (c!"&#x2282;&#x20D2;", c!"\\subset |"),
  (c!"&#x2282;", c!"\\subset"),
  (c!"&#x220C;", c!"\\not\\in"),
  (c!"&#x2209;", c!"\\notin"),
  (c!"&#x2208;", c!"\\in"),
  (c!"&#x2201;", c!"C"),
  (c!"&#x2204;", c!"\\nexists"),
  (c!"&#x2203;", c!"\\exists"),
  (c!"&#x2200;", c!"\\forall"),
  (c!"&#x2227;", c!"\\land"),
  (c!"&amp;&amp;", c!"\\&\\&"),
  (c!"&#x2228;", c!"\\lor"),
  (c!"&#x22AF;", c!"\\cancel{\\vDash}"),
  (c!"&#x22AE;", c!"\\cancel{\\Vdash}"),
  (c!"&#x22AD;", c!"\\nvDash"),
  (c!"&#x22AC;", c!"\\nvDash"),
  (c!"&#x22A9;", c!"\\Vdash"),
  (c!"&#x22A8;", c!"\\vDash"),
  (c!"&#x22A4;", c!"\\top"),
  (c!"&#x22A3;", c!"\\dashv"),
  (c!"&#x22A2;", c!"\\vdash"),
  (c!"&#x220B;", c!"\\ni"),
  (c!"&#x22F1;", c!"\\ddots"),
  (c!"&#x22EF;", c!"\\hdots"),
  (c!"&#x22EE;", c!"\\vdots"),
  (c!"&#x2026;", c!"\\hdots"),
  (c!"&#x3F6;", c!"\\ni"),
  (c!":", c!":"),
  (c!"...", c!"\\cdots"),
  (c!"..", c!".."),
  (c!"->", c!"->"),
  (c!"&#x2235;", c!"\\because"),
  (c!"&#x2234;", c!"\\therefore "),
  (c!"&#x2063;", c!""),
  (c!",", c!","),
  (c!";", c!";"),
  (c!"&#x29FD;", c!"\\}"),
  (c!"&#x29FC;", c!"\\{"),
  (c!"&#x2998;", c!"\\]"),
  (c!"&#x2997;", c!"\\["),
  (c!"&#x2996;", c!"\\ll"),
  (c!"&#x2995;", c!"\\gg"),
  (c!"&#x2994;", c!"\\gg"),
  (c!"&#x2993;", c!"\\ll"),
  (c!"&#x2992;", c!"\\gg"),
  (c!"&#x2991;", c!"\\ll"),
  (c!"&#x2990;", c!"\\]"),
  (c!"&#x298F;", c!"\\]"),
  (c!"&#x298E;", c!"\\]"),
  (c!"&#x298D;", c!"\\["),
  (c!"&#x298C;", c!"\\["),
  (c!"&#x298B;", c!"\\]"),
  (c!"&#x298A;", c!"\\triangleright"),
  (c!"&#x2989;", c!"\\triangleleft"),
  (c!"&#x2988;", c!"|\\)"),
  (c!"&#x2987;", c!"\\(|"),
  (c!"&#x2986;", c!"|\\)"),
  (c!"&#x2985;", c!"\\(\\("),
  (c!"&#x2984;", c!"|\\}"),
  (c!"&#x2983;", c!"\\{|"),
  (c!"&#x2980;", c!"\\||"),
  (c!"&#x27EF;", c!"\\left. \\right]"),
  (c!"&#x27EE;", c!"\\left[ \\right."),
  (c!"&#x27ED;", c!"\\left. \\right]]"),
  (c!"&#x27EC;", c!"\\left[[ \\right."),
  (c!"&#x27EB;", c!"\\gg"),
  (c!"&#x27EA;", c!"\\ll"),
  (c!"&#x27E9;", c!"\\rangle"),
  (c!"&#x27E8;", c!"\\langle"),
  (c!"&#x27E7;", c!"\\left. \\right]]"),
  (c!"&#x27E6;", c!"\\left[[ \\right."),
  (c!"&#x2773;", c!"\\left.\\right)"),
  (c!"&#x2772;", c!"\\left(\\right."),
  (c!"&#x232A;", c!"\\rangle"),
  (c!"&#x2329;", c!"\\langle"),
  (c!"&#x230B;", c!"\\rfloor"),
  (c!"&#x230A;", c!"\\lfloor"),
  (c!"&#x2309;", c!"\\rceil"),
  (c!"&#x2308;", c!"\\lceil"),
  (c!"&#x2016;", c!"\\parallel"),
  (c!"}", c!"\\left.\\right}"),
  (c!"{", c!"\\left{\\right."),
  (c!"]", c!"\\left]\\right."),
  (c!"[", c!"\\left[\\right."),
  (c!")", c!"\\left.\\right)"),
  (c!"(", c!"\\left(\\right."),
  (c!"&#x201D;", c!"\""),
  (c!"&#x201C;", c!"``"),
  (c!"&#x2019;", c!"'"),
  (c!"&#x2018;", c!"`"),
  (c!"%CE%B1", c!"\\alpha"),
  (c!"%CE%B2", c!"\\beta"),
  (c!"%CE%B3", c!"\\gamma"),
  (c!"%CE%93", c!"\\Gamma"),
  (c!"%CE%B4", c!"\\delta"),
  (c!"%CE%94", c!"\\Delta"),
  (c!"%CF%B5", c!"\\epsilon"),
  (c!"%CE%B6", c!"\\zeta"),
  (c!"%CE%B7", c!"\\eta"),
  (c!"%CE%B8", c!"\\theta"),
  (c!"%CE%98", c!"\\Theta"),
  (c!"%CE%B9", c!"\\iota"),
  (c!"%CE%BA", c!"\\kappa"),
  (c!"%CE%BB", c!"\\lambda"),
  (c!"%CE%BC", c!"\\mu"),
  (c!"%CE%BD", c!"\\nu"),
  (c!"%CE%BF", c!"\\omicron"),
  (c!"%CF%80", c!"\\pi"),
  (c!"%CE%A0", c!"\\Pi"),
  (c!"%CF%81", c!"\\pho"),
  (c!"%CF%83", c!"\\sigma"),
  (c!"%CE%A3", c!"\\Sigma"),
  (c!"%CF%84", c!"\\tau"),
  (c!"%CF%85", c!"\\upsilon"),
  (c!"%CE%A5", c!"\\Upsilon"),
  (c!"%CF%95", c!"\\phi"),
  (c!"%CE%A6", c!"\\Phi"),
  (c!"%CF%87", c!"\\chi"),
  (c!"%CF%88", c!"\\psi"),
  (c!"%CE%A8", c!"\\Psi"),
  (c!"%CF%89", c!"\\omega"),
  (c!"%CE%A9", c!"\\Omega")]

set_option maxRecDepth 100000 in
/-- syntax.py 2107–3309, `all_math_operators_by_glyph`. -/
def allMathOperatorsByGlyph : List (Str × Str) := [
  (c!"_", c!"\\underline"),
  (c!"⏡", c!"\\underbrace"),
  (c!"⏠", c!"\\overbrace"),
  (c!"⏟", c!"\\underbrace"),
  (c!"⏞", c!"\\overbrace"),
  (c!"⏝", c!"\\underbrace"),
  (c!"⏜", c!"\\overbrace"),
  (c!"⎵", c!"\\underbrace"),
  (c!"⎴", c!"\\overbrace"),
  (c!"⃜", c!"\\square"),
  (c!"⃛", c!"\\square"),
  (c!"\u2064", c!""),
  (c!"⁗", c!"''''"),
  (c!"‾", c!"\\overline"),
  (c!"‷", c!"```"),
  (c!"‶", c!"``"),
  (c!"‵", c!"`"),
  (c!"‴", c!"'''"),
  (c!"″", c!"''"),
  (c!"‟", c!"``"),
  (c!"„", c!",,"),
  (c!"‛", c!"`"),
  (c!"‚", c!","),
  (c!"^", c!"\\hat"),
  (c!"˷", c!"\\sim"),
  (c!"˝", c!"\\sim"),
  (c!"˜", c!"\\sim"),
  (c!"˚", c!"\\circ"),
  (c!"˙", c!"\\cdot"),
  (c!"˘", c!" "),
  (c!"ˍ", c!"\\_"),
  (c!"ˋ", c!"ˋ"),
  (c!"ˊ", c!"ˊ"),
  (c!"ˉ", c!"ˉ"),
  (c!"ˇ", c!""),
  (c!"ˆ", c!"\\hat"),
  (c!"º", c!"o"),
  (c!"¹", c!"1"),
  (c!"¸", c!","),
  (c!"´", c!"´"),
  (c!"³", c!"3"),
  (c!"²", c!"2"),
  (c!"°", c!"\\circ"),
  (c!"¯", c!"\\bar"),
  (c!"ª", c!"a"),
  (c!"↛", c!"\\nrightarrow"),
  (c!"¨", c!"\\cdot\\cdot"),
  (c!"~", c!"\\sim"),
  (c!"`", c!"`"),
  (c!"--", c!"--"),
  (c!"++", c!"++"),
  (c!"&", c!"\\&"),
  (c!"∜", c!"\\sqrt[4]{}"),
  (c!"∛", c!"\\sqrt[3]{}"),
  (c!"√", c!"\\sqrt{}"),
  (c!"ⅆ", c!"d"),
  (c!"ⅅ", c!"\\mathbb{D}"),
  (c!"?", c!"?"),
  (c!"@", c!"@"),
  (c!"//", c!"//"),
  (c!"!!", c!"!!"),
  (c!"!", c!"!"),
  (c!"♯", c!"\\#"),
  (c!"♮", c!""),
  (c!"♭", c!""),
  (c!"′", c!"'"),
  (c!"<>", c!"<>"),
  (c!"**", c!"\\star\\star"),
  (c!"∇", c!"\\nabla"),
  (c!"∂", c!"\\partial"),
  (c!"⊙", c!"\\bigodot"),
  (c!"¬", c!"\\neg"),
  (c!"∢", c!"\\measuredangle"),
  (c!"∡", c!"\\measuredangle"),
  (c!"∠", c!"\\angle"),
  (c!"÷", c!"\\div"),
  (c!"/", c!"/"),
  (c!"∖", c!"\\backslash"),
  (c!"\\", c!"\\backslash"),
  (c!"%", c!"\\%"),
  (c!"⊗", c!"\\bigotimes"),
  (c!"·", c!"\\cdot"),
  (c!"⨿", c!"\\coprod"),
  (c!"⨯", c!"\\times"),
  (c!"⋅", c!"\\cdot"),
  (c!"⊡", c!"\\boxdot"),
  (c!"⊠", c!"\\boxtimes"),
  (c!"\u2062", c!""),
  (c!"⁃", c!"-"),
  (c!"•", c!"\\cdot"),
  (c!".", c!"."),
  (c!"*", c!"\\star"),
  (c!"∪", c!"\\cup"),
  (c!"∩", c!"\\cap"),
  (c!"∐", c!"\\coprod"),
  (c!"∏", c!"\\prod"),
  (c!"≀", c!""),
  (c!"⫿", c!""),
  (c!"⫼", c!"\\mid\\mid\\mid"),
  (c!"⨉", c!"\\times"),
  (c!"⨈", c!""),
  (c!"⨇", c!""),
  (c!"⨆", c!"\\sqcup"),
  (c!"⨅", c!"\\sqcap"),
  (c!"⨂", c!"\\otimes"),
  (c!"⨀", c!"\\odot"),
  (c!"⋂", c!"\\cap"),
  (c!"⋁", c!"\\vee"),
  (c!"⋀", c!"\\wedge"),
  (c!"⨄", c!"\\uplus"),
  (c!"⨃", c!"\\cup"),
  (c!"⋃", c!"\\cup"),
  (c!"⨜", c!"\\underline{\\int}"),
  (c!"⨛", c!"\\overline{\\int}"),
  (c!"⨚", c!"\\int"),
  (c!"⨙", c!"\\int"),
  (c!"⨘", c!"\\int"),
  (c!"⨗", c!"\\int"),
  (c!"⨖", c!"\\oint"),
  (c!"⨕", c!"\\oint"),
  (c!"⨔", c!"\\int"),
  (c!"⨓", c!"\\int"),
  (c!"⨒", c!"\\int"),
  (c!"⨑", c!"\\int"),
  (c!"⨐", c!"\\int"),
  (c!"⨏", c!"\\bcancel{\\int}"),
  (c!"⨎", c!""),
  (c!"⨍", c!"\\hcancel{\\int}"),
  (c!"⨌", c!"\\iiiint"),
  (c!"∳", c!"\\oint"),
  (c!"∲", c!"\\oint"),
  (c!"∱", c!"\\int"),
  (c!"∰", c!"\\oiint"),
  (c!"∯", c!"\\oiint"),
  (c!"∮", c!"\\oint"),
  (c!"∫", c!"\\int"),
  (c!"⨁", c!"\\oplus"),
  (c!"⊘", c!"\\oslash"),
  (c!"⊖", c!"\\ominus"),
  (c!"⊕", c!"\\oplus"),
  (c!"∭", c!"\\iiint"),
  (c!"∬", c!"\\iint"),
  (c!"⨋", c!""),
  (c!"⨊", c!""),
  (c!"∑", c!"\\sum"),
  (c!"⊟", c!"\\boxminus"),
  (c!"⊞", c!"\\boxplus"),
  (c!"∔", c!"\\dot{+}"),
  (c!"∓", c!"+-"),
  (c!"−", c!"-"),
  (c!"±", c!"\\pm"),
  (c!"-", c!"-"),
  (c!"+", c!"+"),
  (c!"⭆", c!"\\Rrightarrow"),
  (c!"⭅", c!"\\Lleftarrow"),
  (c!"⧴", c!":\\rightarrow"),
  (c!"⧯", c!""),
  (c!"⧟", c!"\\bullet-\\bullet"),
  (c!"⦟", c!"\\angle"),
  (c!"⦞", c!"\\measuredangle"),
  (c!"⦝", c!"\\measuredangle"),
  (c!"⦜", c!"\\perp"),
  (c!"⦛", c!"\\measuredangle"),
  (c!"⦚", c!""),
  (c!"⦙", c!"\\vdots"),
  (c!"⥿", c!""),
  (c!"⥾", c!""),
  (c!"⥽", c!"\\prec"),
  (c!"⥼", c!"\\succ"),
  (c!"⥻", c!"\\underset{\\rightarrow}{\\supset}"),
  (c!"⥺", c!""),
  (c!"⥹", c!"\\underset{\\rightarrow}{\\subset}"),
  (c!"⥸", c!"\\underset{\\rightarrow}{>}"),
  (c!"⥷", c!""),
  (c!"⥶", c!"\\underset{\\leftarrow}{<}"),
  (c!"⥵", c!"\\underset{\\approx}{\\rightarrow}"),
  (c!"⥴", c!"\\underset{\\sim}{\\rightarrow}"),
  (c!"⥳", c!"\\underset{\\sim}{\\leftarrow}"),
  (c!"⥲", c!"\\overset{\\sim}{\\rightarrow}"),
  (c!"⥱", c!"\\overset{=}{\\rightarrow}"),
  (c!"⥰", c!""),
  (c!"⥯", c!""),
  (c!"⥮", c!""),
  (c!"⥭", c!"\\overline{\\rightharpoondown}"),
  (c!"⥬", c!"\\underline{\\rightharpoonup}"),
  (c!"⥫", c!"\\overline{\\leftharpoondown}"),
  (c!"⥪", c!"\\underline{\\leftharpoonup}"),
  (c!"⥩", c!"\\rightleftharpoons"),
  (c!"⥨", c!"\\rightleftharpoons"),
  (c!"⥧", c!"\\rightleftharpoons"),
  (c!"⥦", c!"\\rightleftharpoons"),
  (c!"⥥", c!"\\Downarrow"),
  (c!"⥤", c!"\\Rightarrow"),
  (c!"⥣", c!"\\Uparrow"),
  (c!"⥢", c!"\\Leftarrow"),
  (c!"⥡", c!"\\downarrow"),
  (c!"⥠", c!"\\uparrow"),
  (c!"⥟", c!"\\rightarrow"),
  (c!"⥞", c!"\\leftarrow"),
  (c!"⥝", c!"\\downarrow"),
  (c!"⥜", c!"\\uparrow"),
  (c!"⥛", c!"\\rightarrow"),
  (c!"⥚", c!"\\leftarrow"),
  (c!"⥙", c!"\\downarrow"),
  (c!"⥘", c!"\\uparrow"),
  (c!"⥗", c!"\\rightarrow"),
  (c!"⥖", c!"\\leftarrow"),
  (c!"⥕", c!"\\downarrow"),
  (c!"⥔", c!"\\uparrow"),
  (c!"⥓", c!"\\rightarrow"),
  (c!"⥒", c!"\\leftarrow"),
  (c!"⥑", c!"\\updownarrow"),
  (c!"⥐", c!"\\leftrightarrow"),
  (c!"⥏", c!"\\updownarrow"),
  (c!"⥎", c!"\\leftrightarrow"),
  (c!"⥍", c!"\\updownarrow"),
  (c!"⥌", c!"\\updownarrow"),
  (c!"⥋", c!"\\leftrightarrow"),
  (c!"⥊", c!"\\leftrightarrow"),
  (c!"⥉", c!""),
  (c!"⥈", c!"\\leftrightarrow"),
  (c!"⥇", c!"\\nrightarrow"),
  (c!"⥆", c!""),
  (c!"⥅", c!""),
  (c!"⥄", c!"\\rightleftarrows"),
  (c!"⥃", c!"\\leftrightarrows"),
  (c!"⥂", c!"\\rightleftarrows"),
  (c!"⥁", c!"\\circlearrowright"),
  (c!"⥀", c!"\\circlearrowleft"),
  (c!"⤿", c!"\\rightarrow"),
  (c!"⤾", c!"\\leftarrow"),
  (c!"⤽", c!"\\leftarrow"),
  (c!"⤼", c!"\\rightarrow"),
  (c!"⤻", c!"\\rightarrow"),
  (c!"⤺", c!"\\leftarrow"),
  (c!"⤹", c!"\\downarrow"),
  (c!"⤸", c!"\\downarrow"),
  (c!"⤷", c!"\\Rsh"),
  (c!"⤶", c!"\\Lsh"),
  (c!"⤵", c!"\\downarrow"),
  (c!"⤴", c!"\\uparrow"),
  (c!"⤳", c!"\\rightarrow"),
  (c!"⤲", c!"\\leftarrow"),
  (c!"⤱", c!" "),
  (c!"⤰", c!" "),
  (c!"⤯", c!" "),
  (c!"⤮", c!" "),
  (c!"⤭", c!" "),
  (c!"⤬", c!"\\times"),
  (c!"⤫", c!"\\times"),
  (c!"⤪", c!" "),
  (c!"⤩", c!" "),
  (c!"⤨", c!" "),
  (c!"⤧", c!" "),
  (c!"⤦", c!" "),
  (c!"⤥", c!" "),
  (c!"⤤", c!" "),
  (c!"⤣", c!" "),
  (c!"⤢", c!" "),
  (c!"⤡", c!" "),
  (c!"⤠", c!"\\mapsto\\cdot"),
  (c!"⤟", c!"\\cdot\\leftarrow"),
  (c!"⤞", c!"\\rightarrow\\cdot"),
  (c!"⤝", c!"\\leftarrow"),
  (c!"⤜", c!"\\rightarrow"),
  (c!"⤛", c!"\\leftarrow"),
  (c!"⤚", c!"\\rightarrow"),
  (c!"⤙", c!"\\leftarrow"),
  (c!"⤘", c!"\\rightarrow"),
  (c!"⤗", c!"\\rightarrow"),
  (c!"⤖", c!"\\rightarrow"),
  (c!"⤕", c!"\\rightarrow"),
  (c!"⤔", c!"\\rightarrow"),
  (c!"⤓", c!"\\downarrow"),
  (c!"⤒", c!"\\uparrow"),
  (c!"⤑", c!"\\rightarrow"),
  (c!"⤐", c!"\\rightarrow"),
  (c!"⤏", c!"\\rightarrow"),
  (c!"⤎", c!"\\leftarrow"),
  (c!"⤍", c!"\\rightarrow"),
  (c!"⤌", c!"\\leftarrow"),
  (c!"⤋", c!"\\Downarrow"),
  (c!"⤊", c!"\\Uparrow"),
  (c!"⤉", c!"\\uparrow"),
  (c!"⤈", c!"\\downarrow"),
  (c!"⤇", c!"\\Rightarrow"),
  (c!"⤆", c!"\\Leftarrow"),
  (c!"⤅", c!"\\mapsto"),
  (c!"⤄", c!"\\nLeftrightarrow"),
  (c!"⤃", c!"\\nRightarrow"),
  (c!"⤂", c!"\\nLeftarrow"),
  (c!"⤁", c!"\\rightsquigarrow"),
  (c!"⤀", c!"\\rightsquigarrow"),
  (c!"⟿", c!"\\rightsquigarrow"),
  (c!"⟾", c!"\\Rightarrow"),
  (c!"⟽", c!"\\Leftarrow"),
  (c!"⟼", c!"\\mapsto"),
  (c!"⟻", c!"\\leftarrow"),
  (c!"⟺", c!"\\Longleftrightarrow"),
  (c!"⟹", c!"\\Longrightarrow"),
  (c!"⟸", c!"\\Longleftarrow"),
  (c!"⟷", c!"\\leftrightarrow"),
  (c!"⟶", c!"\\rightarrow"),
  (c!"⟵", c!"\\leftarrow"),
  (c!"⟱", c!"\\Downarrow"),
  (c!"⟰", c!"\\Uparrow"),
  (c!"⊸", c!"\\rightarrow"),
  (c!"⇿", c!"\\leftrightarrow"),
  (c!"⇾", c!"\\rightarrow"),
  (c!"⇽", c!"\\leftarrow"),
  (c!"⇼", c!"\\nleftrightarrow"),
  (c!"⇻", c!"\\nrightarrow"),
  (c!"⇺", c!"\\nleftarrow"),
  (c!"⇹", c!"\\nleftrightarrow"),
  (c!"⇸", c!"\\nrightarrow"),
  (c!"⇷", c!"\\nleftarrow"),
  (c!"⇶", c!"\\Rrightarrow"),
  (c!"⇵", c!""),
  (c!"⇴", c!"\\rightarrow"),
  (c!"⇳", c!"\\Updownarrow"),
  (c!"⇲", c!"\\searrow"),
  (c!"⇱", c!"\\nwarrow"),
  (c!"⇰", c!"\\Leftarrow"),
  (c!"⇯", c!"\\Uparrow"),
  (c!"⇮", c!"\\Uparrow"),
  (c!"⇭", c!"\\Uparrow"),
  (c!"⇬", c!"\\Uparrow"),
  (c!"⇫", c!"\\Uparrow"),
  (c!"⇪", c!"\\Uparrow"),
  (c!"⇩", c!"\\Downarrow"),
  (c!"⇨", c!"\\Rightarrow"),
  (c!"⇧", c!"\\Uparrow"),
  (c!"⇦", c!"\\Leftarrow"),
  (c!"⇥", c!"\\rightarrow"),
  (c!"⇤", c!"\\leftarrow"),
  (c!"⇣", c!"\\downarrow"),
  (c!"⇢", c!"\\rightarrow"),
  (c!"⇡", c!"\\uparrow"),
  (c!"⇠", c!"\\leftarrow"),
  (c!"⇟", c!"\\downarrow"),
  (c!"⇞", c!"\\uparrow"),
  (c!"⇝", c!"\\rightsquigarrow"),
  (c!"⇜", c!"\\leftarrow"),
  (c!"⇛", c!"\\Rrightarrow"),
  (c!"⇚", c!"\\Lleftarrow"),
  (c!"⇙", c!"\\swarrow"),
  (c!"⇘", c!"\\searrow"),
  (c!"⇗", c!"\\nearrow"),
  (c!"⇖", c!"\\nwarrow"),
  (c!"⇕", c!"\\Updownarrow"),
  (c!"⇔", c!"\\Leftrightarrow"),
  (c!"⇓", c!"\\Downarrow"),
  (c!"⇒", c!"\\Rightarrow"),
  (c!"⇑", c!"\\Uparrow"),
  (c!"⇐", c!"\\Leftarrow"),
  (c!"⇏", c!"\\nRightarrow"),
  (c!"⇎", c!"\\nLeftrightarrow"),
  (c!"⇍", c!"\\nLeftarrow"),
  (c!"⇌", c!"\\rightleftharpoons"),
  (c!"⇋", c!"\\leftrightharpoons"),
  (c!"⇊", c!"\\downdownarrows"),
  (c!"⇉", c!"\\rightrightarrows"),
  (c!"⇈", c!"\\upuparrows"),
  (c!"⇇", c!"\\leftleftarrows"),
  (c!"⇆", c!"\\leftrightarrows"),
  (c!"⇅", c!""),
  (c!"⇄", c!"\\rightleftarrows"),
  (c!"⇃", c!"\\downharpoonleft"),
  (c!"⇂", c!"\\downharpoonright"),
  (c!"⇁", c!"\\rightharpoondown"),
  (c!"⇀", c!"\\rightharpoonup"),
  (c!"↿", c!"\\upharpoonleft"),
  (c!"↾", c!"\\upharpoonright"),
  (c!"↽", c!"\\leftharpoondown"),
  (c!"↼", c!"\\leftharpoonup"),
  (c!"↻", c!"\\circlearrowright"),
  (c!"↺", c!"\\circlearrowleft"),
  (c!"↹", c!"\\leftrightarrows"),
  (c!"↸", c!"\\overline{\\nwarrow}"),
  (c!"↷", c!"\\curvearrowright"),
  (c!"↶", c!"\\curvearrowleft"),
  (c!"↵", c!"\\swarrow"),
  (c!"↴", c!"\\searrow"),
  (c!"↳", c!"\\Rsh"),
  (c!"↲", c!"\\Lsh"),
  (c!"↱", c!"\\Rsh"),
  (c!"↰", c!"\\Lsh"),
  (c!"↯", c!"\\swarrow"),
  (c!"↮", c!""),
  (c!"↭", c!"\\leftrightsquigarrow"),
  (c!"↬", c!"\\looparrowright"),
  (c!"↫", c!"\\looparrowleft"),
  (c!"↪", c!"\\hookrightarrow"),
  (c!"↩", c!"\\hookleftarrow"),
  (c!"↨", c!"\\underline{\\updownarrow}"),
  (c!"↧", c!"\\downarrow"),
  (c!"↦", c!"\\rightarrowtail"),
  (c!"↥", c!"\\uparrow"),
  (c!"↤", c!"\\leftarrowtail"),
  (c!"↣", c!"\\rightarrowtail"),
  (c!"↢", c!"\\leftarrowtail"),
  (c!"↡", c!"\\downarrow"),
  (c!"↠", c!"\\twoheadrightarrow"),
  (c!"↟", c!"\\uparrow"),
  (c!"↞", c!"\\twoheadleftarrow"),
  (c!"↝", c!"\\nearrow"),
  (c!"↜", c!"\\nwarrow"),
  (c!"↚", c!""),
  (c!"↙", c!"\\swarrow"),
  (c!"↘", c!"\\searrow"),
  (c!"↗", c!"\\nearrow"),
  (c!"↖", c!"\\nwarrow"),
  (c!"↕", c!"\\updownarrow"),
  (c!"↔", c!"\\leftrightarrow"),
  (c!"↓", c!"\\downarrow"),
  (c!"→", c!"\\rightarrow"),
  (c!"↑", c!"\\uparrow"),
  (c!"←", c!"\\leftarrow"),
  (c!"|||", c!"\\left|||\\right."),
  (c!"||", c!"\\left||\\right."),
  (c!"|", c!"\\mid"),
  (c!"⫾", c!""),
  (c!"⫽", c!"//"),
  (c!"⫻", c!"///"),
  (c!"⫺", c!""),
  (c!"⫹", c!""),
  (c!"⫸", c!""),
  (c!"⫷", c!""),
  (c!"⫶", c!"\\vdots"),
  (c!"⫵", c!""),
  (c!"⫴", c!""),
  (c!"⫳", c!""),
  (c!"⫲", c!"\\nparallel"),
  (c!"⫱", c!""),
  (c!"⫰", c!""),
  (c!"⫯", c!""),
  (c!"⫮", c!"\\bcancel{\\mid}"),
  (c!"⫭", c!""),
  (c!"⫬", c!""),
  (c!"⫫", c!""),
  (c!"⫪", c!""),
  (c!"⫩", c!""),
  (c!"⫨", c!"\\underline{\\perp}"),
  (c!"⫧", c!"\\overline{\\top}"),
  (c!"⫦", c!""),
  (c!"⫥", c!""),
  (c!"⫤", c!""),
  (c!"⫣", c!""),
  (c!"⫢", c!""),
  (c!"⫡", c!""),
  (c!"⫠", c!"\\perp"),
  (c!"⫟", c!"\\top"),
  (c!"⫞", c!"\\dashv"),
  (c!"⫝̸", c!""),
  (c!"⫝", c!""),
  (c!"⫛", c!"\\pitchfork"),
  (c!"⫚", c!""),
  (c!"⫙", c!""),
  (c!"⫘", c!""),
  (c!"⫗", c!""),
  (c!"⫖", c!""),
  (c!"⫕", c!""),
  (c!"⫔", c!""),
  (c!"⫓", c!""),
  (c!"⫒", c!""),
  (c!"⫑", c!""),
  (c!"⫐", c!""),
  (c!"⫏", c!""),
  (c!"⫎", c!""),
  (c!"⫍", c!""),
  (c!"⫌", c!"\\underset{\\neq}{\\supset}"),
  (c!"⫋", c!"\\underset{\\neq}{\\subset}"),
  (c!"⫊", c!"\\underset{\\approx}{\\supset}"),
  (c!"⫉", c!"\\underset{\\approx}{\\subset}"),
  (c!"⫈", c!"\\underset{\\sim}{\\supset}"),
  (c!"⫇", c!"\\underset{\\sim}{\\subset}"),
  (c!"⫆", c!"\\supseteqq"),
  (c!"⫅", c!"\\subseteqq"),
  (c!"⫄", c!"\\dot{\\supseteq}"),
  (c!"⫃", c!"\\dot{\\subseteq}"),
  (c!"⫂", c!"\\underset{\\times}{\\supset}"),
  (c!"⫁", c!"\\underset{\\times}{\\subset}"),
  (c!"⫀", c!"\\underset{+}{\\supset}"),
  (c!"⪿", c!"\\underset{+}{\\subset}"),
  (c!"⪾", c!""),
  (c!"⪽", c!""),
  (c!"⪼", c!"\\gg "),
  (c!"⪻", c!"\\ll"),
  (c!"⪺", c!"\\underset{\\cancel{\\approx}}{\\succ}"),
  (c!"⪹", c!"\\underset{\\cancel{\\approx}}{\\prec}"),
  (c!"⪸", c!"\\underset{\\approx}{\\succ}"),
  (c!"⪷", c!"\\underset{\\approx}{\\prec}"),
  (c!"⪶", c!"\\underset{\\cancel{=}}{\\succ}"),
  (c!"⪵", c!"\\underset{\\cancel{=}}{\\prec}"),
  (c!"⪴", c!"\\underset{=}{\\succ}"),
  (c!"⪳", c!"\\underset{=}{\\prec}"),
  (c!"⪲", c!""),
  (c!"⪱", c!""),
  (c!"⪮", c!""),
  (c!"⪭", c!"\\underline{\\hcancel{>}}"),
  (c!"⪬", c!"\\underline{\\hcancel{>}}"),
  (c!"⪫", c!"\\hcancel{>}"),
  (c!"⪪", c!"\\hcancel{<}"),
  (c!"⪩", c!""),
  (c!"⪨", c!""),
  (c!"⪧", c!"\\vartriangleright"),
  (c!"⪦", c!"\\vartriangleleft"),
  (c!"⪥", c!"><"),
  (c!"⪤", c!"><"),
  (c!"⪣", c!"\\underline{\\ll}"),
  (c!"⪢̸", c!"\\cancel{\\gg}"),
  (c!"⪢", c!"\\gg"),
  (c!"⪡̸", c!"\\cancel{\\ll}"),
  (c!"⪡", c!"\\ll"),
  (c!"⪠", c!"\\overset{\\sim}{\\geqq}"),
  (c!"⪟", c!"\\overset{\\sim}{\\leqq}"),
  (c!"⪞", c!"\\overset{\\sim}{>}"),
  (c!"⪝", c!"\\overset{\\sim}{<}"),
  (c!"⪜", c!""),
  (c!"⪛", c!""),
  (c!"⪚", c!"\\overset{=}{>}"),
  (c!"⪙", c!"\\overset{=}{<}"),
  (c!"⪘", c!""),
  (c!"⪗", c!""),
  (c!"⪖", c!""),
  (c!"⪕", c!""),
  (c!"⪔", c!""),
  (c!"⪓", c!""),
  (c!"⪒", c!"\\underset{=}{\\gtrless}"),
  (c!"⪑", c!"\\underset{=}{\\lessgtr}"),
  (c!"⪐", c!"\\underset{<}{\\gtrsim}"),
  (c!"⪏", c!"\\underset{>}{\\lesssim}"),
  (c!"⪎", c!"\\underset{\\simeq}{>}"),
  (c!"⪍", c!"\\underset{\\simeq}{<}"),
  (c!"⪌", c!"\\gtreqqless"),
  (c!"⪋", c!"\\lesseqqgtr"),
  (c!"⪊", c!"\\underset{\\cancel{\\approx}}{>}"),
  (c!"⪉", c!"\\underset{\\approx}{<}"),
  (c!"⪆", c!"\\underset{\\approx}{>}"),
  (c!"⪅", c!"\\underset{\\approx}{<}"),
  (c!"⪄", c!""),
  (c!"⪃", c!""),
  (c!"⪂", c!""),
  (c!"⪁", c!""),
  (c!"⪀", c!""),
  (c!"⩿", c!""),
  (c!"⩾̸", c!"\\bcancel{\\geq}"),
  (c!"⩾", c!"\\geq"),
  (c!"⩽̸", c!"\\bcancel{\\leq}"),
  (c!"⩽", c!"\\leq"),
  (c!"⩼", c!""),
  (c!"⩻", c!""),
  (c!"⩺", c!""),
  (c!"⩹", c!""),
  (c!"⩸", c!"\\overset{\\dots}{\\equiv}"),
  (c!"⩷", c!""),
  (c!"⩶", c!"==="),
  (c!"⩵", c!"=="),
  (c!"⩴", c!"::="),
  (c!"⩳", c!""),
  (c!"⩲", c!"\\underset{=}{+}"),
  (c!"⩱", c!"\\overset{=}{+}"),
  (c!"⩰", c!"\\overset{\\approx}{=}"),
  (c!"⩯", c!"\\overset{\\wedge}{=}"),
  (c!"⩮", c!"\\overset{*}{=}"),
  (c!"⩭", c!"\\dot{\\approx}"),
  (c!"⩬", c!""),
  (c!"⩫", c!""),
  (c!"⩪", c!"\\dot{\\sim}"),
  (c!"⩩", c!""),
  (c!"⩨", c!""),
  (c!"⩧", c!"\\dot{\\equiv}"),
  (c!"⩦", c!"\\underset{\\cdot}{=}"),
  (c!"⩥", c!""),
  (c!"⩤", c!""),
  (c!"⩣", c!"\\underset{=}{\\vee}"),
  (c!"⩢", c!"\\overset{=}{\\vee}"),
  (c!"⩡", c!"ul(vv)"),
  (c!"⩠", c!"\\underset{=}{\\wedge}"),
  (c!"⩟", c!"\\underline{\\wedge}"),
  (c!"⩞", c!"\\overset{=}{\\wedge}"),
  (c!"⩝", c!"\\hcancel{\\vee}"),
  (c!"⩜", c!"\\hcancel{\\wedge}"),
  (c!"⩛", c!""),
  (c!"⩚", c!""),
  (c!"⩙", c!""),
  (c!"⩘", c!"\\vee"),
  (c!"⩗", c!"\\wedge"),
  (c!"⩖", c!""),
  (c!"⩕", c!""),
  (c!"⩔", c!""),
  (c!"⩓", c!""),
  (c!"⩒", c!"\\dot{\\vee}"),
  (c!"⩑", c!"\\dot{\\wedge}"),
  (c!"⩐", c!""),
  (c!"⩏", c!""),
  (c!"⩎", c!""),
  (c!"⩍", c!"\\overline{\\cap}"),
  (c!"⩌", c!"\\overline{\\cup}"),
  (c!"⩋", c!""),
  (c!"⩊", c!""),
  (c!"⩉", c!""),
  (c!"⩈", c!""),
  (c!"⩇", c!""),
  (c!"⩆", c!""),
  (c!"⩅", c!""),
  (c!"⩄", c!""),
  (c!"⩃", c!"\\overline{\\cap}"),
  (c!"⩂", c!"\\overline{\\cup}"),
  (c!"⩁", c!""),
  (c!"⩀", c!""),
  (c!"⨾", c!""),
  (c!"⨽", c!"\\llcorner"),
  (c!"⨼", c!"\\lrcorner"),
  (c!"⨻", c!""),
  (c!"⨺", c!""),
  (c!"⨹", c!""),
  (c!"⨸", c!""),
  (c!"⨷", c!""),
  (c!"⨶", c!"\\hat{\\otimes}"),
  (c!"⨵", c!""),
  (c!"⨴", c!""),
  (c!"⨳", c!""),
  (c!"⨲", c!"\\underline{\\times}"),
  (c!"⨱", c!"\\underline{\\times}"),
  (c!"⨰", c!"\\dot{\\times}"),
  (c!"⨮", c!"\\bigodot"),
  (c!"⨭", c!"\\bigodot"),
  (c!"⨬", c!""),
  (c!"⨫", c!""),
  (c!"⨪", c!""),
  (c!"⨩", c!""),
  (c!"⨨", c!""),
  (c!"⨧", c!""),
  (c!"◻", c!"\\Box"),
  (c!"⨦", c!"\\underset{\\sim}{+}"),
  (c!"⨥", c!"\\underset{\\circ}{+}"),
  (c!"⨤", c!"\\overset{\\sim}{+}"),
  (c!"⨣", c!"\\hat{+}"),
  (c!"⨢", c!"\\dot{+}"),
  (c!"⨡", c!"\\upharpoonright"),
  (c!"⨠", c!">>"),
  (c!"⨟", c!""),
  (c!"⨞", c!"\\triangleleft"),
  (c!"⨝", c!"\\bowtie"),
  (c!"⧿", c!""),
  (c!"⧾", c!"+"),
  (c!"⧻", c!"\\hcancel{|||}"),
  (c!"⧺", c!"\\hcancel{||}"),
  (c!"⧹", c!"\\backslash"),
  (c!"⧸", c!"/"),
  (c!"⧷", c!"hcancel{\u0008ackslash}"),
  (c!"⧶", c!""),
  (c!"⧵", c!"\\backslash"),
  (c!"⧲", c!"\\Phi"),
  (c!"⧱", c!""),
  (c!"⧰", c!""),
  (c!"⧮", c!""),
  (c!"⧭", c!""),
  (c!"⧬", c!""),
  (c!"⧫", c!"\\lozenge"),
  (c!"⧪", c!""),
  (c!"⧩", c!""),
  (c!"⧨", c!""),
  (c!"⧧", c!"\\ddagger"),
  (c!"⧢", c!"\\sqcup\\sqcup"),
  (c!"⧡", c!""),
  (c!"⧠", c!"\\square"),
  (c!"⧞", c!""),
  (c!"⧝", c!""),
  (c!"⧜", c!""),
  (c!"⧛", c!"\\{\\{"),
  (c!"⧙", c!"\\{"),
  (c!"⧘", c!"\\}"),
  (c!"⧗", c!""),
  (c!"⧖", c!""),
  (c!"⧕", c!"\\bowtie"),
  (c!"⧔", c!"\\bowtie"),
  (c!"⧓", c!"\\bowtie"),
  (c!"⧒", c!"\\bowtie"),
  (c!"⧑", c!"\\bowtie"),
  (c!"⧐̸", c!"| \\not\\triangleright"),
  (c!"⧐", c!"| \\triangleright"),
  (c!"⧏̸", c!"\\not\\triangleleft |"),
  (c!"⧏", c!"\\triangleleft |"),
  (c!"⧎", c!""),
  (c!"⧍", c!"\\triangle"),
  (c!"⧌", c!""),
  (c!"⧋", c!"\\underline{\\triangle}"),
  (c!"⧊", c!"\\dot{\\triangle}"),
  (c!"⧉", c!""),
  (c!"⧈", c!"\\boxed{\\circ}"),
  (c!"⧇", c!"\\boxed{\\circ}"),
  (c!"⧆", c!"\\boxed{\\rightarrow}"),
  (c!"⧅", c!"\\bcancel{\\square}"),
  (c!"⧄", c!"\\cancel{\\square}"),
  (c!"⧃", c!"\\odot"),
  (c!"⧂", c!"\\odot"),
  (c!"⦿", c!"\\odot"),
  (c!"⦾", c!"\\odot"),
  (c!"⦽", c!"\\varnothing"),
  (c!"⦼", c!"\\oplus"),
  (c!"⦻", c!"\\otimes"),
  (c!"⦺", c!""),
  (c!"⦹", c!"\\varnothing"),
  (c!"⦸", c!"\\varnothing"),
  (c!"⦷", c!"\\ominus"),
  (c!"⦶", c!"\\ominus"),
  (c!"⦵", c!"\\ominus"),
  (c!"⦴", c!"\\vec{\\varnothing}"),
  (c!"⦳", c!"\\vec{\\varnothing}"),
  (c!"⦲", c!"\\dot{\\varnothing}"),
  (c!"⦱", c!"\\overline{\\varnothing}"),
  (c!"⦰", c!"\\varnothing"),
  (c!"⦯", c!"\\measuredangle"),
  (c!"⦮", c!"\\measuredangle"),
  (c!"⦭", c!"\\measuredangle"),
  (c!"⦬", c!"\\measuredangle"),
  (c!"⦫", c!"\\measuredangle"),
  (c!"⦪", c!"\\measuredangle"),
  (c!"⦩", c!"\\measuredangle"),
  (c!"⦨", c!"\\measuredangle"),
  (c!"⦧", c!""),
  (c!"⦦", c!""),
  (c!"⦥", c!""),
  (c!"⦤", c!""),
  (c!"⦣", c!"\\ulcorner"),
  (c!"⦢", c!"\\measuredangle"),
  (c!"⦡", c!"\\not\\lor"),
  (c!"⦠", c!"\\bcancel{>}"),
  (c!"⦂", c!":"),
  (c!"⦁", c!"\\cdot"),
  (c!"❘", c!"\\mid"),
  (c!"▲", c!"\\bigtriangleup"),
  (c!"⋿", c!"\\Epsilon"),
  (c!"⋾", c!"\\overline{\\ni}"),
  (c!"⋽", c!"\\overline{\\ni}"),
  (c!"⋼", c!"\\in"),
  (c!"⋻", c!"\\in"),
  (c!"⋺", c!"\\in"),
  (c!"⋹", c!"\\underline{\\in}"),
  (c!"⋸", c!"\\underline{\\in}"),
  (c!"⋷", c!"\\overline{\\in}"),
  (c!"⋶", c!"\\overline{\\in}"),
  (c!"⋵", c!"\\dot{\\in}"),
  (c!"⋴", c!"\\in"),
  (c!"⋳", c!"\\in"),
  (c!"⋲", c!"\\in"),
  (c!"⋰", c!"\\ddots"),
  (c!"։", c!":"),
  (c!"⋩", c!"\\underset{\\sim}{\\succ}"),
  (c!"⋨", c!"\\underset{\\sim}{\\prec}"),
  (c!"⋧", c!"\\underset{\\not\\sim}{>}"),
  (c!"⋦", c!"\\underset{\\not\\sim}{<}"),
  (c!"⋥", c!"\\not\\sqsupseteq"),
  (c!"⋤", c!"\\not\\sqsubseteq"),
  (c!"⋣", c!"\\not\\sqsupseteq"),
  (c!"⋢", c!"\\not\\sqsubseteq"),
  (c!"⋡", c!"\\nsucc"),
  (c!"⋠", c!"\\nprec"),
  (c!"⋟", c!"\\succ"),
  (c!"⋞", c!"\\prec"),
  (c!"⋝", c!"\\overline{>}"),
  (c!"⋜", c!"\\overline{<}"),
  (c!"⋛", c!"\\underset{>}{\\leq}"),
  (c!"⋚", c!"\\underset{<}{\\geq}"),
  (c!"⋕", c!"\\#"),
  (c!"⋓", c!"\\cup"),
  (c!"⋒", c!"\\cap"),
  (c!"⋑", c!"\\supset"),
  (c!"⋐", c!"\\subset"),
  (c!"⋏", c!"\\wedge"),
  (c!"⋎", c!"\\vee"),
  (c!"⋍", c!"\\simeq"),
  (c!"⋈", c!"\\Join"),
  (c!"⋇", c!"\\ast"),
  (c!"⋆", c!"\\star"),
  (c!"⋄", c!"\\diamond"),
  (c!"⊿", c!"\\triangle"),
  (c!"⊾", c!"\\measuredangle"),
  (c!"⊽", c!"\\overline{\\lor}"),
  (c!"⊼", c!"\\overline{\\land}"),
  (c!"⊻", c!"\\underline{\\lor}"),
  (c!"⊺", c!"\\top"),
  (c!"土", c!"\\pm"),
  (c!"十", c!"+"),
  (c!"⊹", c!""),
  (c!"⊷", c!"\\circ\\multimap"),
  (c!"⊶", c!"\\circ\\multimap"),
  (c!"⊳", c!"\\triangleright"),
  (c!"⊲", c!"\\triangleleft"),
  (c!"⊱", c!"\\succ"),
  (c!"⊰", c!"\\prec"),
  (c!"⊫", c!"|\\models"),
  (c!"⊪", c!"|\\models"),
  (c!"⊧", c!"\\models"),
  (c!"⊦", c!"\\vdash"),
  (c!"⊝", c!"\\ominus"),
  (c!"⊜", c!"\\ominus"),
  (c!"⊛", c!"\\odot"),
  (c!"⊚", c!"\\odot"),
  (c!"⊔", c!"\\sqcup"),
  (c!"⊓", c!"\\sqcap"),
  (c!"⊒", c!"\\sqsupseteq"),
  (c!"⊑", c!"\\sqsubseteq"),
  (c!"⊐̸", c!"\\not\\sqsupset"),
  (c!"⊐", c!"\\sqsupset"),
  (c!"⊏̸", c!"\\not\\sqsubset"),
  (c!"⊏", c!"\\sqsubset"),
  (c!"⊎", c!"\\cup"),
  (c!"⊍", c!"\\cup"),
  (c!"⊌", c!"\\cup"),
  (c!"≿̸", c!"\\not\\succsim"),
  (c!"≿", c!"\\succsim"),
  (c!"≾", c!"\\precsim"),
  (c!"≹", c!"\\not\\overset{>}{<}"),
  (c!"≸", c!"\\not\\overset{>}{<}"),
  (c!"≷", c!"\\overset{>}{<}"),
  (c!"≶", c!"\\overset{<}{>}"),
  (c!"≵", c!"\\not\\geg"),
  (c!"≴", c!"\\not\\leq"),
  (c!"≳", c!"\\geg"),
  (c!"≲", c!"\\leq"),
  (c!"≬", c!""),
  (c!"≧", c!"\\geg"),
  (c!"≦̸", c!"\\not\\leq"),
  (c!"≦", c!"\\leq"),
  (c!"≣", c!"\\overset{=}{=} "),
  (c!"≞", c!"\\overset{m}{=} "),
  (c!"≝", c!"\\overset{def}{=}"),
  (c!"≘", c!"="),
  (c!"≖", c!"="),
  (c!"≕", c!"=:"),
  (c!"≓", c!"\\doteq"),
  (c!"≒", c!"\\doteq"),
  (c!"≑", c!"\\doteq"),
  (c!"≐", c!"\\doteq"),
  (c!"≏̸", c!""),
  (c!"≏", c!""),
  (c!"≎̸", c!""),
  (c!"≎", c!""),
  (c!"≌", c!"\\approx"),
  (c!"≋", c!"\\approx"),
  (c!"≊", c!"\\approx"),
  (c!"≂̸", c!"\\neq"),
  (c!"≂", c!"="),
  (c!"∿", c!"\\sim"),
  (c!"∾", c!"\\infty"),
  (c!"∽̱", c!"\\sim"),
  (c!"∽", c!"\\sim"),
  (c!"∻", c!"\\sim"),
  (c!"∺", c!":-:"),
  (c!"∹", c!"-:"),
  (c!"∸", c!"\\bot"),
  (c!"∷", c!"::"),
  (c!"∶", c!":"),
  (c!"∣", c!"\\mid"),
  (c!"∟", c!"\\llcorner"),
  (c!"∘", c!"\\circ"),
  (c!"∗", c!"*"),
  (c!"∕", c!"/"),
  (c!"∎", c!"\\square"),
  (c!"∍", c!"\\ni"),
  (c!"∊", c!"\\in"),
  (c!"∆", c!"\\Delta"),
  (c!"⁄", c!"/"),
  (c!"⪰̸", c!"\\nsucceq"),
  (c!"⪰", c!"\\succeq"),
  (c!"⪯̸", c!"\\npreceq"),
  (c!"⪯", c!"\\preceq"),
  (c!"⪈", c!"\\ngeqslant"),
  (c!"⪇", c!"\\nleqslant"),
  (c!"⧳", c!"\\Phi"),
  (c!"⧦", c!"\\models"),
  (c!"⧥", c!"\\not\\equiv"),
  (c!"⧤", c!"\\approx\\neq"),
  (c!"⧣", c!"\\neq"),
  (c!"⧁", c!"\\circle"),
  (c!"⧀", c!"\\circle"),
  (c!"◦", c!"\\circle"),
  (c!"◗", c!"\\circle"),
  (c!"◖", c!"\\circle"),
  (c!"●", c!"\\circle"),
  (c!"◎", c!"\\circledcirc"),
  (c!"◍", c!"\\circledcirc"),
  (c!"◌", c!"\\circledcirc"),
  (c!"◉", c!"\\circledcirc"),
  (c!"◈", c!"\\diamond"),
  (c!"◇", c!"\\diamond"),
  (c!"◆", c!"\\diamond"),
  (c!"◅", c!"\\triangleleft"),
  (c!"◄", c!"\\triangleleft"),
  (c!"◃", c!"\\triangleleft"),
  (c!"◂", c!"\\triangleleft"),
  (c!"◁", c!"\\triangleleft"),
  (c!"◀", c!"\\triangleleft"),
  (c!"▿", c!"\\triangledown"),
  (c!"▾", c!"\\triangledown"),
  (c!"▽", c!"\\triangledown"),
  (c!"▼", c!"\\triangledown"),
  (c!"▹", c!"\\triangleright"),
  (c!"▸", c!"\\triangleright"),
  (c!"▷", c!"\\triangleright"),
  (c!"▶", c!"\\triangleright"),
  (c!"▵", c!"\\triangle"),
  (c!"▴", c!"\\triangle"),
  (c!"△", c!"\\triangle"),
  (c!"▱", c!"\\square"),
  (c!"▰", c!"\\blacksquare"),
  (c!"▯", c!"\\square"),
  (c!"▮", c!"\\blacksquare"),
  (c!"▭", c!"\\square"),
  (c!"▫", c!"\\square"),
  (c!"▪", c!"\\square"),
  (c!"□", c!"\\square"),
  (c!"■", c!"\\blacksquare"),
  (c!"⋭", c!"\\not\\triangleright"),
  (c!"⋬", c!"\\not\\triangleleft"),
  (c!"⋫", c!"\\not\\triangleright"),
  (c!"⋪", c!"\\not\\triangleleft"),
  (c!"⋙", c!"\\ggg"),
  (c!"⋘", c!"\\lll"),
  (c!"⋗", c!"*>"),
  (c!"⋖", c!"<*"),
  (c!"⋔", c!"\\pitchfork"),
  (c!"⋌", c!""),
  (c!"⋋", c!"\\bowtie"),
  (c!"⋊", c!"\\ltimes"),
  (c!"⋉", c!"\\rtimes"),
  (c!"⊵", c!"\\triangleright"),
  (c!"\\triangleleft", c!""),
  (c!"⊥", c!"\\bot"),
  (c!"⊁", c!"\\nsucc"),
  (c!"⊀", c!"\\preceq"),
  (c!"≽", c!"\\succeq"),
  (c!"≼", c!"\\preceq"),
  (c!"≻", c!"\\succ"),
  (c!"≺", c!"\\prec"),
  (c!"≱", c!"\\geq/"),
  (c!"≰", c!"\\leq/"),
  (c!"≭", c!"\\neq"),
  (c!"≫̸", c!"\\not\\gg"),
  (c!"≫", c!"\\gg"),
  (c!"≪̸", c!"\\not\\ll"),
  (c!"≪", c!"\\ll"),
  (c!"≩", c!"\\ngeqslant"),
  (c!"≨", c!"\\nleqslant"),
  (c!"≡", c!"\\equiv"),
  (c!"≟", c!"\\doteq"),
  (c!"≜", c!"\\triangleq"),
  (c!"≛", c!"\\doteq"),
  (c!"≚", c!"\\triangleq"),
  (c!"≙", c!"\\triangleq"),
  (c!"≗", c!"\\doteq"),
  (c!"≔", c!":="),
  (c!"≍", c!"\\asymp"),
  (c!"≇", c!"\\ncong"),
  (c!"≆", c!"\\ncong"),
  (c!"≅", c!"\\cong"),
  (c!"≄", c!"\\not\\simeq"),
  (c!"≃", c!"\\simeq"),
  (c!"≁", c!"\\not\\sim"),
  (c!"∦", c!"\\not\\parallel"),
  (c!"∥", c!"\\parallel"),
  (c!"∤", c!"\\not|"),
  (c!"∝", c!"\\propto"),
  (c!"==", c!"=="),
  (c!"=", c!"="),
  (c!":=", c!":="),
  (c!"/=", c!"="),
  (c!"-=", c!"-="),
  (c!"+=", c!"+="),
  (c!"*=", c!"*="),
  (c!"!=", c!"!="),
  (c!"≠", c!"\\neq"),
  (c!"≢", c!"\\equiv /"),
  (c!"≉", c!"\\approx /"),
  (c!"∼", c!"sim"),
  (c!"≈", c!"\\approx"),
  (c!"≮", c!"</"),
  (c!"<", c!"<"),
  (c!"≯", c!">/"),
  (c!">=", c!">="),
  (c!">", c!">"),
  (c!"≥", c!"\\geq"),
  (c!"≤", c!"\\leq"),
  (c!"<=", c!"<="),
  (c!"⊋", c!"\\supsetneq"),
  (c!"⊊", c!"\\subsetneq"),
  (c!"⊉", c!"\\nsupseteq"),
  (c!"⊈", c!"\\nsubseteq"),
  (c!"⊇", c!"\\supseteq"),
  (c!"⊆", c!"\\subseteq"),
  (c!"⊅", c!"\\not\\supset"),
  (c!"⊄", c!"\\not\\subset"),
  (c!"⊃⃒", c!"\\supset |"),
  (c!"⊃", c!"\\supset"),
  (c!"⊂⃒", c!"\\subset |"),
  (c!"⊂", c!"\\subset"),
  (c!"∌", c!"\\not\\in"),
  (c!"∉", c!"\\notin"),
  (c!"∈", c!"\\in"),
  (c!"∁", c!"C"),
  (c!"∄", c!"\\nexists"),
  (c!"∃", c!"\\exists"),
  (c!"∀", c!"\\forall"),
  (c!"∧", c!"\\land"),
  (c!"&&", c!"\\&\\&"),
  (c!"∨", c!"\\lor"),
  (c!"⊯", c!"\\cancel{\\vDash}"),
  (c!"⊮", c!"\\cancel{\\Vdash}"),
  (c!"⊭", c!"\\nvDash"),
  (c!"⊬", c!"\\nvDash"),
  (c!"⊩", c!"\\Vdash"),
  (c!"⊨", c!"\\vDash"),
  (c!"⊤", c!"\\top"),
  (c!"⊣", c!"\\dashv"),
  (c!"⊢", c!"\\vdash"),
  (c!"∋", c!"\\ni"),
  (c!"⋱", c!"\\ddots"),
  (c!"⋯", c!"\\hdots"),
  (c!"⋮", c!"\\vdots"),
  (c!"϶", c!"\\ni"),
  (c!":", c!":"),
  (c!"...", c!"\\cdots"),
  (c!"..", c!".."),
  (c!"->", c!"->"),
  (c!"∵", c!"\\because"),
  (c!"∴", c!"\\therefore "),
  (c!"\u2063", c!"\\llbracket"),
  (c!",", c!","),
  (c!";", c!";"),
  (c!"⧽", c!"\\}"),
  (c!"⧼", c!"\\{"),
  (c!"⦘", c!"\\]"),
  (c!"⦗", c!"\\["),
  (c!"⦖", c!"\\ll"),
  (c!"⦕", c!"\\gg"),
  (c!"⦔", c!"\\gg"),
  (c!"⦓", c!"\\ll"),
  (c!"⦒", c!"\\gg"),
  (c!"⦑", c!"\\ll"),
  (c!"⦐", c!"\\]"),
  (c!"⦏", c!"\\]"),
  (c!"⦎", c!"\\]"),
  (c!"⦍", c!"\\["),
  (c!"⦌", c!"\\["),
  (c!"⦋", c!"\\]"),
  (c!"⦊", c!"\\triangleright"),
  (c!"⦉", c!"\\triangleleft"),
  (c!"⦈", c!"|\\)"),
  (c!"⦇", c!"\\(|"),
  (c!"⦆", c!"|\\)"),
  (c!"⦅", c!"\\(\\("),
  (c!"⦄", c!"|\\}"),
  (c!"⦃", c!"\\{|"),
  (c!"⦀", c!"\\||"),
  (c!"⟯", c!"\\left. \\right]"),
  (c!"⟮", c!"\\left[ \\right."),
  (c!"⟭", c!"\\left. \\right]]"),
  (c!"⟬", c!"\\left[[ \\right."),
  (c!"⟫", c!"\\gg"),
  (c!"⟪", c!"\\ll"),
  (c!"⟧", c!"\\)|"),
  (c!"⟦", c!"\\(|"),
  (c!"❳", c!"\\left.\\right)"),
  (c!"❲", c!"\\left(\\right."),
  (c!"〉", c!"\\rangle"),
  (c!"〈", c!"\\langle"),
  (c!"⌋", c!"\\rfloor"),
  (c!"⌊", c!"\\lfloor"),
  (c!"⌉", c!"\\rceil"),
  (c!"⌈", c!"\\lceil"),
  (c!"‖", c!"\\parallel"),
  (c!"}", c!"\\left.\\right}"),
  (c!"{", c!"\\left{\\right."),
  (c!"]", c!"\\left]\\right."),
  (c!"[", c!"\\left[\\right."),
  (c!")", c!"\\left.\\right)"),
  (c!"(", c!"\\left(\\right."),
  (c!"”", c!"\\\""),
  (c!"“", c!"\\text{``}"),
  (c!"’", c!"'"),
  (c!"‘", c!"`"),
  (c!"α", c!"\\alpha"),
  (c!"β", c!"\\beta"),
  (c!"γ", c!"\\gamma"),
  (c!"Γ", c!"\\Gamma"),
  (c!"δ", c!"\\delta"),
  (c!"Δ", c!"\\Delta"),
  (c!"ϵ", c!"\\epsilon"),
  (c!"ζ", c!"\\zeta"),
  (c!"η", c!"\\eta"),
  (c!"θ", c!"\\theta"),
  (c!"Θ", c!"\\Theta"),
  (c!"ι", c!"\\iota"),
  (c!"κ", c!"\\kappa"),
  (c!"λ", c!"\\lambda"),
  (c!"ν", c!"\\nu"),
  (c!"ο", c!"\\omicron"),
  (c!"π", c!"\\pi"),
  (c!"Π", c!"\\Pi"),
  (c!"ρ", c!"\\rho"),
  (c!"σ", c!"\\sigma"),
  (c!"Σ", c!"\\Sigma"),
  (c!"τ", c!"\\tau"),
  (c!"υ", c!"\\upsilon"),
  (c!"Υ", c!"\\Upsilon"),
  (c!"ϕ", c!"\\phi"),
  (c!"Φ", c!"\\Phi"),
  (c!"χ", c!"\\chi"),
  (c!"ψ", c!"\\psi"),
  (c!"Ψ", c!"\\Psi"),
  (c!"ω", c!"\\omega"),
  (c!"Ω", c!"\\Omega"),
  (c!"Ω", c!"\\Omega"),
  (c!"∅", c!"\\emptyset"),
  (c!"⟲", c!"\\circlearrowleft"),
  (c!"⟳", c!"\\circlearrowright"),
  (c!"×", c!"\\times"),
  (c!"½", c!"\\dfrac{1}{2}"),
  (c!"μ", c!"\\mu"),
  (c!"Ө", c!"\\theta"),
  (c!"✓", c!"\\checkmark"),
  (c!"⟩", c!"\\rangle"),
  (c!"⟨", c!"\\langle"),
  (c!"¼", c!"\\dfrac{1}{4}"),
  (c!"…", c!"\\ldots"),
  (c!"ℏ", c!"\\hbar"),
  (c!"ℜ", c!"\\mathfrak{R}"),
  (c!"Ѳ", c!"\\theta"),
  (c!"Ø", c!"\\emptyset"),
  (c!"ϱ", c!"\\varrho"),
  (c!"ф", c!"\\phi"),
  (c!"ℇ", c!"\\varepsilon"),
  (c!"T", c!"T"),
  (c!"∙", c!"\\cdot"),
  (c!"Ρ", c!"P"),
  (c!"∞", c!"\\infty"),
  (c!"ᐁ", c!"\\nabla"),
  (c!"ƞ", c!"\\eta"),
  (c!"⁺", c!"^{+}"),
  (c!"⁻", c!"^{-}"),
  (c!"⁼", c!"^{=}"),
  (c!"⁽", c!"^{(}"),
  (c!"⁾", c!"^{)}"),
  (c!"〗", c!"\\)|"),
  (c!"〖", c!"\\langle"),
  (c!";", c!";"),
  (c!"൦", c!"\\circ"),
  (c!"┴", c!"\\perp"),
  (c!"✕", c!"\\times"),
  (c!"⎻", c!"-"),
  (c!"»", c!"\\gg"),
  (c!"⬆", c!"\\uparrow"),
  (c!"⬇", c!"\\downarrow"),
  (c!"⬅", c!"\\leftarrow"),
  (c!"➡", c!"\\rightarrow"),
  (c!"⎼", c!"-"),
  (c!"⎜", c!"\\mid"),
  (c!"⎥", c!"\\mid"),
  (c!"ħ", c!"\\hbar"),
  (c!"⮕", c!"\\rightarrow"),
  (c!"・", c!"\\cdot"),
  (c!"¦", c!"\\mid"),
  (c!"£", c!"\\pounds"),
  (c!"¥", c!"\\yen"),
  (c!"✗", c!"\\times"),
  (c!"✔", c!"\\checkmark"),
  (c!"ⁿ", c!"^{n}"),
  (c!"«", c!"\\ll"),
  (c!"เ", c!"\\prime"),
  (c!"†", c!"\\dagger"),
  (c!"│", c!"\\mid"),
  (c!"$", c!"\\$"),
  (c!"#", c!"\\#"),
  (c!"℃", c!"\\text{\\textdegree C}"),
  (c!"℉", c!"\\text{\\textdegree F}"),
  (c!"█", c!"\\blacksquare"),
  (c!"℧", c!"\\mho"),
  (c!"ⅇ", c!"\\text{e}"),
  (c!"ɼ", c!"r"),
  (c!"‡", c!"\\ddagger"),
  (c!"ἱ", c!"i"),
  (c!"ϒ", c!"\\Upsilon"),
  (c!"𝛿", c!"\\delta"),
  (c!"˳", c!"\\cdot"),
  (c!"ѳ", c!"\\theta"),
  (c!"𝜙", c!"\\phi"),
  (c!"П", c!"\\prod"),
  (c!"о", c!"o"),
  (c!"ђ", c!"\\hbar"),
  (c!"Ʌ", c!"\\Lambda"),
  (c!"।", c!"\\mid"),
  (c!"€", c!"\\euro"),
  (c!"ῡ", c!"\\bar{u}"),
  (c!"φ", c!"\\varphi"),
  (c!"ȼ", c!"c"),
  (c!"𝞮", c!"\\epsilon"),
  (c!"Χ", c!"\\mathsf{X}"),
  (c!"ₙ", c!"_{n}")]

end Verif
