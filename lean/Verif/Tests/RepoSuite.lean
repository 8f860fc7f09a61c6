import Verif.Model.Api
import Verif.Lemmas.Xml
import Verif.Lemmas.MeansCheck

/-!
Generated by tools/gen_suite.py.  These are *tests* of the model against the expectations of
the repository's own test-suite, of the reader of XML in Lemmas/Xml.lean against `minidom`, and of the
reach of C59 and C60: their conditions hold of a document exactly if the expected LaTeX can be read.
They are not proofs.
-/

namespace Verif.Tests

/-- A parser given by finitely many answers. -/
def tabEnv (t : List (Str × Except ParseErr Doc)) : Env where
  parse s := match t.find? (fun p => p.1 == s) with
    | some p => p.2
    | none => .error (.other 99)
  isWord c := c.isAlphanum || c == '_'

mutual
def sameNode : Node → Node → Bool
  | .elem n as ms, .elem n' as' ms' => n == n' && as == as' && sameNodes ms ms'
  | .text d, .text d' => d == d'
  | .cdata d, .cdata d' => d == d'
  | .comment d, .comment d' => d == d'
  | .pi t d, .pi t' d' => t == t' && d == d'
  | _, _ => false

def sameNodes : List Node → List Node → Bool
  | [], [] => true
  | n :: ns, n' :: ns' => sameNode n n' && sameNodes ns ns'
  | _, _ => false
end

/-- The reader agrees with the recorded answers. -/
def checkRead (t : List (Str × Except ParseErr Doc)) : Bool :=
  t.all fun p => match p.2, Xml.read p.1 with
    | .ok d, some d' => sameNodes d d'
    | .ok _, none => false
    | .error _, _ => true

/-- The conditions of C59 and C60 hold of the document exactly if the expected text can be read, and
the items are those that are read. -/
def checkItems (t : List (Str × Except ParseErr Doc)) (e : Str) : Bool :=
  match (t.filterMap fun p => p.2.toOption).flatMap Spec.maths with
  | [n] =>
    (Verif.check 200 false Spec.fresh n).isSome == accepts e &&
    match meaning 200 false [] n, readAfter [] e with
    | some v, some w => eqItems v w
    | none, none => true
    | _, _ => false
  | _ => false

def check (input : Str) (t : List (Str × Except ParseErr Doc)) (expected : Option Str) : Bool :=
  checkRead t &&
  match convert (tabEnv t) input, expected with
  | .ok s, some e => s == e && checkItems t e
  | .error (.parserOther _), _ => false
  | .error _, none => true
  | _, _ => false

-- test_convert_mi_to_simple_text_with_root
#guard check "\n<root><math><mi>a</mi></math></root>\n".toList
  [("<root><math><mi>a</mi></math></root>".toList,
    .ok [.elem "root".toList [] [.elem "math".toList [] [.elem "mi".toList [] [.text "a".toList]]]])]
  (some "a".toList)

-- test_convert_mi_to_simple_text_without_root
#guard check "\n<math xmlns=\"http:#www.w3.org/1998/Math/MathML\">\n  <mi>b</mi>\n</math>\n".toList
  [("<math xmlns=\"http:#www.w3.org/1998/Math/MathML\">  <mi>b</mi></math>".toList,
    .ok [.elem "math".toList [("xmlns".toList, "http:#www.w3.org/1998/Math/MathML".toList)] [.text "  ".toList, .elem "mi".toList [] [.text "b".toList]]])]
  (some "b".toList)

-- test_add_space_between_mi_tags
#guard check "\n<math xmlns=\"http:#www.w3.org/1998/Math/MathML\">\n  <mi mathvariant=\"normal\">Δ</mi>\n  <mi>x</mi>\n</math>\n".toList
  [("<math xmlns=\"http:#www.w3.org/1998/Math/MathML\">  <mi mathvariant=\"normal\">Δ</mi>  <mi>x</mi></math>".toList,
    .ok [.elem "math".toList [("xmlns".toList, "http:#www.w3.org/1998/Math/MathML".toList)] [.text "  ".toList, .elem "mi".toList [("mathvariant".toList, "normal".toList)] [.text "Δ".toList], .text "  ".toList, .elem "mi".toList [] [.text "x".toList]]])]
  (some "\\Delta x".toList)

-- test_convert_mi_with_double_struck_attribute
#guard check "\n<math xmlns=\"http:#www.w3.org/1998/Math/MathML\">\n  <msup>\n    <mrow>\n      <mi mathvariant=\"double-struck\">R</mi>\n    </mrow>\n    <mrow>\n      <mi>n</mi>\n    </mrow>\n  </msup>\n</math>\n".toList
  [("<math xmlns=\"http:#www.w3.org/1998/Math/MathML\">  <msup>    <mrow>      <mi mathvariant=\"double-struck\">R</mi>    </mrow>    <mrow>      <mi>n</mi>    </mrow>  </msup></math>".toList,
    .ok [.elem "math".toList [("xmlns".toList, "http:#www.w3.org/1998/Math/MathML".toList)] [.text "  ".toList, .elem "msup".toList [] [.text "    ".toList, .elem "mrow".toList [] [.text "      ".toList, .elem "mi".toList [("mathvariant".toList, "double-struck".toList)] [.text "R".toList], .text "    ".toList], .text "    ".toList, .elem "mrow".toList [] [.text "      ".toList, .elem "mi".toList [] [.text "n".toList], .text "    ".toList], .text "  ".toList]]])]
  (some "\\mathbb{R}^{n}".toList)

-- test_convert_mi_with_space
#guard check "\n<root>\n  <math>\n    <mi> a </mi>\n  </math>\n</root>\n".toList
  [("<root>  <math>    <mi> a </mi>  </math></root>".toList,
    .ok [.elem "root".toList [] [.text "  ".toList, .elem "math".toList [] [.text "    ".toList, .elem "mi".toList [] [.text " a ".toList], .text "  ".toList]]])]
  (some "a".toList)

-- test_convert_mi_with_special_char_to_tex
#guard check "\n<root>\n  <math>\n    <mi> &#x221E; </mi>\n  </math>\n</root>\n".toList
  [("<root>  <math>    <mi> &#x221E; </mi>  </math></root>".toList,
    .ok [.elem "root".toList [] [.text "  ".toList, .elem "math".toList [] [.text "    ".toList, .elem "mi".toList [] [.text " ∞ ".toList], .text "  ".toList]]])]
  (some "\\infty".toList)

-- test_add_space_between_mis
#guard check "\n<math xmlns=\"http:#www.w3.org/1998/Math/MathML\">\n  <mi mathvariant=\"normal\">Δ</mi>\n  <mi>x</mi>\n</math>\n".toList
  [("<math xmlns=\"http:#www.w3.org/1998/Math/MathML\">  <mi mathvariant=\"normal\">Δ</mi>  <mi>x</mi></math>".toList,
    .ok [.elem "math".toList [("xmlns".toList, "http:#www.w3.org/1998/Math/MathML".toList)] [.text "  ".toList, .elem "mi".toList [("mathvariant".toList, "normal".toList)] [.text "Δ".toList], .text "  ".toList, .elem "mi".toList [] [.text "x".toList]]])]
  (some "\\Delta x".toList)

-- test_convert_mo_to_simple_operator
#guard check "\n<root>\n  <math>\n    <mo>+</mo>\n  </math>\n</root>\n".toList
  [("<root>  <math>    <mo>+</mo>  </math></root>".toList,
    .ok [.elem "root".toList [] [.text "  ".toList, .elem "math".toList [] [.text "    ".toList, .elem "mo".toList [] [.text "+".toList], .text "  ".toList]]])]
  (some "+".toList)

-- test_convert_mo_divider_operator
#guard check "\n<math>\n  <mi>x</mi>\n  <mo>=</mo>\n  <mn>4</mn>\n  <mrow>\n    <mo>/</mo>\n  </mrow>\n  <mn>5</mn>\n</math>\n".toList
  [("<math>  <mi>x</mi>  <mo>=</mo>  <mn>4</mn>  <mrow>    <mo>/</mo>  </mrow>  <mn>5</mn></math>".toList,
    .ok [.elem "math".toList [] [.text "  ".toList, .elem "mi".toList [] [.text "x".toList], .text "  ".toList, .elem "mo".toList [] [.text "=".toList], .text "  ".toList, .elem "mn".toList [] [.text "4".toList], .text "  ".toList, .elem "mrow".toList [] [.text "    ".toList, .elem "mo".toList [] [.text "/".toList], .text "  ".toList], .text "  ".toList, .elem "mn".toList [] [.text "5".toList]]])]
  (some "x = 4 / 5".toList)

-- test_convert_mo_with_glyph_operator
#guard check "\n<root>\n  <math>\n    <mo>*</mo>\n  </math>\n</root>\n".toList
  [("<root>  <math>    <mo>*</mo>  </math></root>".toList,
    .ok [.elem "root".toList [] [.text "  ".toList, .elem "math".toList [] [.text "    ".toList, .elem "mo".toList [] [.text "*".toList], .text "  ".toList]]])]
  (some "\\star".toList)

-- test_convert_mo_with_char_operator
#guard check "\n<root>\n  <math>\n    <mo>b</mo>\n  </math>\n</root>\n".toList
  [("<root>  <math>    <mo>b</mo>  </math></root>".toList,
    .ok [.elem "root".toList [] [.text "  ".toList, .elem "math".toList [] [.text "    ".toList, .elem "mo".toList [] [.text "b".toList], .text "  ".toList]]])]
  (some "b".toList)

-- test_convert_mo_with_char_operator_and_mi
#guard check "\n<root>\n  <math xmlns=\"http:#www.w3.org/1998/Math/MathML\">\n    <mstyle displaystyle=\"true\">\n      <mi>a</mi>\n      <mo>&#x21D2;</mo>\n      <mi>b</mi>\n    </mstyle>\n  </math>\n</root>\n".toList
  [("<root>  <math xmlns=\"http:#www.w3.org/1998/Math/MathML\">    <mstyle displaystyle=\"true\">      <mi>a</mi>      <mo>&#x21D2;</mo>      <mi>b</mi>    </mstyle>  </math></root>".toList,
    .ok [.elem "root".toList [] [.text "  ".toList, .elem "math".toList [("xmlns".toList, "http:#www.w3.org/1998/Math/MathML".toList)] [.text "    ".toList, .elem "mstyle".toList [("displaystyle".toList, "true".toList)] [.text "      ".toList, .elem "mi".toList [] [.text "a".toList], .text "      ".toList, .elem "mo".toList [] [.text "⇒".toList], .text "      ".toList, .elem "mi".toList [] [.text "b".toList], .text "    ".toList], .text "  ".toList]]])]
  (some "a \\Rightarrow b".toList)

-- test_convert_mrow_wrapping_content
#guard check "\n<root>\n  <math>\n    <mrow>\n      <mn>2</mn>\n      <mo>+</mo>\n      <mn>2</mn>\n    </mrow>\n  </math>\n</root>\n".toList
  [("<root>  <math>    <mrow>      <mn>2</mn>      <mo>+</mo>      <mn>2</mn>    </mrow>  </math></root>".toList,
    .ok [.elem "root".toList [] [.text "  ".toList, .elem "math".toList [] [.text "    ".toList, .elem "mrow".toList [] [.text "      ".toList, .elem "mn".toList [] [.text "2".toList], .text "      ".toList, .elem "mo".toList [] [.text "+".toList], .text "      ".toList, .elem "mn".toList [] [.text "2".toList], .text "    ".toList], .text "  ".toList]]])]
  (some "2 + 2".toList)

-- test_convert_msqrt_single_child
#guard check "\n<root>\n  <math>\n    <msqrt>\n      <mn>2</mn>\n    </msqrt>\n  </math>\n</root>\n".toList
  [("<root>  <math>    <msqrt>      <mn>2</mn>    </msqrt>  </math></root>".toList,
    .ok [.elem "root".toList [] [.text "  ".toList, .elem "math".toList [] [.text "    ".toList, .elem "msqrt".toList [] [.text "      ".toList, .elem "mn".toList [] [.text "2".toList], .text "    ".toList], .text "  ".toList]]])]
  (some "\\sqrt{2}".toList)

-- test_convert_msqrt_with_wrapped_content
#guard check "\n<root>\n  <math>\n    <msqrt>\n      <mn>2</mn>\n      <mo>+</mo>\n      <mn>2</mn>\n    </msqrt>\n  </math>\n</root>\n".toList
  [("<root>  <math>    <msqrt>      <mn>2</mn>      <mo>+</mo>      <mn>2</mn>    </msqrt>  </math></root>".toList,
    .ok [.elem "root".toList [] [.text "  ".toList, .elem "math".toList [] [.text "    ".toList, .elem "msqrt".toList [] [.text "      ".toList, .elem "mn".toList [] [.text "2".toList], .text "      ".toList, .elem "mo".toList [] [.text "+".toList], .text "      ".toList, .elem "mn".toList [] [.text "2".toList], .text "    ".toList], .text "  ".toList]]])]
  (some "\\sqrt{2 + 2}".toList)

-- test_convert_msqrt_with_mrow
#guard check "\n<root>\n  <math>\n    <msqrt>\n      <mrow>\n        <mn>2</mn>\n        <mo>+</mo>\n        <mn>2</mn>\n      </mrow>\n    </msqrt>\n  </math>\n</root>\n".toList
  [("<root>  <math>    <msqrt>      <mrow>        <mn>2</mn>        <mo>+</mo>        <mn>2</mn>      </mrow>    </msqrt>  </math></root>".toList,
    .ok [.elem "root".toList [] [.text "  ".toList, .elem "math".toList [] [.text "    ".toList, .elem "msqrt".toList [] [.text "      ".toList, .elem "mrow".toList [] [.text "        ".toList, .elem "mn".toList [] [.text "2".toList], .text "        ".toList, .elem "mo".toList [] [.text "+".toList], .text "        ".toList, .elem "mn".toList [] [.text "2".toList], .text "      ".toList], .text "    ".toList], .text "  ".toList]]])]
  (some "\\sqrt{2 + 2}".toList)

-- test_convert_empty_msqrt
#guard check "\n<root>\n  <math>\n    <msqrt>\n    </msqrt>\n  </math>\n</root>\n".toList
  [("<root>  <math>    <msqrt>    </msqrt>  </math></root>".toList,
    .ok [.elem "root".toList [] [.text "  ".toList, .elem "math".toList [] [.text "    ".toList, .elem "msqrt".toList [] [.text "    ".toList], .text "  ".toList]]])]
  (some "\\sqrt{}".toList)

-- test_convert_mfenced_without_attribute
#guard check "\n<root>\n  <math>\n  <mfenced>\n    <mn>3</mn>\n  </mfenced>\n  </math>\n</root>\n".toList
  [("<root>  <math>  <mfenced>    <mn>3</mn>  </mfenced>  </math></root>".toList,
    .ok [.elem "root".toList [] [.text "  ".toList, .elem "math".toList [] [.text "  ".toList, .elem "mfenced".toList [] [.text "    ".toList, .elem "mn".toList [] [.text "3".toList], .text "  ".toList], .text "  ".toList]]])]
  (some "\\left(3\\right)".toList)

-- test_convert_mfenced_with_open
#guard check "\n<root>\n  <math>\n  <mfenced open=\"{\">\n    <mn>3</mn>\n  </mfenced>\n  </math>\n</root>\n".toList
  [("<root>  <math>  <mfenced open=\"{\">    <mn>3</mn>  </mfenced>  </math></root>".toList,
    .ok [.elem "root".toList [] [.text "  ".toList, .elem "math".toList [] [.text "  ".toList, .elem "mfenced".toList [("open".toList, "{".toList)] [.text "    ".toList, .elem "mn".toList [] [.text "3".toList], .text "  ".toList], .text "  ".toList]]])]
  (some "\\left{3\\right)".toList)

-- test_convert_mfenced_with_open_and_close
#guard check "\n<root>\n  <math>\n  <mfenced open=\"(\" close=\")\">\n    <mn>3</mn>\n  </mfenced>\n  </math>\n</root>\n".toList
  [("<root>  <math>  <mfenced open=\"(\" close=\")\">    <mn>3</mn>  </mfenced>  </math></root>".toList,
    .ok [.elem "root".toList [] [.text "  ".toList, .elem "math".toList [] [.text "  ".toList, .elem "mfenced".toList [("open".toList, "(".toList), ("close".toList, ")".toList)] [.text "    ".toList, .elem "mn".toList [] [.text "3".toList], .text "  ".toList], .text "  ".toList]]])]
  (some "\\left(3\\right)".toList)

-- test_convert_mfenced_with_broken_close
#guard check "\n<root>\n  <math>\n  <mfenced open=\"{\" close>\n    <mn>3</mn>\n  </mfenced>\n  </math>\n</root>\n".toList
  [("<root>  <math>  <mfenced open=\"{\" close>    <mn>3</mn>  </mfenced>  </math></root>".toList,
    .error (.expat 4 1 39)),
   ("<root>  <math>  <mfenced open=\"{\" >    <mn>3</mn>  </mfenced>  </math></root>".toList,
    .ok [.elem "root".toList [] [.text "  ".toList, .elem "math".toList [] [.text "  ".toList, .elem "mfenced".toList [("open".toList, "{".toList)] [.text "    ".toList, .elem "mn".toList [] [.text "3".toList], .text "  ".toList], .text "  ".toList]]])]
  (some "\\left{3\\right)".toList)

-- test_convert_mfenced_with_wrapped_content
#guard check "\n<root>\n  <math>\n  <mfenced>\n    <mn>3</mn>\n    <mn>2</mn>\n    <mn>1</mn>\n  </mfenced>\n  </math>\n</root>\n".toList
  [("<root>  <math>  <mfenced>    <mn>3</mn>    <mn>2</mn>    <mn>1</mn>  </mfenced>  </math></root>".toList,
    .ok [.elem "root".toList [] [.text "  ".toList, .elem "math".toList [] [.text "  ".toList, .elem "mfenced".toList [] [.text "    ".toList, .elem "mn".toList [] [.text "3".toList], .text "    ".toList, .elem "mn".toList [] [.text "2".toList], .text "    ".toList, .elem "mn".toList [] [.text "1".toList], .text "  ".toList], .text "  ".toList]]])]
  (some "\\left(3,2,1\\right)".toList)

-- test_convert_mfenced_with_empty_separator
#guard check "\n<root>\n  <math>\n  <mfenced separators=''>\n    <mn>3</mn>\n    <mn>2</mn>\n    <mn>1</mn>\n    <mn>7</mn>\n  </mfenced>\n  </math>\n</root>\n".toList
  [("<root>  <math>  <mfenced separators=''>    <mn>3</mn>    <mn>2</mn>    <mn>1</mn>    <mn>7</mn>  </mfenced>  </math></root>".toList,
    .ok [.elem "root".toList [] [.text "  ".toList, .elem "math".toList [] [.text "  ".toList, .elem "mfenced".toList [("separators".toList, "".toList)] [.text "    ".toList, .elem "mn".toList [] [.text "3".toList], .text "    ".toList, .elem "mn".toList [] [.text "2".toList], .text "    ".toList, .elem "mn".toList [] [.text "1".toList], .text "    ".toList, .elem "mn".toList [] [.text "7".toList], .text "  ".toList], .text "  ".toList]]])]
  (some "\\left(3,2,1,7\\right)".toList)

-- test_convert_mfenced_with_separator
#guard check "\n<root>\n  <math>\n  <mfenced separators=';;;'>\n    <mn>3</mn>\n    <mn>2</mn>\n    <mn>1</mn>\n  </mfenced>\n  </math>\n</root>\n".toList
  [("<root>  <math>  <mfenced separators=';;;'>    <mn>3</mn>    <mn>2</mn>    <mn>1</mn>  </mfenced>  </math></root>".toList,
    .ok [.elem "root".toList [] [.text "  ".toList, .elem "math".toList [] [.text "  ".toList, .elem "mfenced".toList [("separators".toList, ";;;".toList)] [.text "    ".toList, .elem "mn".toList [] [.text "3".toList], .text "    ".toList, .elem "mn".toList [] [.text "2".toList], .text "    ".toList, .elem "mn".toList [] [.text "1".toList], .text "  ".toList], .text "  ".toList]]])]
  (some "\\left(3;2;1\\right)".toList)

-- test_convert_mfenced_with_diff_separators
#guard check "\n<root>\n  <math>\n  <mfenced separators=';.'>\n    <mn>3</mn>\n    <mn>2</mn>\n    <mn>1</mn>\n    <mn>7</mn>\n  </mfenced>\n  </math>\n</root>\n".toList
  [("<root>  <math>  <mfenced separators=';.'>    <mn>3</mn>    <mn>2</mn>    <mn>1</mn>    <mn>7</mn>  </mfenced>  </math></root>".toList,
    .ok [.elem "root".toList [] [.text "  ".toList, .elem "math".toList [] [.text "  ".toList, .elem "mfenced".toList [("separators".toList, ";.".toList)] [.text "    ".toList, .elem "mn".toList [] [.text "3".toList], .text "    ".toList, .elem "mn".toList [] [.text "2".toList], .text "    ".toList, .elem "mn".toList [] [.text "1".toList], .text "    ".toList, .elem "mn".toList [] [.text "7".toList], .text "  ".toList], .text "  ".toList]]])]
  (some "\\left(3;2.1.7\\right)".toList)

-- test_convert_mfenced_as_bmatrix
#guard check "\n<root>\n  <math xmlns = \"http:#www.w3.org/1998/Math/MathML\">\n    <mrow>\n      <mi>A</mi>\n      <mo>=</mo>\n      <mfenced open = \"[\" close=\"]\">\n        <mtable>\n          <mtr>\n            <mtd><mi>x</mi></mtd>\n            <mtd><mi>y</mi></mtd>\n          </mtr>\n          <mtr>\n            <mtd><mi>z</mi></mtd>\n            <mtd><mi>w</mi></mtd>\n          </mtr>\n        </mtable>\n      </mfenced>\n    </mrow>\n  </math>\n</root>\n".toList
  [("<root>  <math xmlns = \"http:#www.w3.org/1998/Math/MathML\">    <mrow>      <mi>A</mi>      <mo>=</mo>      <mfenced open = \"[\" close=\"]\">        <mtable>          <mtr>            <mtd><mi>x</mi></mtd>            <mtd><mi>y</mi></mtd>          </mtr>          <mtr>            <mtd><mi>z</mi></mtd>            <mtd><mi>w</mi></mtd>          </mtr>        </mtable>      </mfenced>    </mrow>  </math></root>".toList,
    .ok [.elem "root".toList [] [.text "  ".toList, .elem "math".toList [("xmlns".toList, "http:#www.w3.org/1998/Math/MathML".toList)] [.text "    ".toList, .elem "mrow".toList [] [.text "      ".toList, .elem "mi".toList [] [.text "A".toList], .text "      ".toList, .elem "mo".toList [] [.text "=".toList], .text "      ".toList, .elem "mfenced".toList [("open".toList, "[".toList), ("close".toList, "]".toList)] [.text "        ".toList, .elem "mtable".toList [] [.text "          ".toList, .elem "mtr".toList [] [.text "            ".toList, .elem "mtd".toList [] [.elem "mi".toList [] [.text "x".toList]], .text "            ".toList, .elem "mtd".toList [] [.elem "mi".toList [] [.text "y".toList]], .text "          ".toList], .text "          ".toList, .elem "mtr".toList [] [.text "            ".toList, .elem "mtd".toList [] [.elem "mi".toList [] [.text "z".toList]], .text "            ".toList, .elem "mtd".toList [] [.elem "mi".toList [] [.text "w".toList]], .text "          ".toList], .text "        ".toList], .text "      ".toList], .text "    ".toList], .text "  ".toList]]])]
  (some "A = \\begin{bmatrix} x & y \\\\ z & w \\end{bmatrix}".toList)

-- test_convert_mfenced_as_pmatrix
#guard check "\n<root>\n  <math xmlns = \"http:#www.w3.org/1998/Math/MathML\">\n    <mrow>\n      <mi>A</mi>\n      <mo>=</mo>\n      <mfenced open = \"(\" close=\")\">\n        <mtable>\n          <mtr>\n            <mtd><mi>x</mi></mtd>\n            <mtd><mi>y</mi></mtd>\n          </mtr>\n          <mtr>\n            <mtd><mi>z</mi></mtd>\n            <mtd><mi>w</mi></mtd>\n          </mtr>\n        </mtable>\n      </mfenced>\n    </mrow>\n  </math>\n</root>\n".toList
  [("<root>  <math xmlns = \"http:#www.w3.org/1998/Math/MathML\">    <mrow>      <mi>A</mi>      <mo>=</mo>      <mfenced open = \"(\" close=\")\">        <mtable>          <mtr>            <mtd><mi>x</mi></mtd>            <mtd><mi>y</mi></mtd>          </mtr>          <mtr>            <mtd><mi>z</mi></mtd>            <mtd><mi>w</mi></mtd>          </mtr>        </mtable>      </mfenced>    </mrow>  </math></root>".toList,
    .ok [.elem "root".toList [] [.text "  ".toList, .elem "math".toList [("xmlns".toList, "http:#www.w3.org/1998/Math/MathML".toList)] [.text "    ".toList, .elem "mrow".toList [] [.text "      ".toList, .elem "mi".toList [] [.text "A".toList], .text "      ".toList, .elem "mo".toList [] [.text "=".toList], .text "      ".toList, .elem "mfenced".toList [("open".toList, "(".toList), ("close".toList, ")".toList)] [.text "        ".toList, .elem "mtable".toList [] [.text "          ".toList, .elem "mtr".toList [] [.text "            ".toList, .elem "mtd".toList [] [.elem "mi".toList [] [.text "x".toList]], .text "            ".toList, .elem "mtd".toList [] [.elem "mi".toList [] [.text "y".toList]], .text "          ".toList], .text "          ".toList, .elem "mtr".toList [] [.text "            ".toList, .elem "mtd".toList [] [.elem "mi".toList [] [.text "z".toList]], .text "            ".toList, .elem "mtd".toList [] [.elem "mi".toList [] [.text "w".toList]], .text "          ".toList], .text "        ".toList], .text "      ".toList], .text "    ".toList], .text "  ".toList]]])]
  (some "A = \\begin{pmatrix} x & y \\\\ z & w \\end{pmatrix}".toList)

-- test_convert_mfenced_as_vmatrix
#guard check "\n<root>\n  <math xmlns = \"http:#www.w3.org/1998/Math/MathML\">\n    <mrow>\n      <mi>A</mi>\n      <mo>=</mo>\n      <mfenced open = \"|\" close=\"|\">\n        <mtable>\n          <mtr>\n            <mtd><mi>x</mi></mtd>\n            <mtd><mi>y</mi></mtd>\n          </mtr>\n          <mtr>\n            <mtd><mi>z</mi></mtd>\n            <mtd><mi>w</mi></mtd>\n          </mtr>\n        </mtable>\n      </mfenced>\n    </mrow>\n  </math>\n</root>\n".toList
  [("<root>  <math xmlns = \"http:#www.w3.org/1998/Math/MathML\">    <mrow>      <mi>A</mi>      <mo>=</mo>      <mfenced open = \"|\" close=\"|\">        <mtable>          <mtr>            <mtd><mi>x</mi></mtd>            <mtd><mi>y</mi></mtd>          </mtr>          <mtr>            <mtd><mi>z</mi></mtd>            <mtd><mi>w</mi></mtd>          </mtr>        </mtable>      </mfenced>    </mrow>  </math></root>".toList,
    .ok [.elem "root".toList [] [.text "  ".toList, .elem "math".toList [("xmlns".toList, "http:#www.w3.org/1998/Math/MathML".toList)] [.text "    ".toList, .elem "mrow".toList [] [.text "      ".toList, .elem "mi".toList [] [.text "A".toList], .text "      ".toList, .elem "mo".toList [] [.text "=".toList], .text "      ".toList, .elem "mfenced".toList [("open".toList, "|".toList), ("close".toList, "|".toList)] [.text "        ".toList, .elem "mtable".toList [] [.text "          ".toList, .elem "mtr".toList [] [.text "            ".toList, .elem "mtd".toList [] [.elem "mi".toList [] [.text "x".toList]], .text "            ".toList, .elem "mtd".toList [] [.elem "mi".toList [] [.text "y".toList]], .text "          ".toList], .text "          ".toList, .elem "mtr".toList [] [.text "            ".toList, .elem "mtd".toList [] [.elem "mi".toList [] [.text "z".toList]], .text "            ".toList, .elem "mtd".toList [] [.elem "mi".toList [] [.text "w".toList]], .text "          ".toList], .text "        ".toList], .text "      ".toList], .text "    ".toList], .text "  ".toList]]])]
  (some "A = \\begin{vmatrix} x & y \\\\ z & w \\end{vmatrix}".toList)

-- test_convert_mfenced_as_big_bmatrix
#guard check "\n<root>\n  <math xmlns = \"http:#www.w3.org/1998/Math/MathML\">\n    <mrow>\n      <mi>A</mi>\n      <mo>=</mo>\n      <mfenced open = \"{\" close=\"}\">\n        <mtable>\n          <mtr>\n            <mtd><mi>x</mi></mtd>\n            <mtd><mi>y</mi></mtd>\n          </mtr>\n          <mtr>\n            <mtd><mi>z</mi></mtd>\n            <mtd><mi>w</mi></mtd>\n          </mtr>\n        </mtable>\n      </mfenced>\n    </mrow>\n  </math>\n</root>\n".toList
  [("<root>  <math xmlns = \"http:#www.w3.org/1998/Math/MathML\">    <mrow>      <mi>A</mi>      <mo>=</mo>      <mfenced open = \"{\" close=\"}\">        <mtable>          <mtr>            <mtd><mi>x</mi></mtd>            <mtd><mi>y</mi></mtd>          </mtr>          <mtr>            <mtd><mi>z</mi></mtd>            <mtd><mi>w</mi></mtd>          </mtr>        </mtable>      </mfenced>    </mrow>  </math></root>".toList,
    .ok [.elem "root".toList [] [.text "  ".toList, .elem "math".toList [("xmlns".toList, "http:#www.w3.org/1998/Math/MathML".toList)] [.text "    ".toList, .elem "mrow".toList [] [.text "      ".toList, .elem "mi".toList [] [.text "A".toList], .text "      ".toList, .elem "mo".toList [] [.text "=".toList], .text "      ".toList, .elem "mfenced".toList [("open".toList, "{".toList), ("close".toList, "}".toList)] [.text "        ".toList, .elem "mtable".toList [] [.text "          ".toList, .elem "mtr".toList [] [.text "            ".toList, .elem "mtd".toList [] [.elem "mi".toList [] [.text "x".toList]], .text "            ".toList, .elem "mtd".toList [] [.elem "mi".toList [] [.text "y".toList]], .text "          ".toList], .text "          ".toList, .elem "mtr".toList [] [.text "            ".toList, .elem "mtd".toList [] [.elem "mi".toList [] [.text "z".toList]], .text "            ".toList, .elem "mtd".toList [] [.elem "mi".toList [] [.text "w".toList]], .text "          ".toList], .text "        ".toList], .text "      ".toList], .text "    ".toList], .text "  ".toList]]])]
  (some "A = \\begin{Bmatrix} x & y \\\\ z & w \\end{Bmatrix}".toList)

-- test_convert_mfenced_as_big_vmatrix
#guard check "\n<root>\n  <math xmlns = \"http:#www.w3.org/1998/Math/MathML\">\n    <mrow>\n      <mi>A</mi>\n      <mo>=</mo>\n      <mfenced open = \"||\" close=\"||\">\n        <mtable>\n          <mtr>\n            <mtd><mi>x</mi></mtd>\n            <mtd><mi>y</mi></mtd>\n          </mtr>\n          <mtr>\n            <mtd><mi>z</mi></mtd>\n            <mtd><mi>w</mi></mtd>\n          </mtr>\n        </mtable>\n      </mfenced>\n    </mrow>\n  </math>\n</root>\n".toList
  [("<root>  <math xmlns = \"http:#www.w3.org/1998/Math/MathML\">    <mrow>      <mi>A</mi>      <mo>=</mo>      <mfenced open = \"||\" close=\"||\">        <mtable>          <mtr>            <mtd><mi>x</mi></mtd>            <mtd><mi>y</mi></mtd>          </mtr>          <mtr>            <mtd><mi>z</mi></mtd>            <mtd><mi>w</mi></mtd>          </mtr>        </mtable>      </mfenced>    </mrow>  </math></root>".toList,
    .ok [.elem "root".toList [] [.text "  ".toList, .elem "math".toList [("xmlns".toList, "http:#www.w3.org/1998/Math/MathML".toList)] [.text "    ".toList, .elem "mrow".toList [] [.text "      ".toList, .elem "mi".toList [] [.text "A".toList], .text "      ".toList, .elem "mo".toList [] [.text "=".toList], .text "      ".toList, .elem "mfenced".toList [("open".toList, "||".toList), ("close".toList, "||".toList)] [.text "        ".toList, .elem "mtable".toList [] [.text "          ".toList, .elem "mtr".toList [] [.text "            ".toList, .elem "mtd".toList [] [.elem "mi".toList [] [.text "x".toList]], .text "            ".toList, .elem "mtd".toList [] [.elem "mi".toList [] [.text "y".toList]], .text "          ".toList], .text "          ".toList, .elem "mtr".toList [] [.text "            ".toList, .elem "mtd".toList [] [.elem "mi".toList [] [.text "z".toList]], .text "            ".toList, .elem "mtd".toList [] [.elem "mi".toList [] [.text "w".toList]], .text "          ".toList], .text "        ".toList], .text "      ".toList], .text "    ".toList], .text "  ".toList]]])]
  (some "A = \\begin{Vmatrix} x & y \\\\ z & w \\end{Vmatrix}".toList)

-- test_convert_mfenced_as_matrix
#guard check "\n<root>\n  <math xmlns = \"http:#www.w3.org/1998/Math/MathML\">\n    <mrow>\n      <mi>A</mi>\n      <mo>=</mo>\n      <mfenced>\n        <mtable>\n          <mtr>\n            <mtd><mi>x</mi></mtd>\n            <mtd><mi>y</mi></mtd>\n          </mtr>\n          <mtr>\n            <mtd><mi>z</mi></mtd>\n            <mtd><mi>w</mi></mtd>\n          </mtr>\n        </mtable>\n      </mfenced>\n    </mrow>\n  </math>\n</root>\n".toList
  [("<root>  <math xmlns = \"http:#www.w3.org/1998/Math/MathML\">    <mrow>      <mi>A</mi>      <mo>=</mo>      <mfenced>        <mtable>          <mtr>            <mtd><mi>x</mi></mtd>            <mtd><mi>y</mi></mtd>          </mtr>          <mtr>            <mtd><mi>z</mi></mtd>            <mtd><mi>w</mi></mtd>          </mtr>        </mtable>      </mfenced>    </mrow>  </math></root>".toList,
    .ok [.elem "root".toList [] [.text "  ".toList, .elem "math".toList [("xmlns".toList, "http:#www.w3.org/1998/Math/MathML".toList)] [.text "    ".toList, .elem "mrow".toList [] [.text "      ".toList, .elem "mi".toList [] [.text "A".toList], .text "      ".toList, .elem "mo".toList [] [.text "=".toList], .text "      ".toList, .elem "mfenced".toList [] [.text "        ".toList, .elem "mtable".toList [] [.text "          ".toList, .elem "mtr".toList [] [.text "            ".toList, .elem "mtd".toList [] [.elem "mi".toList [] [.text "x".toList]], .text "            ".toList, .elem "mtd".toList [] [.elem "mi".toList [] [.text "y".toList]], .text "          ".toList], .text "          ".toList, .elem "mtr".toList [] [.text "            ".toList, .elem "mtd".toList [] [.elem "mi".toList [] [.text "z".toList]], .text "            ".toList, .elem "mtd".toList [] [.elem "mi".toList [] [.text "w".toList]], .text "          ".toList], .text "        ".toList], .text "      ".toList], .text "    ".toList], .text "  ".toList]]])]
  (some "A = \\begin{bmatrix} x & y \\\\ z & w \\end{bmatrix}".toList)

-- test_convert_mfenced_as_partial_function
#guard check "\n<root>\n  <math xmlns=\"http:#www.w3.org/1998/Math/MathML\" display=\"block\">\n    <mi>f</mi>\n    <mfenced separators=\"|\">\n      <mrow>\n        <mi>x</mi>\n      </mrow>\n    </mfenced>\n    <mo>=</mo>\n    <mfenced open=\"{\" close=\"\" separators=\"|\">\n      <mrow>\n        <mtable>\n          <mtr>\n            <mtd>\n              <mrow>\n                <maligngroup></maligngroup>\n                <msup>\n                  <mrow>\n                    <mi>x</mi>\n                  </mrow>\n                  <mrow>\n                    <mn>2</mn>\n                  </mrow>\n                </msup>\n                <mo>,</mo>\n                <mi>x</mi>\n                <mo>&lt;</mo>\n                <mn>0</mn>\n              </mrow>\n            </mtd>\n          </mtr>\n          <mtr>\n            <mtd>\n              <mrow>\n                <maligngroup></maligngroup>\n                <msup>\n                  <mrow>\n                    <mi>e</mi>\n                  </mrow>\n                  <mrow>\n                    <mi>x</mi>\n                  </mrow>\n                </msup>\n                <mo>,</mo>\n                <mi>x</mi>\n                <mo>≥</mo>\n                <mn>0</mn>\n              </mrow>\n            </mtd>\n          </mtr>\n        </mtable>\n      </mrow>\n    </mfenced>\n  </math>\n</root>\n".toList
  [("<root>  <math xmlns=\"http:#www.w3.org/1998/Math/MathML\" display=\"block\">    <mi>f</mi>    <mfenced separators=\"|\">      <mrow>        <mi>x</mi>      </mrow>    </mfenced>    <mo>=</mo>    <mfenced open=\"{\" close=\"\" separators=\"|\">      <mrow>        <mtable>          <mtr>            <mtd>              <mrow>                <maligngroup></maligngroup>                <msup>                  <mrow>                    <mi>x</mi>                  </mrow>                  <mrow>                    <mn>2</mn>                  </mrow>                </msup>                <mo>,</mo>                <mi>x</mi>                <mo>&lt;</mo>                <mn>0</mn>              </mrow>            </mtd>          </mtr>          <mtr>            <mtd>              <mrow>                <maligngroup></maligngroup>                <msup>                  <mrow>                    <mi>e</mi>                  </mrow>                  <mrow>                    <mi>x</mi>                  </mrow>                </msup>                <mo>,</mo>                <mi>x</mi>                <mo>≥</mo>                <mn>0</mn>              </mrow>            </mtd>          </mtr>        </mtable>      </mrow>    </mfenced>  </math></root>".toList,
    .ok [.elem "root".toList [] [.text "  ".toList, .elem "math".toList [("xmlns".toList, "http:#www.w3.org/1998/Math/MathML".toList), ("display".toList, "block".toList)] [.text "    ".toList, .elem "mi".toList [] [.text "f".toList], .text "    ".toList, .elem "mfenced".toList [("separators".toList, "|".toList)] [.text "      ".toList, .elem "mrow".toList [] [.text "        ".toList, .elem "mi".toList [] [.text "x".toList], .text "      ".toList], .text "    ".toList], .text "    ".toList, .elem "mo".toList [] [.text "=".toList], .text "    ".toList, .elem "mfenced".toList [("open".toList, "{".toList), ("close".toList, "".toList), ("separators".toList, "|".toList)] [.text "      ".toList, .elem "mrow".toList [] [.text "        ".toList, .elem "mtable".toList [] [.text "          ".toList, .elem "mtr".toList [] [.text "            ".toList, .elem "mtd".toList [] [.text "              ".toList, .elem "mrow".toList [] [.text "                ".toList, .elem "maligngroup".toList [] [], .text "                ".toList, .elem "msup".toList [] [.text "                  ".toList, .elem "mrow".toList [] [.text "                    ".toList, .elem "mi".toList [] [.text "x".toList], .text "                  ".toList], .text "                  ".toList, .elem "mrow".toList [] [.text "                    ".toList, .elem "mn".toList [] [.text "2".toList], .text "                  ".toList], .text "                ".toList], .text "                ".toList, .elem "mo".toList [] [.text ",".toList], .text "                ".toList, .elem "mi".toList [] [.text "x".toList], .text "                ".toList, .elem "mo".toList [] [.text "<".toList], .text "                ".toList, .elem "mn".toList [] [.text "0".toList], .text "              ".toList], .text "            ".toList], .text "          ".toList], .text "          ".toList, .elem "mtr".toList [] [.text "            ".toList, .elem "mtd".toList [] [.text "              ".toList, .elem "mrow".toList [] [.text "                ".toList, .elem "maligngroup".toList [] [], .text "                ".toList, .elem "msup".toList [] [.text "                  ".toList, .elem "mrow".toList [] [.text "                    ".toList, .elem "mi".toList [] [.text "e".toList], .text "                  ".toList], .text "                  ".toList, .elem "mrow".toList [] [.text "                    ".toList, .elem "mi".toList [] [.text "x".toList], .text "                  ".toList], .text "                ".toList], .text "                ".toList, .elem "mo".toList [] [.text ",".toList], .text "                ".toList, .elem "mi".toList [] [.text "x".toList], .text "                ".toList, .elem "mo".toList [] [.text "≥".toList], .text "                ".toList, .elem "mn".toList [] [.text "0".toList], .text "              ".toList], .text "            ".toList], .text "          ".toList], .text "        ".toList], .text "      ".toList], .text "    ".toList], .text "  ".toList]]])]
  (some "f \\left(x\\right) = \\left{\\begin{matrix} x^{2} , x < 0 \\\\ e^{x} , x \\geq 0 \\end{matrix}\\right".toList)

-- test_convert_mfenced_with_nested_mtables
#guard check "\n<math xmlns=\"http:#www.w3.org/1998/Math/MathML\" display=\"block\">\n  <mfenced separators=\"|\">\n    <mrow>\n      <mtable>\n        <mtr>\n          <mtd>\n            <mtable>\n              <mtr>\n                <mtd>\n                  <msub>\n                    <mrow>\n                      <mi>a</mi>\n                    </mrow>\n                    <mrow>\n                      <mn>11</mn>\n                    </mrow>\n                  </msub>\n                </mtd>\n                <mtd>\n                  <msub>\n                    <mrow>\n                      <mi>a</mi>\n                    </mrow>\n                    <mrow>\n                      <mn>12</mn>\n                    </mrow>\n                  </msub>\n                </mtd>\n              </mtr>\n            </mtable>\n          </mtd>\n          <mtd>\n            <mtable>\n              <mtr>\n                <mtd>\n                  <mo>…</mo>\n                </mtd>\n                <mtd>\n                  <mo>…</mo>\n                </mtd>\n              </mtr>\n            </mtable>\n          </mtd>\n          <mtd>\n            <msub>\n              <mrow>\n                <mi>a</mi>\n              </mrow>\n              <mrow>\n                <mn>1</mn>\n                <mi>n</mi>\n              </mrow>\n            </msub>\n          </mtd>\n        </mtr>\n        <mtr>\n          <mtd>\n            <mtable>\n              <mtr>\n                <mtd>\n                  <msub>\n                    <mrow>\n                      <mi>a</mi>\n                    </mrow>\n                    <mrow>\n                      <mn>21</mn>\n                    </mrow>\n                  </msub>\n                </mtd>\n                <mtd>\n                  <msub>\n                    <mrow>\n                      <mi>a</mi>\n                    </mrow>\n                    <mrow>\n                      <mn>22</mn>\n                    </mrow>\n                  </msub>\n                </mtd>\n              </mtr>\n            </mtable>\n          </mtd>\n          <mtd>\n            <mtable>\n              <mtr>\n                <mtd>\n                  <mo>⋱</mo>\n                </mtd>\n                <mtd>\n                  <mi></mi>\n                </mtd>\n              </mtr>\n            </mtable>\n          </mtd>\n          <mtd>\n            <msub>\n              <mrow>\n                <mi>a</mi>\n              </mrow>\n              <mrow>\n                <mn>2</mn>\n                <mi>n</mi>\n              </mrow>\n            </msub>\n          </mtd>\n        </mtr>\n        <mtr>\n          <mtd>\n            <mtable>\n              <mtr>\n                <mtd>\n                  <mtable>\n                    <mtr>\n                      <mtd>\n                        <mo>⋮</mo>\n                        <mi></mi>\n                        <mi></mi>\n                        <mi></mi>\n                        <mi></mi>\n                      </mtd>\n                      <mtd>\n                        <mo>⋮</mo>\n                      </mtd>\n                    </mtr>\n                  </mtable>\n                </mtd>\n              </mtr>\n              <mtr>\n                <mtd>\n                  <mtable>\n                    <mtr>\n                      <mtd>\n                        <msub>\n                          <mrow>\n                            <mi>a</mi>\n                          </mrow>\n                          <mrow>\n                            <mi>m</mi>\n                            <mn>1</mn>\n                          </mrow>\n                        </msub>\n                      </mtd>\n                      <mtd>\n                        <msub>\n                          <mrow>\n                            <mi>a</mi>\n                          </mrow>\n                          <mrow>\n                            <mi>m</mi>\n                            <mn>2</mn>\n                          </mrow>\n                        </msub>\n                      </mtd>\n                    </mtr>\n                  </mtable>\n                </mtd>\n              </mtr>\n            </mtable>\n          </mtd>\n          <mtd>\n            <mtable>\n              <mtr>\n                <mtd>\n                  <mtable>\n                    <mtr>\n                      <mtd>\n                        <mi></mi>\n                      </mtd>\n                      <mtd>\n                        <mo>⋱</mo>\n                      </mtd>\n                    </mtr>\n                  </mtable>\n                </mtd>\n              </mtr>\n              <mtr>\n                <mtd>\n                  <mtable>\n                    <mtr>\n                      <mtd>\n                        <mo>…</mo>\n                      </mtd>\n                      <mtd>\n                        <mo>…</mo>\n                      </mtd>\n                    </mtr>\n                  </mtable>\n                </mtd>\n              </mtr>\n            </mtable>\n          </mtd>\n          <mtd>\n            <mtable>\n              <mtr>\n                <mtd>\n                  <mo>⋮</mo>\n                </mtd>\n              </mtr>\n              <mtr>\n                <mtd>\n                  <msub>\n                    <mrow>\n                      <mi>a</mi>\n                    </mrow>\n                    <mrow>\n                      <mi>m</mi>\n                      <mi>n</mi>\n                    </mrow>\n                  </msub>\n                </mtd>\n              </mtr>\n            </mtable>\n          </mtd>\n        </mtr>\n      </mtable>\n    </mrow>\n  </mfenced>\n  <mi></mi>\n</math>\n".toList
  [("<math xmlns=\"http:#www.w3.org/1998/Math/MathML\" display=\"block\">  <mfenced separators=\"|\">    <mrow>      <mtable>        <mtr>          <mtd>            <mtable>              <mtr>                <mtd>                  <msub>                    <mrow>                      <mi>a</mi>                    </mrow>                    <mrow>                      <mn>11</mn>                    </mrow>                  </msub>                </mtd>                <mtd>                  <msub>                    <mrow>                      <mi>a</mi>                    </mrow>                    <mrow>                      <mn>12</mn>                    </mrow>                  </msub>                </mtd>              </mtr>            </mtable>          </mtd>          <mtd>            <mtable>              <mtr>                <mtd>                  <mo>…</mo>                </mtd>                <mtd>                  <mo>…</mo>                </mtd>              </mtr>            </mtable>          </mtd>          <mtd>            <msub>              <mrow>                <mi>a</mi>              </mrow>              <mrow>                <mn>1</mn>                <mi>n</mi>              </mrow>            </msub>          </mtd>        </mtr>        <mtr>          <mtd>            <mtable>              <mtr>                <mtd>                  <msub>                    <mrow>                      <mi>a</mi>                    </mrow>                    <mrow>                      <mn>21</mn>                    </mrow>                  </msub>                </mtd>                <mtd>                  <msub>                    <mrow>                      <mi>a</mi>                    </mrow>                    <mrow>                      <mn>22</mn>                    </mrow>                  </msub>                </mtd>              </mtr>            </mtable>          </mtd>          <mtd>            <mtable>              <mtr>                <mtd>                  <mo>⋱</mo>                </mtd>                <mtd>                  <mi></mi>                </mtd>              </mtr>            </mtable>          </mtd>          <mtd>            <msub>              <mrow>                <mi>a</mi>              </mrow>              <mrow>                <mn>2</mn>                <mi>n</mi>              </mrow>            </msub>          </mtd>        </mtr>        <mtr>          <mtd>            <mtable>              <mtr>                <mtd>                  <mtable>                    <mtr>                      <mtd>                        <mo>⋮</mo>                        <mi></mi>                        <mi></mi>                        <mi></mi>                        <mi></mi>                      </mtd>                      <mtd>                        <mo>⋮</mo>                      </mtd>                    </mtr>                  </mtable>                </mtd>              </mtr>              <mtr>                <mtd>                  <mtable>                    <mtr>                      <mtd>                        <msub>                          <mrow>                            <mi>a</mi>                          </mrow>                          <mrow>                            <mi>m</mi>                            <mn>1</mn>                          </mrow>                        </msub>                      </mtd>                      <mtd>                        <msub>                          <mrow>                            <mi>a</mi>                          </mrow>                          <mrow>                            <mi>m</mi>                            <mn>2</mn>                          </mrow>                        </msub>                      </mtd>                    </mtr>                  </mtable>                </mtd>              </mtr>            </mtable>          </mtd>          <mtd>            <mtable>              <mtr>                <mtd>                  <mtable>                    <mtr>                      <mtd>                        <mi></mi>                      </mtd>                      <mtd>                        <mo>⋱</mo>                      </mtd>                    </mtr>                  </mtable>                </mtd>              </mtr>              <mtr>                <mtd>                  <mtable>                    <mtr>                      <mtd>                        <mo>…</mo>                      </mtd>                      <mtd>                        <mo>…</mo>                      </mtd>                    </mtr>                  </mtable>                </mtd>              </mtr>            </mtable>          </mtd>          <mtd>            <mtable>              <mtr>                <mtd>                  <mo>⋮</mo>                </mtd>              </mtr>              <mtr>                <mtd>                  <msub>                    <mrow>                      <mi>a</mi>                    </mrow>                    <mrow>                      <mi>m</mi>                      <mi>n</mi>                    </mrow>                  </msub>                </mtd>              </mtr>            </mtable>          </mtd>        </mtr>      </mtable>    </mrow>  </mfenced>  <mi></mi></math>".toList,
    .ok [.elem "math".toList [("xmlns".toList, "http:#www.w3.org/1998/Math/MathML".toList), ("display".toList, "block".toList)] [.text "  ".toList, .elem "mfenced".toList [("separators".toList, "|".toList)] [.text "    ".toList, .elem "mrow".toList [] [.text "      ".toList, .elem "mtable".toList [] [.text "        ".toList, .elem "mtr".toList [] [.text "          ".toList, .elem "mtd".toList [] [.text "            ".toList, .elem "mtable".toList [] [.text "              ".toList, .elem "mtr".toList [] [.text "                ".toList, .elem "mtd".toList [] [.text "                  ".toList, .elem "msub".toList [] [.text "                    ".toList, .elem "mrow".toList [] [.text "                      ".toList, .elem "mi".toList [] [.text "a".toList], .text "                    ".toList], .text "                    ".toList, .elem "mrow".toList [] [.text "                      ".toList, .elem "mn".toList [] [.text "11".toList], .text "                    ".toList], .text "                  ".toList], .text "                ".toList], .text "                ".toList, .elem "mtd".toList [] [.text "                  ".toList, .elem "msub".toList [] [.text "                    ".toList, .elem "mrow".toList [] [.text "                      ".toList, .elem "mi".toList [] [.text "a".toList], .text "                    ".toList], .text "                    ".toList, .elem "mrow".toList [] [.text "                      ".toList, .elem "mn".toList [] [.text "12".toList], .text "                    ".toList], .text "                  ".toList], .text "                ".toList], .text "              ".toList], .text "            ".toList], .text "          ".toList], .text "          ".toList, .elem "mtd".toList [] [.text "            ".toList, .elem "mtable".toList [] [.text "              ".toList, .elem "mtr".toList [] [.text "                ".toList, .elem "mtd".toList [] [.text "                  ".toList, .elem "mo".toList [] [.text "…".toList], .text "                ".toList], .text "                ".toList, .elem "mtd".toList [] [.text "                  ".toList, .elem "mo".toList [] [.text "…".toList], .text "                ".toList], .text "              ".toList], .text "            ".toList], .text "          ".toList], .text "          ".toList, .elem "mtd".toList [] [.text "            ".toList, .elem "msub".toList [] [.text "              ".toList, .elem "mrow".toList [] [.text "                ".toList, .elem "mi".toList [] [.text "a".toList], .text "              ".toList], .text "              ".toList, .elem "mrow".toList [] [.text "                ".toList, .elem "mn".toList [] [.text "1".toList], .text "                ".toList, .elem "mi".toList [] [.text "n".toList], .text "              ".toList], .text "            ".toList], .text "          ".toList], .text "        ".toList], .text "        ".toList, .elem "mtr".toList [] [.text "          ".toList, .elem "mtd".toList [] [.text "            ".toList, .elem "mtable".toList [] [.text "              ".toList, .elem "mtr".toList [] [.text "                ".toList, .elem "mtd".toList [] [.text "                  ".toList, .elem "msub".toList [] [.text "                    ".toList, .elem "mrow".toList [] [.text "                      ".toList, .elem "mi".toList [] [.text "a".toList], .text "                    ".toList], .text "                    ".toList, .elem "mrow".toList [] [.text "                      ".toList, .elem "mn".toList [] [.text "21".toList], .text "                    ".toList], .text "                  ".toList], .text "                ".toList], .text "                ".toList, .elem "mtd".toList [] [.text "                  ".toList, .elem "msub".toList [] [.text "                    ".toList, .elem "mrow".toList [] [.text "                      ".toList, .elem "mi".toList [] [.text "a".toList], .text "                    ".toList], .text "                    ".toList, .elem "mrow".toList [] [.text "                      ".toList, .elem "mn".toList [] [.text "22".toList], .text "                    ".toList], .text "                  ".toList], .text "                ".toList], .text "              ".toList], .text "            ".toList], .text "          ".toList], .text "          ".toList, .elem "mtd".toList [] [.text "            ".toList, .elem "mtable".toList [] [.text "              ".toList, .elem "mtr".toList [] [.text "                ".toList, .elem "mtd".toList [] [.text "                  ".toList, .elem "mo".toList [] [.text "⋱".toList], .text "                ".toList], .text "                ".toList, .elem "mtd".toList [] [.text "                  ".toList, .elem "mi".toList [] [], .text "                ".toList], .text "              ".toList], .text "            ".toList], .text "          ".toList], .text "          ".toList, .elem "mtd".toList [] [.text "            ".toList, .elem "msub".toList [] [.text "              ".toList, .elem "mrow".toList [] [.text "                ".toList, .elem "mi".toList [] [.text "a".toList], .text "              ".toList], .text "              ".toList, .elem "mrow".toList [] [.text "                ".toList, .elem "mn".toList [] [.text "2".toList], .text "                ".toList, .elem "mi".toList [] [.text "n".toList], .text "              ".toList], .text "            ".toList], .text "          ".toList], .text "        ".toList], .text "        ".toList, .elem "mtr".toList [] [.text "          ".toList, .elem "mtd".toList [] [.text "            ".toList, .elem "mtable".toList [] [.text "              ".toList, .elem "mtr".toList [] [.text "                ".toList, .elem "mtd".toList [] [.text "                  ".toList, .elem "mtable".toList [] [.text "                    ".toList, .elem "mtr".toList [] [.text "                      ".toList, .elem "mtd".toList [] [.text "                        ".toList, .elem "mo".toList [] [.text "⋮".toList], .text "                        ".toList, .elem "mi".toList [] [], .text "                        ".toList, .elem "mi".toList [] [], .text "                        ".toList, .elem "mi".toList [] [], .text "                        ".toList, .elem "mi".toList [] [], .text "                      ".toList], .text "                      ".toList, .elem "mtd".toList [] [.text "                        ".toList, .elem "mo".toList [] [.text "⋮".toList], .text "                      ".toList], .text "                    ".toList], .text "                  ".toList], .text "                ".toList], .text "              ".toList], .text "              ".toList, .elem "mtr".toList [] [.text "                ".toList, .elem "mtd".toList [] [.text "                  ".toList, .elem "mtable".toList [] [.text "                    ".toList, .elem "mtr".toList [] [.text "                      ".toList, .elem "mtd".toList [] [.text "                        ".toList, .elem "msub".toList [] [.text "                          ".toList, .elem "mrow".toList [] [.text "                            ".toList, .elem "mi".toList [] [.text "a".toList], .text "                          ".toList], .text "                          ".toList, .elem "mrow".toList [] [.text "                            ".toList, .elem "mi".toList [] [.text "m".toList], .text "                            ".toList, .elem "mn".toList [] [.text "1".toList], .text "                          ".toList], .text "                        ".toList], .text "                      ".toList], .text "                      ".toList, .elem "mtd".toList [] [.text "                        ".toList, .elem "msub".toList [] [.text "                          ".toList, .elem "mrow".toList [] [.text "                            ".toList, .elem "mi".toList [] [.text "a".toList], .text "                          ".toList], .text "                          ".toList, .elem "mrow".toList [] [.text "                            ".toList, .elem "mi".toList [] [.text "m".toList], .text "                            ".toList, .elem "mn".toList [] [.text "2".toList], .text "                          ".toList], .text "                        ".toList], .text "                      ".toList], .text "                    ".toList], .text "                  ".toList], .text "                ".toList], .text "              ".toList], .text "            ".toList], .text "          ".toList], .text "          ".toList, .elem "mtd".toList [] [.text "            ".toList, .elem "mtable".toList [] [.text "              ".toList, .elem "mtr".toList [] [.text "                ".toList, .elem "mtd".toList [] [.text "                  ".toList, .elem "mtable".toList [] [.text "                    ".toList, .elem "mtr".toList [] [.text "                      ".toList, .elem "mtd".toList [] [.text "                        ".toList, .elem "mi".toList [] [], .text "                      ".toList], .text "                      ".toList, .elem "mtd".toList [] [.text "                        ".toList, .elem "mo".toList [] [.text "⋱".toList], .text "                      ".toList], .text "                    ".toList], .text "                  ".toList], .text "                ".toList], .text "              ".toList], .text "              ".toList, .elem "mtr".toList [] [.text "                ".toList, .elem "mtd".toList [] [.text "                  ".toList, .elem "mtable".toList [] [.text "                    ".toList, .elem "mtr".toList [] [.text "                      ".toList, .elem "mtd".toList [] [.text "                        ".toList, .elem "mo".toList [] [.text "…".toList], .text "                      ".toList], .text "                      ".toList, .elem "mtd".toList [] [.text "                        ".toList, .elem "mo".toList [] [.text "…".toList], .text "                      ".toList], .text "                    ".toList], .text "                  ".toList], .text "                ".toList], .text "              ".toList], .text "            ".toList], .text "          ".toList], .text "          ".toList, .elem "mtd".toList [] [.text "            ".toList, .elem "mtable".toList [] [.text "              ".toList, .elem "mtr".toList [] [.text "                ".toList, .elem "mtd".toList [] [.text "                  ".toList, .elem "mo".toList [] [.text "⋮".toList], .text "                ".toList], .text "              ".toList], .text "              ".toList, .elem "mtr".toList [] [.text "                ".toList, .elem "mtd".toList [] [.text "                  ".toList, .elem "msub".toList [] [.text "                    ".toList, .elem "mrow".toList [] [.text "                      ".toList, .elem "mi".toList [] [.text "a".toList], .text "                    ".toList], .text "                    ".toList, .elem "mrow".toList [] [.text "                      ".toList, .elem "mi".toList [] [.text "m".toList], .text "                      ".toList, .elem "mi".toList [] [.text "n".toList], .text "                    ".toList], .text "                  ".toList], .text "                ".toList], .text "              ".toList], .text "            ".toList], .text "          ".toList], .text "        ".toList], .text "      ".toList], .text "    ".toList], .text "  ".toList], .text "  ".toList, .elem "mi".toList [] []]])]
  (some "\\begin{bmatrix} \\begin{matrix}a_{11} & a_{12}\\end{matrix} & \\begin{matrix}\\ldots & \\ldots\\end{matrix} & a_{1 n} \\\\ \\begin{matrix}a_{21} & a_{22}\\end{matrix} & \\begin{matrix}\\ddots & \\end{matrix} & a_{2 n} \\\\ \\begin{matrix}\\begin{matrix}\\vdots & \\vdots\\end{matrix} \\\\ \\begin{matrix}a_{m 1} & a_{m 2}\\end{matrix}\\end{matrix} & \\begin{matrix}\\begin{matrix} & \\ddots\\end{matrix} \\\\ \\begin{matrix}\\ldots & \\ldots\\end{matrix}\\end{matrix} & \\begin{matrix}\\vdots \\\\ a_{m n}\\end{matrix} \\end{bmatrix}".toList)

-- test_convert_mfrac_simple
#guard check "\n<root>\n  <math>\n    <mfrac>\n      <mi>x</mi>\n      <mn>3</mn>\n    </mfrac>\n  </math>\n</root>\n".toList
  [("<root>  <math>    <mfrac>      <mi>x</mi>      <mn>3</mn>    </mfrac>  </math></root>".toList,
    .ok [.elem "root".toList [] [.text "  ".toList, .elem "math".toList [] [.text "    ".toList, .elem "mfrac".toList [] [.text "      ".toList, .elem "mi".toList [] [.text "x".toList], .text "      ".toList, .elem "mn".toList [] [.text "3".toList], .text "    ".toList], .text "  ".toList]]])]
  (some "\\frac{x}{3}".toList)

-- test_convert_mfrac_with_mrow
#guard check "\n<root>\n  <math>\n    <mfrac>\n      <mrow>\n        <mi>a</mi>\n        <mo>+</mo>\n        <mi>2</mi>\n      </mrow>\n      <mrow>\n        <mi>b</mi>\n        <mo>-</mo>\n        <mi>3</mi>\n      </mrow>\n    </mfrac>\n  </math>\n</root>\n".toList
  [("<root>  <math>    <mfrac>      <mrow>        <mi>a</mi>        <mo>+</mo>        <mi>2</mi>      </mrow>      <mrow>        <mi>b</mi>        <mo>-</mo>        <mi>3</mi>      </mrow>    </mfrac>  </math></root>".toList,
    .ok [.elem "root".toList [] [.text "  ".toList, .elem "math".toList [] [.text "    ".toList, .elem "mfrac".toList [] [.text "      ".toList, .elem "mrow".toList [] [.text "        ".toList, .elem "mi".toList [] [.text "a".toList], .text "        ".toList, .elem "mo".toList [] [.text "+".toList], .text "        ".toList, .elem "mi".toList [] [.text "2".toList], .text "      ".toList], .text "      ".toList, .elem "mrow".toList [] [.text "        ".toList, .elem "mi".toList [] [.text "b".toList], .text "        ".toList, .elem "mo".toList [] [.text "-".toList], .text "        ".toList, .elem "mi".toList [] [.text "3".toList], .text "      ".toList], .text "    ".toList], .text "  ".toList]]])]
  (some "\\frac{a + 2}{b - 3}".toList)

-- test_convert_short_m_frac
#guard check "\n<root>\n  <math>\n    <mfrac bevelled=\"true\">\n      <mn>1</mn>\n      <mrow>\n        <msup>\n          <mi>x</mi>\n          <mn>3</mn>\n        </msup>\n        <mo>+</mo>\n        <mn>3</mn>\n      </mrow>\n    </mfrac>\n  </math>\n</root>\n".toList
  [("<root>  <math>    <mfrac bevelled=\"true\">      <mn>1</mn>      <mrow>        <msup>          <mi>x</mi>          <mn>3</mn>        </msup>        <mo>+</mo>        <mn>3</mn>      </mrow>    </mfrac>  </math></root>".toList,
    .ok [.elem "root".toList [] [.text "  ".toList, .elem "math".toList [] [.text "    ".toList, .elem "mfrac".toList [("bevelled".toList, "true".toList)] [.text "      ".toList, .elem "mn".toList [] [.text "1".toList], .text "      ".toList, .elem "mrow".toList [] [.text "        ".toList, .elem "msup".toList [] [.text "          ".toList, .elem "mi".toList [] [.text "x".toList], .text "          ".toList, .elem "mn".toList [] [.text "3".toList], .text "        ".toList], .text "        ".toList, .elem "mo".toList [] [.text "+".toList], .text "        ".toList, .elem "mn".toList [] [.text "3".toList], .text "      ".toList], .text "    ".toList], .text "  ".toList]]])]
  (some "1/\\left(x^{3} + 3\\right)".toList)

-- test_convert_mfrac_with_three_children
#guard check "\n<root>\n  <math>\n    <mfrac>\n      <mi>x</mi>\n      <mn>3</mn>\n      <mi>2</mi>\n    </mfrac>\n  </math>\n</root>\n".toList
  [("<root>  <math>    <mfrac>      <mi>x</mi>      <mn>3</mn>      <mi>2</mi>    </mfrac>  </math></root>".toList,
    .ok [.elem "root".toList [] [.text "  ".toList, .elem "math".toList [] [.text "    ".toList, .elem "mfrac".toList [] [.text "      ".toList, .elem "mi".toList [] [.text "x".toList], .text "      ".toList, .elem "mn".toList [] [.text "3".toList], .text "      ".toList, .elem "mi".toList [] [.text "2".toList], .text "    ".toList], .text "  ".toList]]])]
  none

-- test_convert_mroot
#guard check "\n<root>\n  <math>\n    <mroot>\n      <mrow>\n        <mi>x</mi>\n        <mo>+</mo>\n        <mi>2</mi>\n      </mrow>\n      <mn>3</mn>\n    </mroot> \n  </math>\n</root>\n".toList
  [("<root>  <math>    <mroot>      <mrow>        <mi>x</mi>        <mo>+</mo>        <mi>2</mi>      </mrow>      <mn>3</mn>    </mroot>   </math></root>".toList,
    .ok [.elem "root".toList [] [.text "  ".toList, .elem "math".toList [] [.text "    ".toList, .elem "mroot".toList [] [.text "      ".toList, .elem "mrow".toList [] [.text "        ".toList, .elem "mi".toList [] [.text "x".toList], .text "        ".toList, .elem "mo".toList [] [.text "+".toList], .text "        ".toList, .elem "mi".toList [] [.text "2".toList], .text "      ".toList], .text "      ".toList, .elem "mn".toList [] [.text "3".toList], .text "    ".toList], .text "   ".toList]]])]
  (some "\\sqrt[3]{x + 2}".toList)

-- test_convert_mroot_with_three_children
#guard check "\n<root>\n  <math>\n    <mroot>\n      <mrow>\n        <mi>x</mi>\n        <mo>+</mo>\n        <mi>2</mi>\n      </mrow>\n      <mn>3</mn>\n      <mn>2</mn>\n    </mroot> \n  </math>\n</root>\n".toList
  [("<root>  <math>    <mroot>      <mrow>        <mi>x</mi>        <mo>+</mo>        <mi>2</mi>      </mrow>      <mn>3</mn>      <mn>2</mn>    </mroot>   </math></root>".toList,
    .ok [.elem "root".toList [] [.text "  ".toList, .elem "math".toList [] [.text "    ".toList, .elem "mroot".toList [] [.text "      ".toList, .elem "mrow".toList [] [.text "        ".toList, .elem "mi".toList [] [.text "x".toList], .text "        ".toList, .elem "mo".toList [] [.text "+".toList], .text "        ".toList, .elem "mi".toList [] [.text "2".toList], .text "      ".toList], .text "      ".toList, .elem "mn".toList [] [.text "3".toList], .text "      ".toList, .elem "mn".toList [] [.text "2".toList], .text "    ".toList], .text "   ".toList]]])]
  none

-- test_convert_mpadded
#guard check "\n<root>\n  <math>\n    <mpadded>\n      <mn>2</mn>\n      <mo>+</mo>\n      <mn>2</mn>\n    </mpadded>\n  </math>\n</root>\n".toList
  [("<root>  <math>    <mpadded>      <mn>2</mn>      <mo>+</mo>      <mn>2</mn>    </mpadded>  </math></root>".toList,
    .ok [.elem "root".toList [] [.text "  ".toList, .elem "math".toList [] [.text "    ".toList, .elem "mpadded".toList [] [.text "      ".toList, .elem "mn".toList [] [.text "2".toList], .text "      ".toList, .elem "mo".toList [] [.text "+".toList], .text "      ".toList, .elem "mn".toList [] [.text "2".toList], .text "    ".toList], .text "  ".toList]]])]
  (some "2 + 2".toList)

-- test_convert_maction_toggle
#guard check "\n<root>\n  <math>\n    <maction>\n      <mrow>\n        <mi>a</mi>\n        <mo>+</mo>\n        <mi>2</mi>\n      </mrow>\n      <mrow>\n        <mi>b</mi>\n        <mo>-</mo>\n        <mi>3</mi>\n      </mrow>\n    </maction>\n  </math>\n</root>\n".toList
  [("<root>  <math>    <maction>      <mrow>        <mi>a</mi>        <mo>+</mo>        <mi>2</mi>      </mrow>      <mrow>        <mi>b</mi>        <mo>-</mo>        <mi>3</mi>      </mrow>    </maction>  </math></root>".toList,
    .ok [.elem "root".toList [] [.text "  ".toList, .elem "math".toList [] [.text "    ".toList, .elem "maction".toList [] [.text "      ".toList, .elem "mrow".toList [] [.text "        ".toList, .elem "mi".toList [] [.text "a".toList], .text "        ".toList, .elem "mo".toList [] [.text "+".toList], .text "        ".toList, .elem "mi".toList [] [.text "2".toList], .text "      ".toList], .text "      ".toList, .elem "mrow".toList [] [.text "        ".toList, .elem "mi".toList [] [.text "b".toList], .text "        ".toList, .elem "mo".toList [] [.text "-".toList], .text "        ".toList, .elem "mi".toList [] [.text "3".toList], .text "      ".toList], .text "    ".toList], .text "  ".toList]]])]
  (some "a + 2 \\Longrightarrow b - 3".toList)

-- test_convert_maction_with_mrow
#guard check "\n<root>\n  <math>\n    <maction>\n      <mrow>\n        <mi>a</mi>\n        <mo>+</mo>\n        <mi>2</mi>\n      </mrow>\n      <mrow>\n        <mi>b</mi>\n        <mo>-</mo>\n        <mi>3</mi>\n      </mrow>\n      <mrow>\n        <mi>a</mi>\n        <mo>+</mo>\n        <mi>b</mi>\n      </mrow>\n    </maction>\n  </math>\n</root>\n".toList
  [("<root>  <math>    <maction>      <mrow>        <mi>a</mi>        <mo>+</mo>        <mi>2</mi>      </mrow>      <mrow>        <mi>b</mi>        <mo>-</mo>        <mi>3</mi>      </mrow>      <mrow>        <mi>a</mi>        <mo>+</mo>        <mi>b</mi>      </mrow>    </maction>  </math></root>".toList,
    .ok [.elem "root".toList [] [.text "  ".toList, .elem "math".toList [] [.text "    ".toList, .elem "maction".toList [] [.text "      ".toList, .elem "mrow".toList [] [.text "        ".toList, .elem "mi".toList [] [.text "a".toList], .text "        ".toList, .elem "mo".toList [] [.text "+".toList], .text "        ".toList, .elem "mi".toList [] [.text "2".toList], .text "      ".toList], .text "      ".toList, .elem "mrow".toList [] [.text "        ".toList, .elem "mi".toList [] [.text "b".toList], .text "        ".toList, .elem "mo".toList [] [.text "-".toList], .text "        ".toList, .elem "mi".toList [] [.text "3".toList], .text "      ".toList], .text "      ".toList, .elem "mrow".toList [] [.text "        ".toList, .elem "mi".toList [] [.text "a".toList], .text "        ".toList, .elem "mo".toList [] [.text "+".toList], .text "        ".toList, .elem "mi".toList [] [.text "b".toList], .text "      ".toList], .text "    ".toList], .text "  ".toList]]])]
  (some "a + 2 \\Longrightarrow b - 3 \\Longrightarrow a + b".toList)

-- test_convert_maction_type_toggle
#guard check "\n<root>\n  <math>\n    <maction actiontype=\"toggle\">\n      <mrow>\n        <mi>a</mi>\n        <mo>+</mo>\n        <mi>2</mi>\n      </mrow>\n      <mrow>\n        <mi>b</mi>\n        <mo>-</mo>\n        <mi>3</mi>\n      </mrow>\n      <mrow>\n        <mi>a</mi>\n        <mo>+</mo>\n        <mi>b</mi>\n      </mrow>\n    </maction>\n  </math>\n</root>\n".toList
  [("<root>  <math>    <maction actiontype=\"toggle\">      <mrow>        <mi>a</mi>        <mo>+</mo>        <mi>2</mi>      </mrow>      <mrow>        <mi>b</mi>        <mo>-</mo>        <mi>3</mi>      </mrow>      <mrow>        <mi>a</mi>        <mo>+</mo>        <mi>b</mi>      </mrow>    </maction>  </math></root>".toList,
    .ok [.elem "root".toList [] [.text "  ".toList, .elem "math".toList [] [.text "    ".toList, .elem "maction".toList [("actiontype".toList, "toggle".toList)] [.text "      ".toList, .elem "mrow".toList [] [.text "        ".toList, .elem "mi".toList [] [.text "a".toList], .text "        ".toList, .elem "mo".toList [] [.text "+".toList], .text "        ".toList, .elem "mi".toList [] [.text "2".toList], .text "      ".toList], .text "      ".toList, .elem "mrow".toList [] [.text "        ".toList, .elem "mi".toList [] [.text "b".toList], .text "        ".toList, .elem "mo".toList [] [.text "-".toList], .text "        ".toList, .elem "mi".toList [] [.text "3".toList], .text "      ".toList], .text "      ".toList, .elem "mrow".toList [] [.text "        ".toList, .elem "mi".toList [] [.text "a".toList], .text "        ".toList, .elem "mo".toList [] [.text "+".toList], .text "        ".toList, .elem "mi".toList [] [.text "b".toList], .text "      ".toList], .text "    ".toList], .text "  ".toList]]])]
  (some "a + 2 \\Longrightarrow b - 3 \\Longrightarrow a + b".toList)

-- test_convert_maction_type_statusline
#guard check "\n<root>\n  <math>\n    <maction actiontype=\"statusline\">\n      <mrow>\n        <mi>a</mi>\n        <mo>+</mo>\n        <mi>2</mi>\n      </mrow>\n      <mrow>\n        <mi>b</mi>\n        <mo>-</mo>\n        <mi>3</mi>\n      </mrow>\n      <mrow>\n        <mi>a</mi>\n        <mo>+</mo>\n        <mi>b</mi>\n      </mrow>\n    </maction>\n  </math>\n</root>\n".toList
  [("<root>  <math>    <maction actiontype=\"statusline\">      <mrow>        <mi>a</mi>        <mo>+</mo>        <mi>2</mi>      </mrow>      <mrow>        <mi>b</mi>        <mo>-</mo>        <mi>3</mi>      </mrow>      <mrow>        <mi>a</mi>        <mo>+</mo>        <mi>b</mi>      </mrow>    </maction>  </math></root>".toList,
    .ok [.elem "root".toList [] [.text "  ".toList, .elem "math".toList [] [.text "    ".toList, .elem "maction".toList [("actiontype".toList, "statusline".toList)] [.text "      ".toList, .elem "mrow".toList [] [.text "        ".toList, .elem "mi".toList [] [.text "a".toList], .text "        ".toList, .elem "mo".toList [] [.text "+".toList], .text "        ".toList, .elem "mi".toList [] [.text "2".toList], .text "      ".toList], .text "      ".toList, .elem "mrow".toList [] [.text "        ".toList, .elem "mi".toList [] [.text "b".toList], .text "        ".toList, .elem "mo".toList [] [.text "-".toList], .text "        ".toList, .elem "mi".toList [] [.text "3".toList], .text "      ".toList], .text "      ".toList, .elem "mrow".toList [] [.text "        ".toList, .elem "mi".toList [] [.text "a".toList], .text "        ".toList, .elem "mo".toList [] [.text "+".toList], .text "        ".toList, .elem "mi".toList [] [.text "b".toList], .text "      ".toList], .text "    ".toList], .text "  ".toList]]])]
  (some "a + 2".toList)

-- test_convert_maction_type_tooltip
#guard check "\n<root>\n  <math>\n    <maction actiontype=\"tooltip\">\n      <mrow>\n        <mi>a</mi>\n        <mo>+</mo>\n        <mi>2</mi>\n      </mrow>\n      <mrow>\n        <mi>b</mi>\n        <mo>-</mo>\n        <mi>3</mi>\n      </mrow>\n      <mrow>\n        <mi>a</mi>\n        <mo>+</mo>\n        <mi>b</mi>\n      </mrow>\n    </maction>\n  </math>\n</root>\n".toList
  [("<root>  <math>    <maction actiontype=\"tooltip\">      <mrow>        <mi>a</mi>        <mo>+</mo>        <mi>2</mi>      </mrow>      <mrow>        <mi>b</mi>        <mo>-</mo>        <mi>3</mi>      </mrow>      <mrow>        <mi>a</mi>        <mo>+</mo>        <mi>b</mi>      </mrow>    </maction>  </math></root>".toList,
    .ok [.elem "root".toList [] [.text "  ".toList, .elem "math".toList [] [.text "    ".toList, .elem "maction".toList [("actiontype".toList, "tooltip".toList)] [.text "      ".toList, .elem "mrow".toList [] [.text "        ".toList, .elem "mi".toList [] [.text "a".toList], .text "        ".toList, .elem "mo".toList [] [.text "+".toList], .text "        ".toList, .elem "mi".toList [] [.text "2".toList], .text "      ".toList], .text "      ".toList, .elem "mrow".toList [] [.text "        ".toList, .elem "mi".toList [] [.text "b".toList], .text "        ".toList, .elem "mo".toList [] [.text "-".toList], .text "        ".toList, .elem "mi".toList [] [.text "3".toList], .text "      ".toList], .text "      ".toList, .elem "mrow".toList [] [.text "        ".toList, .elem "mi".toList [] [.text "a".toList], .text "        ".toList, .elem "mo".toList [] [.text "+".toList], .text "        ".toList, .elem "mi".toList [] [.text "b".toList], .text "      ".toList], .text "    ".toList], .text "  ".toList]]])]
  (some "a + 2".toList)

-- test_convert_menclose_default
#guard check "\n<root>\n  <math>\n    <menclose>\n      <mi>a</mi>\n      <mo>+</mo>\n      <mi>2</mi>\n    </menclose>\n  </math>\n</root>\n".toList
  [("<root>  <math>    <menclose>      <mi>a</mi>      <mo>+</mo>      <mi>2</mi>    </menclose>  </math></root>".toList,
    .ok [.elem "root".toList [] [.text "  ".toList, .elem "math".toList [] [.text "    ".toList, .elem "menclose".toList [] [.text "      ".toList, .elem "mi".toList [] [.text "a".toList], .text "      ".toList, .elem "mo".toList [] [.text "+".toList], .text "      ".toList, .elem "mi".toList [] [.text "2".toList], .text "    ".toList], .text "  ".toList]]])]
  (some "\\overline{\\left.\\right)a + 2}".toList)

-- test_convert_menclose_longdiv
#guard check "\n<root>\n  <math>\n    <menclose notation=\"longdiv\">\n      <mi>a</mi>\n      <mo>+</mo>\n      <mi>2</mi>\n    </menclose>\n  </math>\n</root>\n".toList
  [("<root>  <math>    <menclose notation=\"longdiv\">      <mi>a</mi>      <mo>+</mo>      <mi>2</mi>    </menclose>  </math></root>".toList,
    .ok [.elem "root".toList [] [.text "  ".toList, .elem "math".toList [] [.text "    ".toList, .elem "menclose".toList [("notation".toList, "longdiv".toList)] [.text "      ".toList, .elem "mi".toList [] [.text "a".toList], .text "      ".toList, .elem "mo".toList [] [.text "+".toList], .text "      ".toList, .elem "mi".toList [] [.text "2".toList], .text "    ".toList], .text "  ".toList]]])]
  (some "\\overline{\\left.\\right)a + 2}".toList)

-- test_convert_menclose_actuarial
#guard check "\n<root>\n  <math>\n    <menclose notation=\"actuarial\">\n      <mi>a</mi>\n      <mo>+</mo>\n      <mi>2</mi>\n    </menclose>\n  </math>\n</root>\n".toList
  [("<root>  <math>    <menclose notation=\"actuarial\">      <mi>a</mi>      <mo>+</mo>      <mi>2</mi>    </menclose>  </math></root>".toList,
    .ok [.elem "root".toList [] [.text "  ".toList, .elem "math".toList [] [.text "    ".toList, .elem "menclose".toList [("notation".toList, "actuarial".toList)] [.text "      ".toList, .elem "mi".toList [] [.text "a".toList], .text "      ".toList, .elem "mo".toList [] [.text "+".toList], .text "      ".toList, .elem "mi".toList [] [.text "2".toList], .text "    ".toList], .text "  ".toList]]])]
  (some "\\overline{\\left.a + 2\\right|}".toList)

-- test_convert_menclose_radical
#guard check "\n<root>\n  <math>\n    <menclose notation=\"radical\">\n      <mi>a</mi>\n      <mo>+</mo>\n      <mi>2</mi>\n    </menclose>\n  </math>\n</root>\n".toList
  [("<root>  <math>    <menclose notation=\"radical\">      <mi>a</mi>      <mo>+</mo>      <mi>2</mi>    </menclose>  </math></root>".toList,
    .ok [.elem "root".toList [] [.text "  ".toList, .elem "math".toList [] [.text "    ".toList, .elem "menclose".toList [("notation".toList, "radical".toList)] [.text "      ".toList, .elem "mi".toList [] [.text "a".toList], .text "      ".toList, .elem "mo".toList [] [.text "+".toList], .text "      ".toList, .elem "mi".toList [] [.text "2".toList], .text "    ".toList], .text "  ".toList]]])]
  (some "\\sqrt{a + 2}".toList)

-- test_convert_menclose_box
#guard check "\n<root>\n  <math>\n    <menclose notation=\"box\">\n      <mrow>\n        <mi>E</mi>\n        <mo>=</mo>\n        <mi>m</mi>\n        <msup>\n          <mi>c</mi>\n          <mn>2</mn>\n        </msup>\n      </mrow>\n    </menclose>\n  </math>\n</root>\n".toList
  [("<root>  <math>    <menclose notation=\"box\">      <mrow>        <mi>E</mi>        <mo>=</mo>        <mi>m</mi>        <msup>          <mi>c</mi>          <mn>2</mn>        </msup>      </mrow>    </menclose>  </math></root>".toList,
    .ok [.elem "root".toList [] [.text "  ".toList, .elem "math".toList [] [.text "    ".toList, .elem "menclose".toList [("notation".toList, "box".toList)] [.text "      ".toList, .elem "mrow".toList [] [.text "        ".toList, .elem "mi".toList [] [.text "E".toList], .text "        ".toList, .elem "mo".toList [] [.text "=".toList], .text "        ".toList, .elem "mi".toList [] [.text "m".toList], .text "        ".toList, .elem "msup".toList [] [.text "          ".toList, .elem "mi".toList [] [.text "c".toList], .text "          ".toList, .elem "mn".toList [] [.text "2".toList], .text "        ".toList], .text "      ".toList], .text "    ".toList], .text "  ".toList]]])]
  (some "\\boxed{E = m c^{2}}".toList)

-- test_convert_menclose_rounded_box
#guard check "\n<root>\n  <math>\n    <menclose notation=\"roundedbox\">\n      <mrow>\n        <mi>E</mi>\n        <mo>=</mo>\n        <mi>m</mi>\n        <msup>\n          <mi>c</mi>\n          <mn>2</mn>\n        </msup>\n      </mrow>\n    </menclose>\n  </math>\n</root>\n".toList
  [("<root>  <math>    <menclose notation=\"roundedbox\">      <mrow>        <mi>E</mi>        <mo>=</mo>        <mi>m</mi>        <msup>          <mi>c</mi>          <mn>2</mn>        </msup>      </mrow>    </menclose>  </math></root>".toList,
    .ok [.elem "root".toList [] [.text "  ".toList, .elem "math".toList [] [.text "    ".toList, .elem "menclose".toList [("notation".toList, "roundedbox".toList)] [.text "      ".toList, .elem "mrow".toList [] [.text "        ".toList, .elem "mi".toList [] [.text "E".toList], .text "        ".toList, .elem "mo".toList [] [.text "=".toList], .text "        ".toList, .elem "mi".toList [] [.text "m".toList], .text "        ".toList, .elem "msup".toList [] [.text "          ".toList, .elem "mi".toList [] [.text "c".toList], .text "          ".toList, .elem "mn".toList [] [.text "2".toList], .text "        ".toList], .text "      ".toList], .text "    ".toList], .text "  ".toList]]])]
  (some "\\boxed{E = m c^{2}}".toList)

-- test_convert_menclose_circle
#guard check "\n<root>\n  <math>\n    <menclose notation=\"circle\">\n      <mrow>\n        <mi>E</mi>\n        <mo>=</mo>\n        <mi>m</mi>\n        <msup>\n          <mi>c</mi>\n          <mn>2</mn>\n        </msup>\n      </mrow>\n    </menclose>\n  </math>\n</root>\n".toList
  [("<root>  <math>    <menclose notation=\"circle\">      <mrow>        <mi>E</mi>        <mo>=</mo>        <mi>m</mi>        <msup>          <mi>c</mi>          <mn>2</mn>        </msup>      </mrow>    </menclose>  </math></root>".toList,
    .ok [.elem "root".toList [] [.text "  ".toList, .elem "math".toList [] [.text "    ".toList, .elem "menclose".toList [("notation".toList, "circle".toList)] [.text "      ".toList, .elem "mrow".toList [] [.text "        ".toList, .elem "mi".toList [] [.text "E".toList], .text "        ".toList, .elem "mo".toList [] [.text "=".toList], .text "        ".toList, .elem "mi".toList [] [.text "m".toList], .text "        ".toList, .elem "msup".toList [] [.text "          ".toList, .elem "mi".toList [] [.text "c".toList], .text "          ".toList, .elem "mn".toList [] [.text "2".toList], .text "        ".toList], .text "      ".toList], .text "    ".toList], .text "  ".toList]]])]
  (some "\\boxed{E = m c^{2}}".toList)

-- test_convert_menclose_left
#guard check "\n<root>\n  <math>\n    <menclose notation=\"left\">\n      <mrow>\n        <mi>E</mi>\n        <mo>=</mo>\n        <mi>m</mi>\n        <msup>\n          <mi>c</mi>\n          <mn>2</mn>\n        </msup>\n      </mrow>\n    </menclose>\n  </math>\n</root>\n".toList
  [("<root>  <math>    <menclose notation=\"left\">      <mrow>        <mi>E</mi>        <mo>=</mo>        <mi>m</mi>        <msup>          <mi>c</mi>          <mn>2</mn>        </msup>      </mrow>    </menclose>  </math></root>".toList,
    .ok [.elem "root".toList [] [.text "  ".toList, .elem "math".toList [] [.text "    ".toList, .elem "menclose".toList [("notation".toList, "left".toList)] [.text "      ".toList, .elem "mrow".toList [] [.text "        ".toList, .elem "mi".toList [] [.text "E".toList], .text "        ".toList, .elem "mo".toList [] [.text "=".toList], .text "        ".toList, .elem "mi".toList [] [.text "m".toList], .text "        ".toList, .elem "msup".toList [] [.text "          ".toList, .elem "mi".toList [] [.text "c".toList], .text "          ".toList, .elem "mn".toList [] [.text "2".toList], .text "        ".toList], .text "      ".toList], .text "    ".toList], .text "  ".toList]]])]
  (some "\\left|E = m c^{2}".toList)

-- test_convert_menclose_right
#guard check "\n<root>\n  <math>\n    <menclose notation=\"right\">\n      <mrow>\n        <mi>E</mi>\n        <mo>=</mo>\n        <mi>m</mi>\n        <msup>\n          <mi>c</mi>\n          <mn>2</mn>\n        </msup>\n      </mrow>\n    </menclose>\n  </math>\n</root>\n".toList
  [("<root>  <math>    <menclose notation=\"right\">      <mrow>        <mi>E</mi>        <mo>=</mo>        <mi>m</mi>        <msup>          <mi>c</mi>          <mn>2</mn>        </msup>      </mrow>    </menclose>  </math></root>".toList,
    .ok [.elem "root".toList [] [.text "  ".toList, .elem "math".toList [] [.text "    ".toList, .elem "menclose".toList [("notation".toList, "right".toList)] [.text "      ".toList, .elem "mrow".toList [] [.text "        ".toList, .elem "mi".toList [] [.text "E".toList], .text "        ".toList, .elem "mo".toList [] [.text "=".toList], .text "        ".toList, .elem "mi".toList [] [.text "m".toList], .text "        ".toList, .elem "msup".toList [] [.text "          ".toList, .elem "mi".toList [] [.text "c".toList], .text "          ".toList, .elem "mn".toList [] [.text "2".toList], .text "        ".toList], .text "      ".toList], .text "    ".toList], .text "  ".toList]]])]
  (some "E = m c^{2}\\right|".toList)

-- test_convert_menclose_top
#guard check "\n<root>\n  <math>\n    <menclose notation=\"top\">\n      <mrow>\n        <mi>E</mi>\n        <mo>=</mo>\n        <mi>m</mi>\n        <msup>\n          <mi>c</mi>\n          <mn>2</mn>\n        </msup>\n      </mrow>\n    </menclose>\n  </math>\n</root>\n".toList
  [("<root>  <math>    <menclose notation=\"top\">      <mrow>        <mi>E</mi>        <mo>=</mo>        <mi>m</mi>        <msup>          <mi>c</mi>          <mn>2</mn>        </msup>      </mrow>    </menclose>  </math></root>".toList,
    .ok [.elem "root".toList [] [.text "  ".toList, .elem "math".toList [] [.text "    ".toList, .elem "menclose".toList [("notation".toList, "top".toList)] [.text "      ".toList, .elem "mrow".toList [] [.text "        ".toList, .elem "mi".toList [] [.text "E".toList], .text "        ".toList, .elem "mo".toList [] [.text "=".toList], .text "        ".toList, .elem "mi".toList [] [.text "m".toList], .text "        ".toList, .elem "msup".toList [] [.text "          ".toList, .elem "mi".toList [] [.text "c".toList], .text "          ".toList, .elem "mn".toList [] [.text "2".toList], .text "        ".toList], .text "      ".toList], .text "    ".toList], .text "  ".toList]]])]
  (some "\\overline{E = m c^{2}}".toList)

-- test_convert_menclose_bottom
#guard check "\n<root>\n  <math>\n    <menclose notation=\"bottom\">\n      <mi>a</mi>\n      <mo>+</mo>\n      <mi>2</mi>\n    </menclose>\n  </math>\n</root>\n".toList
  [("<root>  <math>    <menclose notation=\"bottom\">      <mi>a</mi>      <mo>+</mo>      <mi>2</mi>    </menclose>  </math></root>".toList,
    .ok [.elem "root".toList [] [.text "  ".toList, .elem "math".toList [] [.text "    ".toList, .elem "menclose".toList [("notation".toList, "bottom".toList)] [.text "      ".toList, .elem "mi".toList [] [.text "a".toList], .text "      ".toList, .elem "mo".toList [] [.text "+".toList], .text "      ".toList, .elem "mi".toList [] [.text "2".toList], .text "    ".toList], .text "  ".toList]]])]
  (some "\\underline{a + 2}".toList)

-- test_convert_menclose_updiagnonalstrike
#guard check "\n<root>\n  <math>\n    <menclose notation=\"updiagonalstrike\">\n      <mi>a</mi>\n      <mo>+</mo>\n      <mi>2</mi>\n    </menclose>\n  </math>\n</root>\n".toList
  [("<root>  <math>    <menclose notation=\"updiagonalstrike\">      <mi>a</mi>      <mo>+</mo>      <mi>2</mi>    </menclose>  </math></root>".toList,
    .ok [.elem "root".toList [] [.text "  ".toList, .elem "math".toList [] [.text "    ".toList, .elem "menclose".toList [("notation".toList, "updiagonalstrike".toList)] [.text "      ".toList, .elem "mi".toList [] [.text "a".toList], .text "      ".toList, .elem "mo".toList [] [.text "+".toList], .text "      ".toList, .elem "mi".toList [] [.text "2".toList], .text "    ".toList], .text "  ".toList]]])]
  (some "\\cancel{a + 2}".toList)

-- test_convert_menclose_downdiagonalstrike
#guard check "\n<root>\n  <math>\n    <menclose notation=\"downdiagonalstrike\">\n      <mi>a</mi>\n      <mo>+</mo>\n      <mi>2</mi>\n    </menclose>\n  </math>\n</root>\n".toList
  [("<root>  <math>    <menclose notation=\"downdiagonalstrike\">      <mi>a</mi>      <mo>+</mo>      <mi>2</mi>    </menclose>  </math></root>".toList,
    .ok [.elem "root".toList [] [.text "  ".toList, .elem "math".toList [] [.text "    ".toList, .elem "menclose".toList [("notation".toList, "downdiagonalstrike".toList)] [.text "      ".toList, .elem "mi".toList [] [.text "a".toList], .text "      ".toList, .elem "mo".toList [] [.text "+".toList], .text "      ".toList, .elem "mi".toList [] [.text "2".toList], .text "    ".toList], .text "  ".toList]]])]
  (some "\\bcancel{a + 2}".toList)

-- test_convert_menclose_horizontalstrike
#guard check "\n<root>\n  <math>\n    <menclose notation=\"horizontalstrike\">\n      <mi>a</mi>\n      <mo>+</mo>\n      <mi>2</mi>\n    </menclose>\n  </math>\n</root>\n".toList
  [("<root>  <math>    <menclose notation=\"horizontalstrike\">      <mi>a</mi>      <mo>+</mo>      <mi>2</mi>    </menclose>  </math></root>".toList,
    .ok [.elem "root".toList [] [.text "  ".toList, .elem "math".toList [] [.text "    ".toList, .elem "menclose".toList [("notation".toList, "horizontalstrike".toList)] [.text "      ".toList, .elem "mi".toList [] [.text "a".toList], .text "      ".toList, .elem "mo".toList [] [.text "+".toList], .text "      ".toList, .elem "mi".toList [] [.text "2".toList], .text "    ".toList], .text "  ".toList]]])]
  (some "\\hcancel{a + 2}".toList)

-- test_convert_menclose_verticalstrike
#guard check "\n<root>\n  <math>\n    <menclose notation=\"verticalstrike\">\n      <mi>a</mi>\n      <mo>+</mo>\n      <mi>2</mi>\n    </menclose>\n  </math>\n</root>\n".toList
  [("<root>  <math>    <menclose notation=\"verticalstrike\">      <mi>a</mi>      <mo>+</mo>      <mi>2</mi>    </menclose>  </math></root>".toList,
    .ok [.elem "root".toList [] [.text "  ".toList, .elem "math".toList [] [.text "    ".toList, .elem "menclose".toList [("notation".toList, "verticalstrike".toList)] [.text "      ".toList, .elem "mi".toList [] [.text "a".toList], .text "      ".toList, .elem "mo".toList [] [.text "+".toList], .text "      ".toList, .elem "mi".toList [] [.text "2".toList], .text "    ".toList], .text "  ".toList]]])]
  (some "\\hcancel{a + 2}".toList)

-- test_convert_menclose_updiagnonalarrow
#guard check "\n<root>\n  <math>\n    <menclose notation=\"updiagonalarrow\">\n      <mi>a</mi>\n      <mo>+</mo>\n      <mi>2</mi>\n    </menclose>\n  </math>\n</root>\n".toList
  [("<root>  <math>    <menclose notation=\"updiagonalarrow\">      <mi>a</mi>      <mo>+</mo>      <mi>2</mi>    </menclose>  </math></root>".toList,
    .ok [.elem "root".toList [] [.text "  ".toList, .elem "math".toList [] [.text "    ".toList, .elem "menclose".toList [("notation".toList, "updiagonalarrow".toList)] [.text "      ".toList, .elem "mi".toList [] [.text "a".toList], .text "      ".toList, .elem "mo".toList [] [.text "+".toList], .text "      ".toList, .elem "mi".toList [] [.text "2".toList], .text "    ".toList], .text "  ".toList]]])]
  (some "\\cancelto{}{a + 2}".toList)

-- test_convert_menclose_madruwb
#guard check "\n<root>\n  <math>\n    <menclose notation=\"madruwb\">\n      <mi>a</mi>\n      <mo>+</mo>\n      <mi>2</mi>\n    </menclose>\n  </math>\n</root>\n".toList
  [("<root>  <math>    <menclose notation=\"madruwb\">      <mi>a</mi>      <mo>+</mo>      <mi>2</mi>    </menclose>  </math></root>".toList,
    .ok [.elem "root".toList [] [.text "  ".toList, .elem "math".toList [] [.text "    ".toList, .elem "menclose".toList [("notation".toList, "madruwb".toList)] [.text "      ".toList, .elem "mi".toList [] [.text "a".toList], .text "      ".toList, .elem "mo".toList [] [.text "+".toList], .text "      ".toList, .elem "mi".toList [] [.text "2".toList], .text "    ".toList], .text "  ".toList]]])]
  (some "\\underline{a + 2\\right|}".toList)

-- test_convert_menclose_phasorangle
#guard check "\n<root>\n  <math>\n    <menclose notation=\"phasorangle\">\n      <mi>a</mi>\n      <mo>+</mo>\n      <mi>2</mi>\n    </menclose>\n  </math>\n</root>\n".toList
  [("<root>  <math>    <menclose notation=\"phasorangle\">      <mi>a</mi>      <mo>+</mo>      <mi>2</mi>    </menclose>  </math></root>".toList,
    .ok [.elem "root".toList [] [.text "  ".toList, .elem "math".toList [] [.text "    ".toList, .elem "menclose".toList [("notation".toList, "phasorangle".toList)] [.text "      ".toList, .elem "mi".toList [] [.text "a".toList], .text "      ".toList, .elem "mo".toList [] [.text "+".toList], .text "      ".toList, .elem "mi".toList [] [.text "2".toList], .text "    ".toList], .text "  ".toList]]])]
  (some "{\\angle \\underline{a + 2}}".toList)

-- test_convert_merror
#guard check "\n<root>\n  <math>\n    <merror>\n      <mi>2</mi>\n      <mo>+</mo>\n      <mi>2</mi>\n    </merror>\n  </math>\n</root>\n".toList
  [("<root>  <math>    <merror>      <mi>2</mi>      <mo>+</mo>      <mi>2</mi>    </merror>  </math></root>".toList,
    .ok [.elem "root".toList [] [.text "  ".toList, .elem "math".toList [] [.text "    ".toList, .elem "merror".toList [] [.text "      ".toList, .elem "mi".toList [] [.text "2".toList], .text "      ".toList, .elem "mo".toList [] [.text "+".toList], .text "      ".toList, .elem "mi".toList [] [.text "2".toList], .text "    ".toList], .text "  ".toList]]])]
  (some "\\color{red}{2 + 2}".toList)

-- test_convert_mglyph
#guard check "\n<root>\n  <math>\n    <mi><mglyph src=\"my-glyph.png\" alt=\"my glyph\"/></mi>\n  </math>\n</root>\n".toList
  [("<root>  <math>    <mi><mglyph src=\"my-glyph.png\" alt=\"my glyph\"/></mi>  </math></root>".toList,
    .ok [.elem "root".toList [] [.text "  ".toList, .elem "math".toList [] [.text "    ".toList, .elem "mi".toList [] [.elem "mglyph".toList [("src".toList, "my-glyph.png".toList), ("alt".toList, "my glyph".toList)] []], .text "  ".toList]]])]
  (some "".toList)

-- test_convert_mphantom
#guard check "\n<root>\n  <math>\n    <mrow>\n      <mi> x </mi>\n      <mo> + </mo>\n      <mphantom>\n        <mi> y </mi>\n        <mo> + </mo>\n      </mphantom>\n      <mi> z </mi>\n    </mrow>\n  </math>\n</root>\n".toList
  [("<root>  <math>    <mrow>      <mi> x </mi>      <mo> + </mo>      <mphantom>        <mi> y </mi>        <mo> + </mo>      </mphantom>      <mi> z </mi>    </mrow>  </math></root>".toList,
    .ok [.elem "root".toList [] [.text "  ".toList, .elem "math".toList [] [.text "    ".toList, .elem "mrow".toList [] [.text "      ".toList, .elem "mi".toList [] [.text " x ".toList], .text "      ".toList, .elem "mo".toList [] [.text " + ".toList], .text "      ".toList, .elem "mphantom".toList [] [.text "        ".toList, .elem "mi".toList [] [.text " y ".toList], .text "        ".toList, .elem "mo".toList [] [.text " + ".toList], .text "      ".toList], .text "      ".toList, .elem "mi".toList [] [.text " z ".toList], .text "    ".toList], .text "  ".toList]]])]
  (some "x + z".toList)

-- test_convert_msup_single
#guard check "\n<root>\n  <math>\n    <msup>\n      <mi>x</mi>\n      <mn>2</mn>\n    </msup>\n  </math>\n</root>\n".toList
  [("<root>  <math>    <msup>      <mi>x</mi>      <mn>2</mn>    </msup>  </math></root>".toList,
    .ok [.elem "root".toList [] [.text "  ".toList, .elem "math".toList [] [.text "    ".toList, .elem "msup".toList [] [.text "      ".toList, .elem "mi".toList [] [.text "x".toList], .text "      ".toList, .elem "mn".toList [] [.text "2".toList], .text "    ".toList], .text "  ".toList]]])]
  (some "x^{2}".toList)

-- test_convert_msup_with_mrow_on_top
#guard check "\n<root>\n  <math>\n    <msup>\n      <mi>x</mi>\n      <mrow>\n        <mn>a</mn>\n        <mo>+</mo>\n        <mn>b</mn>\n      </mrow>\n    </msup>\n  </math>\n</root>\n".toList
  [("<root>  <math>    <msup>      <mi>x</mi>      <mrow>        <mn>a</mn>        <mo>+</mo>        <mn>b</mn>      </mrow>    </msup>  </math></root>".toList,
    .ok [.elem "root".toList [] [.text "  ".toList, .elem "math".toList [] [.text "    ".toList, .elem "msup".toList [] [.text "      ".toList, .elem "mi".toList [] [.text "x".toList], .text "      ".toList, .elem "mrow".toList [] [.text "        ".toList, .elem "mn".toList [] [.text "a".toList], .text "        ".toList, .elem "mo".toList [] [.text "+".toList], .text "        ".toList, .elem "mn".toList [] [.text "b".toList], .text "      ".toList], .text "    ".toList], .text "  ".toList]]])]
  (some "x^{a + b}".toList)

-- test_convert_msup_with_mrow_on_bottom
#guard check "\n<root>\n  <math>\n    <msup>\n      <mrow>\n        <mn>x</mn>\n        <mo>+</mo>\n        <mn>y</mn>\n      </mrow>\n      <mi>2</mi>\n    </msup>\n  </math>\n</root>\n".toList
  [("<root>  <math>    <msup>      <mrow>        <mn>x</mn>        <mo>+</mo>        <mn>y</mn>      </mrow>      <mi>2</mi>    </msup>  </math></root>".toList,
    .ok [.elem "root".toList [] [.text "  ".toList, .elem "math".toList [] [.text "    ".toList, .elem "msup".toList [] [.text "      ".toList, .elem "mrow".toList [] [.text "        ".toList, .elem "mn".toList [] [.text "x".toList], .text "        ".toList, .elem "mo".toList [] [.text "+".toList], .text "        ".toList, .elem "mn".toList [] [.text "y".toList], .text "      ".toList], .text "      ".toList, .elem "mi".toList [] [.text "2".toList], .text "    ".toList], .text "  ".toList]]])]
  (some "\\left(x + y\\right)^{2}".toList)

-- test_convert_msup_with_mrow_on_top_bottom
#guard check "\n<root>\n  <math>\n    <msup>\n      <mrow>\n        <mn>x</mn>\n        <mo>+</mo>\n        <mn>y</mn>\n      </mrow>\n      <mrow>\n        <mn>2</mn>\n        <mo>+</mo>\n        <mn>2</mn>\n      </mrow>\n    </msup>\n  </math>\n</root>\n".toList
  [("<root>  <math>    <msup>      <mrow>        <mn>x</mn>        <mo>+</mo>        <mn>y</mn>      </mrow>      <mrow>        <mn>2</mn>        <mo>+</mo>        <mn>2</mn>      </mrow>    </msup>  </math></root>".toList,
    .ok [.elem "root".toList [] [.text "  ".toList, .elem "math".toList [] [.text "    ".toList, .elem "msup".toList [] [.text "      ".toList, .elem "mrow".toList [] [.text "        ".toList, .elem "mn".toList [] [.text "x".toList], .text "        ".toList, .elem "mo".toList [] [.text "+".toList], .text "        ".toList, .elem "mn".toList [] [.text "y".toList], .text "      ".toList], .text "      ".toList, .elem "mrow".toList [] [.text "        ".toList, .elem "mn".toList [] [.text "2".toList], .text "        ".toList, .elem "mo".toList [] [.text "+".toList], .text "        ".toList, .elem "mn".toList [] [.text "2".toList], .text "      ".toList], .text "    ".toList], .text "  ".toList]]])]
  (some "\\left(x + y\\right)^{2 + 2}".toList)

-- test_convert_msup_with_three_children
#guard check "\n<root>\n  <math>\n    <msup>\n      <mi>x</mi>\n      <mn>2</mn>\n      <mn>3</mn>\n    </msup>\n  </math>\n</root>\n".toList
  [("<root>  <math>    <msup>      <mi>x</mi>      <mn>2</mn>      <mn>3</mn>    </msup>  </math></root>".toList,
    .ok [.elem "root".toList [] [.text "  ".toList, .elem "math".toList [] [.text "    ".toList, .elem "msup".toList [] [.text "      ".toList, .elem "mi".toList [] [.text "x".toList], .text "      ".toList, .elem "mn".toList [] [.text "2".toList], .text "      ".toList, .elem "mn".toList [] [.text "3".toList], .text "    ".toList], .text "  ".toList]]])]
  none

-- test_convert_msub_single
#guard check "\n<root>\n  <math>\n    <msub>\n      <mi>x</mi>\n      <mn>2</mn>\n    </msub>\n  </math>\n</root>\n".toList
  [("<root>  <math>    <msub>      <mi>x</mi>      <mn>2</mn>    </msub>  </math></root>".toList,
    .ok [.elem "root".toList [] [.text "  ".toList, .elem "math".toList [] [.text "    ".toList, .elem "msub".toList [] [.text "      ".toList, .elem "mi".toList [] [.text "x".toList], .text "      ".toList, .elem "mn".toList [] [.text "2".toList], .text "    ".toList], .text "  ".toList]]])]
  (some "x_{2}".toList)

-- test_convert_msub_with_mrow_on_bottom
#guard check "\n<root>\n  <math>\n    <msub>\n      <mi>x</mi>\n      <mrow>\n        <mn>a</mn>\n        <mo>+</mo>\n        <mn>b</mn>\n      </mrow>\n    </msub>\n  </math>\n</root>\n".toList
  [("<root>  <math>    <msub>      <mi>x</mi>      <mrow>        <mn>a</mn>        <mo>+</mo>        <mn>b</mn>      </mrow>    </msub>  </math></root>".toList,
    .ok [.elem "root".toList [] [.text "  ".toList, .elem "math".toList [] [.text "    ".toList, .elem "msub".toList [] [.text "      ".toList, .elem "mi".toList [] [.text "x".toList], .text "      ".toList, .elem "mrow".toList [] [.text "        ".toList, .elem "mn".toList [] [.text "a".toList], .text "        ".toList, .elem "mo".toList [] [.text "+".toList], .text "        ".toList, .elem "mn".toList [] [.text "b".toList], .text "      ".toList], .text "    ".toList], .text "  ".toList]]])]
  (some "x_{a + b}".toList)

-- test_convert_msub_with_mrow_on_top
#guard check "\n<root>\n  <math>\n    <msub>\n      <mrow>\n        <mn>x</mn>\n        <mo>+</mo>\n        <mn>y</mn>\n      </mrow>\n      <mi>2</mi>\n    </msub>\n  </math>\n</root>\n".toList
  [("<root>  <math>    <msub>      <mrow>        <mn>x</mn>        <mo>+</mo>        <mn>y</mn>      </mrow>      <mi>2</mi>    </msub>  </math></root>".toList,
    .ok [.elem "root".toList [] [.text "  ".toList, .elem "math".toList [] [.text "    ".toList, .elem "msub".toList [] [.text "      ".toList, .elem "mrow".toList [] [.text "        ".toList, .elem "mn".toList [] [.text "x".toList], .text "        ".toList, .elem "mo".toList [] [.text "+".toList], .text "        ".toList, .elem "mn".toList [] [.text "y".toList], .text "      ".toList], .text "      ".toList, .elem "mi".toList [] [.text "2".toList], .text "    ".toList], .text "  ".toList]]])]
  (some "\\left(x + y\\right)_{2}".toList)

-- test_convert_msub_with_mrow_on_top_bottom
#guard check "\n<root>\n  <math>\n    <msub>\n      <mrow>\n        <mn>x</mn>\n        <mo>+</mo>\n        <mn>y</mn>\n      </mrow>\n      <mrow>\n        <mn>2</mn>\n        <mo>+</mo>\n        <mn>2</mn>\n      </mrow>\n    </msub>\n  </math>\n</root>\n".toList
  [("<root>  <math>    <msub>      <mrow>        <mn>x</mn>        <mo>+</mo>        <mn>y</mn>      </mrow>      <mrow>        <mn>2</mn>        <mo>+</mo>        <mn>2</mn>      </mrow>    </msub>  </math></root>".toList,
    .ok [.elem "root".toList [] [.text "  ".toList, .elem "math".toList [] [.text "    ".toList, .elem "msub".toList [] [.text "      ".toList, .elem "mrow".toList [] [.text "        ".toList, .elem "mn".toList [] [.text "x".toList], .text "        ".toList, .elem "mo".toList [] [.text "+".toList], .text "        ".toList, .elem "mn".toList [] [.text "y".toList], .text "      ".toList], .text "      ".toList, .elem "mrow".toList [] [.text "        ".toList, .elem "mn".toList [] [.text "2".toList], .text "        ".toList, .elem "mo".toList [] [.text "+".toList], .text "        ".toList, .elem "mn".toList [] [.text "2".toList], .text "      ".toList], .text "    ".toList], .text "  ".toList]]])]
  (some "\\left(x + y\\right)_{2 + 2}".toList)

-- test_convert_msub_with_three_children
#guard check "\n<root>\n  <math>\n    <msub>\n      <mi>x</mi>\n      <mn>2</mn>\n      <mn>3</mn>\n    </msub>\n  </math>\n</root>\n".toList
  [("<root>  <math>    <msub>      <mi>x</mi>      <mn>2</mn>      <mn>3</mn>    </msub>  </math></root>".toList,
    .ok [.elem "root".toList [] [.text "  ".toList, .elem "math".toList [] [.text "    ".toList, .elem "msub".toList [] [.text "      ".toList, .elem "mi".toList [] [.text "x".toList], .text "      ".toList, .elem "mn".toList [] [.text "2".toList], .text "      ".toList, .elem "mn".toList [] [.text "3".toList], .text "    ".toList], .text "  ".toList]]])]
  none

-- test_convert_msubsup
#guard check "\n<root>\n  <math>\n    <msubsup>\n      <mo> &#x222B; </mo>\n      <mn> 0 </mn>\n      <mn> 1 </mn>\n    </msubsup>\n  </math>\n</root>\n".toList
  [("<root>  <math>    <msubsup>      <mo> &#x222B; </mo>      <mn> 0 </mn>      <mn> 1 </mn>    </msubsup>  </math></root>".toList,
    .ok [.elem "root".toList [] [.text "  ".toList, .elem "math".toList [] [.text "    ".toList, .elem "msubsup".toList [] [.text "      ".toList, .elem "mo".toList [] [.text " ∫ ".toList], .text "      ".toList, .elem "mn".toList [] [.text " 0 ".toList], .text "      ".toList, .elem "mn".toList [] [.text " 1 ".toList], .text "    ".toList], .text "  ".toList]]])]
  (some "\\int_{0}^{1}".toList)

-- test_convert_msubsup_with_mrow
#guard check "\n<root>\n  <math>\n    <msubsup>\n      <mrow>\n        <mn>x</mn>\n        <mo>+</mo>\n        <mn>y</mn>\n      </mrow>\n      <mn> 0 </mn>\n      <mn> 1 </mn>\n    </msubsup>\n  </math>\n</root>\n".toList
  [("<root>  <math>    <msubsup>      <mrow>        <mn>x</mn>        <mo>+</mo>        <mn>y</mn>      </mrow>      <mn> 0 </mn>      <mn> 1 </mn>    </msubsup>  </math></root>".toList,
    .ok [.elem "root".toList [] [.text "  ".toList, .elem "math".toList [] [.text "    ".toList, .elem "msubsup".toList [] [.text "      ".toList, .elem "mrow".toList [] [.text "        ".toList, .elem "mn".toList [] [.text "x".toList], .text "        ".toList, .elem "mo".toList [] [.text "+".toList], .text "        ".toList, .elem "mn".toList [] [.text "y".toList], .text "      ".toList], .text "      ".toList, .elem "mn".toList [] [.text " 0 ".toList], .text "      ".toList, .elem "mn".toList [] [.text " 1 ".toList], .text "    ".toList], .text "  ".toList]]])]
  (some "\\left(x + y\\right)_{0}^{1}".toList)

-- test_convert_msubsup_with_four_children
#guard check "\n<root>\n  <math>\n    <msubsup>\n      <mo> &#x222B; </mo>\n      <mn> 0 </mn>\n      <mn> 1 </mn>\n      <mn> 5 </mn>\n    </msubsup>\n  </math>\n</root>\n".toList
  [("<root>  <math>    <msubsup>      <mo> &#x222B; </mo>      <mn> 0 </mn>      <mn> 1 </mn>      <mn> 5 </mn>    </msubsup>  </math></root>".toList,
    .ok [.elem "root".toList [] [.text "  ".toList, .elem "math".toList [] [.text "    ".toList, .elem "msubsup".toList [] [.text "      ".toList, .elem "mo".toList [] [.text " ∫ ".toList], .text "      ".toList, .elem "mn".toList [] [.text " 0 ".toList], .text "      ".toList, .elem "mn".toList [] [.text " 1 ".toList], .text "      ".toList, .elem "mn".toList [] [.text " 5 ".toList], .text "    ".toList], .text "  ".toList]]])]
  none

-- test_convert_mtext_normal
#guard check "\n<root>\n  <math xmlns=\"http:#www.w3.org/1998/Math/MathML\">\n    <mtext mathvariant=\"normal\"> Theorem of Pythagoras </mtext>\n  </math>\n</root>\n".toList
  [("<root>  <math xmlns=\"http:#www.w3.org/1998/Math/MathML\">    <mtext mathvariant=\"normal\"> Theorem of Pythagoras </mtext>  </math></root>".toList,
    .ok [.elem "root".toList [] [.text "  ".toList, .elem "math".toList [("xmlns".toList, "http:#www.w3.org/1998/Math/MathML".toList)] [.text "    ".toList, .elem "mtext".toList [("mathvariant".toList, "normal".toList)] [.text " Theorem of Pythagoras ".toList], .text "  ".toList]]])]
  (some "\\text{Theorem of Pythagoras}".toList)

-- test_convert_mtext_bold
#guard check "\n<root>\n  <math xmlns=\"http:#www.w3.org/1998/Math/MathML\">\n    <mtext mathvariant=\"bold\"> Theorem of Pythagoras </mtext>\n  </math>\n</root>\n".toList
  [("<root>  <math xmlns=\"http:#www.w3.org/1998/Math/MathML\">    <mtext mathvariant=\"bold\"> Theorem of Pythagoras </mtext>  </math></root>".toList,
    .ok [.elem "root".toList [] [.text "  ".toList, .elem "math".toList [("xmlns".toList, "http:#www.w3.org/1998/Math/MathML".toList)] [.text "    ".toList, .elem "mtext".toList [("mathvariant".toList, "bold".toList)] [.text " Theorem of Pythagoras ".toList], .text "  ".toList]]])]
  (some "\\textbf{Theorem of Pythagoras}".toList)

-- test_convert_mtext_italic
#guard check "\n<root>\n  <math xmlns=\"http:#www.w3.org/1998/Math/MathML\">\n    <mtext mathvariant=\"italic\"> Theorem of Pythagoras </mtext>\n  </math>\n</root>\n".toList
  [("<root>  <math xmlns=\"http:#www.w3.org/1998/Math/MathML\">    <mtext mathvariant=\"italic\"> Theorem of Pythagoras </mtext>  </math></root>".toList,
    .ok [.elem "root".toList [] [.text "  ".toList, .elem "math".toList [("xmlns".toList, "http:#www.w3.org/1998/Math/MathML".toList)] [.text "    ".toList, .elem "mtext".toList [("mathvariant".toList, "italic".toList)] [.text " Theorem of Pythagoras ".toList], .text "  ".toList]]])]
  (some "\\textit{Theorem of Pythagoras}".toList)

-- test_convert_mtext_bold_italic
#guard check "\n<root>\n  <math xmlns=\"http:#www.w3.org/1998/Math/MathML\">\n    <mtext mathvariant=\"bold-italic\"> Theorem of Pythagoras </mtext>\n  </math>\n</root>\n".toList
  [("<root>  <math xmlns=\"http:#www.w3.org/1998/Math/MathML\">    <mtext mathvariant=\"bold-italic\"> Theorem of Pythagoras </mtext>  </math></root>".toList,
    .ok [.elem "root".toList [] [.text "  ".toList, .elem "math".toList [("xmlns".toList, "http:#www.w3.org/1998/Math/MathML".toList)] [.text "    ".toList, .elem "mtext".toList [("mathvariant".toList, "bold-italic".toList)] [.text " Theorem of Pythagoras ".toList], .text "  ".toList]]])]
  (some "\\textbf{\\textit{Theorem of Pythagoras}}".toList)

-- test_convert_mtext_double_struck
#guard check "\n<root>\n  <math xmlns=\"http:#www.w3.org/1998/Math/MathML\">\n    <mtext mathvariant=\"double-struck\">R</mtext>\n  </math>\n</root>\n".toList
  [("<root>  <math xmlns=\"http:#www.w3.org/1998/Math/MathML\">    <mtext mathvariant=\"double-struck\">R</mtext>  </math></root>".toList,
    .ok [.elem "root".toList [] [.text "  ".toList, .elem "math".toList [("xmlns".toList, "http:#www.w3.org/1998/Math/MathML".toList)] [.text "    ".toList, .elem "mtext".toList [("mathvariant".toList, "double-struck".toList)] [.text "R".toList], .text "  ".toList]]])]
  (some "\\mathbb{R}".toList)

-- test_convert_mtext_fraktur
#guard check "\n<root>\n  <math xmlns=\"http:#www.w3.org/1998/Math/MathML\">\n    <mtext mathvariant=\"fraktur\">Creepy</mtext>\n  </math>\n</root>\n".toList
  [("<root>  <math xmlns=\"http:#www.w3.org/1998/Math/MathML\">    <mtext mathvariant=\"fraktur\">Creepy</mtext>  </math></root>".toList,
    .ok [.elem "root".toList [] [.text "  ".toList, .elem "math".toList [("xmlns".toList, "http:#www.w3.org/1998/Math/MathML".toList)] [.text "    ".toList, .elem "mtext".toList [("mathvariant".toList, "fraktur".toList)] [.text "Creepy".toList], .text "  ".toList]]])]
  (some "\\mathfrak{Creepy}".toList)

-- test_convert_mtext_bold_fraktur
#guard check "\n<root>\n  <math xmlns=\"http:#www.w3.org/1998/Math/MathML\">\n    <mtext mathvariant=\"bold-fraktur\">Creepy</mtext>\n  </math>\n</root>\n".toList
  [("<root>  <math xmlns=\"http:#www.w3.org/1998/Math/MathML\">    <mtext mathvariant=\"bold-fraktur\">Creepy</mtext>  </math></root>".toList,
    .ok [.elem "root".toList [] [.text "  ".toList, .elem "math".toList [("xmlns".toList, "http:#www.w3.org/1998/Math/MathML".toList)] [.text "    ".toList, .elem "mtext".toList [("mathvariant".toList, "bold-fraktur".toList)] [.text "Creepy".toList], .text "  ".toList]]])]
  (some "\\mathfrak{Creepy}".toList)

-- test_convert_mtext_monospace
#guard check "\n<root>\n  <math xmlns=\"http:#www.w3.org/1998/Math/MathML\">\n    <mtext mathvariant=\"monospace\">simple text</mtext>\n  </math>\n</root>\n".toList
  [("<root>  <math xmlns=\"http:#www.w3.org/1998/Math/MathML\">    <mtext mathvariant=\"monospace\">simple text</mtext>  </math></root>".toList,
    .ok [.elem "root".toList [] [.text "  ".toList, .elem "math".toList [("xmlns".toList, "http:#www.w3.org/1998/Math/MathML".toList)] [.text "    ".toList, .elem "mtext".toList [("mathvariant".toList, "monospace".toList)] [.text "simple text".toList], .text "  ".toList]]])]
  (some "\\mathtt{simple text}".toList)

-- test_convert_mtext_script
#guard check "\n<root>\n  <math xmlns=\"http:#www.w3.org/1998/Math/MathML\">\n    <mtext mathvariant=\"script\">Creepy</mtext>\n  </math>\n</root>\n".toList
  [("<root>  <math xmlns=\"http:#www.w3.org/1998/Math/MathML\">    <mtext mathvariant=\"script\">Creepy</mtext>  </math></root>".toList,
    .ok [.elem "root".toList [] [.text "  ".toList, .elem "math".toList [("xmlns".toList, "http:#www.w3.org/1998/Math/MathML".toList)] [.text "    ".toList, .elem "mtext".toList [("mathvariant".toList, "script".toList)] [.text "Creepy".toList], .text "  ".toList]]])]
  (some "\\text{Creepy}".toList)

-- test_convert_mtext_bold_script
#guard check "\n<root>\n  <math xmlns=\"http:#www.w3.org/1998/Math/MathML\">\n    <mtext mathvariant=\"bold-script\">Creepy</mtext>\n  </math>\n</root>\n".toList
  [("<root>  <math xmlns=\"http:#www.w3.org/1998/Math/MathML\">    <mtext mathvariant=\"bold-script\">Creepy</mtext>  </math></root>".toList,
    .ok [.elem "root".toList [] [.text "  ".toList, .elem "math".toList [("xmlns".toList, "http:#www.w3.org/1998/Math/MathML".toList)] [.text "    ".toList, .elem "mtext".toList [("mathvariant".toList, "bold-script".toList)] [.text "Creepy".toList], .text "  ".toList]]])]
  (some "\\text{Creepy}".toList)

-- test_convert_mover_overbrace
#guard check "\n<root>\n  <math>\n    <mover accent=\"true\">\n      <mrow>\n        <mi> x </mi>\n        <mo> + </mo>\n        <mi> y </mi>\n        <mo> + </mo>\n        <mi> z </mi>\n      </mrow>\n      <mo>^</mo>\n    </mover>\n  </math>\n</root>\n".toList
  [("<root>  <math>    <mover accent=\"true\">      <mrow>        <mi> x </mi>        <mo> + </mo>        <mi> y </mi>        <mo> + </mo>        <mi> z </mi>      </mrow>      <mo>^</mo>    </mover>  </math></root>".toList,
    .ok [.elem "root".toList [] [.text "  ".toList, .elem "math".toList [] [.text "    ".toList, .elem "mover".toList [("accent".toList, "true".toList)] [.text "      ".toList, .elem "mrow".toList [] [.text "        ".toList, .elem "mi".toList [] [.text " x ".toList], .text "        ".toList, .elem "mo".toList [] [.text " + ".toList], .text "        ".toList, .elem "mi".toList [] [.text " y ".toList], .text "        ".toList, .elem "mo".toList [] [.text " + ".toList], .text "        ".toList, .elem "mi".toList [] [.text " z ".toList], .text "      ".toList], .text "      ".toList, .elem "mo".toList [] [.text "^".toList], .text "    ".toList], .text "  ".toList]]])]
  (some "\\hat{x + y + z}".toList)

-- test_convert_mover_encoded_mo
#guard check "\n<root>\n  <math>\n    <mover accent=\"true\">\n      <mrow>\n        <mi> x </mi>\n        <mo> + </mo>\n        <mi> y </mi>\n        <mo> + </mo>\n        <mi> z </mi>\n      </mrow>\n      <mo>&#x2C6;</mo>\n    </mover>\n  </math>\n</root>\n".toList
  [("<root>  <math>    <mover accent=\"true\">      <mrow>        <mi> x </mi>        <mo> + </mo>        <mi> y </mi>        <mo> + </mo>        <mi> z </mi>      </mrow>      <mo>&#x2C6;</mo>    </mover>  </math></root>".toList,
    .ok [.elem "root".toList [] [.text "  ".toList, .elem "math".toList [] [.text "    ".toList, .elem "mover".toList [("accent".toList, "true".toList)] [.text "      ".toList, .elem "mrow".toList [] [.text "        ".toList, .elem "mi".toList [] [.text " x ".toList], .text "        ".toList, .elem "mo".toList [] [.text " + ".toList], .text "        ".toList, .elem "mi".toList [] [.text " y ".toList], .text "        ".toList, .elem "mo".toList [] [.text " + ".toList], .text "        ".toList, .elem "mi".toList [] [.text " z ".toList], .text "      ".toList], .text "      ".toList, .elem "mo".toList [] [.text "ˆ".toList], .text "    ".toList], .text "  ".toList]]])]
  (some "\\hat{x + y + z}".toList)

-- test_convert_mover_double_mrow
#guard check "\n<root>\n  <math>\n    <mover accent=\"true\">\n      <mrow>\n        <mi> x </mi>\n        <mo> + </mo>\n        <mi> y </mi>\n        <mo> + </mo>\n        <mi> z </mi>\n      </mrow>\n      <mrow>\n        <mi> a </mi>\n        <mo> + </mo>\n        <mi> b </mi>\n      </mrow>\n    </mover>\n  </math>\n</root>\n".toList
  [("<root>  <math>    <mover accent=\"true\">      <mrow>        <mi> x </mi>        <mo> + </mo>        <mi> y </mi>        <mo> + </mo>        <mi> z </mi>      </mrow>      <mrow>        <mi> a </mi>        <mo> + </mo>        <mi> b </mi>      </mrow>    </mover>  </math></root>".toList,
    .ok [.elem "root".toList [] [.text "  ".toList, .elem "math".toList [] [.text "    ".toList, .elem "mover".toList [("accent".toList, "true".toList)] [.text "      ".toList, .elem "mrow".toList [] [.text "        ".toList, .elem "mi".toList [] [.text " x ".toList], .text "        ".toList, .elem "mo".toList [] [.text " + ".toList], .text "        ".toList, .elem "mi".toList [] [.text " y ".toList], .text "        ".toList, .elem "mo".toList [] [.text " + ".toList], .text "        ".toList, .elem "mi".toList [] [.text " z ".toList], .text "      ".toList], .text "      ".toList, .elem "mrow".toList [] [.text "        ".toList, .elem "mi".toList [] [.text " a ".toList], .text "        ".toList, .elem "mo".toList [] [.text " + ".toList], .text "        ".toList, .elem "mi".toList [] [.text " b ".toList], .text "      ".toList], .text "    ".toList], .text "  ".toList]]])]
  (some "\\overset{a + b}{x + y + z}".toList)

-- test_convert_mover_with_three_children
#guard check "\n<root>\n  <math>\n    <mover accent=\"true\">\n      <mrow>\n        <mi> x </mi>\n        <mo> + </mo>\n        <mi> y </mi>\n        <mo> + </mo>\n        <mi> z </mi>\n      </mrow>\n      <mo> + </mo>\n      <mi> z </mi>\n    </mover>\n  </math>\n</root>\n".toList
  [("<root>  <math>    <mover accent=\"true\">      <mrow>        <mi> x </mi>        <mo> + </mo>        <mi> y </mi>        <mo> + </mo>        <mi> z </mi>      </mrow>      <mo> + </mo>      <mi> z </mi>    </mover>  </math></root>".toList,
    .ok [.elem "root".toList [] [.text "  ".toList, .elem "math".toList [] [.text "    ".toList, .elem "mover".toList [("accent".toList, "true".toList)] [.text "      ".toList, .elem "mrow".toList [] [.text "        ".toList, .elem "mi".toList [] [.text " x ".toList], .text "        ".toList, .elem "mo".toList [] [.text " + ".toList], .text "        ".toList, .elem "mi".toList [] [.text " y ".toList], .text "        ".toList, .elem "mo".toList [] [.text " + ".toList], .text "        ".toList, .elem "mi".toList [] [.text " z ".toList], .text "      ".toList], .text "      ".toList, .elem "mo".toList [] [.text " + ".toList], .text "      ".toList, .elem "mi".toList [] [.text " z ".toList], .text "    ".toList], .text "  ".toList]]])]
  none

-- test_convert_munder_underbrace
#guard check "\n<root>\n  <math>\n    <munder accent=\"true\">\n      <mrow>\n        <mi> x </mi>\n        <mo> + </mo>\n        <mi> y </mi>\n        <mo> + </mo>\n        <mi> z </mi>\n      </mrow>\n      <mo>⏟</mo>\n    </munder>\n  </math>\n</root>\n".toList
  [("<root>  <math>    <munder accent=\"true\">      <mrow>        <mi> x </mi>        <mo> + </mo>        <mi> y </mi>        <mo> + </mo>        <mi> z </mi>      </mrow>      <mo>⏟</mo>    </munder>  </math></root>".toList,
    .ok [.elem "root".toList [] [.text "  ".toList, .elem "math".toList [] [.text "    ".toList, .elem "munder".toList [("accent".toList, "true".toList)] [.text "      ".toList, .elem "mrow".toList [] [.text "        ".toList, .elem "mi".toList [] [.text " x ".toList], .text "        ".toList, .elem "mo".toList [] [.text " + ".toList], .text "        ".toList, .elem "mi".toList [] [.text " y ".toList], .text "        ".toList, .elem "mo".toList [] [.text " + ".toList], .text "        ".toList, .elem "mi".toList [] [.text " z ".toList], .text "      ".toList], .text "      ".toList, .elem "mo".toList [] [.text "⏟".toList], .text "    ".toList], .text "  ".toList]]])]
  (some "\\underbrace{x + y + z}".toList)

-- test_convert_munder_double_mrow
#guard check "\n<root>\n  <math>\n    <munder accent=\"true\">\n      <mrow>\n        <mi> x </mi>\n        <mo> + </mo>\n        <mi> y </mi>\n        <mo> + </mo>\n        <mi> z </mi>\n      </mrow>\n      <mrow>\n        <mi> a </mi>\n        <mo> + </mo>\n        <mi> b </mi>\n      </mrow>\n    </munder>\n  </math>\n</root>\n".toList
  [("<root>  <math>    <munder accent=\"true\">      <mrow>        <mi> x </mi>        <mo> + </mo>        <mi> y </mi>        <mo> + </mo>        <mi> z </mi>      </mrow>      <mrow>        <mi> a </mi>        <mo> + </mo>        <mi> b </mi>      </mrow>    </munder>  </math></root>".toList,
    .ok [.elem "root".toList [] [.text "  ".toList, .elem "math".toList [] [.text "    ".toList, .elem "munder".toList [("accent".toList, "true".toList)] [.text "      ".toList, .elem "mrow".toList [] [.text "        ".toList, .elem "mi".toList [] [.text " x ".toList], .text "        ".toList, .elem "mo".toList [] [.text " + ".toList], .text "        ".toList, .elem "mi".toList [] [.text " y ".toList], .text "        ".toList, .elem "mo".toList [] [.text " + ".toList], .text "        ".toList, .elem "mi".toList [] [.text " z ".toList], .text "      ".toList], .text "      ".toList, .elem "mrow".toList [] [.text "        ".toList, .elem "mi".toList [] [.text " a ".toList], .text "        ".toList, .elem "mo".toList [] [.text " + ".toList], .text "        ".toList, .elem "mi".toList [] [.text " b ".toList], .text "      ".toList], .text "    ".toList], .text "  ".toList]]])]
  (some "\\underset{a + b}{x + y + z}".toList)

-- test_convert_munder_encoded_mrow
#guard check "\n<root>\n  <math>\n    <munder accent=\"true\">\n      <mrow>\n        <mi> x </mi>\n        <mo> + </mo>\n        <mi> y </mi>\n        <mo> + </mo>\n        <mi> z </mi>\n      </mrow>\n      <mo>&#x23DF;</mo>\n    </munder>\n  </math>\n</root>\n".toList
  [("<root>  <math>    <munder accent=\"true\">      <mrow>        <mi> x </mi>        <mo> + </mo>        <mi> y </mi>        <mo> + </mo>        <mi> z </mi>      </mrow>      <mo>&#x23DF;</mo>    </munder>  </math></root>".toList,
    .ok [.elem "root".toList [] [.text "  ".toList, .elem "math".toList [] [.text "    ".toList, .elem "munder".toList [("accent".toList, "true".toList)] [.text "      ".toList, .elem "mrow".toList [] [.text "        ".toList, .elem "mi".toList [] [.text " x ".toList], .text "        ".toList, .elem "mo".toList [] [.text " + ".toList], .text "        ".toList, .elem "mi".toList [] [.text " y ".toList], .text "        ".toList, .elem "mo".toList [] [.text " + ".toList], .text "        ".toList, .elem "mi".toList [] [.text " z ".toList], .text "      ".toList], .text "      ".toList, .elem "mo".toList [] [.text "⏟".toList], .text "    ".toList], .text "  ".toList]]])]
  (some "\\underbrace{x + y + z}".toList)

-- test_convert_munderover
#guard check "\n<root>\n  <math>\n    <munderover>\n      <mo> &#x222B;</mo>\n      <mn> 0 </mn>\n      <mn> 1 </mn>\n    </munderover>\n  </math>\n</root>\n".toList
  [("<root>  <math>    <munderover>      <mo> &#x222B;</mo>      <mn> 0 </mn>      <mn> 1 </mn>    </munderover>  </math></root>".toList,
    .ok [.elem "root".toList [] [.text "  ".toList, .elem "math".toList [] [.text "    ".toList, .elem "munderover".toList [] [.text "      ".toList, .elem "mo".toList [] [.text " ∫".toList], .text "      ".toList, .elem "mn".toList [] [.text " 0 ".toList], .text "      ".toList, .elem "mn".toList [] [.text " 1 ".toList], .text "    ".toList], .text "  ".toList]]])]
  (some "\\int_{0}^{1}".toList)

-- test_convert_munderover_encoded
#guard check "\n<root>\n  <math>\n    <munderover>\n      <mo> &#x222B;</mo>\n      <mn> 0 </mn>\n      <mi> &#x221E; </mi>\n    </munderover>\n  </math>\n</root>\n".toList
  [("<root>  <math>    <munderover>      <mo> &#x222B;</mo>      <mn> 0 </mn>      <mi> &#x221E; </mi>    </munderover>  </math></root>".toList,
    .ok [.elem "root".toList [] [.text "  ".toList, .elem "math".toList [] [.text "    ".toList, .elem "munderover".toList [] [.text "      ".toList, .elem "mo".toList [] [.text " ∫".toList], .text "      ".toList, .elem "mn".toList [] [.text " 0 ".toList], .text "      ".toList, .elem "mi".toList [] [.text " ∞ ".toList], .text "    ".toList], .text "  ".toList]]])]
  (some "\\int_{0}^{\\infty}".toList)

-- test_convert_munderover_with_three_children
#guard check "\n<root>\n  <math>\n    <munderover>\n      <mo> &#x222B;</mo>\n      <mn> 0 </mn>\n      <mi> &#x221E; </mi>\n      <mi> 1 </mi>\n    </munderover>\n  </math>\n</root>\n".toList
  [("<root>  <math>    <munderover>      <mo> &#x222B;</mo>      <mn> 0 </mn>      <mi> &#x221E; </mi>      <mi> 1 </mi>    </munderover>  </math></root>".toList,
    .ok [.elem "root".toList [] [.text "  ".toList, .elem "math".toList [] [.text "    ".toList, .elem "munderover".toList [] [.text "      ".toList, .elem "mo".toList [] [.text " ∫".toList], .text "      ".toList, .elem "mn".toList [] [.text " 0 ".toList], .text "      ".toList, .elem "mi".toList [] [.text " ∞ ".toList], .text "      ".toList, .elem "mi".toList [] [.text " 1 ".toList], .text "    ".toList], .text "  ".toList]]])]
  none

-- test_convert_mmultiscript
#guard check "\n<math xmlns=\"http:#www.w3.org/1998/Math/MathML\" display=\"block\">\n  <mmultiscripts>\n    <mrow>\n      <mi>N</mi>\n      <mi>a</mi>\n    </mrow>\n    <mrow>\n      <mn>11</mn>\n    </mrow>\n    <mrow>\n      <mi>+</mi>\n    </mrow>\n  </mmultiscripts>\n</math>\n".toList
  [("<math xmlns=\"http:#www.w3.org/1998/Math/MathML\" display=\"block\">  <mmultiscripts>    <mrow>      <mi>N</mi>      <mi>a</mi>    </mrow>    <mrow>      <mn>11</mn>    </mrow>    <mrow>      <mi>+</mi>    </mrow>  </mmultiscripts></math>".toList,
    .ok [.elem "math".toList [("xmlns".toList, "http:#www.w3.org/1998/Math/MathML".toList), ("display".toList, "block".toList)] [.text "  ".toList, .elem "mmultiscripts".toList [] [.text "    ".toList, .elem "mrow".toList [] [.text "      ".toList, .elem "mi".toList [] [.text "N".toList], .text "      ".toList, .elem "mi".toList [] [.text "a".toList], .text "    ".toList], .text "    ".toList, .elem "mrow".toList [] [.text "      ".toList, .elem "mn".toList [] [.text "11".toList], .text "    ".toList], .text "    ".toList, .elem "mrow".toList [] [.text "      ".toList, .elem "mi".toList [] [.text "+".toList], .text "    ".toList], .text "  ".toList]]])]
  (some "\\left(N a\\right)_{11}^{+}".toList)

-- test_convert_mmultiscript_no_super
#guard check "\n<math xmlns=\"http:#www.w3.org/1998/Math/MathML\" display=\"block\">\n  <mmultiscripts>\n    <mrow>\n      <mi>N</mi>\n      <mi>a</mi>\n    </mrow>\n    <mrow>\n      <mn>11</mn>\n    </mrow>\n    <none/>\n  </mmultiscripts>\n</math>\n".toList
  [("<math xmlns=\"http:#www.w3.org/1998/Math/MathML\" display=\"block\">  <mmultiscripts>    <mrow>      <mi>N</mi>      <mi>a</mi>    </mrow>    <mrow>      <mn>11</mn>    </mrow>    <none/>  </mmultiscripts></math>".toList,
    .ok [.elem "math".toList [("xmlns".toList, "http:#www.w3.org/1998/Math/MathML".toList), ("display".toList, "block".toList)] [.text "  ".toList, .elem "mmultiscripts".toList [] [.text "    ".toList, .elem "mrow".toList [] [.text "      ".toList, .elem "mi".toList [] [.text "N".toList], .text "      ".toList, .elem "mi".toList [] [.text "a".toList], .text "    ".toList], .text "    ".toList, .elem "mrow".toList [] [.text "      ".toList, .elem "mn".toList [] [.text "11".toList], .text "    ".toList], .text "    ".toList, .elem "none".toList [] [], .text "  ".toList]]])]
  (some "\\left(N a\\right)_{11}^{}".toList)

-- test_convert_mmultiscript_no_sub
#guard check "\n<math xmlns=\"http:#www.w3.org/1998/Math/MathML\" display=\"block\">\n  <mmultiscripts>\n    <mrow>\n      <mi>N</mi>\n      <mi>a</mi>\n    </mrow>\n    <none/>\n    <mrow>\n      <mn>+</mn>\n    </mrow>\n  </mmultiscripts>\n</math>\n".toList
  [("<math xmlns=\"http:#www.w3.org/1998/Math/MathML\" display=\"block\">  <mmultiscripts>    <mrow>      <mi>N</mi>      <mi>a</mi>    </mrow>    <none/>    <mrow>      <mn>+</mn>    </mrow>  </mmultiscripts></math>".toList,
    .ok [.elem "math".toList [("xmlns".toList, "http:#www.w3.org/1998/Math/MathML".toList), ("display".toList, "block".toList)] [.text "  ".toList, .elem "mmultiscripts".toList [] [.text "    ".toList, .elem "mrow".toList [] [.text "      ".toList, .elem "mi".toList [] [.text "N".toList], .text "      ".toList, .elem "mi".toList [] [.text "a".toList], .text "    ".toList], .text "    ".toList, .elem "none".toList [] [], .text "    ".toList, .elem "mrow".toList [] [.text "      ".toList, .elem "mn".toList [] [.text "+".toList], .text "    ".toList], .text "  ".toList]]])]
  (some "\\left(N a\\right)_{}^{+}".toList)

-- test_convert_mmultiscript_preset
#guard check "\n<math xmlns=\"http:#www.w3.org/1998/Math/MathML\" display=\"block\">\n  <mmultiscripts>\n\n    <mi>X</mi>      <!-- base expression -->  \n\n    <mi>d</mi>      <!-- postsubscript -->\n    <mi>c</mi>      <!-- postsuperscript -->\n\n    <mprescripts />\n    <mi>b</mi>      <!-- presubscript -->\n    <mi>a</mi>      <!-- presuperscript -->\n\n  </mmultiscripts>\n</math>\n".toList
  [("<math xmlns=\"http:#www.w3.org/1998/Math/MathML\" display=\"block\">  <mmultiscripts>    <mi>X</mi>      <!-- base expression -->      <mi>d</mi>      <!-- postsubscript -->    <mi>c</mi>      <!-- postsuperscript -->    <mprescripts />    <mi>b</mi>      <!-- presubscript -->    <mi>a</mi>      <!-- presuperscript -->  </mmultiscripts></math>".toList,
    .ok [.elem "math".toList [("xmlns".toList, "http:#www.w3.org/1998/Math/MathML".toList), ("display".toList, "block".toList)] [.text "  ".toList, .elem "mmultiscripts".toList [] [.text "    ".toList, .elem "mi".toList [] [.text "X".toList], .text "      ".toList, .comment " base expression ".toList, .text "      ".toList, .elem "mi".toList [] [.text "d".toList], .text "      ".toList, .comment " postsubscript ".toList, .text "    ".toList, .elem "mi".toList [] [.text "c".toList], .text "      ".toList, .comment " postsuperscript ".toList, .text "    ".toList, .elem "mprescripts".toList [] [], .text "    ".toList, .elem "mi".toList [] [.text "b".toList], .text "      ".toList, .comment " presubscript ".toList, .text "    ".toList, .elem "mi".toList [] [.text "a".toList], .text "      ".toList, .comment " presuperscript ".toList, .text "  ".toList]]])]
  (some "\\_{b}^{a}X_{d}^{c}".toList)

-- test_convert_mmultiscript_preset_with_none
#guard check "\n<math xmlns=\"http:#www.w3.org/1998/Math/MathML\" display=\"block\">\n  <mmultiscripts>\n\n    <mi>X</mi>      <!-- base expression -->\n\n    <none />        <!-- postsubscript -->\n    <mi>c</mi>      <!-- postsuperscript -->\n\n    <mprescripts />\n    <mi>b</mi>      <!-- presubscript -->\n    <none />        <!-- presuperscript -->\n\n  </mmultiscripts>\n</math>\n".toList
  [("<math xmlns=\"http:#www.w3.org/1998/Math/MathML\" display=\"block\">  <mmultiscripts>    <mi>X</mi>      <!-- base expression -->    <none />        <!-- postsubscript -->    <mi>c</mi>      <!-- postsuperscript -->    <mprescripts />    <mi>b</mi>      <!-- presubscript -->    <none />        <!-- presuperscript -->  </mmultiscripts></math>".toList,
    .ok [.elem "math".toList [("xmlns".toList, "http:#www.w3.org/1998/Math/MathML".toList), ("display".toList, "block".toList)] [.text "  ".toList, .elem "mmultiscripts".toList [] [.text "    ".toList, .elem "mi".toList [] [.text "X".toList], .text "      ".toList, .comment " base expression ".toList, .text "    ".toList, .elem "none".toList [] [], .text "        ".toList, .comment " postsubscript ".toList, .text "    ".toList, .elem "mi".toList [] [.text "c".toList], .text "      ".toList, .comment " postsuperscript ".toList, .text "    ".toList, .elem "mprescripts".toList [] [], .text "    ".toList, .elem "mi".toList [] [.text "b".toList], .text "      ".toList, .comment " presubscript ".toList, .text "    ".toList, .elem "none".toList [] [], .text "        ".toList, .comment " presuperscript ".toList, .text "  ".toList]]])]
  (some "\\_{b}^{}X_{}^{c}".toList)

-- test_convert_mmultiscript_preset_only
#guard check "\n<math xmlns=\"http:#www.w3.org/1998/Math/MathML\" display=\"block\">\n  <mmultiscripts>\n    <mi>X</mi>      <!-- base expression -->\n    <mprescripts />\n    <mi>b</mi>      <!-- presubscript -->\n    <none />        <!-- presuperscript -->\n\n  </mmultiscripts>\n</math>\n".toList
  [("<math xmlns=\"http:#www.w3.org/1998/Math/MathML\" display=\"block\">  <mmultiscripts>    <mi>X</mi>      <!-- base expression -->    <mprescripts />    <mi>b</mi>      <!-- presubscript -->    <none />        <!-- presuperscript -->  </mmultiscripts></math>".toList,
    .ok [.elem "math".toList [("xmlns".toList, "http:#www.w3.org/1998/Math/MathML".toList), ("display".toList, "block".toList)] [.text "  ".toList, .elem "mmultiscripts".toList [] [.text "    ".toList, .elem "mi".toList [] [.text "X".toList], .text "      ".toList, .comment " base expression ".toList, .text "    ".toList, .elem "mprescripts".toList [] [], .text "    ".toList, .elem "mi".toList [] [.text "b".toList], .text "      ".toList, .comment " presubscript ".toList, .text "    ".toList, .elem "none".toList [] [], .text "        ".toList, .comment " presuperscript ".toList, .text "  ".toList]]])]
  (some "\\_{b}^{}X".toList)

-- test_convert_mmultiscript_with_two_children
#guard check "\n<math xmlns=\"http:#www.w3.org/1998/Math/MathML\" display=\"block\">\n  <mmultiscripts>\n    <mrow>\n      <mi>N</mi>\n      <mi>a</mi>\n    </mrow>\n    <mrow>\n      <mn>11</mn>\n    </mrow>\n  </mmultiscripts>\n</math>\n".toList
  [("<math xmlns=\"http:#www.w3.org/1998/Math/MathML\" display=\"block\">  <mmultiscripts>    <mrow>      <mi>N</mi>      <mi>a</mi>    </mrow>    <mrow>      <mn>11</mn>    </mrow>  </mmultiscripts></math>".toList,
    .ok [.elem "math".toList [("xmlns".toList, "http:#www.w3.org/1998/Math/MathML".toList), ("display".toList, "block".toList)] [.text "  ".toList, .elem "mmultiscripts".toList [] [.text "    ".toList, .elem "mrow".toList [] [.text "      ".toList, .elem "mi".toList [] [.text "N".toList], .text "      ".toList, .elem "mi".toList [] [.text "a".toList], .text "    ".toList], .text "    ".toList, .elem "mrow".toList [] [.text "      ".toList, .elem "mn".toList [] [.text "11".toList], .text "    ".toList], .text "  ".toList]]])]
  none

-- test_convert_special_epsilon
#guard check "\n<math xmlns=\"http://www.w3.org/1998/Math/MathML\">\n  <mi>d</mi>\n  <mo>=</mo>\n  <msup>\n    <mrow>\n      <mfenced separators=\"|\">\n        <mrow>\n          <mfrac>\n            <mrow>\n              <msup>\n                <mrow>\n                  <mi>q</mi>\n                </mrow>\n                <mrow>\n                  <mn>2</mn>\n                </mrow>\n              </msup>\n              <mi>L</mi>\n            </mrow>\n            <mrow>\n              <mn>2</mn>\n              <mi>π</mi>\n              <msub>\n                <mrow>\n                  <mi>ϵ</mi>\n                </mrow>\n                <mrow>\n                  <mn>0</mn>\n                </mrow>\n              </msub>\n              <mi>m</mi>\n              <mi>g</mi>\n            </mrow>\n          </mfrac>\n        </mrow>\n      </mfenced>\n    </mrow>\n    <mrow>\n      <mn>1</mn>\n      <mo>/</mo>\n      <mn>3</mn>\n    </mrow>\n  </msup>\n</math>\n".toList
  [("<math xmlns=\"http://www.w3.org/1998/Math/MathML\">  <mi>d</mi>  <mo>=</mo>  <msup>    <mrow>      <mfenced separators=\"|\">        <mrow>          <mfrac>            <mrow>              <msup>                <mrow>                  <mi>q</mi>                </mrow>                <mrow>                  <mn>2</mn>                </mrow>              </msup>              <mi>L</mi>            </mrow>            <mrow>              <mn>2</mn>              <mi>π</mi>              <msub>                <mrow>                  <mi>ϵ</mi>                </mrow>                <mrow>                  <mn>0</mn>                </mrow>              </msub>              <mi>m</mi>              <mi>g</mi>            </mrow>          </mfrac>        </mrow>      </mfenced>    </mrow>    <mrow>      <mn>1</mn>      <mo>/</mo>      <mn>3</mn>    </mrow>  </msup></math>".toList,
    .ok [.elem "math".toList [("xmlns".toList, "http://www.w3.org/1998/Math/MathML".toList)] [.text "  ".toList, .elem "mi".toList [] [.text "d".toList], .text "  ".toList, .elem "mo".toList [] [.text "=".toList], .text "  ".toList, .elem "msup".toList [] [.text "    ".toList, .elem "mrow".toList [] [.text "      ".toList, .elem "mfenced".toList [("separators".toList, "|".toList)] [.text "        ".toList, .elem "mrow".toList [] [.text "          ".toList, .elem "mfrac".toList [] [.text "            ".toList, .elem "mrow".toList [] [.text "              ".toList, .elem "msup".toList [] [.text "                ".toList, .elem "mrow".toList [] [.text "                  ".toList, .elem "mi".toList [] [.text "q".toList], .text "                ".toList], .text "                ".toList, .elem "mrow".toList [] [.text "                  ".toList, .elem "mn".toList [] [.text "2".toList], .text "                ".toList], .text "              ".toList], .text "              ".toList, .elem "mi".toList [] [.text "L".toList], .text "            ".toList], .text "            ".toList, .elem "mrow".toList [] [.text "              ".toList, .elem "mn".toList [] [.text "2".toList], .text "              ".toList, .elem "mi".toList [] [.text "π".toList], .text "              ".toList, .elem "msub".toList [] [.text "                ".toList, .elem "mrow".toList [] [.text "                  ".toList, .elem "mi".toList [] [.text "ϵ".toList], .text "                ".toList], .text "                ".toList, .elem "mrow".toList [] [.text "                  ".toList, .elem "mn".toList [] [.text "0".toList], .text "                ".toList], .text "              ".toList], .text "              ".toList, .elem "mi".toList [] [.text "m".toList], .text "              ".toList, .elem "mi".toList [] [.text "g".toList], .text "            ".toList], .text "          ".toList], .text "        ".toList], .text "      ".toList], .text "    ".toList], .text "    ".toList, .elem "mrow".toList [] [.text "      ".toList, .elem "mn".toList [] [.text "1".toList], .text "      ".toList, .elem "mo".toList [] [.text "/".toList], .text "      ".toList, .elem "mn".toList [] [.text "3".toList], .text "    ".toList], .text "  ".toList]]])]
  (some "d = \\left(\\frac{q^{2} L}{2 \\pi \\epsilon_{0} m g}\\right)^{1 / 3}".toList)

-- test_convert_mu
#guard check "\n<math xmlns=\"http://www.w3.org/1998/Math/MathML\">\n  <mn>2</mn>\n  <mi>µ</mi>\n  <mi>s</mi>\n</math>\n".toList
  [("<math xmlns=\"http://www.w3.org/1998/Math/MathML\">  <mn>2</mn>  <mi>µ</mi>  <mi>s</mi></math>".toList,
    .ok [.elem "math".toList [("xmlns".toList, "http://www.w3.org/1998/Math/MathML".toList)] [.text "  ".toList, .elem "mn".toList [] [.text "2".toList], .text "  ".toList, .elem "mi".toList [] [.text "µ".toList], .text "  ".toList, .elem "mi".toList [] [.text "s".toList]]])]
  (some "2 \\mu s".toList)

-- test_convert_cdot_in_text
#guard check "\n<math xmlns=\"http://www.w3.org/1998/Math/MathML\">\n  <mtext>kg⋅m²</mtext>\n</math>\n".toList
  [("<math xmlns=\"http://www.w3.org/1998/Math/MathML\">  <mtext>kg⋅m²</mtext></math>".toList,
    .ok [.elem "math".toList [("xmlns".toList, "http://www.w3.org/1998/Math/MathML".toList)] [.text "  ".toList, .elem "mtext".toList [] [.text "kg⋅m²".toList]]])]
  (some "\\text{kg}\\cdot\\text{m}^{2}".toList)

-- test_convert_alternative_imath
#guard check "\n<math xmlns=\"http://www.w3.org/1998/Math/MathML\">\n  <mi>E</mi>\n  <mfenced separators=\"|\">\n    <mrow>\n      <msub>\n        <mrow>\n          <mi>W</mi>\n        </mrow>\n        <mrow>\n          <mi>ı</mi>\n        </mrow>\n      </msub>\n    </mrow>\n  </mfenced>\n  <mo>=</mo>\n  <mi>μ</mi>\n</math>\n".toList
  [("<math xmlns=\"http://www.w3.org/1998/Math/MathML\">  <mi>E</mi>  <mfenced separators=\"|\">    <mrow>      <msub>        <mrow>          <mi>W</mi>        </mrow>        <mrow>          <mi>ı</mi>        </mrow>      </msub>    </mrow>  </mfenced>  <mo>=</mo>  <mi>μ</mi></math>".toList,
    .ok [.elem "math".toList [("xmlns".toList, "http://www.w3.org/1998/Math/MathML".toList)] [.text "  ".toList, .elem "mi".toList [] [.text "E".toList], .text "  ".toList, .elem "mfenced".toList [("separators".toList, "|".toList)] [.text "    ".toList, .elem "mrow".toList [] [.text "      ".toList, .elem "msub".toList [] [.text "        ".toList, .elem "mrow".toList [] [.text "          ".toList, .elem "mi".toList [] [.text "W".toList], .text "        ".toList], .text "        ".toList, .elem "mrow".toList [] [.text "          ".toList, .elem "mi".toList [] [.text "ı".toList], .text "        ".toList], .text "      ".toList], .text "    ".toList], .text "  ".toList], .text "  ".toList, .elem "mo".toList [] [.text "=".toList], .text "  ".toList, .elem "mi".toList [] [.text "μ".toList]]])]
  (some "E \\left(W_{\\imath}\\right) = \\mu".toList)

-- test_convert_alternative_square
#guard check "\n<math xmlns=\"http://www.w3.org/1998/Math/MathML\">\n  <mn>2</mn>\n  <mi>∎</mi>\n  <mi>s</mi>\n</math>\n".toList
  [("<math xmlns=\"http://www.w3.org/1998/Math/MathML\">  <mn>2</mn>  <mi>∎</mi>  <mi>s</mi></math>".toList,
    .ok [.elem "math".toList [("xmlns".toList, "http://www.w3.org/1998/Math/MathML".toList)] [.text "  ".toList, .elem "mn".toList [] [.text "2".toList], .text "  ".toList, .elem "mi".toList [] [.text "∎".toList], .text "  ".toList, .elem "mi".toList [] [.text "s".toList]]])]
  (some "2 \\blacksquare s".toList)

-- test_convert_input_expected_pairs
#guard check "<math xmlns=\"http://www.w3.org/1998/Math/MathML\"><mi>Ω</mi></math>".toList
  [("<math xmlns=\"http://www.w3.org/1998/Math/MathML\"><mi>Ω</mi></math>".toList,
    .ok [.elem "math".toList [("xmlns".toList, "http://www.w3.org/1998/Math/MathML".toList)] [.elem "mi".toList [] [.text "Ω".toList]]])]
  (some "\\Omega".toList)

-- test_convert_input_expected_pairs
#guard check "<math xmlns=\"http://www.w3.org/1998/Math/MathML\"><mo>×</mo></math>".toList
  [("<math xmlns=\"http://www.w3.org/1998/Math/MathML\"><mo>×</mo></math>".toList,
    .ok [.elem "math".toList [("xmlns".toList, "http://www.w3.org/1998/Math/MathML".toList)] [.elem "mo".toList [] [.text "×".toList]]])]
  (some "\\times".toList)

-- test_convert_input_expected_pairs
#guard check "<math xmlns=\"http://www.w3.org/1998/Math/MathML\"><mn>½</mn></math>".toList
  [("<math xmlns=\"http://www.w3.org/1998/Math/MathML\"><mn>½</mn></math>".toList,
    .ok [.elem "math".toList [("xmlns".toList, "http://www.w3.org/1998/Math/MathML".toList)] [.elem "mn".toList [] [.text "½".toList]]])]
  (some "\\dfrac{1}{2}".toList)

-- test_convert_input_expected_pairs
#guard check "<math xmlns=\"http://www.w3.org/1998/Math/MathML\"><mi>µ</mi></math>".toList
  [("<math xmlns=\"http://www.w3.org/1998/Math/MathML\"><mi>µ</mi></math>".toList,
    .ok [.elem "math".toList [("xmlns".toList, "http://www.w3.org/1998/Math/MathML".toList)] [.elem "mi".toList [] [.text "µ".toList]]])]
  (some "\\mu".toList)

-- test_convert_input_expected_pairs
#guard check "<math xmlns=\"http://www.w3.org/1998/Math/MathML\"><mi>θ</mi></math>".toList
  [("<math xmlns=\"http://www.w3.org/1998/Math/MathML\"><mi>θ</mi></math>".toList,
    .ok [.elem "math".toList [("xmlns".toList, "http://www.w3.org/1998/Math/MathML".toList)] [.elem "mi".toList [] [.text "θ".toList]]])]
  (some "\\theta".toList)

-- test_convert_input_expected_pairs
#guard check "<math xmlns=\"http://www.w3.org/1998/Math/MathML\"><mo>✓</mo></math>".toList
  [("<math xmlns=\"http://www.w3.org/1998/Math/MathML\"><mo>✓</mo></math>".toList,
    .ok [.elem "math".toList [("xmlns".toList, "http://www.w3.org/1998/Math/MathML".toList)] [.elem "mo".toList [] [.text "✓".toList]]])]
  (some "\\checkmark".toList)

-- test_convert_input_expected_pairs
#guard check "<math xmlns=\"http://www.w3.org/1998/Math/MathML\"><mo>〈</mo></math>".toList
  [("<math xmlns=\"http://www.w3.org/1998/Math/MathML\"><mo>〈</mo></math>".toList,
    .ok [.elem "math".toList [("xmlns".toList, "http://www.w3.org/1998/Math/MathML".toList)] [.elem "mo".toList [] [.text "〈".toList]]])]
  (some "\\langle".toList)

-- test_convert_input_expected_pairs
#guard check "<math xmlns=\"http://www.w3.org/1998/Math/MathML\"><mo>⟨</mo></math>".toList
  [("<math xmlns=\"http://www.w3.org/1998/Math/MathML\"><mo>⟨</mo></math>".toList,
    .ok [.elem "math".toList [("xmlns".toList, "http://www.w3.org/1998/Math/MathML".toList)] [.elem "mo".toList [] [.text "⟨".toList]]])]
  (some "\\langle".toList)

-- test_convert_input_expected_pairs
#guard check "<math xmlns=\"http://www.w3.org/1998/Math/MathML\"><mo>⟩</mo></math>".toList
  [("<math xmlns=\"http://www.w3.org/1998/Math/MathML\"><mo>⟩</mo></math>".toList,
    .ok [.elem "math".toList [("xmlns".toList, "http://www.w3.org/1998/Math/MathML".toList)] [.elem "mo".toList [] [.text "⟩".toList]]])]
  (some "\\rangle".toList)

-- test_convert_input_expected_pairs
#guard check "<math xmlns=\"http://www.w3.org/1998/Math/MathML\"><mn>¼</mn></math>".toList
  [("<math xmlns=\"http://www.w3.org/1998/Math/MathML\"><mn>¼</mn></math>".toList,
    .ok [.elem "math".toList [("xmlns".toList, "http://www.w3.org/1998/Math/MathML".toList)] [.elem "mn".toList [] [.text "¼".toList]]])]
  (some "\\dfrac{1}{4}".toList)

-- test_convert_input_expected_pairs
#guard check "<math xmlns=\"http://www.w3.org/1998/Math/MathML\"><mo>…</mo></math>".toList
  [("<math xmlns=\"http://www.w3.org/1998/Math/MathML\"><mo>…</mo></math>".toList,
    .ok [.elem "math".toList [("xmlns".toList, "http://www.w3.org/1998/Math/MathML".toList)] [.elem "mo".toList [] [.text "…".toList]]])]
  (some "\\ldots".toList)

-- test_convert_input_expected_pairs
#guard check "<math xmlns=\"http://www.w3.org/1998/Math/MathML\"><mi>ℏ</mi></math>".toList
  [("<math xmlns=\"http://www.w3.org/1998/Math/MathML\"><mi>ℏ</mi></math>".toList,
    .ok [.elem "math".toList [("xmlns".toList, "http://www.w3.org/1998/Math/MathML".toList)] [.elem "mi".toList [] [.text "ℏ".toList]]])]
  (some "\\hbar".toList)

-- test_convert_input_expected_pairs
#guard check "<math xmlns=\"http://www.w3.org/1998/Math/MathML\"><mi>ℜ</mi></math>".toList
  [("<math xmlns=\"http://www.w3.org/1998/Math/MathML\"><mi>ℜ</mi></math>".toList,
    .ok [.elem "math".toList [("xmlns".toList, "http://www.w3.org/1998/Math/MathML".toList)] [.elem "mi".toList [] [.text "ℜ".toList]]])]
  (some "\\mathfrak{R}".toList)

-- test_convert_input_expected_pairs
#guard check "<math xmlns=\"http://www.w3.org/1998/Math/MathML\"><mi>Ѳ</mi></math>".toList
  [("<math xmlns=\"http://www.w3.org/1998/Math/MathML\"><mi>Ѳ</mi></math>".toList,
    .ok [.elem "math".toList [("xmlns".toList, "http://www.w3.org/1998/Math/MathML".toList)] [.elem "mi".toList [] [.text "Ѳ".toList]]])]
  (some "\\theta".toList)

-- test_convert_input_expected_pairs
#guard check "<math xmlns=\"http://www.w3.org/1998/Math/MathML\"><mi>Ø</mi></math>".toList
  [("<math xmlns=\"http://www.w3.org/1998/Math/MathML\"><mi>Ø</mi></math>".toList,
    .ok [.elem "math".toList [("xmlns".toList, "http://www.w3.org/1998/Math/MathML".toList)] [.elem "mi".toList [] [.text "Ø".toList]]])]
  (some "\\emptyset".toList)

-- test_convert_input_expected_pairs
#guard check "<math xmlns=\"http://www.w3.org/1998/Math/MathML\"><mi>ϱ</mi></math>".toList
  [("<math xmlns=\"http://www.w3.org/1998/Math/MathML\"><mi>ϱ</mi></math>".toList,
    .ok [.elem "math".toList [("xmlns".toList, "http://www.w3.org/1998/Math/MathML".toList)] [.elem "mi".toList [] [.text "ϱ".toList]]])]
  (some "\\varrho".toList)

-- test_convert_input_expected_pairs
#guard check "<math xmlns=\"http://www.w3.org/1998/Math/MathML\"><mi>ϕ</mi></math>".toList
  [("<math xmlns=\"http://www.w3.org/1998/Math/MathML\"><mi>ϕ</mi></math>".toList,
    .ok [.elem "math".toList [("xmlns".toList, "http://www.w3.org/1998/Math/MathML".toList)] [.elem "mi".toList [] [.text "ϕ".toList]]])]
  (some "\\phi".toList)

-- test_convert_input_expected_pairs
#guard check "<math xmlns=\"http://www.w3.org/1998/Math/MathML\"><mi>T</mi></math>".toList
  [("<math xmlns=\"http://www.w3.org/1998/Math/MathML\"><mi>T</mi></math>".toList,
    .ok [.elem "math".toList [("xmlns".toList, "http://www.w3.org/1998/Math/MathML".toList)] [.elem "mi".toList [] [.text "T".toList]]])]
  (some "T".toList)

-- test_convert_input_expected_pairs
#guard check "<math xmlns=\"http://www.w3.org/1998/Math/MathML\"><mo>⋅</mo></math>".toList
  [("<math xmlns=\"http://www.w3.org/1998/Math/MathML\"><mo>⋅</mo></math>".toList,
    .ok [.elem "math".toList [("xmlns".toList, "http://www.w3.org/1998/Math/MathML".toList)] [.elem "mo".toList [] [.text "⋅".toList]]])]
  (some "\\cdot".toList)

-- test_convert_input_expected_pairs
#guard check "<math xmlns=\"http://www.w3.org/1998/Math/MathML\"><mi>P</mi></math>".toList
  [("<math xmlns=\"http://www.w3.org/1998/Math/MathML\"><mi>P</mi></math>".toList,
    .ok [.elem "math".toList [("xmlns".toList, "http://www.w3.org/1998/Math/MathML".toList)] [.elem "mi".toList [] [.text "P".toList]]])]
  (some "P".toList)

-- test_convert_input_expected_pairs
#guard check "<math xmlns=\"http://www.w3.org/1998/Math/MathML\"><mo>∞</mo></math>".toList
  [("<math xmlns=\"http://www.w3.org/1998/Math/MathML\"><mo>∞</mo></math>".toList,
    .ok [.elem "math".toList [("xmlns".toList, "http://www.w3.org/1998/Math/MathML".toList)] [.elem "mo".toList [] [.text "∞".toList]]])]
  (some "\\infty".toList)

-- test_convert_input_expected_pairs
#guard check "<math xmlns=\"http://www.w3.org/1998/Math/MathML\"><mo>∇</mo></math>".toList
  [("<math xmlns=\"http://www.w3.org/1998/Math/MathML\"><mo>∇</mo></math>".toList,
    .ok [.elem "math".toList [("xmlns".toList, "http://www.w3.org/1998/Math/MathML".toList)] [.elem "mo".toList [] [.text "∇".toList]]])]
  (some "\\nabla".toList)

-- test_convert_input_expected_pairs
#guard check "<math xmlns=\"http://www.w3.org/1998/Math/MathML\"><mi>η</mi></math>".toList
  [("<math xmlns=\"http://www.w3.org/1998/Math/MathML\"><mi>η</mi></math>".toList,
    .ok [.elem "math".toList [("xmlns".toList, "http://www.w3.org/1998/Math/MathML".toList)] [.elem "mi".toList [] [.text "η".toList]]])]
  (some "\\eta".toList)

-- test_convert_input_expected_pairs
#guard check "<math xmlns=\"http://www.w3.org/1998/Math/MathML\"><mi>Å</mi></math>".toList
  [("<math xmlns=\"http://www.w3.org/1998/Math/MathML\"><mi>Å</mi></math>".toList,
    .ok [.elem "math".toList [("xmlns".toList, "http://www.w3.org/1998/Math/MathML".toList)] [.elem "mi".toList [] [.text "Å".toList]]])]
  (some "\\mathring{A}".toList)

-- test_convert_input_expected_pairs
#guard check "<math xmlns=\"http://www.w3.org/1998/Math/MathML\"><mi>θ</mi></math>".toList
  [("<math xmlns=\"http://www.w3.org/1998/Math/MathML\"><mi>θ</mi></math>".toList,
    .ok [.elem "math".toList [("xmlns".toList, "http://www.w3.org/1998/Math/MathML".toList)] [.elem "mi".toList [] [.text "θ".toList]]])]
  (some "\\theta".toList)

-- test_convert_input_expected_pairs
#guard check "<math xmlns=\"http://www.w3.org/1998/Math/MathML\"><mi>ɣ</mi></math>".toList
  [("<math xmlns=\"http://www.w3.org/1998/Math/MathML\"><mi>ɣ</mi></math>".toList,
    .ok [.elem "math".toList [("xmlns".toList, "http://www.w3.org/1998/Math/MathML".toList)] [.elem "mi".toList [] [.text "ɣ".toList]]])]
  (some "\\gamma".toList)

-- test_convert_input_expected_pairs
#guard check "<math xmlns=\"http://www.w3.org/1998/Math/MathML\"><mi>ћ</mi></math>".toList
  [("<math xmlns=\"http://www.w3.org/1998/Math/MathML\"><mi>ћ</mi></math>".toList,
    .ok [.elem "math".toList [("xmlns".toList, "http://www.w3.org/1998/Math/MathML".toList)] [.elem "mi".toList [] [.text "ћ".toList]]])]
  (some "\\hbar".toList)

-- test_convert_input_expected_pairs
#guard check "<math xmlns=\"http://www.w3.org/1998/Math/MathML\"><mi>Å</mi></math>".toList
  [("<math xmlns=\"http://www.w3.org/1998/Math/MathML\"><mi>Å</mi></math>".toList,
    .ok [.elem "math".toList [("xmlns".toList, "http://www.w3.org/1998/Math/MathML".toList)] [.elem "mi".toList [] [.text "Å".toList]]])]
  (some "\\mathring{A}".toList)

-- test_convert_input_expected_pairs
#guard check "<math xmlns=\"http://www.w3.org/1998/Math/MathML\"><mo>⌊</mo></math>".toList
  [("<math xmlns=\"http://www.w3.org/1998/Math/MathML\"><mo>⌊</mo></math>".toList,
    .ok [.elem "math".toList [("xmlns".toList, "http://www.w3.org/1998/Math/MathML".toList)] [.elem "mo".toList [] [.text "⌊".toList]]])]
  (some "\\lfloor".toList)

-- test_convert_input_expected_pairs
#guard check "<math xmlns=\"http://www.w3.org/1998/Math/MathML\"><mi>π</mi></math>".toList
  [("<math xmlns=\"http://www.w3.org/1998/Math/MathML\"><mi>π</mi></math>".toList,
    .ok [.elem "math".toList [("xmlns".toList, "http://www.w3.org/1998/Math/MathML".toList)] [.elem "mi".toList [] [.text "π".toList]]])]
  (some "\\pi".toList)

-- test_convert_input_expected_pairs
#guard check "<math xmlns=\"http://www.w3.org/1998/Math/MathML\"><mn>³</mn></math>".toList
  [("<math xmlns=\"http://www.w3.org/1998/Math/MathML\"><mn>³</mn></math>".toList,
    .ok [.elem "math".toList [("xmlns".toList, "http://www.w3.org/1998/Math/MathML".toList)] [.elem "mn".toList [] [.text "³".toList]]])]
  (some "^{3}".toList)

-- test_convert_input_expected_pairs
#guard check "<math xmlns=\"http://www.w3.org/1998/Math/MathML\"><mi>Ɛ</mi></math>".toList
  [("<math xmlns=\"http://www.w3.org/1998/Math/MathML\"><mi>Ɛ</mi></math>".toList,
    .ok [.elem "math".toList [("xmlns".toList, "http://www.w3.org/1998/Math/MathML".toList)] [.elem "mi".toList [] [.text "Ɛ".toList]]])]
  (some "\\varepsilon".toList)

-- test_convert_input_expected_pairs
#guard check "<math xmlns=\"http://www.w3.org/1998/Math/MathML\"><mi>𝒟</mi></math>".toList
  [("<math xmlns=\"http://www.w3.org/1998/Math/MathML\"><mi>𝒟</mi></math>".toList,
    .ok [.elem "math".toList [("xmlns".toList, "http://www.w3.org/1998/Math/MathML".toList)] [.elem "mi".toList [] [.text "𝒟".toList]]])]
  (some "\\mathcal{D}".toList)

-- test_convert_input_expected_pairs
#guard check "<math xmlns=\"http://www.w3.org/1998/Math/MathML\"><mi>ℝ</mi></math>".toList
  [("<math xmlns=\"http://www.w3.org/1998/Math/MathML\"><mi>ℝ</mi></math>".toList,
    .ok [.elem "math".toList [("xmlns".toList, "http://www.w3.org/1998/Math/MathML".toList)] [.elem "mi".toList [] [.text "ℝ".toList]]])]
  (some "\\mathbb{R}".toList)

-- test_convert_input_expected_pairs
#guard check "<math xmlns=\"http://www.w3.org/1998/Math/MathML\"><mn>²</mn></math>".toList
  [("<math xmlns=\"http://www.w3.org/1998/Math/MathML\"><mn>²</mn></math>".toList,
    .ok [.elem "math".toList [("xmlns".toList, "http://www.w3.org/1998/Math/MathML".toList)] [.elem "mn".toList [] [.text "²".toList]]])]
  (some "^{2}".toList)

-- test_convert_input_expected_pairs
#guard check "<math xmlns=\"http://www.w3.org/1998/Math/MathML\"><mi>ℒ</mi></math>".toList
  [("<math xmlns=\"http://www.w3.org/1998/Math/MathML\"><mi>ℒ</mi></math>".toList,
    .ok [.elem "math".toList [("xmlns".toList, "http://www.w3.org/1998/Math/MathML".toList)] [.elem "mi".toList [] [.text "ℒ".toList]]])]
  (some "\\mathcal{L}".toList)

-- test_convert_input_expected_pairs
#guard check "<math xmlns=\"http://www.w3.org/1998/Math/MathML\"><mn>⁸</mn></math>".toList
  [("<math xmlns=\"http://www.w3.org/1998/Math/MathML\"><mn>⁸</mn></math>".toList,
    .ok [.elem "math".toList [("xmlns".toList, "http://www.w3.org/1998/Math/MathML".toList)] [.elem "mn".toList [] [.text "⁸".toList]]])]
  (some "^{8}".toList)

-- test_convert_input_expected_pairs
#guard check "<math xmlns=\"http://www.w3.org/1998/Math/MathML\"><mn>⁷</mn></math>".toList
  [("<math xmlns=\"http://www.w3.org/1998/Math/MathML\"><mn>⁷</mn></math>".toList,
    .ok [.elem "math".toList [("xmlns".toList, "http://www.w3.org/1998/Math/MathML".toList)] [.elem "mn".toList [] [.text "⁷".toList]]])]
  (some "^{7}".toList)

-- test_convert_input_expected_pairs
#guard check "<math xmlns=\"http://www.w3.org/1998/Math/MathML\"><mi>ⅅ</mi></math>".toList
  [("<math xmlns=\"http://www.w3.org/1998/Math/MathML\"><mi>ⅅ</mi></math>".toList,
    .ok [.elem "math".toList [("xmlns".toList, "http://www.w3.org/1998/Math/MathML".toList)] [.elem "mi".toList [] [.text "ⅅ".toList]]])]
  (some "\\_{D}".toList)

-- test_convert_input_expected_pairs
#guard check "<math xmlns=\"http://www.w3.org/1998/Math/MathML\"><mo>⌈</mo></math>".toList
  [("<math xmlns=\"http://www.w3.org/1998/Math/MathML\"><mo>⌈</mo></math>".toList,
    .ok [.elem "math".toList [("xmlns".toList, "http://www.w3.org/1998/Math/MathML".toList)] [.elem "mo".toList [] [.text "⌈".toList]]])]
  (some "\\lceil".toList)

-- test_convert_input_expected_pairs
#guard check "<math xmlns=\"http://www.w3.org/1998/Math/MathML\"><mo>⌉</mo></math>".toList
  [("<math xmlns=\"http://www.w3.org/1998/Math/MathML\"><mo>⌉</mo></math>".toList,
    .ok [.elem "math".toList [("xmlns".toList, "http://www.w3.org/1998/Math/MathML".toList)] [.elem "mo".toList [] [.text "⌉".toList]]])]
  (some "\\rceil".toList)

-- test_convert_input_expected_pairs
#guard check "<math xmlns=\"http://www.w3.org/1998/Math/MathML\"><mi>ÿ</mi></math>".toList
  [("<math xmlns=\"http://www.w3.org/1998/Math/MathML\"><mi>ÿ</mi></math>".toList,
    .ok [.elem "math".toList [("xmlns".toList, "http://www.w3.org/1998/Math/MathML".toList)] [.elem "mi".toList [] [.text "ÿ".toList]]])]
  (some "\\ddot{y}".toList)

-- test_convert_input_expected_pairs
#guard check "<math xmlns=\"http://www.w3.org/1998/Math/MathML\"><mo>●</mo></math>".toList
  [("<math xmlns=\"http://www.w3.org/1998/Math/MathML\"><mo>●</mo></math>".toList,
    .ok [.elem "math".toList [("xmlns".toList, "http://www.w3.org/1998/Math/MathML".toList)] [.elem "mo".toList [] [.text "●".toList]]])]
  (some "\\circle".toList)

-- test_convert_input_expected_pairs
#guard check "<math xmlns=\"http://www.w3.org/1998/Math/MathML\"><mo>〗</mo></math>".toList
  [("<math xmlns=\"http://www.w3.org/1998/Math/MathML\"><mo>〗</mo></math>".toList,
    .ok [.elem "math".toList [("xmlns".toList, "http://www.w3.org/1998/Math/MathML".toList)] [.elem "mo".toList [] [.text "〗".toList]]])]
  (some "\\)|".toList)

-- test_convert_input_expected_pairs
#guard check "<math xmlns=\"http://www.w3.org/1998/Math/MathML\"><mo>▫</mo></math>".toList
  [("<math xmlns=\"http://www.w3.org/1998/Math/MathML\"><mo>▫</mo></math>".toList,
    .ok [.elem "math".toList [("xmlns".toList, "http://www.w3.org/1998/Math/MathML".toList)] [.elem "mo".toList [] [.text "▫".toList]]])]
  (some "\\square".toList)

-- test_convert_input_expected_pairs
#guard check "<math xmlns=\"http://www.w3.org/1998/Math/MathML\"><mi>ω</mi></math>".toList
  [("<math xmlns=\"http://www.w3.org/1998/Math/MathML\"><mi>ω</mi></math>".toList,
    .ok [.elem "math".toList [("xmlns".toList, "http://www.w3.org/1998/Math/MathML".toList)] [.elem "mi".toList [] [.text "ω".toList]]])]
  (some "\\omega".toList)

-- test_convert_input_expected_pairs
#guard check "<math xmlns=\"http://www.w3.org/1998/Math/MathML\"><mi>ℱ</mi></math>".toList
  [("<math xmlns=\"http://www.w3.org/1998/Math/MathML\"><mi>ℱ</mi></math>".toList,
    .ok [.elem "math".toList [("xmlns".toList, "http://www.w3.org/1998/Math/MathML".toList)] [.elem "mi".toList [] [.text "ℱ".toList]]])]
  (some "\\mathcal{F}".toList)

-- test_convert_input_expected_pairs
#guard check "<math xmlns=\"http://www.w3.org/1998/Math/MathML\"><mi>𝓞</mi></math>".toList
  [("<math xmlns=\"http://www.w3.org/1998/Math/MathML\"><mi>𝓞</mi></math>".toList,
    .ok [.elem "math".toList [("xmlns".toList, "http://www.w3.org/1998/Math/MathML".toList)] [.elem "mi".toList [] [.text "𝓞".toList]]])]
  (some "\\mathcal{O}".toList)

-- test_convert_input_expected_pairs
#guard check "<math xmlns=\"http://www.w3.org/1998/Math/MathML\"><mi>𝑥</mi></math>".toList
  [("<math xmlns=\"http://www.w3.org/1998/Math/MathML\"><mi>𝑥</mi></math>".toList,
    .ok [.elem "math".toList [("xmlns".toList, "http://www.w3.org/1998/Math/MathML".toList)] [.elem "mi".toList [] [.text "𝑥".toList]]])]
  (some "x".toList)

-- test_convert_input_expected_pairs
#guard check "<math xmlns=\"http://www.w3.org/1998/Math/MathML\"><mi>𝑦</mi></math>".toList
  [("<math xmlns=\"http://www.w3.org/1998/Math/MathML\"><mi>𝑦</mi></math>".toList,
    .ok [.elem "math".toList [("xmlns".toList, "http://www.w3.org/1998/Math/MathML".toList)] [.elem "mi".toList [] [.text "𝑦".toList]]])]
  (some "y".toList)

-- test_convert_input_expected_pairs
#guard check "<math xmlns=\"http://www.w3.org/1998/Math/MathML\"><mi>𝑖</mi></math>".toList
  [("<math xmlns=\"http://www.w3.org/1998/Math/MathML\"><mi>𝑖</mi></math>".toList,
    .ok [.elem "math".toList [("xmlns".toList, "http://www.w3.org/1998/Math/MathML".toList)] [.elem "mi".toList [] [.text "𝑖".toList]]])]
  (some "i".toList)

-- test_convert_input_expected_pairs
#guard check "<math xmlns=\"http://www.w3.org/1998/Math/MathML\"><mi>𝑧</mi></math>".toList
  [("<math xmlns=\"http://www.w3.org/1998/Math/MathML\"><mi>𝑧</mi></math>".toList,
    .ok [.elem "math".toList [("xmlns".toList, "http://www.w3.org/1998/Math/MathML".toList)] [.elem "mi".toList [] [.text "𝑧".toList]]])]
  (some "z".toList)

-- test_convert_input_expected_pairs
#guard check "<math xmlns=\"http://www.w3.org/1998/Math/MathML\"><mi>𝑗</mi></math>".toList
  [("<math xmlns=\"http://www.w3.org/1998/Math/MathML\"><mi>𝑗</mi></math>".toList,
    .ok [.elem "math".toList [("xmlns".toList, "http://www.w3.org/1998/Math/MathML".toList)] [.elem "mi".toList [] [.text "𝑗".toList]]])]
  (some "j".toList)

-- test_convert_input_expected_pairs
#guard check "<math xmlns=\"http://www.w3.org/1998/Math/MathML\"><mi>𝑘</mi></math>".toList
  [("<math xmlns=\"http://www.w3.org/1998/Math/MathML\"><mi>𝑘</mi></math>".toList,
    .ok [.elem "math".toList [("xmlns".toList, "http://www.w3.org/1998/Math/MathML".toList)] [.elem "mi".toList [] [.text "𝑘".toList]]])]
  (some "k".toList)

-- test_convert_input_expected_pairs
#guard check "<math xmlns=\"http://www.w3.org/1998/Math/MathML\"><mi>𝐵</mi></math>".toList
  [("<math xmlns=\"http://www.w3.org/1998/Math/MathML\"><mi>𝐵</mi></math>".toList,
    .ok [.elem "math".toList [("xmlns".toList, "http://www.w3.org/1998/Math/MathML".toList)] [.elem "mi".toList [] [.text "𝐵".toList]]])]
  (some "\\mathit{B}".toList)

-- test_convert_input_expected_pairs
#guard check "<math xmlns=\"http://www.w3.org/1998/Math/MathML\"><mi>𝓓</mi></math>".toList
  [("<math xmlns=\"http://www.w3.org/1998/Math/MathML\"><mi>𝓓</mi></math>".toList,
    .ok [.elem "math".toList [("xmlns".toList, "http://www.w3.org/1998/Math/MathML".toList)] [.elem "mi".toList [] [.text "𝓓".toList]]])]
  (some "\\mathcal{D}".toList)

-- test_convert_input_expected_pairs
#guard check "<math xmlns=\"http://www.w3.org/1998/Math/MathML\"><mi>𝐷</mi></math>".toList
  [("<math xmlns=\"http://www.w3.org/1998/Math/MathML\"><mi>𝐷</mi></math>".toList,
    .ok [.elem "math".toList [("xmlns".toList, "http://www.w3.org/1998/Math/MathML".toList)] [.elem "mi".toList [] [.text "𝐷".toList]]])]
  (some "\\mathit{D}".toList)

-- test_convert_input_expected_pairs
#guard check "<math xmlns=\"http://www.w3.org/1998/Math/MathML\"><mi>𝑚</mi></math>".toList
  [("<math xmlns=\"http://www.w3.org/1998/Math/MathML\"><mi>𝑚</mi></math>".toList,
    .ok [.elem "math".toList [("xmlns".toList, "http://www.w3.org/1998/Math/MathML".toList)] [.elem "mi".toList [] [.text "𝑚".toList]]])]
  (some "m".toList)

-- test_convert_input_expected_pairs
#guard check "<math xmlns=\"http://www.w3.org/1998/Math/MathML\"><mi>𝐼</mi></math>".toList
  [("<math xmlns=\"http://www.w3.org/1998/Math/MathML\"><mi>𝐼</mi></math>".toList,
    .ok [.elem "math".toList [("xmlns".toList, "http://www.w3.org/1998/Math/MathML".toList)] [.elem "mi".toList [] [.text "𝐼".toList]]])]
  (some "\\mathit{I}".toList)

-- test_convert_input_expected_pairs
#guard check "<math xmlns=\"http://www.w3.org/1998/Math/MathML\"><mi>𝑇</mi></math>".toList
  [("<math xmlns=\"http://www.w3.org/1998/Math/MathML\"><mi>𝑇</mi></math>".toList,
    .ok [.elem "math".toList [("xmlns".toList, "http://www.w3.org/1998/Math/MathML".toList)] [.elem "mi".toList [] [.text "𝑇".toList]]])]
  (some "\\mathit{T}".toList)

-- test_convert_input_expected_pairs
#guard check "<math xmlns=\"http://www.w3.org/1998/Math/MathML\"><mi>𝐾</mi></math>".toList
  [("<math xmlns=\"http://www.w3.org/1998/Math/MathML\"><mi>𝐾</mi></math>".toList,
    .ok [.elem "math".toList [("xmlns".toList, "http://www.w3.org/1998/Math/MathML".toList)] [.elem "mi".toList [] [.text "𝐾".toList]]])]
  (some "\\mathit{K}".toList)

-- test_convert_input_expected_pairs
#guard check "<math xmlns=\"http://www.w3.org/1998/Math/MathML\"><mi>𝑒</mi></math>".toList
  [("<math xmlns=\"http://www.w3.org/1998/Math/MathML\"><mi>𝑒</mi></math>".toList,
    .ok [.elem "math".toList [("xmlns".toList, "http://www.w3.org/1998/Math/MathML".toList)] [.elem "mi".toList [] [.text "𝑒".toList]]])]
  (some "e".toList)

-- test_convert_input_expected_pairs
#guard check "<math xmlns=\"http://www.w3.org/1998/Math/MathML\"><mi>𝑟</mi></math>".toList
  [("<math xmlns=\"http://www.w3.org/1998/Math/MathML\"><mi>𝑟</mi></math>".toList,
    .ok [.elem "math".toList [("xmlns".toList, "http://www.w3.org/1998/Math/MathML".toList)] [.elem "mi".toList [] [.text "𝑟".toList]]])]
  (some "r".toList)

-- test_convert_input_expected_pairs
#guard check "<math xmlns=\"http://www.w3.org/1998/Math/MathML\"><mi>𝑉</mi></math>".toList
  [("<math xmlns=\"http://www.w3.org/1998/Math/MathML\"><mi>𝑉</mi></math>".toList,
    .ok [.elem "math".toList [("xmlns".toList, "http://www.w3.org/1998/Math/MathML".toList)] [.elem "mi".toList [] [.text "𝑉".toList]]])]
  (some "\\mathit{V}".toList)

-- test_convert_input_expected_pairs
#guard check "<math xmlns=\"http://www.w3.org/1998/Math/MathML\"><mi>𝐴</mi></math>".toList
  [("<math xmlns=\"http://www.w3.org/1998/Math/MathML\"><mi>𝐴</mi></math>".toList,
    .ok [.elem "math".toList [("xmlns".toList, "http://www.w3.org/1998/Math/MathML".toList)] [.elem "mi".toList [] [.text "𝐴".toList]]])]
  (some "\\mathit{A}".toList)

-- test_convert_input_expected_pairs
#guard check "<math xmlns=\"http://www.w3.org/1998/Math/MathML\"><mi>𝑃</mi></math>".toList
  [("<math xmlns=\"http://www.w3.org/1998/Math/MathML\"><mi>𝑃</mi></math>".toList,
    .ok [.elem "math".toList [("xmlns".toList, "http://www.w3.org/1998/Math/MathML".toList)] [.elem "mi".toList [] [.text "𝑃".toList]]])]
  (some "\\mathit{P}".toList)

-- test_convert_input_expected_pairs
#guard check "<math xmlns=\"http://www.w3.org/1998/Math/MathML\"><mi>𝒞</mi></math>".toList
  [("<math xmlns=\"http://www.w3.org/1998/Math/MathML\"><mi>𝒞</mi></math>".toList,
    .ok [.elem "math".toList [("xmlns".toList, "http://www.w3.org/1998/Math/MathML".toList)] [.elem "mi".toList [] [.text "𝒞".toList]]])]
  (some "\\mathcal{C}".toList)

-- test_convert_input_expected_pairs
#guard check "<math xmlns=\"http://www.w3.org/1998/Math/MathML\"><mi>ɳ</mi></math>".toList
  [("<math xmlns=\"http://www.w3.org/1998/Math/MathML\"><mi>ɳ</mi></math>".toList,
    .ok [.elem "math".toList [("xmlns".toList, "http://www.w3.org/1998/Math/MathML".toList)] [.elem "mi".toList [] [.text "ɳ".toList]]])]
  (some "\\eta".toList)

-- test_convert_input_expected_pairs
#guard check "<math xmlns=\"http://www.w3.org/1998/Math/MathML\"><mi>Ν</mi></math>".toList
  [("<math xmlns=\"http://www.w3.org/1998/Math/MathML\"><mi>Ν</mi></math>".toList,
    .ok [.elem "math".toList [("xmlns".toList, "http://www.w3.org/1998/Math/MathML".toList)] [.elem "mi".toList [] [.text "Ν".toList]]])]
  (some "\\nu".toList)

-- test_convert_input_expected_pairs
#guard check "<math xmlns=\"http://www.w3.org/1998/Math/MathML\"><mi>ɳ</mi></math>".toList
  [("<math xmlns=\"http://www.w3.org/1998/Math/MathML\"><mi>ɳ</mi></math>".toList,
    .ok [.elem "math".toList [("xmlns".toList, "http://www.w3.org/1998/Math/MathML".toList)] [.elem "mi".toList [] [.text "ɳ".toList]]])]
  (some "\\eta".toList)

-- test_convert_input_expected_pairs
#guard check "<math xmlns=\"http://www.w3.org/1998/Math/MathML\"><mi>ⅈ</mi></math>".toList
  [("<math xmlns=\"http://www.w3.org/1998/Math/MathML\"><mi>ⅈ</mi></math>".toList,
    .ok [.elem "math".toList [("xmlns".toList, "http://www.w3.org/1998/Math/MathML".toList)] [.elem "mi".toList [] [.text "ⅈ".toList]]])]
  (some "i".toList)

-- test_convert_input_expected_pairs
#guard check "<math xmlns=\"http://www.w3.org/1998/Math/MathML\"><mi>⍵</mi></math>".toList
  [("<math xmlns=\"http://www.w3.org/1998/Math/MathML\"><mi>⍵</mi></math>".toList,
    .ok [.elem "math".toList [("xmlns".toList, "http://www.w3.org/1998/Math/MathML".toList)] [.elem "mi".toList [] [.text "⍵".toList]]])]
  (some "\\omega".toList)

-- test_convert_input_expected_pairs
#guard check "<math xmlns=\"http://www.w3.org/1998/Math/MathML\"><mi>ο</mi></math>".toList
  [("<math xmlns=\"http://www.w3.org/1998/Math/MathML\"><mi>ο</mi></math>".toList,
    .ok [.elem "math".toList [("xmlns".toList, "http://www.w3.org/1998/Math/MathML".toList)] [.elem "mi".toList [] [.text "ο".toList]]])]
  (some "o".toList)

-- test_convert_input_expected_pairs
#guard check "<math xmlns=\"http://www.w3.org/1998/Math/MathML\"><mi>ƒ</mi></math>".toList
  [("<math xmlns=\"http://www.w3.org/1998/Math/MathML\"><mi>ƒ</mi></math>".toList,
    .ok [.elem "math".toList [("xmlns".toList, "http://www.w3.org/1998/Math/MathML".toList)] [.elem "mi".toList [] [.text "ƒ".toList]]])]
  (some "f".toList)

-- test_convert_input_expected_pairs
#guard check "<math xmlns=\"http://www.w3.org/1998/Math/MathML\"><mi>🇽</mi></math>".toList
  [("<math xmlns=\"http://www.w3.org/1998/Math/MathML\"><mi>🇽</mi></math>".toList,
    .ok [.elem "math".toList [("xmlns".toList, "http://www.w3.org/1998/Math/MathML".toList)] [.elem "mi".toList [] [.text "🇽".toList]]])]
  (some "x".toList)

-- test_convert_input_expected_pairs
#guard check "<math xmlns=\"http://www.w3.org/1998/Math/MathML\"><mi>ℰ</mi></math>".toList
  [("<math xmlns=\"http://www.w3.org/1998/Math/MathML\"><mi>ℰ</mi></math>".toList,
    .ok [.elem "math".toList [("xmlns".toList, "http://www.w3.org/1998/Math/MathML".toList)] [.elem "mi".toList [] [.text "ℰ".toList]]])]
  (some "\\mathcal{E}".toList)

-- test_convert_input_expected_pairs
#guard check "<math xmlns=\"http://www.w3.org/1998/Math/MathML\"><mi>𝑝</mi></math>".toList
  [("<math xmlns=\"http://www.w3.org/1998/Math/MathML\"><mi>𝑝</mi></math>".toList,
    .ok [.elem "math".toList [("xmlns".toList, "http://www.w3.org/1998/Math/MathML".toList)] [.elem "mi".toList [] [.text "𝑝".toList]]])]
  (some "p".toList)

-- test_convert_input_expected_pairs
#guard check "<math xmlns=\"http://www.w3.org/1998/Math/MathML\"><mi>𝑎</mi></math>".toList
  [("<math xmlns=\"http://www.w3.org/1998/Math/MathML\"><mi>𝑎</mi></math>".toList,
    .ok [.elem "math".toList [("xmlns".toList, "http://www.w3.org/1998/Math/MathML".toList)] [.elem "mi".toList [] [.text "𝑎".toList]]])]
  (some "a".toList)

-- test_convert_input_expected_pairs
#guard check "<math xmlns=\"http://www.w3.org/1998/Math/MathML\"><mi>𝑆</mi></math>".toList
  [("<math xmlns=\"http://www.w3.org/1998/Math/MathML\"><mi>𝑆</mi></math>".toList,
    .ok [.elem "math".toList [("xmlns".toList, "http://www.w3.org/1998/Math/MathML".toList)] [.elem "mi".toList [] [.text "𝑆".toList]]])]
  (some "\\mathit{S}".toList)

-- test_convert_input_expected_pairs
#guard check "<math xmlns=\"http://www.w3.org/1998/Math/MathML\"><mi>𝑠</mi></math>".toList
  [("<math xmlns=\"http://www.w3.org/1998/Math/MathML\"><mi>𝑠</mi></math>".toList,
    .ok [.elem "math".toList [("xmlns".toList, "http://www.w3.org/1998/Math/MathML".toList)] [.elem "mi".toList [] [.text "𝑠".toList]]])]
  (some "s".toList)

-- test_convert_input_expected_pairs
#guard check "<math xmlns=\"http://www.w3.org/1998/Math/MathML\"><mi>𝑜</mi></math>".toList
  [("<math xmlns=\"http://www.w3.org/1998/Math/MathML\"><mi>𝑜</mi></math>".toList,
    .ok [.elem "math".toList [("xmlns".toList, "http://www.w3.org/1998/Math/MathML".toList)] [.elem "mi".toList [] [.text "𝑜".toList]]])]
  (some "o".toList)

-- test_convert_input_expected_pairs
#guard check "<math xmlns=\"http://www.w3.org/1998/Math/MathML\"><mi>𝛽</mi></math>".toList
  [("<math xmlns=\"http://www.w3.org/1998/Math/MathML\"><mi>𝛽</mi></math>".toList,
    .ok [.elem "math".toList [("xmlns".toList, "http://www.w3.org/1998/Math/MathML".toList)] [.elem "mi".toList [] [.text "𝛽".toList]]])]
  (some "\\beta".toList)

-- test_convert_input_expected_pairs
#guard check "<math xmlns=\"http://www.w3.org/1998/Math/MathML\"><mi>𝐶</mi></math>".toList
  [("<math xmlns=\"http://www.w3.org/1998/Math/MathML\"><mi>𝐶</mi></math>".toList,
    .ok [.elem "math".toList [("xmlns".toList, "http://www.w3.org/1998/Math/MathML".toList)] [.elem "mi".toList [] [.text "𝐶".toList]]])]
  (some "\\mathit{C}".toList)

-- test_convert_input_expected_pairs
#guard check "<math xmlns=\"http://www.w3.org/1998/Math/MathML\"><mi>𝑡</mi></math>".toList
  [("<math xmlns=\"http://www.w3.org/1998/Math/MathML\"><mi>𝑡</mi></math>".toList,
    .ok [.elem "math".toList [("xmlns".toList, "http://www.w3.org/1998/Math/MathML".toList)] [.elem "mi".toList [] [.text "𝑡".toList]]])]
  (some "t".toList)

-- test_convert_input_expected_pairs
#guard check "<math xmlns=\"http://www.w3.org/1998/Math/MathML\"><mi>𝑅</mi></math>".toList
  [("<math xmlns=\"http://www.w3.org/1998/Math/MathML\"><mi>𝑅</mi></math>".toList,
    .ok [.elem "math".toList [("xmlns".toList, "http://www.w3.org/1998/Math/MathML".toList)] [.elem "mi".toList [] [.text "𝑅".toList]]])]
  (some "\\mathit{R}".toList)

-- test_convert_input_expected_pairs
#guard check "<math xmlns=\"http://www.w3.org/1998/Math/MathML\"><mi>𝑢</mi></math>".toList
  [("<math xmlns=\"http://www.w3.org/1998/Math/MathML\"><mi>𝑢</mi></math>".toList,
    .ok [.elem "math".toList [("xmlns".toList, "http://www.w3.org/1998/Math/MathML".toList)] [.elem "mi".toList [] [.text "𝑢".toList]]])]
  (some "u".toList)

-- test_convert_input_expected_pairs
#guard check "<math xmlns=\"http://www.w3.org/1998/Math/MathML\"><mi>𝑏</mi></math>".toList
  [("<math xmlns=\"http://www.w3.org/1998/Math/MathML\"><mi>𝑏</mi></math>".toList,
    .ok [.elem "math".toList [("xmlns".toList, "http://www.w3.org/1998/Math/MathML".toList)] [.elem "mi".toList [] [.text "𝑏".toList]]])]
  (some "b".toList)

-- test_convert_input_expected_pairs
#guard check "<math xmlns=\"http://www.w3.org/1998/Math/MathML\"><mi>ℚ</mi></math>".toList
  [("<math xmlns=\"http://www.w3.org/1998/Math/MathML\"><mi>ℚ</mi></math>".toList,
    .ok [.elem "math".toList [("xmlns".toList, "http://www.w3.org/1998/Math/MathML".toList)] [.elem "mi".toList [] [.text "ℚ".toList]]])]
  (some "\\mathbb{Q}".toList)

-- test_convert_input_expected_pairs
#guard check "<math xmlns=\"http://www.w3.org/1998/Math/MathML\"><mi>ŷ</mi></math>".toList
  [("<math xmlns=\"http://www.w3.org/1998/Math/MathML\"><mi>ŷ</mi></math>".toList,
    .ok [.elem "math".toList [("xmlns".toList, "http://www.w3.org/1998/Math/MathML".toList)] [.elem "mi".toList [] [.text "ŷ".toList]]])]
  (some "\\hat{y}".toList)

-- test_convert_input_expected_pairs
#guard check "<math xmlns=\"http://www.w3.org/1998/Math/MathML\"><mi>𝑀</mi></math>".toList
  [("<math xmlns=\"http://www.w3.org/1998/Math/MathML\"><mi>𝑀</mi></math>".toList,
    .ok [.elem "math".toList [("xmlns".toList, "http://www.w3.org/1998/Math/MathML".toList)] [.elem "mi".toList [] [.text "𝑀".toList]]])]
  (some "\\mathit{M}".toList)

-- test_convert_input_expected_pairs
#guard check "<math xmlns=\"http://www.w3.org/1998/Math/MathML\"><mi>𝑐</mi></math>".toList
  [("<math xmlns=\"http://www.w3.org/1998/Math/MathML\"><mi>𝑐</mi></math>".toList,
    .ok [.elem "math".toList [("xmlns".toList, "http://www.w3.org/1998/Math/MathML".toList)] [.elem "mi".toList [] [.text "𝑐".toList]]])]
  (some "c".toList)

-- test_convert_input_expected_pairs
#guard check "<math xmlns=\"http://www.w3.org/1998/Math/MathML\"><mi>𝑛</mi></math>".toList
  [("<math xmlns=\"http://www.w3.org/1998/Math/MathML\"><mi>𝑛</mi></math>".toList,
    .ok [.elem "math".toList [("xmlns".toList, "http://www.w3.org/1998/Math/MathML".toList)] [.elem "mi".toList [] [.text "𝑛".toList]]])]
  (some "n".toList)

-- test_convert_input_expected_pairs
#guard check "<math xmlns=\"http://www.w3.org/1998/Math/MathML\"><mi>𝑣</mi></math>".toList
  [("<math xmlns=\"http://www.w3.org/1998/Math/MathML\"><mi>𝑣</mi></math>".toList,
    .ok [.elem "math".toList [("xmlns".toList, "http://www.w3.org/1998/Math/MathML".toList)] [.elem "mi".toList [] [.text "𝑣".toList]]])]
  (some "v".toList)

-- test_convert_input_expected_pairs
#guard check "<math xmlns=\"http://www.w3.org/1998/Math/MathML\"><mi>𝑔</mi></math>".toList
  [("<math xmlns=\"http://www.w3.org/1998/Math/MathML\"><mi>𝑔</mi></math>".toList,
    .ok [.elem "math".toList [("xmlns".toList, "http://www.w3.org/1998/Math/MathML".toList)] [.elem "mi".toList [] [.text "𝑔".toList]]])]
  (some "g".toList)

-- test_convert_input_expected_pairs
#guard check "<math xmlns=\"http://www.w3.org/1998/Math/MathML\"><mi>;</mi></math>".toList
  [("<math xmlns=\"http://www.w3.org/1998/Math/MathML\"><mi>;</mi></math>".toList,
    .ok [.elem "math".toList [("xmlns".toList, "http://www.w3.org/1998/Math/MathML".toList)] [.elem "mi".toList [] [.text ";".toList]]])]
  (some ";".toList)

-- test_convert_input_expected_pairs
#guard check "<math xmlns=\"http://www.w3.org/1998/Math/MathML\"><mi>℘</mi></math>".toList
  [("<math xmlns=\"http://www.w3.org/1998/Math/MathML\"><mi>℘</mi></math>".toList,
    .ok [.elem "math".toList [("xmlns".toList, "http://www.w3.org/1998/Math/MathML".toList)] [.elem "mi".toList [] [.text "℘".toList]]])]
  (some "\\wp".toList)

-- test_convert_input_expected_pairs
#guard check "<math xmlns=\"http://www.w3.org/1998/Math/MathML\"><mi>𝓕</mi></math>".toList
  [("<math xmlns=\"http://www.w3.org/1998/Math/MathML\"><mi>𝓕</mi></math>".toList,
    .ok [.elem "math".toList [("xmlns".toList, "http://www.w3.org/1998/Math/MathML".toList)] [.elem "mi".toList [] [.text "𝓕".toList]]])]
  (some "\\mathcal{F}".toList)

-- test_convert_input_expected_pairs
#guard check "<math xmlns=\"http://www.w3.org/1998/Math/MathML\"><mi>൦</mi></math>".toList
  [("<math xmlns=\"http://www.w3.org/1998/Math/MathML\"><mi>൦</mi></math>".toList,
    .ok [.elem "math".toList [("xmlns".toList, "http://www.w3.org/1998/Math/MathML".toList)] [.elem "mi".toList [] [.text "൦".toList]]])]
  (some "\\circ".toList)

-- test_convert_input_expected_pairs
#guard check "<math xmlns=\"http://www.w3.org/1998/Math/MathML\"><mi>𝔻</mi></math>".toList
  [("<math xmlns=\"http://www.w3.org/1998/Math/MathML\"><mi>𝔻</mi></math>".toList,
    .ok [.elem "math".toList [("xmlns".toList, "http://www.w3.org/1998/Math/MathML".toList)] [.elem "mi".toList [] [.text "𝔻".toList]]])]
  (some "\\mathbb{D}".toList)

-- test_convert_input_expected_pairs
#guard check "<math xmlns=\"http://www.w3.org/1998/Math/MathML\"><mi>𝕽</mi></math>".toList
  [("<math xmlns=\"http://www.w3.org/1998/Math/MathML\"><mi>𝕽</mi></math>".toList,
    .ok [.elem "math".toList [("xmlns".toList, "http://www.w3.org/1998/Math/MathML".toList)] [.elem "mi".toList [] [.text "𝕽".toList]]])]
  (some "\\mathcal{R}".toList)

-- test_convert_input_expected_pairs
#guard check "<math xmlns=\"http://www.w3.org/1998/Math/MathML\"><mi>┴</mi></math>".toList
  [("<math xmlns=\"http://www.w3.org/1998/Math/MathML\"><mi>┴</mi></math>".toList,
    .ok [.elem "math".toList [("xmlns".toList, "http://www.w3.org/1998/Math/MathML".toList)] [.elem "mi".toList [] [.text "┴".toList]]])]
  (some "\\perp".toList)

-- test_convert_input_expected_pairs
#guard check "<math xmlns=\"http://www.w3.org/1998/Math/MathML\"><mi>Ô</mi></math>".toList
  [("<math xmlns=\"http://www.w3.org/1998/Math/MathML\"><mi>Ô</mi></math>".toList,
    .ok [.elem "math".toList [("xmlns".toList, "http://www.w3.org/1998/Math/MathML".toList)] [.elem "mi".toList [] [.text "Ô".toList]]])]
  (some "\\hat{O}".toList)

-- test_convert_input_expected_pairs
#guard check "<math xmlns=\"http://www.w3.org/1998/Math/MathML\"><mi>✕</mi></math>".toList
  [("<math xmlns=\"http://www.w3.org/1998/Math/MathML\"><mi>✕</mi></math>".toList,
    .ok [.elem "math".toList [("xmlns".toList, "http://www.w3.org/1998/Math/MathML".toList)] [.elem "mi".toList [] [.text "✕".toList]]])]
  (some "\\times".toList)

-- test_convert_input_expected_pairs
#guard check "<math xmlns=\"http://www.w3.org/1998/Math/MathML\"><mi>ɵ</mi></math>".toList
  [("<math xmlns=\"http://www.w3.org/1998/Math/MathML\"><mi>ɵ</mi></math>".toList,
    .ok [.elem "math".toList [("xmlns".toList, "http://www.w3.org/1998/Math/MathML".toList)] [.elem "mi".toList [] [.text "ɵ".toList]]])]
  (some "\\theta".toList)

-- test_convert_input_expected_pairs
#guard check "<math xmlns=\"http://www.w3.org/1998/Math/MathML\"><mi>ℕ</mi></math>".toList
  [("<math xmlns=\"http://www.w3.org/1998/Math/MathML\"><mi>ℕ</mi></math>".toList,
    .ok [.elem "math".toList [("xmlns".toList, "http://www.w3.org/1998/Math/MathML".toList)] [.elem "mi".toList [] [.text "ℕ".toList]]])]
  (some "\\mathbb{N}".toList)

-- test_convert_input_expected_pairs
#guard check "<math xmlns=\"http://www.w3.org/1998/Math/MathML\"><mi>β</mi></math>".toList
  [("<math xmlns=\"http://www.w3.org/1998/Math/MathML\"><mi>β</mi></math>".toList,
    .ok [.elem "math".toList [("xmlns".toList, "http://www.w3.org/1998/Math/MathML".toList)] [.elem "mi".toList [] [.text "β".toList]]])]
  (some "\\beta".toList)

-- test_convert_input_expected_pairs
#guard check "<math xmlns=\"http://www.w3.org/1998/Math/MathML\"><mn>₀</mn></math>".toList
  [("<math xmlns=\"http://www.w3.org/1998/Math/MathML\"><mn>₀</mn></math>".toList,
    .ok [.elem "math".toList [("xmlns".toList, "http://www.w3.org/1998/Math/MathML".toList)] [.elem "mn".toList [] [.text "₀".toList]]])]
  (some "_{0}".toList)

-- test_convert_input_expected_pairs
#guard check "<math xmlns=\"http://www.w3.org/1998/Math/MathML\"><mn>₁</mn></math>".toList
  [("<math xmlns=\"http://www.w3.org/1998/Math/MathML\"><mn>₁</mn></math>".toList,
    .ok [.elem "math".toList [("xmlns".toList, "http://www.w3.org/1998/Math/MathML".toList)] [.elem "mn".toList [] [.text "₁".toList]]])]
  (some "_{1}".toList)

-- test_convert_input_expected_pairs
#guard check "<math xmlns=\"http://www.w3.org/1998/Math/MathML\"><mn>₂</mn></math>".toList
  [("<math xmlns=\"http://www.w3.org/1998/Math/MathML\"><mn>₂</mn></math>".toList,
    .ok [.elem "math".toList [("xmlns".toList, "http://www.w3.org/1998/Math/MathML".toList)] [.elem "mn".toList [] [.text "₂".toList]]])]
  (some "_{2}".toList)

-- test_convert_input_expected_pairs
#guard check "<math xmlns=\"http://www.w3.org/1998/Math/MathML\"><mn>₃</mn></math>".toList
  [("<math xmlns=\"http://www.w3.org/1998/Math/MathML\"><mn>₃</mn></math>".toList,
    .ok [.elem "math".toList [("xmlns".toList, "http://www.w3.org/1998/Math/MathML".toList)] [.elem "mn".toList [] [.text "₃".toList]]])]
  (some "_{3}".toList)

-- test_convert_input_expected_pairs
#guard check "<math xmlns=\"http://www.w3.org/1998/Math/MathML\"><mn>₄</mn></math>".toList
  [("<math xmlns=\"http://www.w3.org/1998/Math/MathML\"><mn>₄</mn></math>".toList,
    .ok [.elem "math".toList [("xmlns".toList, "http://www.w3.org/1998/Math/MathML".toList)] [.elem "mn".toList [] [.text "₄".toList]]])]
  (some "_{4}".toList)

-- test_convert_input_expected_pairs
#guard check "<math xmlns=\"http://www.w3.org/1998/Math/MathML\"><mn>₅</mn></math>".toList
  [("<math xmlns=\"http://www.w3.org/1998/Math/MathML\"><mn>₅</mn></math>".toList,
    .ok [.elem "math".toList [("xmlns".toList, "http://www.w3.org/1998/Math/MathML".toList)] [.elem "mn".toList [] [.text "₅".toList]]])]
  (some "_{5}".toList)

-- test_convert_input_expected_pairs
#guard check "<math xmlns=\"http://www.w3.org/1998/Math/MathML\"><mn>₆</mn></math>".toList
  [("<math xmlns=\"http://www.w3.org/1998/Math/MathML\"><mn>₆</mn></math>".toList,
    .ok [.elem "math".toList [("xmlns".toList, "http://www.w3.org/1998/Math/MathML".toList)] [.elem "mn".toList [] [.text "₆".toList]]])]
  (some "_{6}".toList)

-- test_convert_input_expected_pairs
#guard check "<math xmlns=\"http://www.w3.org/1998/Math/MathML\"><mn>₇</mn></math>".toList
  [("<math xmlns=\"http://www.w3.org/1998/Math/MathML\"><mn>₇</mn></math>".toList,
    .ok [.elem "math".toList [("xmlns".toList, "http://www.w3.org/1998/Math/MathML".toList)] [.elem "mn".toList [] [.text "₇".toList]]])]
  (some "_{7}".toList)

-- test_convert_input_expected_pairs
#guard check "<math xmlns=\"http://www.w3.org/1998/Math/MathML\"><mn>₈</mn></math>".toList
  [("<math xmlns=\"http://www.w3.org/1998/Math/MathML\"><mn>₈</mn></math>".toList,
    .ok [.elem "math".toList [("xmlns".toList, "http://www.w3.org/1998/Math/MathML".toList)] [.elem "mn".toList [] [.text "₈".toList]]])]
  (some "_{8}".toList)

-- test_convert_input_expected_pairs
#guard check "<math xmlns=\"http://www.w3.org/1998/Math/MathML\"><mn>₉</mn></math>".toList
  [("<math xmlns=\"http://www.w3.org/1998/Math/MathML\"><mn>₉</mn></math>".toList,
    .ok [.elem "math".toList [("xmlns".toList, "http://www.w3.org/1998/Math/MathML".toList)] [.elem "mn".toList [] [.text "₉".toList]]])]
  (some "_{9}".toList)

-- test_convert_input_expected_pairs
#guard check "<math xmlns=\"http://www.w3.org/1998/Math/MathML\"><mo>⟦</mo></math>".toList
  [("<math xmlns=\"http://www.w3.org/1998/Math/MathML\"><mo>⟦</mo></math>".toList,
    .ok [.elem "math".toList [("xmlns".toList, "http://www.w3.org/1998/Math/MathML".toList)] [.elem "mo".toList [] [.text "⟦".toList]]])]
  (some "\\(|".toList)

-- test_convert_input_expected_pairs
#guard check "<math xmlns=\"http://www.w3.org/1998/Math/MathML\"><mo>⟧</mo></math>".toList
  [("<math xmlns=\"http://www.w3.org/1998/Math/MathML\"><mo>⟧</mo></math>".toList,
    .ok [.elem "math".toList [("xmlns".toList, "http://www.w3.org/1998/Math/MathML".toList)] [.elem "mo".toList [] [.text "⟧".toList]]])]
  (some "\\)|".toList)

-- test_convert_input_expected_pairs
#guard check "<math xmlns=\"http://www.w3.org/1998/Math/MathML\"><mi>Ê</mi></math>".toList
  [("<math xmlns=\"http://www.w3.org/1998/Math/MathML\"><mi>Ê</mi></math>".toList,
    .ok [.elem "math".toList [("xmlns".toList, "http://www.w3.org/1998/Math/MathML".toList)] [.elem "mi".toList [] [.text "Ê".toList]]])]
  (some "\\hat{E}".toList)

-- test_convert_input_expected_pairs
#guard check "<math xmlns=\"http://www.w3.org/1998/Math/MathML\"><mo>‾</mo></math>".toList
  [("<math xmlns=\"http://www.w3.org/1998/Math/MathML\"><mo>‾</mo></math>".toList,
    .ok [.elem "math".toList [("xmlns".toList, "http://www.w3.org/1998/Math/MathML".toList)] [.elem "mo".toList [] [.text "‾".toList]]])]
  (some "\\overline".toList)

-- test_convert_input_expected_pairs
#guard check "<math xmlns=\"http://www.w3.org/1998/Math/MathML\"><mo>→</mo></math>".toList
  [("<math xmlns=\"http://www.w3.org/1998/Math/MathML\"><mo>→</mo></math>".toList,
    .ok [.elem "math".toList [("xmlns".toList, "http://www.w3.org/1998/Math/MathML".toList)] [.elem "mo".toList [] [.text "→".toList]]])]
  (some "\\rightarrow".toList)

-- test_convert_input_expected_pairs
#guard check "<math xmlns=\"http://www.w3.org/1998/Math/MathML\"><mo>∥</mo></math>".toList
  [("<math xmlns=\"http://www.w3.org/1998/Math/MathML\"><mo>∥</mo></math>".toList,
    .ok [.elem "math".toList [("xmlns".toList, "http://www.w3.org/1998/Math/MathML".toList)] [.elem "mo".toList [] [.text "∥".toList]]])]
  (some "\\parallel".toList)

-- test_convert_input_expected_pairs
#guard check "<math xmlns=\"http://www.w3.org/1998/Math/MathML\"><mi>𝑄</mi></math>".toList
  [("<math xmlns=\"http://www.w3.org/1998/Math/MathML\"><mi>𝑄</mi></math>".toList,
    .ok [.elem "math".toList [("xmlns".toList, "http://www.w3.org/1998/Math/MathML".toList)] [.elem "mi".toList [] [.text "𝑄".toList]]])]
  (some "\\mathit{Q}".toList)

-- test_convert_input_expected_pairs
#guard check "<math xmlns=\"http://www.w3.org/1998/Math/MathML\"><mi>𝑓</mi></math>".toList
  [("<math xmlns=\"http://www.w3.org/1998/Math/MathML\"><mi>𝑓</mi></math>".toList,
    .ok [.elem "math".toList [("xmlns".toList, "http://www.w3.org/1998/Math/MathML".toList)] [.elem "mi".toList [] [.text "𝑓".toList]]])]
  (some "f".toList)

-- test_convert_input_expected_pairs
#guard check "<math xmlns=\"http://www.w3.org/1998/Math/MathML\"><mi>Ī</mi></math>".toList
  [("<math xmlns=\"http://www.w3.org/1998/Math/MathML\"><mi>Ī</mi></math>".toList,
    .ok [.elem "math".toList [("xmlns".toList, "http://www.w3.org/1998/Math/MathML".toList)] [.elem "mi".toList [] [.text "Ī".toList]]])]
  (some "\\bar{I}".toList)

-- test_convert_input_expected_pairs
#guard check "<math xmlns=\"http://www.w3.org/1998/Math/MathML\"><mo>≈</mo></math>".toList
  [("<math xmlns=\"http://www.w3.org/1998/Math/MathML\"><mo>≈</mo></math>".toList,
    .ok [.elem "math".toList [("xmlns".toList, "http://www.w3.org/1998/Math/MathML".toList)] [.elem "mo".toList [] [.text "≈".toList]]])]
  (some "\\approx".toList)

-- test_convert_input_expected_pairs
#guard check "<math xmlns=\"http://www.w3.org/1998/Math/MathML\"><mo>∣</mo></math>".toList
  [("<math xmlns=\"http://www.w3.org/1998/Math/MathML\"><mo>∣</mo></math>".toList,
    .ok [.elem "math".toList [("xmlns".toList, "http://www.w3.org/1998/Math/MathML".toList)] [.elem "mo".toList [] [.text "∣".toList]]])]
  (some "\\mid".toList)

-- test_convert_input_expected_pairs
#guard check "<math xmlns=\"http://www.w3.org/1998/Math/MathML\"><mo>∢</mo></math>".toList
  [("<math xmlns=\"http://www.w3.org/1998/Math/MathML\"><mo>∢</mo></math>".toList,
    .ok [.elem "math".toList [("xmlns".toList, "http://www.w3.org/1998/Math/MathML".toList)] [.elem "mo".toList [] [.text "∢".toList]]])]
  (some "\\measuredangle".toList)

-- test_convert_input_expected_pairs
#guard check "<math xmlns=\"http://www.w3.org/1998/Math/MathML\"><mi>Փ</mi></math>".toList
  [("<math xmlns=\"http://www.w3.org/1998/Math/MathML\"><mi>Փ</mi></math>".toList,
    .ok [.elem "math".toList [("xmlns".toList, "http://www.w3.org/1998/Math/MathML".toList)] [.elem "mi".toList [] [.text "Փ".toList]]])]
  (some "\\Phi".toList)

-- test_convert_input_expected_pairs
#guard check "<math xmlns=\"http://www.w3.org/1998/Math/MathML\"><mo>∮</mo></math>".toList
  [("<math xmlns=\"http://www.w3.org/1998/Math/MathML\"><mo>∮</mo></math>".toList,
    .ok [.elem "math".toList [("xmlns".toList, "http://www.w3.org/1998/Math/MathML".toList)] [.elem "mo".toList [] [.text "∮".toList]]])]
  (some "\\oint".toList)

-- test_convert_input_expected_pairs
#guard check "<math xmlns=\"http://www.w3.org/1998/Math/MathML\"><mo>∫</mo></math>".toList
  [("<math xmlns=\"http://www.w3.org/1998/Math/MathML\"><mo>∫</mo></math>".toList,
    .ok [.elem "math".toList [("xmlns".toList, "http://www.w3.org/1998/Math/MathML".toList)] [.elem "mo".toList [] [.text "∫".toList]]])]
  (some "\\int".toList)

-- test_convert_input_expected_pairs
#guard check "<math xmlns=\"http://www.w3.org/1998/Math/MathML\"><mo>∑</mo></math>".toList
  [("<math xmlns=\"http://www.w3.org/1998/Math/MathML\"><mo>∑</mo></math>".toList,
    .ok [.elem "math".toList [("xmlns".toList, "http://www.w3.org/1998/Math/MathML".toList)] [.elem "mo".toList [] [.text "∑".toList]]])]
  (some "\\sum".toList)

-- test_convert_input_expected_pairs
#guard check "<math xmlns=\"http://www.w3.org/1998/Math/MathML\"><mo>∏</mo></math>".toList
  [("<math xmlns=\"http://www.w3.org/1998/Math/MathML\"><mo>∏</mo></math>".toList,
    .ok [.elem "math".toList [("xmlns".toList, "http://www.w3.org/1998/Math/MathML".toList)] [.elem "mo".toList [] [.text "∏".toList]]])]
  (some "\\prod".toList)

-- test_convert_input_expected_pairs
#guard check "<math xmlns=\"http://www.w3.org/1998/Math/MathML\"><mo>∂</mo></math>".toList
  [("<math xmlns=\"http://www.w3.org/1998/Math/MathML\"><mo>∂</mo></math>".toList,
    .ok [.elem "math".toList [("xmlns".toList, "http://www.w3.org/1998/Math/MathML".toList)] [.elem "mo".toList [] [.text "∂".toList]]])]
  (some "\\partial".toList)

-- test_convert_input_expected_pairs
#guard check "<math xmlns=\"http://www.w3.org/1998/Math/MathML\"><mo>∀</mo></math>".toList
  [("<math xmlns=\"http://www.w3.org/1998/Math/MathML\"><mo>∀</mo></math>".toList,
    .ok [.elem "math".toList [("xmlns".toList, "http://www.w3.org/1998/Math/MathML".toList)] [.elem "mo".toList [] [.text "∀".toList]]])]
  (some "\\forall".toList)

-- test_convert_input_expected_pairs
#guard check "<math xmlns=\"http://www.w3.org/1998/Math/MathML\"><mo>∃</mo></math>".toList
  [("<math xmlns=\"http://www.w3.org/1998/Math/MathML\"><mo>∃</mo></math>".toList,
    .ok [.elem "math".toList [("xmlns".toList, "http://www.w3.org/1998/Math/MathML".toList)] [.elem "mo".toList [] [.text "∃".toList]]])]
  (some "\\exists".toList)

-- test_convert_input_expected_pairs
#guard check "<math xmlns=\"http://www.w3.org/1998/Math/MathML\"><mo>∈</mo></math>".toList
  [("<math xmlns=\"http://www.w3.org/1998/Math/MathML\"><mo>∈</mo></math>".toList,
    .ok [.elem "math".toList [("xmlns".toList, "http://www.w3.org/1998/Math/MathML".toList)] [.elem "mo".toList [] [.text "∈".toList]]])]
  (some "\\in".toList)

-- test_convert_input_expected_pairs
#guard check "<math xmlns=\"http://www.w3.org/1998/Math/MathML\"><mo>∋</mo></math>".toList
  [("<math xmlns=\"http://www.w3.org/1998/Math/MathML\"><mo>∋</mo></math>".toList,
    .ok [.elem "math".toList [("xmlns".toList, "http://www.w3.org/1998/Math/MathML".toList)] [.elem "mo".toList [] [.text "∋".toList]]])]
  (some "\\ni".toList)

-- test_convert_input_expected_pairs
#guard check "<math xmlns=\"http://www.w3.org/1998/Math/MathML\"><mo>∝</mo></math>".toList
  [("<math xmlns=\"http://www.w3.org/1998/Math/MathML\"><mo>∝</mo></math>".toList,
    .ok [.elem "math".toList [("xmlns".toList, "http://www.w3.org/1998/Math/MathML".toList)] [.elem "mo".toList [] [.text "∝".toList]]])]
  (some "\\propto".toList)

-- test_convert_input_expected_pairs
#guard check "<math xmlns=\"http://www.w3.org/1998/Math/MathML\"><mn>⁹</mn></math>".toList
  [("<math xmlns=\"http://www.w3.org/1998/Math/MathML\"><mn>⁹</mn></math>".toList,
    .ok [.elem "math".toList [("xmlns".toList, "http://www.w3.org/1998/Math/MathML".toList)] [.elem "mn".toList [] [.text "⁹".toList]]])]
  (some "^{9}".toList)

-- test_convert_input_expected_pairs
#guard check "<math xmlns=\"http://www.w3.org/1998/Math/MathML\"><mo>⎜</mo></math>".toList
  [("<math xmlns=\"http://www.w3.org/1998/Math/MathML\"><mo>⎜</mo></math>".toList,
    .ok [.elem "math".toList [("xmlns".toList, "http://www.w3.org/1998/Math/MathML".toList)] [.elem "mo".toList [] [.text "⎜".toList]]])]
  (some "\\mid".toList)

-- test_convert_input_expected_pairs
#guard check "<math xmlns=\"http://www.w3.org/1998/Math/MathML\"><mo>⎻</mo></math>".toList
  [("<math xmlns=\"http://www.w3.org/1998/Math/MathML\"><mo>⎻</mo></math>".toList,
    .ok [.elem "math".toList [("xmlns".toList, "http://www.w3.org/1998/Math/MathML".toList)] [.elem "mo".toList [] [.text "⎻".toList]]])]
  (some "-".toList)

-- test_convert_input_expected_pairs
#guard check "<math xmlns=\"http://www.w3.org/1998/Math/MathML\"><mi>𝑙</mi></math>".toList
  [("<math xmlns=\"http://www.w3.org/1998/Math/MathML\"><mi>𝑙</mi></math>".toList,
    .ok [.elem "math".toList [("xmlns".toList, "http://www.w3.org/1998/Math/MathML".toList)] [.elem "mi".toList [] [.text "𝑙".toList]]])]
  (some "l".toList)

-- test_convert_input_expected_pairs
#guard check "<math xmlns=\"http://www.w3.org/1998/Math/MathML\"><mi>𝑖</mi></math>".toList
  [("<math xmlns=\"http://www.w3.org/1998/Math/MathML\"><mi>𝑖</mi></math>".toList,
    .ok [.elem "math".toList [("xmlns".toList, "http://www.w3.org/1998/Math/MathML".toList)] [.elem "mi".toList [] [.text "𝑖".toList]]])]
  (some "i".toList)

-- test_convert_input_expected_pairs
#guard check "<math xmlns=\"http://www.w3.org/1998/Math/MathML\"><mi>𝔀</mi></math>".toList
  [("<math xmlns=\"http://www.w3.org/1998/Math/MathML\"><mi>𝔀</mi></math>".toList,
    .ok [.elem "math".toList [("xmlns".toList, "http://www.w3.org/1998/Math/MathML".toList)] [.elem "mi".toList [] [.text "𝔀".toList]]])]
  (some "w".toList)

-- test_convert_input_expected_pairs
#guard check "<math xmlns=\"http://www.w3.org/1998/Math/MathML\"><mo>»</mo></math>".toList
  [("<math xmlns=\"http://www.w3.org/1998/Math/MathML\"><mo>»</mo></math>".toList,
    .ok [.elem "math".toList [("xmlns".toList, "http://www.w3.org/1998/Math/MathML".toList)] [.elem "mo".toList [] [.text "»".toList]]])]
  (some "\\gg".toList)

-- test_convert_input_expected_pairs
#guard check "<math xmlns=\"http://www.w3.org/1998/Math/MathML\"><mi>ν</mi></math>".toList
  [("<math xmlns=\"http://www.w3.org/1998/Math/MathML\"><mi>ν</mi></math>".toList,
    .ok [.elem "math".toList [("xmlns".toList, "http://www.w3.org/1998/Math/MathML".toList)] [.elem "mi".toList [] [.text "ν".toList]]])]
  (some "\\nu".toList)

-- test_convert_input_expected_pairs
#guard check "<math xmlns=\"http://www.w3.org/1998/Math/MathML\"><mo>ħ</mo></math>".toList
  [("<math xmlns=\"http://www.w3.org/1998/Math/MathML\"><mo>ħ</mo></math>".toList,
    .ok [.elem "math".toList [("xmlns".toList, "http://www.w3.org/1998/Math/MathML".toList)] [.elem "mo".toList [] [.text "ħ".toList]]])]
  (some "\\hbar".toList)

-- test_convert_input_expected_pairs
#guard check "<math xmlns=\"http://www.w3.org/1998/Math/MathML\"><mi>ፈ</mi></math>".toList
  [("<math xmlns=\"http://www.w3.org/1998/Math/MathML\"><mi>ፈ</mi></math>".toList,
    .ok [.elem "math".toList [("xmlns".toList, "http://www.w3.org/1998/Math/MathML".toList)] [.elem "mi".toList [] [.text "ፈ".toList]]])]
  (some "".toList)

-- test_convert_input_expected_pairs
#guard check "<math xmlns=\"http://www.w3.org/1998/Math/MathML\"><mi>𝑑</mi></math>".toList
  [("<math xmlns=\"http://www.w3.org/1998/Math/MathML\"><mi>𝑑</mi></math>".toList,
    .ok [.elem "math".toList [("xmlns".toList, "http://www.w3.org/1998/Math/MathML".toList)] [.elem "mi".toList [] [.text "𝑑".toList]]])]
  (some "d".toList)

-- test_convert_input_expected_pairs
#guard check "<math xmlns=\"http://www.w3.org/1998/Math/MathML\"><mi>𝜋</mi></math>".toList
  [("<math xmlns=\"http://www.w3.org/1998/Math/MathML\"><mi>𝜋</mi></math>".toList,
    .ok [.elem "math".toList [("xmlns".toList, "http://www.w3.org/1998/Math/MathML".toList)] [.elem "mi".toList [] [.text "𝜋".toList]]])]
  (some "\\pi".toList)

-- test_convert_input_expected_pairs
#guard check "<math xmlns=\"http://www.w3.org/1998/Math/MathML\"><mo>⦨</mo></math>".toList
  [("<math xmlns=\"http://www.w3.org/1998/Math/MathML\"><mo>⦨</mo></math>".toList,
    .ok [.elem "math".toList [("xmlns".toList, "http://www.w3.org/1998/Math/MathML".toList)] [.elem "mo".toList [] [.text "⦨".toList]]])]
  (some "\\measuredangle".toList)

-- test_convert_input_expected_pairs
#guard check "<math xmlns=\"http://www.w3.org/1998/Math/MathML\"><mi>п</mi></math>".toList
  [("<math xmlns=\"http://www.w3.org/1998/Math/MathML\"><mi>п</mi></math>".toList,
    .ok [.elem "math".toList [("xmlns".toList, "http://www.w3.org/1998/Math/MathML".toList)] [.elem "mi".toList [] [.text "п".toList]]])]
  (some "\\pi".toList)

-- test_convert_input_expected_pairs
#guard check "<math xmlns=\"http://www.w3.org/1998/Math/MathML\"><mo>⬆</mo></math>".toList
  [("<math xmlns=\"http://www.w3.org/1998/Math/MathML\"><mo>⬆</mo></math>".toList,
    .ok [.elem "math".toList [("xmlns".toList, "http://www.w3.org/1998/Math/MathML".toList)] [.elem "mo".toList [] [.text "⬆".toList]]])]
  (some "\\uparrow".toList)

-- test_convert_input_expected_pairs
#guard check "<math xmlns=\"http://www.w3.org/1998/Math/MathML\"><mo>⬇</mo></math>".toList
  [("<math xmlns=\"http://www.w3.org/1998/Math/MathML\"><mo>⬇</mo></math>".toList,
    .ok [.elem "math".toList [("xmlns".toList, "http://www.w3.org/1998/Math/MathML".toList)] [.elem "mo".toList [] [.text "⬇".toList]]])]
  (some "\\downarrow".toList)

-- test_convert_input_expected_pairs
#guard check "<math xmlns=\"http://www.w3.org/1998/Math/MathML\"><mo>⬅</mo></math>".toList
  [("<math xmlns=\"http://www.w3.org/1998/Math/MathML\"><mo>⬅</mo></math>".toList,
    .ok [.elem "math".toList [("xmlns".toList, "http://www.w3.org/1998/Math/MathML".toList)] [.elem "mo".toList [] [.text "⬅".toList]]])]
  (some "\\leftarrow".toList)

-- test_convert_input_expected_pairs
#guard check "<math xmlns=\"http://www.w3.org/1998/Math/MathML\"><mo>⮕</mo></math>".toList
  [("<math xmlns=\"http://www.w3.org/1998/Math/MathML\"><mo>⮕</mo></math>".toList,
    .ok [.elem "math".toList [("xmlns".toList, "http://www.w3.org/1998/Math/MathML".toList)] [.elem "mo".toList [] [.text "⮕".toList]]])]
  (some "\\rightarrow".toList)

-- test_convert_input_expected_pairs
#guard check "<math xmlns=\"http://www.w3.org/1998/Math/MathML\"><mi>Є</mi></math>".toList
  [("<math xmlns=\"http://www.w3.org/1998/Math/MathML\"><mi>Є</mi></math>".toList,
    .ok [.elem "math".toList [("xmlns".toList, "http://www.w3.org/1998/Math/MathML".toList)] [.elem "mi".toList [] [.text "Є".toList]]])]
  (some "\\epsilon".toList)

-- test_convert_input_expected_pairs
#guard check "<math xmlns=\"http://www.w3.org/1998/Math/MathML\"><mo>⇒</mo></math>".toList
  [("<math xmlns=\"http://www.w3.org/1998/Math/MathML\"><mo>⇒</mo></math>".toList,
    .ok [.elem "math".toList [("xmlns".toList, "http://www.w3.org/1998/Math/MathML".toList)] [.elem "mo".toList [] [.text "⇒".toList]]])]
  (some "\\Rightarrow".toList)

-- test_convert_input_expected_pairs
#guard check "<math xmlns=\"http://www.w3.org/1998/Math/MathML\"><mo>⇔</mo></math>".toList
  [("<math xmlns=\"http://www.w3.org/1998/Math/MathML\"><mo>⇔</mo></math>".toList,
    .ok [.elem "math".toList [("xmlns".toList, "http://www.w3.org/1998/Math/MathML".toList)] [.elem "mo".toList [] [.text "⇔".toList]]])]
  (some "\\Leftrightarrow".toList)

-- test_convert_input_expected_pairs
#guard check "<math xmlns=\"http://www.w3.org/1998/Math/MathML\"><mo>⇐</mo></math>".toList
  [("<math xmlns=\"http://www.w3.org/1998/Math/MathML\"><mo>⇐</mo></math>".toList,
    .ok [.elem "math".toList [("xmlns".toList, "http://www.w3.org/1998/Math/MathML".toList)] [.elem "mo".toList [] [.text "⇐".toList]]])]
  (some "\\Leftarrow".toList)

-- test_convert_input_expected_pairs
#guard check "<math xmlns=\"http://www.w3.org/1998/Math/MathML\"><mo>⇑</mo></math>".toList
  [("<math xmlns=\"http://www.w3.org/1998/Math/MathML\"><mo>⇑</mo></math>".toList,
    .ok [.elem "math".toList [("xmlns".toList, "http://www.w3.org/1998/Math/MathML".toList)] [.elem "mo".toList [] [.text "⇑".toList]]])]
  (some "\\Uparrow".toList)

-- test_convert_input_expected_pairs
#guard check "<math xmlns=\"http://www.w3.org/1998/Math/MathML\"><mo>⇓</mo></math>".toList
  [("<math xmlns=\"http://www.w3.org/1998/Math/MathML\"><mo>⇓</mo></math>".toList,
    .ok [.elem "math".toList [("xmlns".toList, "http://www.w3.org/1998/Math/MathML".toList)] [.elem "mo".toList [] [.text "⇓".toList]]])]
  (some "\\Downarrow".toList)

-- test_convert_input_expected_pairs
#guard check "<math xmlns=\"http://www.w3.org/1998/Math/MathML\"><mo>ˆ</mo></math>".toList
  [("<math xmlns=\"http://www.w3.org/1998/Math/MathML\"><mo>ˆ</mo></math>".toList,
    .ok [.elem "math".toList [("xmlns".toList, "http://www.w3.org/1998/Math/MathML".toList)] [.elem "mo".toList [] [.text "ˆ".toList]]])]
  (some "\\hat".toList)

-- test_convert_input_expected_pairs
#guard check "<math xmlns=\"http://www.w3.org/1998/Math/MathML\"><mo>¸</mo></math>".toList
  [("<math xmlns=\"http://www.w3.org/1998/Math/MathML\"><mo>¸</mo></math>".toList,
    .ok [.elem "math".toList [("xmlns".toList, "http://www.w3.org/1998/Math/MathML".toList)] [.elem "mo".toList [] [.text "¸".toList]]])]
  (some ",".toList)

-- test_convert_input_expected_pairs
#guard check "<math xmlns=\"http://www.w3.org/1998/Math/MathML\"><mi>ế</mi></math>".toList
  [("<math xmlns=\"http://www.w3.org/1998/Math/MathML\"><mi>ế</mi></math>".toList,
    .ok [.elem "math".toList [("xmlns".toList, "http://www.w3.org/1998/Math/MathML".toList)] [.elem "mi".toList [] [.text "ế".toList]]])]
  (some "\\hat{e}".toList)

-- test_convert_input_expected_pairs
#guard check "<math xmlns=\"http://www.w3.org/1998/Math/MathML\"><mo>⦪</mo></math>".toList
  [("<math xmlns=\"http://www.w3.org/1998/Math/MathML\"><mo>⦪</mo></math>".toList,
    .ok [.elem "math".toList [("xmlns".toList, "http://www.w3.org/1998/Math/MathML".toList)] [.elem "mo".toList [] [.text "⦪".toList]]])]
  (some "\\measuredangle".toList)

-- test_convert_input_expected_pairs
#guard check "<math xmlns=\"http://www.w3.org/1998/Math/MathML\"><mi>¢</mi></math>".toList
  [("<math xmlns=\"http://www.w3.org/1998/Math/MathML\"><mi>¢</mi></math>".toList,
    .ok [.elem "math".toList [("xmlns".toList, "http://www.w3.org/1998/Math/MathML".toList)] [.elem "mi".toList [] [.text "¢".toList]]])]
  (some "\\cent".toList)

-- test_convert_input_expected_pairs
#guard check "<math xmlns=\"http://www.w3.org/1998/Math/MathML\"><mo>⎼</mo></math>".toList
  [("<math xmlns=\"http://www.w3.org/1998/Math/MathML\"><mo>⎼</mo></math>".toList,
    .ok [.elem "math".toList [("xmlns".toList, "http://www.w3.org/1998/Math/MathML".toList)] [.elem "mo".toList [] [.text "⎼".toList]]])]
  (some "-".toList)

-- test_convert_input_expected_pairs
#guard check "<math xmlns=\"http://www.w3.org/1998/Math/MathML\"><mi>𝐹</mi></math>".toList
  [("<math xmlns=\"http://www.w3.org/1998/Math/MathML\"><mi>𝐹</mi></math>".toList,
    .ok [.elem "math".toList [("xmlns".toList, "http://www.w3.org/1998/Math/MathML".toList)] [.elem "mi".toList [] [.text "𝐹".toList]]])]
  (some "\\mathit{F}".toList)

-- test_convert_input_expected_pairs
#guard check "<math xmlns=\"http://www.w3.org/1998/Math/MathML\"><mo>↓</mo></math>".toList
  [("<math xmlns=\"http://www.w3.org/1998/Math/MathML\"><mo>↓</mo></math>".toList,
    .ok [.elem "math".toList [("xmlns".toList, "http://www.w3.org/1998/Math/MathML".toList)] [.elem "mo".toList [] [.text "↓".toList]]])]
  (some "\\downarrow".toList)

-- test_convert_input_expected_pairs
#guard check "<math xmlns=\"http://www.w3.org/1998/Math/MathML\"><mi>Ι</mi></math>".toList
  [("<math xmlns=\"http://www.w3.org/1998/Math/MathML\"><mi>Ι</mi></math>".toList,
    .ok [.elem "math".toList [("xmlns".toList, "http://www.w3.org/1998/Math/MathML".toList)] [.elem "mi".toList [] [.text "Ι".toList]]])]
  (some "\\mathit{I}".toList)

-- test_convert_input_expected_pairs
#guard check "<math xmlns=\"http://www.w3.org/1998/Math/MathML\"><mi>δ</mi></math>".toList
  [("<math xmlns=\"http://www.w3.org/1998/Math/MathML\"><mi>δ</mi></math>".toList,
    .ok [.elem "math".toList [("xmlns".toList, "http://www.w3.org/1998/Math/MathML".toList)] [.elem "mi".toList [] [.text "δ".toList]]])]
  (some "\\delta".toList)

-- test_convert_input_expected_pairs
#guard check "<math xmlns=\"http://www.w3.org/1998/Math/MathML\"><mo>⤹</mo></math>".toList
  [("<math xmlns=\"http://www.w3.org/1998/Math/MathML\"><mo>⤹</mo></math>".toList,
    .ok [.elem "math".toList [("xmlns".toList, "http://www.w3.org/1998/Math/MathML".toList)] [.elem "mo".toList [] [.text "⤹".toList]]])]
  (some "\\downarrow".toList)

-- test_convert_input_expected_pairs
#guard check "<math xmlns=\"http://www.w3.org/1998/Math/MathML\"><mo>⤷</mo></math>".toList
  [("<math xmlns=\"http://www.w3.org/1998/Math/MathML\"><mo>⤷</mo></math>".toList,
    .ok [.elem "math".toList [("xmlns".toList, "http://www.w3.org/1998/Math/MathML".toList)] [.elem "mo".toList [] [.text "⤷".toList]]])]
  (some "\\Rsh".toList)

-- test_convert_input_expected_pairs
#guard check "<math xmlns=\"http://www.w3.org/1998/Math/MathML\"><mo>⤶</mo></math>".toList
  [("<math xmlns=\"http://www.w3.org/1998/Math/MathML\"><mo>⤶</mo></math>".toList,
    .ok [.elem "math".toList [("xmlns".toList, "http://www.w3.org/1998/Math/MathML".toList)] [.elem "mo".toList [] [.text "⤶".toList]]])]
  (some "\\Lsh".toList)

-- test_convert_input_expected_pairs
#guard check "<math xmlns=\"http://www.w3.org/1998/Math/MathML\"><mo>⤵</mo></math>".toList
  [("<math xmlns=\"http://www.w3.org/1998/Math/MathML\"><mo>⤵</mo></math>".toList,
    .ok [.elem "math".toList [("xmlns".toList, "http://www.w3.org/1998/Math/MathML".toList)] [.elem "mo".toList [] [.text "⤵".toList]]])]
  (some "\\downarrow".toList)

-- test_convert_input_expected_pairs
#guard check "<math xmlns=\"http://www.w3.org/1998/Math/MathML\"><mo>⤴</mo></math>".toList
  [("<math xmlns=\"http://www.w3.org/1998/Math/MathML\"><mo>⤴</mo></math>".toList,
    .ok [.elem "math".toList [("xmlns".toList, "http://www.w3.org/1998/Math/MathML".toList)] [.elem "mo".toList [] [.text "⤴".toList]]])]
  (some "\\uparrow".toList)

-- test_convert_input_expected_pairs
#guard check "<math xmlns=\"http://www.w3.org/1998/Math/MathML\"><mo>⤳</mo></math>".toList
  [("<math xmlns=\"http://www.w3.org/1998/Math/MathML\"><mo>⤳</mo></math>".toList,
    .ok [.elem "math".toList [("xmlns".toList, "http://www.w3.org/1998/Math/MathML".toList)] [.elem "mo".toList [] [.text "⤳".toList]]])]
  (some "\\rightarrow".toList)

-- test_convert_input_expected_pairs
#guard check "<math xmlns=\"http://www.w3.org/1998/Math/MathML\"><mo>⤸</mo></math>".toList
  [("<math xmlns=\"http://www.w3.org/1998/Math/MathML\"><mo>⤸</mo></math>".toList,
    .ok [.elem "math".toList [("xmlns".toList, "http://www.w3.org/1998/Math/MathML".toList)] [.elem "mo".toList [] [.text "⤸".toList]]])]
  (some "\\downarrow".toList)

-- test_convert_input_expected_pairs
#guard check "<math xmlns=\"http://www.w3.org/1998/Math/MathML\"><mo>⤺</mo></math>".toList
  [("<math xmlns=\"http://www.w3.org/1998/Math/MathML\"><mo>⤺</mo></math>".toList,
    .ok [.elem "math".toList [("xmlns".toList, "http://www.w3.org/1998/Math/MathML".toList)] [.elem "mo".toList [] [.text "⤺".toList]]])]
  (some "\\leftarrow".toList)

-- test_convert_input_expected_pairs
#guard check "<math xmlns=\"http://www.w3.org/1998/Math/MathML\"><mo>⤻</mo></math>".toList
  [("<math xmlns=\"http://www.w3.org/1998/Math/MathML\"><mo>⤻</mo></math>".toList,
    .ok [.elem "math".toList [("xmlns".toList, "http://www.w3.org/1998/Math/MathML".toList)] [.elem "mo".toList [] [.text "⤻".toList]]])]
  (some "\\rightarrow".toList)

-- test_convert_input_expected_pairs
#guard check "<math xmlns=\"http://www.w3.org/1998/Math/MathML\"><mi>ă</mi></math>".toList
  [("<math xmlns=\"http://www.w3.org/1998/Math/MathML\"><mi>ă</mi></math>".toList,
    .ok [.elem "math".toList [("xmlns".toList, "http://www.w3.org/1998/Math/MathML".toList)] [.elem "mi".toList [] [.text "ă".toList]]])]
  (some "\\breve{a}".toList)

-- test_convert_input_expected_pairs
#guard check "<math xmlns=\"http://www.w3.org/1998/Math/MathML\"><mn>⁵</mn></math>".toList
  [("<math xmlns=\"http://www.w3.org/1998/Math/MathML\"><mn>⁵</mn></math>".toList,
    .ok [.elem "math".toList [("xmlns".toList, "http://www.w3.org/1998/Math/MathML".toList)] [.elem "mn".toList [] [.text "⁵".toList]]])]
  (some "^{5}".toList)

-- test_convert_input_expected_pairs
#guard check "<math xmlns=\"http://www.w3.org/1998/Math/MathML\"><mi>Δ</mi></math>".toList
  [("<math xmlns=\"http://www.w3.org/1998/Math/MathML\"><mi>Δ</mi></math>".toList,
    .ok [.elem "math".toList [("xmlns".toList, "http://www.w3.org/1998/Math/MathML".toList)] [.elem "mi".toList [] [.text "Δ".toList]]])]
  (some "\\Delta".toList)

-- test_convert_input_expected_pairs
#guard check "<math xmlns=\"http://www.w3.org/1998/Math/MathML\"><mi>ő</mi></math>".toList
  [("<math xmlns=\"http://www.w3.org/1998/Math/MathML\"><mi>ő</mi></math>".toList,
    .ok [.elem "math".toList [("xmlns".toList, "http://www.w3.org/1998/Math/MathML".toList)] [.elem "mi".toList [] [.text "ő".toList]]])]
  (some "\\ddot{o}".toList)

-- test_convert_input_expected_pairs
#guard check "<math xmlns=\"http://www.w3.org/1998/Math/MathML\"><mi>Î</mi></math>".toList
  [("<math xmlns=\"http://www.w3.org/1998/Math/MathML\"><mi>Î</mi></math>".toList,
    .ok [.elem "math".toList [("xmlns".toList, "http://www.w3.org/1998/Math/MathML".toList)] [.elem "mi".toList [] [.text "Î".toList]]])]
  (some "\\hat{I}".toList)

-- test_convert_input_expected_pairs
#guard check "<math xmlns=\"http://www.w3.org/1998/Math/MathML\"><mi>𝜓</mi></math>".toList
  [("<math xmlns=\"http://www.w3.org/1998/Math/MathML\"><mi>𝜓</mi></math>".toList,
    .ok [.elem "math".toList [("xmlns".toList, "http://www.w3.org/1998/Math/MathML".toList)] [.elem "mi".toList [] [.text "𝜓".toList]]])]
  (some "\\psi".toList)

-- test_convert_input_expected_pairs
#guard check "<math xmlns=\"http://www.w3.org/1998/Math/MathML\"><mi>𝜑</mi></math>".toList
  [("<math xmlns=\"http://www.w3.org/1998/Math/MathML\"><mi>𝜑</mi></math>".toList,
    .ok [.elem "math".toList [("xmlns".toList, "http://www.w3.org/1998/Math/MathML".toList)] [.elem "mi".toList [] [.text "𝜑".toList]]])]
  (some "\\varphi".toList)

-- test_convert_input_expected_pairs
#guard check "<math xmlns=\"http://www.w3.org/1998/Math/MathML\"><mo>√</mo></math>".toList
  [("<math xmlns=\"http://www.w3.org/1998/Math/MathML\"><mo>√</mo></math>".toList,
    .ok [.elem "math".toList [("xmlns".toList, "http://www.w3.org/1998/Math/MathML".toList)] [.elem "mo".toList [] [.text "√".toList]]])]
  (some "\\sqrt{}".toList)

-- test_convert_input_expected_pairs
#guard check "<math xmlns=\"http://www.w3.org/1998/Math/MathML\"><mi>♥</mi></math>".toList
  [("<math xmlns=\"http://www.w3.org/1998/Math/MathML\"><mi>♥</mi></math>".toList,
    .ok [.elem "math".toList [("xmlns".toList, "http://www.w3.org/1998/Math/MathML".toList)] [.elem "mi".toList [] [.text "♥".toList]]])]
  (some "\\heartsuit".toList)

-- test_convert_input_expected_pairs
#guard check "<math xmlns=\"http://www.w3.org/1998/Math/MathML\"><mi>ϴ</mi></math>".toList
  [("<math xmlns=\"http://www.w3.org/1998/Math/MathML\"><mi>ϴ</mi></math>".toList,
    .ok [.elem "math".toList [("xmlns".toList, "http://www.w3.org/1998/Math/MathML".toList)] [.elem "mi".toList [] [.text "ϴ".toList]]])]
  (some "\\theta".toList)

-- test_convert_input_expected_pairs
#guard check "<math xmlns=\"http://www.w3.org/1998/Math/MathML\"><mn>⁰</mn></math>".toList
  [("<math xmlns=\"http://www.w3.org/1998/Math/MathML\"><mn>⁰</mn></math>".toList,
    .ok [.elem "math".toList [("xmlns".toList, "http://www.w3.org/1998/Math/MathML".toList)] [.elem "mn".toList [] [.text "⁰".toList]]])]
  (some "^{0}".toList)

-- test_convert_input_expected_pairs
#guard check "<math xmlns=\"http://www.w3.org/1998/Math/MathML\"><mi>ɸ</mi></math>".toList
  [("<math xmlns=\"http://www.w3.org/1998/Math/MathML\"><mi>ɸ</mi></math>".toList,
    .ok [.elem "math".toList [("xmlns".toList, "http://www.w3.org/1998/Math/MathML".toList)] [.elem "mi".toList [] [.text "ɸ".toList]]])]
  (some "\\phi".toList)

-- test_convert_input_expected_pairs
#guard check "<math xmlns=\"http://www.w3.org/1998/Math/MathML\"><mi>є</mi></math>".toList
  [("<math xmlns=\"http://www.w3.org/1998/Math/MathML\"><mi>є</mi></math>".toList,
    .ok [.elem "math".toList [("xmlns".toList, "http://www.w3.org/1998/Math/MathML".toList)] [.elem "mi".toList [] [.text "є".toList]]])]
  (some "\\epsilon".toList)

-- test_convert_input_expected_pairs
#guard check "<math xmlns=\"http://www.w3.org/1998/Math/MathML\"><mi>ơ</mi></math>".toList
  [("<math xmlns=\"http://www.w3.org/1998/Math/MathML\"><mi>ơ</mi></math>".toList,
    .ok [.elem "math".toList [("xmlns".toList, "http://www.w3.org/1998/Math/MathML".toList)] [.elem "mi".toList [] [.text "ơ".toList]]])]
  (some "o".toList)

-- test_convert_input_expected_pairs
#guard check "<math xmlns=\"http://www.w3.org/1998/Math/MathML\"><mi>О</mi></math>".toList
  [("<math xmlns=\"http://www.w3.org/1998/Math/MathML\"><mi>О</mi></math>".toList,
    .ok [.elem "math".toList [("xmlns".toList, "http://www.w3.org/1998/Math/MathML".toList)] [.elem "mi".toList [] [.text "О".toList]]])]
  (some "0".toList)

-- test_convert_input_expected_pairs
#guard check "<math xmlns=\"http://www.w3.org/1998/Math/MathML\"><mi>ม</mi></math>".toList
  [("<math xmlns=\"http://www.w3.org/1998/Math/MathML\"><mi>ม</mi></math>".toList,
    .ok [.elem "math".toList [("xmlns".toList, "http://www.w3.org/1998/Math/MathML".toList)] [.elem "mi".toList [] [.text "ม".toList]]])]
  (some "\\mathbf{m}".toList)

-- test_convert_input_expected_pairs
#guard check "<math xmlns=\"http://www.w3.org/1998/Math/MathML\"><mi>Ė</mi></math>".toList
  [("<math xmlns=\"http://www.w3.org/1998/Math/MathML\"><mi>Ė</mi></math>".toList,
    .ok [.elem "math".toList [("xmlns".toList, "http://www.w3.org/1998/Math/MathML".toList)] [.elem "mi".toList [] [.text "Ė".toList]]])]
  (some "\\dot{E}".toList)

-- test_convert_input_expected_pairs
#guard check "<math xmlns=\"http://www.w3.org/1998/Math/MathML\"><mi>Υ</mi></math>".toList
  [("<math xmlns=\"http://www.w3.org/1998/Math/MathML\"><mi>Υ</mi></math>".toList,
    .ok [.elem "math".toList [("xmlns".toList, "http://www.w3.org/1998/Math/MathML".toList)] [.elem "mi".toList [] [.text "Υ".toList]]])]
  (some "Y".toList)

-- test_convert_input_expected_pairs
#guard check "<math xmlns=\"http://www.w3.org/1998/Math/MathML\"><mi>ā</mi></math>".toList
  [("<math xmlns=\"http://www.w3.org/1998/Math/MathML\"><mi>ā</mi></math>".toList,
    .ok [.elem "math".toList [("xmlns".toList, "http://www.w3.org/1998/Math/MathML".toList)] [.elem "mi".toList [] [.text "ā".toList]]])]
  (some "\\bar{a}".toList)

-- test_convert_input_expected_pairs
#guard check "<math xmlns=\"http://www.w3.org/1998/Math/MathML\"><mo>・</mo></math>".toList
  [("<math xmlns=\"http://www.w3.org/1998/Math/MathML\"><mo>・</mo></math>".toList,
    .ok [.elem "math".toList [("xmlns".toList, "http://www.w3.org/1998/Math/MathML".toList)] [.elem "mo".toList [] [.text "・".toList]]])]
  (some "\\cdot".toList)

-- test_convert_input_expected_pairs
#guard check "<math xmlns=\"http://www.w3.org/1998/Math/MathML\"><mi>х</mi></math>".toList
  [("<math xmlns=\"http://www.w3.org/1998/Math/MathML\"><mi>х</mi></math>".toList,
    .ok [.elem "math".toList [("xmlns".toList, "http://www.w3.org/1998/Math/MathML".toList)] [.elem "mi".toList [] [.text "х".toList]]])]
  (some "x".toList)

-- test_convert_input_expected_pairs
#guard check "<math xmlns=\"http://www.w3.org/1998/Math/MathML\"><mi>ε</mi></math>".toList
  [("<math xmlns=\"http://www.w3.org/1998/Math/MathML\"><mi>ε</mi></math>".toList,
    .ok [.elem "math".toList [("xmlns".toList, "http://www.w3.org/1998/Math/MathML".toList)] [.elem "mi".toList [] [.text "ε".toList]]])]
  (some "\\epsilon".toList)

-- test_convert_input_expected_pairs
#guard check "<math xmlns=\"http://www.w3.org/1998/Math/MathML\"><mi>𝜀</mi></math>".toList
  [("<math xmlns=\"http://www.w3.org/1998/Math/MathML\"><mi>𝜀</mi></math>".toList,
    .ok [.elem "math".toList [("xmlns".toList, "http://www.w3.org/1998/Math/MathML".toList)] [.elem "mi".toList [] [.text "𝜀".toList]]])]
  (some "\\epsilon".toList)

-- test_convert_input_expected_pairs
#guard check "<math xmlns=\"http://www.w3.org/1998/Math/MathML\"><mi>𝑞</mi></math>".toList
  [("<math xmlns=\"http://www.w3.org/1998/Math/MathML\"><mi>𝑞</mi></math>".toList,
    .ok [.elem "math".toList [("xmlns".toList, "http://www.w3.org/1998/Math/MathML".toList)] [.elem "mi".toList [] [.text "𝑞".toList]]])]
  (some "q".toList)

-- test_convert_input_expected_pairs
#guard check "<math xmlns=\"http://www.w3.org/1998/Math/MathML\"><mo>¦</mo></math>".toList
  [("<math xmlns=\"http://www.w3.org/1998/Math/MathML\"><mo>¦</mo></math>".toList,
    .ok [.elem "math".toList [("xmlns".toList, "http://www.w3.org/1998/Math/MathML".toList)] [.elem "mo".toList [] [.text "¦".toList]]])]
  (some "\\mid".toList)

-- test_convert_input_expected_pairs
#guard check "<math xmlns=\"http://www.w3.org/1998/Math/MathML\"><mi>𝞆</mi></math>".toList
  [("<math xmlns=\"http://www.w3.org/1998/Math/MathML\"><mi>𝞆</mi></math>".toList,
    .ok [.elem "math".toList [("xmlns".toList, "http://www.w3.org/1998/Math/MathML".toList)] [.elem "mi".toList [] [.text "𝞆".toList]]])]
  (some "\\mathbf{X}".toList)

-- test_convert_input_expected_pairs
#guard check "<math xmlns=\"http://www.w3.org/1998/Math/MathML\"><mo>⋋</mo></math>".toList
  [("<math xmlns=\"http://www.w3.org/1998/Math/MathML\"><mo>⋋</mo></math>".toList,
    .ok [.elem "math".toList [("xmlns".toList, "http://www.w3.org/1998/Math/MathML".toList)] [.elem "mo".toList [] [.text "⋋".toList]]])]
  (some "\\bowtie".toList)

-- test_convert_input_expected_pairs
#guard check "<math xmlns=\"http://www.w3.org/1998/Math/MathML\"><mo>⋊</mo></math>".toList
  [("<math xmlns=\"http://www.w3.org/1998/Math/MathML\"><mo>⋊</mo></math>".toList,
    .ok [.elem "math".toList [("xmlns".toList, "http://www.w3.org/1998/Math/MathML".toList)] [.elem "mo".toList [] [.text "⋊".toList]]])]
  (some "\\ltimes".toList)

-- test_convert_input_expected_pairs
#guard check "<math xmlns=\"http://www.w3.org/1998/Math/MathML\"><mo>⋉</mo></math>".toList
  [("<math xmlns=\"http://www.w3.org/1998/Math/MathML\"><mo>⋉</mo></math>".toList,
    .ok [.elem "math".toList [("xmlns".toList, "http://www.w3.org/1998/Math/MathML".toList)] [.elem "mo".toList [] [.text "⋉".toList]]])]
  (some "\\rtimes".toList)

-- test_convert_input_expected_pairs
#guard check "<math xmlns=\"http://www.w3.org/1998/Math/MathML\"><mo>⋈</mo></math>".toList
  [("<math xmlns=\"http://www.w3.org/1998/Math/MathML\"><mo>⋈</mo></math>".toList,
    .ok [.elem "math".toList [("xmlns".toList, "http://www.w3.org/1998/Math/MathML".toList)] [.elem "mo".toList [] [.text "⋈".toList]]])]
  (some "\\Join".toList)

-- test_convert_input_expected_pairs
#guard check "<math xmlns=\"http://www.w3.org/1998/Math/MathML\"><mi>φ</mi></math>".toList
  [("<math xmlns=\"http://www.w3.org/1998/Math/MathML\"><mi>φ</mi></math>".toList,
    .ok [.elem "math".toList [("xmlns".toList, "http://www.w3.org/1998/Math/MathML".toList)] [.elem "mi".toList [] [.text "φ".toList]]])]
  (some "\\varphi".toList)

-- test_convert_input_expected_pairs
#guard check "<math xmlns=\"http://www.w3.org/1998/Math/MathML\"><mo>£</mo></math>".toList
  [("<math xmlns=\"http://www.w3.org/1998/Math/MathML\"><mo>£</mo></math>".toList,
    .ok [.elem "math".toList [("xmlns".toList, "http://www.w3.org/1998/Math/MathML".toList)] [.elem "mo".toList [] [.text "£".toList]]])]
  (some "\\pounds".toList)

-- test_convert_input_expected_pairs
#guard check "<math xmlns=\"http://www.w3.org/1998/Math/MathML\"><mo>⦫</mo></math>".toList
  [("<math xmlns=\"http://www.w3.org/1998/Math/MathML\"><mo>⦫</mo></math>".toList,
    .ok [.elem "math".toList [("xmlns".toList, "http://www.w3.org/1998/Math/MathML".toList)] [.elem "mo".toList [] [.text "⦫".toList]]])]
  (some "\\measuredangle".toList)

-- test_convert_input_expected_pairs
#guard check "<math xmlns=\"http://www.w3.org/1998/Math/MathML\"><mo>⦪</mo></math>".toList
  [("<math xmlns=\"http://www.w3.org/1998/Math/MathML\"><mo>⦪</mo></math>".toList,
    .ok [.elem "math".toList [("xmlns".toList, "http://www.w3.org/1998/Math/MathML".toList)] [.elem "mo".toList [] [.text "⦪".toList]]])]
  (some "\\measuredangle".toList)

-- test_convert_input_expected_pairs
#guard check "<math xmlns=\"http://www.w3.org/1998/Math/MathML\"><mo>⦩</mo></math>".toList
  [("<math xmlns=\"http://www.w3.org/1998/Math/MathML\"><mo>⦩</mo></math>".toList,
    .ok [.elem "math".toList [("xmlns".toList, "http://www.w3.org/1998/Math/MathML".toList)] [.elem "mo".toList [] [.text "⦩".toList]]])]
  (some "\\measuredangle".toList)

-- test_convert_input_expected_pairs
#guard check "<math xmlns=\"http://www.w3.org/1998/Math/MathML\"><mo>↑</mo></math>".toList
  [("<math xmlns=\"http://www.w3.org/1998/Math/MathML\"><mo>↑</mo></math>".toList,
    .ok [.elem "math".toList [("xmlns".toList, "http://www.w3.org/1998/Math/MathML".toList)] [.elem "mo".toList [] [.text "↑".toList]]])]
  (some "\\uparrow".toList)

-- test_convert_input_expected_pairs
#guard check "<math xmlns=\"http://www.w3.org/1998/Math/MathML\"><mo>▱</mo></math>".toList
  [("<math xmlns=\"http://www.w3.org/1998/Math/MathML\"><mo>▱</mo></math>".toList,
    .ok [.elem "math".toList [("xmlns".toList, "http://www.w3.org/1998/Math/MathML".toList)] [.elem "mo".toList [] [.text "▱".toList]]])]
  (some "\\square".toList)

-- test_convert_input_expected_pairs
#guard check "<math xmlns=\"http://www.w3.org/1998/Math/MathML\"><mo>▰</mo></math>".toList
  [("<math xmlns=\"http://www.w3.org/1998/Math/MathML\"><mo>▰</mo></math>".toList,
    .ok [.elem "math".toList [("xmlns".toList, "http://www.w3.org/1998/Math/MathML".toList)] [.elem "mo".toList [] [.text "▰".toList]]])]
  (some "\\blacksquare".toList)

-- test_convert_input_expected_pairs
#guard check "<math xmlns=\"http://www.w3.org/1998/Math/MathML\"><mo>▯</mo></math>".toList
  [("<math xmlns=\"http://www.w3.org/1998/Math/MathML\"><mo>▯</mo></math>".toList,
    .ok [.elem "math".toList [("xmlns".toList, "http://www.w3.org/1998/Math/MathML".toList)] [.elem "mo".toList [] [.text "▯".toList]]])]
  (some "\\square".toList)

-- test_convert_input_expected_pairs
#guard check "<math xmlns=\"http://www.w3.org/1998/Math/MathML\"><mo>▮</mo></math>".toList
  [("<math xmlns=\"http://www.w3.org/1998/Math/MathML\"><mo>▮</mo></math>".toList,
    .ok [.elem "math".toList [("xmlns".toList, "http://www.w3.org/1998/Math/MathML".toList)] [.elem "mo".toList [] [.text "▮".toList]]])]
  (some "\\blacksquare".toList)

-- test_convert_input_expected_pairs
#guard check "<math xmlns=\"http://www.w3.org/1998/Math/MathML\"><mo>▭</mo></math>".toList
  [("<math xmlns=\"http://www.w3.org/1998/Math/MathML\"><mo>▭</mo></math>".toList,
    .ok [.elem "math".toList [("xmlns".toList, "http://www.w3.org/1998/Math/MathML".toList)] [.elem "mo".toList [] [.text "▭".toList]]])]
  (some "\\square".toList)

-- test_convert_input_expected_pairs
#guard check "<math xmlns=\"http://www.w3.org/1998/Math/MathML\"><mi>Ε</mi></math>".toList
  [("<math xmlns=\"http://www.w3.org/1998/Math/MathML\"><mi>Ε</mi></math>".toList,
    .ok [.elem "math".toList [("xmlns".toList, "http://www.w3.org/1998/Math/MathML".toList)] [.elem "mi".toList [] [.text "Ε".toList]]])]
  (some "\\mathbf{E}".toList)

-- test_convert_input_expected_pairs
#guard check "<math xmlns=\"http://www.w3.org/1998/Math/MathML\"><mo>≠</mo></math>".toList
  [("<math xmlns=\"http://www.w3.org/1998/Math/MathML\"><mo>≠</mo></math>".toList,
    .ok [.elem "math".toList [("xmlns".toList, "http://www.w3.org/1998/Math/MathML".toList)] [.elem "mo".toList [] [.text "≠".toList]]])]
  (some "\\neq".toList)

-- test_convert_input_expected_pairs
#guard check "<math xmlns=\"http://www.w3.org/1998/Math/MathML\"><mo>≡</mo></math>".toList
  [("<math xmlns=\"http://www.w3.org/1998/Math/MathML\"><mo>≡</mo></math>".toList,
    .ok [.elem "math".toList [("xmlns".toList, "http://www.w3.org/1998/Math/MathML".toList)] [.elem "mo".toList [] [.text "≡".toList]]])]
  (some "\\equiv".toList)

-- test_convert_input_expected_pairs
#guard check "<math xmlns=\"http://www.w3.org/1998/Math/MathML\"><mo>≤</mo></math>".toList
  [("<math xmlns=\"http://www.w3.org/1998/Math/MathML\"><mo>≤</mo></math>".toList,
    .ok [.elem "math".toList [("xmlns".toList, "http://www.w3.org/1998/Math/MathML".toList)] [.elem "mo".toList [] [.text "≤".toList]]])]
  (some "\\leq".toList)

-- test_convert_input_expected_pairs
#guard check "<math xmlns=\"http://www.w3.org/1998/Math/MathML\"><mo>≥</mo></math>".toList
  [("<math xmlns=\"http://www.w3.org/1998/Math/MathML\"><mo>≥</mo></math>".toList,
    .ok [.elem "math".toList [("xmlns".toList, "http://www.w3.org/1998/Math/MathML".toList)] [.elem "mo".toList [] [.text "≥".toList]]])]
  (some "\\geq".toList)

-- test_convert_input_expected_pairs
#guard check "<math xmlns=\"http://www.w3.org/1998/Math/MathML\"><mo>⊂</mo></math>".toList
  [("<math xmlns=\"http://www.w3.org/1998/Math/MathML\"><mo>⊂</mo></math>".toList,
    .ok [.elem "math".toList [("xmlns".toList, "http://www.w3.org/1998/Math/MathML".toList)] [.elem "mo".toList [] [.text "⊂".toList]]])]
  (some "\\subset".toList)

-- test_convert_input_expected_pairs
#guard check "<math xmlns=\"http://www.w3.org/1998/Math/MathML\"><mo>⊃</mo></math>".toList
  [("<math xmlns=\"http://www.w3.org/1998/Math/MathML\"><mo>⊃</mo></math>".toList,
    .ok [.elem "math".toList [("xmlns".toList, "http://www.w3.org/1998/Math/MathML".toList)] [.elem "mo".toList [] [.text "⊃".toList]]])]
  (some "\\supset".toList)

-- test_convert_input_expected_pairs
#guard check "<math xmlns=\"http://www.w3.org/1998/Math/MathML\"><mo>⊆</mo></math>".toList
  [("<math xmlns=\"http://www.w3.org/1998/Math/MathML\"><mo>⊆</mo></math>".toList,
    .ok [.elem "math".toList [("xmlns".toList, "http://www.w3.org/1998/Math/MathML".toList)] [.elem "mo".toList [] [.text "⊆".toList]]])]
  (some "\\subseteq".toList)

-- test_convert_input_expected_pairs
#guard check "<math xmlns=\"http://www.w3.org/1998/Math/MathML\"><mo>⊇</mo></math>".toList
  [("<math xmlns=\"http://www.w3.org/1998/Math/MathML\"><mo>⊇</mo></math>".toList,
    .ok [.elem "math".toList [("xmlns".toList, "http://www.w3.org/1998/Math/MathML".toList)] [.elem "mo".toList [] [.text "⊇".toList]]])]
  (some "\\supseteq".toList)

-- test_convert_input_expected_pairs
#guard check "<math xmlns=\"http://www.w3.org/1998/Math/MathML\"><mo>⦣</mo></math>".toList
  [("<math xmlns=\"http://www.w3.org/1998/Math/MathML\"><mo>⦣</mo></math>".toList,
    .ok [.elem "math".toList [("xmlns".toList, "http://www.w3.org/1998/Math/MathML".toList)] [.elem "mo".toList [] [.text "⦣".toList]]])]
  (some "\\ulcorner".toList)

-- test_convert_input_expected_pairs
#guard check "<math xmlns=\"http://www.w3.org/1998/Math/MathML\"><mo>⦩</mo></math>".toList
  [("<math xmlns=\"http://www.w3.org/1998/Math/MathML\"><mo>⦩</mo></math>".toList,
    .ok [.elem "math".toList [("xmlns".toList, "http://www.w3.org/1998/Math/MathML".toList)] [.elem "mo".toList [] [.text "⦩".toList]]])]
  (some "\\measuredangle".toList)

-- test_convert_input_expected_pairs
#guard check "<math xmlns=\"http://www.w3.org/1998/Math/MathML\"><mo>⨮</mo></math>".toList
  [("<math xmlns=\"http://www.w3.org/1998/Math/MathML\"><mo>⨮</mo></math>".toList,
    .ok [.elem "math".toList [("xmlns".toList, "http://www.w3.org/1998/Math/MathML".toList)] [.elem "mo".toList [] [.text "⨮".toList]]])]
  (some "\\bigodot".toList)

-- test_convert_input_expected_pairs
#guard check "<math xmlns=\"http://www.w3.org/1998/Math/MathML\"><mo>⟲</mo></math>".toList
  [("<math xmlns=\"http://www.w3.org/1998/Math/MathML\"><mo>⟲</mo></math>".toList,
    .ok [.elem "math".toList [("xmlns".toList, "http://www.w3.org/1998/Math/MathML".toList)] [.elem "mo".toList [] [.text "⟲".toList]]])]
  (some "\\circlearrowleft".toList)

-- test_convert_input_expected_pairs
#guard check "<math xmlns=\"http://www.w3.org/1998/Math/MathML\"><mo>⟳</mo></math>".toList
  [("<math xmlns=\"http://www.w3.org/1998/Math/MathML\"><mo>⟳</mo></math>".toList,
    .ok [.elem "math".toList [("xmlns".toList, "http://www.w3.org/1998/Math/MathML".toList)] [.elem "mo".toList [] [.text "⟳".toList]]])]
  (some "\\circlearrowright".toList)

-- test_convert_input_expected_pairs
#guard check "<math xmlns=\"http://www.w3.org/1998/Math/MathML\"><mo>⟵</mo></math>".toList
  [("<math xmlns=\"http://www.w3.org/1998/Math/MathML\"><mo>⟵</mo></math>".toList,
    .ok [.elem "math".toList [("xmlns".toList, "http://www.w3.org/1998/Math/MathML".toList)] [.elem "mo".toList [] [.text "⟵".toList]]])]
  (some "\\leftarrow".toList)

-- test_convert_input_expected_pairs
#guard check "<math xmlns=\"http://www.w3.org/1998/Math/MathML\"><mo>⟶</mo></math>".toList
  [("<math xmlns=\"http://www.w3.org/1998/Math/MathML\"><mo>⟶</mo></math>".toList,
    .ok [.elem "math".toList [("xmlns".toList, "http://www.w3.org/1998/Math/MathML".toList)] [.elem "mo".toList [] [.text "⟶".toList]]])]
  (some "\\rightarrow".toList)

-- test_convert_input_expected_pairs
#guard check "<math xmlns=\"http://www.w3.org/1998/Math/MathML\"><mi>℟</mi></math>".toList
  [("<math xmlns=\"http://www.w3.org/1998/Math/MathML\"><mi>℟</mi></math>".toList,
    .ok [.elem "math".toList [("xmlns".toList, "http://www.w3.org/1998/Math/MathML".toList)] [.elem "mi".toList [] [.text "℟".toList]]])]
  (some "\\mathcal{R}".toList)

-- test_convert_input_expected_pairs
#guard check "<math xmlns=\"http://www.w3.org/1998/Math/MathML\"><mi>α</mi></math>".toList
  [("<math xmlns=\"http://www.w3.org/1998/Math/MathML\"><mi>α</mi></math>".toList,
    .ok [.elem "math".toList [("xmlns".toList, "http://www.w3.org/1998/Math/MathML".toList)] [.elem "mi".toList [] [.text "α".toList]]])]
  (some "\\alpha".toList)

-- test_convert_input_expected_pairs
#guard check "<math xmlns=\"http://www.w3.org/1998/Math/MathML\"><mi>त</mi></math>".toList
  [("<math xmlns=\"http://www.w3.org/1998/Math/MathML\"><mi>त</mi></math>".toList,
    .ok [.elem "math".toList [("xmlns".toList, "http://www.w3.org/1998/Math/MathML".toList)] [.elem "mi".toList [] [.text "त".toList]]])]
  (some "".toList)

-- test_convert_input_expected_pairs
#guard check "<math xmlns=\"http://www.w3.org/1998/Math/MathML\"><mo>↗</mo></math>".toList
  [("<math xmlns=\"http://www.w3.org/1998/Math/MathML\"><mo>↗</mo></math>".toList,
    .ok [.elem "math".toList [("xmlns".toList, "http://www.w3.org/1998/Math/MathML".toList)] [.elem "mo".toList [] [.text "↗".toList]]])]
  (some "\\nearrow".toList)

-- test_convert_input_expected_pairs
#guard check "<math xmlns=\"http://www.w3.org/1998/Math/MathML\"><mi>ṁ</mi></math>".toList
  [("<math xmlns=\"http://www.w3.org/1998/Math/MathML\"><mi>ṁ</mi></math>".toList,
    .ok [.elem "math".toList [("xmlns".toList, "http://www.w3.org/1998/Math/MathML".toList)] [.elem "mi".toList [] [.text "ṁ".toList]]])]
  (some "m".toList)

-- test_convert_input_expected_pairs
#guard check "<math xmlns=\"http://www.w3.org/1998/Math/MathML\"><mi>𝚵</mi></math>".toList
  [("<math xmlns=\"http://www.w3.org/1998/Math/MathML\"><mi>𝚵</mi></math>".toList,
    .ok [.elem "math".toList [("xmlns".toList, "http://www.w3.org/1998/Math/MathML".toList)] [.elem "mi".toList [] [.text "𝚵".toList]]])]
  (some "\\Xi".toList)

-- test_convert_input_expected_pairs
#guard check "<math xmlns=\"http://www.w3.org/1998/Math/MathML\"><mi>𝐽</mi></math>".toList
  [("<math xmlns=\"http://www.w3.org/1998/Math/MathML\"><mi>𝐽</mi></math>".toList,
    .ok [.elem "math".toList [("xmlns".toList, "http://www.w3.org/1998/Math/MathML".toList)] [.elem "mi".toList [] [.text "𝐽".toList]]])]
  (some "\\mathit{J}".toList)

-- test_convert_input_expected_pairs
#guard check "<math xmlns=\"http://www.w3.org/1998/Math/MathML\"><mo>◻</mo></math>".toList
  [("<math xmlns=\"http://www.w3.org/1998/Math/MathML\"><mo>◻</mo></math>".toList,
    .ok [.elem "math".toList [("xmlns".toList, "http://www.w3.org/1998/Math/MathML".toList)] [.elem "mo".toList [] [.text "◻".toList]]])]
  (some "\\Box".toList)

-- test_convert_input_expected_pairs
#guard check "<math xmlns=\"http://www.w3.org/1998/Math/MathML\"><mi>𝑋</mi></math>".toList
  [("<math xmlns=\"http://www.w3.org/1998/Math/MathML\"><mi>𝑋</mi></math>".toList,
    .ok [.elem "math".toList [("xmlns".toList, "http://www.w3.org/1998/Math/MathML".toList)] [.elem "mi".toList [] [.text "𝑋".toList]]])]
  (some "\\mathit{X}".toList)

-- test_convert_input_expected_pairs
#guard check "<math xmlns=\"http://www.w3.org/1998/Math/MathML\"><mi>𝑌</mi></math>".toList
  [("<math xmlns=\"http://www.w3.org/1998/Math/MathML\"><mi>𝑌</mi></math>".toList,
    .ok [.elem "math".toList [("xmlns".toList, "http://www.w3.org/1998/Math/MathML".toList)] [.elem "mi".toList [] [.text "𝑌".toList]]])]
  (some "\\mathit{Y}".toList)

-- test_convert_input_expected_pairs
#guard check "<math xmlns=\"http://www.w3.org/1998/Math/MathML\"><mi>Ф</mi></math>".toList
  [("<math xmlns=\"http://www.w3.org/1998/Math/MathML\"><mi>Ф</mi></math>".toList,
    .ok [.elem "math".toList [("xmlns".toList, "http://www.w3.org/1998/Math/MathML".toList)] [.elem "mi".toList [] [.text "Ф".toList]]])]
  (some "\\Phi".toList)

-- test_convert_input_expected_pairs
#guard check "<math xmlns=\"http://www.w3.org/1998/Math/MathML\"><mi>⍬</mi></math>".toList
  [("<math xmlns=\"http://www.w3.org/1998/Math/MathML\"><mi>⍬</mi></math>".toList,
    .ok [.elem "math".toList [("xmlns".toList, "http://www.w3.org/1998/Math/MathML".toList)] [.elem "mi".toList [] [.text "⍬".toList]]])]
  (some "\\theta".toList)

-- test_convert_input_expected_pairs
#guard check "<math xmlns=\"http://www.w3.org/1998/Math/MathML\"><mi>τ</mi></math>".toList
  [("<math xmlns=\"http://www.w3.org/1998/Math/MathML\"><mi>τ</mi></math>".toList,
    .ok [.elem "math".toList [("xmlns".toList, "http://www.w3.org/1998/Math/MathML".toList)] [.elem "mi".toList [] [.text "τ".toList]]])]
  (some "\\tau".toList)

-- test_convert_input_expected_pairs
#guard check "<math xmlns=\"http://www.w3.org/1998/Math/MathML\"><mi>Β</mi></math>".toList
  [("<math xmlns=\"http://www.w3.org/1998/Math/MathML\"><mi>Β</mi></math>".toList,
    .ok [.elem "math".toList [("xmlns".toList, "http://www.w3.org/1998/Math/MathML".toList)] [.elem "mi".toList [] [.text "Β".toList]]])]
  (some "\\mathsf{B}".toList)

-- test_convert_input_expected_pairs
#guard check "<math xmlns=\"http://www.w3.org/1998/Math/MathML\"><mo>⧸</mo></math>".toList
  [("<math xmlns=\"http://www.w3.org/1998/Math/MathML\"><mo>⧸</mo></math>".toList,
    .ok [.elem "math".toList [("xmlns".toList, "http://www.w3.org/1998/Math/MathML".toList)] [.elem "mo".toList [] [.text "⧸".toList]]])]
  (some "/".toList)

-- test_convert_input_expected_pairs
#guard check "<math xmlns=\"http://www.w3.org/1998/Math/MathML\"><mo>⧹</mo></math>".toList
  [("<math xmlns=\"http://www.w3.org/1998/Math/MathML\"><mo>⧹</mo></math>".toList,
    .ok [.elem "math".toList [("xmlns".toList, "http://www.w3.org/1998/Math/MathML".toList)] [.elem "mo".toList [] [.text "⧹".toList]]])]
  (some "\\backslash".toList)

-- test_convert_input_expected_pairs
#guard check "<math xmlns=\"http://www.w3.org/1998/Math/MathML\"><mo>⊤</mo></math>".toList
  [("<math xmlns=\"http://www.w3.org/1998/Math/MathML\"><mo>⊤</mo></math>".toList,
    .ok [.elem "math".toList [("xmlns".toList, "http://www.w3.org/1998/Math/MathML".toList)] [.elem "mo".toList [] [.text "⊤".toList]]])]
  (some "\\top".toList)

-- test_convert_input_expected_pairs
#guard check "<math xmlns=\"http://www.w3.org/1998/Math/MathML\"><mi>Ō</mi></math>".toList
  [("<math xmlns=\"http://www.w3.org/1998/Math/MathML\"><mi>Ō</mi></math>".toList,
    .ok [.elem "math".toList [("xmlns".toList, "http://www.w3.org/1998/Math/MathML".toList)] [.elem "mi".toList [] [.text "Ō".toList]]])]
  (some "\\bar{O}".toList)

-- test_convert_input_expected_pairs
#guard check "<math xmlns=\"http://www.w3.org/1998/Math/MathML\"><mo>¥</mo></math>".toList
  [("<math xmlns=\"http://www.w3.org/1998/Math/MathML\"><mo>¥</mo></math>".toList,
    .ok [.elem "math".toList [("xmlns".toList, "http://www.w3.org/1998/Math/MathML".toList)] [.elem "mo".toList [] [.text "¥".toList]]])]
  (some "\\yen".toList)

-- test_convert_input_expected_pairs
#guard check "<math xmlns=\"http://www.w3.org/1998/Math/MathML\"><mo>⁽</mo></math>".toList
  [("<math xmlns=\"http://www.w3.org/1998/Math/MathML\"><mo>⁽</mo></math>".toList,
    .ok [.elem "math".toList [("xmlns".toList, "http://www.w3.org/1998/Math/MathML".toList)] [.elem "mo".toList [] [.text "⁽".toList]]])]
  (some "^{(}".toList)

-- test_convert_input_expected_pairs
#guard check "<math xmlns=\"http://www.w3.org/1998/Math/MathML\"><mo>⁾</mo></math>".toList
  [("<math xmlns=\"http://www.w3.org/1998/Math/MathML\"><mo>⁾</mo></math>".toList,
    .ok [.elem "math".toList [("xmlns".toList, "http://www.w3.org/1998/Math/MathML".toList)] [.elem "mo".toList [] [.text "⁾".toList]]])]
  (some "^{)}".toList)

-- test_convert_input_expected_pairs
#guard check "<math xmlns=\"http://www.w3.org/1998/Math/MathML\"><mo>⦇</mo></math>".toList
  [("<math xmlns=\"http://www.w3.org/1998/Math/MathML\"><mo>⦇</mo></math>".toList,
    .ok [.elem "math".toList [("xmlns".toList, "http://www.w3.org/1998/Math/MathML".toList)] [.elem "mo".toList [] [.text "⦇".toList]]])]
  (some "\\(|".toList)

-- test_convert_input_expected_pairs
#guard check "<math xmlns=\"http://www.w3.org/1998/Math/MathML\"><mo>⦈</mo></math>".toList
  [("<math xmlns=\"http://www.w3.org/1998/Math/MathML\"><mo>⦈</mo></math>".toList,
    .ok [.elem "math".toList [("xmlns".toList, "http://www.w3.org/1998/Math/MathML".toList)] [.elem "mo".toList [] [.text "⦈".toList]]])]
  (some "|\\)".toList)

-- test_convert_input_expected_pairs
#guard check "<math xmlns=\"http://www.w3.org/1998/Math/MathML\"><mo>∅</mo></math>".toList
  [("<math xmlns=\"http://www.w3.org/1998/Math/MathML\"><mo>∅</mo></math>".toList,
    .ok [.elem "math".toList [("xmlns".toList, "http://www.w3.org/1998/Math/MathML".toList)] [.elem "mo".toList [] [.text "∅".toList]]])]
  (some "\\emptyset".toList)

-- test_convert_input_expected_pairs
#guard check "<math xmlns=\"http://www.w3.org/1998/Math/MathML\"><mi>①</mi></math>".toList
  [("<math xmlns=\"http://www.w3.org/1998/Math/MathML\"><mi>①</mi></math>".toList,
    .ok [.elem "math".toList [("xmlns".toList, "http://www.w3.org/1998/Math/MathML".toList)] [.elem "mi".toList [] [.text "①".toList]]])]
  (some "\\textcircled{1}".toList)

-- test_convert_input_expected_pairs
#guard check "<math xmlns=\"http://www.w3.org/1998/Math/MathML\"><mi>②</mi></math>".toList
  [("<math xmlns=\"http://www.w3.org/1998/Math/MathML\"><mi>②</mi></math>".toList,
    .ok [.elem "math".toList [("xmlns".toList, "http://www.w3.org/1998/Math/MathML".toList)] [.elem "mi".toList [] [.text "②".toList]]])]
  (some "\\textcircled{2}".toList)

-- test_convert_input_expected_pairs
#guard check "<math xmlns=\"http://www.w3.org/1998/Math/MathML\"><mi>③</mi></math>".toList
  [("<math xmlns=\"http://www.w3.org/1998/Math/MathML\"><mi>③</mi></math>".toList,
    .ok [.elem "math".toList [("xmlns".toList, "http://www.w3.org/1998/Math/MathML".toList)] [.elem "mi".toList [] [.text "③".toList]]])]
  (some "\\textcircled{3}".toList)

-- test_convert_input_expected_pairs
#guard check "<math xmlns=\"http://www.w3.org/1998/Math/MathML\"><mi>④</mi></math>".toList
  [("<math xmlns=\"http://www.w3.org/1998/Math/MathML\"><mi>④</mi></math>".toList,
    .ok [.elem "math".toList [("xmlns".toList, "http://www.w3.org/1998/Math/MathML".toList)] [.elem "mi".toList [] [.text "④".toList]]])]
  (some "\\textcircled{4}".toList)

-- test_convert_input_expected_pairs
#guard check "<math xmlns=\"http://www.w3.org/1998/Math/MathML\"><mi>⑤</mi></math>".toList
  [("<math xmlns=\"http://www.w3.org/1998/Math/MathML\"><mi>⑤</mi></math>".toList,
    .ok [.elem "math".toList [("xmlns".toList, "http://www.w3.org/1998/Math/MathML".toList)] [.elem "mi".toList [] [.text "⑤".toList]]])]
  (some "\\textcircled{5}".toList)

-- test_convert_input_expected_pairs
#guard check "<math xmlns=\"http://www.w3.org/1998/Math/MathML\"><mi>⑥</mi></math>".toList
  [("<math xmlns=\"http://www.w3.org/1998/Math/MathML\"><mi>⑥</mi></math>".toList,
    .ok [.elem "math".toList [("xmlns".toList, "http://www.w3.org/1998/Math/MathML".toList)] [.elem "mi".toList [] [.text "⑥".toList]]])]
  (some "\\textcircled{6}".toList)

-- test_convert_input_expected_pairs
#guard check "<math xmlns=\"http://www.w3.org/1998/Math/MathML\"><mi>⑦</mi></math>".toList
  [("<math xmlns=\"http://www.w3.org/1998/Math/MathML\"><mi>⑦</mi></math>".toList,
    .ok [.elem "math".toList [("xmlns".toList, "http://www.w3.org/1998/Math/MathML".toList)] [.elem "mi".toList [] [.text "⑦".toList]]])]
  (some "\\textcircled{7}".toList)

-- test_convert_input_expected_pairs
#guard check "<math xmlns=\"http://www.w3.org/1998/Math/MathML\"><mi>⑧</mi></math>".toList
  [("<math xmlns=\"http://www.w3.org/1998/Math/MathML\"><mi>⑧</mi></math>".toList,
    .ok [.elem "math".toList [("xmlns".toList, "http://www.w3.org/1998/Math/MathML".toList)] [.elem "mi".toList [] [.text "⑧".toList]]])]
  (some "\\textcircled{8}".toList)

-- test_convert_input_expected_pairs
#guard check "<math xmlns=\"http://www.w3.org/1998/Math/MathML\"><mi>⑨</mi></math>".toList
  [("<math xmlns=\"http://www.w3.org/1998/Math/MathML\"><mi>⑨</mi></math>".toList,
    .ok [.elem "math".toList [("xmlns".toList, "http://www.w3.org/1998/Math/MathML".toList)] [.elem "mi".toList [] [.text "⑨".toList]]])]
  (some "\\textcircled{9}".toList)

-- test_convert_input_expected_pairs
#guard check "<math xmlns=\"http://www.w3.org/1998/Math/MathML\"><mi>⑩</mi></math>".toList
  [("<math xmlns=\"http://www.w3.org/1998/Math/MathML\"><mi>⑩</mi></math>".toList,
    .ok [.elem "math".toList [("xmlns".toList, "http://www.w3.org/1998/Math/MathML".toList)] [.elem "mi".toList [] [.text "⑩".toList]]])]
  (some "\\textcircled{10}".toList)

-- test_convert_input_expected_pairs
#guard check "<math xmlns=\"http://www.w3.org/1998/Math/MathML\"><mi>⑪</mi></math>".toList
  [("<math xmlns=\"http://www.w3.org/1998/Math/MathML\"><mi>⑪</mi></math>".toList,
    .ok [.elem "math".toList [("xmlns".toList, "http://www.w3.org/1998/Math/MathML".toList)] [.elem "mi".toList [] [.text "⑪".toList]]])]
  (some "\\textcircled{11}".toList)

-- test_convert_input_expected_pairs
#guard check "<math xmlns=\"http://www.w3.org/1998/Math/MathML\"><mi>⑫</mi></math>".toList
  [("<math xmlns=\"http://www.w3.org/1998/Math/MathML\"><mi>⑫</mi></math>".toList,
    .ok [.elem "math".toList [("xmlns".toList, "http://www.w3.org/1998/Math/MathML".toList)] [.elem "mi".toList [] [.text "⑫".toList]]])]
  (some "\\textcircled{12}".toList)

-- test_convert_input_expected_pairs
#guard check "<math xmlns=\"http://www.w3.org/1998/Math/MathML\"><mi>⑬</mi></math>".toList
  [("<math xmlns=\"http://www.w3.org/1998/Math/MathML\"><mi>⑬</mi></math>".toList,
    .ok [.elem "math".toList [("xmlns".toList, "http://www.w3.org/1998/Math/MathML".toList)] [.elem "mi".toList [] [.text "⑬".toList]]])]
  (some "\\textcircled{13}".toList)

-- test_convert_input_expected_pairs
#guard check "<math xmlns=\"http://www.w3.org/1998/Math/MathML\"><mi>⑭</mi></math>".toList
  [("<math xmlns=\"http://www.w3.org/1998/Math/MathML\"><mi>⑭</mi></math>".toList,
    .ok [.elem "math".toList [("xmlns".toList, "http://www.w3.org/1998/Math/MathML".toList)] [.elem "mi".toList [] [.text "⑭".toList]]])]
  (some "\\textcircled{14}".toList)

-- test_convert_input_expected_pairs
#guard check "<math xmlns=\"http://www.w3.org/1998/Math/MathML\"><mi>⑮</mi></math>".toList
  [("<math xmlns=\"http://www.w3.org/1998/Math/MathML\"><mi>⑮</mi></math>".toList,
    .ok [.elem "math".toList [("xmlns".toList, "http://www.w3.org/1998/Math/MathML".toList)] [.elem "mi".toList [] [.text "⑮".toList]]])]
  (some "\\textcircled{15}".toList)

-- test_convert_input_expected_pairs
#guard check "<math xmlns=\"http://www.w3.org/1998/Math/MathML\"><mi>⑯</mi></math>".toList
  [("<math xmlns=\"http://www.w3.org/1998/Math/MathML\"><mi>⑯</mi></math>".toList,
    .ok [.elem "math".toList [("xmlns".toList, "http://www.w3.org/1998/Math/MathML".toList)] [.elem "mi".toList [] [.text "⑯".toList]]])]
  (some "\\textcircled{16}".toList)

-- test_convert_input_expected_pairs
#guard check "<math xmlns=\"http://www.w3.org/1998/Math/MathML\"><mi>⑰</mi></math>".toList
  [("<math xmlns=\"http://www.w3.org/1998/Math/MathML\"><mi>⑰</mi></math>".toList,
    .ok [.elem "math".toList [("xmlns".toList, "http://www.w3.org/1998/Math/MathML".toList)] [.elem "mi".toList [] [.text "⑰".toList]]])]
  (some "\\textcircled{17}".toList)

-- test_convert_input_expected_pairs
#guard check "<math xmlns=\"http://www.w3.org/1998/Math/MathML\"><mi>⑱</mi></math>".toList
  [("<math xmlns=\"http://www.w3.org/1998/Math/MathML\"><mi>⑱</mi></math>".toList,
    .ok [.elem "math".toList [("xmlns".toList, "http://www.w3.org/1998/Math/MathML".toList)] [.elem "mi".toList [] [.text "⑱".toList]]])]
  (some "\\textcircled{18}".toList)

-- test_convert_input_expected_pairs
#guard check "<math xmlns=\"http://www.w3.org/1998/Math/MathML\"><mi>⑲</mi></math>".toList
  [("<math xmlns=\"http://www.w3.org/1998/Math/MathML\"><mi>⑲</mi></math>".toList,
    .ok [.elem "math".toList [("xmlns".toList, "http://www.w3.org/1998/Math/MathML".toList)] [.elem "mi".toList [] [.text "⑲".toList]]])]
  (some "\\textcircled{19}".toList)

-- test_convert_input_expected_pairs
#guard check "<math xmlns=\"http://www.w3.org/1998/Math/MathML\"><mi>⑳</mi></math>".toList
  [("<math xmlns=\"http://www.w3.org/1998/Math/MathML\"><mi>⑳</mi></math>".toList,
    .ok [.elem "math".toList [("xmlns".toList, "http://www.w3.org/1998/Math/MathML".toList)] [.elem "mi".toList [] [.text "⑳".toList]]])]
  (some "\\textcircled{20}".toList)

-- test_convert_input_expected_pairs
#guard check "<math xmlns=\"http://www.w3.org/1998/Math/MathML\"><mi>⓪</mi></math>".toList
  [("<math xmlns=\"http://www.w3.org/1998/Math/MathML\"><mi>⓪</mi></math>".toList,
    .ok [.elem "math".toList [("xmlns".toList, "http://www.w3.org/1998/Math/MathML".toList)] [.elem "mi".toList [] [.text "⓪".toList]]])]
  (some "\\textcircled{0}".toList)

-- test_convert_input_expected_pairs
#guard check "<math xmlns=\"http://www.w3.org/1998/Math/MathML\"><mi>𝑁</mi></math>".toList
  [("<math xmlns=\"http://www.w3.org/1998/Math/MathML\"><mi>𝑁</mi></math>".toList,
    .ok [.elem "math".toList [("xmlns".toList, "http://www.w3.org/1998/Math/MathML".toList)] [.elem "mi".toList [] [.text "𝑁".toList]]])]
  (some "\\mathit{N}".toList)

-- test_convert_input_expected_pairs
#guard check "<math xmlns=\"http://www.w3.org/1998/Math/MathML\"><mi>Ú</mi></math>".toList
  [("<math xmlns=\"http://www.w3.org/1998/Math/MathML\"><mi>Ú</mi></math>".toList,
    .ok [.elem "math".toList [("xmlns".toList, "http://www.w3.org/1998/Math/MathML".toList)] [.elem "mi".toList [] [.text "Ú".toList]]])]
  (some "\\acute{U}".toList)

-- test_convert_input_expected_pairs
#guard check "<math xmlns=\"http://www.w3.org/1998/Math/MathML\"><mi>𝚟</mi></math>".toList
  [("<math xmlns=\"http://www.w3.org/1998/Math/MathML\"><mi>𝚟</mi></math>".toList,
    .ok [.elem "math".toList [("xmlns".toList, "http://www.w3.org/1998/Math/MathML".toList)] [.elem "mi".toList [] [.text "𝚟".toList]]])]
  (some "v".toList)

-- test_convert_input_expected_pairs
#guard check "<math xmlns=\"http://www.w3.org/1998/Math/MathML\"><mi>𝛟</mi></math>".toList
  [("<math xmlns=\"http://www.w3.org/1998/Math/MathML\"><mi>𝛟</mi></math>".toList,
    .ok [.elem "math".toList [("xmlns".toList, "http://www.w3.org/1998/Math/MathML".toList)] [.elem "mi".toList [] [.text "𝛟".toList]]])]
  (some "\\varphi".toList)

-- test_convert_input_expected_pairs
#guard check "<math xmlns=\"http://www.w3.org/1998/Math/MathML\"><mi>ß</mi></math>".toList
  [("<math xmlns=\"http://www.w3.org/1998/Math/MathML\"><mi>ß</mi></math>".toList,
    .ok [.elem "math".toList [("xmlns".toList, "http://www.w3.org/1998/Math/MathML".toList)] [.elem "mi".toList [] [.text "ß".toList]]])]
  (some "\\ss".toList)

-- test_convert_input_expected_pairs
#guard check "<math xmlns=\"http://www.w3.org/1998/Math/MathML\"><mo>十</mo></math>".toList
  [("<math xmlns=\"http://www.w3.org/1998/Math/MathML\"><mo>十</mo></math>".toList,
    .ok [.elem "math".toList [("xmlns".toList, "http://www.w3.org/1998/Math/MathML".toList)] [.elem "mo".toList [] [.text "十".toList]]])]
  (some "+".toList)

-- test_convert_input_expected_pairs
#guard check "<math xmlns=\"http://www.w3.org/1998/Math/MathML\"><mo>土</mo></math>".toList
  [("<math xmlns=\"http://www.w3.org/1998/Math/MathML\"><mo>土</mo></math>".toList,
    .ok [.elem "math".toList [("xmlns".toList, "http://www.w3.org/1998/Math/MathML".toList)] [.elem "mo".toList [] [.text "土".toList]]])]
  (some "\\pm".toList)

-- test_convert_input_expected_pairs
#guard check "<math xmlns=\"http://www.w3.org/1998/Math/MathML\"><mi>ʋ</mi></math>".toList
  [("<math xmlns=\"http://www.w3.org/1998/Math/MathML\"><mi>ʋ</mi></math>".toList,
    .ok [.elem "math".toList [("xmlns".toList, "http://www.w3.org/1998/Math/MathML".toList)] [.elem "mi".toList [] [.text "ʋ".toList]]])]
  (some "\\upsilon".toList)

-- test_convert_input_expected_pairs
#guard check "<math xmlns=\"http://www.w3.org/1998/Math/MathML\"><mi>ɭ</mi></math>".toList
  [("<math xmlns=\"http://www.w3.org/1998/Math/MathML\"><mi>ɭ</mi></math>".toList,
    .ok [.elem "math".toList [("xmlns".toList, "http://www.w3.org/1998/Math/MathML".toList)] [.elem "mi".toList [] [.text "ɭ".toList]]])]
  (some "\\ell".toList)

-- test_convert_input_expected_pairs
#guard check "<math xmlns=\"http://www.w3.org/1998/Math/MathML\"><mi>λ</mi></math>".toList
  [("<math xmlns=\"http://www.w3.org/1998/Math/MathML\"><mi>λ</mi></math>".toList,
    .ok [.elem "math".toList [("xmlns".toList, "http://www.w3.org/1998/Math/MathML".toList)] [.elem "mi".toList [] [.text "λ".toList]]])]
  (some "\\lambda".toList)

-- test_convert_input_expected_pairs
#guard check "<math xmlns=\"http://www.w3.org/1998/Math/MathML\"><mi>Ӷ</mi></math>".toList
  [("<math xmlns=\"http://www.w3.org/1998/Math/MathML\"><mi>Ӷ</mi></math>".toList,
    .ok [.elem "math".toList [("xmlns".toList, "http://www.w3.org/1998/Math/MathML".toList)] [.elem "mi".toList [] [.text "Ӷ".toList]]])]
  (some "\\Gamma".toList)

-- test_convert_input_expected_pairs
#guard check "<math xmlns=\"http://www.w3.org/1998/Math/MathML\"><mo>⎥</mo></math>".toList
  [("<math xmlns=\"http://www.w3.org/1998/Math/MathML\"><mo>⎥</mo></math>".toList,
    .ok [.elem "math".toList [("xmlns".toList, "http://www.w3.org/1998/Math/MathML".toList)] [.elem "mo".toList [] [.text "⎥".toList]]])]
  (some "\\mid".toList)

-- test_convert_input_expected_pairs
#guard check "<math xmlns=\"http://www.w3.org/1998/Math/MathML\"><mi>ρ</mi></math>".toList
  [("<math xmlns=\"http://www.w3.org/1998/Math/MathML\"><mi>ρ</mi></math>".toList,
    .ok [.elem "math".toList [("xmlns".toList, "http://www.w3.org/1998/Math/MathML".toList)] [.elem "mi".toList [] [.text "ρ".toList]]])]
  (some "\\rho".toList)

-- test_convert_input_expected_pairs
#guard check "<math xmlns=\"http://www.w3.org/1998/Math/MathML\"><mi>ℙ</mi></math>".toList
  [("<math xmlns=\"http://www.w3.org/1998/Math/MathML\"><mi>ℙ</mi></math>".toList,
    .ok [.elem "math".toList [("xmlns".toList, "http://www.w3.org/1998/Math/MathML".toList)] [.elem "mi".toList [] [.text "ℙ".toList]]])]
  (some "\\mathbb{P}".toList)

-- test_convert_input_expected_pairs
#guard check "<math xmlns=\"http://www.w3.org/1998/Math/MathML\"><mo>։</mo></math>".toList
  [("<math xmlns=\"http://www.w3.org/1998/Math/MathML\"><mo>։</mo></math>".toList,
    .ok [.elem "math".toList [("xmlns".toList, "http://www.w3.org/1998/Math/MathML".toList)] [.elem "mo".toList [] [.text "։".toList]]])]
  (some ":".toList)

-- test_convert_input_expected_pairs
#guard check "<math xmlns=\"http://www.w3.org/1998/Math/MathML\"><mi>Ћ</mi></math>".toList
  [("<math xmlns=\"http://www.w3.org/1998/Math/MathML\"><mi>Ћ</mi></math>".toList,
    .ok [.elem "math".toList [("xmlns".toList, "http://www.w3.org/1998/Math/MathML".toList)] [.elem "mi".toList [] [.text "Ћ".toList]]])]
  (some "\\hbar".toList)

-- test_convert_input_expected_pairs
#guard check "<math xmlns=\"http://www.w3.org/1998/Math/MathML\"><mi>ϕ</mi></math>".toList
  [("<math xmlns=\"http://www.w3.org/1998/Math/MathML\"><mi>ϕ</mi></math>".toList,
    .ok [.elem "math".toList [("xmlns".toList, "http://www.w3.org/1998/Math/MathML".toList)] [.elem "mi".toList [] [.text "ϕ".toList]]])]
  (some "\\phi".toList)

-- test_convert_input_expected_pairs
#guard check "<math xmlns=\"http://www.w3.org/1998/Math/MathML\"><mi>а</mi></math>".toList
  [("<math xmlns=\"http://www.w3.org/1998/Math/MathML\"><mi>а</mi></math>".toList,
    .ok [.elem "math".toList [("xmlns".toList, "http://www.w3.org/1998/Math/MathML".toList)] [.elem "mi".toList [] [.text "а".toList]]])]
  (some "a".toList)

-- test_convert_input_expected_pairs
#guard check "<math xmlns=\"http://www.w3.org/1998/Math/MathML\"><mi>р</mi></math>".toList
  [("<math xmlns=\"http://www.w3.org/1998/Math/MathML\"><mi>р</mi></math>".toList,
    .ok [.elem "math".toList [("xmlns".toList, "http://www.w3.org/1998/Math/MathML".toList)] [.elem "mi".toList [] [.text "р".toList]]])]
  (some "p".toList)

-- test_convert_input_expected_pairs
#guard check "<math xmlns=\"http://www.w3.org/1998/Math/MathML\"><mi>𝓍</mi></math>".toList
  [("<math xmlns=\"http://www.w3.org/1998/Math/MathML\"><mi>𝓍</mi></math>".toList,
    .ok [.elem "math".toList [("xmlns".toList, "http://www.w3.org/1998/Math/MathML".toList)] [.elem "mi".toList [] [.text "𝓍".toList]]])]
  (some "x".toList)

-- test_convert_input_expected_pairs
#guard check "<math xmlns=\"http://www.w3.org/1998/Math/MathML\"><mi>𝓎</mi></math>".toList
  [("<math xmlns=\"http://www.w3.org/1998/Math/MathML\"><mi>𝓎</mi></math>".toList,
    .ok [.elem "math".toList [("xmlns".toList, "http://www.w3.org/1998/Math/MathML".toList)] [.elem "mi".toList [] [.text "𝓎".toList]]])]
  (some "y".toList)

-- test_convert_input_expected_pairs
#guard check "<math xmlns=\"http://www.w3.org/1998/Math/MathML\"><mi>𝓏</mi></math>".toList
  [("<math xmlns=\"http://www.w3.org/1998/Math/MathML\"><mi>𝓏</mi></math>".toList,
    .ok [.elem "math".toList [("xmlns".toList, "http://www.w3.org/1998/Math/MathML".toList)] [.elem "mi".toList [] [.text "𝓏".toList]]])]
  (some "z".toList)

-- test_convert_input_expected_pairs
#guard check "<math xmlns=\"http://www.w3.org/1998/Math/MathML\"><mi>𝓐</mi></math>".toList
  [("<math xmlns=\"http://www.w3.org/1998/Math/MathML\"><mi>𝓐</mi></math>".toList,
    .ok [.elem "math".toList [("xmlns".toList, "http://www.w3.org/1998/Math/MathML".toList)] [.elem "mi".toList [] [.text "𝓐".toList]]])]
  (some "\\mathcal{A}".toList)

-- test_convert_input_expected_pairs
#guard check "<math xmlns=\"http://www.w3.org/1998/Math/MathML\"><mo>⦵</mo></math>".toList
  [("<math xmlns=\"http://www.w3.org/1998/Math/MathML\"><mo>⦵</mo></math>".toList,
    .ok [.elem "math".toList [("xmlns".toList, "http://www.w3.org/1998/Math/MathML".toList)] [.elem "mo".toList [] [.text "⦵".toList]]])]
  (some "\\ominus".toList)

-- test_convert_input_expected_pairs
#guard check "<math xmlns=\"http://www.w3.org/1998/Math/MathML\"><mo>⦬</mo></math>".toList
  [("<math xmlns=\"http://www.w3.org/1998/Math/MathML\"><mo>⦬</mo></math>".toList,
    .ok [.elem "math".toList [("xmlns".toList, "http://www.w3.org/1998/Math/MathML".toList)] [.elem "mo".toList [] [.text "⦬".toList]]])]
  (some "\\measuredangle".toList)

-- test_convert_input_expected_pairs
#guard check "<math xmlns=\"http://www.w3.org/1998/Math/MathML\"><mo>⦮</mo></math>".toList
  [("<math xmlns=\"http://www.w3.org/1998/Math/MathML\"><mo>⦮</mo></math>".toList,
    .ok [.elem "math".toList [("xmlns".toList, "http://www.w3.org/1998/Math/MathML".toList)] [.elem "mo".toList [] [.text "⦮".toList]]])]
  (some "\\measuredangle".toList)

-- test_convert_input_expected_pairs
#guard check "<math xmlns=\"http://www.w3.org/1998/Math/MathML\"><mi>ö</mi></math>".toList
  [("<math xmlns=\"http://www.w3.org/1998/Math/MathML\"><mi>ö</mi></math>".toList,
    .ok [.elem "math".toList [("xmlns".toList, "http://www.w3.org/1998/Math/MathML".toList)] [.elem "mi".toList [] [.text "ö".toList]]])]
  (some "\\ddot{o}".toList)

-- test_convert_input_expected_pairs
#guard check "<math xmlns=\"http://www.w3.org/1998/Math/MathML\"><mo>⊿</mo></math>".toList
  [("<math xmlns=\"http://www.w3.org/1998/Math/MathML\"><mo>⊿</mo></math>".toList,
    .ok [.elem "math".toList [("xmlns".toList, "http://www.w3.org/1998/Math/MathML".toList)] [.elem "mo".toList [] [.text "⊿".toList]]])]
  (some "\\triangle".toList)

-- test_convert_input_expected_pairs
#guard check "<math xmlns=\"http://www.w3.org/1998/Math/MathML\"><mo>†</mo></math>".toList
  [("<math xmlns=\"http://www.w3.org/1998/Math/MathML\"><mo>†</mo></math>".toList,
    .ok [.elem "math".toList [("xmlns".toList, "http://www.w3.org/1998/Math/MathML".toList)] [.elem "mo".toList [] [.text "†".toList]]])]
  (some "\\dagger".toList)

-- test_convert_input_expected_pairs
#guard check "<math xmlns=\"http://www.w3.org/1998/Math/MathML\"><mi>𝐻</mi></math>".toList
  [("<math xmlns=\"http://www.w3.org/1998/Math/MathML\"><mi>𝐻</mi></math>".toList,
    .ok [.elem "math".toList [("xmlns".toList, "http://www.w3.org/1998/Math/MathML".toList)] [.elem "mi".toList [] [.text "𝐻".toList]]])]
  (some "\\mathit{H}".toList)

-- test_convert_input_expected_pairs
#guard check "<math xmlns=\"http://www.w3.org/1998/Math/MathML\"><mi>𝑤</mi></math>".toList
  [("<math xmlns=\"http://www.w3.org/1998/Math/MathML\"><mi>𝑤</mi></math>".toList,
    .ok [.elem "math".toList [("xmlns".toList, "http://www.w3.org/1998/Math/MathML".toList)] [.elem "mi".toList [] [.text "𝑤".toList]]])]
  (some "w".toList)

-- test_convert_input_expected_pairs
#guard check "<math xmlns=\"http://www.w3.org/1998/Math/MathML\"><mi>𝑂</mi></math>".toList
  [("<math xmlns=\"http://www.w3.org/1998/Math/MathML\"><mi>𝑂</mi></math>".toList,
    .ok [.elem "math".toList [("xmlns".toList, "http://www.w3.org/1998/Math/MathML".toList)] [.elem "mi".toList [] [.text "𝑂".toList]]])]
  (some "\\mathit{O}".toList)

-- test_convert_input_expected_pairs
#guard check "<math xmlns=\"http://www.w3.org/1998/Math/MathML\"><mi>𝑈</mi></math>".toList
  [("<math xmlns=\"http://www.w3.org/1998/Math/MathML\"><mi>𝑈</mi></math>".toList,
    .ok [.elem "math".toList [("xmlns".toList, "http://www.w3.org/1998/Math/MathML".toList)] [.elem "mi".toList [] [.text "𝑈".toList]]])]
  (some "\\mathit{U}".toList)

-- test_convert_input_expected_pairs
#guard check "<math xmlns=\"http://www.w3.org/1998/Math/MathML\"><mo>เ</mo></math>".toList
  [("<math xmlns=\"http://www.w3.org/1998/Math/MathML\"><mo>เ</mo></math>".toList,
    .ok [.elem "math".toList [("xmlns".toList, "http://www.w3.org/1998/Math/MathML".toList)] [.elem "mo".toList [] [.text "เ".toList]]])]
  (some "\\prime".toList)

-- test_convert_input_expected_pairs
#guard check "<math xmlns=\"http://www.w3.org/1998/Math/MathML\"><mi>ü</mi></math>".toList
  [("<math xmlns=\"http://www.w3.org/1998/Math/MathML\"><mi>ü</mi></math>".toList,
    .ok [.elem "math".toList [("xmlns".toList, "http://www.w3.org/1998/Math/MathML".toList)] [.elem "mi".toList [] [.text "ü".toList]]])]
  (some "\\ddot{u}".toList)

-- test_convert_input_expected_pairs
#guard check "<math xmlns=\"http://www.w3.org/1998/Math/MathML\"><mi>𝜆</mi></math>".toList
  [("<math xmlns=\"http://www.w3.org/1998/Math/MathML\"><mi>𝜆</mi></math>".toList,
    .ok [.elem "math".toList [("xmlns".toList, "http://www.w3.org/1998/Math/MathML".toList)] [.elem "mi".toList [] [.text "𝜆".toList]]])]
  (some "\\lambda".toList)

-- test_convert_input_expected_pairs
#guard check "<math xmlns=\"http://www.w3.org/1998/Math/MathML\"><mo>«</mo></math>".toList
  [("<math xmlns=\"http://www.w3.org/1998/Math/MathML\"><mo>«</mo></math>".toList,
    .ok [.elem "math".toList [("xmlns".toList, "http://www.w3.org/1998/Math/MathML".toList)] [.elem "mo".toList [] [.text "«".toList]]])]
  (some "\\ll".toList)

-- test_convert_input_expected_pairs
#guard check "<math xmlns=\"http://www.w3.org/1998/Math/MathML\"><mo>»</mo></math>".toList
  [("<math xmlns=\"http://www.w3.org/1998/Math/MathML\"><mo>»</mo></math>".toList,
    .ok [.elem "math".toList [("xmlns".toList, "http://www.w3.org/1998/Math/MathML".toList)] [.elem "mo".toList [] [.text "»".toList]]])]
  (some "\\gg".toList)

-- test_convert_input_expected_pairs
#guard check "<math xmlns=\"http://www.w3.org/1998/Math/MathML\"><mi>γ</mi></math>".toList
  [("<math xmlns=\"http://www.w3.org/1998/Math/MathML\"><mi>γ</mi></math>".toList,
    .ok [.elem "math".toList [("xmlns".toList, "http://www.w3.org/1998/Math/MathML".toList)] [.elem "mi".toList [] [.text "γ".toList]]])]
  (some "\\gamma".toList)

-- test_convert_input_expected_pairs
#guard check "<math xmlns=\"http://www.w3.org/1998/Math/MathML\"><mi>Α</mi></math>".toList
  [("<math xmlns=\"http://www.w3.org/1998/Math/MathML\"><mi>Α</mi></math>".toList,
    .ok [.elem "math".toList [("xmlns".toList, "http://www.w3.org/1998/Math/MathML".toList)] [.elem "mi".toList [] [.text "Α".toList]]])]
  (some "\\mathsf{A}".toList)

-- test_convert_input_expected_pairs
#guard check "<math xmlns=\"http://www.w3.org/1998/Math/MathML\"><mo>ⁿ</mo></math>".toList
  [("<math xmlns=\"http://www.w3.org/1998/Math/MathML\"><mo>ⁿ</mo></math>".toList,
    .ok [.elem "math".toList [("xmlns".toList, "http://www.w3.org/1998/Math/MathML".toList)] [.elem "mo".toList [] [.text "ⁿ".toList]]])]
  (some "^{n}".toList)

-- test_convert_input_expected_pairs
#guard check "<math xmlns=\"http://www.w3.org/1998/Math/MathML\"><mo>∘</mo></math>".toList
  [("<math xmlns=\"http://www.w3.org/1998/Math/MathML\"><mo>∘</mo></math>".toList,
    .ok [.elem "math".toList [("xmlns".toList, "http://www.w3.org/1998/Math/MathML".toList)] [.elem "mo".toList [] [.text "∘".toList]]])]
  (some "\\circ".toList)

-- test_convert_input_expected_pairs
#guard check "<math xmlns=\"http://www.w3.org/1998/Math/MathML\"><mi>⍴</mi></math>".toList
  [("<math xmlns=\"http://www.w3.org/1998/Math/MathML\"><mi>⍴</mi></math>".toList,
    .ok [.elem "math".toList [("xmlns".toList, "http://www.w3.org/1998/Math/MathML".toList)] [.elem "mi".toList [] [.text "⍴".toList]]])]
  (some "\\rho".toList)

-- test_convert_input_expected_pairs
#guard check "<math xmlns=\"http://www.w3.org/1998/Math/MathML\"><mo>⦁</mo></math>".toList
  [("<math xmlns=\"http://www.w3.org/1998/Math/MathML\"><mo>⦁</mo></math>".toList,
    .ok [.elem "math".toList [("xmlns".toList, "http://www.w3.org/1998/Math/MathML".toList)] [.elem "mo".toList [] [.text "⦁".toList]]])]
  (some "\\cdot".toList)

-- test_convert_input_expected_pairs
#guard check "<math xmlns=\"http://www.w3.org/1998/Math/MathML\"><mo>✔</mo></math>".toList
  [("<math xmlns=\"http://www.w3.org/1998/Math/MathML\"><mo>✔</mo></math>".toList,
    .ok [.elem "math".toList [("xmlns".toList, "http://www.w3.org/1998/Math/MathML".toList)] [.elem "mo".toList [] [.text "✔".toList]]])]
  (some "\\checkmark".toList)

-- test_convert_input_expected_pairs
#guard check "<math xmlns=\"http://www.w3.org/1998/Math/MathML\"><mo>✗</mo></math>".toList
  [("<math xmlns=\"http://www.w3.org/1998/Math/MathML\"><mo>✗</mo></math>".toList,
    .ok [.elem "math".toList [("xmlns".toList, "http://www.w3.org/1998/Math/MathML".toList)] [.elem "mo".toList [] [.text "✗".toList]]])]
  (some "\\times".toList)

-- test_convert_input_expected_pairs
#guard check "<math xmlns=\"http://www.w3.org/1998/Math/MathML\"><mo>‖</mo></math>".toList
  [("<math xmlns=\"http://www.w3.org/1998/Math/MathML\"><mo>‖</mo></math>".toList,
    .ok [.elem "math".toList [("xmlns".toList, "http://www.w3.org/1998/Math/MathML".toList)] [.elem "mo".toList [] [.text "‖".toList]]])]
  (some "\\parallel".toList)

-- test_convert_input_expected_pairs
#guard check "<math xmlns=\"http://www.w3.org/1998/Math/MathML\"><mi>‖</mi></math>".toList
  [("<math xmlns=\"http://www.w3.org/1998/Math/MathML\"><mi>‖</mi></math>".toList,
    .ok [.elem "math".toList [("xmlns".toList, "http://www.w3.org/1998/Math/MathML".toList)] [.elem "mi".toList [] [.text "‖".toList]]])]
  (some "\\parallel".toList)

-- test_convert_input_expected_pairs
#guard check "<math xmlns=\"http://www.w3.org/1998/Math/MathML\"><mo>│</mo></math>".toList
  [("<math xmlns=\"http://www.w3.org/1998/Math/MathML\"><mo>│</mo></math>".toList,
    .ok [.elem "math".toList [("xmlns".toList, "http://www.w3.org/1998/Math/MathML".toList)] [.elem "mo".toList [] [.text "│".toList]]])]
  (some "\\mid".toList)

-- test_convert_input_expected_pairs
#guard check "<math xmlns=\"http://www.w3.org/1998/Math/MathML\"><mi>│</mi></math>".toList
  [("<math xmlns=\"http://www.w3.org/1998/Math/MathML\"><mi>│</mi></math>".toList,
    .ok [.elem "math".toList [("xmlns".toList, "http://www.w3.org/1998/Math/MathML".toList)] [.elem "mi".toList [] [.text "│".toList]]])]
  (some "\\mid".toList)

-- test_convert_input_expected_pairs
#guard check "<math xmlns=\"http://www.w3.org/1998/Math/MathML\"><mo>%</mo></math>".toList
  [("<math xmlns=\"http://www.w3.org/1998/Math/MathML\"><mo>%</mo></math>".toList,
    .ok [.elem "math".toList [("xmlns".toList, "http://www.w3.org/1998/Math/MathML".toList)] [.elem "mo".toList [] [.text "%".toList]]])]
  (some "\\%".toList)

-- test_convert_input_expected_pairs
#guard check "<math xmlns=\"http://www.w3.org/1998/Math/MathML\"><mi>%</mi></math>".toList
  [("<math xmlns=\"http://www.w3.org/1998/Math/MathML\"><mi>%</mi></math>".toList,
    .ok [.elem "math".toList [("xmlns".toList, "http://www.w3.org/1998/Math/MathML".toList)] [.elem "mi".toList [] [.text "%".toList]]])]
  (some "\\%".toList)

-- test_convert_input_expected_pairs
#guard check "<math xmlns=\"http://www.w3.org/1998/Math/MathML\"><mo>“</mo></math>".toList
  [("<math xmlns=\"http://www.w3.org/1998/Math/MathML\"><mo>“</mo></math>".toList,
    .ok [.elem "math".toList [("xmlns".toList, "http://www.w3.org/1998/Math/MathML".toList)] [.elem "mo".toList [] [.text "“".toList]]])]
  (some "\\text{``}".toList)

-- test_convert_input_expected_pairs
#guard check "<math xmlns=\"http://www.w3.org/1998/Math/MathML\"><mi>“</mi></math>".toList
  [("<math xmlns=\"http://www.w3.org/1998/Math/MathML\"><mi>“</mi></math>".toList,
    .ok [.elem "math".toList [("xmlns".toList, "http://www.w3.org/1998/Math/MathML".toList)] [.elem "mi".toList [] [.text "“".toList]]])]
  (some "\\text{``}".toList)

-- test_convert_input_expected_pairs
#guard check "<math xmlns=\"http://www.w3.org/1998/Math/MathML\"><mo>”</mo></math>".toList
  [("<math xmlns=\"http://www.w3.org/1998/Math/MathML\"><mo>”</mo></math>".toList,
    .ok [.elem "math".toList [("xmlns".toList, "http://www.w3.org/1998/Math/MathML".toList)] [.elem "mo".toList [] [.text "”".toList]]])]
  (some "\\\"".toList)

-- test_convert_input_expected_pairs
#guard check "<math xmlns=\"http://www.w3.org/1998/Math/MathML\"><mi>ñ</mi></math>".toList
  [("<math xmlns=\"http://www.w3.org/1998/Math/MathML\"><mi>ñ</mi></math>".toList,
    .ok [.elem "math".toList [("xmlns".toList, "http://www.w3.org/1998/Math/MathML".toList)] [.elem "mi".toList [] [.text "ñ".toList]]])]
  (some "\\tilde{n}".toList)

-- test_convert_input_expected_pairs
#guard check "<math xmlns=\"http://www.w3.org/1998/Math/MathML\"><mo>〈</mo></math>".toList
  [("<math xmlns=\"http://www.w3.org/1998/Math/MathML\"><mo>〈</mo></math>".toList,
    .ok [.elem "math".toList [("xmlns".toList, "http://www.w3.org/1998/Math/MathML".toList)] [.elem "mo".toList [] [.text "〈".toList]]])]
  (some "\\langle".toList)

-- test_convert_input_expected_pairs
#guard check "<math xmlns=\"http://www.w3.org/1998/Math/MathML\"><mi>〈</mi></math>".toList
  [("<math xmlns=\"http://www.w3.org/1998/Math/MathML\"><mi>〈</mi></math>".toList,
    .ok [.elem "math".toList [("xmlns".toList, "http://www.w3.org/1998/Math/MathML".toList)] [.elem "mi".toList [] [.text "〈".toList]]])]
  (some "\\langle".toList)

-- test_convert_input_expected_pairs
#guard check "<math xmlns=\"http://www.w3.org/1998/Math/MathML\"><mo>〉</mo></math>".toList
  [("<math xmlns=\"http://www.w3.org/1998/Math/MathML\"><mo>〉</mo></math>".toList,
    .ok [.elem "math".toList [("xmlns".toList, "http://www.w3.org/1998/Math/MathML".toList)] [.elem "mo".toList [] [.text "〉".toList]]])]
  (some "\\rangle".toList)

-- test_convert_input_expected_pairs
#guard check "<math xmlns=\"http://www.w3.org/1998/Math/MathML\"><mi>〉</mi></math>".toList
  [("<math xmlns=\"http://www.w3.org/1998/Math/MathML\"><mi>〉</mi></math>".toList,
    .ok [.elem "math".toList [("xmlns".toList, "http://www.w3.org/1998/Math/MathML".toList)] [.elem "mi".toList [] [.text "〉".toList]]])]
  (some "\\rangle".toList)

-- test_convert_input_expected_pairs
#guard check "<math xmlns=\"http://www.w3.org/1998/Math/MathML\"><mo>$</mo></math>".toList
  [("<math xmlns=\"http://www.w3.org/1998/Math/MathML\"><mo>$</mo></math>".toList,
    .ok [.elem "math".toList [("xmlns".toList, "http://www.w3.org/1998/Math/MathML".toList)] [.elem "mo".toList [] [.text "$".toList]]])]
  (some "\\$".toList)

-- test_convert_input_expected_pairs
#guard check "<math xmlns=\"http://www.w3.org/1998/Math/MathML\"><mi>$</mi></math>".toList
  [("<math xmlns=\"http://www.w3.org/1998/Math/MathML\"><mi>$</mi></math>".toList,
    .ok [.elem "math".toList [("xmlns".toList, "http://www.w3.org/1998/Math/MathML".toList)] [.elem "mi".toList [] [.text "$".toList]]])]
  (some "\\$".toList)

-- test_convert_input_expected_pairs
#guard check "<math xmlns=\"http://www.w3.org/1998/Math/MathML\"><mo>#</mo></math>".toList
  [("<math xmlns=\"http://www.w3.org/1998/Math/MathML\"><mo>#</mo></math>".toList,
    .ok [.elem "math".toList [("xmlns".toList, "http://www.w3.org/1998/Math/MathML".toList)] [.elem "mo".toList [] [.text "#".toList]]])]
  (some "\\#".toList)

-- test_convert_input_expected_pairs
#guard check "<math xmlns=\"http://www.w3.org/1998/Math/MathML\"><mi>#</mi></math>".toList
  [("<math xmlns=\"http://www.w3.org/1998/Math/MathML\"><mi>#</mi></math>".toList,
    .ok [.elem "math".toList [("xmlns".toList, "http://www.w3.org/1998/Math/MathML".toList)] [.elem "mi".toList [] [.text "#".toList]]])]
  (some "\\#".toList)

-- test_convert_input_expected_pairs
#guard check "<math xmlns=\"http://www.w3.org/1998/Math/MathML\"><mo>℃</mo></math>".toList
  [("<math xmlns=\"http://www.w3.org/1998/Math/MathML\"><mo>℃</mo></math>".toList,
    .ok [.elem "math".toList [("xmlns".toList, "http://www.w3.org/1998/Math/MathML".toList)] [.elem "mo".toList [] [.text "℃".toList]]])]
  (some "\\text{\\textdegree C}".toList)

-- test_convert_input_expected_pairs
#guard check "<math xmlns=\"http://www.w3.org/1998/Math/MathML\"><mo>℉</mo></math>".toList
  [("<math xmlns=\"http://www.w3.org/1998/Math/MathML\"><mo>℉</mo></math>".toList,
    .ok [.elem "math".toList [("xmlns".toList, "http://www.w3.org/1998/Math/MathML".toList)] [.elem "mo".toList [] [.text "℉".toList]]])]
  (some "\\text{\\textdegree F}".toList)

-- test_convert_input_expected_pairs
#guard check "<math xmlns=\"http://www.w3.org/1998/Math/MathML\"><mi>℃</mi></math>".toList
  [("<math xmlns=\"http://www.w3.org/1998/Math/MathML\"><mi>℃</mi></math>".toList,
    .ok [.elem "math".toList [("xmlns".toList, "http://www.w3.org/1998/Math/MathML".toList)] [.elem "mi".toList [] [.text "℃".toList]]])]
  (some "\\text{\\textdegree C}".toList)

-- test_convert_input_expected_pairs
#guard check "<math xmlns=\"http://www.w3.org/1998/Math/MathML\"><mi>℉</mi></math>".toList
  [("<math xmlns=\"http://www.w3.org/1998/Math/MathML\"><mi>℉</mi></math>".toList,
    .ok [.elem "math".toList [("xmlns".toList, "http://www.w3.org/1998/Math/MathML".toList)] [.elem "mi".toList [] [.text "℉".toList]]])]
  (some "\\text{\\textdegree F}".toList)

-- test_convert_input_expected_pairs
#guard check "<math xmlns=\"http://www.w3.org/1998/Math/MathML\"><mo>⟨</mo></math>".toList
  [("<math xmlns=\"http://www.w3.org/1998/Math/MathML\"><mo>⟨</mo></math>".toList,
    .ok [.elem "math".toList [("xmlns".toList, "http://www.w3.org/1998/Math/MathML".toList)] [.elem "mo".toList [] [.text "⟨".toList]]])]
  (some "\\langle".toList)

-- test_convert_input_expected_pairs
#guard check "<math xmlns=\"http://www.w3.org/1998/Math/MathML\"><mo>⟩</mo></math>".toList
  [("<math xmlns=\"http://www.w3.org/1998/Math/MathML\"><mo>⟩</mo></math>".toList,
    .ok [.elem "math".toList [("xmlns".toList, "http://www.w3.org/1998/Math/MathML".toList)] [.elem "mo".toList [] [.text "⟩".toList]]])]
  (some "\\rangle".toList)

-- test_convert_input_expected_pairs
#guard check "<math xmlns=\"http://www.w3.org/1998/Math/MathML\"><mi>ṽ</mi></math>".toList
  [("<math xmlns=\"http://www.w3.org/1998/Math/MathML\"><mi>ṽ</mi></math>".toList,
    .ok [.elem "math".toList [("xmlns".toList, "http://www.w3.org/1998/Math/MathML".toList)] [.elem "mi".toList [] [.text "ṽ".toList]]])]
  (some "\\tilde{v}".toList)

-- test_convert_input_expected_pairs
#guard check "<math xmlns=\"http://www.w3.org/1998/Math/MathML\"><mo>⌊</mo></math>".toList
  [("<math xmlns=\"http://www.w3.org/1998/Math/MathML\"><mo>⌊</mo></math>".toList,
    .ok [.elem "math".toList [("xmlns".toList, "http://www.w3.org/1998/Math/MathML".toList)] [.elem "mo".toList [] [.text "⌊".toList]]])]
  (some "\\lfloor".toList)

-- test_convert_input_expected_pairs
#guard check "<math xmlns=\"http://www.w3.org/1998/Math/MathML\"><mi>π</mi></math>".toList
  [("<math xmlns=\"http://www.w3.org/1998/Math/MathML\"><mi>π</mi></math>".toList,
    .ok [.elem "math".toList [("xmlns".toList, "http://www.w3.org/1998/Math/MathML".toList)] [.elem "mi".toList [] [.text "π".toList]]])]
  (some "\\pi".toList)

-- test_convert_input_expected_pairs
#guard check "<math xmlns=\"http://www.w3.org/1998/Math/MathML\"><mn>³</mn></math>".toList
  [("<math xmlns=\"http://www.w3.org/1998/Math/MathML\"><mn>³</mn></math>".toList,
    .ok [.elem "math".toList [("xmlns".toList, "http://www.w3.org/1998/Math/MathML".toList)] [.elem "mn".toList [] [.text "³".toList]]])]
  (some "^{3}".toList)

-- test_convert_input_expected_pairs
#guard check "<math xmlns=\"http://www.w3.org/1998/Math/MathML\"><mo>⁰</mo></math>".toList
  [("<math xmlns=\"http://www.w3.org/1998/Math/MathML\"><mo>⁰</mo></math>".toList,
    .ok [.elem "math".toList [("xmlns".toList, "http://www.w3.org/1998/Math/MathML".toList)] [.elem "mo".toList [] [.text "⁰".toList]]])]
  (some "^{0}".toList)

-- test_convert_input_expected_pairs
#guard check "<math xmlns=\"http://www.w3.org/1998/Math/MathML\"><mn>⁴</mn></math>".toList
  [("<math xmlns=\"http://www.w3.org/1998/Math/MathML\"><mn>⁴</mn></math>".toList,
    .ok [.elem "math".toList [("xmlns".toList, "http://www.w3.org/1998/Math/MathML".toList)] [.elem "mn".toList [] [.text "⁴".toList]]])]
  (some "^{4}".toList)

-- test_convert_input_expected_pairs
#guard check "<math xmlns=\"http://www.w3.org/1998/Math/MathML\"><mn>⁶</mn></math>".toList
  [("<math xmlns=\"http://www.w3.org/1998/Math/MathML\"><mn>⁶</mn></math>".toList,
    .ok [.elem "math".toList [("xmlns".toList, "http://www.w3.org/1998/Math/MathML".toList)] [.elem "mn".toList [] [.text "⁶".toList]]])]
  (some "^{6}".toList)

-- test_convert_input_expected_pairs
#guard check "<math xmlns=\"http://www.w3.org/1998/Math/MathML\"><mo>〗</mo></math>".toList
  [("<math xmlns=\"http://www.w3.org/1998/Math/MathML\"><mo>〗</mo></math>".toList,
    .ok [.elem "math".toList [("xmlns".toList, "http://www.w3.org/1998/Math/MathML".toList)] [.elem "mo".toList [] [.text "〗".toList]]])]
  (some "\\)|".toList)

-- test_convert_input_expected_pairs
#guard check "<math xmlns=\"http://www.w3.org/1998/Math/MathML\"><mo>⌋</mo></math>".toList
  [("<math xmlns=\"http://www.w3.org/1998/Math/MathML\"><mo>⌋</mo></math>".toList,
    .ok [.elem "math".toList [("xmlns".toList, "http://www.w3.org/1998/Math/MathML".toList)] [.elem "mo".toList [] [.text "⌋".toList]]])]
  (some "\\rfloor".toList)

-- test_convert_input_expected_pairs
#guard check "<math xmlns=\"http://www.w3.org/1998/Math/MathML\"><mo>█</mo></math>".toList
  [("<math xmlns=\"http://www.w3.org/1998/Math/MathML\"><mo>█</mo></math>".toList,
    .ok [.elem "math".toList [("xmlns".toList, "http://www.w3.org/1998/Math/MathML".toList)] [.elem "mo".toList [] [.text "█".toList]]])]
  (some "\\blacksquare".toList)

-- test_convert_input_expected_pairs
#guard check "<math xmlns=\"http://www.w3.org/1998/Math/MathML\"><mi>ĵ</mi></math>".toList
  [("<math xmlns=\"http://www.w3.org/1998/Math/MathML\"><mi>ĵ</mi></math>".toList,
    .ok [.elem "math".toList [("xmlns".toList, "http://www.w3.org/1998/Math/MathML".toList)] [.elem "mi".toList [] [.text "ĵ".toList]]])]
  (some "\\hat{j}".toList)

-- test_convert_input_expected_pairs
#guard check "<math xmlns=\"http://www.w3.org/1998/Math/MathML\"><mo>¾</mo></math>".toList
  [("<math xmlns=\"http://www.w3.org/1998/Math/MathML\"><mo>¾</mo></math>".toList,
    .ok [.elem "math".toList [("xmlns".toList, "http://www.w3.org/1998/Math/MathML".toList)] [.elem "mo".toList [] [.text "¾".toList]]])]
  (some "\\dfrac{3}{4}".toList)

-- test_convert_input_expected_pairs
#guard check "<math xmlns=\"http://www.w3.org/1998/Math/MathML\"><mi>𝓛</mi></math>".toList
  [("<math xmlns=\"http://www.w3.org/1998/Math/MathML\"><mi>𝓛</mi></math>".toList,
    .ok [.elem "math".toList [("xmlns".toList, "http://www.w3.org/1998/Math/MathML".toList)] [.elem "mi".toList [] [.text "𝓛".toList]]])]
  (some "\\mathcal{L}".toList)

-- test_convert_input_expected_pairs
#guard check "<math xmlns=\"http://www.w3.org/1998/Math/MathML\"><mo>⟦</mo></math>".toList
  [("<math xmlns=\"http://www.w3.org/1998/Math/MathML\"><mo>⟦</mo></math>".toList,
    .ok [.elem "math".toList [("xmlns".toList, "http://www.w3.org/1998/Math/MathML".toList)] [.elem "mo".toList [] [.text "⟦".toList]]])]
  (some "\\(|".toList)

-- test_convert_input_expected_pairs
#guard check "<math xmlns=\"http://www.w3.org/1998/Math/MathML\"><mo>⟧</mo></math>".toList
  [("<math xmlns=\"http://www.w3.org/1998/Math/MathML\"><mo>⟧</mo></math>".toList,
    .ok [.elem "math".toList [("xmlns".toList, "http://www.w3.org/1998/Math/MathML".toList)] [.elem "mo".toList [] [.text "⟧".toList]]])]
  (some "\\)|".toList)

-- test_convert_input_expected_pairs
#guard check "<math xmlns=\"http://www.w3.org/1998/Math/MathML\"><mo>●</mo></math>".toList
  [("<math xmlns=\"http://www.w3.org/1998/Math/MathML\"><mo>●</mo></math>".toList,
    .ok [.elem "math".toList [("xmlns".toList, "http://www.w3.org/1998/Math/MathML".toList)] [.elem "mo".toList [] [.text "●".toList]]])]
  (some "\\circle".toList)

-- test_convert_input_expected_pairs
#guard check "<math xmlns=\"http://www.w3.org/1998/Math/MathML\"><mi>●</mi></math>".toList
  [("<math xmlns=\"http://www.w3.org/1998/Math/MathML\"><mi>●</mi></math>".toList,
    .ok [.elem "math".toList [("xmlns".toList, "http://www.w3.org/1998/Math/MathML".toList)] [.elem "mi".toList [] [.text "●".toList]]])]
  (some "\\circle".toList)

-- test_convert_input_expected_pairs
#guard check "<math xmlns=\"http://www.w3.org/1998/Math/MathML\"><mo>▫</mo></math>".toList
  [("<math xmlns=\"http://www.w3.org/1998/Math/MathML\"><mo>▫</mo></math>".toList,
    .ok [.elem "math".toList [("xmlns".toList, "http://www.w3.org/1998/Math/MathML".toList)] [.elem "mo".toList [] [.text "▫".toList]]])]
  (some "\\square".toList)

-- test_convert_input_expected_pairs
#guard check "<math xmlns=\"http://www.w3.org/1998/Math/MathML\"><mi>▫</mi></math>".toList
  [("<math xmlns=\"http://www.w3.org/1998/Math/MathML\"><mi>▫</mi></math>".toList,
    .ok [.elem "math".toList [("xmlns".toList, "http://www.w3.org/1998/Math/MathML".toList)] [.elem "mi".toList [] [.text "▫".toList]]])]
  (some "\\square".toList)

-- test_convert_input_expected_pairs
#guard check "<math xmlns=\"http://www.w3.org/1998/Math/MathML\"><mo>℧</mo></math>".toList
  [("<math xmlns=\"http://www.w3.org/1998/Math/MathML\"><mo>℧</mo></math>".toList,
    .ok [.elem "math".toList [("xmlns".toList, "http://www.w3.org/1998/Math/MathML".toList)] [.elem "mo".toList [] [.text "℧".toList]]])]
  (some "\\mho".toList)

-- test_convert_input_expected_pairs
#guard check "<math xmlns=\"http://www.w3.org/1998/Math/MathML\"><mi>℧</mi></math>".toList
  [("<math xmlns=\"http://www.w3.org/1998/Math/MathML\"><mi>℧</mi></math>".toList,
    .ok [.elem "math".toList [("xmlns".toList, "http://www.w3.org/1998/Math/MathML".toList)] [.elem "mi".toList [] [.text "℧".toList]]])]
  (some "\\mho".toList)

-- test_convert_input_expected_pairs
#guard check "<math xmlns=\"http://www.w3.org/1998/Math/MathML\"><mi>ȷ</mi></math>".toList
  [("<math xmlns=\"http://www.w3.org/1998/Math/MathML\"><mi>ȷ</mi></math>".toList,
    .ok [.elem "math".toList [("xmlns".toList, "http://www.w3.org/1998/Math/MathML".toList)] [.elem "mi".toList [] [.text "ȷ".toList]]])]
  (some "\\mathsf{J}".toList)

-- test_convert_input_expected_pairs
#guard check "<math xmlns=\"http://www.w3.org/1998/Math/MathML\"><mo>⌈</mo></math>".toList
  [("<math xmlns=\"http://www.w3.org/1998/Math/MathML\"><mo>⌈</mo></math>".toList,
    .ok [.elem "math".toList [("xmlns".toList, "http://www.w3.org/1998/Math/MathML".toList)] [.elem "mo".toList [] [.text "⌈".toList]]])]
  (some "\\lceil".toList)

-- test_convert_input_expected_pairs
#guard check "<math xmlns=\"http://www.w3.org/1998/Math/MathML\"><mi>⌉</mi></math>".toList
  [("<math xmlns=\"http://www.w3.org/1998/Math/MathML\"><mi>⌉</mi></math>".toList,
    .ok [.elem "math".toList [("xmlns".toList, "http://www.w3.org/1998/Math/MathML".toList)] [.elem "mi".toList [] [.text "⌉".toList]]])]
  (some "\\rceil".toList)

-- test_convert_input_expected_pairs
#guard check "<math xmlns=\"http://www.w3.org/1998/Math/MathML\"><mo>⌉</mo></math>".toList
  [("<math xmlns=\"http://www.w3.org/1998/Math/MathML\"><mo>⌉</mo></math>".toList,
    .ok [.elem "math".toList [("xmlns".toList, "http://www.w3.org/1998/Math/MathML".toList)] [.elem "mo".toList [] [.text "⌉".toList]]])]
  (some "\\rceil".toList)

-- test_convert_input_expected_pairs
#guard check "<math xmlns=\"http://www.w3.org/1998/Math/MathML\"><mi>ℇ</mi></math>".toList
  [("<math xmlns=\"http://www.w3.org/1998/Math/MathML\"><mi>ℇ</mi></math>".toList,
    .ok [.elem "math".toList [("xmlns".toList, "http://www.w3.org/1998/Math/MathML".toList)] [.elem "mi".toList [] [.text "ℇ".toList]]])]
  (some "\\varepsilon".toList)

-- test_convert_input_expected_pairs
#guard check "<math xmlns=\"http://www.w3.org/1998/Math/MathML\"><mn>⁸</mn></math>".toList
  [("<math xmlns=\"http://www.w3.org/1998/Math/MathML\"><mn>⁸</mn></math>".toList,
    .ok [.elem "math".toList [("xmlns".toList, "http://www.w3.org/1998/Math/MathML".toList)] [.elem "mn".toList [] [.text "⁸".toList]]])]
  (some "^{8}".toList)

-- test_convert_input_expected_pairs
#guard check "<math xmlns=\"http://www.w3.org/1998/Math/MathML\"><mn>⁷</mn></math>".toList
  [("<math xmlns=\"http://www.w3.org/1998/Math/MathML\"><mn>⁷</mn></math>".toList,
    .ok [.elem "math".toList [("xmlns".toList, "http://www.w3.org/1998/Math/MathML".toList)] [.elem "mn".toList [] [.text "⁷".toList]]])]
  (some "^{7}".toList)

-- test_convert_input_expected_pairs
#guard check "<math xmlns=\"http://www.w3.org/1998/Math/MathML\"><mn>⁴</mn></math>".toList
  [("<math xmlns=\"http://www.w3.org/1998/Math/MathML\"><mn>⁴</mn></math>".toList,
    .ok [.elem "math".toList [("xmlns".toList, "http://www.w3.org/1998/Math/MathML".toList)] [.elem "mn".toList [] [.text "⁴".toList]]])]
  (some "^{4}".toList)

-- test_convert_input_expected_pairs
#guard check "<math xmlns=\"http://www.w3.org/1998/Math/MathML\"><mi>𝟙</mi></math>".toList
  [("<math xmlns=\"http://www.w3.org/1998/Math/MathML\"><mi>𝟙</mi></math>".toList,
    .ok [.elem "math".toList [("xmlns".toList, "http://www.w3.org/1998/Math/MathML".toList)] [.elem "mi".toList [] [.text "𝟙".toList]]])]
  (some "\\mathbb{1}".toList)

-- test_convert_input_expected_pairs
#guard check "<math xmlns=\"http://www.w3.org/1998/Math/MathML\"><mi>θ</mi></math>".toList
  [("<math xmlns=\"http://www.w3.org/1998/Math/MathML\"><mi>θ</mi></math>".toList,
    .ok [.elem "math".toList [("xmlns".toList, "http://www.w3.org/1998/Math/MathML".toList)] [.elem "mi".toList [] [.text "θ".toList]]])]
  (some "\\theta".toList)

-- test_convert_input_expected_pairs
#guard check "<math xmlns=\"http://www.w3.org/1998/Math/MathML\"><mi>ẑ</mi></math>".toList
  [("<math xmlns=\"http://www.w3.org/1998/Math/MathML\"><mi>ẑ</mi></math>".toList,
    .ok [.elem "math".toList [("xmlns".toList, "http://www.w3.org/1998/Math/MathML".toList)] [.elem "mi".toList [] [.text "ẑ".toList]]])]
  (some "\\hat{z}".toList)

-- test_convert_input_expected_pairs
#guard check "<math xmlns=\"http://www.w3.org/1998/Math/MathML\"><mi>ⅇ</mi></math>".toList
  [("<math xmlns=\"http://www.w3.org/1998/Math/MathML\"><mi>ⅇ</mi></math>".toList,
    .ok [.elem "math".toList [("xmlns".toList, "http://www.w3.org/1998/Math/MathML".toList)] [.elem "mi".toList [] [.text "ⅇ".toList]]])]
  (some "\\text{e}".toList)

-- test_convert_input_expected_pairs
#guard check "<math xmlns=\"http://www.w3.org/1998/Math/MathML\"><mo>∞</mo></math>".toList
  [("<math xmlns=\"http://www.w3.org/1998/Math/MathML\"><mo>∞</mo></math>".toList,
    .ok [.elem "math".toList [("xmlns".toList, "http://www.w3.org/1998/Math/MathML".toList)] [.elem "mo".toList [] [.text "∞".toList]]])]
  (some "\\infty".toList)

-- test_convert_input_expected_pairs
#guard check "<math xmlns=\"http://www.w3.org/1998/Math/MathML\"><mi>Κ</mi></math>".toList
  [("<math xmlns=\"http://www.w3.org/1998/Math/MathML\"><mi>Κ</mi></math>".toList,
    .ok [.elem "math".toList [("xmlns".toList, "http://www.w3.org/1998/Math/MathML".toList)] [.elem "mi".toList [] [.text "Κ".toList]]])]
  (some "\\mathsf{K}".toList)

-- test_convert_input_expected_pairs
#guard check "<math xmlns=\"http://www.w3.org/1998/Math/MathML\"><mi>ɼ</mi></math>".toList
  [("<math xmlns=\"http://www.w3.org/1998/Math/MathML\"><mi>ɼ</mi></math>".toList,
    .ok [.elem "math".toList [("xmlns".toList, "http://www.w3.org/1998/Math/MathML".toList)] [.elem "mi".toList [] [.text "ɼ".toList]]])]
  (some "r".toList)

-- test_convert_input_expected_pairs
#guard check "<math xmlns=\"http://www.w3.org/1998/Math/MathML\"><mn>₁</mn></math>".toList
  [("<math xmlns=\"http://www.w3.org/1998/Math/MathML\"><mn>₁</mn></math>".toList,
    .ok [.elem "math".toList [("xmlns".toList, "http://www.w3.org/1998/Math/MathML".toList)] [.elem "mn".toList [] [.text "₁".toList]]])]
  (some "_{1}".toList)

-- test_convert_input_expected_pairs
#guard check "<math xmlns=\"http://www.w3.org/1998/Math/MathML\"><mn>₂</mn></math>".toList
  [("<math xmlns=\"http://www.w3.org/1998/Math/MathML\"><mn>₂</mn></math>".toList,
    .ok [.elem "math".toList [("xmlns".toList, "http://www.w3.org/1998/Math/MathML".toList)] [.elem "mn".toList [] [.text "₂".toList]]])]
  (some "_{2}".toList)

-- test_convert_input_expected_pairs
#guard check "<math xmlns=\"http://www.w3.org/1998/Math/MathML\"><mn>₃</mn></math>".toList
  [("<math xmlns=\"http://www.w3.org/1998/Math/MathML\"><mn>₃</mn></math>".toList,
    .ok [.elem "math".toList [("xmlns".toList, "http://www.w3.org/1998/Math/MathML".toList)] [.elem "mn".toList [] [.text "₃".toList]]])]
  (some "_{3}".toList)

-- test_convert_input_expected_pairs
#guard check "<math xmlns=\"http://www.w3.org/1998/Math/MathML\"><mi>ω</mi></math>".toList
  [("<math xmlns=\"http://www.w3.org/1998/Math/MathML\"><mi>ω</mi></math>".toList,
    .ok [.elem "math".toList [("xmlns".toList, "http://www.w3.org/1998/Math/MathML".toList)] [.elem "mi".toList [] [.text "ω".toList]]])]
  (some "\\omega".toList)

-- test_convert_input_expected_pairs
#guard check "<math xmlns=\"http://www.w3.org/1998/Math/MathML\"><mo>↛</mo></math>".toList
  [("<math xmlns=\"http://www.w3.org/1998/Math/MathML\"><mo>↛</mo></math>".toList,
    .ok [.elem "math".toList [("xmlns".toList, "http://www.w3.org/1998/Math/MathML".toList)] [.elem "mo".toList [] [.text "↛".toList]]])]
  (some "\\nrightarrow".toList)

-- test_convert_input_expected_pairs
#guard check "<math xmlns=\"http://www.w3.org/1998/Math/MathML\"><mi>↛</mi></math>".toList
  [("<math xmlns=\"http://www.w3.org/1998/Math/MathML\"><mi>↛</mi></math>".toList,
    .ok [.elem "math".toList [("xmlns".toList, "http://www.w3.org/1998/Math/MathML".toList)] [.elem "mi".toList [] [.text "↛".toList]]])]
  (some "\\nrightarrow".toList)

-- test_convert_input_expected_pairs
#guard check "<math xmlns=\"http://www.w3.org/1998/Math/MathML\"><mo>∣</mo></math>".toList
  [("<math xmlns=\"http://www.w3.org/1998/Math/MathML\"><mo>∣</mo></math>".toList,
    .ok [.elem "math".toList [("xmlns".toList, "http://www.w3.org/1998/Math/MathML".toList)] [.elem "mo".toList [] [.text "∣".toList]]])]
  (some "\\mid".toList)

-- test_convert_input_expected_pairs
#guard check "<math xmlns=\"http://www.w3.org/1998/Math/MathML\"><mi>∣</mi></math>".toList
  [("<math xmlns=\"http://www.w3.org/1998/Math/MathML\"><mi>∣</mi></math>".toList,
    .ok [.elem "math".toList [("xmlns".toList, "http://www.w3.org/1998/Math/MathML".toList)] [.elem "mi".toList [] [.text "∣".toList]]])]
  (some "\\mid".toList)

-- test_convert_input_expected_pairs
#guard check "<math xmlns=\"http://www.w3.org/1998/Math/MathML\"><mo>ˆ</mo></math>".toList
  [("<math xmlns=\"http://www.w3.org/1998/Math/MathML\"><mo>ˆ</mo></math>".toList,
    .ok [.elem "math".toList [("xmlns".toList, "http://www.w3.org/1998/Math/MathML".toList)] [.elem "mo".toList [] [.text "ˆ".toList]]])]
  (some "\\hat".toList)

-- test_convert_input_expected_pairs
#guard check "<math xmlns=\"http://www.w3.org/1998/Math/MathML\"><mi>ˆ</mi></math>".toList
  [("<math xmlns=\"http://www.w3.org/1998/Math/MathML\"><mi>ˆ</mi></math>".toList,
    .ok [.elem "math".toList [("xmlns".toList, "http://www.w3.org/1998/Math/MathML".toList)] [.elem "mi".toList [] [.text "ˆ".toList]]])]
  (some "\\hat{}".toList)

-- test_convert_input_expected_pairs
#guard check "<math xmlns=\"http://www.w3.org/1998/Math/MathML\"><mo>‾</mo></math>".toList
  [("<math xmlns=\"http://www.w3.org/1998/Math/MathML\"><mo>‾</mo></math>".toList,
    .ok [.elem "math".toList [("xmlns".toList, "http://www.w3.org/1998/Math/MathML".toList)] [.elem "mo".toList [] [.text "‾".toList]]])]
  (some "\\overline".toList)

-- test_convert_input_expected_pairs
#guard check "<math xmlns=\"http://www.w3.org/1998/Math/MathML\"><mo>→</mo></math>".toList
  [("<math xmlns=\"http://www.w3.org/1998/Math/MathML\"><mo>→</mo></math>".toList,
    .ok [.elem "math".toList [("xmlns".toList, "http://www.w3.org/1998/Math/MathML".toList)] [.elem "mo".toList [] [.text "→".toList]]])]
  (some "\\rightarrow".toList)

-- test_convert_input_expected_pairs
#guard check "<math xmlns=\"http://www.w3.org/1998/Math/MathML\"><mi>→</mi></math>".toList
  [("<math xmlns=\"http://www.w3.org/1998/Math/MathML\"><mi>→</mi></math>".toList,
    .ok [.elem "math".toList [("xmlns".toList, "http://www.w3.org/1998/Math/MathML".toList)] [.elem "mi".toList [] [.text "→".toList]]])]
  (some "\\rightarrow".toList)

-- test_convert_input_expected_pairs
#guard check "<math xmlns=\"http://www.w3.org/1998/Math/MathML\"><mn>₀</mn></math>".toList
  [("<math xmlns=\"http://www.w3.org/1998/Math/MathML\"><mn>₀</mn></math>".toList,
    .ok [.elem "math".toList [("xmlns".toList, "http://www.w3.org/1998/Math/MathML".toList)] [.elem "mn".toList [] [.text "₀".toList]]])]
  (some "_{0}".toList)

-- test_convert_input_expected_pairs
#guard check "<math xmlns=\"http://www.w3.org/1998/Math/MathML\"><mo>‡</mo></math>".toList
  [("<math xmlns=\"http://www.w3.org/1998/Math/MathML\"><mo>‡</mo></math>".toList,
    .ok [.elem "math".toList [("xmlns".toList, "http://www.w3.org/1998/Math/MathML".toList)] [.elem "mo".toList [] [.text "‡".toList]]])]
  (some "\\ddagger".toList)

-- test_convert_input_expected_pairs
#guard check "<math xmlns=\"http://www.w3.org/1998/Math/MathML\"><mi>‡</mi></math>".toList
  [("<math xmlns=\"http://www.w3.org/1998/Math/MathML\"><mi>‡</mi></math>".toList,
    .ok [.elem "math".toList [("xmlns".toList, "http://www.w3.org/1998/Math/MathML".toList)] [.elem "mi".toList [] [.text "‡".toList]]])]
  (some "\\ddagger".toList)

-- test_convert_input_expected_pairs
#guard check "<math xmlns=\"http://www.w3.org/1998/Math/MathML\"><mo>・</mo></math>".toList
  [("<math xmlns=\"http://www.w3.org/1998/Math/MathML\"><mo>・</mo></math>".toList,
    .ok [.elem "math".toList [("xmlns".toList, "http://www.w3.org/1998/Math/MathML".toList)] [.elem "mo".toList [] [.text "・".toList]]])]
  (some "\\cdot".toList)

-- test_convert_input_expected_pairs
#guard check "<math xmlns=\"http://www.w3.org/1998/Math/MathML\"><mi>・</mi></math>".toList
  [("<math xmlns=\"http://www.w3.org/1998/Math/MathML\"><mi>・</mi></math>".toList,
    .ok [.elem "math".toList [("xmlns".toList, "http://www.w3.org/1998/Math/MathML".toList)] [.elem "mi".toList [] [.text "・".toList]]])]
  (some "\\cdot".toList)

-- test_convert_input_expected_pairs
#guard check "<math xmlns=\"http://www.w3.org/1998/Math/MathML\"><mn>⁵</mn></math>".toList
  [("<math xmlns=\"http://www.w3.org/1998/Math/MathML\"><mn>⁵</mn></math>".toList,
    .ok [.elem "math".toList [("xmlns".toList, "http://www.w3.org/1998/Math/MathML".toList)] [.elem "mn".toList [] [.text "⁵".toList]]])]
  (some "^{5}".toList)

-- test_convert_input_expected_pairs
#guard check "<math xmlns=\"http://www.w3.org/1998/Math/MathML\"><mo>▱</mo></math>".toList
  [("<math xmlns=\"http://www.w3.org/1998/Math/MathML\"><mo>▱</mo></math>".toList,
    .ok [.elem "math".toList [("xmlns".toList, "http://www.w3.org/1998/Math/MathML".toList)] [.elem "mo".toList [] [.text "▱".toList]]])]
  (some "\\square".toList)

-- test_convert_input_expected_pairs
#guard check "<math xmlns=\"http://www.w3.org/1998/Math/MathML\"><mi>▱</mi></math>".toList
  [("<math xmlns=\"http://www.w3.org/1998/Math/MathML\"><mi>▱</mi></math>".toList,
    .ok [.elem "math".toList [("xmlns".toList, "http://www.w3.org/1998/Math/MathML".toList)] [.elem "mi".toList [] [.text "▱".toList]]])]
  (some "\\square".toList)

-- test_convert_input_expected_pairs
#guard check "<math xmlns=\"http://www.w3.org/1998/Math/MathML\"><mo>∆</mo></math>".toList
  [("<math xmlns=\"http://www.w3.org/1998/Math/MathML\"><mo>∆</mo></math>".toList,
    .ok [.elem "math".toList [("xmlns".toList, "http://www.w3.org/1998/Math/MathML".toList)] [.elem "mo".toList [] [.text "∆".toList]]])]
  (some "\\Delta".toList)

-- test_convert_input_expected_pairs
#guard check "<math xmlns=\"http://www.w3.org/1998/Math/MathML\"><mi>∆</mi></math>".toList
  [("<math xmlns=\"http://www.w3.org/1998/Math/MathML\"><mi>∆</mi></math>".toList,
    .ok [.elem "math".toList [("xmlns".toList, "http://www.w3.org/1998/Math/MathML".toList)] [.elem "mi".toList [] [.text "∆".toList]]])]
  (some "\\Delta".toList)

-- test_convert_input_expected_pairs
#guard check "<math xmlns=\"http://www.w3.org/1998/Math/MathML\"><mi>ἱ</mi></math>".toList
  [("<math xmlns=\"http://www.w3.org/1998/Math/MathML\"><mi>ἱ</mi></math>".toList,
    .ok [.elem "math".toList [("xmlns".toList, "http://www.w3.org/1998/Math/MathML".toList)] [.elem "mi".toList [] [.text "ἱ".toList]]])]
  (some "i".toList)

-- test_convert_input_expected_pairs
#guard check "<math xmlns=\"http://www.w3.org/1998/Math/MathML\"><mo>∡</mo></math>".toList
  [("<math xmlns=\"http://www.w3.org/1998/Math/MathML\"><mo>∡</mo></math>".toList,
    .ok [.elem "math".toList [("xmlns".toList, "http://www.w3.org/1998/Math/MathML".toList)] [.elem "mo".toList [] [.text "∡".toList]]])]
  (some "\\measuredangle".toList)

-- test_convert_input_expected_pairs
#guard check "<math xmlns=\"http://www.w3.org/1998/Math/MathML\"><mi>ϒ</mi></math>".toList
  [("<math xmlns=\"http://www.w3.org/1998/Math/MathML\"><mi>ϒ</mi></math>".toList,
    .ok [.elem "math".toList [("xmlns".toList, "http://www.w3.org/1998/Math/MathML".toList)] [.elem "mi".toList [] [.text "ϒ".toList]]])]
  (some "\\Upsilon".toList)

-- test_convert_input_expected_pairs
#guard check "<math xmlns=\"http://www.w3.org/1998/Math/MathML\"><mo>↓</mo></math>".toList
  [("<math xmlns=\"http://www.w3.org/1998/Math/MathML\"><mo>↓</mo></math>".toList,
    .ok [.elem "math".toList [("xmlns".toList, "http://www.w3.org/1998/Math/MathML".toList)] [.elem "mo".toList [] [.text "↓".toList]]])]
  (some "\\downarrow".toList)

-- test_convert_input_expected_pairs
#guard check "<math xmlns=\"http://www.w3.org/1998/Math/MathML\"><mi>↓</mi></math>".toList
  [("<math xmlns=\"http://www.w3.org/1998/Math/MathML\"><mi>↓</mi></math>".toList,
    .ok [.elem "math".toList [("xmlns".toList, "http://www.w3.org/1998/Math/MathML".toList)] [.elem "mi".toList [] [.text "↓".toList]]])]
  (some "\\downarrow".toList)

-- test_convert_input_expected_pairs
#guard check "<math xmlns=\"http://www.w3.org/1998/Math/MathML\"><mo>↑</mo></math>".toList
  [("<math xmlns=\"http://www.w3.org/1998/Math/MathML\"><mo>↑</mo></math>".toList,
    .ok [.elem "math".toList [("xmlns".toList, "http://www.w3.org/1998/Math/MathML".toList)] [.elem "mo".toList [] [.text "↑".toList]]])]
  (some "\\uparrow".toList)

-- test_convert_input_expected_pairs
#guard check "<math xmlns=\"http://www.w3.org/1998/Math/MathML\"><mi>↑</mi></math>".toList
  [("<math xmlns=\"http://www.w3.org/1998/Math/MathML\"><mi>↑</mi></math>".toList,
    .ok [.elem "math".toList [("xmlns".toList, "http://www.w3.org/1998/Math/MathML".toList)] [.elem "mi".toList [] [.text "↑".toList]]])]
  (some "\\uparrow".toList)

-- test_convert_input_expected_pairs
#guard check "<math xmlns=\"http://www.w3.org/1998/Math/MathML\"><mo>»</mo></math>".toList
  [("<math xmlns=\"http://www.w3.org/1998/Math/MathML\"><mo>»</mo></math>".toList,
    .ok [.elem "math".toList [("xmlns".toList, "http://www.w3.org/1998/Math/MathML".toList)] [.elem "mo".toList [] [.text "»".toList]]])]
  (some "\\gg".toList)

-- test_convert_input_expected_pairs
#guard check "<math xmlns=\"http://www.w3.org/1998/Math/MathML\"><mo>⊤</mo></math>".toList
  [("<math xmlns=\"http://www.w3.org/1998/Math/MathML\"><mo>⊤</mo></math>".toList,
    .ok [.elem "math".toList [("xmlns".toList, "http://www.w3.org/1998/Math/MathML".toList)] [.elem "mo".toList [] [.text "⊤".toList]]])]
  (some "\\top".toList)

-- test_convert_input_expected_pairs
#guard check "<math xmlns=\"http://www.w3.org/1998/Math/MathML\"><mi>⊤</mi></math>".toList
  [("<math xmlns=\"http://www.w3.org/1998/Math/MathML\"><mi>⊤</mi></math>".toList,
    .ok [.elem "math".toList [("xmlns".toList, "http://www.w3.org/1998/Math/MathML".toList)] [.elem "mi".toList [] [.text "⊤".toList]]])]
  (some "\\top".toList)

-- test_convert_input_expected_pairs
#guard check "<math xmlns=\"http://www.w3.org/1998/Math/MathML\"><mo>⧸</mo></math>".toList
  [("<math xmlns=\"http://www.w3.org/1998/Math/MathML\"><mo>⧸</mo></math>".toList,
    .ok [.elem "math".toList [("xmlns".toList, "http://www.w3.org/1998/Math/MathML".toList)] [.elem "mo".toList [] [.text "⧸".toList]]])]
  (some "/".toList)

-- test_convert_input_expected_pairs
#guard check "<math xmlns=\"http://www.w3.org/1998/Math/MathML\"><mi>⧸</mi></math>".toList
  [("<math xmlns=\"http://www.w3.org/1998/Math/MathML\"><mi>⧸</mi></math>".toList,
    .ok [.elem "math".toList [("xmlns".toList, "http://www.w3.org/1998/Math/MathML".toList)] [.elem "mi".toList [] [.text "⧸".toList]]])]
  (some "/".toList)

-- test_convert_input_expected_pairs
#guard check "<math xmlns=\"http://www.w3.org/1998/Math/MathML\"><mi>𝛿</mi></math>".toList
  [("<math xmlns=\"http://www.w3.org/1998/Math/MathML\"><mi>𝛿</mi></math>".toList,
    .ok [.elem "math".toList [("xmlns".toList, "http://www.w3.org/1998/Math/MathML".toList)] [.elem "mi".toList [] [.text "𝛿".toList]]])]
  (some "\\delta".toList)

-- test_convert_input_expected_pairs
#guard check "<math xmlns=\"http://www.w3.org/1998/Math/MathML\"><mo>˳</mo></math>".toList
  [("<math xmlns=\"http://www.w3.org/1998/Math/MathML\"><mo>˳</mo></math>".toList,
    .ok [.elem "math".toList [("xmlns".toList, "http://www.w3.org/1998/Math/MathML".toList)] [.elem "mo".toList [] [.text "˳".toList]]])]
  (some "\\cdot".toList)

-- test_convert_input_expected_pairs
#guard check "<math xmlns=\"http://www.w3.org/1998/Math/MathML\"><mi>˳</mi></math>".toList
  [("<math xmlns=\"http://www.w3.org/1998/Math/MathML\"><mi>˳</mi></math>".toList,
    .ok [.elem "math".toList [("xmlns".toList, "http://www.w3.org/1998/Math/MathML".toList)] [.elem "mi".toList [] [.text "˳".toList]]])]
  (some "\\cdot".toList)

-- test_convert_input_expected_pairs
#guard check "<math xmlns=\"http://www.w3.org/1998/Math/MathML\"><mn>ₙ</mn></math>".toList
  [("<math xmlns=\"http://www.w3.org/1998/Math/MathML\"><mn>ₙ</mn></math>".toList,
    .ok [.elem "math".toList [("xmlns".toList, "http://www.w3.org/1998/Math/MathML".toList)] [.elem "mn".toList [] [.text "ₙ".toList]]])]
  (some "_{n}".toList)

-- test_convert_input_expected_pairs
#guard check "<math xmlns=\"http://www.w3.org/1998/Math/MathML\"><mi>ₙ</mi></math>".toList
  [("<math xmlns=\"http://www.w3.org/1998/Math/MathML\"><mi>ₙ</mi></math>".toList,
    .ok [.elem "math".toList [("xmlns".toList, "http://www.w3.org/1998/Math/MathML".toList)] [.elem "mi".toList [] [.text "ₙ".toList]]])]
  (some "_{n}".toList)

-- test_convert_input_expected_pairs
#guard check "<math xmlns=\"http://www.w3.org/1998/Math/MathML\"><mo>ₙ</mo></math>".toList
  [("<math xmlns=\"http://www.w3.org/1998/Math/MathML\"><mo>ₙ</mo></math>".toList,
    .ok [.elem "math".toList [("xmlns".toList, "http://www.w3.org/1998/Math/MathML".toList)] [.elem "mo".toList [] [.text "ₙ".toList]]])]
  (some "_{n}".toList)

-- test_convert_input_expected_pairs
#guard check "<math xmlns=\"http://www.w3.org/1998/Math/MathML\"><mi>β</mi></math>".toList
  [("<math xmlns=\"http://www.w3.org/1998/Math/MathML\"><mi>β</mi></math>".toList,
    .ok [.elem "math".toList [("xmlns".toList, "http://www.w3.org/1998/Math/MathML".toList)] [.elem "mi".toList [] [.text "β".toList]]])]
  (some "\\beta".toList)

-- test_convert_input_expected_pairs
#guard check "<math xmlns=\"http://www.w3.org/1998/Math/MathML\"><mo>β</mo></math>".toList
  [("<math xmlns=\"http://www.w3.org/1998/Math/MathML\"><mo>β</mo></math>".toList,
    .ok [.elem "math".toList [("xmlns".toList, "http://www.w3.org/1998/Math/MathML".toList)] [.elem "mo".toList [] [.text "β".toList]]])]
  (some "\\beta".toList)

-- test_convert_input_expected_pairs
#guard check "<math xmlns=\"http://www.w3.org/1998/Math/MathML\"><mo>։</mo></math>".toList
  [("<math xmlns=\"http://www.w3.org/1998/Math/MathML\"><mo>։</mo></math>".toList,
    .ok [.elem "math".toList [("xmlns".toList, "http://www.w3.org/1998/Math/MathML".toList)] [.elem "mo".toList [] [.text "։".toList]]])]
  (some ":".toList)

-- test_convert_input_expected_pairs
#guard check "<math xmlns=\"http://www.w3.org/1998/Math/MathML\"><mi>։</mi></math>".toList
  [("<math xmlns=\"http://www.w3.org/1998/Math/MathML\"><mi>։</mi></math>".toList,
    .ok [.elem "math".toList [("xmlns".toList, "http://www.w3.org/1998/Math/MathML".toList)] [.elem "mi".toList [] [.text "։".toList]]])]
  (some ":".toList)

-- test_convert_input_expected_pairs
#guard check "<math xmlns=\"http://www.w3.org/1998/Math/MathML\"><mo>⦪</mo></math>".toList
  [("<math xmlns=\"http://www.w3.org/1998/Math/MathML\"><mo>⦪</mo></math>".toList,
    .ok [.elem "math".toList [("xmlns".toList, "http://www.w3.org/1998/Math/MathML".toList)] [.elem "mo".toList [] [.text "⦪".toList]]])]
  (some "\\measuredangle".toList)

-- test_convert_input_expected_pairs
#guard check "<math xmlns=\"http://www.w3.org/1998/Math/MathML\"><mi>⦪</mi></math>".toList
  [("<math xmlns=\"http://www.w3.org/1998/Math/MathML\"><mi>⦪</mi></math>".toList,
    .ok [.elem "math".toList [("xmlns".toList, "http://www.w3.org/1998/Math/MathML".toList)] [.elem "mi".toList [] [.text "⦪".toList]]])]
  (some "\\measuredangle".toList)

-- test_convert_input_expected_pairs
#guard check "<math xmlns=\"http://www.w3.org/1998/Math/MathML\"><mo>⦩</mo></math>".toList
  [("<math xmlns=\"http://www.w3.org/1998/Math/MathML\"><mo>⦩</mo></math>".toList,
    .ok [.elem "math".toList [("xmlns".toList, "http://www.w3.org/1998/Math/MathML".toList)] [.elem "mo".toList [] [.text "⦩".toList]]])]
  (some "\\measuredangle".toList)

-- test_convert_input_expected_pairs
#guard check "<math xmlns=\"http://www.w3.org/1998/Math/MathML\"><mi>⦩</mi></math>".toList
  [("<math xmlns=\"http://www.w3.org/1998/Math/MathML\"><mi>⦩</mi></math>".toList,
    .ok [.elem "math".toList [("xmlns".toList, "http://www.w3.org/1998/Math/MathML".toList)] [.elem "mi".toList [] [.text "⦩".toList]]])]
  (some "\\measuredangle".toList)

-- test_convert_input_expected_pairs
#guard check "<math xmlns=\"http://www.w3.org/1998/Math/MathML\"><mo>⦫</mo></math>".toList
  [("<math xmlns=\"http://www.w3.org/1998/Math/MathML\"><mo>⦫</mo></math>".toList,
    .ok [.elem "math".toList [("xmlns".toList, "http://www.w3.org/1998/Math/MathML".toList)] [.elem "mo".toList [] [.text "⦫".toList]]])]
  (some "\\measuredangle".toList)

-- test_convert_input_expected_pairs
#guard check "<math xmlns=\"http://www.w3.org/1998/Math/MathML\"><mi>⦫</mi></math>".toList
  [("<math xmlns=\"http://www.w3.org/1998/Math/MathML\"><mi>⦫</mi></math>".toList,
    .ok [.elem "math".toList [("xmlns".toList, "http://www.w3.org/1998/Math/MathML".toList)] [.elem "mi".toList [] [.text "⦫".toList]]])]
  (some "\\measuredangle".toList)

-- test_convert_input_expected_pairs
#guard check "<math xmlns=\"http://www.w3.org/1998/Math/MathML\"><mo>⦁</mo></math>".toList
  [("<math xmlns=\"http://www.w3.org/1998/Math/MathML\"><mo>⦁</mo></math>".toList,
    .ok [.elem "math".toList [("xmlns".toList, "http://www.w3.org/1998/Math/MathML".toList)] [.elem "mo".toList [] [.text "⦁".toList]]])]
  (some "\\cdot".toList)

-- test_convert_input_expected_pairs
#guard check "<math xmlns=\"http://www.w3.org/1998/Math/MathML\"><mi>⦁</mi></math>".toList
  [("<math xmlns=\"http://www.w3.org/1998/Math/MathML\"><mi>⦁</mi></math>".toList,
    .ok [.elem "math".toList [("xmlns".toList, "http://www.w3.org/1998/Math/MathML".toList)] [.elem "mi".toList [] [.text "⦁".toList]]])]
  (some "\\cdot".toList)

-- test_convert_input_expected_pairs
#guard check "<math xmlns=\"http://www.w3.org/1998/Math/MathML\"><mi>ѳ</mi></math>".toList
  [("<math xmlns=\"http://www.w3.org/1998/Math/MathML\"><mi>ѳ</mi></math>".toList,
    .ok [.elem "math".toList [("xmlns".toList, "http://www.w3.org/1998/Math/MathML".toList)] [.elem "mi".toList [] [.text "ѳ".toList]]])]
  (some "\\theta".toList)

-- test_convert_input_expected_pairs
#guard check "<math xmlns=\"http://www.w3.org/1998/Math/MathML\"><mo>ѳ</mo></math>".toList
  [("<math xmlns=\"http://www.w3.org/1998/Math/MathML\"><mo>ѳ</mo></math>".toList,
    .ok [.elem "math".toList [("xmlns".toList, "http://www.w3.org/1998/Math/MathML".toList)] [.elem "mo".toList [] [.text "ѳ".toList]]])]
  (some "\\theta".toList)

-- test_convert_input_expected_pairs
#guard check "<math xmlns=\"http://www.w3.org/1998/Math/MathML\"><mo>⦢</mo></math>".toList
  [("<math xmlns=\"http://www.w3.org/1998/Math/MathML\"><mo>⦢</mo></math>".toList,
    .ok [.elem "math".toList [("xmlns".toList, "http://www.w3.org/1998/Math/MathML".toList)] [.elem "mo".toList [] [.text "⦢".toList]]])]
  (some "\\measuredangle".toList)

-- test_convert_input_expected_pairs
#guard check "<math xmlns=\"http://www.w3.org/1998/Math/MathML\"><mi>⦢</mi></math>".toList
  [("<math xmlns=\"http://www.w3.org/1998/Math/MathML\"><mi>⦢</mi></math>".toList,
    .ok [.elem "math".toList [("xmlns".toList, "http://www.w3.org/1998/Math/MathML".toList)] [.elem "mi".toList [] [.text "⦢".toList]]])]
  (some "\\measuredangle".toList)

-- test_convert_input_expected_pairs
#guard check "<math xmlns=\"http://www.w3.org/1998/Math/MathML\"><mo>¸</mo></math>".toList
  [("<math xmlns=\"http://www.w3.org/1998/Math/MathML\"><mo>¸</mo></math>".toList,
    .ok [.elem "math".toList [("xmlns".toList, "http://www.w3.org/1998/Math/MathML".toList)] [.elem "mo".toList [] [.text "¸".toList]]])]
  (some ",".toList)

-- test_convert_input_expected_pairs
#guard check "<math xmlns=\"http://www.w3.org/1998/Math/MathML\"><mi>¸</mi></math>".toList
  [("<math xmlns=\"http://www.w3.org/1998/Math/MathML\"><mi>¸</mi></math>".toList,
    .ok [.elem "math".toList [("xmlns".toList, "http://www.w3.org/1998/Math/MathML".toList)] [.elem "mi".toList [] [.text "¸".toList]]])]
  (some ",".toList)

-- test_convert_input_expected_pairs
#guard check "<math xmlns=\"http://www.w3.org/1998/Math/MathML\"><mi>𝜙</mi></math>".toList
  [("<math xmlns=\"http://www.w3.org/1998/Math/MathML\"><mi>𝜙</mi></math>".toList,
    .ok [.elem "math".toList [("xmlns".toList, "http://www.w3.org/1998/Math/MathML".toList)] [.elem "mi".toList [] [.text "𝜙".toList]]])]
  (some "\\phi".toList)

-- test_convert_input_expected_pairs
#guard check "<math xmlns=\"http://www.w3.org/1998/Math/MathML\"><mo>𝜙</mo></math>".toList
  [("<math xmlns=\"http://www.w3.org/1998/Math/MathML\"><mo>𝜙</mo></math>".toList,
    .ok [.elem "math".toList [("xmlns".toList, "http://www.w3.org/1998/Math/MathML".toList)] [.elem "mo".toList [] [.text "𝜙".toList]]])]
  (some "\\phi".toList)

-- test_convert_input_expected_pairs
#guard check "<math xmlns=\"http://www.w3.org/1998/Math/MathML\"><mi>П</mi></math>".toList
  [("<math xmlns=\"http://www.w3.org/1998/Math/MathML\"><mi>П</mi></math>".toList,
    .ok [.elem "math".toList [("xmlns".toList, "http://www.w3.org/1998/Math/MathML".toList)] [.elem "mi".toList [] [.text "П".toList]]])]
  (some "\\prod".toList)

-- test_convert_input_expected_pairs
#guard check "<math xmlns=\"http://www.w3.org/1998/Math/MathML\"><mo>П</mo></math>".toList
  [("<math xmlns=\"http://www.w3.org/1998/Math/MathML\"><mo>П</mo></math>".toList,
    .ok [.elem "math".toList [("xmlns".toList, "http://www.w3.org/1998/Math/MathML".toList)] [.elem "mo".toList [] [.text "П".toList]]])]
  (some "\\prod".toList)

-- test_convert_input_expected_pairs
#guard check "<math xmlns=\"http://www.w3.org/1998/Math/MathML\"><mi>α</mi></math>".toList
  [("<math xmlns=\"http://www.w3.org/1998/Math/MathML\"><mi>α</mi></math>".toList,
    .ok [.elem "math".toList [("xmlns".toList, "http://www.w3.org/1998/Math/MathML".toList)] [.elem "mi".toList [] [.text "α".toList]]])]
  (some "\\alpha".toList)

-- test_convert_input_expected_pairs
#guard check "<math xmlns=\"http://www.w3.org/1998/Math/MathML\"><mo>α</mo></math>".toList
  [("<math xmlns=\"http://www.w3.org/1998/Math/MathML\"><mo>α</mo></math>".toList,
    .ok [.elem "math".toList [("xmlns".toList, "http://www.w3.org/1998/Math/MathML".toList)] [.elem "mo".toList [] [.text "α".toList]]])]
  (some "\\alpha".toList)

-- test_convert_input_expected_pairs
#guard check "<math xmlns=\"http://www.w3.org/1998/Math/MathML\"><mn>₆</mn></math>".toList
  [("<math xmlns=\"http://www.w3.org/1998/Math/MathML\"><mn>₆</mn></math>".toList,
    .ok [.elem "math".toList [("xmlns".toList, "http://www.w3.org/1998/Math/MathML".toList)] [.elem "mn".toList [] [.text "₆".toList]]])]
  (some "_{6}".toList)

-- test_convert_input_expected_pairs
#guard check "<math xmlns=\"http://www.w3.org/1998/Math/MathML\"><mi>₆</mi></math>".toList
  [("<math xmlns=\"http://www.w3.org/1998/Math/MathML\"><mi>₆</mi></math>".toList,
    .ok [.elem "math".toList [("xmlns".toList, "http://www.w3.org/1998/Math/MathML".toList)] [.elem "mi".toList [] [.text "₆".toList]]])]
  (some "_{6}".toList)

-- test_convert_input_expected_pairs
#guard check "<math xmlns=\"http://www.w3.org/1998/Math/MathML\"><mo>₆</mo></math>".toList
  [("<math xmlns=\"http://www.w3.org/1998/Math/MathML\"><mo>₆</mo></math>".toList,
    .ok [.elem "math".toList [("xmlns".toList, "http://www.w3.org/1998/Math/MathML".toList)] [.elem "mo".toList [] [.text "₆".toList]]])]
  (some "_{6}".toList)

-- test_convert_input_expected_pairs
#guard check "<math xmlns=\"http://www.w3.org/1998/Math/MathML\"><mi>о</mi></math>".toList
  [("<math xmlns=\"http://www.w3.org/1998/Math/MathML\"><mi>о</mi></math>".toList,
    .ok [.elem "math".toList [("xmlns".toList, "http://www.w3.org/1998/Math/MathML".toList)] [.elem "mi".toList [] [.text "о".toList]]])]
  (some "o".toList)

-- test_convert_input_expected_pairs
#guard check "<math xmlns=\"http://www.w3.org/1998/Math/MathML\"><mo>о</mo></math>".toList
  [("<math xmlns=\"http://www.w3.org/1998/Math/MathML\"><mo>о</mo></math>".toList,
    .ok [.elem "math".toList [("xmlns".toList, "http://www.w3.org/1998/Math/MathML".toList)] [.elem "mo".toList [] [.text "о".toList]]])]
  (some "o".toList)

-- test_convert_input_expected_pairs
#guard check "<math xmlns=\"http://www.w3.org/1998/Math/MathML\"><mo>≈</mo></math>".toList
  [("<math xmlns=\"http://www.w3.org/1998/Math/MathML\"><mo>≈</mo></math>".toList,
    .ok [.elem "math".toList [("xmlns".toList, "http://www.w3.org/1998/Math/MathML".toList)] [.elem "mo".toList [] [.text "≈".toList]]])]
  (some "\\approx".toList)

-- test_convert_input_expected_pairs
#guard check "<math xmlns=\"http://www.w3.org/1998/Math/MathML\"><mi>≈</mi></math>".toList
  [("<math xmlns=\"http://www.w3.org/1998/Math/MathML\"><mi>≈</mi></math>".toList,
    .ok [.elem "math".toList [("xmlns".toList, "http://www.w3.org/1998/Math/MathML".toList)] [.elem "mi".toList [] [.text "≈".toList]]])]
  (some "\\approx".toList)

-- test_convert_input_expected_pairs
#guard check "<math xmlns=\"http://www.w3.org/1998/Math/MathML\"><mo>≤</mo></math>".toList
  [("<math xmlns=\"http://www.w3.org/1998/Math/MathML\"><mo>≤</mo></math>".toList,
    .ok [.elem "math".toList [("xmlns".toList, "http://www.w3.org/1998/Math/MathML".toList)] [.elem "mo".toList [] [.text "≤".toList]]])]
  (some "\\leq".toList)

-- test_convert_input_expected_pairs
#guard check "<math xmlns=\"http://www.w3.org/1998/Math/MathML\"><mi>≤</mi></math>".toList
  [("<math xmlns=\"http://www.w3.org/1998/Math/MathML\"><mi>≤</mi></math>".toList,
    .ok [.elem "math".toList [("xmlns".toList, "http://www.w3.org/1998/Math/MathML".toList)] [.elem "mi".toList [] [.text "≤".toList]]])]
  (some "\\leq".toList)

-- test_convert_input_expected_pairs
#guard check "<math xmlns=\"http://www.w3.org/1998/Math/MathML\"><mi>ђ</mi></math>".toList
  [("<math xmlns=\"http://www.w3.org/1998/Math/MathML\"><mi>ђ</mi></math>".toList,
    .ok [.elem "math".toList [("xmlns".toList, "http://www.w3.org/1998/Math/MathML".toList)] [.elem "mi".toList [] [.text "ђ".toList]]])]
  (some "\\hbar".toList)

-- test_convert_input_expected_pairs
#guard check "<math xmlns=\"http://www.w3.org/1998/Math/MathML\"><mo>ђ</mo></math>".toList
  [("<math xmlns=\"http://www.w3.org/1998/Math/MathML\"><mo>ђ</mo></math>".toList,
    .ok [.elem "math".toList [("xmlns".toList, "http://www.w3.org/1998/Math/MathML".toList)] [.elem "mo".toList [] [.text "ђ".toList]]])]
  (some "\\hbar".toList)

-- test_convert_input_expected_pairs
#guard check "<math xmlns=\"http://www.w3.org/1998/Math/MathML\"><mi>Ʌ</mi></math>".toList
  [("<math xmlns=\"http://www.w3.org/1998/Math/MathML\"><mi>Ʌ</mi></math>".toList,
    .ok [.elem "math".toList [("xmlns".toList, "http://www.w3.org/1998/Math/MathML".toList)] [.elem "mi".toList [] [.text "Ʌ".toList]]])]
  (some "\\Lambda".toList)

-- test_convert_input_expected_pairs
#guard check "<math xmlns=\"http://www.w3.org/1998/Math/MathML\"><mo>Ʌ</mo></math>".toList
  [("<math xmlns=\"http://www.w3.org/1998/Math/MathML\"><mo>Ʌ</mo></math>".toList,
    .ok [.elem "math".toList [("xmlns".toList, "http://www.w3.org/1998/Math/MathML".toList)] [.elem "mo".toList [] [.text "Ʌ".toList]]])]
  (some "\\Lambda".toList)

-- test_convert_input_expected_pairs
#guard check "<math xmlns=\"http://www.w3.org/1998/Math/MathML\"><mo>土</mo></math>".toList
  [("<math xmlns=\"http://www.w3.org/1998/Math/MathML\"><mo>土</mo></math>".toList,
    .ok [.elem "math".toList [("xmlns".toList, "http://www.w3.org/1998/Math/MathML".toList)] [.elem "mo".toList [] [.text "土".toList]]])]
  (some "\\pm".toList)

-- test_convert_input_expected_pairs
#guard check "<math xmlns=\"http://www.w3.org/1998/Math/MathML\"><mi>土</mi></math>".toList
  [("<math xmlns=\"http://www.w3.org/1998/Math/MathML\"><mi>土</mi></math>".toList,
    .ok [.elem "math".toList [("xmlns".toList, "http://www.w3.org/1998/Math/MathML".toList)] [.elem "mi".toList [] [.text "土".toList]]])]
  (some "\\pm".toList)

-- test_convert_input_expected_pairs
#guard check "<math xmlns=\"http://www.w3.org/1998/Math/MathML\"><mo>⎼</mo></math>".toList
  [("<math xmlns=\"http://www.w3.org/1998/Math/MathML\"><mo>⎼</mo></math>".toList,
    .ok [.elem "math".toList [("xmlns".toList, "http://www.w3.org/1998/Math/MathML".toList)] [.elem "mo".toList [] [.text "⎼".toList]]])]
  (some "-".toList)

-- test_convert_input_expected_pairs
#guard check "<math xmlns=\"http://www.w3.org/1998/Math/MathML\"><mi>⎼</mi></math>".toList
  [("<math xmlns=\"http://www.w3.org/1998/Math/MathML\"><mi>⎼</mi></math>".toList,
    .ok [.elem "math".toList [("xmlns".toList, "http://www.w3.org/1998/Math/MathML".toList)] [.elem "mi".toList [] [.text "⎼".toList]]])]
  (some "-".toList)

-- test_convert_input_expected_pairs
#guard check "<math xmlns=\"http://www.w3.org/1998/Math/MathML\"><mo>十</mo></math>".toList
  [("<math xmlns=\"http://www.w3.org/1998/Math/MathML\"><mo>十</mo></math>".toList,
    .ok [.elem "math".toList [("xmlns".toList, "http://www.w3.org/1998/Math/MathML".toList)] [.elem "mo".toList [] [.text "十".toList]]])]
  (some "+".toList)

-- test_convert_input_expected_pairs
#guard check "<math xmlns=\"http://www.w3.org/1998/Math/MathML\"><mi>十</mi></math>".toList
  [("<math xmlns=\"http://www.w3.org/1998/Math/MathML\"><mi>十</mi></math>".toList,
    .ok [.elem "math".toList [("xmlns".toList, "http://www.w3.org/1998/Math/MathML".toList)] [.elem "mi".toList [] [.text "十".toList]]])]
  (some "+".toList)

-- test_convert_input_expected_pairs
#guard check "<math xmlns=\"http://www.w3.org/1998/Math/MathML\"><mi>γ</mi></math>".toList
  [("<math xmlns=\"http://www.w3.org/1998/Math/MathML\"><mi>γ</mi></math>".toList,
    .ok [.elem "math".toList [("xmlns".toList, "http://www.w3.org/1998/Math/MathML".toList)] [.elem "mi".toList [] [.text "γ".toList]]])]
  (some "\\gamma".toList)

-- test_convert_input_expected_pairs
#guard check "<math xmlns=\"http://www.w3.org/1998/Math/MathML\"><mo>γ</mo></math>".toList
  [("<math xmlns=\"http://www.w3.org/1998/Math/MathML\"><mo>γ</mo></math>".toList,
    .ok [.elem "math".toList [("xmlns".toList, "http://www.w3.org/1998/Math/MathML".toList)] [.elem "mo".toList [] [.text "γ".toList]]])]
  (some "\\gamma".toList)

-- test_convert_input_expected_pairs
#guard check "<math xmlns=\"http://www.w3.org/1998/Math/MathML\"><mo>≠</mo></math>".toList
  [("<math xmlns=\"http://www.w3.org/1998/Math/MathML\"><mo>≠</mo></math>".toList,
    .ok [.elem "math".toList [("xmlns".toList, "http://www.w3.org/1998/Math/MathML".toList)] [.elem "mo".toList [] [.text "≠".toList]]])]
  (some "\\neq".toList)

-- test_convert_input_expected_pairs
#guard check "<math xmlns=\"http://www.w3.org/1998/Math/MathML\"><mi>≠</mi></math>".toList
  [("<math xmlns=\"http://www.w3.org/1998/Math/MathML\"><mi>≠</mi></math>".toList,
    .ok [.elem "math".toList [("xmlns".toList, "http://www.w3.org/1998/Math/MathML".toList)] [.elem "mi".toList [] [.text "≠".toList]]])]
  (some "\\neq".toList)

-- test_convert_input_expected_pairs
#guard check "<math xmlns=\"http://www.w3.org/1998/Math/MathML\"><mo>←</mo></math>".toList
  [("<math xmlns=\"http://www.w3.org/1998/Math/MathML\"><mo>←</mo></math>".toList,
    .ok [.elem "math".toList [("xmlns".toList, "http://www.w3.org/1998/Math/MathML".toList)] [.elem "mo".toList [] [.text "←".toList]]])]
  (some "\\leftarrow".toList)

-- test_convert_input_expected_pairs
#guard check "<math xmlns=\"http://www.w3.org/1998/Math/MathML\"><mi>←</mi></math>".toList
  [("<math xmlns=\"http://www.w3.org/1998/Math/MathML\"><mi>←</mi></math>".toList,
    .ok [.elem "math".toList [("xmlns".toList, "http://www.w3.org/1998/Math/MathML".toList)] [.elem "mi".toList [] [.text "←".toList]]])]
  (some "\\leftarrow".toList)

-- test_convert_input_expected_pairs
#guard check "<math xmlns=\"http://www.w3.org/1998/Math/MathML\"><mo>।</mo></math>".toList
  [("<math xmlns=\"http://www.w3.org/1998/Math/MathML\"><mo>।</mo></math>".toList,
    .ok [.elem "math".toList [("xmlns".toList, "http://www.w3.org/1998/Math/MathML".toList)] [.elem "mo".toList [] [.text "।".toList]]])]
  (some "\\mid".toList)

-- test_convert_input_expected_pairs
#guard check "<math xmlns=\"http://www.w3.org/1998/Math/MathML\"><mi>।</mi></math>".toList
  [("<math xmlns=\"http://www.w3.org/1998/Math/MathML\"><mi>।</mi></math>".toList,
    .ok [.elem "math".toList [("xmlns".toList, "http://www.w3.org/1998/Math/MathML".toList)] [.elem "mi".toList [] [.text "।".toList]]])]
  (some "\\mid".toList)

-- test_convert_input_expected_pairs
#guard check "<math xmlns=\"http://www.w3.org/1998/Math/MathML\"><mo>€</mo></math>".toList
  [("<math xmlns=\"http://www.w3.org/1998/Math/MathML\"><mo>€</mo></math>".toList,
    .ok [.elem "math".toList [("xmlns".toList, "http://www.w3.org/1998/Math/MathML".toList)] [.elem "mo".toList [] [.text "€".toList]]])]
  (some "\\euro".toList)

-- test_convert_input_expected_pairs
#guard check "<math xmlns=\"http://www.w3.org/1998/Math/MathML\"><mi>€</mi></math>".toList
  [("<math xmlns=\"http://www.w3.org/1998/Math/MathML\"><mi>€</mi></math>".toList,
    .ok [.elem "math".toList [("xmlns".toList, "http://www.w3.org/1998/Math/MathML".toList)] [.elem "mi".toList [] [.text "€".toList]]])]
  (some "\\euro".toList)

-- test_convert_input_expected_pairs
#guard check "<math xmlns=\"http://www.w3.org/1998/Math/MathML\"><mo>˘</mo></math>".toList
  [("<math xmlns=\"http://www.w3.org/1998/Math/MathML\"><mo>˘</mo></math>".toList,
    .ok [.elem "math".toList [("xmlns".toList, "http://www.w3.org/1998/Math/MathML".toList)] [.elem "mo".toList [] [.text "˘".toList]]])]
  (some "".toList)

-- test_convert_input_expected_pairs
#guard check "<math xmlns=\"http://www.w3.org/1998/Math/MathML\"><mi>˘</mi></math>".toList
  [("<math xmlns=\"http://www.w3.org/1998/Math/MathML\"><mi>˘</mi></math>".toList,
    .ok [.elem "math".toList [("xmlns".toList, "http://www.w3.org/1998/Math/MathML".toList)] [.elem "mi".toList [] [.text "˘".toList]]])]
  (some "".toList)

-- test_convert_input_expected_pairs
#guard check "<math xmlns=\"http://www.w3.org/1998/Math/MathML\"><mi>ρ</mi></math>".toList
  [("<math xmlns=\"http://www.w3.org/1998/Math/MathML\"><mi>ρ</mi></math>".toList,
    .ok [.elem "math".toList [("xmlns".toList, "http://www.w3.org/1998/Math/MathML".toList)] [.elem "mi".toList [] [.text "ρ".toList]]])]
  (some "\\rho".toList)

-- test_convert_input_expected_pairs
#guard check "<math xmlns=\"http://www.w3.org/1998/Math/MathML\"><mo>ρ</mo></math>".toList
  [("<math xmlns=\"http://www.w3.org/1998/Math/MathML\"><mo>ρ</mo></math>".toList,
    .ok [.elem "math".toList [("xmlns".toList, "http://www.w3.org/1998/Math/MathML".toList)] [.elem "mo".toList [] [.text "ρ".toList]]])]
  (some "\\rho".toList)

-- test_convert_input_expected_pairs
#guard check "<math xmlns=\"http://www.w3.org/1998/Math/MathML\"><mi>ῡ</mi></math>".toList
  [("<math xmlns=\"http://www.w3.org/1998/Math/MathML\"><mi>ῡ</mi></math>".toList,
    .ok [.elem "math".toList [("xmlns".toList, "http://www.w3.org/1998/Math/MathML".toList)] [.elem "mi".toList [] [.text "ῡ".toList]]])]
  (some "\\bar{u}".toList)

-- test_convert_input_expected_pairs
#guard check "<math xmlns=\"http://www.w3.org/1998/Math/MathML\"><mo>ῡ</mo></math>".toList
  [("<math xmlns=\"http://www.w3.org/1998/Math/MathML\"><mo>ῡ</mo></math>".toList,
    .ok [.elem "math".toList [("xmlns".toList, "http://www.w3.org/1998/Math/MathML".toList)] [.elem "mo".toList [] [.text "ῡ".toList]]])]
  (some "\\bar{u}".toList)

-- test_convert_input_expected_pairs
#guard check "<math xmlns=\"http://www.w3.org/1998/Math/MathML\"><mo>∥</mo></math>".toList
  [("<math xmlns=\"http://www.w3.org/1998/Math/MathML\"><mo>∥</mo></math>".toList,
    .ok [.elem "math".toList [("xmlns".toList, "http://www.w3.org/1998/Math/MathML".toList)] [.elem "mo".toList [] [.text "∥".toList]]])]
  (some "\\parallel".toList)

-- test_convert_input_expected_pairs
#guard check "<math xmlns=\"http://www.w3.org/1998/Math/MathML\"><mi>∥</mi></math>".toList
  [("<math xmlns=\"http://www.w3.org/1998/Math/MathML\"><mi>∥</mi></math>".toList,
    .ok [.elem "math".toList [("xmlns".toList, "http://www.w3.org/1998/Math/MathML".toList)] [.elem "mi".toList [] [.text "∥".toList]]])]
  (some "\\parallel".toList)

-- test_convert_input_expected_pairs
#guard check "<math xmlns=\"http://www.w3.org/1998/Math/MathML\"><mo>↔</mo></math>".toList
  [("<math xmlns=\"http://www.w3.org/1998/Math/MathML\"><mo>↔</mo></math>".toList,
    .ok [.elem "math".toList [("xmlns".toList, "http://www.w3.org/1998/Math/MathML".toList)] [.elem "mo".toList [] [.text "↔".toList]]])]
  (some "\\leftrightarrow".toList)

-- test_convert_input_expected_pairs
#guard check "<math xmlns=\"http://www.w3.org/1998/Math/MathML\"><mi>↔</mi></math>".toList
  [("<math xmlns=\"http://www.w3.org/1998/Math/MathML\"><mi>↔</mi></math>".toList,
    .ok [.elem "math".toList [("xmlns".toList, "http://www.w3.org/1998/Math/MathML".toList)] [.elem "mi".toList [] [.text "↔".toList]]])]
  (some "\\leftrightarrow".toList)

-- test_convert_input_expected_pairs
#guard check "<math xmlns=\"http://www.w3.org/1998/Math/MathML\"><mo>√</mo></math>".toList
  [("<math xmlns=\"http://www.w3.org/1998/Math/MathML\"><mo>√</mo></math>".toList,
    .ok [.elem "math".toList [("xmlns".toList, "http://www.w3.org/1998/Math/MathML".toList)] [.elem "mo".toList [] [.text "√".toList]]])]
  (some "\\sqrt{}".toList)

-- test_convert_input_expected_pairs
#guard check "<math xmlns=\"http://www.w3.org/1998/Math/MathML\"><mi>√</mi></math>".toList
  [("<math xmlns=\"http://www.w3.org/1998/Math/MathML\"><mi>√</mi></math>".toList,
    .ok [.elem "math".toList [("xmlns".toList, "http://www.w3.org/1998/Math/MathML".toList)] [.elem "mi".toList [] [.text "√".toList]]])]
  (some "\\sqrt{}".toList)

-- test_convert_input_expected_pairs
#guard check "<math xmlns=\"http://www.w3.org/1998/Math/MathML\"><mi>φ</mi></math>".toList
  [("<math xmlns=\"http://www.w3.org/1998/Math/MathML\"><mi>φ</mi></math>".toList,
    .ok [.elem "math".toList [("xmlns".toList, "http://www.w3.org/1998/Math/MathML".toList)] [.elem "mi".toList [] [.text "φ".toList]]])]
  (some "\\varphi".toList)

-- test_convert_input_expected_pairs
#guard check "<math xmlns=\"http://www.w3.org/1998/Math/MathML\"><mo>φ</mo></math>".toList
  [("<math xmlns=\"http://www.w3.org/1998/Math/MathML\"><mo>φ</mo></math>".toList,
    .ok [.elem "math".toList [("xmlns".toList, "http://www.w3.org/1998/Math/MathML".toList)] [.elem "mo".toList [] [.text "φ".toList]]])]
  (some "\\varphi".toList)

-- test_convert_input_expected_pairs
#guard check "<math xmlns=\"http://www.w3.org/1998/Math/MathML\"><mi>ȼ</mi></math>".toList
  [("<math xmlns=\"http://www.w3.org/1998/Math/MathML\"><mi>ȼ</mi></math>".toList,
    .ok [.elem "math".toList [("xmlns".toList, "http://www.w3.org/1998/Math/MathML".toList)] [.elem "mi".toList [] [.text "ȼ".toList]]])]
  (some "c".toList)

-- test_convert_input_expected_pairs
#guard check "<math xmlns=\"http://www.w3.org/1998/Math/MathML\"><mo>ȼ</mo></math>".toList
  [("<math xmlns=\"http://www.w3.org/1998/Math/MathML\"><mo>ȼ</mo></math>".toList,
    .ok [.elem "math".toList [("xmlns".toList, "http://www.w3.org/1998/Math/MathML".toList)] [.elem "mo".toList [] [.text "ȼ".toList]]])]
  (some "c".toList)

-- test_convert_input_expected_pairs
#guard check "<math xmlns=\"http://www.w3.org/1998/Math/MathML\"><mi>𝞮</mi></math>".toList
  [("<math xmlns=\"http://www.w3.org/1998/Math/MathML\"><mi>𝞮</mi></math>".toList,
    .ok [.elem "math".toList [("xmlns".toList, "http://www.w3.org/1998/Math/MathML".toList)] [.elem "mi".toList [] [.text "𝞮".toList]]])]
  (some "\\epsilon".toList)

-- test_convert_input_expected_pairs
#guard check "<math xmlns=\"http://www.w3.org/1998/Math/MathML\"><mo>𝞮</mo></math>".toList
  [("<math xmlns=\"http://www.w3.org/1998/Math/MathML\"><mo>𝞮</mo></math>".toList,
    .ok [.elem "math".toList [("xmlns".toList, "http://www.w3.org/1998/Math/MathML".toList)] [.elem "mo".toList [] [.text "𝞮".toList]]])]
  (some "\\epsilon".toList)

-- test_convert_input_expected_pairs
#guard check "<math xmlns=\"http://www.w3.org/1998/Math/MathML\"><mi>Δ</mi></math>".toList
  [("<math xmlns=\"http://www.w3.org/1998/Math/MathML\"><mi>Δ</mi></math>".toList,
    .ok [.elem "math".toList [("xmlns".toList, "http://www.w3.org/1998/Math/MathML".toList)] [.elem "mi".toList [] [.text "Δ".toList]]])]
  (some "\\Delta".toList)

-- test_convert_input_expected_pairs
#guard check "<math xmlns=\"http://www.w3.org/1998/Math/MathML\"><mo>Δ</mo></math>".toList
  [("<math xmlns=\"http://www.w3.org/1998/Math/MathML\"><mo>Δ</mo></math>".toList,
    .ok [.elem "math".toList [("xmlns".toList, "http://www.w3.org/1998/Math/MathML".toList)] [.elem "mo".toList [] [.text "Δ".toList]]])]
  (some "\\Delta".toList)

-- test_convert_input_expected_pairs
#guard check "<math xmlns=\"http://www.w3.org/1998/Math/MathML\"><mo>·</mo></math>".toList
  [("<math xmlns=\"http://www.w3.org/1998/Math/MathML\"><mo>·</mo></math>".toList,
    .ok [.elem "math".toList [("xmlns".toList, "http://www.w3.org/1998/Math/MathML".toList)] [.elem "mo".toList [] [.text "·".toList]]])]
  (some "\\cdot".toList)

-- test_convert_input_expected_pairs
#guard check "<math xmlns=\"http://www.w3.org/1998/Math/MathML\"><mi>·</mi></math>".toList
  [("<math xmlns=\"http://www.w3.org/1998/Math/MathML\"><mi>·</mi></math>".toList,
    .ok [.elem "math".toList [("xmlns".toList, "http://www.w3.org/1998/Math/MathML".toList)] [.elem "mi".toList [] [.text "·".toList]]])]
  (some "\\cdot".toList)

-- test_convert_input_expected_pairs
#guard check "<math xmlns=\"http://www.w3.org/1998/Math/MathML\"><mo>∅</mo></math>".toList
  [("<math xmlns=\"http://www.w3.org/1998/Math/MathML\"><mo>∅</mo></math>".toList,
    .ok [.elem "math".toList [("xmlns".toList, "http://www.w3.org/1998/Math/MathML".toList)] [.elem "mo".toList [] [.text "∅".toList]]])]
  (some "\\emptyset".toList)

-- test_convert_input_expected_pairs
#guard check "<math xmlns=\"http://www.w3.org/1998/Math/MathML\"><mi>∅</mi></math>".toList
  [("<math xmlns=\"http://www.w3.org/1998/Math/MathML\"><mi>∅</mi></math>".toList,
    .ok [.elem "math".toList [("xmlns".toList, "http://www.w3.org/1998/Math/MathML".toList)] [.elem "mi".toList [] [.text "∅".toList]]])]
  (some "\\emptyset".toList)

-- test_convert_input_expected_pairs
#guard check "<math xmlns=\"http://www.w3.org/1998/Math/MathML\"><mo>⦬</mo></math>".toList
  [("<math xmlns=\"http://www.w3.org/1998/Math/MathML\"><mo>⦬</mo></math>".toList,
    .ok [.elem "math".toList [("xmlns".toList, "http://www.w3.org/1998/Math/MathML".toList)] [.elem "mo".toList [] [.text "⦬".toList]]])]
  (some "\\measuredangle".toList)

-- test_convert_input_expected_pairs
#guard check "<math xmlns=\"http://www.w3.org/1998/Math/MathML\"><mi>⦬</mi></math>".toList
  [("<math xmlns=\"http://www.w3.org/1998/Math/MathML\"><mi>⦬</mi></math>".toList,
    .ok [.elem "math".toList [("xmlns".toList, "http://www.w3.org/1998/Math/MathML".toList)] [.elem "mi".toList [] [.text "⦬".toList]]])]
  (some "\\measuredangle".toList)

-- test_convert_input_expected_pairs
#guard check "<math xmlns=\"http://www.w3.org/1998/Math/MathML\"><mo>⦮</mo></math>".toList
  [("<math xmlns=\"http://www.w3.org/1998/Math/MathML\"><mo>⦮</mo></math>".toList,
    .ok [.elem "math".toList [("xmlns".toList, "http://www.w3.org/1998/Math/MathML".toList)] [.elem "mo".toList [] [.text "⦮".toList]]])]
  (some "\\measuredangle".toList)

-- test_convert_input_expected_pairs
#guard check "<math xmlns=\"http://www.w3.org/1998/Math/MathML\"><mi>⦮</mi></math>".toList
  [("<math xmlns=\"http://www.w3.org/1998/Math/MathML\"><mi>⦮</mi></math>".toList,
    .ok [.elem "math".toList [("xmlns".toList, "http://www.w3.org/1998/Math/MathML".toList)] [.elem "mi".toList [] [.text "⦮".toList]]])]
  (some "\\measuredangle".toList)

-- test_convert_input_expected_pairs
#guard check "<math xmlns=\"http://www.w3.org/1998/Math/MathML\"><mo>⦭</mo></math>".toList
  [("<math xmlns=\"http://www.w3.org/1998/Math/MathML\"><mo>⦭</mo></math>".toList,
    .ok [.elem "math".toList [("xmlns".toList, "http://www.w3.org/1998/Math/MathML".toList)] [.elem "mo".toList [] [.text "⦭".toList]]])]
  (some "\\measuredangle".toList)

-- test_convert_input_expected_pairs
#guard check "<math xmlns=\"http://www.w3.org/1998/Math/MathML\"><mi>⦭</mi></math>".toList
  [("<math xmlns=\"http://www.w3.org/1998/Math/MathML\"><mi>⦭</mi></math>".toList,
    .ok [.elem "math".toList [("xmlns".toList, "http://www.w3.org/1998/Math/MathML".toList)] [.elem "mi".toList [] [.text "⦭".toList]]])]
  (some "\\measuredangle".toList)

-- test_convert_input_expected_pairs
#guard check "<math xmlns=\"http://www.w3.org/1998/Math/MathML\"><mo>«</mo></math>".toList
  [("<math xmlns=\"http://www.w3.org/1998/Math/MathML\"><mo>«</mo></math>".toList,
    .ok [.elem "math".toList [("xmlns".toList, "http://www.w3.org/1998/Math/MathML".toList)] [.elem "mo".toList [] [.text "«".toList]]])]
  (some "\\ll".toList)

-- test_convert_input_expected_pairs
#guard check "<math xmlns=\"http://www.w3.org/1998/Math/MathML\"><mi>«</mi></math>".toList
  [("<math xmlns=\"http://www.w3.org/1998/Math/MathML\"><mi>«</mi></math>".toList,
    .ok [.elem "math".toList [("xmlns".toList, "http://www.w3.org/1998/Math/MathML".toList)] [.elem "mi".toList [] [.text "«".toList]]])]
  (some "\\ll".toList)

-- test_convert_input_expected_pairs
#guard check "<math xmlns=\"http://www.w3.org/1998/Math/MathML\"><mn>₈</mn></math>".toList
  [("<math xmlns=\"http://www.w3.org/1998/Math/MathML\"><mn>₈</mn></math>".toList,
    .ok [.elem "math".toList [("xmlns".toList, "http://www.w3.org/1998/Math/MathML".toList)] [.elem "mn".toList [] [.text "₈".toList]]])]
  (some "_{8}".toList)

-- test_convert_input_expected_pairs
#guard check "<math xmlns=\"http://www.w3.org/1998/Math/MathML\"><mi>₈</mi></math>".toList
  [("<math xmlns=\"http://www.w3.org/1998/Math/MathML\"><mi>₈</mi></math>".toList,
    .ok [.elem "math".toList [("xmlns".toList, "http://www.w3.org/1998/Math/MathML".toList)] [.elem "mi".toList [] [.text "₈".toList]]])]
  (some "_{8}".toList)

-- test_convert_input_expected_pairs
#guard check "<math xmlns=\"http://www.w3.org/1998/Math/MathML\"><mo>₈</mo></math>".toList
  [("<math xmlns=\"http://www.w3.org/1998/Math/MathML\"><mo>₈</mo></math>".toList,
    .ok [.elem "math".toList [("xmlns".toList, "http://www.w3.org/1998/Math/MathML".toList)] [.elem "mo".toList [] [.text "₈".toList]]])]
  (some "_{8}".toList)

-- test_convert_input_expected_pairs
#guard check "<math xmlns=\"http://www.w3.org/1998/Math/MathML\"><mi>Ȧ</mi></math>".toList
  [("<math xmlns=\"http://www.w3.org/1998/Math/MathML\"><mi>Ȧ</mi></math>".toList,
    .ok [.elem "math".toList [("xmlns".toList, "http://www.w3.org/1998/Math/MathML".toList)] [.elem "mi".toList [] [.text "Ȧ".toList]]])]
  (some "\\dot{A}".toList)

-- test_convert_input_expected_pairs
#guard check "<math xmlns=\"http://www.w3.org/1998/Math/MathML\"><mo>Ȧ</mo></math>".toList
  [("<math xmlns=\"http://www.w3.org/1998/Math/MathML\"><mo>Ȧ</mo></math>".toList,
    .ok [.elem "math".toList [("xmlns".toList, "http://www.w3.org/1998/Math/MathML".toList)] [.elem "mo".toList [] [.text "Ȧ".toList]]])]
  (some "\\dot{A}".toList)

-- test_convert_input_expected_pairs
#guard check "<math xmlns=\"http://www.w3.org/1998/Math/MathML\"><mi>λ</mi></math>".toList
  [("<math xmlns=\"http://www.w3.org/1998/Math/MathML\"><mi>λ</mi></math>".toList,
    .ok [.elem "math".toList [("xmlns".toList, "http://www.w3.org/1998/Math/MathML".toList)] [.elem "mi".toList [] [.text "λ".toList]]])]
  (some "\\lambda".toList)

-- test_convert_input_expected_pairs
#guard check "<math xmlns=\"http://www.w3.org/1998/Math/MathML\"><mo>λ</mo></math>".toList
  [("<math xmlns=\"http://www.w3.org/1998/Math/MathML\"><mo>λ</mo></math>".toList,
    .ok [.elem "math".toList [("xmlns".toList, "http://www.w3.org/1998/Math/MathML".toList)] [.elem "mo".toList [] [.text "λ".toList]]])]
  (some "\\lambda".toList)

-- test_convert_input_expected_pairs
#guard check "<math xmlns=\"http://www.w3.org/1998/Math/MathML\"><mi>Χ</mi></math>".toList
  [("<math xmlns=\"http://www.w3.org/1998/Math/MathML\"><mi>Χ</mi></math>".toList,
    .ok [.elem "math".toList [("xmlns".toList, "http://www.w3.org/1998/Math/MathML".toList)] [.elem "mi".toList [] [.text "Χ".toList]]])]
  (some "\\mathsf{X}".toList)

-- test_convert_input_expected_pairs
#guard check "<math xmlns=\"http://www.w3.org/1998/Math/MathML\"><mo>Χ</mo></math>".toList
  [("<math xmlns=\"http://www.w3.org/1998/Math/MathML\"><mo>Χ</mo></math>".toList,
    .ok [.elem "math".toList [("xmlns".toList, "http://www.w3.org/1998/Math/MathML".toList)] [.elem "mo".toList [] [.text "Χ".toList]]])]
  (some "\\mathsf{X}".toList)

-- test_convert_ms_word_input
#guard check "\n<mml:math xmlns:mml=\"http://www.w3.org/1998/Math/MathML\" xmlns:m=\"http://schemas.openxmlformats.org/officeDocument/2006/math\">\n  <mml:msub>\n    <mml:mrow>\n      <mml:mi>V</mml:mi>\n    </mml:mrow>\n    <mml:mrow>\n      <mml:mi>i</mml:mi>\n    </mml:mrow>\n  </mml:msub>\n  <mml:mfrac>\n    <mml:mrow>\n      <mml:mi mathvariant=\"normal\">Δ</mml:mi>\n      <mml:msubsup>\n        <mml:mrow>\n          <mml:mi>C</mml:mi>\n        </mml:mrow>\n        <mml:mrow>\n          <mml:mi>A</mml:mi>\n          <mml:mo>,</mml:mo>\n          <mml:mi>i</mml:mi>\n        </mml:mrow>\n        <mml:mrow>\n          <mml:mi>t</mml:mi>\n        </mml:mrow>\n      </mml:msubsup>\n    </mml:mrow>\n    <mml:mrow>\n      <mml:mi mathvariant=\"normal\">Δ</mml:mi>\n      <mml:mi>t</mml:mi>\n    </mml:mrow>\n  </mml:mfrac>\n  <mml:mo>=</mml:mo>\n  <mml:mrow>\n    <mml:munderover>\n      <mml:mo stretchy=\"false\">∑</mml:mo>\n      <mml:mrow>\n        <mml:mi>j</mml:mi>\n        <mml:mo>=</mml:mo>\n        <mml:mi>k</mml:mi>\n      </mml:mrow>\n      <mml:mrow>\n        <mml:mi>N</mml:mi>\n      </mml:mrow>\n    </mml:munderover>\n    <mml:mrow>\n      <mml:msubsup>\n        <mml:mrow>\n          <mml:mi>G</mml:mi>\n        </mml:mrow>\n        <mml:mrow>\n          <mml:mi>i</mml:mi>\n          <mml:mo>,</mml:mo>\n          <mml:mi>j</mml:mi>\n        </mml:mrow>\n        <mml:mrow>\n          <mml:mi>D</mml:mi>\n        </mml:mrow>\n      </mml:msubsup>\n      <mml:mfenced separators=\"|\">\n        <mml:mrow>\n          <mml:msub>\n            <mml:mrow>\n              <mml:mi>C</mml:mi>\n            </mml:mrow>\n            <mml:mrow>\n              <mml:mi>A</mml:mi>\n              <mml:mo>,</mml:mo>\n              <mml:mi>j</mml:mi>\n            </mml:mrow>\n          </mml:msub>\n          <mml:mo>-</mml:mo>\n          <mml:msub>\n            <mml:mrow>\n              <mml:mi>C</mml:mi>\n            </mml:mrow>\n            <mml:mrow>\n              <mml:mi>A</mml:mi>\n              <mml:mo>,</mml:mo>\n              <mml:mi>i</mml:mi>\n            </mml:mrow>\n          </mml:msub>\n        </mml:mrow>\n      </mml:mfenced>\n    </mml:mrow>\n  </mml:mrow>\n</mml:math>\n".toList
  [("<math xmlns:mml=\"http://www.w3.org/1998/Math/MathML\" xmlns:m=\"http://schemas.openxmlformats.org/officeDocument/2006/math\">  <msub>    <mrow>      <mi>V</mi>    </mrow>    <mrow>      <mi>i</mi>    </mrow>  </msub>  <mfrac>    <mrow>      <mi mathvariant=\"normal\">Δ</mi>      <msubsup>        <mrow>          <mi>C</mi>        </mrow>        <mrow>          <mi>A</mi>          <mo>,</mo>          <mi>i</mi>        </mrow>        <mrow>          <mi>t</mi>        </mrow>      </msubsup>    </mrow>    <mrow>      <mi mathvariant=\"normal\">Δ</mi>      <mi>t</mi>    </mrow>  </mfrac>  <mo>=</mo>  <mrow>    <munderover>      <mo stretchy=\"false\">∑</mo>      <mrow>        <mi>j</mi>        <mo>=</mo>        <mi>k</mi>      </mrow>      <mrow>        <mi>N</mi>      </mrow>    </munderover>    <mrow>      <msubsup>        <mrow>          <mi>G</mi>        </mrow>        <mrow>          <mi>i</mi>          <mo>,</mo>          <mi>j</mi>        </mrow>        <mrow>          <mi>D</mi>        </mrow>      </msubsup>      <mfenced separators=\"|\">        <mrow>          <msub>            <mrow>              <mi>C</mi>            </mrow>            <mrow>              <mi>A</mi>              <mo>,</mo>              <mi>j</mi>            </mrow>          </msub>          <mo>-</mo>          <msub>            <mrow>              <mi>C</mi>            </mrow>            <mrow>              <mi>A</mi>              <mo>,</mo>              <mi>i</mi>            </mrow>          </msub>        </mrow>      </mfenced>    </mrow>  </mrow></math>".toList,
    .ok [.elem "math".toList [("xmlns:mml".toList, "http://www.w3.org/1998/Math/MathML".toList), ("xmlns:m".toList, "http://schemas.openxmlformats.org/officeDocument/2006/math".toList)] [.text "  ".toList, .elem "msub".toList [] [.text "    ".toList, .elem "mrow".toList [] [.text "      ".toList, .elem "mi".toList [] [.text "V".toList], .text "    ".toList], .text "    ".toList, .elem "mrow".toList [] [.text "      ".toList, .elem "mi".toList [] [.text "i".toList], .text "    ".toList], .text "  ".toList], .text "  ".toList, .elem "mfrac".toList [] [.text "    ".toList, .elem "mrow".toList [] [.text "      ".toList, .elem "mi".toList [("mathvariant".toList, "normal".toList)] [.text "Δ".toList], .text "      ".toList, .elem "msubsup".toList [] [.text "        ".toList, .elem "mrow".toList [] [.text "          ".toList, .elem "mi".toList [] [.text "C".toList], .text "        ".toList], .text "        ".toList, .elem "mrow".toList [] [.text "          ".toList, .elem "mi".toList [] [.text "A".toList], .text "          ".toList, .elem "mo".toList [] [.text ",".toList], .text "          ".toList, .elem "mi".toList [] [.text "i".toList], .text "        ".toList], .text "        ".toList, .elem "mrow".toList [] [.text "          ".toList, .elem "mi".toList [] [.text "t".toList], .text "        ".toList], .text "      ".toList], .text "    ".toList], .text "    ".toList, .elem "mrow".toList [] [.text "      ".toList, .elem "mi".toList [("mathvariant".toList, "normal".toList)] [.text "Δ".toList], .text "      ".toList, .elem "mi".toList [] [.text "t".toList], .text "    ".toList], .text "  ".toList], .text "  ".toList, .elem "mo".toList [] [.text "=".toList], .text "  ".toList, .elem "mrow".toList [] [.text "    ".toList, .elem "munderover".toList [] [.text "      ".toList, .elem "mo".toList [("stretchy".toList, "false".toList)] [.text "∑".toList], .text "      ".toList, .elem "mrow".toList [] [.text "        ".toList, .elem "mi".toList [] [.text "j".toList], .text "        ".toList, .elem "mo".toList [] [.text "=".toList], .text "        ".toList, .elem "mi".toList [] [.text "k".toList], .text "      ".toList], .text "      ".toList, .elem "mrow".toList [] [.text "        ".toList, .elem "mi".toList [] [.text "N".toList], .text "      ".toList], .text "    ".toList], .text "    ".toList, .elem "mrow".toList [] [.text "      ".toList, .elem "msubsup".toList [] [.text "        ".toList, .elem "mrow".toList [] [.text "          ".toList, .elem "mi".toList [] [.text "G".toList], .text "        ".toList], .text "        ".toList, .elem "mrow".toList [] [.text "          ".toList, .elem "mi".toList [] [.text "i".toList], .text "          ".toList, .elem "mo".toList [] [.text ",".toList], .text "          ".toList, .elem "mi".toList [] [.text "j".toList], .text "        ".toList], .text "        ".toList, .elem "mrow".toList [] [.text "          ".toList, .elem "mi".toList [] [.text "D".toList], .text "        ".toList], .text "      ".toList], .text "      ".toList, .elem "mfenced".toList [("separators".toList, "|".toList)] [.text "        ".toList, .elem "mrow".toList [] [.text "          ".toList, .elem "msub".toList [] [.text "            ".toList, .elem "mrow".toList [] [.text "              ".toList, .elem "mi".toList [] [.text "C".toList], .text "            ".toList], .text "            ".toList, .elem "mrow".toList [] [.text "              ".toList, .elem "mi".toList [] [.text "A".toList], .text "              ".toList, .elem "mo".toList [] [.text ",".toList], .text "              ".toList, .elem "mi".toList [] [.text "j".toList], .text "            ".toList], .text "          ".toList], .text "          ".toList, .elem "mo".toList [] [.text "-".toList], .text "          ".toList, .elem "msub".toList [] [.text "            ".toList, .elem "mrow".toList [] [.text "              ".toList, .elem "mi".toList [] [.text "C".toList], .text "            ".toList], .text "            ".toList, .elem "mrow".toList [] [.text "              ".toList, .elem "mi".toList [] [.text "A".toList], .text "              ".toList, .elem "mo".toList [] [.text ",".toList], .text "              ".toList, .elem "mi".toList [] [.text "i".toList], .text "            ".toList], .text "          ".toList], .text "        ".toList], .text "      ".toList], .text "    ".toList], .text "  ".toList]]])]
  (some "V_{i} \\frac{\\Delta C_{A , i}^{t}}{\\Delta t} = \\sum_{j = k}^{N} G_{i , j}^{D} \\left(C_{A , j} - C_{A , i}\\right)".toList)

-- test_convert_not_add_unnecessary_delimiters
#guard check "\n<math xmlns=\"http://www.w3.org/1998/Math/MathML\" display=\"block\">\n  <semantics>\n    <mrow>\n      <msub>\n        <mtext>Required Value</mtext>\n        <mtext>other</mtext>\n      </msub>\n      <mo>≥</mo>\n      <mfrac>\n        <mrow>\n          <mn>21</mn>\n          <mi>f</mi>\n          <msup>\n            <mi>t</mi>\n            <mn>3</mn>\n          </msup>\n        </mrow>\n        <mrow>\n          <mi>A</mi>\n          <mi>C</mi>\n          <mi>H</mi>\n        </mrow>\n      </mfrac>\n      <mo>⋅</mo>\n      <mo fence=\"true\">(</mo>\n      <mfrac>\n        <msub>\n          <mi>I</mi>\n          <mi>o</mi>\n        </msub>\n        <mrow>\n          <mn>1000</mn>\n          <msub>\n            <mi>B</mi>\n            <mrow>\n              <mtext>Btu</mtext>\n              <mi mathvariant=\"normal\">/</mi>\n              <mtext>h</mtext>\n            </mrow>\n          </msub>\n        </mrow>\n      </mfrac>\n      <mo fence=\"true\">)</mo>\n    </mrow>\n  </semantics>\n</math>\n".toList
  [("<math xmlns=\"http://www.w3.org/1998/Math/MathML\" display=\"block\">  <semantics>    <mrow>      <msub>        <mtext>Required Value</mtext>        <mtext>other</mtext>      </msub>      <mo>≥</mo>      <mfrac>        <mrow>          <mn>21</mn>          <mi>f</mi>          <msup>            <mi>t</mi>            <mn>3</mn>          </msup>        </mrow>        <mrow>          <mi>A</mi>          <mi>C</mi>          <mi>H</mi>        </mrow>      </mfrac>      <mo>⋅</mo>      <mo fence=\"true\">(</mo>      <mfrac>        <msub>          <mi>I</mi>          <mi>o</mi>        </msub>        <mrow>          <mn>1000</mn>          <msub>            <mi>B</mi>            <mrow>              <mtext>Btu</mtext>              <mi mathvariant=\"normal\">/</mi>              <mtext>h</mtext>            </mrow>          </msub>        </mrow>      </mfrac>      <mo fence=\"true\">)</mo>    </mrow>  </semantics></math>".toList,
    .ok [.elem "math".toList [("xmlns".toList, "http://www.w3.org/1998/Math/MathML".toList), ("display".toList, "block".toList)] [.text "  ".toList, .elem "semantics".toList [] [.text "    ".toList, .elem "mrow".toList [] [.text "      ".toList, .elem "msub".toList [] [.text "        ".toList, .elem "mtext".toList [] [.text "Required Value".toList], .text "        ".toList, .elem "mtext".toList [] [.text "other".toList], .text "      ".toList], .text "      ".toList, .elem "mo".toList [] [.text "≥".toList], .text "      ".toList, .elem "mfrac".toList [] [.text "        ".toList, .elem "mrow".toList [] [.text "          ".toList, .elem "mn".toList [] [.text "21".toList], .text "          ".toList, .elem "mi".toList [] [.text "f".toList], .text "          ".toList, .elem "msup".toList [] [.text "            ".toList, .elem "mi".toList [] [.text "t".toList], .text "            ".toList, .elem "mn".toList [] [.text "3".toList], .text "          ".toList], .text "        ".toList], .text "        ".toList, .elem "mrow".toList [] [.text "          ".toList, .elem "mi".toList [] [.text "A".toList], .text "          ".toList, .elem "mi".toList [] [.text "C".toList], .text "          ".toList, .elem "mi".toList [] [.text "H".toList], .text "        ".toList], .text "      ".toList], .text "      ".toList, .elem "mo".toList [] [.text "⋅".toList], .text "      ".toList, .elem "mo".toList [("fence".toList, "true".toList)] [.text "(".toList], .text "      ".toList, .elem "mfrac".toList [] [.text "        ".toList, .elem "msub".toList [] [.text "          ".toList, .elem "mi".toList [] [.text "I".toList], .text "          ".toList, .elem "mi".toList [] [.text "o".toList], .text "        ".toList], .text "        ".toList, .elem "mrow".toList [] [.text "          ".toList, .elem "mn".toList [] [.text "1000".toList], .text "          ".toList, .elem "msub".toList [] [.text "            ".toList, .elem "mi".toList [] [.text "B".toList], .text "            ".toList, .elem "mrow".toList [] [.text "              ".toList, .elem "mtext".toList [] [.text "Btu".toList], .text "              ".toList, .elem "mi".toList [("mathvariant".toList, "normal".toList)] [.text "/".toList], .text "              ".toList, .elem "mtext".toList [] [.text "h".toList], .text "            ".toList], .text "          ".toList], .text "        ".toList], .text "      ".toList], .text "      ".toList, .elem "mo".toList [("fence".toList, "true".toList)] [.text ")".toList], .text "    ".toList], .text "  ".toList]]])]
  (some "\\text{Required Value}_{\\text{other}} \\geq \\frac{21 f t^{3}}{A C H} \\cdot \\left(\\right. \\frac{I_{o}}{1000 B_{\\text{Btu} / \\text{h}}} \\left.\\right)".toList)

-- test_convert_mmultiscripts_empty_preset
#guard check "\n<math xmlns=\"http:#www.w3.org/1998/Math/MathML\" display=\"block\">\n  <mmultiscripts>\n\n    <mi>X</mi>      <!-- base expression -->\n\n    <none />        <!-- postsubscript -->\n    <mi>c</mi>      <!-- postsuperscript -->\n\n    <mprescripts />\n    <mi>b</mi>      <!-- presubscript -->\n    <none />        <!-- presuperscript -->\n\n  </mmultiscripts>\n</math>\n".toList
  [("<math xmlns=\"http:#www.w3.org/1998/Math/MathML\" display=\"block\">  <mmultiscripts>    <mi>X</mi>      <!-- base expression -->    <none />        <!-- postsubscript -->    <mi>c</mi>      <!-- postsuperscript -->    <mprescripts />    <mi>b</mi>      <!-- presubscript -->    <none />        <!-- presuperscript -->  </mmultiscripts></math>".toList,
    .ok [.elem "math".toList [("xmlns".toList, "http:#www.w3.org/1998/Math/MathML".toList), ("display".toList, "block".toList)] [.text "  ".toList, .elem "mmultiscripts".toList [] [.text "    ".toList, .elem "mi".toList [] [.text "X".toList], .text "      ".toList, .comment " base expression ".toList, .text "    ".toList, .elem "none".toList [] [], .text "        ".toList, .comment " postsubscript ".toList, .text "    ".toList, .elem "mi".toList [] [.text "c".toList], .text "      ".toList, .comment " postsuperscript ".toList, .text "    ".toList, .elem "mprescripts".toList [] [], .text "    ".toList, .elem "mi".toList [] [.text "b".toList], .text "      ".toList, .comment " presubscript ".toList, .text "    ".toList, .elem "none".toList [] [], .text "        ".toList, .comment " presuperscript ".toList, .text "  ".toList]]])]
  (some "\\_{b}^{}X_{}^{c}".toList)

-- test_should_fail_if_invalid_mathml_is_given
#guard check "\n<math xmlns=\"http://www.w3.org/1998/Math/MathML\">\n  <mn>20</mn>\n  <mo>°</mo>\n  <mi>C</mi>\n</math>. Qual é o valor de\n".toList
  [("<math xmlns=\"http://www.w3.org/1998/Math/MathML\">  <mn>20</mn>  <mo>°</mo>  <mi>C</mi></math>. Qual é o valor de".toList,
    .error (.expat 9 1 93)),
   ("<math xmlns=\"http://www.w3.org/1998/Math/MathML\">  <mn>20</mn>  <mo>°</mo>  . Qual é o valor de".toList,
    .error (.expat 3 1 95)),
   ("<math xmlns=\"http://www.w3.org/1998/Math/MathML\">  <mn>20</mn>    . Qual é o valor de".toList,
    .error (.expat 3 1 85)),
   ("<math xmlns=\"http://www.w3.org/1998/Math/MathML\">      . Qual é o valor de".toList,
    .error (.expat 3 1 74)),
   ("<math       . Qual é o valor de".toList,
    .error (.expat 4 1 12))]
  none

end Verif.Tests
