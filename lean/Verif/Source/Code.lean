import Verif.Source.Syntax

/-! # The source, as syntax trees

Generated by tools/gen_source.py from /repo/src/mathml_to_latex. -/

namespace Verif.Src

/-- syntax.py 20–21 `UTF8ToLtXConverter.convert` -/
def UTF8ToLtXConverter_convert : Func :=
  ⟨[(.self, none), (.«char», none)],
  [.pass]⟩

/-- syntax.py 25–41 `HashUTF8ToLtXConverter.convert` -/
def HashUTF8ToLtXConverter_convert : Func :=
  ⟨[(.self, none), (.«char», none)],
  [.assign .is_alphanumeric (.call (.attr (.name .re) .«match») [.str c!"[a-z0-9]", .name .«char», .attr (.name .re) .IGNORECASE] [] []),
   .ite (.name .is_alphanumeric)
   [.ret (.name .«char»)]
   [],
   .assign .accent_char (.call (.attr (.name .vowels_with_accents) .get) [.name .«char»] [] []),
   .ite (.name .accent_char)
   [.assign .ltx_cmd (.call (.attr (.name .self) .convert_accent_char_to_ltx) [.name .accent_char] [] []),
    .ite (.name .ltx_cmd)
    [.ret (.name .ltx_cmd)]
    [],
    .ret (.name .«char»)]
   [],
   .assign .special_char (.call (.attr (.name .self) .convert_special_char_to_ltx) [.name .«char»] [] []),
   .ite (.name .special_char)
   [.ret (.name .special_char)]
   [],
   .ret (.name .«char»)]⟩

/-- syntax.py 43–47 `HashUTF8ToLtXConverter.convert_accent_char_to_ltx` -/
def HashUTF8ToLtXConverter_convert_accent_char_to_ltx : Func :=
  ⟨[(.self, none), (.accent_char, none)],
  [.assign .cmd (.call (.attr (.name .accent_to_ltx_cmd) .get) [.attr (.name .accent_char) .accent] [] []),
   .ite (.not (.name .cmd))
   [.ret (.none)]
   [],
   .ret (.fstr [.str c!"\\", .name .cmd, .str c!"{", .attr (.name .accent_char) .«char», .str c!"}"])]⟩

/-- syntax.py 49–53 `HashUTF8ToLtXConverter.convert_special_char_to_ltx` -/
def HashUTF8ToLtXConverter_convert_special_char_to_ltx : Func :=
  ⟨[(.self, none), (.«char», none)],
  [.assign .special_font_char (.call (.attr (.name .special_font_chars) .get) [.name .«char»] [] []),
   .ite (.not (.name .special_font_char))
   [.ret (.none)]
   [],
   .ret (.fstr [.str c!"\\", .attr (.name .special_font_char) .font_cmd, .str c!"{", .attr (.name .special_font_char) .letter, .str c!"}"])]⟩

/-- el_to_tex/services/normalizer.py 2–3 `WhiteSpaceNormalizer.normalize` -/
def WhiteSpaceNormalizer_normalize : Func :=
  ⟨[(.self, none), (.string, none)],
  [.ret (.call (.attr (.str c!" ") .join) [.call (.attr (.name .string) .split) [] [] []] [] [])]⟩

/-- el_to_tex/services/wrapper.py 4–6 `Wrapper.__init__` -/
def Wrapper___init__ : Func :=
  ⟨[(.self, none), (.op, none), (.close, none)],
  [.setAttr (.name .self) ._open (.name .op),
   .setAttr (.name .self) ._close (.name .close)]⟩

/-- el_to_tex/services/wrapper.py 8–9 `Wrapper.wrap` -/
def Wrapper_wrap : Func :=
  ⟨[(.self, none), (.val, none)],
  [.ret (.add (.add (.attr (.name .self) ._open) (.name .val)) (.attr (.name .self) ._close))]⟩

/-- el_to_tex/services/wrapper.py 12–13 `ParenthesisWrapper.__init__` -/
def ParenthesisWrapper___init__ : Func :=
  ⟨[(.self, none)],
  [.expr (.call (.super .Wrapper .__init__) [.str c!"\\left(", .str c!"\\right)"] [] [])]⟩

/-- el_to_tex/services/wrapper.py 15–16 `ParenthesisWrapper.wrap` -/
def ParenthesisWrapper_wrap : Func :=
  ⟨[(.self, none), (.val, none)],
  [.ret (.call (.super .Wrapper .wrap) [.name .val] [] [])]⟩

/-- el_to_tex/services/wrapper.py 18–21 `ParenthesisWrapper.wrap_if_more_than_one_char` -/
def ParenthesisWrapper_wrap_if_more_than_one_char : Func :=
  ⟨[(.self, none), (.val, none)],
  [.ite (.cmp .le (.call (.name .len) [.name .val] [] []) (.int 1))
   [.ret (.name .val)]
   [],
   .ret (.call (.attr (.name .self) .wrap) [.name .val] [] [])]⟩

/-- el_to_tex/services/wrapper.py 24–25 `BracketWrapper.__init__` -/
def BracketWrapper___init__ : Func :=
  ⟨[(.self, none)],
  [.expr (.call (.super .Wrapper .__init__) [.str c!"{", .str c!"}"] [] [])]⟩

/-- el_to_tex/services/wrapper.py 27–28 `BracketWrapper.wrap` -/
def BracketWrapper_wrap : Func :=
  ⟨[(.self, none), (.val, none)],
  [.ret (.call (.super .Wrapper .wrap) [.name .val] [] [])]⟩

/-- el_to_tex/services/wrapper.py 31–34 `GenericWrapper.__init__` -/
def GenericWrapper___init__ : Func :=
  ⟨[(.self, none), (.op, none), (.close, none)],
  [.assign .open_cmd (.fstr [.str c!"\\left", .name .op]),
   .assign .close_cmd (.fstr [.str c!"\\right", .name .close]),
   .expr (.call (.super .Wrapper .__init__) [.name .open_cmd, .name .close_cmd] [] [])]⟩

/-- el_to_tex/services/wrapper.py 36–37 `GenericWrapper.wrap` -/
def GenericWrapper_wrap : Func :=
  ⟨[(.self, none), (.val, none)],
  [.ret (.call (.super .Wrapper .wrap) [.name .val] [] [])]⟩

/-- el_to_tex/services/wrapper.py 40–41 `JoinWithManySeparators.__init__` -/
def JoinWithManySeparators___init__ : Func :=
  ⟨[(.self, none), (.separators, none)],
  [.setAttr (.name .self) ._separators (.name .separators)]⟩

/-- el_to_tex/services/wrapper.py 43–48 `JoinWithManySeparators.join` -/
def JoinWithManySeparators_join : Func :=
  ⟨[(.self, none), (.arr, none)],
  [.assign .acc (.str c!""),
   .forEnum .index .current_str (.name .arr)
   [.assign .separator (.ite (.cmp .eq (.name .index) (.sub (.call (.name .len) [.name .arr] [] []) (.int 1))) (.str c!"") (.call (.attr (.name .self) ._get) [.name .index] [] [])),
    .assign .acc (.add (.name .acc) (.add (.name .current_str) (.name .separator)))],
   .ret (.name .acc)]⟩

/-- el_to_tex/services/wrapper.py 51–55 `JoinWithManySeparators._get` -/
def JoinWithManySeparators__get : Func :=
  ⟨[(.self, none), (.index, none)],
  [.ite (.cmp .lt (.name .index) (.call (.name .len) [.attr (.name .self) ._separators] [] []))
   [.ret (.item (.attr (.name .self) ._separators) (.name .index))]
   [],
   .ret (.ite (.cmp .gt (.call (.name .len) [.attr (.name .self) ._separators] [] []) (.int 0)) (.item (.attr (.name .self) ._separators) (.int (-1))) (.str c!","))]⟩

/-- el_to_tex/protocols.py 7–8 `MathMLElement.name` -/
def MathMLElement_name : Func :=
  ⟨[(.self, none)],
  [.pass]⟩

/-- el_to_tex/protocols.py 12–13 `MathMLElement.value` -/
def MathMLElement_value : Func :=
  ⟨[(.self, none)],
  [.pass]⟩

/-- el_to_tex/protocols.py 17–18 `MathMLElement.children` -/
def MathMLElement_children : Func :=
  ⟨[(.self, none)],
  [.pass]⟩

/-- el_to_tex/protocols.py 22–23 `MathMLElement.attributes` -/
def MathMLElement_attributes : Func :=
  ⟨[(.self, none)],
  [.pass]⟩

/-- el_to_tex/protocols.py 28–29 `ToLaTeXConverter.convert` -/
def ToLaTeXConverter_convert : Func :=
  ⟨[(.self, none)],
  [.pass]⟩

/-- el_to_tex/protocols.py 33–37 `GenericMathMLElement.__init__` -/
def GenericMathMLElement___init__ : Func :=
  ⟨[(.self, none), (.«name», none), (.value, none), (.children, none), (.attributes, none)],
  [.setAttr (.name .self) ._name (.name .«name»),
   .setAttr (.name .self) ._value (.name .value),
   .setAttr (.name .self) ._children (.name .children),
   .setAttr (.name .self) ._attributes (.name .attributes)]⟩

/-- el_to_tex/protocols.py 40–41 `GenericMathMLElement.name` -/
def GenericMathMLElement_name : Func :=
  ⟨[(.self, none)],
  [.ret (.attr (.name .self) ._name)]⟩

/-- el_to_tex/protocols.py 44–45 `GenericMathMLElement.value` -/
def GenericMathMLElement_value : Func :=
  ⟨[(.self, none)],
  [.ret (.attr (.name .self) ._value)]⟩

/-- el_to_tex/protocols.py 48–49 `GenericMathMLElement.children` -/
def GenericMathMLElement_children : Func :=
  ⟨[(.self, none)],
  [.ret (.attr (.name .self) ._children)]⟩

/-- el_to_tex/protocols.py 52–53 `GenericMathMLElement.attributes` -/
def GenericMathMLElement_attributes : Func :=
  ⟨[(.self, none)],
  [.ret (.attr (.name .self) ._attributes)]⟩

/-- el_to_tex/protocols.py 58–59 `VoidMathMLElement.name` -/
def VoidMathMLElement_name : Func :=
  ⟨[(.self, none)],
  [.ret (.str c!"void")]⟩

/-- el_to_tex/protocols.py 62–63 `VoidMathMLElement.value` -/
def VoidMathMLElement_value : Func :=
  ⟨[(.self, none)],
  [.ret (.str c!"")]⟩

/-- el_to_tex/protocols.py 66–67 `VoidMathMLElement.children` -/
def VoidMathMLElement_children : Func :=
  ⟨[(.self, none)],
  [.ret (.list [])]⟩

/-- el_to_tex/protocols.py 70–71 `VoidMathMLElement.attributes` -/
def VoidMathMLElement_attributes : Func :=
  ⟨[(.self, none)],
  [.ret (.dict [] [])]⟩

/-- el_to_tex/protocols.py 75–76 `MIMathMlElement.__init__` -/
def MIMathMlElement___init__ : Func :=
  ⟨[(.self, none), (.value, none)],
  [.setAttr (.name .self) ._value (.name .value)]⟩

/-- el_to_tex/protocols.py 79–80 `MIMathMlElement.name` -/
def MIMathMlElement_name : Func :=
  ⟨[(.self, none)],
  [.ret (.str c!"mi")]⟩

/-- el_to_tex/protocols.py 83–84 `MIMathMlElement.value` -/
def MIMathMlElement_value : Func :=
  ⟨[(.self, none)],
  [.ret (.attr (.name .self) ._value)]⟩

/-- el_to_tex/protocols.py 87–88 `MIMathMlElement.children` -/
def MIMathMlElement_children : Func :=
  ⟨[(.self, none)],
  [.ret (.list [])]⟩

/-- el_to_tex/protocols.py 91–92 `MIMathMlElement.attributes` -/
def MIMathMlElement_attributes : Func :=
  ⟨[(.self, none)],
  [.ret (.dict [] [])]⟩

/-- el_to_tex/protocols.py 96–106 `InvalidNumberOfChildrenError.__init__` -/
def InvalidNumberOfChildrenError___init__ : Func :=
  ⟨[(.self, none), (.tag_name, none), (.expected_number_of_child, none), (.current_number_of_child, none), (.comparison, some c!"exactly")],
  [.expr (.call (.super .Exception .__init__) [.fstr [.name .tag_name, .str c!" tag must have ", .name .comparison, .str c!" ", .name .expected_number_of_child, .str c!" children. It's actually ", .name .current_number_of_child]] [] []),
   .setAttr (.name .self) .«name» (.str c!"InvalidNumberOfChildrenError")]⟩

/-- el_to_tex/usecases.py 29–32 `Math.__init__` -/
def Math___init__ : Func :=
  ⟨[(.self, none), (.math_element, none), (.adapter, none)],
  [.setAttr (.name .self) ._white_space_normalizer (.call (.name .WhiteSpaceNormalizer) [] [] []),
   .setAttr (.name .self) ._adapter (.name .adapter),
   .setAttr (.name .self) ._math_element (.name .math_element)]⟩

/-- el_to_tex/usecases.py 34–41 `Math.convert` -/
def Math_convert : Func :=
  ⟨[(.self, none)],
  [.assign .raw_tex (.call (.attr (.str c!" ") .join) [.comp (.call (.attr (.call (.attr (.attr (.name .self) ._adapter) .to_latex_converter) [.name .child] [] []) .convert) [] [] []) .child (.attr (.attr (.name .self) ._math_element) .children) []] [] []),
   .ret (.call (.attr (.attr (.name .self) ._white_space_normalizer) .normalize) [.name .raw_tex] [] [])]⟩

/-- el_to_tex/usecases.py 45–46 `Void.__init__` -/
def Void___init__ : Func :=
  ⟨[(.self, none), (.math_element, none)],
  [.setAttr (.name .self) ._math_element (.name .math_element)]⟩

/-- el_to_tex/usecases.py 48–49 `Void.convert` -/
def Void_convert : Func :=
  ⟨[(.self, none)],
  [.ret (.str c!"")]⟩

/-- el_to_tex/usecases.py 53–56 `MI.__init__` -/
def MI___init__ : Func :=
  ⟨[(.self, none), (.math_element, none)],
  [.setAttr (.name .self) ._utf8_converter (.call (.name .HashUTF8ToLtXConverter) [] [] []),
   .setAttr (.name .self) ._normalizer (.call (.name .WhiteSpaceNormalizer) [] [] []),
   .setAttr (.name .self) ._math_element (.name .math_element)]⟩

/-- el_to_tex/usecases.py 58–72 `MI.convert` -/
def MI_convert : Func :=
  ⟨[(.self, none)],
  [.assign .normalized_value (.call (.attr (.attr (.name .self) ._normalizer) .normalize) [.attr (.attr (.name .self) ._math_element) .value] [] []),
   .ite (.cmp .eq (.name .normalized_value) (.str c!" "))
   [.ret (.call (.attr (.name .Character) .apply) [.name .normalized_value] [] [])]
   [],
   .assign .trimmed_value (.call (.attr (.name .normalized_value) .strip) [] [] []),
   .assign .converted_char (.call (.attr (.name .Character) .apply) [.name .trimmed_value] [] []),
   .assign .parsed_char (.call (.attr (.attr (.name .self) ._utf8_converter) .convert) [.name .converted_char] [] []),
   .ite (.cmp .ne (.name .parsed_char) (.name .converted_char))
   [.ret (.name .parsed_char)]
   [],
   .ret (.call (.attr (.name .self) ._wrap_in_math_variant) [.name .converted_char, .call (.attr (.name .self) ._get_math_variant) [.attr (.attr (.name .self) ._math_element) .attributes] [] []] [] [])]⟩

/-- el_to_tex/usecases.py 74–77 `MI._get_math_variant` -/
def MI__get_math_variant : Func :=
  ⟨[(.self, none), (.attributes, none)],
  [.ite (.or (.not (.name .attributes)) (.cmp .notMem (.str c!"mathvariant") (.name .attributes)))
   [.ret (.str c!"")]
   [],
   .ret (.item (.name .attributes) (.str c!"mathvariant"))]⟩

/-- el_to_tex/usecases.py 79–106 `MI._wrap_in_math_variant` -/
def MI__wrap_in_math_variant : Func :=
  ⟨[(.self, none), (.value, none), (.math_variant, none)],
  [.ite (.cmp .eq (.name .math_variant) (.str c!"bold"))
   [.ret (.fstr [.str c!"\\mathbf{", .name .value, .str c!"}"])]
   [],
   .ite (.cmp .eq (.name .math_variant) (.str c!"italic"))
   [.ret (.fstr [.str c!"\\mathit{", .name .value, .str c!"}"])]
   [],
   .ite (.cmp .eq (.name .math_variant) (.str c!"bold-italic"))
   [.ret (.fstr [.str c!"\\mathbf{\\mathit{", .name .value, .str c!"}}"])]
   [],
   .ite (.cmp .eq (.name .math_variant) (.str c!"double-struck"))
   [.ret (.fstr [.str c!"\\mathbb{", .name .value, .str c!"}"])]
   [],
   .ite (.cmp .eq (.name .math_variant) (.str c!"bold-fraktur"))
   [.ret (.fstr [.str c!"\\mathbf{\\mathfrak{", .name .value, .str c!"}}"])]
   [],
   .ite (.cmp .eq (.name .math_variant) (.str c!"script"))
   [.ret (.fstr [.str c!"\\mathcal{", .name .value, .str c!"}"])]
   [],
   .ite (.cmp .eq (.name .math_variant) (.str c!"bold-script"))
   [.ret (.fstr [.str c!"\\mathbf{\\mathcal{", .name .value, .str c!"}}"])]
   [],
   .ite (.cmp .eq (.name .math_variant) (.str c!"fraktur"))
   [.ret (.fstr [.str c!"\\mathfrak{", .name .value, .str c!"}"])]
   [],
   .ite (.cmp .eq (.name .math_variant) (.str c!"sans-serif"))
   [.ret (.fstr [.str c!"\\mathsf{", .name .value, .str c!"}"])]
   [],
   .ite (.cmp .eq (.name .math_variant) (.str c!"bold-sans-serif"))
   [.ret (.fstr [.str c!"\\mathbf{\\mathsf{", .name .value, .str c!"}}"])]
   [],
   .ite (.cmp .eq (.name .math_variant) (.str c!"sans-serif-italic"))
   [.ret (.fstr [.str c!"\\mathsf{\\mathit{", .name .value, .str c!"}}"])]
   [],
   .ite (.cmp .eq (.name .math_variant) (.str c!"sans-serif-bold-italic"))
   [.ret (.fstr [.str c!"\\mathbf{\\mathsf{\\mathit{", .name .value, .str c!"}}}"])]
   [],
   .ite (.cmp .eq (.name .math_variant) (.str c!"monospace"))
   [.ret (.fstr [.str c!"\\mathtt{", .name .value, .str c!"}"])]
   [],
   .ret (.name .value)]⟩

/-- el_to_tex/usecases.py 110–111 `Character.__init__` -/
def Character___init__ : Func :=
  ⟨[(.self, none), (.value, none)],
  [.setAttr (.name .self) .value (.name .value)]⟩

/-- el_to_tex/usecases.py 114–115 `Character.apply` -/
def Character_apply : Func :=
  ⟨[(.value, none)],
  [.ret (.call (.attr (.call (.name .Character) [.name .value] [] []) ._apply) [] [] [])]⟩

/-- el_to_tex/usecases.py 117–123 `Character._apply` -/
def Character__apply : Func :=
  ⟨[(.self, none)],
  [.ret (.or (.call (.attr (.name .self) ._find_by_character) [] [] []) (.or (.call (.attr (.name .self) ._find_by_glyph) [] [] []) (.or (.call (.attr (.name .self) ._find_by_number) [] [] []) (.call (.attr (.call (.name .HashUTF8ToLtXConverter) [] [] []) .convert) [.attr (.name .self) .value] [] []))))]⟩

/-- el_to_tex/usecases.py 125–126 `Character._find_by_character` -/
def Character__find_by_character : Func :=
  ⟨[(.self, none)],
  [.ret (.call (.attr (.name .all_math_symbols_by_char) .get) [.attr (.name .self) .value, .str c!""] [] [])]⟩

/-- el_to_tex/usecases.py 128–129 `Character._find_by_glyph` -/
def Character__find_by_glyph : Func :=
  ⟨[(.self, none)],
  [.ret (.call (.attr (.name .all_math_symbols_by_glyph) .get) [.attr (.name .self) .value, .str c!""] [] [])]⟩

/-- el_to_tex/usecases.py 131–132 `Character._find_by_number` -/
def Character__find_by_number : Func :=
  ⟨[(.self, none)],
  [.ret (.call (.attr (.name .math_number_by_glyph) .get) [.attr (.name .self) .value, .str c!""] [] [])]⟩

/-- el_to_tex/usecases.py 136–138 `MO.__init__` -/
def MO___init__ : Func :=
  ⟨[(.self, none), (.math_element, none)],
  [.setAttr (.name .self) .normalizer (.call (.name .WhiteSpaceNormalizer) [] [] []),
   .setAttr (.name .self) ._math_element (.name .math_element)]⟩

/-- el_to_tex/usecases.py 140–144 `MO.convert` -/
def MO_convert : Func :=
  ⟨[(.self, none)],
  [.assign .normalized_value (.call (.attr (.attr (.name .self) .normalizer) .normalize) [.attr (.attr (.name .self) ._math_element) .value] [] []),
   .assign .trimmed_value (.call (.attr (.name .normalized_value) .strip) [] [] []),
   .ret (.call (.attr (.name .Operator) .operate) [.name .trimmed_value] [] [])]⟩

/-- el_to_tex/usecases.py 148–149 `Operator.__init__` -/
def Operator___init__ : Func :=
  ⟨[(.self, none), (.value, none)],
  [.setAttr (.name .self) ._value (.name .value)]⟩

/-- el_to_tex/usecases.py 152–153 `Operator.operate` -/
def Operator_operate : Func :=
  ⟨[(.value, none)],
  [.ret (.call (.attr (.call (.name .Operator) [.name .value] [] []) ._operate) [] [] [])]⟩

/-- el_to_tex/usecases.py 155–172 `Operator._operate` -/
def Operator__operate : Func :=
  ⟨[(.self, none)],
  [.assign .latex_command (.call (.attr (.name .self) ._find_by_character) [] [] []),
   .ite (.name .latex_command)
   [.ret (.name .latex_command)]
   [],
   .assign .latex_command (.call (.attr (.name .self) ._find_by_glyph) [] [] []),
   .ite (.name .latex_command)
   [.ret (.name .latex_command)]
   [],
   .assign .latex_command (.call (.attr (.name .self) ._find_by_number) [] [] []),
   .ite (.name .latex_command)
   [.ret (.name .latex_command)]
   [],
   .ret (.call (.attr (.call (.name .HashUTF8ToLtXConverter) [] [] []) .convert) [.attr (.name .self) ._value] [] [])]⟩

/-- el_to_tex/usecases.py 174–175 `Operator._find_by_character` -/
def Operator__find_by_character : Func :=
  ⟨[(.self, none)],
  [.ret (.call (.attr (.name .all_math_operators_by_char) .get) [.attr (.name .self) ._value] [] [])]⟩

/-- el_to_tex/usecases.py 177–178 `Operator._find_by_glyph` -/
def Operator__find_by_glyph : Func :=
  ⟨[(.self, none)],
  [.ret (.call (.attr (.name .all_math_operators_by_glyph) .get) [.attr (.name .self) ._value] [] [])]⟩

/-- el_to_tex/usecases.py 180–181 `Operator._find_by_number` -/
def Operator__find_by_number : Func :=
  ⟨[(.self, none)],
  [.ret (.call (.attr (.name .math_number_by_glyph) .get) [.attr (.name .self) ._value] [] [])]⟩

/-- el_to_tex/usecases.py 185–187 `MN.__init__` -/
def MN___init__ : Func :=
  ⟨[(.self, none), (.math_element, none)],
  [.setAttr (.name .self) ._normalizer (.call (.name .WhiteSpaceNormalizer) [] [] []),
   .setAttr (.name .self) ._math_element (.name .math_element)]⟩

/-- el_to_tex/usecases.py 189–193 `MN.convert` -/
def MN_convert : Func :=
  ⟨[(.self, none)],
  [.assign .normalized_value (.call (.attr (.call (.attr (.attr (.name .self) ._normalizer) .normalize) [.attr (.attr (.name .self) ._math_element) .value] [] []) .strip) [] [] []),
   .assign .converted_value (.call (.attr (.name .math_number_by_glyph) .get) [.name .normalized_value, .str c!""] [] []),
   .ret (.or (.name .converted_value) (.name .normalized_value))]⟩

/-- el_to_tex/usecases.py 197–201 `MSup.__init__` -/
def MSup___init__ : Func :=
  ⟨[(.self, none), (.math_element, none), (.adapter, none)],
  [.setAttr (.name .self) ._math_element (.name .math_element),
   .setAttr (.name .self) ._adapter (.name .adapter),
   .setAttr (.name .self) ._parenthesis_wrapper (.call (.name .ParenthesisWrapper) [] [] []),
   .setAttr (.name .self) ._bracket_wrapper (.call (.name .BracketWrapper) [] [] [])]⟩

/-- el_to_tex/usecases.py 203–214 `MSup.convert` -/
def MSup_convert : Func :=
  ⟨[(.self, none)],
  [.assign .«name» (.attr (.attr (.name .self) ._math_element) .«name»),
   .assign .children (.attr (.attr (.name .self) ._math_element) .children),
   .assign .children_length (.call (.name .len) [.name .children] [] []),
   .ite (.cmp .ne (.name .children_length) (.int 2))
   [.raise (.call (.name .InvalidNumberOfChildrenError) [.name .«name», .int 2, .name .children_length] [] [])]
   [],
   .assign .base_child (.item (.name .children) (.int 0)),
   .assign .exponent_child (.item (.name .children) (.int 1)),
   .ret (.fstr [.call (.attr (.name .self) ._handle_base_child) [.name .base_child] [] [], .str c!"^", .call (.attr (.name .self) ._handle_exponent_child) [.name .exponent_child] [] []])]⟩

/-- el_to_tex/usecases.py 216–223 `MSup._handle_base_child` -/
def MSup__handle_base_child : Func :=
  ⟨[(.self, none), (.base, none)],
  [.assign .base_children (.attr (.name .base) .children),
   .assign .base_str (.call (.attr (.call (.attr (.attr (.name .self) ._adapter) .to_latex_converter) [.name .base] [] []) .convert) [] [] []),
   .ite (.cmp .le (.call (.name .len) [.name .base_children] [] []) (.int 1))
   [.ret (.name .base_str)]
   [],
   .ret (.call (.attr (.attr (.name .self) ._parenthesis_wrapper) .wrap_if_more_than_one_char) [.name .base_str] [] [])]⟩

/-- el_to_tex/usecases.py 225–228 `MSup._handle_exponent_child` -/
def MSup__handle_exponent_child : Func :=
  ⟨[(.self, none), (.exponent, none)],
  [.assign .exponent_str (.call (.attr (.call (.attr (.attr (.name .self) ._adapter) .to_latex_converter) [.name .exponent] [] []) .convert) [] [] []),
   .ret (.call (.attr (.attr (.name .self) ._bracket_wrapper) .wrap) [.name .exponent_str] [] [])]⟩

/-- el_to_tex/usecases.py 232–234 `GenericSpacingWrapper.__init__` -/
def GenericSpacingWrapper___init__ : Func :=
  ⟨[(.self, none), (.math_element, none), (.adapter, none)],
  [.setAttr (.name .self) ._math_element (.name .math_element),
   .setAttr (.name .self) ._adapter (.name .adapter)]⟩

/-- el_to_tex/usecases.py 236–242 `GenericSpacingWrapper.convert` -/
def GenericSpacingWrapper_convert : Func :=
  ⟨[(.self, none)],
  [.ret (.call (.attr (.str c!" ") .join) [.comp (.call (.attr (.call (.attr (.attr (.name .self) ._adapter) .to_latex_converter) [.name .child] [] []) .convert) [] [] []) .child (.attr (.attr (.name .self) ._math_element) .children) []] [] [])]⟩

/-- el_to_tex/usecases.py 246–248 `MSqrt.__init__` -/
def MSqrt___init__ : Func :=
  ⟨[(.self, none), (.math_element, none), (.adapter, none)],
  [.setAttr (.name .self) ._math_element (.name .math_element),
   .setAttr (.name .self) ._adapter (.name .adapter)]⟩

/-- el_to_tex/usecases.py 250–258 `MSqrt.convert` -/
def MSqrt_convert : Func :=
  ⟨[(.self, none)],
  [.assign .latex_joined_children (.call (.attr (.str c!" ") .join) [.comp (.call (.attr (.call (.attr (.attr (.name .self) ._adapter) .to_latex_converter) [.name .child] [] []) .convert) [] [] []) .child (.attr (.attr (.name .self) ._math_element) .children) []] [] []),
   .ret (.fstr [.str c!"\\sqrt{", .name .latex_joined_children, .str c!"}"])]⟩

/-- el_to_tex/usecases.py 262–264 `Separators.__init__` -/
def Separators___init__ : Func :=
  ⟨[(.self, none), (.op, none), (.close, none)],
  [.setAttr (.name .self) ._open (.name .op),
   .setAttr (.name .self) ._close (.name .close)]⟩

/-- el_to_tex/usecases.py 266–267 `Separators.wrap` -/
def Separators_wrap : Func :=
  ⟨[(.self, none), (.string, none)],
  [.ret (.call (.attr (.call (.name .GenericWrapper) [.attr (.name .self) ._open, .attr (.name .self) ._close] [] []) .wrap) [.name .string] [] [])]⟩

/-- el_to_tex/usecases.py 269–270 `Separators.are_parentheses` -/
def Separators_are_parentheses : Func :=
  ⟨[(.self, none)],
  [.ret (.call (.attr (.name .self) ._compare) [.str c!"(", .str c!")"] [] [])]⟩

/-- el_to_tex/usecases.py 272–273 `Separators.are_square_brackets` -/
def Separators_are_square_brackets : Func :=
  ⟨[(.self, none)],
  [.ret (.call (.attr (.name .self) ._compare) [.str c!"[", .str c!"]"] [] [])]⟩

/-- el_to_tex/usecases.py 275–276 `Separators.are_brackets` -/
def Separators_are_brackets : Func :=
  ⟨[(.self, none)],
  [.ret (.call (.attr (.name .self) ._compare) [.str c!"{", .str c!"}"] [] [])]⟩

/-- el_to_tex/usecases.py 278–279 `Separators.are_divides` -/
def Separators_are_divides : Func :=
  ⟨[(.self, none)],
  [.ret (.call (.attr (.name .self) ._compare) [.str c!"|", .str c!"|"] [] [])]⟩

/-- el_to_tex/usecases.py 281–282 `Separators.are_parallels` -/
def Separators_are_parallels : Func :=
  ⟨[(.self, none)],
  [.ret (.call (.attr (.name .self) ._compare) [.str c!"||", .str c!"||"] [] [])]⟩

/-- el_to_tex/usecases.py 284–285 `Separators.are_not_equal` -/
def Separators_are_not_equal : Func :=
  ⟨[(.self, none)],
  [.ret (.cmp .ne (.attr (.name .self) ._open) (.attr (.name .self) ._close))]⟩

/-- el_to_tex/usecases.py 287–288 `Separators._compare` -/
def Separators__compare : Func :=
  ⟨[(.self, none), (.open_to_compare, none), (.close_to_compare, none)],
  [.ret (.and (.cmp .eq (.attr (.name .self) ._open) (.name .open_to_compare)) (.cmp .eq (.attr (.name .self) ._close) (.name .close_to_compare)))]⟩

/-- el_to_tex/usecases.py 292–295 `Vector.__init__` -/
def Vector___init__ : Func :=
  ⟨[(.self, none), (.op, none), (.close, none), (.separators, none)],
  [.setAttr (.name .self) ._open (.ite (.cmp .ne (.name .op) (.str c!"")) (.name .op) (.str c!"(")),
   .setAttr (.name .self) ._close (.ite (.cmp .ne (.name .close) (.str c!"")) (.name .close) (.str c!")")),
   .setAttr (.name .self) ._separators (.name .separators)]⟩

/-- el_to_tex/usecases.py 297–301 `Vector.apply` -/
def Vector_apply : Func :=
  ⟨[(.self, none), (.latex_contents, none)],
  [.assign .content_without_wrapper (.call (.attr (.call (.name .JoinWithManySeparators) [.attr (.name .self) ._separators] [] []) .join) [.name .latex_contents] [] []),
   .ret (.call (.attr (.call (.name .GenericWrapper) [.attr (.name .self) ._open, .attr (.name .self) ._close] [] []) .wrap) [.name .content_without_wrapper] [] [])]⟩

/-- el_to_tex/usecases.py 305–307 `Matrix.__init__` -/
def Matrix___init__ : Func :=
  ⟨[(.self, none), (.op, none), (.close, none)],
  [.setAttr (.name .self) ._separators (.call (.name .Separators) [.name .op, .name .close] [] []),
   .setAttr (.name .self) ._generic_command (.str c!"matrix")]⟩

/-- el_to_tex/usecases.py 309–317 `Matrix.apply` -/
def Matrix_apply : Func :=
  ⟨[(.self, none), (.latex_contents, none)],
  [.assign .«command» (.attr (.name .self) ._command),
   .assign .«matrix» (.fstr [.str c!"\\begin{", .name .«command», .str c!"}\n", .call (.attr (.str c!"") .join) [.name .latex_contents] [] [], .str c!"\n\\end{", .name .«command», .str c!"}"]),
   .ret (.ite (.cmp .eq (.name .«command») (.attr (.name .self) ._generic_command)) (.call (.attr (.attr (.name .self) ._separators) .wrap) [.name .«matrix»] [] []) (.name .«matrix»))]⟩

/-- el_to_tex/usecases.py 320–333 `Matrix._command` -/
def Matrix__command : Func :=
  ⟨[(.self, none)],
  [.ite (.call (.attr (.attr (.name .self) ._separators) .are_parentheses) [] [] [])
   [.ret (.str c!"pmatrix")]
   [],
   .ite (.call (.attr (.attr (.name .self) ._separators) .are_square_brackets) [] [] [])
   [.ret (.str c!"bmatrix")]
   [],
   .ite (.call (.attr (.attr (.name .self) ._separators) .are_brackets) [] [] [])
   [.ret (.str c!"Bmatrix")]
   [],
   .ite (.call (.attr (.attr (.name .self) ._separators) .are_divides) [] [] [])
   [.ret (.str c!"vmatrix")]
   [],
   .ite (.call (.attr (.attr (.name .self) ._separators) .are_parallels) [] [] [])
   [.ret (.str c!"Vmatrix")]
   [],
   .ite (.call (.attr (.attr (.name .self) ._separators) .are_not_equal) [] [] [])
   [.ret (.attr (.name .self) ._generic_command)]
   [],
   .ret (.str c!"bmatrix")]⟩

/-- el_to_tex/usecases.py 337–342 `MFenced.__init__` -/
def MFenced___init__ : Func :=
  ⟨[(.self, none), (.math_element, none), (.adapter, none)],
  [.setAttr (.name .self) ._math_element (.name .math_element),
   .setAttr (.name .self) ._adapter (.name .adapter),
   .setAttr (.name .self) ._open (.call (.attr (.attr (.attr (.name .self) ._math_element) .attributes) .get) [.str c!"open", .str c!""] [] []),
   .setAttr (.name .self) ._close (.call (.attr (.attr (.attr (.name .self) ._math_element) .attributes) .get) [.str c!"close", .str c!""] [] []),
   .setAttr (.name .self) ._separators (.call (.name .list) [.call (.attr (.attr (.attr (.name .self) ._math_element) .attributes) .get) [.str c!"separators", .str c!""] [] []] [] [])]⟩

/-- el_to_tex/usecases.py 344–353 `MFenced.convert` -/
def MFenced_convert : Func :=
  ⟨[(.self, none)],
  [.assign .latex_children (.comp (.call (.attr (.call (.attr (.attr (.name .self) ._adapter) .to_latex_converter) [.name .child] [] []) .convert) [] [] []) .child (.attr (.attr (.name .self) ._math_element) .children) []),
   .ite (.call (.attr (.name .self) ._is_there_relative_of_name) [.attr (.attr (.name .self) ._math_element) .children, .str c!"mtable"] [] [])
   [.ret (.call (.attr (.call (.name .Matrix) [.attr (.name .self) ._open, .attr (.name .self) ._close] [] []) .apply) [.name .latex_children] [] [])]
   [],
   .ret (.call (.attr (.call (.name .Vector) [.attr (.name .self) ._open, .attr (.name .self) ._close, .attr (.name .self) ._separators] [] []) .apply) [.name .latex_children] [] [])]⟩

/-- el_to_tex/usecases.py 355–362 `MFenced._is_there_relative_of_name` -/
def MFenced__is_there_relative_of_name : Func :=
  ⟨[(.self, none), (.mathml_elements, none), (.element_name, none)],
  [.ret (.call (.name .any) [.comp (.or (.cmp .eq (.attr (.name .child) .«name») (.name .element_name)) (.call (.attr (.name .self) ._is_there_relative_of_name) [.attr (.name .child) .children, .name .element_name] [] [])) .child (.name .mathml_elements) []] [] [])]⟩

/-- el_to_tex/usecases.py 366–371 `MTable.__init__` -/
def MTable___init__ : Func :=
  ⟨[(.self, none), (.math_element, none), (.adapter, none)],
  [.setAttr (.name .self) ._math_element (.name .math_element),
   .setAttr (.name .self) ._adapter (.name .adapter),
   .expr (.call (.attr (.name .self) ._add_flag_recursive_if_name) [.attr (.attr (.name .self) ._math_element) .children, .str c!"mtable", .str c!"innerTable"] [] [])]⟩

/-- el_to_tex/usecases.py 373–383 `MTable.convert` -/
def MTable_convert : Func :=
  ⟨[(.self, none)],
  [.assign .table_content (.call (.attr (.str c!" \\\\\n") .join) [.comp (.call (.attr (.call (.attr (.attr (.name .self) ._adapter) .to_latex_converter) [.name .child] [] []) .convert) [] [] []) .child (.attr (.attr (.name .self) ._math_element) .children) []] [] []),
   .ret (.ite (.call (.attr (.name .self) ._has_flag) [.str c!"innerTable"] [] []) (.call (.attr (.name .self) ._wrap) [.name .table_content] [] []) (.name .table_content))]⟩

/-- el_to_tex/usecases.py 385–386 `MTable._wrap` -/
def MTable__wrap : Func :=
  ⟨[(.self, none), (.latex, none)],
  [.ret (.fstr [.str c!"\\begin{matrix}", .name .latex, .str c!"\\end{matrix}"])]⟩

/-- el_to_tex/usecases.py 388–392 `MTable._add_flag_recursive_if_name` -/
def MTable__add_flag_recursive_if_name : Func :=
  ⟨[(.self, none), (.mathml_elements, none), (.«name», none), (.flag, none)],
  [.for .mathml_element (.name .mathml_elements)
   [.ite (.cmp .eq (.attr (.name .mathml_element) .«name») (.name .«name»))
    [.setItem (.attr (.name .mathml_element) .attributes) (.name .flag) (.name .flag)]
    [],
    .expr (.call (.attr (.name .self) ._add_flag_recursive_if_name) [.attr (.name .mathml_element) .children, .name .«name», .name .flag] [] [])]]⟩

/-- el_to_tex/usecases.py 394–395 `MTable._has_flag` -/
def MTable__has_flag : Func :=
  ⟨[(.self, none), (.flag, none)],
  [.ret (.call (.name .bool) [.call (.attr (.attr (.attr (.name .self) ._math_element) .attributes) .get) [.name .flag] [] []] [] [])]⟩

/-- el_to_tex/usecases.py 399–401 `MTr.__init__` -/
def MTr___init__ : Func :=
  ⟨[(.self, none), (.math_element, none), (.adapter, none)],
  [.setAttr (.name .self) ._math_element (.name .math_element),
   .setAttr (.name .self) ._adapter (.name .adapter)]⟩

/-- el_to_tex/usecases.py 403–409 `MTr.convert` -/
def MTr_convert : Func :=
  ⟨[(.self, none)],
  [.ret (.call (.attr (.str c!" & ") .join) [.comp (.call (.attr (.call (.attr (.attr (.name .self) ._adapter) .to_latex_converter) [.name .child] [] []) .convert) [] [] []) .child (.attr (.attr (.name .self) ._math_element) .children) []] [] [])]⟩

/-- el_to_tex/usecases.py 413–417 `MSub.__init__` -/
def MSub___init__ : Func :=
  ⟨[(.self, none), (.math_element, none), (.adapter, none)],
  [.setAttr (.name .self) ._math_element (.name .math_element),
   .setAttr (.name .self) ._adapter (.name .adapter),
   .setAttr (.name .self) ._parenthesis_wrapper (.call (.name .ParenthesisWrapper) [] [] []),
   .setAttr (.name .self) ._bracket_wrapper (.call (.name .BracketWrapper) [] [] [])]⟩

/-- el_to_tex/usecases.py 419–430 `MSub.convert` -/
def MSub_convert : Func :=
  ⟨[(.self, none)],
  [.assign .«name» (.attr (.attr (.name .self) ._math_element) .«name»),
   .assign .children (.attr (.attr (.name .self) ._math_element) .children),
   .assign .children_length (.call (.name .len) [.name .children] [] []),
   .ite (.cmp .ne (.name .children_length) (.int 2))
   [.raise (.call (.name .InvalidNumberOfChildrenError) [.name .«name», .int 2, .name .children_length] [] [])]
   [],
   .assign .base_child (.item (.name .children) (.int 0)),
   .assign .subscript_child (.item (.name .children) (.int 1)),
   .ret (.fstr [.call (.attr (.name .self) ._handle_base_child) [.name .base_child] [] [], .str c!"_", .call (.attr (.name .self) ._handle_subscript_child) [.name .subscript_child] [] []])]⟩

/-- el_to_tex/usecases.py 432–439 `MSub._handle_base_child` -/
def MSub__handle_base_child : Func :=
  ⟨[(.self, none), (.base, none)],
  [.assign .base_children (.attr (.name .base) .children),
   .assign .base_str (.call (.attr (.call (.attr (.attr (.name .self) ._adapter) .to_latex_converter) [.name .base] [] []) .convert) [] [] []),
   .ite (.cmp .le (.call (.name .len) [.name .base_children] [] []) (.int 1))
   [.ret (.name .base_str)]
   [],
   .ret (.call (.attr (.attr (.name .self) ._parenthesis_wrapper) .wrap_if_more_than_one_char) [.name .base_str] [] [])]⟩

/-- el_to_tex/usecases.py 441–444 `MSub._handle_subscript_child` -/
def MSub__handle_subscript_child : Func :=
  ⟨[(.self, none), (.subscript, none)],
  [.assign .subscript_str (.call (.attr (.call (.attr (.attr (.name .self) ._adapter) .to_latex_converter) [.name .subscript] [] []) .convert) [] [] []),
   .ret (.call (.attr (.attr (.name .self) ._bracket_wrapper) .wrap) [.name .subscript_str] [] [])]⟩

/-- el_to_tex/usecases.py 448–451 `MFrac.__init__` -/
def MFrac___init__ : Func :=
  ⟨[(.self, none), (.math_element, none), (.adapter, none)],
  [.setAttr (.name .self) ._math_element (.name .math_element),
   .setAttr (.name .self) ._adapter (.name .adapter),
   .setAttr (.name .self) ._parenthesis_wrapper (.call (.name .ParenthesisWrapper) [] [] [])]⟩

/-- el_to_tex/usecases.py 453–467 `MFrac.convert` -/
def MFrac_convert : Func :=
  ⟨[(.self, none)],
  [.assign .children (.attr (.attr (.name .self) ._math_element) .children),
   .assign .«name» (.attr (.attr (.name .self) ._math_element) .«name»),
   .assign .children_length (.call (.name .len) [.name .children] [] []),
   .ite (.cmp .ne (.name .children_length) (.int 2))
   [.raise (.call (.name .InvalidNumberOfChildrenError) [.name .«name», .int 2, .name .children_length] [] [])]
   [],
   .assign .num (.call (.attr (.call (.attr (.attr (.name .self) ._adapter) .to_latex_converter) [.item (.name .children) (.int 0)] [] []) .convert) [] [] []),
   .assign .den (.call (.attr (.call (.attr (.attr (.name .self) ._adapter) .to_latex_converter) [.item (.name .children) (.int 1)] [] []) .convert) [] [] []),
   .ite (.call (.attr (.name .self) ._is_bevelled) [] [] [])
   [.ret (.fstr [.call (.attr (.name .self) ._wrap_if_more_than_one_char) [.name .num] [] [], .str c!"/", .call (.attr (.name .self) ._wrap_if_more_than_one_char) [.name .den] [] []])]
   [],
   .ret (.fstr [.str c!"\\frac{", .name .num, .str c!"}{", .name .den, .str c!"}"])]⟩

/-- el_to_tex/usecases.py 469–470 `MFrac._wrap_if_more_than_one_char` -/
def MFrac__wrap_if_more_than_one_char : Func :=
  ⟨[(.self, none), (.val, none)],
  [.ret (.call (.attr (.attr (.name .self) ._parenthesis_wrapper) .wrap_if_more_than_one_char) [.name .val] [] [])]⟩

/-- el_to_tex/usecases.py 472–473 `MFrac._is_bevelled` -/
def MFrac__is_bevelled : Func :=
  ⟨[(.self, none)],
  [.ret (.call (.name .bool) [.call (.attr (.attr (.attr (.name .self) ._math_element) .attributes) .get) [.str c!"bevelled"] [] []] [] [])]⟩

/-- el_to_tex/usecases.py 477–479 `MRoot.__init__` -/
def MRoot___init__ : Func :=
  ⟨[(.self, none), (.math_element, none), (.adapter, none)],
  [.setAttr (.name .self) ._math_element (.name .math_element),
   .setAttr (.name .self) ._adapter (.name .adapter)]⟩

/-- el_to_tex/usecases.py 481–492 `MRoot.convert` -/
def MRoot_convert : Func :=
  ⟨[(.self, none)],
  [.assign .«name» (.attr (.attr (.name .self) ._math_element) .«name»),
   .assign .children (.attr (.attr (.name .self) ._math_element) .children),
   .assign .children_length (.call (.name .len) [.name .children] [] []),
   .ite (.cmp .ne (.name .children_length) (.int 2))
   [.raise (.call (.name .InvalidNumberOfChildrenError) [.name .«name», .int 2, .name .children_length] [] [])]
   [],
   .assign .content (.call (.attr (.call (.attr (.attr (.name .self) ._adapter) .to_latex_converter) [.item (.name .children) (.int 0)] [] []) .convert) [] [] []),
   .assign .root_index (.call (.attr (.call (.attr (.attr (.name .self) ._adapter) .to_latex_converter) [.item (.name .children) (.int 1)] [] []) .convert) [] [] []),
   .ret (.fstr [.str c!"\\sqrt[", .name .root_index, .str c!"]{", .name .content, .str c!"}"])]⟩

/-- el_to_tex/usecases.py 496–498 `MAction.__init__` -/
def MAction___init__ : Func :=
  ⟨[(.self, none), (.math_element, none), (.adapter, none)],
  [.setAttr (.name .self) ._math_element (.name .math_element),
   .setAttr (.name .self) ._adapter (.name .adapter)]⟩

/-- el_to_tex/usecases.py 500–511 `MAction.convert` -/
def MAction_convert : Func :=
  ⟨[(.self, none)],
  [.assign .children (.attr (.attr (.name .self) ._math_element) .children),
   .ite (.call (.attr (.name .self) ._is_toggle) [] [] [])
   [.ret (.call (.attr (.str c!" \\Longrightarrow ") .join) [.comp (.call (.attr (.call (.attr (.attr (.name .self) ._adapter) .to_latex_converter) [.name .child] [] []) .convert) [] [] []) .child (.name .children) []] [] [])]
   [],
   .ret (.call (.attr (.call (.attr (.attr (.name .self) ._adapter) .to_latex_converter) [.item (.name .children) (.int 0)] [] []) .convert) [] [] [])]⟩

/-- el_to_tex/usecases.py 513–515 `MAction._is_toggle` -/
def MAction__is_toggle : Func :=
  ⟨[(.self, none)],
  [.assign .action_type (.call (.attr (.attr (.attr (.name .self) ._math_element) .attributes) .get) [.str c!"actiontype"] [] []),
   .ret (.or (.cmp .eq (.name .action_type) (.str c!"toggle")) (.not (.name .action_type)))]⟩

/-- el_to_tex/usecases.py 519–522 `MEnclose.__init__` -/
def MEnclose___init__ : Func :=
  ⟨[(.self, none), (.math_element, none), (.adapter, none)],
  [.setAttr (.name .self) ._math_element (.name .math_element),
   .setAttr (.name .self) ._adapter (.name .adapter),
   .setAttr (.name .self) ._notation (.call (.attr (.attr (.attr (.name .self) ._math_element) .attributes) .get) [.str c!"notation", .str c!"longdiv"] [] [])]⟩

/-- el_to_tex/usecases.py 524–558 `MEnclose.convert` -/
def MEnclose_convert : Func :=
  ⟨[(.self, none)],
  [.assign .latex_joined_children (.call (.attr (.str c!" ") .join) [.comp (.call (.attr (.call (.attr (.attr (.name .self) ._adapter) .to_latex_converter) [.name .child] [] []) .convert) [] [] []) .child (.attr (.attr (.name .self) ._math_element) .children) []] [] []),
   .ite (.cmp .eq (.attr (.name .self) ._notation) (.str c!"actuarial"))
   [.ret (.fstr [.str c!"\\overline{\\left.", .name .latex_joined_children, .str c!"\\right|}"])]
   [],
   .ite (.cmp .eq (.attr (.name .self) ._notation) (.str c!"radical"))
   [.ret (.fstr [.str c!"\\sqrt{", .name .latex_joined_children, .str c!"}"])]
   [],
   .ite (.cmp .mem (.attr (.name .self) ._notation) (.list [.str c!"box", .str c!"roundedbox", .str c!"circle"]))
   [.ret (.fstr [.str c!"\\boxed{", .name .latex_joined_children, .str c!"}"])]
   [],
   .ite (.cmp .eq (.attr (.name .self) ._notation) (.str c!"left"))
   [.ret (.fstr [.str c!"\\left|", .name .latex_joined_children])]
   [],
   .ite (.cmp .eq (.attr (.name .self) ._notation) (.str c!"right"))
   [.ret (.fstr [.name .latex_joined_children, .str c!"\\right|"])]
   [],
   .ite (.cmp .eq (.attr (.name .self) ._notation) (.str c!"top"))
   [.ret (.fstr [.str c!"\\overline{", .name .latex_joined_children, .str c!"}"])]
   [],
   .ite (.cmp .eq (.attr (.name .self) ._notation) (.str c!"bottom"))
   [.ret (.fstr [.str c!"\\underline{", .name .latex_joined_children, .str c!"}"])]
   [],
   .ite (.cmp .eq (.attr (.name .self) ._notation) (.str c!"updiagonalstrike"))
   [.ret (.fstr [.str c!"\\cancel{", .name .latex_joined_children, .str c!"}"])]
   [],
   .ite (.cmp .eq (.attr (.name .self) ._notation) (.str c!"downdiagonalstrike"))
   [.ret (.fstr [.str c!"\\bcancel{", .name .latex_joined_children, .str c!"}"])]
   [],
   .ite (.cmp .eq (.attr (.name .self) ._notation) (.str c!"updiagonalarrow"))
   [.ret (.fstr [.str c!"\\cancelto{}{", .name .latex_joined_children, .str c!"}"])]
   [],
   .ite (.cmp .mem (.attr (.name .self) ._notation) (.list [.str c!"verticalstrike", .str c!"horizontalstrike"]))
   [.ret (.fstr [.str c!"\\hcancel{", .name .latex_joined_children, .str c!"}"])]
   [],
   .ite (.cmp .eq (.attr (.name .self) ._notation) (.str c!"madruwb"))
   [.ret (.fstr [.str c!"\\underline{", .name .latex_joined_children, .str c!"\\right|}"])]
   [],
   .ite (.cmp .eq (.attr (.name .self) ._notation) (.str c!"phasorangle"))
   [.ret (.fstr [.str c!"{\\angle \\underline{", .name .latex_joined_children, .str c!"}}"])]
   [],
   .ret (.fstr [.str c!"\\overline{\\left.\\right)", .name .latex_joined_children, .str c!"}"])]⟩

/-- el_to_tex/usecases.py 562–564 `MError.__init__` -/
def MError___init__ : Func :=
  ⟨[(.self, none), (.math_element, none), (.adapter, none)],
  [.setAttr (.name .self) ._math_element (.name .math_element),
   .setAttr (.name .self) ._adapter (.name .adapter)]⟩

/-- el_to_tex/usecases.py 566–574 `MError.convert` -/
def MError_convert : Func :=
  ⟨[(.self, none)],
  [.assign .latex_joined_children (.call (.attr (.str c!" ") .join) [.comp (.call (.attr (.call (.attr (.attr (.name .self) ._adapter) .to_latex_converter) [.name .child] [] []) .convert) [] [] []) .child (.attr (.attr (.name .self) ._math_element) .children) []] [] []),
   .ret (.fstr [.str c!"\\color{red}{", .name .latex_joined_children, .str c!"}"])]⟩

/-- el_to_tex/usecases.py 578–582 `MSubsup.__init__` -/
def MSubsup___init__ : Func :=
  ⟨[(.self, none), (.math_element, none), (.adapter, none)],
  [.setAttr (.name .self) ._math_element (.name .math_element),
   .setAttr (.name .self) ._adapter (.name .adapter),
   .setAttr (.name .self) ._parenthesis_wrapper (.call (.name .ParenthesisWrapper) [] [] []),
   .setAttr (.name .self) ._bracket_wrapper (.call (.name .BracketWrapper) [] [] [])]⟩

/-- el_to_tex/usecases.py 584–596 `MSubsup.convert` -/
def MSubsup_convert : Func :=
  ⟨[(.self, none)],
  [.assign .«name» (.attr (.attr (.name .self) ._math_element) .«name»),
   .assign .children (.attr (.attr (.name .self) ._math_element) .children),
   .assign .children_length (.call (.name .len) [.name .children] [] []),
   .ite (.cmp .ne (.name .children_length) (.int 3))
   [.raise (.call (.name .InvalidNumberOfChildrenError) [.name .«name», .int 3, .name .children_length] [] [])]
   [],
   .assign .base_child (.item (.name .children) (.int 0)),
   .assign .subscript_child (.item (.name .children) (.int 1)),
   .assign .superscript_child (.item (.name .children) (.int 2)),
   .ret (.fstr [.call (.attr (.name .self) ._handle_base_child) [.name .base_child] [] [], .str c!"_", .call (.attr (.name .self) ._handle_subscript_child) [.name .subscript_child] [] [], .str c!"^", .call (.attr (.name .self) ._handle_superscript_child) [.name .superscript_child] [] []])]⟩

/-- el_to_tex/usecases.py 598–605 `MSubsup._handle_base_child` -/
def MSubsup__handle_base_child : Func :=
  ⟨[(.self, none), (.base, none)],
  [.assign .base_children (.attr (.name .base) .children),
   .assign .base_str (.call (.attr (.call (.attr (.attr (.name .self) ._adapter) .to_latex_converter) [.name .base] [] []) .convert) [] [] []),
   .ite (.cmp .le (.call (.name .len) [.name .base_children] [] []) (.int 1))
   [.ret (.name .base_str)]
   [],
   .ret (.call (.attr (.attr (.name .self) ._parenthesis_wrapper) .wrap_if_more_than_one_char) [.name .base_str] [] [])]⟩

/-- el_to_tex/usecases.py 607–610 `MSubsup._handle_subscript_child` -/
def MSubsup__handle_subscript_child : Func :=
  ⟨[(.self, none), (.subscript, none)],
  [.assign .subscript_str (.call (.attr (.call (.attr (.attr (.name .self) ._adapter) .to_latex_converter) [.name .subscript] [] []) .convert) [] [] []),
   .ret (.call (.attr (.attr (.name .self) ._bracket_wrapper) .wrap) [.name .subscript_str] [] [])]⟩

/-- el_to_tex/usecases.py 612–615 `MSubsup._handle_superscript_child` -/
def MSubsup__handle_superscript_child : Func :=
  ⟨[(.self, none), (.superscript, none)],
  [.assign .superscript_str (.call (.attr (.call (.attr (.attr (.name .self) ._adapter) .to_latex_converter) [.name .superscript] [] []) .convert) [] [] []),
   .ret (.call (.attr (.attr (.name .self) ._bracket_wrapper) .wrap) [.name .superscript_str] [] [])]⟩

/-- el_to_tex/usecases.py 619–620 `TextCommand.__init__` -/
def TextCommand___init__ : Func :=
  ⟨[(.self, none), (.math_variant, none)],
  [.setAttr (.name .self) ._math_variant (.or (.name .math_variant) (.str c!"normal"))]⟩

/-- el_to_tex/usecases.py 622–627 `TextCommand.apply` -/
def TextCommand_apply : Func :=
  ⟨[(.self, none), (.value, none)],
  [.assign .acc (.name .value),
   .for .«command» (.attr (.name .self) ._commands)
   [.assign .acc (.fstr [.name .«command», .str c!"{", .name .acc, .str c!"}"])],
   .ret (.name .acc)]⟩

/-- el_to_tex/usecases.py 630–643 `TextCommand._commands` -/
def TextCommand__commands : Func :=
  ⟨[(.self, none)],
  [.ite (.cmp .eq (.attr (.name .self) ._math_variant) (.str c!"bold"))
   [.ret (.list [.str c!"\\textbf"])]
   [],
   .ite (.cmp .eq (.attr (.name .self) ._math_variant) (.str c!"italic"))
   [.ret (.list [.str c!"\\textit"])]
   [],
   .ite (.cmp .eq (.attr (.name .self) ._math_variant) (.str c!"bold-italic"))
   [.ret (.list [.str c!"\\textit", .str c!"\\textbf"])]
   [],
   .ite (.cmp .eq (.attr (.name .self) ._math_variant) (.str c!"double-struck"))
   [.ret (.list [.str c!"\\mathbb"])]
   [],
   .ite (.cmp .eq (.attr (.name .self) ._math_variant) (.str c!"monospace"))
   [.ret (.list [.str c!"\\mathtt"])]
   [],
   .ite (.cmp .mem (.attr (.name .self) ._math_variant) (.list [.str c!"bold-fraktur", .str c!"fraktur"]))
   [.ret (.list [.str c!"\\mathfrak"])]
   [],
   .ret (.list [.str c!"\\text"])]⟩

/-- el_to_tex/usecases.py 647–649 `Char.__init__` -/
def Char___init__ : Func :=
  ⟨[(.self, none), (.value, none), (.is_alphanumeric, none)],
  [.setAttr (.name .self) .value (.name .value),
   .setAttr (.name .self) .is_alphanumeric (.name .is_alphanumeric)]⟩

/-- el_to_tex/usecases.py 653–654 `MText.__init__` -/
def MText___init__ : Func :=
  ⟨[(.self, none), (.math_element, none)],
  [.setAttr (.name .self) ._math_element (.name .math_element)]⟩

/-- el_to_tex/usecases.py 656–687 `MText.convert` -/
def MText_convert : Func :=
  ⟨[(.self, none)],
  [.assign .attributes (.attr (.attr (.name .self) ._math_element) .attributes),
   .assign .value (.attr (.attr (.name .self) ._math_element) .value),
   .assign .chars (.comp (.ite (.or (.call (.attr (.name .re) .«match») [.str c!"^[a-zA-Z0-9]$", .name .«char»] [] []) (.cmp .eq (.name .«char») (.str c!" "))) (.call (.name .Char) [.name .«char», .bool true] [] []) (.call (.name .Char) [.name .«char», .bool false] [] [])) .«char» (.name .value) []),
   .assign .merged_chars (.list []),
   .for .«char» (.name .chars)
   [.ite (.attr (.name .«char») .is_alphanumeric)
    [.assign .last_char (.ite (.name .merged_chars) (.item (.name .merged_chars) (.int (-1))) (.none)),
     .ite (.and (.name .last_char) (.attr (.name .last_char) .is_alphanumeric))
     [.setAttr (.name .last_char) .value (.add (.attr (.name .last_char) .value) (.attr (.name .«char») .value)),
      .continue]
     []]
    [],
    .expr (.call (.attr (.name .merged_chars) .append) [.name .«char»] [] [])],
   .ret (.call (.attr (.str c!"") .join) [.comp (.ite (.not (.attr (.name .«char») .is_alphanumeric)) (.call (.attr (.call (.name .MI) [.call (.name .MIMathMlElement) [.attr (.name .«char») .value] [] []] [] []) .convert) [] [] []) (.call (.attr (.call (.name .TextCommand) [.call (.attr (.name .attributes) .get) [.str c!"mathvariant"] [] []] [] []) .apply) [.attr (.name .«char») .value] [] [])) .«char» (.name .merged_chars) []] [] [])]⟩

/-- el_to_tex/usecases.py 696–697 `UnderOverSetter.__init__` -/
def UnderOverSetter___init__ : Func :=
  ⟨[(.self, none), (.ty, none)],
  [.setAttr (.name .self) ._type (.name .ty)]⟩

/-- el_to_tex/usecases.py 699–705 `UnderOverSetter.apply` -/
def UnderOverSetter_apply : Func :=
  ⟨[(.self, none), (.content, none), (.accent, none)],
  [.assign .latex_accents (.list [.str c!"\\hat", .str c!"\\bar", .str c!"\\underbrace", .str c!"\\overbrace"]),
   .ret (.ite (.cmp .mem (.name .accent) (.name .latex_accents)) (.fstr [.name .accent, .str c!"{", .name .content, .str c!"}"]) (.fstr [.attr (.name .self) ._default_command, .str c!"{", .name .accent, .str c!"}{", .name .content, .str c!"}"]))]⟩

/-- el_to_tex/usecases.py 708–709 `UnderOverSetter._default_command` -/
def UnderOverSetter__default_command : Func :=
  ⟨[(.self, none)],
  [.ret (.ite (.cmp .eq (.attr (.name .self) ._type) (.attr (.name .TagTypes) .Under)) (.str c!"\\underset") (.str c!"\\overset"))]⟩

/-- el_to_tex/usecases.py 713–715 `GenericUnderOver.__init__` -/
def GenericUnderOver___init__ : Func :=
  ⟨[(.self, none), (.math_element, none), (.adapter, none)],
  [.setAttr (.name .self) ._math_element (.name .math_element),
   .setAttr (.name .self) ._adapter (.name .adapter)]⟩

/-- el_to_tex/usecases.py 717–728 `GenericUnderOver.convert` -/
def GenericUnderOver_convert : Func :=
  ⟨[(.self, none)],
  [.assign .«name» (.attr (.attr (.name .self) ._math_element) .«name»),
   .assign .children (.attr (.attr (.name .self) ._math_element) .children),
   .assign .children_length (.call (.name .len) [.name .children] [] []),
   .ite (.cmp .ne (.name .children_length) (.int 2))
   [.raise (.call (.name .InvalidNumberOfChildrenError) [.name .«name», .int 2, .name .children_length] [] [])]
   [],
   .assign .content (.call (.attr (.call (.attr (.attr (.name .self) ._adapter) .to_latex_converter) [.item (.name .children) (.int 0)] [] []) .convert) [] [] []),
   .assign .accent (.call (.attr (.call (.attr (.attr (.name .self) ._adapter) .to_latex_converter) [.item (.name .children) (.int 1)] [] []) .convert) [] [] []),
   .ret (.call (.attr (.name .self) ._apply_command) [.name .content, .name .accent] [] [])]⟩

/-- el_to_tex/usecases.py 730–736 `GenericUnderOver._apply_command` -/
def GenericUnderOver__apply_command : Func :=
  ⟨[(.self, none), (.content, none), (.accent, none)],
  [.assign .ty (.ite (.call (.attr (.name .re) .search) [.str c!"under", .attr (.attr (.name .self) ._math_element) .«name»] [] []) (.attr (.name .TagTypes) .Under) (.attr (.name .TagTypes) .Over)),
   .ret (.call (.attr (.call (.name .UnderOverSetter) [.name .ty] [] []) .apply) [.name .content, .name .accent] [] [])]⟩

/-- el_to_tex/usecases.py 740–742 `MUnderover.__init__` -/
def MUnderover___init__ : Func :=
  ⟨[(.self, none), (.math_element, none), (.adapter, none)],
  [.setAttr (.name .self) ._math_element (.name .math_element),
   .setAttr (.name .self) ._adapter (.name .adapter)]⟩

/-- el_to_tex/usecases.py 744–756 `MUnderover.convert` -/
def MUnderover_convert : Func :=
  ⟨[(.self, none)],
  [.assign .«name» (.attr (.attr (.name .self) ._math_element) .«name»),
   .assign .children (.attr (.attr (.name .self) ._math_element) .children),
   .assign .children_length (.call (.name .len) [.name .children] [] []),
   .ite (.cmp .ne (.name .children_length) (.int 3))
   [.raise (.call (.name .InvalidNumberOfChildrenError) [.name .«name», .int 3, .name .children_length] [] [])]
   [],
   .assign .base (.call (.attr (.call (.attr (.attr (.name .self) ._adapter) .to_latex_converter) [.item (.name .children) (.int 0)] [] []) .convert) [] [] []),
   .assign .under_content (.call (.attr (.call (.attr (.attr (.name .self) ._adapter) .to_latex_converter) [.item (.name .children) (.int 1)] [] []) .convert) [] [] []),
   .assign .over_content (.call (.attr (.call (.attr (.attr (.name .self) ._adapter) .to_latex_converter) [.item (.name .children) (.int 2)] [] []) .convert) [] [] []),
   .ret (.fstr [.name .base, .str c!"_{", .name .under_content, .str c!"}^{", .name .over_content, .str c!"}"])]⟩

/-- el_to_tex/usecases.py 760–763 `MMultiscripts.__init__` -/
def MMultiscripts___init__ : Func :=
  ⟨[(.self, none), (.math_element, none), (.adapter, none)],
  [.setAttr (.name .self) ._math_element (.name .math_element),
   .setAttr (.name .self) ._adapter (.name .adapter),
   .setAttr (.name .self) ._parenthesis_wrapper (.call (.name .ParenthesisWrapper) [] [] [])]⟩

/-- el_to_tex/usecases.py 765–779 `MMultiscripts.convert` -/
def MMultiscripts_convert : Func :=
  ⟨[(.self, none)],
  [.assign .«name» (.attr (.attr (.name .self) ._math_element) .«name»),
   .assign .children (.attr (.attr (.name .self) ._math_element) .children),
   .assign .children_length (.call (.name .len) [.name .children] [] []),
   .ite (.cmp .lt (.name .children_length) (.int 3))
   [.raise (.call (.name .InvalidNumberOfChildrenError) [.name .«name», .int 3, .name .children_length, .str c!"at least"] [] [])]
   [],
   .assign .base_content (.call (.attr (.call (.attr (.attr (.name .self) ._adapter) .to_latex_converter) [.item (.name .children) (.int 0)] [] []) .convert) [] [] []),
   .ret (.add (.add (.call (.attr (.name .self) ._prescript_latex) [] [] []) (.call (.attr (.name .self) ._wrap_in_parenthesis_if_there_is_space) [.name .base_content] [] [])) (.call (.attr (.name .self) ._postscript_latex) [] [] []))]⟩

/-- el_to_tex/usecases.py 781–796 `MMultiscripts._prescript_latex` -/
def MMultiscripts__prescript_latex : Func :=
  ⟨[(.self, none)],
  [.assign .children (.attr (.attr (.name .self) ._math_element) .children),
   .ite (.and (.cmp .ge (.call (.name .len) [.name .children] [] []) (.int 4)) (.call (.attr (.name .self) ._is_prescripts) [.item (.name .children) (.int 1)] [] []))
   [.assign .sub (.item (.name .children) (.int 2)),
    .assign .sup (.item (.name .children) (.int 3))]
   [.ite (.and (.cmp .ge (.call (.name .len) [.name .children] [] []) (.int 6)) (.call (.attr (.name .self) ._is_prescripts) [.item (.name .children) (.int 3)] [] []))
    [.assign .sub (.item (.name .children) (.int 4)),
     .assign .sup (.item (.name .children) (.int 5))]
    [.ret (.str c!"")]],
   .assign .sub_latex (.call (.attr (.call (.attr (.attr (.name .self) ._adapter) .to_latex_converter) [.name .sub] [] []) .convert) [] [] []),
   .assign .sup_latex (.call (.attr (.call (.attr (.attr (.name .self) ._adapter) .to_latex_converter) [.name .sup] [] []) .convert) [] [] []),
   .ret (.fstr [.str c!"\\_{", .name .sub_latex, .str c!"}^{", .name .sup_latex, .str c!"}"])]⟩

/-- el_to_tex/usecases.py 798–812 `MMultiscripts._postscript_latex` -/
def MMultiscripts__postscript_latex : Func :=
  ⟨[(.self, none)],
  [.assign .children (.attr (.attr (.name .self) ._math_element) .children),
   .ite (.or (.cmp .lt (.call (.name .len) [.name .children] [] []) (.int 3)) (.and (.cmp .ge (.call (.name .len) [.name .children] [] []) (.int 1)) (.call (.attr (.name .self) ._is_prescripts) [.item (.name .children) (.int 1)] [] [])))
   [.ret (.str c!"")]
   [],
   .assign .sub (.item (.name .children) (.int 1)),
   .assign .sup (.item (.name .children) (.int 2)),
   .assign .sub_latex (.call (.attr (.call (.attr (.attr (.name .self) ._adapter) .to_latex_converter) [.name .sub] [] []) .convert) [] [] []),
   .assign .sup_latex (.call (.attr (.call (.attr (.attr (.name .self) ._adapter) .to_latex_converter) [.name .sup] [] []) .convert) [] [] []),
   .ret (.fstr [.str c!"_{", .name .sub_latex, .str c!"}^{", .name .sup_latex, .str c!"}"])]⟩

/-- el_to_tex/usecases.py 814–817 `MMultiscripts._wrap_in_parenthesis_if_there_is_space` -/
def MMultiscripts__wrap_in_parenthesis_if_there_is_space : Func :=
  ⟨[(.self, none), (.val, none)],
  [.ite (.not (.call (.attr (.name .re) .search) [.str c!"\\s+", .name .val] [] []))
   [.ret (.name .val)]
   [],
   .ret (.call (.attr (.attr (.name .self) ._parenthesis_wrapper) .wrap) [.name .val] [] [])]⟩

/-- el_to_tex/usecases.py 819–820 `MMultiscripts._is_prescripts` -/
def MMultiscripts__is_prescripts : Func :=
  ⟨[(.self, none), (.child, none)],
  [.ret (.cmp .eq (.attr (.name .child) .«name») (.str c!"mprescripts"))]⟩

/-- el_to_tex/adapter.py 29–35 `MathMLElementToLatexConverterAdapter.to_latex_converter` -/
def MathMLElementToLatexConverterAdapter_to_latex_converter : Func :=
  ⟨[(.self, none), (.mathml_element, none)],
  [.assign .«name» (.or (.attr (.name .mathml_element) .«name») (.attr (.call (.name .VoidMathMLElement) [] [] []) .«name»)),
   .assign .converter (.call (.attr (.call (.attr (.name .self) ._from_mathml_element_to_latex_converter) [] [] []) .get) [.name .«name», .attr (.name .self) ._make_generic_spacing_wrapper] [] []),
   .ret (.call (.name .converter) [.name .mathml_element] [] [])]⟩

/-- el_to_tex/adapter.py 37–63 `MathMLElementToLatexConverterAdapter._from_mathml_element_to_latex_converter` -/
def MathMLElementToLatexConverterAdapter__from_mathml_element_to_latex_converter : Func :=
  ⟨[(.self, none)],
  [.ret (.dict [c!"math", c!"mi", c!"mo", c!"mn", c!"msqrt", c!"mfenced", c!"mfrac", c!"mroot", c!"maction", c!"menclose", c!"merror", c!"mphantom", c!"msup", c!"msub", c!"msubsup", c!"mmultiscripts", c!"mtext", c!"munderover", c!"mtable", c!"mtr", c!"mover", c!"munder", c!"mrow", c!"mpadded"] [.attr (.name .self) ._make_math_tag_converter, .name .MI, .name .MO, .name .MN, .attr (.name .self) ._make_msqrt_tag_converter, .attr (.name .self) ._make_mfenced_tag_converter, .attr (.name .self) ._make_mfrac_tag_converter, .attr (.name .self) ._make_mroot_tag_converter, .attr (.name .self) ._make_maction_tag_converter, .attr (.name .self) ._make_menclose_tag_converter, .attr (.name .self) ._make_merror_tag_converter, .name .Void, .attr (.name .self) ._make_msup_tag_converter, .attr (.name .self) ._make_msub_tag_converter, .attr (.name .self) ._make_msubsup_tag_converter, .attr (.name .self) ._make_mmultiscripts_tag_converter, .name .MText, .attr (.name .self) ._make_munderover_tag_converter, .attr (.name .self) ._make_mtable_tag_converter, .attr (.name .self) ._make_mtr_tag_converter, .attr (.name .self) ._make_generic_under_over_converter, .attr (.name .self) ._make_generic_under_over_converter, .attr (.name .self) ._make_generic_spacing_wrapper, .attr (.name .self) ._make_generic_spacing_wrapper])]⟩

/-- el_to_tex/adapter.py 65–66 `MathMLElementToLatexConverterAdapter._make_math_tag_converter` -/
def MathMLElementToLatexConverterAdapter__make_math_tag_converter : Func :=
  ⟨[(.self, none), (.math_element, none)],
  [.ret (.call (.name .Math) [.name .math_element, .name .self] [] [])]⟩

/-- el_to_tex/adapter.py 68–69 `MathMLElementToLatexConverterAdapter._make_msup_tag_converter` -/
def MathMLElementToLatexConverterAdapter__make_msup_tag_converter : Func :=
  ⟨[(.self, none), (.math_element, none)],
  [.ret (.call (.name .MSup) [.name .math_element, .name .self] [] [])]⟩

/-- el_to_tex/adapter.py 71–72 `MathMLElementToLatexConverterAdapter._make_msub_tag_converter` -/
def MathMLElementToLatexConverterAdapter__make_msub_tag_converter : Func :=
  ⟨[(.self, none), (.math_element, none)],
  [.ret (.call (.name .MSub) [.name .math_element, .name .self] [] [])]⟩

/-- el_to_tex/adapter.py 74–75 `MathMLElementToLatexConverterAdapter._make_msubsup_tag_converter` -/
def MathMLElementToLatexConverterAdapter__make_msubsup_tag_converter : Func :=
  ⟨[(.self, none), (.math_element, none)],
  [.ret (.call (.name .MSubsup) [.name .math_element, .name .self] [] [])]⟩

/-- el_to_tex/adapter.py 77–78 `MathMLElementToLatexConverterAdapter._make_msqrt_tag_converter` -/
def MathMLElementToLatexConverterAdapter__make_msqrt_tag_converter : Func :=
  ⟨[(.self, none), (.math_element, none)],
  [.ret (.call (.name .MSqrt) [.name .math_element, .name .self] [] [])]⟩

/-- el_to_tex/adapter.py 80–81 `MathMLElementToLatexConverterAdapter._make_mfenced_tag_converter` -/
def MathMLElementToLatexConverterAdapter__make_mfenced_tag_converter : Func :=
  ⟨[(.self, none), (.math_element, none)],
  [.ret (.call (.name .MFenced) [.name .math_element, .name .self] [] [])]⟩

/-- el_to_tex/adapter.py 83–84 `MathMLElementToLatexConverterAdapter._make_mtable_tag_converter` -/
def MathMLElementToLatexConverterAdapter__make_mtable_tag_converter : Func :=
  ⟨[(.self, none), (.math_element, none)],
  [.ret (.call (.name .MTable) [.name .math_element, .name .self] [] [])]⟩

/-- el_to_tex/adapter.py 86–87 `MathMLElementToLatexConverterAdapter._make_mtr_tag_converter` -/
def MathMLElementToLatexConverterAdapter__make_mtr_tag_converter : Func :=
  ⟨[(.self, none), (.math_element, none)],
  [.ret (.call (.name .MTr) [.name .math_element, .name .self] [] [])]⟩

/-- el_to_tex/adapter.py 89–92 `MathMLElementToLatexConverterAdapter._make_generic_under_over_converter` -/
def MathMLElementToLatexConverterAdapter__make_generic_under_over_converter : Func :=
  ⟨[(.self, none), (.math_element, none)],
  [.ret (.call (.name .GenericUnderOver) [.name .math_element, .name .self] [] [])]⟩

/-- el_to_tex/adapter.py 94–95 `MathMLElementToLatexConverterAdapter._make_munderover_tag_converter` -/
def MathMLElementToLatexConverterAdapter__make_munderover_tag_converter : Func :=
  ⟨[(.self, none), (.math_element, none)],
  [.ret (.call (.name .MUnderover) [.name .math_element, .name .self] [] [])]⟩

/-- el_to_tex/adapter.py 97–98 `MathMLElementToLatexConverterAdapter._make_mfrac_tag_converter` -/
def MathMLElementToLatexConverterAdapter__make_mfrac_tag_converter : Func :=
  ⟨[(.self, none), (.math_element, none)],
  [.ret (.call (.name .MFrac) [.name .math_element, .name .self] [] [])]⟩

/-- el_to_tex/adapter.py 100–101 `MathMLElementToLatexConverterAdapter._make_mroot_tag_converter` -/
def MathMLElementToLatexConverterAdapter__make_mroot_tag_converter : Func :=
  ⟨[(.self, none), (.math_element, none)],
  [.ret (.call (.name .MRoot) [.name .math_element, .name .self] [] [])]⟩

/-- el_to_tex/adapter.py 103–104 `MathMLElementToLatexConverterAdapter._make_maction_tag_converter` -/
def MathMLElementToLatexConverterAdapter__make_maction_tag_converter : Func :=
  ⟨[(.self, none), (.math_element, none)],
  [.ret (.call (.name .MAction) [.name .math_element, .name .self] [] [])]⟩

/-- el_to_tex/adapter.py 106–107 `MathMLElementToLatexConverterAdapter._make_menclose_tag_converter` -/
def MathMLElementToLatexConverterAdapter__make_menclose_tag_converter : Func :=
  ⟨[(.self, none), (.math_element, none)],
  [.ret (.call (.name .MEnclose) [.name .math_element, .name .self] [] [])]⟩

/-- el_to_tex/adapter.py 109–110 `MathMLElementToLatexConverterAdapter._make_merror_tag_converter` -/
def MathMLElementToLatexConverterAdapter__make_merror_tag_converter : Func :=
  ⟨[(.self, none), (.math_element, none)],
  [.ret (.call (.name .MError) [.name .math_element, .name .self] [] [])]⟩

/-- el_to_tex/adapter.py 112–115 `MathMLElementToLatexConverterAdapter._make_mmultiscripts_tag_converter` -/
def MathMLElementToLatexConverterAdapter__make_mmultiscripts_tag_converter : Func :=
  ⟨[(.self, none), (.math_element, none)],
  [.ret (.call (.name .MMultiscripts) [.name .math_element, .name .self] [] [])]⟩

/-- el_to_tex/adapter.py 117–120 `MathMLElementToLatexConverterAdapter._make_generic_spacing_wrapper` -/
def MathMLElementToLatexConverterAdapter__make_generic_spacing_wrapper : Func :=
  ⟨[(.self, none), (.math_element, none)],
  [.ret (.call (.name .GenericSpacingWrapper) [.name .math_element, .name .self] [] [])]⟩

/-- xml_to_mathml/services/error_handler.py 6–7 `ErrorHandler.__init__` -/
def ErrorHandler___init__ : Func :=
  ⟨[(.self, none)],
  [.setAttr (.name .self) .error_locator (.dict [] [])]⟩

/-- xml_to_mathml/services/error_handler.py 9–13 `ErrorHandler.fix_error` -/
def ErrorHandler_fix_error : Func :=
  ⟨[(.self, none), (.xml, none), (.error, none)],
  [.ite (.not (.call (.name .isinstance) [.name .error, .name .ExpatError] [] []))
   [.ret (.name .xml)]
   [],
   .ret (.call (.attr (.name .self) ._fix_missing_attribute) [.name .error, .name .xml] [] [])]⟩

/-- xml_to_mathml/services/error_handler.py 15–26 `ErrorHandler._fix_missing_attribute` -/
def ErrorHandler__fix_missing_attribute : Func :=
  ⟨[(.self, none), (.error, none), (.xml, none)],
  [.assign .result (.call (.attr (.name .self) ._fix_missing_attribute_value) [.name .error, .name .xml] [] []),
   .ite (.cmp .ne (.name .result) (.name .xml))
   [.ret (.name .result)]
   [],
   .assign .pattern (.call (.attr (.name .self) ._math_generic_missing_value) [] [] []),
   .assign .counter (.int 0),
   .while (.and (.call (.attr (.name .re) .search) [.name .pattern, .name .xml] [] []) (.cmp .lt (.name .counter) (.int 5)))
   [.assign .counter (.add (.name .counter) (.int 1)),
    .assign .result (.call (.attr (.name .re) .sub) [.name .pattern, .str c!"\\1\\3", .name .xml] [] [])],
   .ret (.name .result)]⟩

/-- xml_to_mathml/services/error_handler.py 28–40 `ErrorHandler._fix_missing_attribute_value` -/
def ErrorHandler__fix_missing_attribute_value : Func :=
  ⟨[(.self, none), (.error, none), (.xml, none)],
  [.assign .error_code (.attr (.name .error) .code),
   .ite (.cmp .ne (.name .error_code) (.int 4))
   [.ret (.name .xml)]
   [],
   .assign .error_line (.attr (.name .error) .lineno),
   .assign .error_offset (.attr (.name .error) .offset),
   .assign .goal_line (.item (.call (.attr (.name .xml) .split) [.str c!"\n"] [] []) (.sub (.name .error_line) (.int 1))),
   .assign .word (.call (.attr (.name .self) ._get_word_at_str_pos) [.name .goal_line, .name .error_offset] [] []),
   .assign .pattern (.call (.attr (.name .self) ._match_missing_value_for_attribute) [.name .word] [] []),
   .ret (.call (.attr (.name .re) .sub) [.name .pattern, .str c!"", .name .xml] [] [])]⟩

/-- xml_to_mathml/services/error_handler.py 42–51 `ErrorHandler._match_missing_value_for_attribute` -/
def ErrorHandler__match_missing_value_for_attribute : Func :=
  ⟨[(.self, none), (.«attribute», none)],
  [.assign .escaped_attribute (.call (.attr (.name .re) .escape) [.name .«attribute»] [] []),
   .assign .regex_pattern (.fstr [.str c!"(", .name .escaped_attribute, .str c!"=(?!([\"\\'])))|(", .name .escaped_attribute, .str c!"(?!([\"\\'])))"]),
   .ret (.call (.attr (.name .re) .compile) [.name .regex_pattern, .attr (.name .re) .MULTILINE] [] [])]⟩

/-- xml_to_mathml/services/error_handler.py 53–62 `ErrorHandler._math_generic_missing_value` -/
def ErrorHandler__math_generic_missing_value : Func :=
  ⟨[(.self, none)],
  [.ret (.call (.attr (.name .re) .compile) [.str c!"(<.* )(\\w+=(?!([\"\\'])))?(.*>)", .attr (.name .re) .MULTILINE] [] [])]⟩

/-- xml_to_mathml/services/error_handler.py 64–74 `ErrorHandler._get_word_at_str_pos` -/
def ErrorHandler__get_word_at_str_pos : Func :=
  ⟨[(.self, none), (.string, none), (.pos, none)],
  [.assign .start (.name .pos),
   .assign .«end» (.name .pos),
   .while (.and (.cmp .gt (.name .start) (.int 0)) (.cmp .ne (.item (.name .string) (.sub (.name .start) (.int 1))) (.str c!" ")))
   [.assign .start (.sub (.name .start) (.int 1))],
   .while (.and (.cmp .lt (.name .«end») (.call (.name .len) [.name .string] [] [])) (.and (.cmp .ne (.item (.name .string) (.name .«end»)) (.str c!" ")) (.cmp .ne (.item (.name .string) (.name .«end»)) (.str c!">"))))
   [.assign .«end» (.add (.name .«end») (.int 1))],
   .ret (.slice (.name .string) (.name .start) (.name .«end»))]⟩

/-- xml_to_mathml/services/xml_elements_to_mathml_element.py 8–18 `ElementsToMathMLAdapter.convert` -/
def ElementsToMathMLAdapter_convert : Func :=
  ⟨[(.self, none), (.els, none)],
  [.ret (.comp (.call (.attr (.name .self) ._convert_element) [.name .el] [] []) .el (.name .els) [.cmp .isNot (.attr (.name .el) .tagName) (.none)])]⟩

/-- xml_to_mathml/services/xml_elements_to_mathml_element.py 20–44 `ElementsToMathMLAdapter._convert_element` -/
def ElementsToMathMLAdapter__convert_element : Func :=
  ⟨[(.self, none), (.el, none)],
  [.assign .attributes (.call (.attr (.name .self) ._convert_element_attributes) [.attr (.name .el) .attributes] [] []),
   .assign .has_children (.call (.attr (.name .self) ._has_element_child) [.name .el] [] []),
   .assign .value (.ite (.name .has_children) (.str c!"") (.ite (.attr (.name .el) .firstChild) (.attr (.attr (.name .el) .firstChild) .nodeValue) (.str c!""))),
   .assign .children (.ite (.name .has_children) (.call (.attr (.name .self) .convert) [.comp (.name .child) .child (.attr (.name .el) .childNodes) [.cmp .eq (.attr (.name .child) .nodeType) (.attr (.name .Node) .ELEMENT_NODE)]] [] []) (.list [])),
   .ret (.call (.name .GenericMathMLElement) [] [.«name», .value, .children, .attributes] [.attr (.name .el) .tagName, .call (.attr (.name .value) .strip) [] [] [], .name .children, .name .attributes])]⟩

/-- xml_to_mathml/services/xml_elements_to_mathml_element.py 46–52 `ElementsToMathMLAdapter._convert_element_attributes` -/
def ElementsToMathMLAdapter__convert_element_attributes : Func :=
  ⟨[(.self, none), (.attributes, none)],
  [.assign .attr_dict (.dict [] []),
   .for .attr (.call (.attr (.name .attributes) .values) [] [] [])
   [.assign .attr_value (.ite (.cmp .eq (.attr (.name .attr) .value) (.attr (.name .attr) .«name»)) (.str c!"") (.attr (.name .attr) .value)),
    .setItem (.name .attr_dict) (.attr (.name .attr) .«name») (.name .attr_value)],
   .ret (.name .attr_dict)]⟩

/-- xml_to_mathml/services/xml_elements_to_mathml_element.py 54–55 `ElementsToMathMLAdapter._has_element_child` -/
def ElementsToMathMLAdapter__has_element_child : Func :=
  ⟨[(.self, none), (.el, none)],
  [.ret (.anyGen (.cmp .eq (.attr (.name .child) .nodeType) (.attr (.name .Node) .ELEMENT_NODE)) .child (.attr (.name .el) .childNodes))]⟩

/-- xml_to_mathml/services/xml_elements_to_mathml_element.py 57–58 `ElementsToMathMLAdapter._is_there_any_no_text_node` -/
def ElementsToMathMLAdapter__is_there_any_no_text_node : Func :=
  ⟨[(.self, none), (.children, none)],
  [.ret (.anyGen (.cmp .ne (.attr (.name .child) .nodeName) (.str c!"#text")) .child (.name .children))]⟩

/-- xml_to_mathml/adapter.py 13–18 `XmlToMathMLAdapter.__init__` -/
def XmlToMathMLAdapter___init__ : Func :=
  ⟨[(.self, none), (.elements_converter, none), (.error_handler, none)],
  [.setAttr (.name .self) ._xml (.str c!""),
   .setAttr (.name .self) ._elements_converter (.name .elements_converter),
   .setAttr (.name .self) ._error_handler (.name .error_handler)]⟩

/-- xml_to_mathml/adapter.py 20–24 `XmlToMathMLAdapter.convert` -/
def XmlToMathMLAdapter_convert : Func :=
  ⟨[(.self, none), (.xml, none)],
  [.setAttr (.name .self) ._xml (.call (.attr (.name .self) ._remove_line_breaks) [.name .xml] [] []),
   .setAttr (.name .self) ._xml (.call (.attr (.name .self) ._remove_ms_word_prefixes) [.attr (.name .self) ._xml] [] []),
   .ret (.call (.attr (.attr (.name .self) ._elements_converter) .convert) [.attr (.name .self) ._mathml_elements] [] [])]⟩

/-- xml_to_mathml/adapter.py 26–27 `XmlToMathMLAdapter._fix_error` -/
def XmlToMathMLAdapter__fix_error : Func :=
  ⟨[(.self, none), (.error, none)],
  [.setAttr (.name .self) ._xml (.call (.attr (.attr (.name .self) ._error_handler) .fix_error) [.attr (.name .self) ._xml, .name .error] [] [])]⟩

/-- xml_to_mathml/adapter.py 29–31 `XmlToMathMLAdapter._remove_line_breaks` -/
def XmlToMathMLAdapter__remove_line_breaks : Func :=
  ⟨[(.self, none), (.xml, none)],
  [.assign .line_break_pattern (.call (.attr (.name .re) .compile) [.str c!"\\n|\\r\\n|\\r"] [] []),
   .ret (.call (.attr (.name .line_break_pattern) .sub) [.str c!"", .name .xml] [] [])]⟩

/-- xml_to_mathml/adapter.py 33–35 `XmlToMathMLAdapter._remove_ms_word_prefixes` -/
def XmlToMathMLAdapter__remove_ms_word_prefixes : Func :=
  ⟨[(.self, none), (.xml, none)],
  [.assign .ms_word_prefix_pattern (.call (.attr (.name .re) .compile) [.str c!"mml:"] [] []),
   .ret (.call (.attr (.name .ms_word_prefix_pattern) .sub) [.str c!"", .name .xml] [] [])]⟩

/-- xml_to_mathml/adapter.py 38–51 `XmlToMathMLAdapter._mathml_elements` -/
def XmlToMathMLAdapter__mathml_elements : Func :=
  ⟨[(.self, none)],
  [.assign .exception (.none),
   .for ._ (.call (.name .range) [.int 5] [] [])
   [.tryExcept
    [.assign .dom (.call (.name .parseString) [.attr (.name .self) ._xml] [] []),
     .assign .elements (.call (.attr (.name .dom) .getElementsByTagName) [.str c!"math"] [] []),
     .ret (.call (.name .list) [.name .elements] [] [])]
    .e
    [.expr (.call (.attr (.name .self) ._fix_error) [.name .e] [] []),
     .assign .exception (.name .e)]],
   .ite (.name .exception)
   [.raise (.name .exception)]
   []]⟩

/-- xml_to_mathml/factory.py 8–12 `make_xml_to_mathml_adapter` -/
def fn_make_xml_to_mathml_adapter : Func :=
  ⟨[],
  [.assign .xml_elements_to_mathml_element_adapter (.call (.name .ElementsToMathMLAdapter) [] [] []),
   .assign .error_handler (.call (.name .ErrorHandler) [] [] []),
   .ret (.call (.name .XmlToMathMLAdapter) [.name .xml_elements_to_mathml_element_adapter, .name .error_handler] [] [])]⟩

/-- converter.py 7–18 `MathMLToLaTeX.convert` -/
def MathMLToLaTeX_convert : Func :=
  ⟨[(.mathml, none)],
  [.assign .mathml_elements (.call (.attr (.call (.name .make_xml_to_mathml_adapter) [] [] []) .convert) [.name .mathml] [] []),
   .assign .mathml_elements_to_latex_converters (.comp (.call (.attr (.call (.name .MathMLElementToLatexConverterAdapter) [] [] []) .to_latex_converter) [.name .mathml_element] [] []) .mathml_element (.name .mathml_elements) []),
   .ret (.call (.attr (.call (.attr (.str c!"") .join) [.comp (.call (.attr (.name .to_latex_converters) .convert) [] [] []) .to_latex_converters (.name .mathml_elements_to_latex_converters) []] [] []) .strip) [] [] [])]⟩

/-- The classes. -/
def classes : List (Ident × Class) := [
  (.AccentChar, ⟨none,
    [],
    []⟩),
  (.SpecialFontChar, ⟨none,
    [],
    []⟩),
  (.UTF8ToLtXConverter, ⟨none,
    [(.convert, .plain, UTF8ToLtXConverter_convert)],
    []⟩),
  (.HashUTF8ToLtXConverter, ⟨some .UTF8ToLtXConverter,
    [(.convert, .plain, HashUTF8ToLtXConverter_convert),
     (.convert_accent_char_to_ltx, .plain, HashUTF8ToLtXConverter_convert_accent_char_to_ltx),
     (.convert_special_char_to_ltx, .plain, HashUTF8ToLtXConverter_convert_special_char_to_ltx)],
    []⟩),
  (.WhiteSpaceNormalizer, ⟨none,
    [(.normalize, .plain, WhiteSpaceNormalizer_normalize)],
    []⟩),
  (.Wrapper, ⟨none,
    [(.__init__, .plain, Wrapper___init__),
     (.wrap, .plain, Wrapper_wrap)],
    []⟩),
  (.ParenthesisWrapper, ⟨some .Wrapper,
    [(.__init__, .plain, ParenthesisWrapper___init__),
     (.wrap, .plain, ParenthesisWrapper_wrap),
     (.wrap_if_more_than_one_char, .plain, ParenthesisWrapper_wrap_if_more_than_one_char)],
    []⟩),
  (.BracketWrapper, ⟨some .Wrapper,
    [(.__init__, .plain, BracketWrapper___init__),
     (.wrap, .plain, BracketWrapper_wrap)],
    []⟩),
  (.GenericWrapper, ⟨some .Wrapper,
    [(.__init__, .plain, GenericWrapper___init__),
     (.wrap, .plain, GenericWrapper_wrap)],
    []⟩),
  (.JoinWithManySeparators, ⟨none,
    [(.__init__, .plain, JoinWithManySeparators___init__),
     (.join, .plain, JoinWithManySeparators_join),
     (._get, .plain, JoinWithManySeparators__get)],
    []⟩),
  (.MathMLElement, ⟨none,
    [(.«name», .prop, MathMLElement_name),
     (.value, .prop, MathMLElement_value),
     (.children, .prop, MathMLElement_children),
     (.attributes, .prop, MathMLElement_attributes)],
    []⟩),
  (.ToLaTeXConverter, ⟨none,
    [(.convert, .plain, ToLaTeXConverter_convert)],
    []⟩),
  (.GenericMathMLElement, ⟨some .MathMLElement,
    [(.__init__, .plain, GenericMathMLElement___init__),
     (.«name», .prop, GenericMathMLElement_name),
     (.value, .prop, GenericMathMLElement_value),
     (.children, .prop, GenericMathMLElement_children),
     (.attributes, .prop, GenericMathMLElement_attributes)],
    []⟩),
  (.VoidMathMLElement, ⟨some .MathMLElement,
    [(.«name», .prop, VoidMathMLElement_name),
     (.value, .prop, VoidMathMLElement_value),
     (.children, .prop, VoidMathMLElement_children),
     (.attributes, .prop, VoidMathMLElement_attributes)],
    []⟩),
  (.MIMathMlElement, ⟨some .MathMLElement,
    [(.__init__, .plain, MIMathMlElement___init__),
     (.«name», .prop, MIMathMlElement_name),
     (.value, .prop, MIMathMlElement_value),
     (.children, .prop, MIMathMlElement_children),
     (.attributes, .prop, MIMathMlElement_attributes)],
    []⟩),
  (.InvalidNumberOfChildrenError, ⟨some .Exception,
    [(.__init__, .plain, InvalidNumberOfChildrenError___init__)],
    []⟩),
  (.Math, ⟨some .ToLaTeXConverter,
    [(.__init__, .plain, Math___init__),
     (.convert, .plain, Math_convert)],
    []⟩),
  (.Void, ⟨some .ToLaTeXConverter,
    [(.__init__, .plain, Void___init__),
     (.convert, .plain, Void_convert)],
    []⟩),
  (.MI, ⟨some .ToLaTeXConverter,
    [(.__init__, .plain, MI___init__),
     (.convert, .plain, MI_convert),
     (._get_math_variant, .plain, MI__get_math_variant),
     (._wrap_in_math_variant, .plain, MI__wrap_in_math_variant)],
    []⟩),
  (.Character, ⟨none,
    [(.__init__, .plain, Character___init__),
     (.apply, .static, Character_apply),
     (._apply, .plain, Character__apply),
     (._find_by_character, .plain, Character__find_by_character),
     (._find_by_glyph, .plain, Character__find_by_glyph),
     (._find_by_number, .plain, Character__find_by_number)],
    []⟩),
  (.MO, ⟨some .ToLaTeXConverter,
    [(.__init__, .plain, MO___init__),
     (.convert, .plain, MO_convert)],
    []⟩),
  (.Operator, ⟨none,
    [(.__init__, .plain, Operator___init__),
     (.operate, .static, Operator_operate),
     (._operate, .plain, Operator__operate),
     (._find_by_character, .plain, Operator__find_by_character),
     (._find_by_glyph, .plain, Operator__find_by_glyph),
     (._find_by_number, .plain, Operator__find_by_number)],
    []⟩),
  (.MN, ⟨some .ToLaTeXConverter,
    [(.__init__, .plain, MN___init__),
     (.convert, .plain, MN_convert)],
    []⟩),
  (.MSup, ⟨some .ToLaTeXConverter,
    [(.__init__, .plain, MSup___init__),
     (.convert, .plain, MSup_convert),
     (._handle_base_child, .plain, MSup__handle_base_child),
     (._handle_exponent_child, .plain, MSup__handle_exponent_child)],
    []⟩),
  (.GenericSpacingWrapper, ⟨some .ToLaTeXConverter,
    [(.__init__, .plain, GenericSpacingWrapper___init__),
     (.convert, .plain, GenericSpacingWrapper_convert)],
    []⟩),
  (.MSqrt, ⟨some .ToLaTeXConverter,
    [(.__init__, .plain, MSqrt___init__),
     (.convert, .plain, MSqrt_convert)],
    []⟩),
  (.Separators, ⟨none,
    [(.__init__, .plain, Separators___init__),
     (.wrap, .plain, Separators_wrap),
     (.are_parentheses, .plain, Separators_are_parentheses),
     (.are_square_brackets, .plain, Separators_are_square_brackets),
     (.are_brackets, .plain, Separators_are_brackets),
     (.are_divides, .plain, Separators_are_divides),
     (.are_parallels, .plain, Separators_are_parallels),
     (.are_not_equal, .plain, Separators_are_not_equal),
     (._compare, .plain, Separators__compare)],
    []⟩),
  (.Vector, ⟨none,
    [(.__init__, .plain, Vector___init__),
     (.apply, .plain, Vector_apply)],
    []⟩),
  (.Matrix, ⟨none,
    [(.__init__, .plain, Matrix___init__),
     (.apply, .plain, Matrix_apply),
     (._command, .prop, Matrix__command)],
    []⟩),
  (.MFenced, ⟨some .ToLaTeXConverter,
    [(.__init__, .plain, MFenced___init__),
     (.convert, .plain, MFenced_convert),
     (._is_there_relative_of_name, .plain, MFenced__is_there_relative_of_name)],
    []⟩),
  (.MTable, ⟨some .ToLaTeXConverter,
    [(.__init__, .plain, MTable___init__),
     (.convert, .plain, MTable_convert),
     (._wrap, .plain, MTable__wrap),
     (._add_flag_recursive_if_name, .plain, MTable__add_flag_recursive_if_name),
     (._has_flag, .plain, MTable__has_flag)],
    []⟩),
  (.MTr, ⟨some .ToLaTeXConverter,
    [(.__init__, .plain, MTr___init__),
     (.convert, .plain, MTr_convert)],
    []⟩),
  (.MSub, ⟨some .ToLaTeXConverter,
    [(.__init__, .plain, MSub___init__),
     (.convert, .plain, MSub_convert),
     (._handle_base_child, .plain, MSub__handle_base_child),
     (._handle_subscript_child, .plain, MSub__handle_subscript_child)],
    []⟩),
  (.MFrac, ⟨some .ToLaTeXConverter,
    [(.__init__, .plain, MFrac___init__),
     (.convert, .plain, MFrac_convert),
     (._wrap_if_more_than_one_char, .plain, MFrac__wrap_if_more_than_one_char),
     (._is_bevelled, .plain, MFrac__is_bevelled)],
    []⟩),
  (.MRoot, ⟨some .ToLaTeXConverter,
    [(.__init__, .plain, MRoot___init__),
     (.convert, .plain, MRoot_convert)],
    []⟩),
  (.MAction, ⟨some .ToLaTeXConverter,
    [(.__init__, .plain, MAction___init__),
     (.convert, .plain, MAction_convert),
     (._is_toggle, .plain, MAction__is_toggle)],
    []⟩),
  (.MEnclose, ⟨some .ToLaTeXConverter,
    [(.__init__, .plain, MEnclose___init__),
     (.convert, .plain, MEnclose_convert)],
    []⟩),
  (.MError, ⟨some .ToLaTeXConverter,
    [(.__init__, .plain, MError___init__),
     (.convert, .plain, MError_convert)],
    []⟩),
  (.MSubsup, ⟨some .ToLaTeXConverter,
    [(.__init__, .plain, MSubsup___init__),
     (.convert, .plain, MSubsup_convert),
     (._handle_base_child, .plain, MSubsup__handle_base_child),
     (._handle_subscript_child, .plain, MSubsup__handle_subscript_child),
     (._handle_superscript_child, .plain, MSubsup__handle_superscript_child)],
    []⟩),
  (.TextCommand, ⟨none,
    [(.__init__, .plain, TextCommand___init__),
     (.apply, .plain, TextCommand_apply),
     (._commands, .prop, TextCommand__commands)],
    []⟩),
  (.Char, ⟨none,
    [(.__init__, .plain, Char___init__)],
    []⟩),
  (.MText, ⟨some .ToLaTeXConverter,
    [(.__init__, .plain, MText___init__),
     (.convert, .plain, MText_convert)],
    []⟩),
  (.TagTypes, ⟨none,
    [],
    [.Under, .Over]⟩),
  (.UnderOverSetter, ⟨none,
    [(.__init__, .plain, UnderOverSetter___init__),
     (.apply, .plain, UnderOverSetter_apply),
     (._default_command, .prop, UnderOverSetter__default_command)],
    []⟩),
  (.GenericUnderOver, ⟨some .ToLaTeXConverter,
    [(.__init__, .plain, GenericUnderOver___init__),
     (.convert, .plain, GenericUnderOver_convert),
     (._apply_command, .plain, GenericUnderOver__apply_command)],
    []⟩),
  (.MUnderover, ⟨some .ToLaTeXConverter,
    [(.__init__, .plain, MUnderover___init__),
     (.convert, .plain, MUnderover_convert)],
    []⟩),
  (.MMultiscripts, ⟨some .ToLaTeXConverter,
    [(.__init__, .plain, MMultiscripts___init__),
     (.convert, .plain, MMultiscripts_convert),
     (._prescript_latex, .plain, MMultiscripts__prescript_latex),
     (._postscript_latex, .plain, MMultiscripts__postscript_latex),
     (._wrap_in_parenthesis_if_there_is_space, .plain, MMultiscripts__wrap_in_parenthesis_if_there_is_space),
     (._is_prescripts, .plain, MMultiscripts__is_prescripts)],
    []⟩),
  (.MathMLElementToLatexConverterAdapter, ⟨none,
    [(.to_latex_converter, .plain, MathMLElementToLatexConverterAdapter_to_latex_converter),
     (._from_mathml_element_to_latex_converter, .plain, MathMLElementToLatexConverterAdapter__from_mathml_element_to_latex_converter),
     (._make_math_tag_converter, .plain, MathMLElementToLatexConverterAdapter__make_math_tag_converter),
     (._make_msup_tag_converter, .plain, MathMLElementToLatexConverterAdapter__make_msup_tag_converter),
     (._make_msub_tag_converter, .plain, MathMLElementToLatexConverterAdapter__make_msub_tag_converter),
     (._make_msubsup_tag_converter, .plain, MathMLElementToLatexConverterAdapter__make_msubsup_tag_converter),
     (._make_msqrt_tag_converter, .plain, MathMLElementToLatexConverterAdapter__make_msqrt_tag_converter),
     (._make_mfenced_tag_converter, .plain, MathMLElementToLatexConverterAdapter__make_mfenced_tag_converter),
     (._make_mtable_tag_converter, .plain, MathMLElementToLatexConverterAdapter__make_mtable_tag_converter),
     (._make_mtr_tag_converter, .plain, MathMLElementToLatexConverterAdapter__make_mtr_tag_converter),
     (._make_generic_under_over_converter, .plain, MathMLElementToLatexConverterAdapter__make_generic_under_over_converter),
     (._make_munderover_tag_converter, .plain, MathMLElementToLatexConverterAdapter__make_munderover_tag_converter),
     (._make_mfrac_tag_converter, .plain, MathMLElementToLatexConverterAdapter__make_mfrac_tag_converter),
     (._make_mroot_tag_converter, .plain, MathMLElementToLatexConverterAdapter__make_mroot_tag_converter),
     (._make_maction_tag_converter, .plain, MathMLElementToLatexConverterAdapter__make_maction_tag_converter),
     (._make_menclose_tag_converter, .plain, MathMLElementToLatexConverterAdapter__make_menclose_tag_converter),
     (._make_merror_tag_converter, .plain, MathMLElementToLatexConverterAdapter__make_merror_tag_converter),
     (._make_mmultiscripts_tag_converter, .plain, MathMLElementToLatexConverterAdapter__make_mmultiscripts_tag_converter),
     (._make_generic_spacing_wrapper, .plain, MathMLElementToLatexConverterAdapter__make_generic_spacing_wrapper)],
    []⟩),
  (.ErrorHandler, ⟨none,
    [(.__init__, .plain, ErrorHandler___init__),
     (.fix_error, .plain, ErrorHandler_fix_error),
     (._fix_missing_attribute, .plain, ErrorHandler__fix_missing_attribute),
     (._fix_missing_attribute_value, .plain, ErrorHandler__fix_missing_attribute_value),
     (._match_missing_value_for_attribute, .plain, ErrorHandler__match_missing_value_for_attribute),
     (._math_generic_missing_value, .plain, ErrorHandler__math_generic_missing_value),
     (._get_word_at_str_pos, .plain, ErrorHandler__get_word_at_str_pos)],
    []⟩),
  (.ElementsToMathMLAdapter, ⟨none,
    [(.convert, .plain, ElementsToMathMLAdapter_convert),
     (._convert_element, .plain, ElementsToMathMLAdapter__convert_element),
     (._convert_element_attributes, .plain, ElementsToMathMLAdapter__convert_element_attributes),
     (._has_element_child, .plain, ElementsToMathMLAdapter__has_element_child),
     (._is_there_any_no_text_node, .plain, ElementsToMathMLAdapter__is_there_any_no_text_node)],
    []⟩),
  (.XmlToMathMLAdapter, ⟨none,
    [(.__init__, .plain, XmlToMathMLAdapter___init__),
     (.convert, .plain, XmlToMathMLAdapter_convert),
     (._fix_error, .plain, XmlToMathMLAdapter__fix_error),
     (._remove_line_breaks, .plain, XmlToMathMLAdapter__remove_line_breaks),
     (._remove_ms_word_prefixes, .plain, XmlToMathMLAdapter__remove_ms_word_prefixes),
     (._mathml_elements, .prop, XmlToMathMLAdapter__mathml_elements)],
    []⟩),
  (.MathMLToLaTeX, ⟨none,
    [(.convert, .static, MathMLToLaTeX_convert)],
    []⟩)]

/-- The functions of the modules. -/
def functions : List (Ident × Func) := [
  (.make_xml_to_mathml_adapter, fn_make_xml_to_mathml_adapter)]

end Verif.Src
