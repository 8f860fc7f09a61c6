/-! # Identifiers of the source

Generated by tools/gen_source.py. -/

namespace Verif.Src

/-- The identifiers that occur in /repo/src/mathml_to_latex. -/
inductive Ident where
  | AccentChar | BracketWrapper | Char | Character | ELEMENT_NODE | ElementsToMathMLAdapter
  | ErrorHandler | Exception | ExpatError | GenericMathMLElement | GenericSpacingWrapper
  | GenericUnderOver | GenericWrapper | HashUTF8ToLtXConverter | IGNORECASE
  | InvalidNumberOfChildrenError | JoinWithManySeparators | MAction | MEnclose | MError | MFenced
  | MFrac | MI | MIMathMlElement | MMultiscripts | MN | MO | MRoot | MSqrt | MSub | MSubsup | MSup
  | MTable | MText | MTr | MULTILINE | MUnderover | Math | MathMLElement
  | MathMLElementToLatexConverterAdapter | MathMLToLaTeX | Matrix | Node | Operator | Over
  | ParenthesisWrapper | Separators | SpecialFontChar | TagTypes | TextCommand | ToLaTeXConverter
  | UTF8ToLtXConverter | Under | UnderOverSetter | Vector | Void | VoidMathMLElement
  | WhiteSpaceNormalizer | Wrapper | XmlToMathMLAdapter | _ | __init__ | _adapter
  | _add_flag_recursive_if_name | _apply | _apply_command | _attributes | _bracket_wrapper
  | _children | _close | _command | _commands | _compare | _convert_element
  | _convert_element_attributes | _default_command | _elements_converter | _error_handler
  | _find_by_character | _find_by_glyph | _find_by_number | _fix_error | _fix_missing_attribute
  | _fix_missing_attribute_value | _from_mathml_element_to_latex_converter | _generic_command
  | _get | _get_math_variant | _get_word_at_str_pos | _handle_base_child | _handle_exponent_child
  | _handle_subscript_child | _handle_superscript_child | _has_element_child | _has_flag
  | _is_bevelled | _is_prescripts | _is_there_any_no_text_node | _is_there_relative_of_name
  | _is_toggle | _make_generic_spacing_wrapper | _make_generic_under_over_converter
  | _make_maction_tag_converter | _make_math_tag_converter | _make_menclose_tag_converter
  | _make_merror_tag_converter | _make_mfenced_tag_converter | _make_mfrac_tag_converter
  | _make_mmultiscripts_tag_converter | _make_mroot_tag_converter | _make_msqrt_tag_converter
  | _make_msub_tag_converter | _make_msubsup_tag_converter | _make_msup_tag_converter
  | _make_mtable_tag_converter | _make_mtr_tag_converter | _make_munderover_tag_converter
  | _match_missing_value_for_attribute | _math_element | _math_generic_missing_value
  | _math_variant | _mathml_elements | _name | _normalizer | _notation | _open | _operate
  | _parenthesis_wrapper | _postscript_latex | _prescript_latex | _remove_line_breaks
  | _remove_ms_word_prefixes | _separators | _type | _utf8_converter | _value
  | _white_space_normalizer | _wrap | _wrap_if_more_than_one_char | _wrap_in_math_variant
  | _wrap_in_parenthesis_if_there_is_space | _xml | acc | accent | accent_char | accent_to_ltx_cmd
  | action_type | adapter | all_math_operators_by_char | all_math_operators_by_glyph
  | all_math_symbols_by_char | all_math_symbols_by_glyph | any | append | apply | are_brackets
  | are_divides | are_not_equal | are_parallels | are_parentheses | are_square_brackets | args
  | arr | attr | attr_dict | attr_value | «attribute» | attributes | base | base_child
  | base_children | base_content | base_str | bool | «char» | chars | child | childNodes
  | children | children_length | close | close_cmd | close_to_compare | cmd | code | «command»
  | comparison | compile | content | content_without_wrapper | convert
  | convert_accent_char_to_ltx | convert_special_char_to_ltx | converted_char | converted_value
  | converter | counter | current_number_of_child | current_str | den | dom | e | el
  | element_name | elements | elements_converter | els | «end» | error | error_code
  | error_handler | error_line | error_locator | error_offset | escape | escaped_attribute
  | exception | expected_number_of_child | exponent | exponent_child | exponent_str | firstChild
  | fix_error | flag | font_cmd | get | getElementsByTagName | goal_line | has_children | index
  | is_alphanumeric | isinstance | join | last_char | latex | latex_accents | latex_children
  | latex_command | latex_contents | latex_joined_children | len | letter | line_break_pattern
  | lineno | list | ltx_cmd | make_xml_to_mathml_adapter | «match» | math_element
  | math_number_by_glyph | math_variant | mathml | mathml_element | mathml_elements
  | mathml_elements_to_latex_converters | «matrix» | merged_chars | ms_word_prefix_pattern
  | «name» | nodeName | nodeType | nodeValue | normalize | normalized_value | normalizer | num
  | offset | op | open_cmd | open_to_compare | operate | over_content | parseString | parsed_char
  | pattern | pos | range | raw_tex | re | regex_pattern | result | root_index | search | self
  | separator | separators | special_char | special_font_char | special_font_chars | split | start
  | string | strip | sub | sub_latex | subscript | subscript_child | subscript_str | sup
  | sup_latex | superscript | superscript_child | superscript_str | table_content | tagName
  | tag_name | to_latex_converter | to_latex_converters | trimmed_value | ty | under_content | val
  | value | values | vowels_with_accents | word | wrap | wrap_if_more_than_one_char | xml
  | xml_elements_to_mathml_element_adapter
deriving DecidableEq

end Verif.Src
