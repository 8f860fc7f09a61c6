{"id": "C01", "title": "Output is whitespace-normal", "statement": "Whenever MathMLToLaTeX.convert returns, the returned string does not begin or end with whitespace, contains no whitespace character other than U+0020, and never contains two consecutive spaces.", "quantifier": "all input strings, all parser behaviours for which convert returns", "why_tests_cant": "tests see finitely many outputs; the claim is over every document, every token text and every symbol-table value", "anchors": ["src/mathml_to_latex/converter.py:MathMLToLaTeX.convert", "src/mathml_to_latex/el_to_tex/usecases.py:Math.convert", "src/mathml_to_latex/el_to_tex/services/normalizer.py:WhiteSpaceNormalizer.normalize"]}
{"id": "C02", "title": "Line breaks are irrelevant", "statement": "convert gives the same result (string or exception) on any two inputs that become equal after deleting every CR and LF character; in particular pretty-printing line breaks never matter, and a line break that is the only separator between a tag name and an attribute is lost.", "quantifier": "all pairs of input strings equal up to CR/LF", "why_tests_cant": "infinitely many placements of line breaks", "anchors": ["src/mathml_to_latex/xml_to_mathml/adapter.py:XmlToMathMLAdapter._remove_line_breaks", "src/mathml_to_latex/xml_to_mathml/adapter.py:XmlToMathMLAdapter.convert"]}
{"id": "C03", "title": "MS-Word prefix is transparent", "statement": "Inserting the text 'mml:' directly after any selection of '<' and '</' tag openings of any input (even one that already contains mml:) does not change the result of convert.", "quantifier": "all input strings, all selections of tag-opening positions", "why_tests_cant": "exponentially many selections of positions over unboundedly long inputs", "anchors": ["src/mathml_to_latex/xml_to_mathml/adapter.py:XmlToMathMLAdapter._remove_ms_word_prefixes"]}
{"id": "C04", "title": "Document order concatenation", "statement": "If the XML is accepted, convert returns the concatenation, in document order and without separator, of the conversion of every element named math (nested ones included); if there is none it returns the empty string.", "quantifier": "all accepted documents", "why_tests_cant": "unbounded number and nesting of math elements", "anchors": ["src/mathml_to_latex/converter.py:MathMLToLaTeX.convert", "src/mathml_to_latex/xml_to_mathml/adapter.py:XmlToMathMLAdapter._mathml_elements"]}
{"id": "C05", "title": "Accepted input is never repaired", "statement": "If the XML parser accepts the preprocessed input (CR/LF and 'mml:' removed), the result of convert depends on nothing but the document it returned: no repair is applied, and what the parser says about other texts is irrelevant.", "quantifier": "all inputs, all parsers accepting the preprocessed input", "why_tests_cant": "quantifies over all parser behaviours on all other strings", "anchors": ["src/mathml_to_latex/xml_to_mathml/adapter.py:XmlToMathMLAdapter._mathml_elements", "src/mathml_to_latex/xml_to_mathml/services/error_handler.py:ErrorHandler.fix_error"]}
{"id": "C06", "title": "At most five parses, first success wins, last error is raised", "statement": "convert consults the XML parser on at most five texts: the preprocessed input and its successive repairs. The first accepted text determines the result; if none of the five is accepted, convert raises the exception of the fifth attempt (unless a repair itself failed with IndexError).", "quantifier": "all inputs, all parser behaviours", "why_tests_cant": "all failure histories of the parser", "anchors": ["src/mathml_to_latex/xml_to_mathml/adapter.py:XmlToMathMLAdapter._mathml_elements"]}
{"id": "C07", "title": "Non-syntax parser exceptions propagate unchanged", "statement": "If the parser raises an exception other than ExpatError, the text is not modified and convert raises exactly that exception.", "quantifier": "all inputs, all parsers and all non-Expat exceptions", "why_tests_cant": "all exceptions a parser could raise", "anchors": ["src/mathml_to_latex/xml_to_mathml/services/error_handler.py:ErrorHandler.fix_error", "src/mathml_to_latex/xml_to_mathml/adapter.py:XmlToMathMLAdapter._mathml_elements"]}
{"id": "C08", "title": "Repair only deletes characters", "statement": "Every text convert hands to the XML parser is obtained from the caller's input by deleting characters: it is a subsequence of the input, so repair never invents, reorders or duplicates content and never makes the text longer.", "quantifier": "all inputs, all parser behaviours, all five attempts", "why_tests_cant": "unbounded texts and error positions; regular-expression substitution semantics", "anchors": ["src/mathml_to_latex/xml_to_mathml/services/error_handler.py:ErrorHandler", "src/mathml_to_latex/xml_to_mathml/adapter.py:XmlToMathMLAdapter"]}
{"id": "C09", "title": "Attribute repair: exact effect of the 'invalid token' fix", "statement": "On ExpatError code 4 the repair takes the blank/'>'-delimited word at the reported position and deletes every occurrence of that word (together with a following '=') that is not directly followed by a quote, everywhere in the document; every character outside such occurrences is kept. In particular text content and well-formed attributes with the same name are damaged too (the documented intent 'the attribute without a value' is not met).", "quantifier": "all texts and error positions", "why_tests_cant": "unbounded texts; needs the leftmost, backtracking semantics of the regular expression", "anchors": ["src/mathml_to_latex/xml_to_mathml/services/error_handler.py:ErrorHandler._fix_missing_attribute_value", "src/mathml_to_latex/xml_to_mathml/services/error_handler.py:ErrorHandler._match_missing_value_for_attribute", "src/mathml_to_latex/xml_to_mathml/services/error_handler.py:ErrorHandler._get_word_at_str_pos"]}
{"id": "C10", "title": "Generic repair: exact effect", "statement": "On any other ExpatError the repair leaves the text unchanged unless it contains '<', later a blank, later a '>'; then it deletes exactly the part from behind the last blank that precedes the last '>' up to and including that last '>'. (So it truncates markup instead of removing an attribute, contrary to its comment: group 3 of the pattern is inside a negative lookahead and is always empty.)", "quantifier": "all texts without line feeds", "why_tests_cant": "unbounded texts and regex backtracking", "anchors": ["src/mathml_to_latex/xml_to_mathml/services/error_handler.py:ErrorHandler._fix_missing_attribute", "src/mathml_to_latex/xml_to_mathml/services/error_handler.py:ErrorHandler._math_generic_missing_value"]}
{"id": "C11", "title": "Success exactly on arity-valid documents", "statement": "For an accepted document convert returns a string if and only if every element that is actually rendered has the number of children its tag requires (2 for msup, msub, mfrac, mroot, mover, munder; 3 for msubsup, munderover; at least 3 for mmultiscripts; at least 1 for maction with a non-toggle type). Otherwise it raises.", "quantifier": "all accepted documents", "why_tests_cant": "all trees", "anchors": ["src/mathml_to_latex/el_to_tex/usecases.py:MSup.convert", "src/mathml_to_latex/el_to_tex/usecases.py:MFrac.convert", "src/mathml_to_latex/el_to_tex/usecases.py:MMultiscripts.convert", "src/mathml_to_latex/el_to_tex/usecases.py:MAction.convert", "src/mathml_to_latex/el_to_tex/protocols.py:InvalidNumberOfChildrenError"]}
{"id": "C12", "title": "The first violation in evaluation order is the one reported", "statement": "If convert raises on an accepted document, the exception is that of the first offending element in evaluation order (parents before children, children left to right, mmultiscripts base, then prescripts, then postscripts): an InvalidNumberOfChildrenError whose message names that element's tag, the required and the actual number of children, or an IndexError for an empty non-toggle maction.", "quantifier": "all accepted documents that are not arity-valid", "why_tests_cant": "all trees with any number of violations", "anchors": ["src/mathml_to_latex/el_to_tex/protocols.py:InvalidNumberOfChildrenError", "src/mathml_to_latex/el_to_tex/usecases.py"]}
{"id": "C13", "title": "Groups, delimiters and environments are properly nested", "statement": "In the output every '{' is matched by '}', every \\left (followed by a delimiter) by a \\right (followed by a delimiter), and every \\begin{X} by \\end{X}, all properly nested with respect to each other (escaped braces do not count), provided that: mi, mo and mn texts contain no backslash, brace, '%', '$', '#' (an mi or mo consisting of just one of backslash, '%', '$', '#' is fine); mtext contains no brace; fence delimiters begin with a character that is a delimiter (not a space, backslash or letter-like character) and have no special character after it; separators contain no special character; delimiters around a table are both given or both missing, or are the pair of braces; and the notation of menclose is not left, right or madruwb. Without the provisos this is false: braces in tokens, braces as fence delimiters, one-sided enclosures, a '%' inside a token and matrices with only one delimiter break the nesting.", "quantifier": "all accepted documents with safe tokens", "why_tests_cant": "all trees, all tokens and all ~2300 symbol-table entries", "anchors": ["src/mathml_to_latex/el_to_tex/usecases.py", "src/mathml_to_latex/el_to_tex/services/wrapper.py", "src/mathml_to_latex/syntax.py"]}
{"id": "C14", "title": "Adapter objects can be reused", "statement": "The result of the XML adapter's convert does not depend on what the same adapter object processed before, including inputs on which it raised; hence the result of convert is a function of its argument for every history of earlier calls.", "quantifier": "all histories of earlier calls", "why_tests_cant": "all histories", "anchors": ["src/mathml_to_latex/xml_to_mathml/adapter.py:XmlToMathMLAdapter", "src/mathml_to_latex/xml_to_mathml/factory.py:make_xml_to_mathml_adapter"]}
{"id": "C15", "title": "Rendering an element tree is repeatable", "statement": "Although creating a converter mutates attribute dictionaries (the innerTable marker), converting the root element gives the same result after any sequence of creations and runs of converters for any elements of the same tree (successful or failing), and so does every converter object created for the root earlier in that history. For a nested table on its own this is false: its output changes once a converter has been created for an enclosing table.", "quantifier": "all trees, all sequences of earlier conversions of sub-elements", "why_tests_cant": "all histories of mutations", "anchors": ["src/mathml_to_latex/el_to_tex/usecases.py:MTable.__init__", "src/mathml_to_latex/el_to_tex/usecases.py:MTable._add_flag_recursive_if_name"]}
{"id": "C16", "title": "mphantom content is invisible", "statement": "Replacing the content and attributes of any mphantom element by anything else, even by arity-invalid content, does not change the result of convert, provided that neither content contains a math element and both or none contain a table. Both provisos are needed: a hidden table turns an enclosing mfenced into a matrix, and a math element in a phantom is rendered on its own.", "quantifier": "all accepted documents, all replacements of mphantom content", "why_tests_cant": "non-interference over pairs of documents", "anchors": ["src/mathml_to_latex/el_to_tex/usecases.py:Void", "src/mathml_to_latex/el_to_tex/adapter.py"]}
{"id": "C17", "title": "maction selection", "statement": "For maction with a non-empty actiontype other than 'toggle', children after the first have no influence on the result, not even when they are invalid, provided that they contain no math element, that tables are present in both versions or in none, and (when the maction is the base of a script) that some are present in both versions or in none; each proviso is needed. With 'toggle', an absent or an empty actiontype, all children are rendered, joined by ' \\\\Longrightarrow '.", "quantifier": "all documents, all replacements of the later children", "why_tests_cant": "non-interference over pairs of documents", "anchors": ["src/mathml_to_latex/el_to_tex/usecases.py:MAction"]}
{"id": "C18", "title": "Unrecognised attributes are ignored", "statement": "The result of convert depends only on these attributes: mathvariant on mi/mtext; open, close, separators on mfenced; bevelled on mfrac; actiontype on maction; notation on menclose; innerTable on mtable. Adding, removing or changing any other attribute anywhere changes nothing.", "quantifier": "all accepted documents, all attribute changes outside the list", "why_tests_cant": "non-interference over pairs of documents", "anchors": ["src/mathml_to_latex/el_to_tex/usecases.py", "src/mathml_to_latex/xml_to_mathml/services/xml_elements_to_mathml_element.py"]}
{"id": "C19", "title": "Comments, processing instructions and text around elements are ignored", "statement": "In an element that has element children, all non-element children (text, CDATA, comments, processing instructions) can be added or removed without changing the result of convert.", "quantifier": "all accepted documents, all insertions of non-element nodes next to elements", "why_tests_cant": "non-interference over pairs of documents", "anchors": ["src/mathml_to_latex/xml_to_mathml/services/xml_elements_to_mathml_element.py:ElementsToMathMLAdapter._convert_element"]}
{"id": "C20", "title": "Token text is the first child node only", "statement": "The text of an element without element children is the data of its first child node, stripped; later children never matter. So a comment inside a token cuts the text short and a leading comment replaces it (comment text leaks into the output).", "quantifier": "all elements without element children", "why_tests_cant": "all child lists", "anchors": ["src/mathml_to_latex/xml_to_mathml/services/xml_elements_to_mathml_element.py:ElementsToMathMLAdapter._convert_element"]}
{"id": "C21", "title": "Self-named attribute values count as empty", "statement": "An attribute whose value equals its own name behaves exactly as the same attribute with an empty value, for every element and every recognised attribute.", "quantifier": "all accepted documents, all attributes", "why_tests_cant": "non-interference over pairs of documents", "anchors": ["src/mathml_to_latex/xml_to_mathml/services/xml_elements_to_mathml_element.py:ElementsToMathMLAdapter._convert_element_attributes"]}
{"id": "C22", "title": "Token whitespace is insignificant", "statement": "The rendering of mi, mo and mn depends only on the sequence of whitespace-separated words of the text: changing the amount or kind of whitespace around and between words changes nothing.", "quantifier": "all token texts", "why_tests_cant": "all strings and all Unicode whitespace", "anchors": ["src/mathml_to_latex/el_to_tex/usecases.py:MI.convert", "src/mathml_to_latex/el_to_tex/usecases.py:MO.convert", "src/mathml_to_latex/el_to_tex/usecases.py:MN.convert", "src/mathml_to_latex/el_to_tex/services/normalizer.py"]}
{"id": "C23", "title": "Alphanumeric tokens pass through verbatim", "statement": "An mi without mathvariant, an mo or an mn whose text begins with an ASCII letter or digit renders as its whitespace-normalised text, unchanged.", "quantifier": "all texts beginning with an ASCII letter or digit", "why_tests_cant": "unboundedly many texts against ~2300 table entries", "anchors": ["src/mathml_to_latex/el_to_tex/usecases.py:Character", "src/mathml_to_latex/el_to_tex/usecases.py:Operator", "src/mathml_to_latex/syntax.py:HashUTF8ToLtXConverter.convert"]}
{"id": "C24", "title": "Identifier rendering is a single lookup wrapped by its variant", "statement": "mi renders as the symbol of its normalised text wrapped in the font commands of its mathvariant, for every text and variant: the accent/font conversion is idempotent, so the special return path that skips the variant is never taken, and no identifier is converted twice.", "quantifier": "all texts, all mathvariant values", "why_tests_cant": "all strings, all table entries", "anchors": ["src/mathml_to_latex/el_to_tex/usecases.py:MI.convert", "src/mathml_to_latex/el_to_tex/usecases.py:Character._apply", "src/mathml_to_latex/syntax.py:HashUTF8ToLtXConverter"]}
{"id": "C25", "title": "Operators mapped to nothing are passed through", "statement": "An mo whose table entry is the empty string is not erased: unless another table has a non-empty entry, the raw character is emitted unchanged (in particular INVISIBLE TIMES U+2062 reaches the LaTeX output). An mo renders as the empty string only if its text is blank.", "quantifier": "all operator texts", "why_tests_cant": "all strings against all table entries", "anchors": ["src/mathml_to_latex/el_to_tex/usecases.py:Operator._operate", "src/mathml_to_latex/syntax.py:all_math_operators_by_glyph"]}
{"id": "C26", "title": "mtext keeps its text", "statement": "mtext output is the concatenation of its maximal runs of ASCII letters, digits and blanks, each wrapped whole in the variant's text commands, and of the symbols of the other characters, in order; un-wrapping the runs gives back exactly the alphanumeric characters and blanks of the input, in order.", "quantifier": "all texts and variants", "why_tests_cant": "all strings", "anchors": ["src/mathml_to_latex/el_to_tex/usecases.py:MText.convert", "src/mathml_to_latex/el_to_tex/usecases.py:TextCommand"]}
{"id": "C27", "title": "mfenced separators", "statement": "mfenced without a table renders as \\left O c1 s1 c2 s2 ... cn \\right C where si is the i-th separator character, the last one repeated when there are too few, ',' if none is given, surplus ones ignored, and O, C default to parentheses when absent or empty.", "quantifier": "all child counts, all separator lists, all delimiters", "why_tests_cant": "all lengths", "anchors": ["src/mathml_to_latex/el_to_tex/services/wrapper.py:JoinWithManySeparators", "src/mathml_to_latex/el_to_tex/usecases.py:Vector", "src/mathml_to_latex/el_to_tex/usecases.py:MFenced"]}
{"id": "C28", "title": "Matrix environment selection", "statement": "mfenced with an mtable at any depth renders as exactly one environment around its children: pmatrix, bmatrix, Bmatrix, vmatrix, Vmatrix for ( ), [ ], { }, | |, || ||; bmatrix for any other equal pair; for unequal delimiters a matrix environment between \\left O and \\right C.", "quantifier": "all delimiter pairs, all trees", "why_tests_cant": "all strings, all depths", "anchors": ["src/mathml_to_latex/el_to_tex/usecases.py:Matrix", "src/mathml_to_latex/el_to_tex/usecases.py:Separators", "src/mathml_to_latex/el_to_tex/usecases.py:MFenced._is_there_relative_of_name"]}
{"id": "C29", "title": "Nested tables", "statement": "A rendered mtable is wrapped in its own matrix environment if and only if it lies inside another mtable or carries a non-empty innerTable attribute; rows are separated by ' \\\\\\\\' and cells by ' & '.", "quantifier": "all trees", "why_tests_cant": "all nestings; mutation through shared dictionaries", "anchors": ["src/mathml_to_latex/el_to_tex/usecases.py:MTable", "src/mathml_to_latex/el_to_tex/usecases.py:MTr"]}
{"id": "C30", "title": "Script bases are parenthesised exactly when compound", "statement": "In msup, msub and msubsup the base is wrapped in \\left( \\right) if and only if it has at least two children and its LaTeX has at least two characters; scripts are always braced. A base that is a single-child wrapper around a compound expression is not parenthesised, so the script then attaches to the last item only.", "quantifier": "all trees", "why_tests_cant": "all trees", "anchors": ["src/mathml_to_latex/el_to_tex/usecases.py:MSup", "src/mathml_to_latex/el_to_tex/usecases.py:MSub", "src/mathml_to_latex/el_to_tex/usecases.py:MSubsup", "src/mathml_to_latex/el_to_tex/services/wrapper.py:ParenthesisWrapper"]}
{"id": "C31", "title": "mmultiscripts layout", "statement": "mmultiscripts renders at most one pair of prescripts (taken behind an mprescripts in second or fourth position) and at most one pair of postscripts (positions two and three), around the base, which is parenthesised exactly when its LaTeX contains whitespace; all other children have no influence.", "quantifier": "all child lists", "why_tests_cant": "all lists", "anchors": ["src/mathml_to_latex/el_to_tex/usecases.py:MMultiscripts"]}
{"id": "C32", "title": "mover/munder commands", "statement": "mover and munder render as A{B} when the rendered script A is one of \\hat, \\bar, \\underbrace, \\overbrace and otherwise as \\overset{A}{B} or \\underset{A}{B}.", "quantifier": "all trees", "why_tests_cant": "all trees", "anchors": ["src/mathml_to_latex/el_to_tex/usecases.py:GenericUnderOver", "src/mathml_to_latex/el_to_tex/usecases.py:UnderOverSetter"]}
{"id": "C33", "title": "Grouping by mrow is transparent", "statement": "Wrapping one or more consecutive children of math, mrow, msqrt, merror, menclose or an unknown element in an mrow (or splicing such an mrow) does not change the result of convert, and neither does wrapping a single element other than mprescripts anywhere, provided the element whose number of children changes is not the base of a script. For bases, and for wrapping no children at all, the claim is false.", "quantifier": "all documents, all groupings", "why_tests_cant": "all groupings of all documents", "anchors": ["src/mathml_to_latex/el_to_tex/usecases.py:GenericSpacingWrapper", "src/mathml_to_latex/el_to_tex/usecases.py:Math"]}
{"id": "C34", "title": "Unknown elements behave like mrow", "statement": "Renaming an element with an unrecognised name (other than mprescripts) to mrow or to any other unrecognised name does not change the result of convert; an unknown element without element children renders as nothing.", "quantifier": "all documents, all renamings", "why_tests_cant": "all names and all documents", "anchors": ["src/mathml_to_latex/el_to_tex/adapter.py:MathMLElementToLatexConverterAdapter.to_latex_converter"]}
{"id": "C35", "title": "Nothing visible is lost", "statement": "The rendering of every element (in particular every mi, mo, mn and mtext) that is not inside a token, an mphantom, an unselected maction child or an ignored mmultiscripts child occurs contiguously in the output (up to whitespace normalisation). All visible tokens together occur without overlap, in printing order (root indices and over/underscripts before their bases, prescripts before the base, document order otherwise).", "quantifier": "all documents, all visible tokens", "why_tests_cant": "all trees and positions", "anchors": ["src/mathml_to_latex/el_to_tex/usecases.py"]}
{"id": "C36", "title": "Output size", "statement": "For accepted documents without a math element inside a math element the output is at most 40 times as long as the document (nodes plus characters of names, texts and attributes); in general the bound is 40 times the size times the nesting depth of math elements. With nested math elements no linear bound holds: the output can grow quadratically.", "quantifier": "all accepted documents", "why_tests_cant": "all documents", "anchors": ["src/mathml_to_latex/el_to_tex/usecases.py", "src/mathml_to_latex/syntax.py"]}
{"id": "C37", "title": "Functional correctness against a declarative rule system", "statement": "convert on an accepted document returns s exactly when s is derivable in a declarative system with one rule per MathML construct, applied to each math element.", "quantifier": "all accepted documents, all outputs", "why_tests_cant": "all trees", "anchors": ["src/mathml_to_latex/el_to_tex/usecases.py", "src/mathml_to_latex/el_to_tex/adapter.py", "src/mathml_to_latex/converter.py"]}
{"id": "C38", "title": "Bevelled fractions", "statement": "mfrac renders as \\frac{N}{D} when bevelled is absent, empty or self-named, and otherwise as N/D with each side of two or more characters in \\left( \\right); any non-empty value counts, so bevelled='false' is rendered bevelled.", "quantifier": "all trees, all values of bevelled", "why_tests_cant": "all strings and trees", "anchors": ["src/mathml_to_latex/el_to_tex/usecases.py:MFrac"]}
{"id": "C39", "title": "Symbol tables are consistent", "statement": "No symbol table has two entries for one key, every accent used has a LaTeX command, lookups are case- and code-point-exact, every value reachable from a token is brace-balanced except for the literal brace operators, and no key that contains whitespace is reachable from a token. Every value is free of control characters is false: '⧷' yields a backspace character.", "quantifier": "all table entries and all texts", "why_tests_cant": "finite tables but exhaustive quantification with all texts", "anchors": ["src/mathml_to_latex/syntax.py"]}
{"id": "C40", "title": "TeX special characters in tokens", "statement": "A token consisting of a single '%', '&', '#' or '$' is escaped by mi and by mo, and a single '\\\\' becomes \\backslash. Longer tokens are not escaped: the text is emitted raw, so the general claim 'special characters are always escaped' is false.", "quantifier": "all token texts", "why_tests_cant": "all strings", "anchors": ["src/mathml_to_latex/el_to_tex/usecases.py:Character", "src/mathml_to_latex/el_to_tex/usecases.py:Operator", "src/mathml_to_latex/el_to_tex/usecases.py:MN"]}
{"id": "C41", "title": "mn keeps numerals", "statement": "mn renders as its whitespace-normalised text unless that text is exactly one of the tabulated superscript, subscript, circled or fraction glyphs, which become the corresponding LaTeX; distinct numerals without such glyphs stay distinct.", "quantifier": "all texts", "why_tests_cant": "all strings", "anchors": ["src/mathml_to_latex/el_to_tex/usecases.py:MN.convert", "src/mathml_to_latex/syntax.py:math_number_by_glyph"]}
{"id": "C42", "title": "Enclosures", "statement": "menclose renders its children joined by blanks inside the command of its notation (default and unknown: long division), every notation using the content exactly once.", "quantifier": "all trees, all notation values", "why_tests_cant": "all strings and trees", "anchors": ["src/mathml_to_latex/el_to_tex/usecases.py:MEnclose"]}
{"id": "C43", "title": "Error containment", "statement": "A document with several math elements raises if and only if one of them raises on its own, and the exception is that of the first such element; nothing is returned for the others.", "quantifier": "all accepted documents", "why_tests_cant": "all documents", "anchors": ["src/mathml_to_latex/converter.py:MathMLToLaTeX.convert"]}
{"id": "C44", "title": "Nested math elements are rendered again", "statement": "A math element inside another math element contributes twice: once inside the outer one and once on its own; removing all math elements nested in math elements is therefore observable.", "quantifier": "all documents", "why_tests_cant": "all nestings", "anchors": ["src/mathml_to_latex/xml_to_mathml/adapter.py:XmlToMathMLAdapter._mathml_elements", "src/mathml_to_latex/converter.py"]}
{"id": "C45", "title": "Tokens that vanish", "statement": "A token whose text contains a non-whitespace character renders as nothing but blanks only if it is one of an explicit finite list of identifiers and operators; every other such token leaves a visible trace.", "quantifier": "all mi and mo texts", "why_tests_cant": "all strings", "anchors": ["src/mathml_to_latex/syntax.py", "src/mathml_to_latex/el_to_tex/usecases.py:MI", "src/mathml_to_latex/el_to_tex/usecases.py:MO"]}
{"id": "C46", "title": "Accented letters", "statement": "A letter whose canonical decomposition is an ASCII letter with one of eleven marks is rendered, as mi and as mo, as the LaTeX accent of that mark on that letter, except for an explicit list that stays raw and three letters that come out wrong (Ż and ż become hats, ṁ loses its dot). A letter built on a Latin letter otherwise stays raw or becomes a command on that same letter, except ȇ and ơ.", "quantifier": "all Unicode letters that decompose into an ASCII letter and such a mark; all contexts, attributes and whitespace", "why_tests_cant": "the whole class of characters in every context, not a sample", "anchors": ["src/mathml_to_latex/syntax.py:vowels_with_accents", "src/mathml_to_latex/syntax.py:accent_to_ltx_cmd", "src/mathml_to_latex/syntax.py:HashUTF8ToLtXConverter"]}
{"id": "C47", "title": "Mathematical alphabets", "statement": "A capital or digit in the bold, italic, script, fraktur, double-struck or sans-serif runs of the mathematical block, or a letterlike symbol of these fonts, is rendered by mi and mo as the font command on that letter. Small italic letters are plain letters in mi and raw in mo. Elsewhere letters are confused: bold capital rho becomes a Q.", "quantifier": "all assigned characters of these runs, all contexts", "why_tests_cant": "all characters of the alphabets in every context", "anchors": ["src/mathml_to_latex/syntax.py:special_font_chars", "src/mathml_to_latex/syntax.py:HashUTF8ToLtXConverter"]}
{"id": "C48", "title": "Character references as text", "statement": "A token whose text is a sequence of hexadecimal character references is either left raw or rendered exactly like the characters it refers to, except for explicit lists of four identifiers and eighteen operators; two of the exceptions are rendered as mirror images.", "quantifier": "all non-empty texts written as references", "why_tests_cant": "all strings", "anchors": ["src/mathml_to_latex/syntax.py:all_math_symbols_by_char", "src/mathml_to_latex/syntax.py:all_math_operators_by_char"]}
{"id": "C49", "title": "Percent-encoded text", "statement": "The percent-encoded UTF-8 form of a character below U+0800 stays raw in mi, and in mo stays raw or is rendered like the character, except for rho, which becomes the non-existent command \\pho.", "quantifier": "all characters below U+0800, all contexts", "why_tests_cant": "all characters", "anchors": ["src/mathml_to_latex/syntax.py:all_math_operators_by_char"]}
{"id": "C50", "title": "Numerals mean what they show", "statement": "Vulgar fractions become \\dfrac of their numerator and denominator, superscript and subscript digits become ^{d} and _{d}, circled numbers 0 to 50 become \\textcircled{n}, in mi and in mn; zero thirds is unsupported, and in mo the superscripts one to three are rendered as plain digits.", "quantifier": "all such characters, all contexts", "why_tests_cant": "all characters of these classes", "anchors": ["src/mathml_to_latex/syntax.py:math_number_by_glyph", "src/mathml_to_latex/el_to_tex/usecases.py:MN", "src/mathml_to_latex/el_to_tex/usecases.py:MI", "src/mathml_to_latex/el_to_tex/usecases.py:MO"]}
{"id": "C51", "title": "Greek letters by name", "statement": "A Greek letter is rendered as the command of its name by mi and by mo, with an exact list of exceptions for each; capital nu is confused with small nu and capital rho with the Latin P.", "quantifier": "all letters of the Greek alphabet, all contexts", "why_tests_cant": "all letters", "anchors": ["src/mathml_to_latex/syntax.py:all_math_symbols_by_glyph", "src/mathml_to_latex/syntax.py:all_math_operators_by_glyph"]}
{"id": "C52", "title": "Control words of the output", "statement": "Every control word in the result belongs to an explicit list of LaTeX commands, or to ten further words that LaTeX does not define and that are really written (for instance \\geg for ≧), provided that the document has one math element, that backslashes occur in identifiers and operators only alone, that no number contains one, and that texts, separators and delimiters do not bring in letters that continue a command. Without these conditions new control words arise, such as \\alphao from the text αơ.", "quantifier": "all accepted documents under these conditions", "why_tests_cant": "all trees and all texts; commands run together only for particular neighbours", "anchors": ["src/mathml_to_latex/el_to_tex/usecases.py", "src/mathml_to_latex/syntax.py", "src/mathml_to_latex/converter.py"]}
{"id": "C53", "title": "Parallel calls do not interfere", "statement": "If several threads of a process call convert at the same time, then under every interleaving of their operations each call returns or raises exactly what it would alone. No thread ever waits for another, and no schedule runs forever.", "quantifier": "any number of threads, all inputs, all interleavings of the dictionary operations", "why_tests_cant": "the number of schedules is unbounded and the harmful ones would be rare", "anchors": ["src/mathml_to_latex/converter.py:MathMLToLaTeX.convert", "src/mathml_to_latex/el_to_tex/usecases.py:MTable", "src/mathml_to_latex/el_to_tex/adapter.py:MathMLElementToLatexConverterAdapter"]}
{"id": "C54", "title": "Rendering a shared tree in parallel", "statement": "Threads may render the same tree of elements, or parts of it, at the same time: every thread that renders the root gets the LaTeX of the tree, and every thread that renders an element outside all tables gets what it would get alone. For a table inside another table the result depends on the schedule.", "quantifier": "any number of threads, trees and parts of trees, all interleavings", "why_tests_cant": "the marks that tables write into shared dictionaries matter only for particular schedules", "anchors": ["src/mathml_to_latex/el_to_tex/usecases.py:MTable", "src/mathml_to_latex/el_to_tex/adapter.py:MathMLElementToLatexConverterAdapter.to_latex_converter"]}
{"id": "C55", "title": "Whitespace is only ever collapsed", "statement": "The result of a math element consists of the words of the results of its child elements, in order, with single blanks between them, and it exists exactly if all of these do. Words are the maximal runs of characters that are not among the 29 Unicode whitespace characters. Identifiers, operators and numbers see only the words of their text; mtext ignores the whitespace at the ends of its text.", "quantifier": "all elements, all texts, all 29 whitespace characters", "why_tests_cant": "all strings; the whitespace characters are scattered over the code space", "anchors": ["src/mathml_to_latex/el_to_tex/usecases.py:Math", "src/mathml_to_latex/el_to_tex/services/normalizer.py", "src/mathml_to_latex/el_to_tex/usecases.py:MText"]}
{"id": "C56", "title": "Operators by their names", "statement": "An operator among some three hundred symbols that have a name in LaTeX is written by mo as the command of that name, except for 27 symbols that stay raw and an explicit list of symbols for which something else is written (other names, look-alikes, and mistakes such as \\cup for the multiset union); mi writes the name for an explicit part of them and leaves the rest raw, with sixteen exceptions.", "quantifier": "all these symbols, all contexts, attributes and surrounding whitespace", "why_tests_cant": "the whole class of symbols in every context", "anchors": ["src/mathml_to_latex/syntax.py:all_math_operators_by_glyph", "src/mathml_to_latex/syntax.py:all_math_symbols_by_glyph", "src/mathml_to_latex/el_to_tex/usecases.py:MO", "src/mathml_to_latex/el_to_tex/usecases.py:MI"]}
{"id": "C57", "title": "Negation is not lost", "statement": "An operator that Unicode decomposes into a relation and a stroke is never written like the relation without the stroke. It is written as the negation of what is written for that relation or by its own name, except for three that stay raw and eleven others; among these, not preceding becomes preceding or equal, and some different negations coincide.", "quantifier": "all 45 relations with a stroke, all contexts", "why_tests_cant": "the whole class of characters in every context", "anchors": ["src/mathml_to_latex/syntax.py:all_math_operators_by_glyph", "src/mathml_to_latex/syntax.py:all_math_symbols_by_glyph", "src/mathml_to_latex/el_to_tex/usecases.py:MO"]}
{"id": "C58", "title": "Attributes without a value", "statement": "If the parser points at an attribute written name= without a value, and name= is followed by a quotation mark everywhere else, then the next text parsed is the text without that attribute and with nothing else changed; all attributes without a value that have the same name go at once, so that any number of them with up to four different names are removed in one call and the rest is converted, while a fifth name is an error. The repair goes by the position alone: if the parser notices the gap only at the following attribute, that complete attribute is removed instead. An attribute without even the = makes its name disappear wherever it occurs, even in tags: <math><mi a>x</mi></math> gives the empty string.", "quantifier": "all inputs, all parsers, all positions inside the attribute", "why_tests_cant": "all documents and all sequences of parser complaints", "anchors": ["src/mathml_to_latex/xml_to_mathml/services/error_handler.py:ErrorHandler._fix_missing_attribute_value", "src/mathml_to_latex/xml_to_mathml/services/error_handler.py:ErrorHandler._get_word_at_str_pos", "src/mathml_to_latex/xml_to_mathml/adapter.py:XmlToMathMLAdapter._mathml_elements"]}
{"id": "C59", "title": "Proper documents give LaTeX that compiles", "statement": "If the math element obeys explicit rules (signs with a meaning in LaTeX, no second script on a base, delimiters that LaTeX has, tables inside fences, no bracket in an index or at the beginning of a line), the result exists and is a formula of an explicit grammar of LaTeX: every command has its arguments, braces, fences and environments match, nothing has two superscripts or subscripts. The excluded characters and notations all give something that is no formula, and so do violations of the other rules. With several math elements the result is a formula if the tokens of neighbouring parts do not run together, and need not be one if they do.", "quantifier": "all proper elements, of any size and depth, and the documents with such math elements", "why_tests_cant": "all trees; whether a result compiles depends on the combination of neighbours", "anchors": ["src/mathml_to_latex/el_to_tex/usecases.py", "src/mathml_to_latex/syntax.py", "src/mathml_to_latex/el_to_tex/adapter.py:MathMLElementToLatexConverterAdapter", "src/mathml_to_latex/converter.py:MathMLToLaTeX.convert"]}
{"id": "C60", "title": "The LaTeX is read as what the document says", "statement": "A formula of the grammar can be read in one way only, as a list of items: symbols, fractions, roots, fences, matrices with rows and cells, scripts together with the item they belong to. If the math element obeys explicit rules, its result is read as the items the element stands for: a fraction has the numerator and the denominator of the mfrac, a script belongs to the whole base, a matrix has the cells of the mtable in their places. So elements that stand for different things have different LaTeX. Some readings are not what MathML means: a table in mfenced without attributes, or with equal fences that have no environment, is read in brackets; prescripts are read as a printed underscore, the lower script beside it on the line, and the upper script as the superscript of the lower one; if the base of a script has fewer than two children of its own, the script is read as belonging to its last item only. The items are computed by a program that is proved right. With several math elements whose tokens do not run together, the result is read as what they stand for, one after the other.", "quantifier": "all formulas; all elements that obey the rules, of any size and depth, and the documents with such math elements", "why_tests_cant": "all trees; what a script belongs to depends on the neighbours in the output", "anchors": ["src/mathml_to_latex/el_to_tex/usecases.py", "src/mathml_to_latex/syntax.py", "src/mathml_to_latex/el_to_tex/adapter.py:MathMLElementToLatexConverterAdapter", "src/mathml_to_latex/converter.py:MathMLToLaTeX.convert"]}
{"id": "C61", "title": "XML texts are converted as the documents they stand for", "statement": "With any parser that does what XML 1.0 says, a text that is an XML document after preprocessing is converted as the one document it stands for: how it is spelled (references, entities, quotation marks, empty tags, CDATA) and which correct parser is used do not matter. Every tree of elements and texts is the document of some input, namely of its canonical text, and that input is converted as the tree.", "quantifier": "all texts, all documents, all correct parsers", "why_tests_cant": "all texts and all spellings of a document; the parser is only known through the XML recommendation", "anchors": ["src/mathml_to_latex/xml_to_mathml/adapter.py:XmlToMathMLAdapter", "src/mathml_to_latex/converter.py:MathMLToLaTeX.convert"]}
{"id": "C62", "title": "Layout of files", "statement": "A tree may be laid out in a file in any way: white space, line breaks of any system and comments around child elements, line breaks between attributes as long as there is also a blank or tab, a declaration and a document type in front, prefixes mml: on the names; the result is the one of the tree. This does not hold for line breaks inside texts, which join the words, for texts that contain mml:, and for a line break as the only separator in a tag or in a document type, which leaves no XML at all.", "quantifier": "all trees, all layouts, all correct parsers", "why_tests_cant": "all layouts of all trees", "anchors": ["src/mathml_to_latex/xml_to_mathml/adapter.py:XmlToMathMLAdapter._remove_line_breaks", "src/mathml_to_latex/xml_to_mathml/adapter.py:XmlToMathMLAdapter._remove_ms_word_prefixes", "src/mathml_to_latex/converter.py:MathMLToLaTeX.convert"]}
{"id": "C63", "title": "Every call finishes after a bounded number of its own steps", "statement": "A step is one operation on an attribute dictionary. Whatever other threads do, a call that converts a document takes at most four steps for each node and character of its math elements and one for each pair of a table and a table inside it, and has returned or raised after that many steps of its own; the same holds for a thread that renders an element built before. A call whose texts are all rejected takes no such step. Without tables inside tables the bound is linear in the size; in general it is not, since k nested tables need at least k(k-1)/2 steps.", "quantifier": "all documents, all other threads (arbitrary programs on dictionaries), all interleavings", "why_tests_cant": "the bound holds for every size and schedule; tests see a few of each", "anchors": ["src/mathml_to_latex/converter.py:MathMLToLaTeX.convert", "src/mathml_to_latex/el_to_tex/usecases.py:MTable", "src/mathml_to_latex/el_to_tex/usecases.py:MI", "src/mathml_to_latex/el_to_tex/usecases.py:MText", "src/mathml_to_latex/xml_to_mathml/adapter.py"]}
{"id": "C64", "title": "Nothing foreign in the output", "statement": "Every character of the output is printable ASCII, or occurs in the text of a visible token or in the delimiters or separators of a visible fence; whitespace other than the blank does not occur. The only exceptions are seven operators, for each of which a particular character is written: five accents spelled out as character references, and the sign ⧷, directly or as a reference, for which a backspace is written. So if the visible tokens and fences are written in printable ASCII without ampersands, the output is a line of printable ASCII; with ampersands it need not be.", "quantifier": "all accepted documents, all characters of the output", "why_tests_cant": "all trees and all texts; every table entry and every construct contributes characters", "anchors": ["src/mathml_to_latex/el_to_tex/usecases.py", "src/mathml_to_latex/syntax.py", "src/mathml_to_latex/el_to_tex/adapter.py:MathMLElementToLatexConverterAdapter", "src/mathml_to_latex/converter.py:MathMLToLaTeX.convert"]}
{"id": "C65", "title": "Rows and annotations at the top leave no trace", "statement": "Rows (mrow, mstyle, semantics and all other names without a meaning) inside math, or inside other such rows, can be replaced by their content without changing the result or the exception; so a math element is rendered like the sequence of elements with a meaning that is left when all of them are dissolved. In particular semantics with annotations in which no name has a meaning (text, Content MathML) is rendered like the annotated formula alone. An annotation in Presentation MathML makes the formula appear twice, and away from the top a blank or parentheses remain.", "quantifier": "all documents, any number of such replacements, all annotations", "why_tests_cant": "all trees and all nestings of rows", "anchors": ["src/mathml_to_latex/el_to_tex/usecases.py:GenericSpacingWrapper", "src/mathml_to_latex/el_to_tex/usecases.py:Math", "src/mathml_to_latex/el_to_tex/adapter.py:MathMLElementToLatexConverterAdapter", "src/mathml_to_latex/el_to_tex/services/normalizer.py"]}
{"id": "C66", "title": "Only the LaTeX of a part matters", "statement": "Two elements with the same LaTeX can be exchanged anywhere in any document, any number of times, without changing the result or the exception, if both or none of them is mprescripts, contains a table, has two or more children, and neither contains a math element. Each of these conditions is needed.", "quantifier": "all elements, all documents and all places in them", "why_tests_cant": "all contexts of any depth", "anchors": ["src/mathml_to_latex/el_to_tex/usecases.py", "src/mathml_to_latex/el_to_tex/adapter.py:MathMLElementToLatexConverterAdapter", "src/mathml_to_latex/converter.py:MathMLToLaTeX.convert"]}
{"id": "C67", "title": "The recursion limit stops a call or leaves it alone", "statement": "Python limits the number of nested calls. For every input there is a number such that a call with less room raises RecursionError and a call with that room or more behaves as if there were no limit: a result is never cut off or altered, and no other error is hidden or replaced by the retries. The room needed grows linearly with the nesting of elements: at most three activations per level (two since Python 3.12) plus a constant, and at least that many for every math element. So with the default limit of 1000 a formula with 300 nested rows is converted, and one with 332 never is on Python 3.11.", "quantifier": "all texts, all parsers, all limits, all depths, Python with and without inlined comprehensions", "why_tests_cant": "the limit depends on the caller, the version and the depth; all combinations matter", "anchors": ["src/mathml_to_latex/converter.py:MathMLToLaTeX.convert", "src/mathml_to_latex/xml_to_mathml/adapter.py:XmlToMathMLAdapter._mathml_elements", "src/mathml_to_latex/xml_to_mathml/adapter.py", "src/mathml_to_latex/el_to_tex/adapter.py:MathMLElementToLatexConverterAdapter", "src/mathml_to_latex/el_to_tex/usecases.py"]}
{"id": "C68", "title": "Faults in the middle of a call", "statement": "Faults that have nothing to do with the input (no memory left, an exception raised by a signal handler for Control-C or a time limit) can happen in any moment of a call. Whatever happens, a call never returns anything else than without faults. It returns or raises what it does without faults, or raises one of the faults that happened while it was running, or one of these was an Exception that happened while a text was parsed: it is then swallowed by the retries, costs one of the five attempts, and the call may raise the complaint of the parser about one of the first four texts. A fault that is no Exception, such as Control-C, ends the call at once. In a history of calls, whichever of them failed and wherever, a call during which no fault happens does what it does on its own.", "quantifier": "all texts, all parsers, all histories of calls, all faults and all moments", "why_tests_cant": "the moment of a fault is arbitrary; tests cannot interrupt a call everywhere", "anchors": ["src/mathml_to_latex/converter.py:MathMLToLaTeX.convert", "src/mathml_to_latex/xml_to_mathml/adapter.py:XmlToMathMLAdapter._mathml_elements", "src/mathml_to_latex/xml_to_mathml/services/error_handler.py:ErrorHandler.fix_error", "src/mathml_to_latex/xml_to_mathml/adapter.py", "src/mathml_to_latex/el_to_tex/usecases.py"]}
{"id": "C69", "title": "The number of function calls is bounded", "statement": "Counting the beginnings and ends of the calls of functions of the package and its calls of the standard library, a call that converts a document takes a number of events that is bounded by an explicit function of the document: a constant, a multiple of the size of each math element, and a term for each pair of a table or fence and an element inside it. So nothing is exponential: the bound is linear if math elements are not nested in each other, nor tables and fences in each other, and at most cubic in any case. A call whose texts are all rejected takes at most a constant number of events, however long the text. All this holds whatever faults happen meanwhile. Cubic growth does occur: k fences inside one another with a math element in each need at least (k^3-k)/3 events, though the size is linear in k.", "quantifier": "all documents, of any size and depth, all parsers, all faults, all moments", "why_tests_cant": "growth is a statement about all sizes; tests see a few small ones", "anchors": ["src/mathml_to_latex/converter.py:MathMLToLaTeX.convert", "src/mathml_to_latex/xml_to_mathml/adapter.py:XmlToMathMLAdapter", "src/mathml_to_latex/xml_to_mathml/services/error_handler.py:ErrorHandler.fix_error", "src/mathml_to_latex/el_to_tex/adapter.py:MathMLElementToLatexConverterAdapter", "src/mathml_to_latex/el_to_tex/usecases.py:MTable", "src/mathml_to_latex/el_to_tex/usecases.py:MFenced"]}
{"id": "C70", "title": "Which attributes without a value are repaired", "statement": "With a parser that does what XML says and that reports a missing attribute value at the column of the first character that cannot stand there, as expat does: attributes written name= directly before the > of their start tags are removed and the rest is converted, if there are at most four different names and name= does not occur elsewhere without a quotation mark; five names are an error. In other places it is not repaired. If another attribute follows after a blank, that attribute is removed and the one without a value stays; in an empty tag the slash is removed, so that the tag is left open; with a blank before the > only the = is removed and then the text is cut off at its last blank. So <math><mi a= b='1'>x</mi></math>, <math><mi a= >x</mi></math> and <math><mspace a=/></math> are rejected, although <math><mi a=>x</mi></math> and <math><mi b='1'>x</mi></math> are converted.", "quantifier": "all texts, all places of such attributes, all parsers with these two properties", "why_tests_cant": "all documents and places; the position reported by the parser decides what is deleted", "anchors": ["src/mathml_to_latex/xml_to_mathml/services/error_handler.py:ErrorHandler._fix_missing_attribute_value", "src/mathml_to_latex/xml_to_mathml/services/error_handler.py:ErrorHandler._get_word_at_str_pos", "src/mathml_to_latex/xml_to_mathml/adapter.py:XmlToMathMLAdapter._mathml_elements"]}
{"id": "C71", "title": "Which strings are results", "statement": "A string is the result for some document exactly if it is in whitespace normal form and is not a single superscript or subscript digit or n, a single fraction sign or a single number in a circle (91 characters, which are never returned alone, whatever the input). So nothing is filtered or escaped: every other string in normal form, of characters that can occur in XML, is returned for the text of one number, including commands and unbalanced braces.", "quantifier": "all strings; all documents, texts and correct parsers", "why_tests_cant": "both directions range over all strings, and the second one over all documents", "anchors": ["src/mathml_to_latex/el_to_tex/usecases.py:MN", "src/mathml_to_latex/syntax.py:math_number_by_glyph", "src/mathml_to_latex/converter.py:MathMLToLaTeX.convert"]}
{"id": "C72", "title": "The work of the pattern matcher", "statement": "Counting the steps of the regular expression matcher while a text is prepared, parsed and repaired: a text that the parser accepts takes at most a multiple of its length; any other text takes at most a multiple of its length times the number of its < times the number of its blanks, plus a multiple of the square of its length, so at most cubically many steps, whatever the parser reports. Nothing is exponential. Cubic growth does occur: a comment that is not closed, with m times '< ' in it, takes at least m^3 steps before the error is raised.", "quantifier": "all texts of all lengths, all parsers and all errors they report", "why_tests_cant": "growth is a statement about all lengths; the worst texts are found by analysing the pattern", "anchors": ["src/mathml_to_latex/xml_to_mathml/services/error_handler.py:ErrorHandler._math_generic_missing_value", "src/mathml_to_latex/xml_to_mathml/services/error_handler.py:ErrorHandler._match_missing_value_for_attribute", "src/mathml_to_latex/xml_to_mathml/services/error_handler.py:ErrorHandler._fix_missing_attribute", "src/mathml_to_latex/xml_to_mathml/adapter.py:XmlToMathMLAdapter._remove_line_breaks", "src/mathml_to_latex/xml_to_mathml/adapter.py:XmlToMathMLAdapter._remove_ms_word_prefixes"]}
{"id": "C73", "title": "Apart from invalid tokens only trailing junk is repaired", "statement": "With a parser that accepts only texts ending with > and white space: if the generic repair makes a text acceptable, then the text was a whole document, a blank, and junk without blanks that ends with >; the junk is removed, and such junk is always removed if the parser reports another error than an invalid token. So if the parser never reports an invalid token, only a beginning of the text can be converted in place of it, and if no beginning is a document the call raises an error: no missing value, undefined entity or missing end tag in the middle of a text is repaired. The error raised is that for the text left by the repairs, so it can be misleading: for <math><mi mathvariant='bold'>&alpha;</mi></math> it is the one about the text '<math><mi '.", "quantifier": "all texts, all such parsers, all errors they report, all attempts", "why_tests_cant": "all documents and all possible damages to them", "anchors": ["src/mathml_to_latex/xml_to_mathml/services/error_handler.py:ErrorHandler._fix_missing_attribute", "src/mathml_to_latex/xml_to_mathml/services/error_handler.py:ErrorHandler._math_generic_missing_value", "src/mathml_to_latex/xml_to_mathml/adapter.py:XmlToMathMLAdapter._mathml_elements"]}
{"id": "C74", "title": "Threads that share an adapter object", "statement": "If several threads call convert of the same XmlToMathMLAdapter object at the same time (the static method MathMLToLaTeX.convert never does this): whatever the schedule and the parser, a call that returns gives the elements of a text that the parser accepts and that is one of the texts with characters deleted. If all texts are accepted, on one line and without mml:, no call fails, and each returns the elements of one of the texts; if they are all the same text, this is what they should return. But a call may return the elements of the text of another thread, and two calls with the same text with prefixes may find no formula in it; both happen with the source text, too, executed one operation at a time. Every call ends after at most 18 reads and writes of its own.", "quantifier": "all schedules, any number of threads, all texts and parsers, any earlier use of the object", "why_tests_cant": "all interleavings of the reads and writes of the object", "anchors": ["src/mathml_to_latex/xml_to_mathml/adapter.py:XmlToMathMLAdapter.convert", "src/mathml_to_latex/xml_to_mathml/adapter.py:XmlToMathMLAdapter._mathml_elements", "src/mathml_to_latex/xml_to_mathml/adapter.py:XmlToMathMLAdapter._fix_error"]}
{"id": "C75", "title": "Strings with lone surrogates", "statement": "A Python string may contain surrogate code points, which are no characters. If it does, in any place, the call raises the encoding error of the parser: nothing is converted, and no repair is tried. If it does not, everything else in this list applies. The result never contains a surrogate.", "quantifier": "all Python strings, all parsers", "why_tests_cant": "all strings and places", "anchors": ["src/mathml_to_latex/converter.py:MathMLToLaTeX.convert", "src/mathml_to_latex/xml_to_mathml/adapter.py:XmlToMathMLAdapter._mathml_elements", "src/mathml_to_latex/xml_to_mathml/services/error_handler.py:ErrorHandler.fix_error"]}
{"id": "C76", "title": "Elements made by hand", "statement": "A program may make a tree of elements itself, without XML, and have it converted. The result depends only on the names, values and attributes, not on which objects hold them or what was done with the elements before, and is that of the document with the same elements. Elements and dictionaries may be shared in any way, with one exception: a table inside a table must not share its dictionary with a table that is not. Then the outer one is taken for an inner one: one empty dictionary for all elements gives a wrong result for a table in a table.", "quantifier": "all finite trees of elements, all ways of sharing, all histories of converters", "why_tests_cant": "all trees, ways of sharing and histories", "anchors": ["src/mathml_to_latex/el_to_tex/adapter.py:MathMLElementToLatexConverterAdapter", "src/mathml_to_latex/el_to_tex/usecases.py:MTable", "src/mathml_to_latex/el_to_tex/usecases.py"]}
{"id": "C77", "title": "Undeclared entities behind a document type vanish", "statement": "If a text has a document type with an external identifier, as the one of MathML, the parser, which does not read it, leaves out references to entities other than the five of XML in texts and attribute values, without an error. The conversion then succeeds, with the result for the text in which these references are deleted, whatever entities they are: x to the power of &alpha; becomes x^{}, and so for every name. Nothing is reported. Without such references, nothing is left out.", "quantifier": "all texts with such a document type, all entity names, all parsers that leave out what they do not know", "why_tests_cant": "all texts and names", "anchors": ["src/mathml_to_latex/xml_to_mathml/adapter.py:XmlToMathMLAdapter._mathml_elements", "src/mathml_to_latex/converter.py:MathMLToLaTeX.convert"]}
{"id": "C78", "title": "Faults while several threads are running", "statement": "Faults can end any of several threads in any moment of rendering. Whatever the schedule and the faults, a thread that ends its call has got the result of the same call made alone, or the fault that happened in itself; so no thread gets a wrong result, and the faults of other threads do not matter. The same holds for threads that render the root of a shared tree, or any element of it that is not inside a table, even if others were stopped in the middle of rendering it. Something can be left behind for a table inside a table only: if a thread is stopped after it began to render the outer table, the inner one, rendered later on its own, gets an environment of its own.", "quantifier": "all schedules, any number of threads, all faults and all moments, all texts, parsers and shared trees", "why_tests_cant": "all interleavings and all moments of faults", "anchors": ["src/mathml_to_latex/converter.py:MathMLToLaTeX.convert", "src/mathml_to_latex/el_to_tex/adapter.py:MathMLElementToLatexConverterAdapter", "src/mathml_to_latex/el_to_tex/usecases.py:MTable"]}
{"id": "C79", "title": "The source text does what is said here", "statement": "Every function of the package, read from the files in the repository as a syntax tree and executed by the rules of Python, statement by statement, gives what the rest of this list is about: for every text and every parser, MathMLToLaTeX.convert returns a string exactly if the model does, and the same one; it raises exactly if the model does, and what it raises is that exception, with that message. It makes no difference whether the method is called by the name of the class or on an instance, MathMLToLaTeX().convert(text), as README.md shows. So every other statement about results in this list is one about the source text.", "quantifier": "all texts of all lengths and depths, all parsers, all objects that exist at the time of the call", "why_tests_cant": "relates the program text to its description for all inputs", "anchors": ["src/mathml_to_latex/converter.py:MathMLToLaTeX.convert", "src/mathml_to_latex/xml_to_mathml/adapter.py:XmlToMathMLAdapter", "src/mathml_to_latex/xml_to_mathml/services/error_handler.py:ErrorHandler", "src/mathml_to_latex/el_to_tex/adapter.py:MathMLElementToLatexConverterAdapter", "src/mathml_to_latex/el_to_tex/usecases.py", "src/mathml_to_latex/syntax.py:UTF8ToLtXConverter", "src/mathml_to_latex/el_to_tex/services/normalizer.py"]}
{"id": "C80", "title": "A call ends, and nothing unexpected is raised", "statement": "Executed by the rules of Python, every call of MathMLToLaTeX.convert with a string ends, with a string or with an exception raised by the parser, an IndexError or an InvalidNumberOfChildrenError. No loop and no recursion is endless; no undefined name, missing attribute, operation on operands of a wrong type, call with wrong arguments or missing key is ever met, in any of the functions.", "quantifier": "all texts, all parsers, all objects that exist at the time of the call", "why_tests_cant": "absence of errors of every kind on every path, and termination, for all inputs", "anchors": ["src/mathml_to_latex/converter.py:MathMLToLaTeX.convert", "src/mathml_to_latex/xml_to_mathml/services/error_handler.py:ErrorHandler._get_word_at_str_pos", "src/mathml_to_latex/xml_to_mathml/adapter.py:XmlToMathMLAdapter._mathml_elements", "src/mathml_to_latex/el_to_tex/usecases.py"]}
{"id": "C81", "title": "Calls do not depend on what there is", "statement": "Executed by the rules of Python with objects that live on after each call: whatever objects exist when MathMLToLaTeX.convert is called, and whatever was done with them, the call gives the same string, or the same exception with the same attributes. So in a program that makes any number of calls, each gives what it would give in a fresh interpreter, also after calls that raised.", "quantifier": "all stores of objects, all sequences of calls, all texts and parsers", "why_tests_cant": "all histories of a program", "anchors": ["src/mathml_to_latex/converter.py:MathMLToLaTeX.convert", "src/mathml_to_latex/xml_to_mathml/adapter.py:make_xml_to_mathml_adapter", "src/mathml_to_latex/el_to_tex/adapter.py:MathMLElementToLatexConverterAdapter"]}
{"id": "C82", "title": "Only what was handed over is changed", "statement": "MathMLToLaTeX.convert changes no object that existed before the call, whether it returns or raises. More generally, a call of any function or method of the package changes only objects that can be reached from its arguments, and what it returns or raises refers to such objects and to new ones only.", "quantifier": "all functions, arguments, stores of objects, texts and parsers", "why_tests_cant": "all objects and all executions", "anchors": ["src/mathml_to_latex/converter.py:MathMLToLaTeX.convert", "src/mathml_to_latex/el_to_tex/adapter.py:MathMLElementToLatexConverterAdapter", "src/mathml_to_latex/el_to_tex/usecases.py:MTable", "src/mathml_to_latex/xml_to_mathml/adapter.py:XmlToMathMLAdapter"]}
{"id": "C83", "title": "Threads, at the level of the source text", "statement": "Any number of threads call MathMLToLaTeX.convert, each with a text of its own, and are executed by the rules of Python one access to an object at a time. Whatever the order of the operations, and whatever other code does between them with objects that are not those of the calls, a thread that has returned has returned the string of the same call made alone, and one that has raised has raised the same exception, with the same message. A thread never has to wait and never gets stuck: it has ended, or can do its next operation; it ends after exactly as many operations of its own as the call alone. No operation changes an object of other code. More generally, any functions of the package called in several threads with arguments that share no object give the results of the calls made alone.", "quantifier": "all schedules of any number of threads, all interference by other code with other objects, all texts, parsers and stores of objects", "why_tests_cant": "all interleavings of operations", "anchors": ["src/mathml_to_latex/converter.py:MathMLToLaTeX.convert", "src/mathml_to_latex/xml_to_mathml/adapter.py:XmlToMathMLAdapter", "src/mathml_to_latex/el_to_tex/adapter.py:MathMLElementToLatexConverterAdapter", "src/mathml_to_latex/el_to_tex/usecases.py:MTable"]}
{"id": "C84", "title": "Elements and converters used piece by piece, at the level of the source text", "statement": "A program has a tree of GenericMathMLElement objects, made by itself or by the reader, creates converters for elements of it with MathMLElementToLatexConverterAdapter, calls convert on them as often as it likes and in any order, also after calls that raised, and does other things in between. Executed by the rules of Python: creating a converter always ends and gives one; a converter of the root gives, each time, the LaTeX that the root has on its own, or the same exception, and if the elements are those of a document then it is that of the document; a converter of any element does what the model says. Elements and dictionaries may be shared, except that a table inside a table must not share its dictionary with a table that is not, and for the first use not even this matters. Nothing but attributes of the tree is ever changed.", "quantifier": "all finite trees of elements, all ways of sharing, all sequences of creating and converting, all other code that leaves the elements alone", "why_tests_cant": "all trees, stores of objects and histories of a program", "anchors": ["src/mathml_to_latex/el_to_tex/adapter.py:MathMLElementToLatexConverterAdapter.to_latex_converter", "src/mathml_to_latex/el_to_tex/usecases.py:MTable", "src/mathml_to_latex/el_to_tex/usecases.py"]}
{"id": "C85", "title": "Calls that fail, at the level of the source text", "statement": "While MathMLToLaTeX.convert is executed by the rules of Python, any call of a function or method of the package may fail at once with an exception: the recursion limit is reached, there is no memory, or the user interrupts. Whichever calls fail, the caller gets the outcome of the call without failures, or that exception: never a wrong string and never another error; the handler in the reader does not swallow it. No object that existed before is changed, and in a program that goes on, every later call that is not stopped gives what it gives in a fresh interpreter. For every text there is a recursion limit from which on nothing is stopped.", "quantifier": "all choices of failing calls, depending on everything, all texts, parsers and stores of objects, all sequences of calls", "why_tests_cant": "all crash points and limits", "anchors": ["src/mathml_to_latex/converter.py:MathMLToLaTeX.convert", "src/mathml_to_latex/xml_to_mathml/adapter.py:XmlToMathMLAdapter._mathml_elements", "src/mathml_to_latex/el_to_tex/adapter.py:MathMLElementToLatexConverterAdapter", "src/mathml_to_latex/el_to_tex/usecases.py"]}
{"id": "C86", "title": "Elements and converters among arbitrary other objects", "statement": "As before a program creates converters for elements of a tree and calls convert on them, in any order, with or without success, and in between other code makes any objects and changes any objects except those of the tree and of its converters, also instances, lists and dictionaries. Executed by the rules of Python: creating a converter always gives one, a converter of the root gives each time the LaTeX that the root has on its own, or the same exception, and for the elements of a document that of the document; and a call changes none of the other objects.", "quantifier": "all finite trees of elements, all sequences of creating and converting, all interference with other objects", "why_tests_cant": "all histories of a program, and all other code in it", "anchors": ["src/mathml_to_latex/el_to_tex/adapter.py:MathMLElementToLatexConverterAdapter.to_latex_converter", "src/mathml_to_latex/el_to_tex/usecases.py:MTable", "src/mathml_to_latex/el_to_tex/usecases.py"]}
{"id": "C87", "title": "Readers, elements and converters in one program", "statement": "A program makes readers with make_xml_to_mathml_adapter, reads texts with them as often as it likes, also after texts that could not be read, makes converters for elements of what it got, uses them any number of times, and other code does anything with other objects, all in any order. Executed by the rules of Python: a reader can always be made; reading a text always gives a list with one element for each math element, or the exception that the text gives, whatever the reader read before; a converter can be made for each element; a converter of an element that was read gives each time the LaTeX of the math element it was read from, or its exception. No two of these things have an object in common, and reading changes only the reader. To read a text, convert its elements and put the results together is the same as to call MathMLToLaTeX.convert.", "quantifier": "all sequences of making, reading, creating, converting and other actions; all texts, parsers and stores of objects", "why_tests_cant": "all histories of a program, and all other code in it", "anchors": ["src/mathml_to_latex/xml_to_mathml/adapter.py:XmlToMathMLAdapter.convert", "src/mathml_to_latex/xml_to_mathml/adapter.py:make_xml_to_mathml_adapter", "src/mathml_to_latex/el_to_tex/adapter.py:MathMLElementToLatexConverterAdapter.to_latex_converter", "src/mathml_to_latex/converter.py:MathMLToLaTeX.convert"]}
{"id": "C88", "title": "The small classes used on their own, at the level of the source text", "statement": "A program imports the small classes of the package and uses them for itself. Executed by the rules of Python, whatever objects there are: WhiteSpaceNormalizer().normalize gives the words of the text with single blanks between them; HashUTF8ToLtXConverter().convert, Character.apply and Operator.operate give for every text the one symbol that the tables say; the wrappers put the right things around every text, ParenthesisWrapper.wrap_if_more_than_one_char only around texts of two or more characters; JoinWithManySeparators puts the separators between the entries, uses the last one again for further entries, and a comma if there is none; the ready-made MIMathMlElement and VoidMathMLElement are accepted by the factory of converters and become the symbol of the text and the empty text; ErrorHandler().fix_error gives the repaired text, or an IndexError if the position is not in the text. No object that existed before is changed.", "quantifier": "all texts, lists of texts, parser errors and stores of objects", "why_tests_cant": "all inputs and all objects of a program", "anchors": ["src/mathml_to_latex/el_to_tex/services/normalizer.py:WhiteSpaceNormalizer.normalize", "src/mathml_to_latex/syntax.py:HashUTF8ToLtXConverter", "src/mathml_to_latex/el_to_tex/services/wrapper.py", "src/mathml_to_latex/el_to_tex/usecases.py:Character", "src/mathml_to_latex/el_to_tex/usecases.py:Operator", "src/mathml_to_latex/el_to_tex/protocols.py:MIMathMlElement", "src/mathml_to_latex/el_to_tex/protocols.py:VoidMathMLElement", "src/mathml_to_latex/xml_to_mathml/services/error_handler.py:ErrorHandler.fix_error", "src/mathml_to_latex/el_to_tex/adapter.py:MathMLElementToLatexConverterAdapter.to_latex_converter"]}
{"id": "C89", "title": "How deep a document may be, at the level of the source text", "statement": "Executed by the rules of Python with a recursion limit, that is with at most so many calls of functions and methods of the package within one another: for every text there is a number such that with a lower limit the call of MathMLToLaTeX.convert is stopped with the exception of the limit, and with that limit or a higher one it does what it does without a limit. If the text is read as a document, at once or after repairs, the number is at least 2 n + 3 and at most 2 n + 13, where n is the greatest number of elements within one another in a math element. If it is not, the number is at most 13, however long or deep the text is. So with the limit 1000 every document of up to 493 levels is converted, and none of 499 or more.", "quantifier": "all texts, documents of every depth, all parsers, all recursion limits and stores of objects", "why_tests_cant": "all depths and limits", "anchors": ["src/mathml_to_latex/converter.py:MathMLToLaTeX.convert", "src/mathml_to_latex/xml_to_mathml/adapter.py:XmlToMathMLAdapter.convert", "src/mathml_to_latex/xml_to_mathml/services/xml_elements_to_mathml_element.py:ElementsToMathMLAdapter", "src/mathml_to_latex/el_to_tex/adapter.py:MathMLElementToLatexConverterAdapter", "src/mathml_to_latex/el_to_tex/usecases.py"]}
{"id": "C90", "title": "Calls that come and go, at the level of the source text", "statement": "In a running program calls of MathMLToLaTeX.convert are started at any time and in any thread, any of them may be interrupted between two of its operations by an exception that is not an Exception (KeyboardInterrupt, SystemExit), and other code does what it likes with other objects. Executed by the rules of Python one access to an object at a time: at any time each call that was started has been interrupted and has ended with that exception, or has returned the string or raised the exception that its text gives in a fresh interpreter, or can do its next operation without waiting for anything. Interruptions do not reach other calls: a call that is not interrupted ends after exactly as many operations of its own as alone, one that is interrupted has done fewer, and whatever has happened, a call that is started now and runs alone gives what its text gives. Nothing that happens to a call changes an object of other code.", "quantifier": "all sequences of starts, operations, interruptions and actions of other code; all texts, parsers and stores of objects", "why_tests_cant": "all schedules and all points of interruption", "anchors": ["src/mathml_to_latex/converter.py:MathMLToLaTeX.convert", "src/mathml_to_latex/xml_to_mathml/adapter.py:XmlToMathMLAdapter._mathml_elements", "src/mathml_to_latex/el_to_tex/adapter.py:MathMLElementToLatexConverterAdapter"]}
{"id": "C91", "title": "What happens to objects that are shared", "statement": "In a running program any functions and methods of the package are called and instances of any of its classes are made, at any time, in any thread and with any arguments, which may have objects in common: the same element rendered by several threads, the same adapter reading several texts, even elements that contain themselves. Calls may be interrupted at any moment. Executed by the rules of Python one access to an object at a time: at every moment, every list that was there in the beginning has the same entries; every dictionary has the same entries, except that the key innerTable may have been set to innerTable; every instance has the same class and attributes, except _xml (the text an adapter is reading) and value (of a small class). In particular a GenericMathMLElement has at every moment the same name, value and list of children, and stands for the same tree. The methods that set attributes of self or the mark (__init__ and MTable._add_flag_recursive_if_name) are not called directly or handed over as bound methods.", "quantifier": "all sequences of calls, operations and interruptions in any number of threads; all arguments, all ways of sharing, all stores of objects, all actions of other code on other objects", "why_tests_cant": "all schedules, all points of interruption and all ways of sharing", "anchors": ["src/mathml_to_latex/el_to_tex/adapter.py:MathMLElementToLatexConverterAdapter", "src/mathml_to_latex/el_to_tex/usecases.py:MTable", "src/mathml_to_latex/el_to_tex/usecases.py", "src/mathml_to_latex/xml_to_mathml/adapter.py:XmlToMathMLAdapter.convert", "src/mathml_to_latex/xml_to_mathml/services/xml_elements_to_mathml_element.py:ElementsToMathMLAdapter", "src/mathml_to_latex/el_to_tex/protocols.py:GenericMathMLElement"]}
{"id": "C92", "title": "Threads that work on the same objects, at the level of the source text", "statement": "In a running program any number of calls are started at any time and in any thread, and all of them may be handed the same objects: a tree of elements, an adapter, a converter. The calls are of functions of the package, or of code that uses it, and each of them, made alone, would leave the shared objects as they were. They may be interrupted at any moment, and other code does what it likes with its objects. Executed by the rules of Python one access to an object at a time: at every moment the shared objects are as they were in the beginning; every call that has ended has returned or raised what it returns or raises when it is made alone; none gets stuck, and none does more operations than alone, or fewer unless it is interrupted. MathMLToLaTeX.convert is such a call, for every text. So is the rendering of an element of a tree, with a converter of its own or a shared one, if the element has been rendered before, or if no table of it is inside a table of it, or if those that are have the mark already, as they do after a converter has been created for a table; the shared objects must refer only to each other and have no dictionaries except those of the tree. Then every thread that renders the root gets the LaTeX of the root, and for the elements of a document that of the document.", "quantifier": "all sequences of starts, operations, interruptions and actions of other code; all shared objects, all functions that pass the check for changes, all trees of elements and texts", "why_tests_cant": "all schedules, all points of interruption and all ways of sharing", "anchors": ["src/mathml_to_latex/el_to_tex/adapter.py:MathMLElementToLatexConverterAdapter", "src/mathml_to_latex/el_to_tex/usecases.py:MTable", "src/mathml_to_latex/el_to_tex/usecases.py", "src/mathml_to_latex/converter.py:MathMLToLaTeX.convert", "src/mathml_to_latex/el_to_tex/protocols.py:GenericMathMLElement"]}
{"id": "C93", "title": "To convert again changes nothing, at the level of the source text", "statement": "A program has a tree of elements, creates converters for elements of it, calls them and does other things in between, as in C84. Executed by the rules of Python: once an element has been converted, with or without success, then whatever was done with the tree since, calling a converter of it again, or creating a new one and calling it, ends, with a result or an exception, and changes no object that there was. The same holds if all tables of the element that are inside tables of it have the mark, or if there are none; and they have the mark as soon as a converter has been created for a table, even if it was never called. A tree whose objects refer only to each other keeps this property throughout such a program.", "quantifier": "all finite trees of elements, all ways of sharing, all sequences of creating, converting and other actions", "why_tests_cant": "all trees, stores of objects and histories of a program", "anchors": ["src/mathml_to_latex/el_to_tex/adapter.py:MathMLElementToLatexConverterAdapter.to_latex_converter", "src/mathml_to_latex/el_to_tex/usecases.py:MTable", "src/mathml_to_latex/el_to_tex/usecases.py"]}
{"id": "C94", "title": "Threads that convert the same new tree, at the level of the source text", "statement": "As for C92 any number of calls are started at any time and in any thread, they may be handed the same objects, they may be interrupted at any moment, and other code does what it likes with its objects. But the trees of elements that are shared may be new: nobody has converted them before, and their tables inside tables do not have the mark yet, so that the threads mark the same dictionaries while others read them; other code may set such marks as well. Executed by the rules of Python one access to an object at a time: every thread that converts the root of such a tree gets the LaTeX of the root, or the exception, just as if it were alone, and for the elements of a document that of the document; conversions of texts that run at the same time give what the text gives; none gets stuck, and none does more operations than alone, or fewer unless it is interrupted; and at every moment the shared objects are as they were in the beginning except that unmarked tables inside tables may have got the mark. Provided that the dictionary of a table inside a table is not also the dictionary of another kind of element of the trees, and that nobody converts a table inside a table on its own meanwhile.", "quantifier": "all sequences of starts, operations, interruptions and actions of other code; all trees of elements, marked or not or in part, and all texts", "why_tests_cant": "all schedules of all reads and writes of the shared dictionaries, all trees", "anchors": ["src/mathml_to_latex/el_to_tex/adapter.py:MathMLElementToLatexConverterAdapter.to_latex_converter", "src/mathml_to_latex/el_to_tex/usecases.py:MTable", "src/mathml_to_latex/converter.py:MathMLToLaTeX.convert", "src/mathml_to_latex/el_to_tex/protocols.py:GenericMathMLElement"]}
{"id": "C95", "title": "Threads that share converters of trees that were not converted before", "statement": "Any number of threads call convert on shared converters that to_latex_converter of the adapter made, even on the same converter, while others make converters for the same elements or convert them with the adapter; nobody has rendered anything yet, so the tables inside tables get their marks while the others are at work. Whoever renders a converter gets the LaTeX that the element has on its own, or the exception. If the element is that of a document, it is the LaTeX of the document. What to_latex_converter returns for any element of any kind is such a converter, and making one changes no object that was there before, unless the element is a table: that sets the marks of the tables inside.", "quantifier": "all sequences of starts, operations, interruptions and actions of other code; all kinds of converters, all trees of elements", "why_tests_cant": "all schedules of all reads and writes of the shared objects, all trees and kinds", "anchors": ["src/mathml_to_latex/el_to_tex/adapter.py:MathMLElementToLatexConverterAdapter.to_latex_converter", "src/mathml_to_latex/el_to_tex/usecases.py:MTable", "src/mathml_to_latex/el_to_tex/protocols.py:GenericMathMLElement"]}
{"id": "C96", "title": "Shared trees may be taken up again at any time", "statement": "While threads convert shared trees and call shared converters, as in C94 and C95, with some of the marks set and others not yet, with calls that have ended, that are running or that were interrupted: at any time the shared objects, as they are then, again meet the conditions under which C94 and C95 hold. Exactly some of the tables inside tables have got the mark, and every element that could be converted in the beginning still can, stands where it stood, and has the same LaTeX or exception; converters for elements are still converters for them. So a program may start over from there with new threads, and calls that are still running count as other code that sets marks. The dictionaries have each key once, as all Python dictionaries do.", "quantifier": "all sequences of starts, operations, interruptions and actions of other code, and all moments in them; all trees of elements", "why_tests_cant": "all schedules and all moments", "anchors": ["src/mathml_to_latex/el_to_tex/adapter.py:MathMLElementToLatexConverterAdapter.to_latex_converter", "src/mathml_to_latex/el_to_tex/usecases.py:MTable", "src/mathml_to_latex/el_to_tex/protocols.py:GenericMathMLElement"]}
{"id": "C97", "title": "Threads may share what they make meanwhile", "statement": "As in C94 to C96, but the threads do not share the same objects from the beginning. Each call shares objects of its own choice, as they are when it starts: trees, adapters, and converters that other threads have made in the meantime. It may not take objects that only a running call has; and two calls that share a dictionary agree on whether it may get the mark, unless it has it. Then all that C94 to C96 say holds for every call: whoever converts an element with the adapter, or calls convert on a converter of it, gets the LaTeX that the element has on its own, or the exception; a conversion of a text gives what the text gives; no call gets stuck; and the objects it shares are at every moment as when it started, except for the expected marks. Making a converter raises nothing. A thread that has made a converter may hand it over: what it shares, with the new converter, meets the conditions again, also in view of all other calls that are running, so that another thread may call convert on the converter, and gets the LaTeX of the element. At any time, others may start calls with what a call shares.", "quantifier": "all sequences of starts, operations, interruptions and actions of other code; all choices of the objects that each call shares; all trees of elements", "why_tests_cant": "all schedules and all ways of handing objects from one thread to another", "anchors": ["src/mathml_to_latex/el_to_tex/adapter.py:MathMLElementToLatexConverterAdapter.to_latex_converter", "src/mathml_to_latex/el_to_tex/usecases.py:MTable", "src/mathml_to_latex/converter.py:MathMLToLaTeX.convert", "src/mathml_to_latex/el_to_tex/protocols.py:GenericMathMLElement"]}
{"id": "C98", "title": "Names do not matter", "statement": "The result of a conversion is a template: some of its letters and digits come from the names and numbers of the document, that is from the texts of mi, mn and mo that begin with an ASCII letter or digit. If these letters and digits are replaced throughout by other letters and digits, in any way, even the same for several, then the result has the new ones in the same places, and all its other characters, such as those of commands, delimiters and texts, are the same; in particular it has the same length. If the conversion raises an exception, it is the same exception. So the converter never decides anything on the ground of which letter or digit it sees. For other characters this is not so.", "quantifier": "all documents, all replacements of letters and digits by letters and digits", "why_tests_cant": "all documents and all replacements", "anchors": ["src/mathml_to_latex/el_to_tex/usecases.py:MI", "src/mathml_to_latex/el_to_tex/usecases.py:MN", "src/mathml_to_latex/el_to_tex/usecases.py:MO", "src/mathml_to_latex/el_to_tex/usecases.py", "src/mathml_to_latex/syntax.py:HashUTF8ToLtXConverter.convert"]}
{"id": "C99", "title": "Different formulas have different LaTeX", "statement": "Take formulas that are built, to any depth, from letters, Greek letters, digits, operators, parentheses, fractions, square roots, roots with an index, formulas in parentheses (mfenced), formulas above and below others, superscripts and subscripts, where the base of a script is a single sign or a row of at least two parts. Their MathML is converted, and the MathML of two different formulas never gives the same LaTeX; so the formula can be recovered from the LaTeX. For bases that are rows with one part only this is not so: a square of such a row can give the LaTeX of a sum with a square. And munderover gives the LaTeX of msubsup.", "quantifier": "all pairs of formulas of this kind", "why_tests_cant": "all pairs of formulas, of any size", "anchors": ["src/mathml_to_latex/el_to_tex/usecases.py:MSup", "src/mathml_to_latex/el_to_tex/usecases.py:MSub", "src/mathml_to_latex/el_to_tex/usecases.py:MSubsup", "src/mathml_to_latex/el_to_tex/usecases.py:MFrac", "src/mathml_to_latex/el_to_tex/usecases.py:MRoot", "src/mathml_to_latex/el_to_tex/usecases.py:MSqrt", "src/mathml_to_latex/el_to_tex/usecases.py:MI", "src/mathml_to_latex/el_to_tex/usecases.py:MO", "src/mathml_to_latex/el_to_tex/services/wrapper.py:ParenthesisWrapper.wrap_if_more_than_one_char"]}
{"id": "C100", "title": "A change of one part changes nothing else", "statement": "If one element somewhere in a math element is replaced by another one, then in the result the LaTeX of the one is replaced by that of the other, and everything before and after it stays as it is, up to white space that is collapsed. This holds at any depth inside rows, unknown elements, roots, fractions that are not bevelled, scripts (but not their bases), errors, enclosures, fences, tables, actions that show the element, and the bases of accents, if both or none of the two contains a table. Elsewhere it is not so: what is written around the base of a script, a part of a bevelled fraction, or a script of mover depends on what that is.", "quantifier": "all documents, all such places at any depth, all pairs of elements that can be put there", "why_tests_cant": "all contexts and all elements", "anchors": ["src/mathml_to_latex/el_to_tex/usecases.py", "src/mathml_to_latex/el_to_tex/services/wrapper.py", "src/mathml_to_latex/el_to_tex/adapter.py", "src/mathml_to_latex/converter.py:MathMLToLaTeX.convert"]}
