# Formal model of py-mathml-to-latex in Lean 4

## What is modelled

| Python (under /repo/src/mathml_to_latex) | Lean |
|---|---|
| the `str` methods used (split/strip/join/…), dict, exceptions | `Verif/Py.lean` |
| the `re` patterns used (backtracking engine, `re.sub`, `re.search`, groups) | `Verif/Regex.lean` |
| syntax.py tables (generated from the source by `tools/gen_tables.py`, one Lean entry per Python entry) | `Verif/Tables.lean` |
| syntax.py `HashUTF8ToLtXConverter` | `Verif/Model/Syntax.lean` |
| xml_to_mathml/services/error_handler.py, adapter.py | `Verif/Model/Xml.lean` |
| xml_to_mathml/services/xml_elements_to_mathml_element.py | `Verif/Model/Elements.lean` |
| el_to_tex/{usecases,adapter,protocols}.py, services/{wrapper,normalizer}.py | `Verif/Model/Latex.lean` |
| converter.py | `Verif/Model/Api.lean` |
| the same, one dictionary operation at a time (for threads) | `Verif/Model/Threads.lean` |

The model is a shallow embedding, one Lean definition per Python function or class, exceptions as
values, mutable attribute dictionaries as an explicit heap (`Nat → dict`). Elements hold a
*reference* to their dictionary, so the `innerTable` mutation performed by `MTable.__init__` happens
in the model when and where it happens in Python. Converter construction and `convert()` are two
separate stages (`toConv : Elem → M (M Str)`), because some classes read or write attributes in
`__init__` and others in `convert`.

The XML parser (`xml.dom.minidom.parseString`, i.e. expat) is *not* modelled: it is a parameter
`Env.parse : Str → Except ParseErr Doc`, and every API-level theorem is quantified over all such
functions. So nothing proved depends on what expat accepts or which code, line and offset it
reports. The second field of `Env` is `str.isalnum`, also arbitrary. C61 and C62 assume in addition
that the parser is `Correct`: on texts of the XML grammar in `Spec/Xml` (XML 1.0 without internal
subsets of document types and declared entities, names outside of ASCII and foreign prefixes) it returns the document the grammar
assigns. On other texts it stays arbitrary; C70 assumes in addition that it is `Precise` (`Spec/Expat`):
where an attribute has no value, it reports error 4 at the column of the first character that cannot
stand there, like the function `scanAtts` of expat. C77 assumes that it `Skips` undeclared entities if
there is an external document type, as expat does when no handler asks for them. `Lemmas/Xml` has a reader that shows that the grammar
assigns one document only.

Threads: `Model/Threads.lean` writes the same functions as programs (`Prog`) whose steps are the
operations on attribute dictionaries (create, look up, `d[k] = v`). These are the only mutable
objects that two calls of the API can share, and each of them is atomic in CPython. A configuration
is a heap and a list of programs; a schedule lets any thread take the next step.
`Refine/Threads.lean` proves that a program run without interruption is the sequential model.
Threads that share one `XmlToMathMLAdapter`, which `MathMLToLaTeX.convert` never does, are in
`Model/Shared.lean`: the steps are the reads and writes of its attribute `_xml`.

The call stack: `Model/Stack.lean` writes the same functions with the number of activations left;
every call of a Python function takes one, a call without any left raises `RecursionError`. Calls into
`re` and `parseString` take a constant number (a parameter), functions written in C none, and list
comprehensions one or none, depending on the version. The functions are written once, over an interface
(`Reading`: sequencing, `try`, calls, dictionaries, library calls). A second reading, `Model/Faults.lean`,
lets an arbitrary fault (no memory left, an exception raised by a signal handler) happen at the beginning
or at the end of any call; it also counts these events.

The pattern matcher: `Model/Matcher.lean` repeats the functions that use `re` on the input and counts the
steps of the matcher.

The source text: `Source/Code.lean` has the syntax tree of every function and method of the package,
made from the files in /repo by `tools/gen_source.py` with Python's `ast` (nothing is dropped but
annotations, docstrings and imports; anything outside the fragment stops the generator).
`Source/Syntax.lean` is the fragment of Python, `Source/Semantics.lean` an interpreter for it, with a
store of objects, properties, inheritance, static methods, exceptions and loops; `Source/Pattern.lean`
reads the pattern strings of `re`. The interpreter knows the library (strings, lists, dictionaries, `re`,
minidom nodes) and nothing about this code base; what it gives no meaning to is `stuck`. Fuel bounds the
depth of calls and the turns of `while` loops. C79 proves that executing these trees gives what
the model says, so that the model does not have to be trusted.

| Source/ | what is shown |
|---|---|
| Exec | tactics for symbolic execution |
| Leaf, Tokens, Text, Layout, Scripts, Multi, Fenced, Table | each converter class agrees with its definition in `Model/Latex` |
| Dispatch | the adapter chooses and makes the right converter; all elements, by induction |
| Building | minidom nodes become elements as in `Model/Elements` |
| Repair, Reading | error handler and XML adapter agree with `Model/Xml` |
| Whole | `MathMLToLaTeX.convert` agrees with `Model/Api` |
| Cut | the interpreter with failing calls, and how it relates to the one without |
| Deep, Room | how many activations a call needs, at least and at most, whatever the turns of loops |
| Part | a closed part of the store as a store of its own; calls on it do the same |
| Fuel, Frame | facts about all programs of the fragment |
| Steps | the interpreter as a sequence of operations on the store, for threads; run alone it gives the same |
| Rename, Sim, World | a program does the same among objects of others; threads with one store |

## Layers of proof

0. **Source → heap model** (`Source/*`): the interpreted source gives the results and exceptions of
   the model, for every text and every parser (C79).

1. **Heap model → pure model** (`Refine/Pure`, `Refine/Heap`): rendering with mutation equals a pure
   function of the DOM node and of one bit (inside a table or not). `Refine/Repeat`: rendering the
   same element again. `Refine/Rely`, `Refine/RelySafe`: the same under interference of other threads.
2. **Pure model ↔ declarative system** (`Spec/Renders`, `Lemmas/Renders`): an inductive relation
   `Renders` with one rule per MathML construct, written without the model's helper functions;
   rendering gives `s` exactly if `Renders` derives `s` (C37), and it fails exactly as `Spec/Doc` says
   (C11, C12).
3. **Properties** (`Props/*`): stated on the API function `convert env xml` or on single elements,
   with the specifications of `Spec/*`.

`Verif/Tests/RepoSuite.lean` evaluates the model on the cases of the test suite in /repo. It is a
check of the model, not of the properties, and of the XML reader against the documents that `minidom`
returns. It also evaluates the conditions of C59 and C60 on the same cases (`checkItems`): 603 of 640
documents meet both, for these the items that C60 states are those that are read in the expected
LaTeX, and of the others (nine are expected to fail) not a single one has LaTeX that can be read.
`tools/proper_suite.py` lists them.

## Plan per property

| id | file in Props | specification | how |
|---|---|---|---|
| C01 | Doc, Text | Spec/Doc, Spec/Text | `' '.join(s.split())` is a normal form; no double blank arises at the seam of two `math` elements |
| C02, C03 | Adapter | Spec/Repair | the regex engine on the two patterns is a filter; induction on the input with the chosen insertions |
| C04 | Doc | Spec/Doc | refinement theorem, document order |
| C05–C07 | Adapter | Spec/Repair (`Consulted`) | adapter loop with the parser as parameter |
| C08–C10 | Adapter | Spec/Repair (`Deleted`, `Truncated`) | engine semantics characterised exactly; the effect is unique |
| C11, C12 | Rules | Spec/Arity, Spec/Doc | first error in evaluation order, by recursion on the tree |
| C13 | Nesting | Spec/Tex | TeX scanner, invariant composable under append; complete tables checked by kernel evaluation. The provisos are needed (C13_conditions_needed) |
| C14, C15 | Adapter, Repeat | Spec/History | heap invariant for all operation sequences |
| C16–C21, C33, C34 | Context | Spec/Context | congruence closure of a local change of the tree |
| C22–C26, C40, C41 | Tokens | Spec/Tokens | string induction, complete tables |
| C27–C32, C38, C42 | Layout, Shown (C29) | Spec/Renders | closed forms for arbitrary children |
| C35 | Shown | Spec/Shown | tokens occur in the result, in order |
| C36 | Size | Spec/Size | size function with the exact bound; tables by evaluation |
| C37 | Rules | Spec/Renders | layer 2 |
| C39, C45 | Tables | – | evaluation of the complete tables |
| C43, C44 | Doc | – | API-level equations |
| C46–C51 | Symbols | Spec/Symbols, Spec/Unicode | meaning of the tables against Unicode data: accents, alphabets, references, percent encoding, numerals, Greek |
| C52 | Commands | Spec/Commands, Spec/Words, Spec/Safe | control words of the output, scanner composable under append |
| C53, C54 | Threads | Spec/Threads | rely/guarantee over all schedules; termination measure |
| C55 | Text | Spec/Text | the string helpers characterised without computation |
| C56, C57 | Standard | Spec/Standard | tables against the standard names, with exact lists of exceptions |
| C58 | Missing | Spec/Missing | intended use of the code-4 repair, iterated |
| C59 | Latex, Several, Checked | Spec/Latex (grammar of formulas), Spec/Proper (conditions) | induction on the conditions; complete tables by evaluation; a deterministic reader that accepts every formula, for the converse. `Lemmas/ProperCheck` decides the conditions |
| C60 | Means, Several, Checked | Spec/Reads (grammar with the items read), Spec/Means (what elements stand for) | a deterministic reader that computes the items of every formula gives uniqueness; induction on the rules of Means for the agreement. `Lemmas/MeansCheck` computes the items |
| C61, C62 | Xml | Spec/Xml (grammar of XML, layouts of files, canonical text) | a reader that computes the document of every text; induction on layouts, then C19 |
| C63 | Steps | Spec/Steps | bounds on the steps of programs, composable under sequencing; lower bound by induction on nested tables |
| C64 | Chars | Spec/Chars | induction on the rendering rules for an arbitrary alphabet that contains ASCII; tables by evaluation in the kernel |
| C65 | Dissolve | Spec/Dissolve (Dissolved, Quiet) | the words of a row are those of its children; induction on the replacements, then the congruence of C16-C21 |
| C66 | Dissolve | Spec/Dissolve (Interchangeable) | the congruence of C16-C21 for a semantic relation |
| C67 | Stack | Spec/Stack (levels of elements) | every computation has a threshold (`Fits`), composable under sequencing, calls and retries; lower bound by following the deepest path |
| C68 | Faults | Spec/Repair (`Consulted`) | every computation does what it does without faults, or raises one that happened (`Safe`); a caught fault costs an attempt; a run depends only on the faults between its ends |
| C69 | Calls | Spec/Calls (`eventsForDoc`) | every computation takes at most so many events (`Costs`), composable; lower bound (`Spends`) by following a tower of fences |
| C70 | Expat | Spec/Expat (`Precise`) | C58 with positions as expat reports them; a scanner (a finite automaton) shows that such parsers exist |
| C71 | Range | Spec/Range (`Numeral`) | induction over `Renders`: the non-whitespace of a result is never one such character; conversely a number with that text |
| C72 | Matcher | Spec/Matcher | a copy of the matcher that counts (`Model/Matcher`, same results); bounds per attempt summed over the suffixes; lower bound by induction on the text |
| C73 | Junk | Spec/Junk (`Closed`) | the last `>` of what is left by the generic repair lies before the cut; induction on the attempts |
| C74 | Shared, Race | Spec/Shared (schedules) | invariant of the attribute under every schedule; schedules that show the races, in the model and with the source text |
| C75 | Surrogates | – | `Model/Surrogates` repeats for strings with surrogates the functions that see the text of the caller; it agrees with the model on other strings |
| C76 | Made | Spec/Made (`SameTree`, `Unshared`) | the heap invariant of `Refine/Heap`, which only fixes what tables read of `innerTable` |
| C77 | Skipped | Spec/Skipped (`instead`, `Skips`) | a scanner for references; in a document of the grammar it finds none |
| C78 | Interrupted | Spec/Interrupted (`FaultyRun`) | the rely/guarantee invariant of C53; a fault replaces what is left of a thread by an exception |
| C79 | Source | – (`Source/Semantics`) | symbolic execution of every function of `Source/Code` (`Source/Exec`), agreement of stores and heaps (`Source/Refine`), induction on elements and nodes |
| C80 | Source | `Expected` | C79, and which exceptions the model has (C06, C12); more fuel changes nothing (`Source/Fuel`) |
| C81 | Source | `SameLook`, `Session` | C79 holds for every initial store |
| C82 | Source | `OwnV`, `Frame` | invariant of the interpreter, for every program of the fragment (`Source/Frame`) |
| C83 | Interleave | `Happens`, `Course`, `Enough`, `Raised` | the interpreter as a sequence of operations (`Source/Steps`), each program related to itself in a store with objects of others (`Source/Rename`, `Source/Sim`), invariant over all schedules (`Source/World`) |
| C84 | Byhand | `Stands`, `Uses`, `Elsewhere` | every use of the source is a history of the model (invariant over `Uses`), then C76 |
| C85 | Stopped | `Oracle`, `attempt`, `Attempts`, `recursionLimit` | the interpreter with an oracle for failing calls related to the one without, for every function without `try` by induction, for the one with it by what its body can do (`Source/Cut`) |
| C86 | Among | `Among`, `Enclosed`, `freshCode` | the objects of the tree taken out as a store of their own (`Source/Part`), related to the whole one by the simulation of C83, then C84 |
| C87 | Reader | `Life`, `Thing`, `ElemIn`, `readCode` | each element read is made up of new objects, in a range of their own (`Piece`, `Ranges` in `Source/Building`); from its view everything else is other code, so C86 applies |
| C88 | Services | `Returns`, `sepAt`; `Tidied`, `Glyph`, `MiSymbol`, `MoSymbol`, `Repaired` as above | programs of one line that make an object and call its method; the execution lemmas of `Source/`, and the specifications of C22, C24, C25, C09, C10 |
| C89 | Room | `recursionLimit`, `attempt` (C85), `ParsesTo`, `levelsAll`, `maths` | every execution lemma of `Source/` says how much fuel it takes, which gives the upper bound; activations counted apart from turns of loops (`callD`), since repairs take turns; the lower bound by induction on the document (`Source/Deep`); the interpreter with the limit is cut off exactly where the counted one has no activation left |
| C90 | Live | `Happens`, `Course`, `texts`, `operations`, `Interrupted`, `Enough` | the invariant of C83 with calls that are added, and calls that end at once with an exception |
| C91 | Objects | `Happens`, `Reach`, `InPackage`, `Tree`, `Stands`; `Alt` and `GoodS` in `Source/Gentle` | a check of the syntax of all functions for what can change an object, `package_ok` (`Source/Gentle`), proved sound for every operation of the interpreter (`Source/Writes`) |
| C92 | Together | `Shop`, `Goes`, `Went`, `Job.Leaves`, `Firm` in `Source/Still`; `Settled`, `Held` | a firm object that is changed is never changed back (`Alt.back`), so a call that leaves an object unchanged at its end has left it so all the time; then the simulation of C83 with addresses in common. Unmarked tables inside tables: C94 |
| C93 | Again | `Since`, `Rendered`, `Marked`, `Held`, `Still` | `Again m m'` (`Refine/Again`): a run of `m'` in a state that has all the marks that `m` set changes nothing; shown for every converter, then carried to the store by the refinement of C84; objects outside the tree by `part_of` |
| C94 | Fresh | `Marks`, `Blur`, `Late`, `Goes`, `Went` in `Source/Marking`; `Bare`, `Free`, `blur` | a simulation between a run where marks have a value with which no operation can be done (`junk`) and one where they have any value or none (`Source/Veil`); the refinement of C79 with such values in the dictionaries of unmarked inner tables (`Dom`, `Ripe` in `Source/Refine`); then the simulation of C92 with marks that appear. A thread that converts an inner table by itself is excluded by `Free`: what it gets does depend on the others (`C94_inner_table_depends`). The conditions on the shared objects are met if they are adapters, elements, lists and dictionaries of attributes (`Plain`) |
| C95 | Holding | as for C94; `Holds`, `Converter` in `Source/Converters` | what the object of a converter is for each kind of element, that `to_latex_converter` makes it (`created`, `created_table`), and that `convert` on it does what the model says in any later store (`run_converter`); then the simulation of C94. The dictionary of methods that `to_latex_converter` builds is not among the shared objects |
| C96 | Anew | as for C94 and C95; `flagged`, `tagged` (the attributes and objects, where some dictionaries have got the mark) | which dictionaries have changed is read off the store (C94); in the model, the LaTeX does not depend on which inner tables have the mark (`convertElem_sim`) |
| C97 | Handing | the rules of what may happen (`Source/Party`: `Does`), where every call has its own shared objects; `Holds`, `Stands`, `Bare` as for C94 and C95 | for each call all others are other code in the sense of C94 (`fine`: no call touches what only another has, and they agree on the marks); the objects of a converter have the same shape in every store (`Source/Pull`) |
| C98 | Renaming | `rename`, `Names`, `Marked`, `fill` in `Spec/Renaming` | induction over `Renders` (C37): every construct has a version for strings with marks; the only place where LaTeX is compared with something, the accents of `munder` and `mover`, needs that a string with marks is no accent, also after its white space has been normalised (`Plainly`); failures by C12 |
| C99 | Expr | `Expr`, `Expr.node`, `signs` in `Spec/Expr` | every formula means exactly one item for each of its parts (`Means`), these items determine the formula, and a LaTeX text can be read in one way only (C60); the tables of signs by evaluation |
| C100 | Place | `PlaceStep`, `Place`, `SameTables` in `Spec/Place` | each construct copies the LaTeX of the child (`Copies` for the ones with any number of children, equations of `latexIn` for the others); induction over the place |

Where the English claim that one would like is false of the code, the theorem says what holds, and a
theorem with a concrete witness shows the failure: for instance `C09_damages_markup`,
`C10_truncates_markup`, `C13_conditions_needed`, `C52_conditions_needed`,
`C54_inner_table_depends_on_schedule`, `C57_wrong`, `C58_neighbour_lost`, `C58_end_of_a_name`,
`C58_inside_a_value`, `C58_bare_name`, `C59_conditions_needed`,
`C59_run_together`,
`C60_superscript_lands_last`, `C60_square_of_row_lost`, `C60_default_fences_brackets`, `C60_prescripts`,
`C62_line_break_in_text`, `C62_line_break_in_tag`, `C62_line_break_in_doctype`, `C62_mml_in_text`, `C63_quadratic`, `C68_swallowed`, `C68_attempt_lost`, `C69_cubic_needed`,
`C72_attained`, `C73_misleading`, `C74_other_text`, `C74_prefix_lost`, `C76_shared_dictionary`, `C77_power`, `C78_left_behind`, `C70_before_another`, `C70_blank_not_repaired`, `C70_empty_not_repaired`,
`C64_exceptions`, `C64_ascii_not_enough`, `C65_presentation_twice`, `C65_only_at_the_top`,
`C66_conditions_needed`, `C98_only_ascii`, `C99_row_of_one`, `C99_limits`, `C100_elsewhere`, `C100_tables_matter`.

The cases that meet the hypotheses of a theorem are `example`s beside it; `Props/Cases` and
`Props/CasesMore` apply further theorems (C05–C10, C13, C16–C20, C27–C36, C38, C39, C42, C52, C59–C62,
C68, C78, C85) to concrete inputs.

## Wrong programs

`seeded/LOG.jsonl` records edits of the model that correspond to realistic bugs, and which theorems
stop being provable. C37 with C11 and C12 determine the result of every accepted document in terms of
`Renders`, so an edit that changes the result for some document falsifies one of these; the other
properties say which intended feature is lost. The helpers on strings occur on both sides of
`Renders`; they are fixed by C55 (`isSpace_iff`, `split_iff`, `strip_iff`, …). The tables are fixed
against independent data by C39 and C45–C51, C56, C57.

## Not modelled

* The parser (arbitrary, `Correct` or `Precise`, see above), in particular the position that expat reports
  for other errors than those in `Precise`.
* When memory runs out, as a function of the input: in `Model/Faults` it is a fault at any moment. The
  recursion limit is in `Model/Stack`, with the standard library as a constant.
* Exceptions derived from `Exception` that appear between two operations without a call in between, at the
  level of the source text (C90 to C92, C94 to C97 have interrupts at any operation, C85 has any exception at any call; C68
  has faults at any moment, on the hand-written model).
* Elements of other classes than `GenericMathMLElement` made by hand, and cyclic ones.
* `ErrorHandler.error_locator`, which the package never uses, and abstract base classes.

## Trusted base

* Lean's kernel. No `native_decide`, no `bv_decide`, no axioms of our own, no `sorry`.
* `tools/gen_source.py` and `tools/gen_tables.py`, which transcribe the source. `tools/check_source.py`
  checks the transcription the other way round: Lean prints the trees and tables as Python text, Python
  reads it, and the trees of all 234 classes, methods, functions and tables are those of the files in /repo.
* The interpreter in
  `Source/Semantics.lean` with `Source/Pattern.lean`, which says what the transcribed trees mean. The
  hand-written model of sequential calls need not be trusted: C79. (One table of global names serves for all modules; the
  generator checks that each module sees the names it uses and that no local variable hides one.)
  `tools/conform/check_interpreter.py` compares it with CPython 3.11 on programs that are not from /repo:
  those of `tools/conform/fixed.py`, random programs of the fragment and random patterns, and all
  characters for white space, `re.escape` and `re.IGNORECASE`; where the interpreter gives a meaning
  (about 99 % of the runs) it is CPython's. (It found that an upper-case letter in a class did not match
  all its variants with `re.IGNORECASE`; the source has no such class.) Known differences that the source
  does not reach: a static method is found before an attribute of an instance with the same name, and
  `args` of an exception is the message, not a tuple. `bool(d)`, `k in d` and `d[k]` have a meaning only
  if what is looked at in the dictionary is a string; the dictionaries that the source reads in this way are those of
  attributes.
* The faithfulness of the hand-written variants of the model for threads, stack, faults, pattern
  matching steps and surrogates (every definition cites file and lines); they are proved to agree with
  the sequential model where both apply.
* The reading of the specifications in `Verif/Spec`.
* For C89: what counts as an activation is a call of a function or method of the package. Frames of the
  library (the parser, `re`), of comprehensions before Python 3.12, and of the program that calls are
  not counted; the variant with these is C67, on the hand-written model.
* For C53 and C54: the atomicity of single dictionary operations. For C83, C90 to C92, C94 to C97: the atomicity of a single
  access to an object or call of a library function (`Source/Steps.lean` lists them); sequential
  consistency, as under the global interpreter lock.

Axioms by property theorem (output of `tools/axioms.lean.txt`, run with `lake env lean`):

* `[Classical.choice, Quot.sound, propext]` (391): C01_code_points, C01_output_normal, C02_line_breaks_irrelevant, C03_word_prefix_transparent, C04_convert, C04_document_order, C04_no_math, C05_accepted_independent, C05_accepted_never_repaired, C06_exhaustive, C06_first_success, C06_last_error, C06_only_consulted, C06_repair_fails, C07_first_attempt, C07_other_exceptions_propagate, C08_repair_only_deletes, C09_damages_markup, C09_effect_unique, C09_invalid_token_repair, C100_convert, C100_document, C100_element, C100_elsewhere, C10_effect_unique, C10_generic_repair, C10_truncates_markup, C11_convert, C11_success_iff, C12_convert, C12_first_violation, C12_message, C13_convert, C13_document, C13_element, C14_adapter_reuse, C14_history_independent, C15_converter, C15_create, C15_inner_table_changes, C15_root, C16_hidden_math, C16_hidden_table, C16_phantom, C17_hidden_math, C17_hidden_table, C17_number, C17_toggle, C17_unselected, C17_unselected_removed, C18_attributes, C19_needs_children, C19_prolog, C19_surroundings, C20_comment_leaks, C20_cut, C20_first_child, C21_self_named, C22_any_whitespace, C22_words_only, C23_alnum_verbatim, C23_mi, C24_not_twice, C24_single_lookup, C25_empty_entry_passes, C25_never_erased, C26_mtext_keeps_text, C27_layout, C27_surplus, C28_default_brackets, C28_environment, C28_one_sided, C29_row, C29_table, C29_visible_tables, C30_wrapper, C33_grouping, C33_not_in_base, C33_single, C34_mprescripts, C34_unknown, C35_element, C35_in_order, C35_nothing_lost, C35_only_up_to_whitespace, C35_tokens, C36_element, C36_linear, C36_nesting, C36_not_linear, C37_convert, C37_deterministic, C37_document, C37_element, C38_bevelled, C38_plain, C39_exact, C40_backslash, C40_longer_raw, C40_not_always_escaped, C40_single_specials, C42_layout, C42_one_sided, C43_error_containment, C44_nested_math, C44_observable, C45_vanishing_mi, C45_vanishing_mo, C46_accents, C46_base, C46_base_wrong, C46_unsupported, C46_wrong, C47_fonts, C47_small_italic, C47_wrong, C48_ident, C48_oper, C49_percent, C50_numerals, C50_zero_thirds, C51_confused, C51_exact, C51_greek, C52_convert, C52_document, C52_element, C53_can_finish, C53_convert, C54_outside_tables, C54_root, C55_math, C55_text, C55_vocabulary, C55_words, C56_identifier_exceptions, C56_identifiers, C56_operators, C57_identifiers, C57_negation, C57_stroke_kept, C57_wrong, C58_bare_name, C58_end_of_a_name, C58_five_names, C58_four_names, C58_inside_a_value, C58_not_five, C58_up_to_four, C59_checked, C59_convert, C59_document, C59_element, C59_phrase, C59_run_together, C59_several, C60_computed, C60_convert, C60_default_fences_brackets, C60_document, C60_element, C60_meaning_unique, C60_no_confusion, C60_phrase, C60_prescripts, C60_several, C60_square_of_row_lost, C60_subscript_lands_last, C60_superscript_lands_last, C61_convert, C61_correct_parser_exists, C61_read, C61_spelling, C61_unique, C61_written, C62_layout, C62_line_break_in_doctype, C62_line_break_in_tag, C62_line_break_in_text, C62_mml_in_text, C62_prefixed, C62_same_tree, C63_bound, C63_finished, C63_pairs, C63_quadratic, C63_rejected, C63_render, C64_ascii, C64_ascii_not_enough, C64_document, C64_element, C65_annotated, C65_normal_form, C65_rows, C65_semantics, C66_compositional, C66_conditions_needed, C67_nothing_else, C67_recursion_limit, C67_shallow, C67_too_deep, C68_accepted, C68_faults, C68_history, C68_interrupts, C68_no_wrong_result, C68_only_interrupts, C68_unharmed, C69_bound, C69_cubic, C69_cubic_needed, C69_linear, C69_nesting, C69_rejected, C70_at_the_end, C70_before_another, C70_blank_before_end, C70_blank_not_repaired, C70_empty_not_repaired, C70_empty_rejected, C70_empty_tag, C70_five_names, C70_neighbour, C70_one, C70_parser_exists, C70_single, C70_without_it, C71_anything, C71_never, C71_range, C72_accepted, C72_attained, C72_bound, C72_cubic, C73_beginning, C73_junk_removed, C73_misleading, C73_only_junk, C73_parser_exists, C73_rejected, C74_same_text, C74_some_rest, C74_some_text, C75_every_string, C75_without, C76_converter, C76_document, C76_only_the_tree, C77_as_without, C77_nothing_to_replace, C77_parser_exists, C77_power, C77_power_amp, C77_vanish, C77_whatever, C78_convert, C78_outside_tables, C78_root, C78_unharmed, C98_convert, C98_document, C98_element, C98_length, C98_only_ascii, C98_raises, C99_convert, C99_document, C99_limits, C99_row_of_one, C99_way_back, C74_source_alone, C74_source_mixed, C74_source_prefix, C79_raised, C79_raises, C79_readme, C79_returns, C79_static, C80_ends_well, C80_fuel, C81_history, C81_progress, C81_session, C82_reachable, C82_untouched, C83_apart, C83_bound, C83_can_finish, C83_others_untouched, C83_progress, C83_raises, C83_returns, C83_steps, C84_attributes, C84_create, C84_document, C84_ends, C84_first, C84_leaves, C84_root, C85_high_limit, C85_low_limit, C85_never_another_error, C85_never_wrong, C85_program, C85_same_or_stopped, C85_untouched, C86_create, C86_document, C86_root, C86_untouched, C87_apart, C87_convert, C87_create, C87_make, C87_read, C87_read_untouched, C87_together, C88_always, C88_character, C88_glyph, C88_identifier, C88_join, C88_normalizer, C88_operator, C88_repair, C88_void, C88_wrappers, C89_recursion_limit, C89_shallow, C89_too_deep, C89_unreadable, C93_converter, C93_element, C93_held, C93_marked, C93_table, Live.C90_available, Live.C90_calls, Live.C90_can_finish, Live.C90_operations, Live.C90_others_untouched, Live.C90_outcome, Writes.C91_call, Writes.C91_changes, Writes.C91_dictionaries, Writes.C91_elements, Writes.C91_instances, Writes.C91_lists, Writes.C91_trees, Writes.C92_convert, Writes.C92_convert_leaves, Writes.C92_document, Writes.C92_not_stuck, Writes.C92_objects, Writes.C92_operations, Writes.C92_raises, Writes.C92_render_leaves, Writes.C92_returns, Writes.C92_root, Writes.C92_use_leaves, Writes.Marking.C94_blurred, Writes.Marking.C94_convert, Writes.Marking.C94_document, Writes.Marking.C94_element, Writes.Marking.C94_inner_table_depends, Writes.Marking.C94_leaves, Writes.Marking.C94_not_stuck, Writes.Marking.C94_objects, Writes.Marking.C94_only_marks, Writes.Marking.C94_operations, Writes.Marking.C94_raises, Writes.Marking.C94_returns, Writes.Marking.C94_use, Writes.Marking.C95_create, Writes.Marking.C95_document, Writes.Marking.C95_element, Writes.Marking.C95_make, Writes.Marking.C95_render, Writes.Marking.C96_anew, Writes.Marking.C97_again, Writes.Marking.C97_convert, Writes.Marking.C97_element, Writes.Marking.C97_handed, Writes.Marking.C97_made, Writes.Marking.C97_making, Writes.Marking.C97_not_stuck, Writes.Marking.C97_objects, Writes.Marking.C97_others, Writes.Marking.C97_render
* `[Quot.sound, propext]` (39): C06_one_text_per_attempt, C09_word_unique, C12_order, C26_pieces_unique, C30_compound, C30_simple, C31_first_six, C31_further_dropped, C31_layout, C32_command, C32_set, C34_empty, C39_accents, C39_braces_not_nested, C39_no_control, C39_no_duplicates, C39_space_unreachable, C39_values_nested, C41_distinct, C41_mn, C48_mirrored, C49_rho, C50_operators, C56_operator_exceptions, C57_unnamed, C58_neighbour_lost, C58_one, C59_conditions_needed, C59_rough_characters, C59_rough_notations, C60_formula_reads, C60_reading_unique, C63_linear, C64_exceptions, C65_presentation_twice, C72_same, C74_ends, C75_lone, Writes.Marking.C94_plain
* `[propext]` (24): C100_tables_matter, C13_conditions_needed, C18_recognised, C27_blank_counts, C27_separators, C33_empty_row, C39_backspace, C52_conditions_needed, C52_unknown_written, C53_progress, C53_terminates, C54_inner_table_depends_on_schedule, C58_blank_before_end, C60_apart, C65_only_at_the_top, C68_attempt_lost, C68_calls, C68_swallowed, C74_alone, C74_other_text, C74_prefix_lost, C76_shared_dictionary, C78_left_behind, C87_together_raised
* `[]` (1): C76_flat
