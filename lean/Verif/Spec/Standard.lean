import Verif.Spec.Symbols

/-! # Names of symbols in LaTeX, negated relations -/

namespace Verif.Spec

set_option maxRecDepth 100000 in
/-- The names of operators, relations, arrows and other symbols in plain TeX, LaTeX and the
packages of the AMS. -/
def standardCommands : List (Char × Str) :=
  [('−', c!"-"), ('±', c!"\\pm"), ('∓', c!"\\mp"), ('×', c!"\\times"), ('÷', c!"\\div"),
   ('∗', c!"\\ast"), ('⋆', c!"\\star"), ('∘', c!"\\circ"), ('∙', c!"\\bullet"),
   ('⋅', c!"\\cdot"), ('∩', c!"\\cap"), ('∪', c!"\\cup"), ('⊎', c!"\\uplus"), ('⊓', c!"\\sqcap"),
   ('⊔', c!"\\sqcup"), ('∨', c!"\\vee"), ('∧', c!"\\wedge"), ('∖', c!"\\setminus"),
   ('≀', c!"\\wr"), ('⋄', c!"\\diamond"), ('⊕', c!"\\oplus"), ('⊖', c!"\\ominus"),
   ('⊗', c!"\\otimes"), ('⊘', c!"\\oslash"), ('⊙', c!"\\odot"), ('†', c!"\\dagger"),
   ('‡', c!"\\ddagger"), ('⨿', c!"\\amalg"), ('≤', c!"\\leq"), ('≥', c!"\\geq"),
   ('≡', c!"\\equiv"), ('⊨', c!"\\models"), ('≺', c!"\\prec"), ('≻', c!"\\succ"),
   ('∼', c!"\\sim"), ('⟂', c!"\\perp"), ('⪯', c!"\\preceq"), ('⪰', c!"\\succeq"),
   ('≃', c!"\\simeq"), ('∣', c!"\\mid"), ('≪', c!"\\ll"), ('≫', c!"\\gg"), ('≍', c!"\\asymp"),
   ('∥', c!"\\parallel"), ('⊂', c!"\\subset"), ('⊃', c!"\\supset"), ('≈', c!"\\approx"),
   ('⋈', c!"\\bowtie"), ('⊆', c!"\\subseteq"), ('⊇', c!"\\supseteq"), ('≅', c!"\\cong"),
   ('⊏', c!"\\sqsubset"), ('⊐', c!"\\sqsupset"), ('≠', c!"\\neq"), ('⌣', c!"\\smile"),
   ('⊑', c!"\\sqsubseteq"), ('⊒', c!"\\sqsupseteq"), ('≐', c!"\\doteq"), ('⌢', c!"\\frown"),
   ('∈', c!"\\in"), ('∋', c!"\\ni"), ('∝', c!"\\propto"), ('⊢', c!"\\vdash"), ('⊣', c!"\\dashv"),
   ('←', c!"\\leftarrow"), ('⇐', c!"\\Leftarrow"), ('→', c!"\\rightarrow"),
   ('⇒', c!"\\Rightarrow"), ('↔', c!"\\leftrightarrow"), ('⇔', c!"\\Leftrightarrow"),
   ('↦', c!"\\mapsto"), ('↩', c!"\\hookleftarrow"), ('↪', c!"\\hookrightarrow"),
   ('↼', c!"\\leftharpoonup"), ('↽', c!"\\leftharpoondown"), ('⇀', c!"\\rightharpoonup"),
   ('⇁', c!"\\rightharpoondown"), ('⇌', c!"\\rightleftharpoons"), ('⟵', c!"\\longleftarrow"),
   ('⟸', c!"\\Longleftarrow"), ('⟶', c!"\\longrightarrow"), ('⟹', c!"\\Longrightarrow"),
   ('⟷', c!"\\longleftrightarrow"), ('⟺', c!"\\Longleftrightarrow"), ('⟼', c!"\\longmapsto"),
   ('↑', c!"\\uparrow"), ('⇑', c!"\\Uparrow"), ('↓', c!"\\downarrow"), ('⇓', c!"\\Downarrow"),
   ('↕', c!"\\updownarrow"), ('⇕', c!"\\Updownarrow"), ('↗', c!"\\nearrow"),
   ('↘', c!"\\searrow"), ('↙', c!"\\swarrow"), ('↖', c!"\\nwarrow"), ('ℵ', c!"\\aleph"),
   ('ℏ', c!"\\hbar"), ('ı', c!"\\imath"), ('ȷ', c!"\\jmath"), ('ℓ', c!"\\ell"), ('℘', c!"\\wp"),
   ('ℜ', c!"\\Re"), ('ℑ', c!"\\Im"), ('′', c!"\\prime"), ('∅', c!"\\emptyset"),
   ('∇', c!"\\nabla"), ('√', c!"\\surd"), ('⊤', c!"\\top"), ('⊥', c!"\\bot"), ('∠', c!"\\angle"),
   ('∀', c!"\\forall"), ('∃', c!"\\exists"), ('¬', c!"\\neg"), ('♭', c!"\\flat"),
   ('♮', c!"\\natural"), ('♯', c!"\\sharp"), ('∂', c!"\\partial"), ('∞', c!"\\infty"),
   ('♣', c!"\\clubsuit"), ('♢', c!"\\diamondsuit"), ('♡', c!"\\heartsuit"),
   ('♠', c!"\\spadesuit"), ('△', c!"\\triangle"), ('∑', c!"\\sum"), ('∏', c!"\\prod"),
   ('∐', c!"\\coprod"), ('∫', c!"\\int"), ('∮', c!"\\oint"), ('⋂', c!"\\bigcap"),
   ('⋃', c!"\\bigcup"), ('⨆', c!"\\bigsqcup"), ('⋁', c!"\\bigvee"), ('⋀', c!"\\bigwedge"),
   ('⨀', c!"\\bigodot"), ('⨂', c!"\\bigotimes"), ('⨁', c!"\\bigoplus"), ('⨄', c!"\\biguplus"),
   ('∬', c!"\\iint"), ('∭', c!"\\iiint"), ('⌊', c!"\\lfloor"), ('⌋', c!"\\rfloor"),
   ('⌈', c!"\\lceil"), ('⌉', c!"\\rceil"), ('⟨', c!"\\langle"), ('⟩', c!"\\rangle"),
   ('‖', c!"\\|"), ('…', c!"\\ldots"), ('⋯', c!"\\cdots"), ('⋮', c!"\\vdots"),
   ('⋱', c!"\\ddots"), ('∴', c!"\\therefore"), ('∵', c!"\\because"), ('∄', c!"\\nexists"),
   ('∉', c!"\\notin"), ('∁', c!"\\complement"), ('∡', c!"\\measuredangle"),
   ('∢', c!"\\sphericalangle"), ('ℷ', c!"\\gimel"), ('ℸ', c!"\\daleth"), ('ℶ', c!"\\beth"),
   ('ð', c!"\\eth"), ('⊞', c!"\\boxplus"), ('⊟', c!"\\boxminus"), ('⊠', c!"\\boxtimes"),
   ('⊡', c!"\\boxdot"), ('⊺', c!"\\intercal"), ('⊻', c!"\\veebar"), ('⊼', c!"\\barwedge"),
   ('⋉', c!"\\ltimes"), ('⋊', c!"\\rtimes"), ('⋋', c!"\\leftthreetimes"),
   ('⋌', c!"\\rightthreetimes"), ('⋎', c!"\\curlyvee"), ('⋏', c!"\\curlywedge"),
   ('⋒', c!"\\Cap"), ('⋓', c!"\\Cup"), ('⊚', c!"\\circledcirc"), ('⊛', c!"\\circledast"),
   ('⊝', c!"\\circleddash"), ('∔', c!"\\dotplus"), ('⋇', c!"\\divideontimes"), ('≦', c!"\\leqq"),
   ('≧', c!"\\geqq"), ('⩽', c!"\\leqslant"), ('⩾', c!"\\geqslant"), ('⪕', c!"\\eqslantless"),
   ('⪖', c!"\\eqslantgtr"), ('≲', c!"\\lesssim"), ('≳', c!"\\gtrsim"), ('⪅', c!"\\lessapprox"),
   ('⪆', c!"\\gtrapprox"), ('≊', c!"\\approxeq"), ('⋖', c!"\\lessdot"), ('⋗', c!"\\gtrdot"),
   ('⋘', c!"\\lll"), ('⋙', c!"\\ggg"), ('≶', c!"\\lessgtr"), ('≷', c!"\\gtrless"),
   ('⋚', c!"\\lesseqgtr"), ('⋛', c!"\\gtreqless"), ('≑', c!"\\doteqdot"),
   ('≓', c!"\\risingdotseq"), ('≒', c!"\\fallingdotseq"), ('∽', c!"\\backsim"),
   ('⋍', c!"\\backsimeq"), ('⫅', c!"\\subseteqq"), ('⫆', c!"\\supseteqq"), ('⋐', c!"\\Subset"),
   ('⋑', c!"\\Supset"), ('≼', c!"\\preccurlyeq"), ('≽', c!"\\succcurlyeq"),
   ('⋞', c!"\\curlyeqprec"), ('⋟', c!"\\curlyeqsucc"), ('≾', c!"\\precsim"),
   ('≿', c!"\\succsim"), ('⊲', c!"\\vartriangleleft"), ('⊳', c!"\\vartriangleright"),
   ('⊴', c!"\\trianglelefteq"), ('⊵', c!"\\trianglerighteq"), ('⊩', c!"\\Vdash"),
   ('⊪', c!"\\Vvdash"), ('≏', c!"\\bumpeq"), ('≎', c!"\\Bumpeq"), ('≬', c!"\\between"),
   ('⋔', c!"\\pitchfork"), ('≖', c!"\\eqcirc"), ('≗', c!"\\circeq"), ('≜', c!"\\triangleq"),
   ('∤', c!"\\nmid"), ('∦', c!"\\nparallel"), ('≁', c!"\\nsim"), ('≇', c!"\\ncong"),
   ('≮', c!"\\nless"), ('≯', c!"\\ngtr"), ('≰', c!"\\nleq"), ('≱', c!"\\ngeq"),
   ('⊀', c!"\\nprec"), ('⊁', c!"\\nsucc"), ('⊈', c!"\\nsubseteq"), ('⊉', c!"\\nsupseteq"),
   ('⊊', c!"\\subsetneq"), ('⊋', c!"\\supsetneq"), ('⊬', c!"\\nvdash"), ('⊭', c!"\\nvDash"),
   ('⊮', c!"\\nVdash"), ('⊯', c!"\\nVDash"), ('⋪', c!"\\ntriangleleft"),
   ('⋫', c!"\\ntriangleright"), ('⋬', c!"\\ntrianglelefteq"), ('⋭', c!"\\ntrianglerighteq"),
   ('≨', c!"\\lneqq"), ('≩', c!"\\gneqq"), ('⪇', c!"\\lneq"), ('⪈', c!"\\gneq"),
   ('⋦', c!"\\lnsim"), ('⋧', c!"\\gnsim"), ('⋨', c!"\\precnsim"), ('⋩', c!"\\succnsim"),
   ('↚', c!"\\nleftarrow"), ('↛', c!"\\nrightarrow"), ('⇍', c!"\\nLeftarrow"),
   ('⇏', c!"\\nRightarrow"), ('↮', c!"\\nleftrightarrow"), ('⇎', c!"\\nLeftrightarrow"),
   ('⇚', c!"\\Lleftarrow"), ('⇛', c!"\\Rrightarrow"), ('↞', c!"\\twoheadleftarrow"),
   ('↠', c!"\\twoheadrightarrow"), ('↢', c!"\\leftarrowtail"), ('↣', c!"\\rightarrowtail"),
   ('⇆', c!"\\leftrightarrows"), ('⇄', c!"\\rightleftarrows"), ('⇇', c!"\\leftleftarrows"),
   ('⇉', c!"\\rightrightarrows"), ('⇈', c!"\\upuparrows"), ('⇊', c!"\\downdownarrows"),
   ('⇋', c!"\\leftrightharpoons"), ('↶', c!"\\curvearrowleft"), ('↷', c!"\\curvearrowright"),
   ('↺', c!"\\circlearrowleft"), ('↻', c!"\\circlearrowright"), ('↰', c!"\\Lsh"),
   ('↱', c!"\\Rsh"), ('↫', c!"\\looparrowleft"), ('↬', c!"\\looparrowright"),
   ('↿', c!"\\upharpoonleft"), ('↾', c!"\\upharpoonright"), ('⇃', c!"\\downharpoonleft"),
   ('⇂', c!"\\downharpoonright"), ('↭', c!"\\leftrightsquigarrow"), ('⇝', c!"\\rightsquigarrow"),
   ('⊸', c!"\\multimap")]

/-- Symbols of that list that `mo` leaves as they are. -/
def unnamedOperators : Str :=
  c!"≀⟂⌣⌢ℵıℓ℘♭♮♣♢♡♠ℷℸℶð⋌⪕⪖⊴≏≎≬↚↮"

set_option maxRecDepth 100000 in
/-- Symbols of that list for which `mo` writes something else: other names of the same symbol
(`\land`), replacements of a similar shape (`\leq` for `≦`), and mistakes (`\preceq` for `⊀`). -/
def renamedOperators : List (Char × Str) :=
  [('∓', c!"+-"), ('∗', c!"*"), ('∙', c!"\\cdot"), ('⊎', c!"\\cup"), ('∨', c!"\\lor"),
   ('∧', c!"\\land"), ('∖', c!"\\backslash"), ('⊗', c!"\\bigotimes"), ('⊙', c!"\\bigodot"),
   ('⨿', c!"\\coprod"), ('⊨', c!"\\vDash"), ('∼', c!"sim"), ('⋈', c!"\\Join"),
   ('↦', c!"\\rightarrowtail"), ('⟵', c!"\\leftarrow"), ('⟶', c!"\\rightarrow"),
   ('⟷', c!"\\leftrightarrow"), ('⟼', c!"\\mapsto"), ('ȷ', c!"\\mathsf{J}"),
   ('ℜ', c!"\\mathfrak{R}"), ('ℑ', c!"\\mathfrak{I}"), ('′', c!"'"), ('√', c!"\\sqrt{}"),
   ('♯', c!"\\#"), ('⋂', c!"\\cap"), ('⋃', c!"\\cup"), ('⨆', c!"\\sqcup"), ('⋁', c!"\\vee"),
   ('⋀', c!"\\wedge"), ('⨀', c!"\\odot"), ('⨂', c!"\\otimes"), ('⨁', c!"\\oplus"),
   ('⨄', c!"\\uplus"), ('‖', c!"\\parallel"), ('⋯', c!"\\hdots"), ('∴', c!"\\therefore "),
   ('∁', c!"C"), ('∢', c!"\\measuredangle"), ('⊺', c!"\\top"), ('⊻', c!"\\underline{\\lor}"),
   ('⊼', c!"\\overline{\\land}"), ('⋉', c!"\\rtimes"), ('⋊', c!"\\ltimes"), ('⋋', c!"\\bowtie"),
   ('⋎', c!"\\vee"), ('⋏', c!"\\wedge"), ('⋒', c!"\\cap"), ('⋓', c!"\\cup"), ('⊚', c!"\\odot"),
   ('⊛', c!"\\odot"), ('⊝', c!"\\ominus"), ('∔', c!"\\dot{+}"), ('⋇', c!"\\ast"),
   ('≦', c!"\\leq"), ('≧', c!"\\geg"), ('⩽', c!"\\leq"), ('⩾', c!"\\geq"), ('≲', c!"\\leq"),
   ('≳', c!"\\geg"), ('⪅', c!"\\underset{\\approx}{<}"), ('⪆', c!"\\underset{\\approx}{>}"),
   ('≊', c!"\\approx"), ('⋖', c!"<*"), ('⋗', c!"*>"), ('≶', c!"\\overset{<}{>}"),
   ('≷', c!"\\overset{>}{<}"), ('⋚', c!"\\underset{<}{\\geq}"), ('⋛', c!"\\underset{>}{\\leq}"),
   ('≑', c!"\\doteq"), ('≓', c!"\\doteq"), ('≒', c!"\\doteq"), ('∽', c!"\\sim"),
   ('⋍', c!"\\simeq"), ('⋐', c!"\\subset"), ('⋑', c!"\\supset"), ('≼', c!"\\preceq"),
   ('≽', c!"\\succeq"), ('⋞', c!"\\prec"), ('⋟', c!"\\succ"), ('⊲', c!"\\triangleleft"),
   ('⊳', c!"\\triangleright"), ('⊵', c!"\\triangleright"), ('⊪', c!"|\\models"), ('≖', c!"="),
   ('≗', c!"\\doteq"), ('∤', c!"\\not|"), ('∦', c!"\\not\\parallel"), ('≁', c!"\\not\\sim"),
   ('≮', c!"</"), ('≯', c!">/"), ('≰', c!"\\leq/"), ('≱', c!"\\geq/"), ('⊀', c!"\\preceq"),
   ('⊬', c!"\\nvDash"), ('⊮', c!"\\cancel{\\Vdash}"), ('⊯', c!"\\cancel{\\vDash}"),
   ('⋪', c!"\\not\\triangleleft"), ('⋫', c!"\\not\\triangleright"),
   ('⋬', c!"\\not\\triangleleft"), ('⋭', c!"\\not\\triangleright"), ('≨', c!"\\nleqslant"),
   ('≩', c!"\\ngeqslant"), ('⪇', c!"\\nleqslant"), ('⪈', c!"\\ngeqslant"),
   ('⋦', c!"\\underset{\\not\\sim}{<}"), ('⋧', c!"\\underset{\\not\\sim}{>}"),
   ('⋨', c!"\\underset{\\sim}{\\prec}"), ('⋩', c!"\\underset{\\sim}{\\succ}"),
   ('⊸', c!"\\rightarrow")]

/-- Symbols of that list that `mi` knows by their name. -/
def namedIdentifiers : Str :=
  c!"±×÷⋆⋅∩∪∨∧⋄†‡≤∣∥≈⋈≠⌢←→⇒↔↑↓ℵℏı℘∅∇⊤∠∀∃¬∂∞△∑∏∫∮⌊⌋⌈⌉⟨⟩…⋮⋱∴∵⋉⋊↛"

/-- Symbols of that list for which `mi` writes something else. -/
def renamedIdentifiers : List (Char × Str) :=
  [('∗', c!"\\star"), ('∘', c!"@"), ('∙', c!"\\cdot"), ('⊕', c!"o+"), ('⊗', c!"\\bigoplus"),
   ('⊙', c!"\\bigodot"), ('⇔', c!"\\iff"), ('ȷ', c!"\\mathsf{J}"), ('ℜ', c!"\\mathfrak{R}"),
   ('ℑ', c!"\\mathfrak{I}"), ('√', c!"\\sqrt{}"), ('⋂', c!"\\cap"), ('⋃', c!"\\cup"),
   ('⋁', c!"\\vee"), ('⋀', c!"\\wedge"), ('‖', c!"\\parallel"), ('∡', c!"\\angle"),
   ('ℸ', c!"\\wp")]

/-- The relations with a stroke: those that decompose canonically into a relation and the combining
long solidus U+0338. -/
def strokes : List (Char × Char) :=
  [('↚', '←'), ('↛', '→'), ('↮', '↔'), ('⇍', '⇐'), ('⇎', '⇔'), ('⇏', '⇒'), ('∄', '∃'),
   ('∉', '∈'), ('∌', '∋'), ('∤', '∣'), ('∦', '∥'), ('≁', '∼'), ('≄', '≃'), ('≇', '≅'),
   ('≉', '≈'), ('≠', '='), ('≢', '≡'), ('≭', '≍'), ('≮', '<'), ('≯', '>'), ('≰', '≤'),
   ('≱', '≥'), ('≴', '≲'), ('≵', '≳'), ('≸', '≶'), ('≹', '≷'), ('⊀', '≺'), ('⊁', '≻'),
   ('⊄', '⊂'), ('⊅', '⊃'), ('⊈', '⊆'), ('⊉', '⊇'), ('⊬', '⊢'), ('⊭', '⊨'), ('⊮', '⊩'),
   ('⊯', '⊫'), ('⋠', '≼'), ('⋡', '≽'), ('⋢', '⊑'), ('⋣', '⊒'), ('⋪', '⊲'), ('⋫', '⊳'),
   ('⋬', '⊴'), ('⋭', '⊵'), (Char.ofNat 0x2ADC, '⫝')]

/-- How `mo` can write the negation of a relation that it writes as `r`. -/
def negations (r : Str) : List Str :=
  [c!"\\not" ++ r, r ++ c!"/", r ++ c!" /", c!"\\cancel{" ++ r ++ c!"}", c!"\\n" ++ r.drop 1,
   c!"\\not" ++ r.drop 1]

/-- Relations with a stroke that `mo` leaves as they are. -/
def unnamedStrokes : List Nat := [0x219A, 0x21AE, 0x2ADC]

/-- Relations with a stroke for which `mo` writes something that is neither the negation of what it
writes for the relation nor the standard name. -/
def oddStrokes : Str := c!"∌∤≁≭≸⊀⊬⊯⋠⋡⋬"

end Verif.Spec
