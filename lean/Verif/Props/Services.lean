import Verif.Props.Reader
import Verif.Props.Text

/-!
# The small classes on their own, at the level of the source text (C88)

The package consists of small classes that a program can also import and use for itself.
Each of the programs below makes an object and calls its method.
-/

namespace Verif.Src
open Spec

attribute [local irreducible] vowelsWithAccents accentToLtxCmd specialFontChars allMathSymbolsByChar
  allMathSymbolsByGlyph mathNumberByGlyph allMathOperatorsByChar allMathOperatorsByGlyph

/-- The program returns the value, and objects may have been made, but none was changed. -/
def Returns (env : Env) (f : Func) (args : List Val) (S : Store) (v : Val) : Prop :=
  ∃ L, Gives env f args S (.ok v (S ++ L))

theorem Returns.of_yields {env : Env} {f : Func} {args : List Val} {S : Store} {v : Val}
    (h : Yields 15 env f args S v) : Returns env f args S v := by
  obtain ⟨_, ⟨L, rfl⟩, hk⟩ := h
  exact ⟨L, 15, hk⟩

theorem Returns.unique {env : Env} {f : Func} {args : List Val} {S : Store} {v v' : Val}
    (h : Returns env f args S v) (h' : Returns env f args S v') : v = v' := by
  obtain ⟨L, h⟩ := h
  obtain ⟨L', h'⟩ := h'
  have := h.unique h'
  simp only [Res.ok.injEq] at this
  exact this.1

variable (env : Env) (S : Store)

/-! ## Texts -/

/-- `def f(string): return WhiteSpaceNormalizer().normalize(string)` -/
def normalizeCode : Func :=
  ⟨[(.string, none)],
   [.ret (.call (.attr (.call (.name .WhiteSpaceNormalizer) [] [] []) .normalize) [.name .string] [] [])]⟩

/-- **C88** The normalizer returns the words with single blanks between them. -/
theorem C88_normalizer (s t : Str) (h : Tidied s t) : Returns env normalizeCode [.str s] S (.str t) := by
  refine .of_yields ?_
  rw [← normalize_iff] at h
  subst h
  unfold Yields
  fuel 3
  sym [normalizeCode] [run_normalize]
  created

/-- `def f(char): return HashUTF8ToLtXConverter().convert(char)` -/
def glyphCode : Func :=
  ⟨[(.«char», none)],
   [.ret (.call (.attr (.call (.name .HashUTF8ToLtXConverter) [] [] []) .convert) [.name .«char»] [] [])]⟩

/-- **C88** The converter of characters takes accented vowels and letters in a special font apart,
and leaves everything else. -/
theorem C88_glyph (k s : Str) (h : Glyph k s) : Returns env glyphCode [.str k] S (.str s) := by
  refine .of_yields ?_
  rw [glyph_iff] at h
  subst h
  unfold Yields
  fuel 3
  sym [glyphCode] [run_hash]
  created

/-- `def f(value): return Character.apply(value)` -/
def characterCode : Func :=
  ⟨[(.value, none)], [.ret (.call (.attr (.name .Character) .apply) [.name .value] [] [])]⟩

/-- **C88** `Character.apply` gives the symbol of an identifier. -/
theorem C88_character (k s : Str) (h : MiSymbol k s) : Returns env characterCode [.str k] S (.str s) := by
  refine .of_yields ?_
  rw [miSymbol_iff] at h
  subst h
  unfold Yields
  fuel 13
  sym [characterCode] []
  step hc run_character
  sym [characterCode] [hc]
  created

/-- `def f(value): return Operator.operate(value)` -/
def operatorCode : Func :=
  ⟨[(.value, none)], [.ret (.call (.attr (.name .Operator) .operate) [.name .value] [] [])]⟩

/-- **C88** `Operator.operate` gives the symbol of an operator. -/
theorem C88_operator (k s : Str) (h : MoSymbol k s) : Returns env operatorCode [.str k] S (.str s) := by
  refine .of_yields ?_
  rw [moSymbol_iff] at h
  subst h
  unfold Yields
  fuel 13
  sym [operatorCode] []
  step hc run_operator
  sym [operatorCode] [hc]
  created

/-- **C88** Every text has a result, and only one. -/
theorem C88_always (s : Str) :
    (∃ t, Tidied s t ∧ ∀ v, Returns env normalizeCode [.str s] S v ↔ v = .str t) ∧
    (∃ t, Glyph s t ∧ ∀ v, Returns env glyphCode [.str s] S v ↔ v = .str t) ∧
    (∃ t, MiSymbol s t ∧ ∀ v, Returns env characterCode [.str s] S v ↔ v = .str t) ∧
    (∃ t, MoSymbol s t ∧ ∀ v, Returns env operatorCode [.str s] S v ↔ v = .str t) := by
  refine ⟨⟨_, (normalize_iff _ _).1 rfl, fun v => ⟨fun h => ?_, ?_⟩⟩, ⟨_, (glyph_iff _ _).2 rfl, fun v => ⟨fun h => ?_, ?_⟩⟩,
    ⟨_, (miSymbol_iff _ _).2 rfl, fun v => ⟨fun h => ?_, ?_⟩⟩, ⟨_, (moSymbol_iff _ _).2 rfl, fun v => ⟨fun h => ?_, ?_⟩⟩⟩
  · exact h.unique (C88_normalizer env S _ _ ((normalize_iff _ _).1 rfl))
  · rintro rfl; exact C88_normalizer env S _ _ ((normalize_iff _ _).1 rfl)
  · exact h.unique (C88_glyph env S _ _ ((glyph_iff _ _).2 rfl))
  · rintro rfl; exact C88_glyph env S _ _ ((glyph_iff _ _).2 rfl)
  · exact h.unique (C88_character env S _ _ ((miSymbol_iff _ _).2 rfl))
  · rintro rfl; exact C88_character env S _ _ ((miSymbol_iff _ _).2 rfl)
  · exact h.unique (C88_operator env S _ _ ((moSymbol_iff _ _).2 rfl))
  · rintro rfl; exact C88_operator env S _ _ ((moSymbol_iff _ _).2 rfl)

-- A symbol that the tables know, and one that they do not.
example : Returns env operatorCode [.str c!"≤"] S (.str c!"\\leq") :=
  C88_operator env S _ _ ((moSymbol_iff _ _).2 (by decide +kernel))
example : Returns env characterCode [.str c!"qq"] S (.str c!"qq") :=
  C88_character env S _ _ ((miSymbol_iff _ _).2 (by decide +kernel))
example : Returns env glyphCode [.str c!"é"] S (.str c!"\\acute{e}") :=
  C88_glyph env S _ _ ((glyph_iff _ _).2 (by decide +kernel))
example : Returns env normalizeCode [.str c!" a\n\t b "] S (.str c!"a b") :=
  C88_normalizer env S _ _ ((normalize_iff _ _).1 (by decide +kernel))

/-! ## Wrappers -/

/-- `def f(op, close, val): return Wrapper(op, close).wrap(val)` -/
def wrapCode : Func :=
  ⟨[(.op, none), (.close, none), (.val, none)],
   [.ret (.call (.attr (.call (.name .Wrapper) [.name .op, .name .close] [] []) .wrap) [.name .val] [] [])]⟩

/-- `def f(op, close, val): return GenericWrapper(op, close).wrap(val)` -/
def delimitCode : Func :=
  ⟨[(.op, none), (.close, none), (.val, none)],
   [.ret (.call (.attr (.call (.name .GenericWrapper) [.name .op, .name .close] [] []) .wrap) [.name .val] [] [])]⟩

/-- `def f(val): return BracketWrapper().wrap(val)` -/
def bracketCode : Func :=
  ⟨[(.val, none)], [.ret (.call (.attr (.call (.name .BracketWrapper) [] [] []) .wrap) [.name .val] [] [])]⟩

/-- `def f(val): return ParenthesisWrapper().wrap(val)` -/
def parenCode : Func :=
  ⟨[(.val, none)], [.ret (.call (.attr (.call (.name .ParenthesisWrapper) [] [] []) .wrap) [.name .val] [] [])]⟩

/-- `def f(val): return ParenthesisWrapper().wrap_if_more_than_one_char(val)` -/
def parenIfCode : Func :=
  ⟨[(.val, none)], [.ret (.call (.attr (.call (.name .ParenthesisWrapper) [] [] []) .wrap_if_more_than_one_char)
    [.name .val] [] [])]⟩

/-- **C88** The wrappers put something in front of the text and something behind it; the last one
does so only if the text has two or more characters. -/
theorem C88_wrappers (op close val : Str) :
    Returns env wrapCode [.str op, .str close, .str val] S (.str (op ++ val ++ close)) ∧
    Returns env delimitCode [.str op, .str close, .str val] S
      (.str (c!"\\left" ++ op ++ val ++ c!"\\right" ++ close)) ∧
    Returns env bracketCode [.str val] S (.str (c!"{" ++ val ++ c!"}")) ∧
    Returns env parenCode [.str val] S (.str (c!"\\left(" ++ val ++ c!"\\right)")) ∧
    Returns env parenIfCode [.str val] S
      (.str (if val.length ≤ 1 then val else c!"\\left(" ++ val ++ c!"\\right)")) := by
  refine ⟨.of_yields ?_, .of_yields ?_, .of_yields ?_, .of_yields ?_, .of_yields ?_⟩ <;> unfold Yields <;> fuel 5
  · sym [wrapCode, Wrapper___init__, Wrapper_wrap] []
    created_by simp
  · sym [delimitCode, GenericWrapper___init__, GenericWrapper_wrap, Wrapper___init__, Wrapper_wrap] []
    created_by simp
  · sym [bracketCode, BracketWrapper___init__, Wrapper___init__] [run_bracketWrap]
    created_by simp [bracketWrap, wrap]
  · sym [parenCode, ParenthesisWrapper___init__, Wrapper___init__] [run_parenWrap]
    created_by simp [parenWrap, wrap]
  · sym [parenIfCode, ParenthesisWrapper___init__, Wrapper___init__] [run_parenWrapIf]
    created_by simp [parenWrapIfMoreThanOneChar, parenWrap, wrap]

/-! ## Joining -/

/-- `def f(separators, arr): return JoinWithManySeparators(separators).join(arr)` -/
def joinCode : Func :=
  ⟨[(.separators, none), (.arr, none)],
   [.ret (.call (.attr (.call (.name .JoinWithManySeparators) [.name .separators] [] []) .join) [.name .arr] [] [])]⟩

/-- The separator after the entry number `i`: the last one is used again and again, and a comma
if there is none. -/
def sepAt (seps : List Str) (i : Nat) : Str := seps.getD i (seps.getLastD c!",")

/-- **C88** The joiner puts the separators between the entries, one after the other. -/
theorem C88_join (seps ss : List Str) (a b : Nat) (ha : S[a]? = some (.list (seps.map .str)))
    (hb : S[b]? = some (.list (ss.map .str))) :
    Returns env joinCode [.obj a, .obj b] S (.str (interleave (sepAt seps) ss)) := by
  refine .of_yields ?_
  have e : interleave (sepAt seps) ss = joinManyFrom seps 0 ss := by
    rw [joinManyFrom_eq]
    congr 1
    funext i
    rw [Nat.zero_add]
    unfold sepAt getSeparator
    rw [List.getD_eq_getElem?_getD, List.getLastD_eq_getLast?]
    cases seps[i]? with
    | some s => rfl
    | none => cases seps.getLast? <;> rfl
  rw [e]
  unfold Yields
  fuel 4
  sym [joinCode, JoinWithManySeparators___init__] [ha, hb, run_join]
  created

example : Returns env joinCode [.obj 0, .obj 1]
    [.list [.str c!";", .str c!"|"], .list [.str c!"a", .str c!"b", .str c!"c", .str c!"d"]] (.str c!"a;b|c|d") :=
  C88_join env _ [c!";", c!"|"] [c!"a", c!"b", c!"c", c!"d"] 0 1 rfl rfl
example : Returns env joinCode [.obj 0, .obj 0] [.list []] (.str []) := C88_join env _ [] [] 0 0 rfl rfl

/-! ## Elements -/

/-- `def f(value): return MathMLElementToLatexConverterAdapter().to_latex_converter(MIMathMlElement(value)).convert()` -/
def identifierCode : Func :=
  ⟨[(.value, none)],
   [.ret (.call (.attr (.call (.attr (.call (.name .MathMLElementToLatexConverterAdapter) [] [] []) .to_latex_converter)
     [.call (.name .MIMathMlElement) [.name .value] [] []] [] []) .convert) [] [] [])]⟩

/-- The same with `VoidMathMLElement()`. -/
def voidCode : Func :=
  ⟨[], [.ret (.call (.attr (.call (.attr (.call (.name .MathMLElementToLatexConverterAdapter) [] [] []) .to_latex_converter)
     [.call (.name .VoidMathMLElement) [] [] []] [] []) .convert) [] [] [])]⟩

/-- **C88** The ready-made element for an identifier becomes the symbol of its text. -/
theorem C88_identifier (v t s : Str) (ht : Tidied v t) (hs : MiSymbol t s) :
    Returns env identifierCode [.str v] S (.str s) := by
  refine .of_yields ?_
  rw [← normalize_iff] at ht
  subst ht
  rw [miSymbol_iff] at hs
  have e : s = miConvert v [] := by
    rw [miConvert_eq, ← hs]
    rfl
  rw [e]
  have hg : (Dict.get? (convDict S.length) c!"mi").getD
      (.method (.obj S.length) .MathMLElementToLatexConverterAdapter ._make_generic_spacing_wrapper) = .cls .MI :=
    choice_eq _ _
  unfold Yields
  fuel 13
  sym [identifierCode, MIMathMlElement___init__, MathMLElementToLatexConverterAdapter_to_latex_converter, MIMathMlElement_name, MI___init__] [run_table, hg]
  step hc run_miChar
  sym [identifierCode, MIMathMlElement___init__, MathMLElementToLatexConverterAdapter_to_latex_converter, MIMathMlElement_name, MI___init__] [run_table, hg, hc]
  created

example : Returns env identifierCode [.str c!" α "] S (.str c!"\\alpha") :=
  C88_identifier env S _ _ _ ((normalize_iff _ _).1 rfl) ((miSymbol_iff _ _).2 (by decide +kernel))

/-- **C88** The void element becomes the empty text. -/
theorem C88_void : Returns env voidCode [] S (.str []) := by
  refine .of_yields ?_
  have hg : (Dict.get? (convDict S.length) c!"void").getD
      (.method (.obj S.length) .MathMLElementToLatexConverterAdapter ._make_generic_spacing_wrapper) =
      .method (.obj S.length) .MathMLElementToLatexConverterAdapter ._make_generic_spacing_wrapper :=
    choice_eq _ _
  unfold Yields
  fuel 6
  sym [voidCode, MathMLElementToLatexConverterAdapter_to_latex_converter, VoidMathMLElement_name, MathMLElementToLatexConverterAdapter__make_generic_spacing_wrapper, GenericSpacingWrapper___init__, GenericSpacingWrapper_convert, VoidMathMLElement_children] [run_table, hg]
  created

/-! ## Repair -/

/-- `def f(xml, error): return ErrorHandler().fix_error(xml, error)` -/
def repairCode : Func :=
  ⟨[(.xml, none), (.error, none)],
   [.ret (.call (.attr (.call (.name .ErrorHandler) [] [] []) .fix_error) [.name .xml, .name .error] [] [])]⟩

/-- **C88** The handler of errors repairs a text of one line, or fails with an `IndexError`. -/
theorem C88_repair (x : Str) (hx : '\n' ∉ x) (e : ParseErr) :
    (∀ y, Spec.Repaired x e y → Returns env repairCode [.str x, .exc e.toExc] S (.str y)) ∧
    (RepairFails x e → ∃ L, Gives env repairCode [.str x, .exc e.toExc] S (.exc (.exc .indexError) (S ++ L))) := by
  have key : Runs (fun n => call env n repairCode [.str x, .exc e.toExc] [] S) (Repaired S (fixError env x e)) := by
    obtain ⟨_, ⟨L, rfl⟩, k, hk⟩ := run_fixError (env := env) (S := S ++ [.inst .ErrorHandler [(.error_locator, .obj (S.length + 1))]] ++ [.dict (dictOf [] [] [])])
      (a := S.length) (d := S.length + 1) (by simp) e x
    cases hf : fixError env x e with
    | ok y =>
      rw [hf] at hk
      dsimp only at hk
      fuel 3
      fuel k
      sym [repairCode, ErrorHandler___init__] [hk]
      exact ⟨_, by dsimp only; rw [List.append_assoc, List.append_assoc]⟩
    | error y =>
      rw [hf] at hk
      dsimp only at hk
      fuel 3
      fuel k
      sym [repairCode, ErrorHandler___init__] [hk]
      exact ⟨_, by dsimp only; rw [List.append_assoc, List.append_assoc]⟩
  obtain ⟨_, ⟨L, rfl⟩, k, hk⟩ := key
  constructor
  · intro y hy
    rw [(fixError_ok hx).2 hy] at hk
    exact ⟨L, k, hk⟩
  · intro hf
    rcases fixError_spec env hx e with ⟨y, h1, h2⟩ | ⟨h1, h2⟩
    · exact absurd hf h2.not_fails
    · rw [h1] at hk
      exact ⟨L, k, hk⟩

-- A value is missing.
example : Returns env repairCode [.str c!"<a b=>c</a>", .exc (.expat 4 1 4)] S (.str c!"<a >c</a>") :=
  (C88_repair env S c!"<a b=>c</a>" (by decide) (.expat 4 1 4)).1 _ ((fixError_ok (env := env) (by decide)).1 rfl)
-- The position is on another line.
example : ∃ L, Gives env repairCode [.str c!"<a b=>c</a>", .exc (.expat 4 2 4)] S (.exc (.exc .indexError) (S ++ L)) :=
  (C88_repair env S c!"<a b=>c</a>" (by decide) (.expat 4 2 4)).2 ⟨2, 4, rfl, .inl (by decide)⟩

end Verif.Src
