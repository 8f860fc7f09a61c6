import Verif.Source.Refine

/-!
# The converters of layout elements
-/

namespace Verif.Src

attribute [local irreducible] vowelsWithAccents accentToLtxCmd specialFontChars allMathSymbolsByChar
  allMathSymbolsByGlyph mathNumberByGlyph allMathOperatorsByChar allMathOperatorsByGlyph

variable {env : Env} {B : Nat}

/-- The adapter and an element with its children. -/
structure At (φ : Nat → Nat) (N : Dom) (H : Heap) (S : Store) (ad e : Nat) (name value : Str) (r : Nat)
    (cs : List Elem) (la : Nat) (as : List Nat) : Prop where
  adapter : S[ad]? = some adapterObj
  elem : S[e]? = some (elemObj name value la (φ r))
  list : S[la]? = some (.list (as.map .obj))
  cell : N r
  kids : IsElems φ N.all S cs as
  dicts : Dicts φ N H S

theorem At.mono {φ : Nat → Nat} {N : Dom} {H H' : Heap} {S S' : Store} {ad e : Nat} {name value : Str}
    {r : Nat} {cs : List Elem} {la : Nat} {as : List Nat} (ha : At φ N H S ad e name value r cs la as)
    (he : Ext S S') (hd : Dicts φ N H' S') : At φ N H' S' ad e name value r cs la as :=
  ⟨he.get ha.adapter rfl, he.get ha.elem rfl, he.get ha.list rfl, ha.cell, ha.kids.mono he, hd⟩

theorem At.add {φ : Nat → Nat} {N : Dom} {H H' : Heap} {S S' : Store} {ad e : Nat} {name value : Str}
    {r : Nat} {cs : List Elem} {la : Nat} {as : List Nat} (ha : At φ N H S ad e name value r cs la as) (P : Nat → Prop)
    (he : Ext S S') (hd : Dicts φ (N.add P) H' S') : At φ (N.add P) H' S' ad e name value r cs la as :=
  ⟨he.get ha.adapter rfl, he.get ha.elem rfl, he.get ha.list rfl, .inl ha.cell, ha.kids.mono he, hd⟩

/-- A converter with only an element and an adapter. -/
abbrev plainObj (cls : Ident) (e ad : Nat) : Obj :=
  .inst cls [(._math_element, .obj e), (._adapter, .obj ad)]

variable {φ : Nat → Nat} {N : Dom} {H : Heap} {S : Store} {ad e : Nat} {name value : Str} {r : Nat}
  {cs : List Elem} {la : Nat} {as : List Nat} {c : Nat}

theorem kidsOf_length : ∀ cs : List Elem, (kidsOf cs).length = cs.length
  | [] => rfl
  | c :: cs => by rw [kidsOf_cons, List.length_cons, kidsOf_length cs, List.length_cons]

/-! ## Converters that join their children -/

/-! ## Converters that join their children -/

theorem run_spacing (hat : At φ N H S ad e name value r cs la as) (hok : ∀ x ∈ cs, ElemOK env N (B + 12) x)
    (hc : S[c]? = some (plainObj .GenericSpacingWrapper e ad)) :
    RunsBy (B + 14) (fun n => call env n GenericSpacingWrapper_convert [.obj c] [] S)
      (Agrees φ N S (spacingConvert (kidsOf cs) H)) := by
  obtain ⟨h1, h2, h3, h4, h5, h6⟩ := hat
  rcases run_kids (env := env) (l := [(.self, .obj c)]) hok ⟨h1, c, _, _, rfl, hc, rfl, rfl⟩ h5 h6 with
    ⟨ss, H', h', hx, hr, he, hd⟩ | ⟨x, H', v, h', hx, hr, hR⟩
  · fuel 13
    fuel B
    sym [GenericSpacingWrapper_convert] [hc, h2, h3, run_children, hr, strings_map]
    exact .ok (Stack.M_bind_ok hx) (by simp) ((he.app' _)) ((hd.app _))
  · fuel 13
    fuel B
    sym [GenericSpacingWrapper_convert] [hc, h2, h3, run_children, hr, strings_map]
    exact .exc (Stack.M_bind_error hx) hR

theorem run_msqrt (hat : At φ N H S ad e name value r cs la as) (hok : ∀ x ∈ cs, ElemOK env N (B + 12) x)
    (hc : S[c]? = some (plainObj .MSqrt e ad)) :
    RunsBy (B + 14) (fun n => call env n MSqrt_convert [.obj c] [] S)
      (Agrees φ N S (msqrtConvert (kidsOf cs) H)) := by
  obtain ⟨h1, h2, h3, h4, h5, h6⟩ := hat
  rcases run_kids (env := env) (l := [(.self, .obj c)]) hok ⟨h1, c, _, _, rfl, hc, rfl, rfl⟩ h5 h6 with
    ⟨ss, H', h', hx, hr, he, hd⟩ | ⟨x, H', v, h', hx, hr, hR⟩
  · fuel 13
    fuel B
    sym [MSqrt_convert] [hc, h2, h3, run_children, hr, strings_map]
    exact .ok (Stack.M_bind_ok hx) (by simp) ((he.app' _)) ((hd.app _))
  · fuel 13
    fuel B
    sym [MSqrt_convert] [hc, h2, h3, run_children, hr, strings_map]
    exact .exc (Stack.M_bind_error hx) hR

theorem run_merror (hat : At φ N H S ad e name value r cs la as) (hok : ∀ x ∈ cs, ElemOK env N (B + 12) x)
    (hc : S[c]? = some (plainObj .MError e ad)) :
    RunsBy (B + 14) (fun n => call env n MError_convert [.obj c] [] S)
      (Agrees φ N S (merrorConvert (kidsOf cs) H)) := by
  obtain ⟨h1, h2, h3, h4, h5, h6⟩ := hat
  rcases run_kids (env := env) (l := [(.self, .obj c)]) hok ⟨h1, c, _, _, rfl, hc, rfl, rfl⟩ h5 h6 with
    ⟨ss, H', h', hx, hr, he, hd⟩ | ⟨x, H', v, h', hx, hr, hR⟩
  · fuel 13
    fuel B
    sym [MError_convert] [hc, h2, h3, run_children, hr, strings_map]
    exact .ok (Stack.M_bind_ok hx) (by simp) ((he.app' _)) ((hd.app _))
  · fuel 13
    fuel B
    sym [MError_convert] [hc, h2, h3, run_children, hr, strings_map]
    exact .exc (Stack.M_bind_error hx) hR

theorem run_mtr (hat : At φ N H S ad e name value r cs la as) (hok : ∀ x ∈ cs, ElemOK env N (B + 12) x)
    (hc : S[c]? = some (plainObj .MTr e ad)) :
    RunsBy (B + 14) (fun n => call env n MTr_convert [.obj c] [] S)
      (Agrees φ N S (mtrConvert (kidsOf cs) H)) := by
  obtain ⟨h1, h2, h3, h4, h5, h6⟩ := hat
  rcases run_kids (env := env) (l := [(.self, .obj c)]) hok ⟨h1, c, _, _, rfl, hc, rfl, rfl⟩ h5 h6 with
    ⟨ss, H', h', hx, hr, he, hd⟩ | ⟨x, H', v, h', hx, hr, hR⟩
  · fuel 13
    fuel B
    sym [MTr_convert] [hc, h2, h3, run_children, hr, strings_map]
    exact .ok (Stack.M_bind_ok hx) (by simp) ((he.app' _)) ((hd.app _))
  · fuel 13
    fuel B
    sym [MTr_convert] [hc, h2, h3, run_children, hr, strings_map]
    exact .exc (Stack.M_bind_error hx) hR

/-- An instance of `Math`. -/
abbrev mathObj (w e ad : Nat) : Obj :=
  .inst .Math [(._white_space_normalizer, .obj w), (._adapter, .obj ad), (._math_element, .obj e)]

theorem run_math {w : Nat} (hw : S[w]? = some (.inst .WhiteSpaceNormalizer []))
    (hat : At φ N H S ad e name value r cs la as) (hok : ∀ x ∈ cs, ElemOK env N (B + 12) x)
    (hc : S[c]? = some (mathObj w e ad)) :
    RunsBy (B + 14) (fun n => call env n Math_convert [.obj c] [] S)
      (Agrees φ N S (mathConvert (kidsOf cs) H)) := by
  obtain ⟨h1, h2, h3, h4, h5, h6⟩ := hat
  rcases run_kids (env := env) (l := [(.self, .obj c)]) hok ⟨h1, c, _, _, rfl, hc, rfl, rfl⟩ h5 h6 with
    ⟨ss, H', h', hx, hr, he, hd⟩ | ⟨x, H', v, h', hx, hr, hR⟩
  · fuel 13
    fuel B
    sym [Math_convert] [hc, h2, h3, run_children, hr, strings_map, he.get, hw, run_normalize]
    exact .ok (Stack.M_bind_ok hx) (by simp) ((he.app' _).app' _) ((hd.app _).app _)
  · fuel 13
    fuel B
    sym [Math_convert] [hc, h2, h3, run_children, hr, strings_map]
    exact .exc (Stack.M_bind_error hx) hR

/-- The result of an enclosure; lists may have been created. -/
macro "enclosed" : tactic => `(tactic| (
  refine .ok rfl (by simp) ?_ ?_
  · first
    | exact Ext.app' (by assumption) _
    | exact Ext.app' (Ext.app' (by assumption) _) _
    | exact Ext.app' (Ext.app' (Ext.app' (by assumption) _) _) _
  · first
    | exact Dicts.app (by assumption) _
    | exact Dicts.app (Dicts.app (by assumption) _) _
    | exact Dicts.app (Dicts.app (Dicts.app (by assumption) _) _) _))

/-- An instance of `MEnclose`. -/
abbrev encloseObj (e ad : Nat) (notation_ : Str) : Obj :=
  .inst .MEnclose [(._math_element, .obj e), (._adapter, .obj ad), (._notation, .str notation_)]

theorem run_menclose {notation_ : Str} (hat : At φ N H S ad e name value r cs la as)
    (hok : ∀ x ∈ cs, ElemOK env N (B + 12) x) (hc : S[c]? = some (encloseObj e ad notation_)) :
    RunsBy (B + 14) (fun n => call env n MEnclose_convert [.obj c] [] S)
      (Agrees φ N S (mencloseConvert notation_ (kidsOf cs) H)) := by
  obtain ⟨h1, h2, h3, h4, h5, h6⟩ := hat
  rcases run_kids (env := env) (l := [(.self, .obj c)]) hok ⟨h1, c, _, _, rfl, hc, rfl, rfl⟩ h5 h6 with
    ⟨ss, H', h', hx, hr, he, hd⟩ | ⟨x, H', v, h', hx, hr, hR⟩
  · have hm : mencloseConvert notation_ (kidsOf cs) H =
        (.ok (encloseLatex notation_ (join c!" " ss)), H') := Stack.M_bind_ok hx
    rw [hm]
    unfold encloseLatex
    fuel 13
    fuel B
    test v0
    · rcases v0 with rfl <;>
      · sym [MEnclose_convert] [hc, h2, h3, run_children, hr, strings_map, he.get]
        enclosed
    test v1
    · rcases v1 with rfl <;>
      · sym [MEnclose_convert] [hc, h2, h3, run_children, hr, strings_map, he.get]
        enclosed
    test v2
    · rcases v2 with rfl | rfl | rfl <;>
      · sym [MEnclose_convert] [hc, h2, h3, run_children, hr, strings_map, he.get]
        enclosed
    test v3
    · rcases v3 with rfl <;>
      · sym [MEnclose_convert] [hc, h2, h3, run_children, hr, strings_map, he.get]
        enclosed
    test v4
    · rcases v4 with rfl <;>
      · sym [MEnclose_convert] [hc, h2, h3, run_children, hr, strings_map, he.get]
        enclosed
    test v5
    · rcases v5 with rfl <;>
      · sym [MEnclose_convert] [hc, h2, h3, run_children, hr, strings_map, he.get]
        enclosed
    test v6
    · rcases v6 with rfl <;>
      · sym [MEnclose_convert] [hc, h2, h3, run_children, hr, strings_map, he.get]
        enclosed
    test v7
    · rcases v7 with rfl <;>
      · sym [MEnclose_convert] [hc, h2, h3, run_children, hr, strings_map, he.get]
        enclosed
    test v8
    · rcases v8 with rfl <;>
      · sym [MEnclose_convert] [hc, h2, h3, run_children, hr, strings_map, he.get]
        enclosed
    test v9
    · rcases v9 with rfl <;>
      · sym [MEnclose_convert] [hc, h2, h3, run_children, hr, strings_map, he.get]
        enclosed
    test v10
    · rcases v10 with rfl | rfl <;>
      · sym [MEnclose_convert] [hc, h2, h3, run_children, hr, strings_map, he.get]
        enclosed
    test v11
    · rcases v11 with rfl <;>
      · sym [MEnclose_convert] [hc, h2, h3, run_children, hr, strings_map, he.get]
        enclosed
    test v12
    · rcases v12 with rfl <;>
      · sym [MEnclose_convert] [hc, h2, h3, run_children, hr, strings_map, he.get]
        enclosed
    simp only [not_or] at v2 v10
    obtain ⟨v2a, v2b, v2c⟩ := v2
    obtain ⟨v10a, v10b⟩ := v10
    sym [MEnclose_convert] [hc, h2, h3, run_children, hr, strings_map, he.get] [*]
    enclosed
  · fuel 13
    fuel B
    sym [MEnclose_convert] [hc, h2, h3, run_children, hr, strings_map]
    exact .exc (Stack.M_bind_error hx) hR


/-! ## Exceptions -/

theorem format_nat (n : Nat) : format (.int (n : Int)) = some (Nat.repr n).toList := rfl
theorem format_two : format (.int 2) = some (Nat.repr 2).toList := rfl
theorem format_three : format (.int 3) = some (Nat.repr 3).toList := rfl

/-- The exception object. -/
abbrev errorObj (name : Str) (k m : Nat) (cmp : Str) : Obj :=
  .inst .InvalidNumberOfChildrenError
    [(.args, .str (invalidChildrenMessage name k m cmp)),
     (.«name», .str c!"InvalidNumberOfChildrenError")]

theorem run_error2 (n : Nat) (name : Str) (m : Nat) (h : Store) {a : Nat} (ha : h.length = a) :
    call env (n + 1) InvalidNumberOfChildrenError___init__ [.obj a, .str name, .int 2, .int m] []
      (h ++ [.inst .InvalidNumberOfChildrenError []]) = .ok .none (h ++ [errorObj name 2 m c!"exactly"]) := by
  subst ha
  sym [InvalidNumberOfChildrenError___init__] [format_nat, format_two]
  simp [invalidChildrenMessage]

theorem run_error3 (n : Nat) (name : Str) (m : Nat) (h : Store) {a : Nat} (ha : h.length = a) :
    call env (n + 1) InvalidNumberOfChildrenError___init__ [.obj a, .str name, .int 3, .int m] []
      (h ++ [.inst .InvalidNumberOfChildrenError []]) = .ok .none (h ++ [errorObj name 3 m c!"exactly"]) := by
  subst ha
  sym [InvalidNumberOfChildrenError___init__] [format_nat, format_three]
  simp [invalidChildrenMessage]

theorem run_errorAtLeast (n : Nat) (name : Str) (m : Nat) (h : Store) {a : Nat} (ha : h.length = a) :
    call env (n + 1) InvalidNumberOfChildrenError___init__
      [.obj a, .str name, .int 3, .int m, .str c!"at least"] []
      (h ++ [.inst .InvalidNumberOfChildrenError []]) = .ok .none (h ++ [errorObj name 3 m c!"at least"]) := by
  subst ha
  sym [InvalidNumberOfChildrenError___init__] [format_nat, format_three]
  simp [invalidChildrenMessage]

/-! ## Scripts -/

theorem pyIndex_0 {α : Type} (a : α) (l : List α) : pyIndex (a :: l) 0 = some a := rfl
theorem pyIndex_1 {α : Type} (a b : α) (l : List α) : pyIndex (a :: b :: l) 1 = some b := rfl
theorem pyIndex_2 {α : Type} (a b c : α) (l : List α) : pyIndex (a :: b :: c :: l) 2 = some c := rfl
theorem pyIndex_3 {α : Type} (a b c d : α) (l : List α) :
    pyIndex (a :: b :: c :: d :: l) 3 = some d := rfl
theorem pyIndex_4 {α : Type} (a b c d e : α) (l : List α) :
    pyIndex (a :: b :: c :: d :: e :: l) 4 = some e := rfl
theorem pyIndex_5 {α : Type} (a b c d e f : α) (l : List α) :
    pyIndex (a :: b :: c :: d :: e :: f :: l) 5 = some f := rfl

/-- The wrappers. -/
abbrev parenObj : Obj := wrapperObj .ParenthesisWrapper c!"\\left(" c!"\\right)"
abbrev bracketObj : Obj := wrapperObj .BracketWrapper c!"{" c!"}"

/-- An instance of `MSup`, `MSub` or `MSubsup`. -/
abbrev scriptObj (cls : Ident) (e ad p b : Nat) : Obj :=
  .inst cls [(._math_element, .obj e), (._adapter, .obj ad), (._parenthesis_wrapper, .obj p),
    (._bracket_wrapper, .obj b)]

theorem run_base {cls : Ident} {f : Func} (hf : f = MSup__handle_base_child)
    (hm1 : findMethod cls ._adapter = none) (hm2 : findMethod cls ._parenthesis_wrapper = none)
    {p b a : Nat} {x : Elem} (h1 : S[ad]? = some adapterObj) (hc : S[c]? = some (scriptObj cls e ad p b))
    (hp : S[p]? = some parenObj) (hi : IsElem φ N.all S x a) (hd : Dicts φ N H S) (hok : ElemOK env N (B + 12) x) :
    Good (B + 13) φ N S (handleBaseChild (x, convertElem x) H) .str
      (fun n => call env n f [.obj c, .obj a] [] S) := by
  subst hf
  obtain ⟨c', g, m, r1, r2, r3⟩ := hok h1 hi hd
  obtain ⟨nm, vl, r, cs⟩ := x
  unfold IsElem at hi
  obtain ⟨hr, la, as, h2, h3, h4⟩ := hi
  apply good_of_runs
  unfold handleBaseChild
  rcases r3 with ⟨s, H', h', hx, r3, he, hd'⟩ | ⟨x, H', v, h', hx, r3, hR⟩
  · rw [Stack.M_bind_ok hx]
    by_cases hl : cs.length ≤ 1
    · have hl' : (as.length : Int) ≤ 1 := by rw [h4.length]; omega
      fuel 13
      fuel B
      sym [MSup__handle_base_child] [h1, hc, hm1, hm2, h2, h3, run_children, r1, r2, r3, he.get] [hl']
      exact .ok (by simp [Elem.children, hl]; rfl) rfl he hd'
    · have hl' : ¬ (as.length : Int) ≤ 1 := by rw [h4.length]; omega
      fuel 13
      fuel B
      sym [MSup__handle_base_child] [h1, hc, hm1, hm2, h2, h3, hp, run_children, r1, r2, r3, he.get, run_parenWrapIf] [hl']
      exact .ok (by simp [Elem.children, hl]; rfl) rfl he hd'
  · rw [Stack.M_bind_error hx]
    fuel 13
    fuel B
    sym [MSup__handle_base_child] [h1, hc, hm1, hm2, h2, h3, run_children, r1, r2, r3]
    exact .exc rfl hR

theorem run_exponent {cls : Ident} {f : Func} (hf : f = MSup__handle_exponent_child)
    (hm1 : findMethod cls ._adapter = none) (hm2 : findMethod cls ._bracket_wrapper = none)
    {p b a : Nat} {x : Elem} (h1 : S[ad]? = some adapterObj) (hc : S[c]? = some (scriptObj cls e ad p b))
    (hb : S[b]? = some bracketObj) (hi : IsElem φ N.all S x a) (hd : Dicts φ N H S) (hok : ElemOK env N (B + 12) x) :
    Good (B + 13) φ N S (handleScriptChild (x, convertElem x) H) .str
      (fun n => call env n f [.obj c, .obj a] [] S) := by
  subst hf
  obtain ⟨c', g, m, r1, r2, r3⟩ := hok h1 hi hd
  apply good_of_runs
  unfold handleScriptChild
  rcases r3 with ⟨s, H', h', hx, r3, he, hd'⟩ | ⟨x, H', v, h', hx, r3, hR⟩
  · rw [Stack.M_bind_ok hx]
    fuel 13
    fuel B
    sym [MSup__handle_exponent_child] [h1, hc, hm1, hm2, hb, r1, r2, r3, he.get, run_bracketWrap]
    exact .ok rfl rfl he hd'
  · rw [Stack.M_bind_error hx]
    fuel 13
    fuel B
    sym [MSup__handle_exponent_child] [h1, hc, hm1, hm2, hb, r1, r2, r3]
    exact .exc rfl hR

theorem run_subscript {cls : Ident} {f : Func} (hf : f = MSub__handle_subscript_child)
    (hm1 : findMethod cls ._adapter = none) (hm2 : findMethod cls ._bracket_wrapper = none)
    {p b a : Nat} {x : Elem} (h1 : S[ad]? = some adapterObj) (hc : S[c]? = some (scriptObj cls e ad p b))
    (hb : S[b]? = some bracketObj) (hi : IsElem φ N.all S x a) (hd : Dicts φ N H S) (hok : ElemOK env N (B + 12) x) :
    Good (B + 13) φ N S (handleScriptChild (x, convertElem x) H) .str
      (fun n => call env n f [.obj c, .obj a] [] S) := by
  subst hf
  obtain ⟨c', g, m, r1, r2, r3⟩ := hok h1 hi hd
  apply good_of_runs
  unfold handleScriptChild
  rcases r3 with ⟨s, H', h', hx, r3, he, hd'⟩ | ⟨x, H', v, h', hx, r3, hR⟩
  · rw [Stack.M_bind_ok hx]
    fuel 13
    fuel B
    sym [MSub__handle_subscript_child] [h1, hc, hm1, hm2, hb, r1, r2, r3, he.get, run_bracketWrap]
    exact .ok rfl rfl he hd'
  · rw [Stack.M_bind_error hx]
    fuel 13
    fuel B
    sym [MSub__handle_subscript_child] [h1, hc, hm1, hm2, hb, r1, r2, r3]
    exact .exc rfl hR

theorem run_superscript {cls : Ident} {f : Func} (hf : f = MSubsup__handle_superscript_child)
    (hm1 : findMethod cls ._adapter = none) (hm2 : findMethod cls ._bracket_wrapper = none)
    {p b a : Nat} {x : Elem} (h1 : S[ad]? = some adapterObj) (hc : S[c]? = some (scriptObj cls e ad p b))
    (hb : S[b]? = some bracketObj) (hi : IsElem φ N.all S x a) (hd : Dicts φ N H S) (hok : ElemOK env N (B + 12) x) :
    Good (B + 13) φ N S (handleScriptChild (x, convertElem x) H) .str
      (fun n => call env n f [.obj c, .obj a] [] S) := by
  subst hf
  obtain ⟨c', g, m, r1, r2, r3⟩ := hok h1 hi hd
  apply good_of_runs
  unfold handleScriptChild
  rcases r3 with ⟨s, H', h', hx, r3, he, hd'⟩ | ⟨x, H', v, h', hx, r3, hR⟩
  · rw [Stack.M_bind_ok hx]
    fuel 13
    fuel B
    sym [MSubsup__handle_superscript_child] [h1, hc, hm1, hm2, hb, r1, r2, r3, he.get, run_bracketWrap]
    exact .ok rfl rfl he hd'
  · rw [Stack.M_bind_error hx]
    fuel 13
    fuel B
    sym [MSubsup__handle_superscript_child] [h1, hc, hm1, hm2, hb, r1, r2, r3]
    exact .exc rfl hR

end Verif.Src
