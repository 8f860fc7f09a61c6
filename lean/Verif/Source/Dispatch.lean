import Verif.Source.Table

/-!
# The converter of an element

`to_latex_converter` chooses a converter as the model does, and by induction over the
elements, `adapter.to_latex_converter(e).convert()` does what the model says.
-/

namespace Verif.Src

attribute [local irreducible] vowelsWithAccents accentToLtxCmd specialFontChars allMathSymbolsByChar
  allMathSymbolsByGlyph mathNumberByGlyph allMathOperatorsByChar allMathOperatorsByGlyph

variable {env : Env} {B : Nat}
variable {φ : Nat → Nat} {N : Dom} {H : Heap} {S : Store} {ad e : Nat} {name value : Str} {r : Nat}
  {cs : List Elem} {la : Nat} {as : List Nat} {c : Nat}

/-! ## The table -/

/-- What adapter.py 37–63 gives for a class of converters. -/
def convVal (ad : Nat) : Kind → Val
  | .math => .method (.obj ad) .MathMLElementToLatexConverterAdapter ._make_math_tag_converter
  | .mi => .cls .MI
  | .mo => .cls .MO
  | .mn => .cls .MN
  | .msqrt => .method (.obj ad) .MathMLElementToLatexConverterAdapter ._make_msqrt_tag_converter
  | .mfenced => .method (.obj ad) .MathMLElementToLatexConverterAdapter ._make_mfenced_tag_converter
  | .mfrac => .method (.obj ad) .MathMLElementToLatexConverterAdapter ._make_mfrac_tag_converter
  | .mroot => .method (.obj ad) .MathMLElementToLatexConverterAdapter ._make_mroot_tag_converter
  | .maction => .method (.obj ad) .MathMLElementToLatexConverterAdapter ._make_maction_tag_converter
  | .menclose => .method (.obj ad) .MathMLElementToLatexConverterAdapter ._make_menclose_tag_converter
  | .merror => .method (.obj ad) .MathMLElementToLatexConverterAdapter ._make_merror_tag_converter
  | .void => .cls .Void
  | .msup => .method (.obj ad) .MathMLElementToLatexConverterAdapter ._make_msup_tag_converter
  | .msub => .method (.obj ad) .MathMLElementToLatexConverterAdapter ._make_msub_tag_converter
  | .msubsup => .method (.obj ad) .MathMLElementToLatexConverterAdapter ._make_msubsup_tag_converter
  | .mmultiscripts => .method (.obj ad) .MathMLElementToLatexConverterAdapter ._make_mmultiscripts_tag_converter
  | .mtext => .cls .MText
  | .munderover => .method (.obj ad) .MathMLElementToLatexConverterAdapter ._make_munderover_tag_converter
  | .mtable => .method (.obj ad) .MathMLElementToLatexConverterAdapter ._make_mtable_tag_converter
  | .mtr => .method (.obj ad) .MathMLElementToLatexConverterAdapter ._make_mtr_tag_converter
  | .underOver => .method (.obj ad) .MathMLElementToLatexConverterAdapter ._make_generic_under_over_converter
  | .spacing => .method (.obj ad) .MathMLElementToLatexConverterAdapter ._make_generic_spacing_wrapper

/-- adapter.py 37–63: the table. -/
def convDict (ad : Nat) : Dict Val := dispatchTable.map fun p => (p.1, convVal ad p.2)

theorem get_convDict (ad : Nat) (d : Dict Kind) (s : Str) :
    Dict.get? (d.map fun p => (p.1, convVal ad p.2)) s = (Dict.get? d s).map (convVal ad) := by
  induction d with
  | nil => rfl
  | cons p d ih =>
    rw [List.map_cons, Dict.get?, Dict.get?, ih]
    cases Dict.get? d s with
    | some _ => rfl
    | none =>
      dsimp only [Option.map_none]
      split <;> rfl

theorem dictOf_new : ∀ (ks : List Str) (vs : List Val) (d : Dict Val), ks.Nodup →
    (∀ p ∈ d, p.1 ∉ ks) → dictOf ks vs d = d ++ ks.zip vs
  | [], _, d, _, _ => by simp [dictOf]
  | _ :: _, [], d, _, _ => by simp [dictOf]
  | k :: ks, v :: vs, d, hn, hd => by
    obtain ⟨hk, hn⟩ := List.nodup_cons.1 hn
    have hs : Dict.set d k v = d ++ [(k, v)] := by
      unfold Dict.set
      rw [if_neg]
      rw [List.any_eq_true]
      rintro ⟨p, hp, he⟩
      exact hd p hp (by rw [beq_iff_eq.1 he]; exact List.mem_cons_self)
    rw [dictOf, hs, dictOf_new ks vs _ hn]
    · simp
    · intro p hp hm
      rcases List.mem_append.1 hp with hp | hp
      · exact hd p hp (List.mem_cons_of_mem _ hm)
      · rw [List.mem_singleton.1 hp] at hm
        exact hk hm

theorem run_table (h1 : S[ad]? = some adapterObj) (n : Nat) {a : Nat} (ha : S.length = a) :
    call env (n + 1) MathMLElementToLatexConverterAdapter__from_mathml_element_to_latex_converter [.obj ad] [] S =
      .ok (.obj a) (S ++ [.dict (convDict ad)]) := by
  sym [MathMLElementToLatexConverterAdapter__from_mathml_element_to_latex_converter] [h1]
  rw [dictOf_new _ _ _ (by decide +kernel) (by simp), ha]
  rfl

/-- The objects that adapter.py 30–33 creates. -/
def choiceObjs (ad : Nat) (name : Str) : Store :=
  if name = [] then [.inst .VoidMathMLElement [], .dict (convDict ad)] else [.dict (convDict ad)]

theorem choice_eq (ad : Nat) (name : Str) :
    (Dict.get? (convDict ad) name).getD (convVal ad .spacing) =
      convVal ad ((Dict.get? dispatchTable name).getD .spacing) := by
  rw [convDict, get_convDict]
  cases Dict.get? dispatchTable name <;> rfl

theorem run_choice (h1 : S[ad]? = some adapterObj) (h2 : S[e]? = some (elemObj name value la r))
    {S1 : Store} {k : Nat} (hk : ∀ n, k ≤ n → apply ⟨env, call env n, n⟩ (convVal ad (classify name))
      [.obj e] [] (S ++ choiceObjs ad name) = .ok (.obj c) S1) :
    ∀ n, k + 3 ≤ n → call env n MathMLElementToLatexConverterAdapter_to_latex_converter [.obj ad, .obj e] [] S = .ok (.obj c) S1 := by
  intro n hn
  obtain ⟨n, rfl⟩ : ∃ m, n = m + 3 := ⟨n - 3, by omega⟩
  replace hk := hk (n + 2) (by omega)
  unfold classify choiceObjs at hk
  cases name with
  | nil =>
    simp only [ne_eq, not_true_eq_false, if_false, if_true] at hk
    have hg : (Dict.get? (convDict ad) c!"void").getD
        (.method (.obj ad) .MathMLElementToLatexConverterAdapter ._make_generic_spacing_wrapper) =
        convVal ad ((Dict.get? dispatchTable c!"void").getD .spacing) := choice_eq ad _
    rw [List.append_cons] at hk
    sym [MathMLElementToLatexConverterAdapter_to_latex_converter, VoidMathMLElement_name] [h1, h2, run_name, run_table, hg, hk]
  | cons t ts =>
    simp only [ne_eq, reduceCtorEq, not_false_eq_true, if_false, if_true] at hk
    have hg : (Dict.get? (convDict ad) (t :: ts)).getD
        (.method (.obj ad) .MathMLElementToLatexConverterAdapter ._make_generic_spacing_wrapper) =
        convVal ad ((Dict.get? dispatchTable (t :: ts)).getD .spacing) := choice_eq ad _
    sym [MathMLElementToLatexConverterAdapter_to_latex_converter] [h1, h2, run_name, run_table, hg, hk]

/-! ## The constructors -/

/-- The value is a new converter: it was made as the model says, and its `convert` does
what the model says, at any later time, with `K` units of fuel. -/
def Made (env : Env) (K : Nat) (φ : Nat → Nat) (N : Dom) (S : Store) (x : Except Exc (M Str) × Heap) (res : Res Val) : Prop :=
  ∃ c S1 H1 act cls f fs, res = .ok (.obj c) S1 ∧ x = (.ok act, H1) ∧ Ext S S1 ∧
    S1[c]? = some (.inst cls fs) ∧ findMethod cls .convert = some (cls, .plain, f) ∧
    methodIn cls .convert = some f ∧ cls ≠ .Exception ∧ look .convert fs = none ∧
    ∃ P, Dicts φ (N.add P) H1 S1 ∧ ∀ S2 H2, Ext S1 S2 → Dicts φ (N.add P) H2 S2 →
      RunsBy K (fun n => call env n f [.obj c] [] S2) (Agrees φ (N.add P) S2 (act H2))

theorem Made.intro {K : Nat} {S1 : Store} {x : Except Exc (M Str) × Heap} {act : M Str} {cls : Ident}
    {fs : List (Ident × Val)} (o : Obj) (f : Func) (ho : o = .inst cls fs)
    (h1 : findMethod cls .convert = some (cls, .plain, f)) (h2 : methodIn cls .convert = some f)
    (h3 : cls ≠ .Exception) (h4 : look .convert fs = none) (hx : x = (.ok act, H)) (he : Ext S S1)
    (hc : S1[c]? = some o)
    (hd : Dicts φ N H S1) (hr : ∀ S2 H2, Ext S1 S2 → Dicts φ N H2 S2 →
      RunsBy K (fun n => call env n f [.obj c] [] S2) (Agrees φ N S2 (act H2))) :
    Made env K φ N S x (.ok (.obj c) S1) :=
  ⟨c, S1, H, act, cls, f, fs, rfl, hx, he, by rw [hc, ho], h1, h2, h3, h4, fun _ => False,
    hd.less rfl (fun _ h => h.elim id fun h => h.1.elim), fun S2 H2 he2 hd2 => by
      obtain ⟨res, g1, g2⟩ := hr S2 H2 he2 (hd2.less rfl fun _ h => .inl h)
      exact ⟨res, g1.less rfl (fun _ h => h.elim id fun h => h.1.elim), g2⟩⟩

/-- Find an object just created. -/
macro "at_store" : tactic => `(tactic| repeat (first | exact look_last _ (by simp; done) | refine look_old _ ?_))

/-- Later stores. -/
macro "later" : tactic => `(tactic| repeat (first | exact .refl _ | refine Ext.app' ?_ _))

theorem Dicts.lists {φ : Nat → Nat} {N : Dom} {H : Heap} {h : Store} (hd : Dicts φ N H h) :
    ∀ l : Store, Dicts φ N H (h ++ l) := hd.app

/-- The dictionaries are as before. -/
macro "same " h:term : tactic => `(tactic| repeat (first | exact $h | refine Dicts.app ?_ _))

/-- An object that was there before. -/
macro "later_get " h:term : tactic => `(tactic| repeat (first | exact $h | refine look_old _ ?_))

/-- A dictionary. -/
macro "dict_at " h:term:max r:term:max : tactic => `(tactic| repeat (first | exact Dicts.get $h _ $r | refine look_old _ ?_))

theorem Yields.agrees {K K' : Nat} {f : Func} {args : List Val} {s : Str} {x : Except Exc Str × Heap}
    (hy : Yields K env f args S (.str s)) (hx : x = (.ok s, H)) (hd : Dicts φ N H S) (hk : K ≤ K' := by omega) :
    RunsBy K' (fun n => call env n f args [] S) (Agrees φ N S x) := by
  obtain ⟨_, ⟨L, rfl⟩, h⟩ := hy
  exact ⟨_, .ok hx rfl (.app S L) (hd.app L), fun n hn => h n (Nat.le_trans hk hn)⟩

theorem made_msqrt (hat : At φ N H S ad e name value r cs la as) (hok : ∀ x ∈ cs, ElemOK env N (B + 12) x) :
    RunsBy (B + 9) (fun n => apply ⟨env, call env n, n⟩ (convVal ad .msqrt) [.obj e] [] S)
      (Made env (B + 14) φ N S (construct .msqrt name value r cs (kidsOf cs) H)) := by
  have h1 := hat.adapter
  have h2 := hat.elem
  have hd := hat.dicts
  unfold convVal construct
  fuel 4
  sym [MathMLElementToLatexConverterAdapter__make_msqrt_tag_converter, MSqrt___init__] [h1, h2]
  refine Made.intro (plainObj .MSqrt e ad) MSqrt_convert rfl rfl rfl (by decide) rfl rfl ?_ ?_ ?_ (fun S2 H2 he2 hd2 => run_msqrt (hat.mono (Ext.trans ?_ he2) hd2) hok (he2.get ?_ rfl))
  · later
  · at_store
  · same hd
  · later
  · at_store

theorem made_mroot (hat : At φ N H S ad e name value r cs la as) (hok : ∀ x ∈ cs, ElemOK env N (B + 12) x) :
    RunsBy (B + 9) (fun n => apply ⟨env, call env n, n⟩ (convVal ad .mroot) [.obj e] [] S)
      (Made env (B + 14) φ N S (construct .mroot name value r cs (kidsOf cs) H)) := by
  have h1 := hat.adapter
  have h2 := hat.elem
  have hd := hat.dicts
  unfold convVal construct
  fuel 4
  sym [MathMLElementToLatexConverterAdapter__make_mroot_tag_converter, MRoot___init__] [h1, h2]
  refine Made.intro (plainObj .MRoot e ad) MRoot_convert rfl rfl rfl (by decide) rfl rfl ?_ ?_ ?_ (fun S2 H2 he2 hd2 => run_mroot (hat.mono (Ext.trans ?_ he2) hd2) hok (he2.get ?_ rfl))
  · later
  · at_store
  · same hd
  · later
  · at_store

theorem made_maction (hat : At φ N H S ad e name value r cs la as) (hok : ∀ x ∈ cs, ElemOK env N (B + 12) x) :
    RunsBy (B + 9) (fun n => apply ⟨env, call env n, n⟩ (convVal ad .maction) [.obj e] [] S)
      (Made env (B + 14) φ N S (construct .maction name value r cs (kidsOf cs) H)) := by
  have h1 := hat.adapter
  have h2 := hat.elem
  have hd := hat.dicts
  unfold convVal construct
  fuel 4
  sym [MathMLElementToLatexConverterAdapter__make_maction_tag_converter, MAction___init__] [h1, h2]
  refine Made.intro (plainObj .MAction e ad) MAction_convert rfl rfl rfl (by decide) rfl rfl ?_ ?_ ?_ (fun S2 H2 he2 hd2 => run_maction (hat.mono (Ext.trans ?_ he2) hd2) hok (he2.get ?_ rfl))
  · later
  · at_store
  · same hd
  · later
  · at_store

theorem made_merror (hat : At φ N H S ad e name value r cs la as) (hok : ∀ x ∈ cs, ElemOK env N (B + 12) x) :
    RunsBy (B + 9) (fun n => apply ⟨env, call env n, n⟩ (convVal ad .merror) [.obj e] [] S)
      (Made env (B + 14) φ N S (construct .merror name value r cs (kidsOf cs) H)) := by
  have h1 := hat.adapter
  have h2 := hat.elem
  have hd := hat.dicts
  unfold convVal construct
  fuel 4
  sym [MathMLElementToLatexConverterAdapter__make_merror_tag_converter, MError___init__] [h1, h2]
  refine Made.intro (plainObj .MError e ad) MError_convert rfl rfl rfl (by decide) rfl rfl ?_ ?_ ?_ (fun S2 H2 he2 hd2 => run_merror (hat.mono (Ext.trans ?_ he2) hd2) hok (he2.get ?_ rfl))
  · later
  · at_store
  · same hd
  · later
  · at_store

theorem made_munderover (hat : At φ N H S ad e name value r cs la as) (hok : ∀ x ∈ cs, ElemOK env N (B + 12) x) :
    RunsBy (B + 9) (fun n => apply ⟨env, call env n, n⟩ (convVal ad .munderover) [.obj e] [] S)
      (Made env (B + 14) φ N S (construct .munderover name value r cs (kidsOf cs) H)) := by
  have h1 := hat.adapter
  have h2 := hat.elem
  have hd := hat.dicts
  unfold convVal construct
  fuel 4
  sym [MathMLElementToLatexConverterAdapter__make_munderover_tag_converter, MUnderover___init__] [h1, h2]
  refine Made.intro (plainObj .MUnderover e ad) MUnderover_convert rfl rfl rfl (by decide) rfl rfl ?_ ?_ ?_ (fun S2 H2 he2 hd2 => run_munderover (hat.mono (Ext.trans ?_ he2) hd2) hok (he2.get ?_ rfl))
  · later
  · at_store
  · same hd
  · later
  · at_store

theorem made_mtr (hat : At φ N H S ad e name value r cs la as) (hok : ∀ x ∈ cs, ElemOK env N (B + 12) x) :
    RunsBy (B + 9) (fun n => apply ⟨env, call env n, n⟩ (convVal ad .mtr) [.obj e] [] S)
      (Made env (B + 14) φ N S (construct .mtr name value r cs (kidsOf cs) H)) := by
  have h1 := hat.adapter
  have h2 := hat.elem
  have hd := hat.dicts
  unfold convVal construct
  fuel 4
  sym [MathMLElementToLatexConverterAdapter__make_mtr_tag_converter, MTr___init__] [h1, h2]
  refine Made.intro (plainObj .MTr e ad) MTr_convert rfl rfl rfl (by decide) rfl rfl ?_ ?_ ?_ (fun S2 H2 he2 hd2 => run_mtr (hat.mono (Ext.trans ?_ he2) hd2) hok (he2.get ?_ rfl))
  · later
  · at_store
  · same hd
  · later
  · at_store

theorem made_underOver (hat : At φ N H S ad e name value r cs la as) (hok : ∀ x ∈ cs, ElemOK env N (B + 12) x) :
    RunsBy (B + 9) (fun n => apply ⟨env, call env n, n⟩ (convVal ad .underOver) [.obj e] [] S)
      (Made env (B + 14) φ N S (construct .underOver name value r cs (kidsOf cs) H)) := by
  have h1 := hat.adapter
  have h2 := hat.elem
  have hd := hat.dicts
  unfold convVal construct
  fuel 4
  sym [MathMLElementToLatexConverterAdapter__make_generic_under_over_converter, GenericUnderOver___init__] [h1, h2]
  refine Made.intro (plainObj .GenericUnderOver e ad) GenericUnderOver_convert rfl rfl rfl (by decide) rfl rfl ?_ ?_ ?_ (fun S2 H2 he2 hd2 => run_underOver (hat.mono (Ext.trans ?_ he2) hd2) hok (he2.get ?_ rfl))
  · later
  · at_store
  · same hd
  · later
  · at_store

theorem made_spacing (hat : At φ N H S ad e name value r cs la as) (hok : ∀ x ∈ cs, ElemOK env N (B + 12) x) :
    RunsBy (B + 9) (fun n => apply ⟨env, call env n, n⟩ (convVal ad .spacing) [.obj e] [] S)
      (Made env (B + 14) φ N S (construct .spacing name value r cs (kidsOf cs) H)) := by
  have h1 := hat.adapter
  have h2 := hat.elem
  have hd := hat.dicts
  unfold convVal construct
  fuel 4
  sym [MathMLElementToLatexConverterAdapter__make_generic_spacing_wrapper, GenericSpacingWrapper___init__] [h1, h2]
  refine Made.intro (plainObj .GenericSpacingWrapper e ad) GenericSpacingWrapper_convert rfl rfl rfl (by decide) rfl rfl ?_ ?_ ?_ (fun S2 H2 he2 hd2 => run_spacing (hat.mono (Ext.trans ?_ he2) hd2) hok (he2.get ?_ rfl))
  · later
  · at_store
  · same hd
  · later
  · at_store

theorem made_math (hat : At φ N H S ad e name value r cs la as) (hok : ∀ x ∈ cs, ElemOK env N (B + 12) x) :
    RunsBy (B + 9) (fun n => apply ⟨env, call env n, n⟩ (convVal ad .math) [.obj e] [] S)
      (Made env (B + 14) φ N S (construct .math name value r cs (kidsOf cs) H)) := by
  have h1 := hat.adapter
  have h2 := hat.elem
  have hd := hat.dicts
  unfold convVal construct
  fuel 4
  sym [MathMLElementToLatexConverterAdapter__make_math_tag_converter, Math___init__] [h1, h2]
  refine Made.intro (mathObj (S.length + 1) e ad) Math_convert rfl rfl rfl (by decide) rfl rfl ?_ ?_ ?_ (fun S2 H2 he2 hd2 => run_math (w := S.length + 1) (he2.get ?_ rfl) (hat.mono (Ext.trans ?_ he2) hd2) hok (he2.get ?_ rfl))
  · later
  · at_store
  · same hd
  · at_store
  · later
  · at_store

theorem made_msup (hat : At φ N H S ad e name value r cs la as) (hok : ∀ x ∈ cs, ElemOK env N (B + 12) x) :
    RunsBy (B + 9) (fun n => apply ⟨env, call env n, n⟩ (convVal ad .msup) [.obj e] [] S)
      (Made env (B + 14) φ N S (construct .msup name value r cs (kidsOf cs) H)) := by
  have h1 := hat.adapter
  have h2 := hat.elem
  have hd := hat.dicts
  unfold convVal construct
  fuel 4
  sym [MathMLElementToLatexConverterAdapter__make_msup_tag_converter, MSup___init__, ParenthesisWrapper___init__, Wrapper___init__, BracketWrapper___init__] [h1, h2]
  refine Made.intro (scriptObj .MSup e ad (S.length + 1) (S.length + 2)) MSup_convert rfl rfl rfl (by decide) rfl rfl ?_ ?_ ?_ (fun S2 H2 he2 hd2 => run_msup (p := S.length + 1) (b := S.length + 2) (hat.mono (Ext.trans ?_ he2) hd2) hok (he2.get ?_ rfl) (he2.get ?_ rfl) (he2.get ?_ rfl))
  · later
  · at_store
  · same hd
  · later
  · at_store
  · at_store
  · at_store

theorem made_msub (hat : At φ N H S ad e name value r cs la as) (hok : ∀ x ∈ cs, ElemOK env N (B + 12) x) :
    RunsBy (B + 9) (fun n => apply ⟨env, call env n, n⟩ (convVal ad .msub) [.obj e] [] S)
      (Made env (B + 14) φ N S (construct .msub name value r cs (kidsOf cs) H)) := by
  have h1 := hat.adapter
  have h2 := hat.elem
  have hd := hat.dicts
  unfold convVal construct
  fuel 4
  sym [MathMLElementToLatexConverterAdapter__make_msub_tag_converter, MSub___init__, ParenthesisWrapper___init__, Wrapper___init__, BracketWrapper___init__] [h1, h2]
  refine Made.intro (scriptObj .MSub e ad (S.length + 1) (S.length + 2)) MSub_convert rfl rfl rfl (by decide) rfl rfl ?_ ?_ ?_ (fun S2 H2 he2 hd2 => run_msub (p := S.length + 1) (b := S.length + 2) (hat.mono (Ext.trans ?_ he2) hd2) hok (he2.get ?_ rfl) (he2.get ?_ rfl) (he2.get ?_ rfl))
  · later
  · at_store
  · same hd
  · later
  · at_store
  · at_store
  · at_store

theorem made_msubsup (hat : At φ N H S ad e name value r cs la as) (hok : ∀ x ∈ cs, ElemOK env N (B + 12) x) :
    RunsBy (B + 9) (fun n => apply ⟨env, call env n, n⟩ (convVal ad .msubsup) [.obj e] [] S)
      (Made env (B + 14) φ N S (construct .msubsup name value r cs (kidsOf cs) H)) := by
  have h1 := hat.adapter
  have h2 := hat.elem
  have hd := hat.dicts
  unfold convVal construct
  fuel 4
  sym [MathMLElementToLatexConverterAdapter__make_msubsup_tag_converter, MSubsup___init__, ParenthesisWrapper___init__, Wrapper___init__, BracketWrapper___init__] [h1, h2]
  refine Made.intro (scriptObj .MSubsup e ad (S.length + 1) (S.length + 2)) MSubsup_convert rfl rfl rfl (by decide) rfl rfl ?_ ?_ ?_ (fun S2 H2 he2 hd2 => run_msubsup (p := S.length + 1) (b := S.length + 2) (hat.mono (Ext.trans ?_ he2) hd2) hok (he2.get ?_ rfl) (he2.get ?_ rfl) (he2.get ?_ rfl))
  · later
  · at_store
  · same hd
  · later
  · at_store
  · at_store
  · at_store

theorem made_mfrac (hat : At φ N H S ad e name value r cs la as) (hok : ∀ x ∈ cs, ElemOK env N (B + 12) x) :
    RunsBy (B + 9) (fun n => apply ⟨env, call env n, n⟩ (convVal ad .mfrac) [.obj e] [] S)
      (Made env (B + 14) φ N S (construct .mfrac name value r cs (kidsOf cs) H)) := by
  have h1 := hat.adapter
  have h2 := hat.elem
  have hd := hat.dicts
  unfold convVal construct
  fuel 4
  sym [MathMLElementToLatexConverterAdapter__make_mfrac_tag_converter, MFrac___init__, ParenthesisWrapper___init__, Wrapper___init__] [h1, h2]
  refine Made.intro (parenthesisObj .MFrac e ad (S.length + 1)) MFrac_convert rfl rfl rfl (by decide) rfl rfl ?_ ?_ ?_ (fun S2 H2 he2 hd2 => run_mfrac (p := S.length + 1) (hat.mono (Ext.trans ?_ he2) hd2) hok (he2.get ?_ rfl) (he2.get ?_ rfl))
  · later
  · at_store
  · same hd
  · later
  · at_store
  · at_store

theorem made_mmultiscripts (hat : At φ N H S ad e name value r cs la as) (hok : ∀ x ∈ cs, ElemOK env N (B + 12) x) :
    RunsBy (B + 9) (fun n => apply ⟨env, call env n, n⟩ (convVal ad .mmultiscripts) [.obj e] [] S)
      (Made env (B + 14) φ N S (construct .mmultiscripts name value r cs (kidsOf cs) H)) := by
  have h1 := hat.adapter
  have h2 := hat.elem
  have hd := hat.dicts
  unfold convVal construct
  fuel 4
  sym [MathMLElementToLatexConverterAdapter__make_mmultiscripts_tag_converter, MMultiscripts___init__, ParenthesisWrapper___init__, Wrapper___init__] [h1, h2]
  refine Made.intro (parenthesisObj .MMultiscripts e ad (S.length + 1)) MMultiscripts_convert rfl rfl rfl (by decide) rfl rfl ?_ ?_ ?_ (fun S2 H2 he2 hd2 => run_mmultiscripts (p := S.length + 1) (hat.mono (Ext.trans ?_ he2) hd2) hok (he2.get ?_ rfl) (he2.get ?_ rfl))
  · later
  · at_store
  · same hd
  · later
  · at_store
  · at_store

theorem made_mi (hat : At φ N H S ad e name value r cs la as) (hok : ∀ x ∈ cs, ElemOK env N (B + 12) x) :
    RunsBy (B + 9) (fun n => apply ⟨env, call env n, n⟩ (convVal ad .mi) [.obj e] [] S)
      (Made env (B + 14) φ N S (construct .mi name value r cs (kidsOf cs) H)) := by
  have h1 := hat.adapter
  have h2 := hat.elem
  have hd := hat.dicts
  unfold convVal construct
  fuel 4
  sym [MI___init__] [h1, h2]
  refine Made.intro (miObj (S.length + 1) (S.length + 2) e) MI_convert rfl rfl rfl (by decide) rfl rfl ?_ ?_ ?_
    (fun S2 H2 he2 hd2 => Yields.agrees (run_mi (u := S.length + 1) (w := S.length + 2) (e := e) (name := name) (la := la) (d := φ r) (A := H2.cells r)
      (he2.get ?_ rfl) (he2.get ?_ rfl) (he2.get ?_ rfl) (he2.get ?_ rfl) (hd2.get r hat.cell)) rfl hd2)
  · later
  · at_store
  · same hd
  · at_store
  · at_store
  · at_store
  · later_get h2

theorem made_mo (hat : At φ N H S ad e name value r cs la as) (hok : ∀ x ∈ cs, ElemOK env N (B + 12) x) :
    RunsBy (B + 9) (fun n => apply ⟨env, call env n, n⟩ (convVal ad .mo) [.obj e] [] S)
      (Made env (B + 14) φ N S (construct .mo name value r cs (kidsOf cs) H)) := by
  have h1 := hat.adapter
  have h2 := hat.elem
  have hd := hat.dicts
  unfold convVal construct
  fuel 4
  sym [MO___init__] [h1, h2]
  refine Made.intro (moObj (S.length + 1) e) MO_convert rfl rfl rfl (by decide) rfl rfl ?_ ?_ ?_
    (fun S2 H2 he2 hd2 => Yields.agrees (run_mo (w := S.length + 1) (e := e) (name := name) (la := la) (d := φ r)
      (he2.get ?_ rfl) (he2.get ?_ rfl) (he2.get ?_ rfl)) rfl hd2)
  · later
  · at_store
  · same hd
  · at_store
  · at_store
  · later_get h2

theorem made_mn (hat : At φ N H S ad e name value r cs la as) (hok : ∀ x ∈ cs, ElemOK env N (B + 12) x) :
    RunsBy (B + 9) (fun n => apply ⟨env, call env n, n⟩ (convVal ad .mn) [.obj e] [] S)
      (Made env (B + 14) φ N S (construct .mn name value r cs (kidsOf cs) H)) := by
  have h1 := hat.adapter
  have h2 := hat.elem
  have hd := hat.dicts
  unfold convVal construct
  fuel 4
  sym [MN___init__] [h1, h2]
  refine Made.intro (mnObj (S.length + 1) e) MN_convert rfl rfl rfl (by decide) rfl rfl ?_ ?_ ?_
    (fun S2 H2 he2 hd2 => Yields.agrees (run_mn (w := S.length + 1) (e := e) (name := name) (la := la) (d := φ r)
      (he2.get ?_ rfl) (he2.get ?_ rfl) (he2.get ?_ rfl)) rfl hd2)
  · later
  · at_store
  · same hd
  · at_store
  · at_store
  · later_get h2

theorem made_void (hat : At φ N H S ad e name value r cs la as) :
    RunsBy (B + 9) (fun n => apply ⟨env, call env n, n⟩ (convVal ad .void) [.obj e] [] S)
      (Made env (B + 14) φ N S (construct .void name value r cs (kidsOf cs) H)) := by
  have hd := hat.dicts
  unfold convVal construct
  fuel 4
  sym [Void___init__] []
  refine Made.intro (.inst .Void [(._math_element, .obj e)]) Void_convert rfl rfl rfl (by decide) rfl rfl ?_ ?_ ?_ ?_
  · later
  · at_store
  · same hd
  · intro S2 H2 _ hd2
    fuel 1
    sym [Void_convert] []
    exact .ok rfl rfl (.refl _) hd2

theorem made_mtext (hat : At φ N H S ad e name value r cs la as) :
    RunsBy (B + 9) (fun n => apply ⟨env, call env n, n⟩ (convVal ad .mtext) [.obj e] [] S)
      (Made env (B + 14) φ N S (construct .mtext name value r cs (kidsOf cs) H)) := by
  have hd := hat.dicts
  have h2 := hat.elem
  unfold convVal construct
  fuel 4
  sym [MText___init__] []
  refine Made.intro (mtextObj e) MText_convert rfl rfl rfl (by decide) rfl rfl ?_ ?_ ?_ ?_
  · later
  · at_store
  · same hd
  · intro S2 H2 he2 hd2
    obtain ⟨_, ⟨S', rfl, h4, h5⟩, hk⟩ := run_mtext (env := env) (a := S.length)
      (h := S2) (he2.get (by at_store) rfl) (he2.get (look_old _ h2) rfl) (hd2.get r hat.cell)
    refine ⟨_, .ok rfl rfl ⟨h4, fun ha _ => ?_⟩ (hd2.same h5), fun n hn => hk n (by omega)⟩
    rw [h5 _ (get_lt ha), ha]

theorem made_menclose (hat : At φ N H S ad e name value r cs la as) (hok : ∀ x ∈ cs, ElemOK env N (B + 12) x) :
    RunsBy (B + 9) (fun n => apply ⟨env, call env n, n⟩ (convVal ad .menclose) [.obj e] [] S)
      (Made env (B + 14) φ N S (construct .menclose name value r cs (kidsOf cs) H)) := by
  have h1 := hat.adapter
  have h2 := hat.elem
  have hd := hat.dicts
  have h3 := hd.get r hat.cell
  have hg := get_dictVal (H.cells r) c!"notation"
  unfold convVal construct
  dsimp only
  rw [attributes_bind]
  unfold Attrs.getD
  generalize hq : Dict.get? (H.cells r) c!"notation" = o at hg
  fuel 4
  cases o with
  | none =>
    sym [MathMLElementToLatexConverterAdapter__make_menclose_tag_converter, MEnclose___init__] [h1, h2, h3, run_attributes, hg]
    refine Made.intro (encloseObj e ad c!"longdiv") MEnclose_convert rfl rfl rfl (by decide) rfl rfl ?_ ?_ ?_ (fun S2 H2 he2 hd2 => run_menclose (hat.mono (Ext.trans ?_ he2) hd2) hok (he2.get ?_ rfl))
    · later
    · at_store
    · same hd
    · later
    · at_store
  | some v =>
    sym [MathMLElementToLatexConverterAdapter__make_menclose_tag_converter, MEnclose___init__] [h1, h2, h3, run_attributes, hg]
    refine Made.intro (encloseObj e ad v) MEnclose_convert rfl rfl rfl (by decide) rfl rfl ?_ ?_ ?_ (fun S2 H2 he2 hd2 => run_menclose (hat.mono (Ext.trans ?_ he2) hd2) hok (he2.get ?_ rfl))
    · later
    · at_store
    · same hd
    · later
    · at_store

theorem get_str (o : Option Str) (d : Str) : (o.map Val.str).getD (.str d) = .str (o.getD d) := by
  cases o <;> rfl

theorem made_mfenced (hat : At φ N H S ad e name value r cs la as) (hB : deeps cs ≤ B) (hok : ∀ x ∈ cs, ElemOK env N (B + 12) x) :
    RunsBy (B + 9) (fun n => apply ⟨env, call env n, n⟩ (convVal ad .mfenced) [.obj e] [] S)
      (Made env (B + 14) φ N S (construct .mfenced name value r cs (kidsOf cs) H)) := by
  have h1 := hat.adapter
  have h2 := hat.elem
  have hd := hat.dicts
  have h3 := hd.get r hat.cell
  have hg1 : ∀ k, (Dict.get? (dictVal (H.cells r)) k).getD (.str []) = .str (Attrs.getD (H.cells r) k []) := by
    intro k
    rw [get_dictVal, get_str]; rfl
  unfold convVal construct
  dsimp only
  rw [attributes_bind]
  fuel 4
  sym [MathMLElementToLatexConverterAdapter__make_mfenced_tag_converter, MFenced___init__] [h1, h2, h3, run_attributes, hg1]
  refine Made.intro (fencedObj e ad (Attrs.getD (H.cells r) c!"open" []) (Attrs.getD (H.cells r) c!"close" []) (S.length + 1)) MFenced_convert rfl rfl rfl (by decide) rfl rfl ?_ ?_
    ?_ (fun S2 H2 he2 hd2 => run_mfenced (sp := S.length + 1) (hat.mono (Ext.trans ?_ he2) hd2) hB hok (he2.get ?_ rfl) (he2.get ?_ rfl))
  · later
  · at_store
  · same hd
  · later
  · at_store
  · rw [List.map_map]; at_store

theorem made_mtable (hat : At φ N H S ad e name value r cs la as) (hB : deeps cs ≤ B)
    (hok : ∀ x ∈ cs, ElemOK env (N.add (tabsL cs)) (B + 12) x) :
    RunsBy (B + 9) (fun n => apply ⟨env, call env n, n⟩ (convVal ad .mtable) [.obj e] [] S)
      (Made env (B + 14) φ N S (construct .mtable name value r cs (kidsOf cs) H)) := by
  have h1 := hat.adapter
  have h2 := hat.elem
  have h3 := hat.list
  have hd := hat.dicts
  have he := Ext.app S [plainObj .MTable e ad]
  unfold convVal construct
  dsimp only
  obtain ⟨H', S', l', q1, q2, q3, q4⟩ := run_flags (env := env) (f := S.length) (nm := c!"mtable")
    (fl := c!"innerTable") rfl rfl rfl cs as N _ H
    [(.self, .obj S.length), (.mathml_elements, .obj la), (.«name», .str c!"mtable"), (.flag, .str c!"innerTable")]
    ⟨rfl, rfl, rfl⟩ (look_last (plainObj .MTable e ad) rfl) (hat.kids.mono he) (hd.app _)
  have q1' := q1
  rw [show c!"innerTable" = innerTable from rfl] at q1'
  rw [Stack.M_bind_ok q1']
  fuel 9
  fuel B
  sym [MathMLElementToLatexConverterAdapter__make_mtable_tag_converter, MTable___init__, MTable__add_flag_recursive_if_name] [h1, h2, h3, run_children, q4]
  have he2 := he.trans q2
  have hc : S'[S.length]? = some (plainObj .MTable e ad) := q2.get (look_last _ rfl) rfl
  exact ⟨_, S', H', _, .MTable, MTable_convert, _, rfl, rfl, he2, hc, rfl, rfl, by decide, rfl, tabsL cs, q3,
    fun S2 H2 he3 hd3 => run_mtable (N := N.add (tabsL cs)) ((hat.add (tabsL cs) he2 q3).mono he3 hd3) hok (he3.get hc rfl)⟩

theorem made (hat : At φ N H S ad e name value r cs la as) (hB : deeps cs ≤ B) (K : Kind)
    (hok : K ≠ .mtable → ∀ x ∈ cs, ElemOK env N (B + 12) x)
    (hok' : K = .mtable → ∀ x ∈ cs, ElemOK env (N.add (tabsL cs)) (B + 12) x) :
    RunsBy (B + 9) (fun n => apply ⟨env, call env n, n⟩ (convVal ad K) [.obj e] [] S)
      (Made env (B + 14) φ N S (construct K name value r cs (kidsOf cs) H)) := by
  by_cases hK : K = .mtable
  · subst hK
    exact made_mtable hat hB (hok' rfl)
  replace hok := hok hK
  cases K with
  | math => exact made_math hat hok
  | mi => exact made_mi hat hok
  | mo => exact made_mo hat hok
  | mn => exact made_mn hat hok
  | msqrt => exact made_msqrt hat hok
  | mfenced => exact made_mfenced hat hB hok
  | mfrac => exact made_mfrac hat hok
  | mroot => exact made_mroot hat hok
  | maction => exact made_maction hat hok
  | menclose => exact made_menclose hat hok
  | merror => exact made_merror hat hok
  | void => exact made_void hat
  | msup => exact made_msup hat hok
  | msub => exact made_msub hat hok
  | msubsup => exact made_msubsup hat hok
  | mmultiscripts => exact made_mmultiscripts hat hok
  | mtext => exact made_mtext hat
  | munderover => exact made_munderover hat hok
  | mtable => exact absurd rfl hK
  | mtr => exact made_mtr hat hok
  | underOver => exact made_underOver hat hok
  | spacing => exact made_spacing hat hok

/-! ## The induction -/

theorem elem_of_kids (name value : Str) (r : Nat) (cs : List Elem) (hB : deeps cs ≤ B) (hN : Ripe N (.mk name value r cs))
    (hok : ∀ N : Dom, ∀ x ∈ cs, Ripe N x → ElemOK env N (B + 12) x) :
    ElemOK env N (B + 14) (.mk name value r cs) := by
  intro φ H S ad a h1 hi hd
  unfold IsElem at hi
  obtain ⟨_, la, as, h2, h3, h4⟩ := hi
  have hr := hN.self
  have he := Ext.app S (choiceObjs ad name)
  have hat : At φ N H (S ++ choiceObjs ad name) ad a name value r cs la as :=
    ⟨look_old _ h1, look_old _ h2, look_old _ h3, hr, h4.mono he, hd.app _⟩
  obtain ⟨_, ⟨c, S1, H1, act, cls, f, fs, rfl, m1, m2, m3, m4, m5, m6, m7, P, m9, m8⟩, hk⟩ :=
    made hat hB (classify name) (fun hK x hx => hok _ x hx (hN.kids (by rintro rfl; exact hK rfl) x hx))
      (fun _ x hx => hok _ x hx (hN.inTable x hx))
  refine ⟨c, S1, .method (.obj c) cls .convert, fun n hn => run_choice h1 h2 hk n (by omega), fun n _ => ?_, ?_⟩
  · sym [] [m3, m4, m7]
  · have hcv : convertElem (.mk name value r cs) H = act H1 := by
      rw [convertElem, toConv, Stack.M_bind_ok m1]
    have hg := (good_of_runs (m8 S1 H1 (.refl _) m9)).less (N := N) rfl fun _ h => .inl h
    have hap : ∀ n, apply ⟨env, call env n, n⟩ (.method (.obj c) cls .convert) [] [] S1 =
        call env n f [.obj c] [] S1 := by
      intro n
      simp [apply, m5]
    rw [hcv]
    simp only [hap]
    rcases hg with ⟨s, H', h', g1, g2, g3, g4⟩ | hg
    · exact .inl ⟨s, H', h', g1, g2, (he.trans m2).trans g3, g4⟩
    · obtain ⟨x, H', v, h', g1, g2, g3⟩ := hg
      exact .inr ⟨x, H', v, h', g1, g2, g3.mono (he.trans m2)⟩

theorem Good.le {α β : Type} {K K' : Nat} {h : Store} {x : Except Exc α × Heap} {f : α → β} {F : Nat → Res β}
    (hg : Good K φ N h x f F) (hk : K ≤ K') : Good K' φ N h x f F := by
  rcases hg with ⟨s, H', h', g1, g2, g3⟩ | ⟨e, H', v, h', g1, g2, g3⟩
  · exact .inl ⟨s, H', h', g1, fun n hn => g2 n (Nat.le_trans hk hn), g3⟩
  · exact .inr ⟨e, H', v, h', g1, fun n hn => g2 n (Nat.le_trans hk hn), g3⟩

theorem ElemOK.le {K K' : Nat} {x : Elem} (h : ElemOK env N K x) (hk : K ≤ K') : ElemOK env N K' x := by
  intro φ H S ad a h1 hi hd
  obtain ⟨c, S1, m, p1, p2, p3⟩ := h h1 hi hd
  exact ⟨c, S1, m, fun n hn => p1 n (Nat.le_trans hk hn), fun n hn => p2 n (Nat.le_trans hk hn), p3.le hk⟩

/-- `ElemOK`, as a structure. -/
structure Ok (env : Env) (x : Elem) : Prop where
  ok : ∀ N : Dom, Ripe N x → ElemOK env N (2 * deep x + 12) x

mutual
theorem elemOk : ∀ x : Elem, Ok env x
  | .mk name value r cs => ⟨fun N hN => by
    rw [deep]
    exact elem_of_kids (B := 2 * deeps cs) name value r cs (by omega) hN fun N x hx hN => ElemOK.le ((elemsOk cs x hx).ok N hN) (by
      have := deep_le_deeps hx
      omega)⟩
theorem elemsOk : ∀ (cs : List Elem) (x : Elem), x ∈ cs → Ok env x
  | [], _, hx => absurd hx List.not_mem_nil
  | c :: cs, x, hx => by
    rcases List.mem_cons.1 hx with h | h
    · rw [h]; exact elemOk c
    · exact elemsOk cs x h
end

/-- Every element is converted as the model says; the fuel needed is linear in the number of levels.  The dictionaries of tables inside tables need not
be as in the model: what is missing is the mark, and it is set before it is looked for. -/
theorem elemOK (x : Elem) (hN : Ripe N x) : ElemOK env N (2 * deep x + 12) x := (elemOk x).ok N hN

/-- The value is a new converter, and all dictionaries are as in the model. -/
def Known (env : Env) (K : Nat) (φ : Nat → Nat) (N : Nat → Prop) (S : Store) (x : Except Exc (M Str) × Heap) (res : Res Val) : Prop :=
  ∃ c S1 H1 act cls f fs, res = .ok (.obj c) S1 ∧ x = (.ok act, H1) ∧ Ext S S1 ∧
    S1[c]? = some (.inst cls fs) ∧ findMethod cls .convert = some (cls, .plain, f) ∧
    methodIn cls .convert = some f ∧ cls ≠ .Exception ∧ look .convert fs = none ∧
    Dicts φ N H1 S1 ∧ ∀ S2 H2, Ext S1 S2 → Dicts φ N H2 S2 →
      RunsBy K (fun n => call env n f [.obj c] [] S2) (Agrees φ N S2 (act H2))

theorem made_known {N : Nat → Prop} (hat : At φ N H S ad e name value r cs la as) :
    RunsBy (2 * deeps cs + 9) (fun n => apply ⟨env, call env n, n⟩ (convVal ad (classify name)) [.obj e] [] S)
      (Known env (2 * deeps cs + 14) φ N S (construct (classify name) name value r cs (kidsOf cs) H)) := by
  have hE : EveryL N cs := hat.kids.every
  have hkid : ∀ N' : Dom, EveryL N' cs → ∀ x ∈ cs, ElemOK env N' (2 * deeps cs + 12) x := fun N' h x hx =>
    ElemOK.le (elemOK x (h.ripe.mem x hx)) (by have := deep_le_deeps hx; omega)
  obtain ⟨res, ⟨c, S1, H1, act, cls, f, fs, m0, m1, m2, m3, m4, m5, m6, m7, P, m9, m8⟩, hk⟩ :=
    made (env := env) (B := 2 * deeps cs) hat (by omega) (classify name) (fun _ => hkid _ hE)
      (fun _ => hkid _ (EveryL.below (N := Dom.whole N) hE |>.every (N' := (Dom.whole N).add (tabsL cs)) (fun _ h => .inl h) fun s _ h => .inl h))
  refine ⟨res, ⟨c, S1, H1, act, cls, f, fs, m0, m1, m2, m3, m4, m5, m6, m7, m9.less rfl fun _ h => .inl h, fun S2 H2 he hd => ?_⟩, hk⟩
  obtain ⟨r2, g1, g2⟩ := m8 S2 H2 he (hd.less rfl (fun _ h => h.elim id fun h => h.2))
  exact ⟨r2, g1.less rfl fun _ h => .inl h, g2⟩

end Verif.Src
