import Verif.Source.Dispatch
import Verif.Spec.History
import Verif.Refine.Heap

/-!
# Converters, as objects

What `to_latex_converter` makes, as objects of the store, and that `convert` on such an object does what
the model says, whenever the object was made.
-/

namespace Verif.Src

attribute [local irreducible] vowelsWithAccents accentToLtxCmd specialFontChars allMathSymbolsByChar
  allMathSymbolsByGlyph mathNumberByGlyph allMathOperatorsByChar allMathOperatorsByGlyph

/-- The object at `c` is a converter for the element at `b`, whose attributes are `A`, as adapter.py 29–35
`to_latex_converter` makes it with the adapter at `ad`: an instance of the class for its kind, with the attributes that
`__init__` of that class sets (el_to_tex/usecases.py). -/
def Converter (S : Store) (A : Attrs) (b ad c : Nat) : Kind → Prop
  | .math => ∃ w, S[c]? = some (mathObj w b ad) ∧
      S[w]? = some (.inst .WhiteSpaceNormalizer [])
  | .mi => ∃ u w, S[c]? = some (miObj u w b) ∧ S[u]? = some (.inst .HashUTF8ToLtXConverter []) ∧ S[w]? = some (.inst .WhiteSpaceNormalizer [])
  | .mo => ∃ w, S[c]? = some (moObj w b) ∧ S[w]? = some (.inst .WhiteSpaceNormalizer [])
  | .mn => ∃ w, S[c]? = some (mnObj w b) ∧ S[w]? = some (.inst .WhiteSpaceNormalizer [])
  | .msqrt => S[c]? = some (plainObj .MSqrt b ad)
  | .mfenced => ∃ sp, S[c]? = some (fencedObj b ad (Attrs.getD A c!"open" []) (Attrs.getD A c!"close" []) sp) ∧
      S[sp]? = some (.list (((Attrs.getD A c!"separators" []).map fun x => [x]).map .str))
  | .mfrac => ∃ p, S[c]? = some (parenthesisObj .MFrac b ad p) ∧ S[p]? = some parenObj
  | .mroot => S[c]? = some (plainObj .MRoot b ad)
  | .maction => S[c]? = some (plainObj .MAction b ad)
  | .menclose => S[c]? = some (encloseObj b ad (Attrs.getD A c!"notation" c!"longdiv"))
  | .merror => S[c]? = some (plainObj .MError b ad)
  | .void => S[c]? = some (.inst .Void [(._math_element, .obj b)])
  | .msup => ∃ p q, S[c]? = some (scriptObj .MSup b ad p q) ∧ S[p]? = some parenObj ∧ S[q]? = some bracketObj
  | .msub => ∃ p q, S[c]? = some (scriptObj .MSub b ad p q) ∧ S[p]? = some parenObj ∧ S[q]? = some bracketObj
  | .msubsup => ∃ p q, S[c]? = some (scriptObj .MSubsup b ad p q) ∧ S[p]? = some parenObj ∧ S[q]? = some bracketObj
  | .mmultiscripts => ∃ p, S[c]? = some (parenthesisObj .MMultiscripts b ad p) ∧ S[p]? = some parenObj
  | .mtext => S[c]? = some (mtextObj b)
  | .munderover => S[c]? = some (plainObj .MUnderover b ad)
  | .mtable => S[c]? = some (plainObj .MTable b ad)
  | .mtr => S[c]? = some (plainObj .MTr b ad)
  | .underOver => S[c]? = some (plainObj .GenericUnderOver b ad)
  | .spacing => S[c]? = some (plainObj .GenericSpacingWrapper b ad)

variable {env : Env} {B : Nat}
variable {φ : Nat → Nat} {N : Dom} {H : Heap} {S : Store} {ad e : Nat} {name value : Str} {r : Nat}
  {cs : List Elem} {la : Nat} {as : List Nat} {c : Nat}

/-- A converter is still one if more objects are made and dictionaries are changed. -/
theorem Converter.mono {A : Attrs} {S S' : Store} {b : Nat} (he : Ext S S') {K : Kind} (h : Converter S A b ad c K) :
    Converter S' A b ad c K := by
  cases K
  all_goals unfold Converter at h ⊢; dsimp only at h ⊢
  all_goals first
    | exact he.get h rfl
    | (obtain ⟨w, h1, h2⟩ := h; exact ⟨w, he.get h1 rfl, he.get h2 rfl⟩)
    | (obtain ⟨u, w, h1, h2, h3⟩ := h; exact ⟨u, w, he.get h1 rfl, he.get h2 rfl, he.get h3 rfl⟩)

/-- `convert` on the converter does what the model says. -/
def Converts (env : Env) (k : Nat) (φ : Nat → Nat) (N : Dom) (H : Heap) (S : Store) (c : Nat) (x : Except Exc (M Str) × Heap) : Prop :=
  ∃ act cls f fs, x = (.ok act, H) ∧ S[c]? = some (.inst cls fs) ∧ findMethod cls .convert = some (cls, .plain, f) ∧
    methodIn cls .convert = some f ∧ cls ≠ .Exception ∧ look .convert fs = none ∧
    RunsBy k (fun n => call env n f [.obj c] [] S) (Agrees φ N S (act H))

theorem Converts.intro {k : Nat} {x : Except Exc (M Str) × Heap} {act : M Str} {cls : Ident}
    {fs : List (Ident × Val)} (f : Func) (hx : x = (.ok act, H)) (hc : S[c]? = some (.inst cls fs))
    (h1 : findMethod cls .convert = some (cls, .plain, f)) (h2 : methodIn cls .convert = some f)
    (h3 : cls ≠ .Exception) (h4 : look .convert fs = none)
    (hr : RunsBy k (fun n => call env n f [.obj c] [] S) (Agrees φ N S (act H))) : Converts env k φ N H S c x :=
  ⟨act, cls, f, fs, hx, hc, h1, h2, h3, h4, hr⟩

theorem run_converter (hat : At φ N H S ad e name value r cs la as) (hB : deeps cs ≤ B) (hok : ∀ x ∈ cs, ElemOK env N (B + 12) x) {K : Kind}
    (hm : K = .mtable → addFlagRecursiveIfName c!"mtable" innerTable cs H = (.ok (), H)) (h : Converter S (H.cells r) e ad c K) : Converts env (B + 14) φ N H S c (construct K name value r cs (kidsOf cs) H) := by
  have hd := hat.dicts
  cases K
  all_goals unfold Converter at h; dsimp only at h; unfold construct; dsimp only
  case math =>
    obtain ⟨w, h, hw⟩ := h
    exact .intro Math_convert rfl h rfl rfl (by decide) rfl (run_math hw hat hok h)
  case mi =>
    obtain ⟨u, w, h, hu, hw⟩ := h
    exact .intro MI_convert rfl h rfl rfl (by decide) rfl
      (Yields.agrees (run_mi h hu hw hat.elem (hd.get r hat.cell)) rfl hd)
  case mo =>
    obtain ⟨w, h, hw⟩ := h
    exact .intro MO_convert rfl h rfl rfl (by decide) rfl (Yields.agrees (run_mo h hw hat.elem) rfl hd)
  case mn =>
    obtain ⟨w, h, hw⟩ := h
    exact .intro MN_convert rfl h rfl rfl (by decide) rfl (Yields.agrees (run_mn h hw hat.elem) rfl hd)
  case msqrt => exact .intro MSqrt_convert rfl h rfl rfl (by decide) rfl (run_msqrt hat hok h)
  case mfenced =>
    obtain ⟨sp, h, hs⟩ := h
    exact .intro MFenced_convert rfl h rfl rfl (by decide) rfl (run_mfenced hat hB hok h hs)
  case mfrac =>
    obtain ⟨p, h, hp⟩ := h
    exact .intro MFrac_convert rfl h rfl rfl (by decide) rfl (run_mfrac hat hok h hp)
  case mroot => exact .intro MRoot_convert rfl h rfl rfl (by decide) rfl (run_mroot hat hok h)
  case maction => exact .intro MAction_convert rfl h rfl rfl (by decide) rfl (run_maction hat hok h)
  case menclose => exact .intro MEnclose_convert rfl h rfl rfl (by decide) rfl (run_menclose hat hok h)
  case merror => exact .intro MError_convert rfl h rfl rfl (by decide) rfl (run_merror hat hok h)
  case void =>
    refine .intro Void_convert rfl h rfl rfl (by decide) rfl ?_
    fuel 1
    sym [Void_convert] []
    exact .ok rfl rfl (.refl _) hd
  case msup =>
    obtain ⟨p, q, h, hp, hq⟩ := h
    exact .intro MSup_convert rfl h rfl rfl (by decide) rfl (run_msup hat hok h hp hq)
  case msub =>
    obtain ⟨p, q, h, hp, hq⟩ := h
    exact .intro MSub_convert rfl h rfl rfl (by decide) rfl (run_msub hat hok h hp hq)
  case msubsup =>
    obtain ⟨p, q, h, hp, hq⟩ := h
    exact .intro MSubsup_convert rfl h rfl rfl (by decide) rfl (run_msubsup hat hok h hp hq)
  case mmultiscripts =>
    obtain ⟨p, h, hp⟩ := h
    exact .intro MMultiscripts_convert rfl h rfl rfl (by decide) rfl (run_mmultiscripts hat hok h hp)
  case mtext =>
    refine .intro MText_convert rfl h rfl rfl (by decide) rfl ?_
    obtain ⟨_, ⟨S', rfl, h4, h5⟩, hk⟩ := run_mtext (env := env) h hat.elem (hd.get r hat.cell)
    refine ⟨_, .ok rfl rfl ⟨h4, fun ha _ => ?_⟩ (hd.same h5), fun n hn => hk n (by omega)⟩
    rw [h5 _ (get_lt ha), ha]
  case munderover => exact .intro MUnderover_convert rfl h rfl rfl (by decide) rfl (run_munderover hat hok h)
  case mtable =>
    rw [Stack.M_bind_ok (hm rfl)]
    exact .intro MTable_convert rfl h rfl rfl (by decide) rfl (run_mtable hat hok h)
  case mtr => exact .intro MTr_convert rfl h rfl rfl (by decide) rfl (run_mtr hat hok h)
  case underOver => exact .intro GenericUnderOver_convert rfl h rfl rfl (by decide) rfl (run_underOver hat hok h)
  case spacing => exact .intro GenericSpacingWrapper_convert rfl h rfl rfl (by decide) rfl (run_spacing hat hok h)

/-- The objects of before are the first ones. -/
macro "before" : tactic => `(tactic| repeat (first | exact List.prefix_rfl | refine List.IsPrefix.trans ?_ (List.prefix_append _ _)))

/-- The value is a converter, and all objects of before are as before. -/
def Created (S : Store) (A : Attrs) (e ad : Nat) (K : Kind) (res : Res Val) : Prop :=
  ∃ c S1, res = .ok (.obj c) S1 ∧ S <+: S1 ∧ Converter S1 A e ad c K

theorem created (hat : At φ N H S ad e name value r cs la as) {K : Kind} (hK : K ≠ .mtable) :
    RunsBy 9 (fun n => apply ⟨env, call env n, n⟩ (convVal ad K) [.obj e] [] S) (Created S (H.cells r) e ad K) := by
  have h1 := hat.adapter
  have h2 := hat.elem
  have h3 := hat.dicts.get r hat.cell
  cases K
  case mtable => exact absurd rfl hK
  all_goals unfold convVal; dsimp only
  all_goals fuel 4
  case math =>
    sym [MathMLElementToLatexConverterAdapter__make_math_tag_converter, Math___init__] [h1, h2]
    exact ⟨_, _, rfl, by before, S.length + 1, by at_store, by at_store⟩
  case mi =>
    sym [MI___init__] [h1, h2]
    exact ⟨_, _, rfl, by before, S.length + 1, S.length + 2, by at_store, by at_store, by at_store⟩
  case mo =>
    sym [MO___init__] [h1, h2]
    exact ⟨_, _, rfl, by before, S.length + 1, by at_store, by at_store⟩
  case mn =>
    sym [MN___init__] [h1, h2]
    exact ⟨_, _, rfl, by before, S.length + 1, by at_store, by at_store⟩
  case msqrt =>
    sym [MathMLElementToLatexConverterAdapter__make_msqrt_tag_converter, MSqrt___init__] [h1, h2]
    exact ⟨_, _, rfl, by before, by at_store⟩
  case mfenced =>
    have hg1 : ∀ k, (Dict.get? (dictVal (H.cells r)) k).getD (.str []) = .str (Attrs.getD (H.cells r) k []) := by
      intro k
      rw [get_dictVal, get_str]; rfl
    sym [MathMLElementToLatexConverterAdapter__make_mfenced_tag_converter, MFenced___init__] [h1, h2, h3, run_attributes, hg1]
    refine ⟨_, _, rfl, by before, S.length + 1, ?_, ?_⟩
    · at_store
    · rw [List.map_map]; at_store
  case mfrac =>
    sym [MathMLElementToLatexConverterAdapter__make_mfrac_tag_converter, MFrac___init__, ParenthesisWrapper___init__, Wrapper___init__] [h1, h2]
    exact ⟨_, _, rfl, by before, S.length + 1, by at_store, by at_store⟩
  case mroot =>
    sym [MathMLElementToLatexConverterAdapter__make_mroot_tag_converter, MRoot___init__] [h1, h2]
    exact ⟨_, _, rfl, by before, by at_store⟩
  case maction =>
    sym [MathMLElementToLatexConverterAdapter__make_maction_tag_converter, MAction___init__] [h1, h2]
    exact ⟨_, _, rfl, by before, by at_store⟩
  case menclose =>
    have hg := get_dictVal (H.cells r) c!"notation"
    unfold Created Converter Attrs.getD
    generalize hq : Dict.get? (H.cells r) c!"notation" = o at hg
    cases o with
    | none =>
      sym [MathMLElementToLatexConverterAdapter__make_menclose_tag_converter, MEnclose___init__] [h1, h2, h3, run_attributes, hg]
      exact ⟨_, _, rfl, by before, by at_store⟩
    | some v =>
      sym [MathMLElementToLatexConverterAdapter__make_menclose_tag_converter, MEnclose___init__] [h1, h2, h3, run_attributes, hg]
      exact ⟨_, _, rfl, by before, by at_store⟩
  case merror =>
    sym [MathMLElementToLatexConverterAdapter__make_merror_tag_converter, MError___init__] [h1, h2]
    exact ⟨_, _, rfl, by before, by at_store⟩
  case void =>
    sym [Void___init__] [h1, h2]
    exact ⟨_, _, rfl, by before, by at_store⟩
  case msup =>
    sym [MathMLElementToLatexConverterAdapter__make_msup_tag_converter, MSup___init__, ParenthesisWrapper___init__, Wrapper___init__, BracketWrapper___init__] [h1, h2]
    exact ⟨_, _, rfl, by before, S.length + 1, S.length + 2, by at_store, by at_store, by at_store⟩
  case msub =>
    sym [MathMLElementToLatexConverterAdapter__make_msub_tag_converter, MSub___init__, ParenthesisWrapper___init__, Wrapper___init__, BracketWrapper___init__] [h1, h2]
    exact ⟨_, _, rfl, by before, S.length + 1, S.length + 2, by at_store, by at_store, by at_store⟩
  case msubsup =>
    sym [MathMLElementToLatexConverterAdapter__make_msubsup_tag_converter, MSubsup___init__, ParenthesisWrapper___init__, Wrapper___init__, BracketWrapper___init__] [h1, h2]
    exact ⟨_, _, rfl, by before, S.length + 1, S.length + 2, by at_store, by at_store, by at_store⟩
  case mmultiscripts =>
    sym [MathMLElementToLatexConverterAdapter__make_mmultiscripts_tag_converter, MMultiscripts___init__, ParenthesisWrapper___init__, Wrapper___init__] [h1, h2]
    exact ⟨_, _, rfl, by before, S.length + 1, by at_store, by at_store⟩
  case mtext =>
    sym [MText___init__] [h1, h2]
    exact ⟨_, _, rfl, by before, by at_store⟩
  case munderover =>
    sym [MathMLElementToLatexConverterAdapter__make_munderover_tag_converter, MUnderover___init__] [h1, h2]
    exact ⟨_, _, rfl, by before, by at_store⟩
  case mtr =>
    sym [MathMLElementToLatexConverterAdapter__make_mtr_tag_converter, MTr___init__] [h1, h2]
    exact ⟨_, _, rfl, by before, by at_store⟩
  case underOver =>
    sym [MathMLElementToLatexConverterAdapter__make_generic_under_over_converter, GenericUnderOver___init__] [h1, h2]
    exact ⟨_, _, rfl, by before, by at_store⟩
  case spacing =>
    sym [MathMLElementToLatexConverterAdapter__make_generic_spacing_wrapper, GenericSpacingWrapper___init__] [h1, h2]
    exact ⟨_, _, rfl, by before, by at_store⟩

/-- The constructor of a table marks the tables inside it. -/
theorem created_table (hat : At φ N H S ad e name value r cs la as) (hB : deeps cs ≤ B) :
    RunsBy (B + 9) (fun n => apply ⟨env, call env n, n⟩ (convVal ad .mtable) [.obj e] [] S) fun res =>
      ∃ c S1 H1, res = .ok (.obj c) S1 ∧ addFlagRecursiveIfName c!"mtable" innerTable cs H = (.ok (), H1) ∧ Ext S S1 ∧
        Dicts φ (N.add (tabsL cs)) H1 S1 ∧ Converter S1 (H1.cells r) e ad c .mtable := by
  have h1 := hat.adapter
  have h2 := hat.elem
  have h3 := hat.list
  have hd := hat.dicts
  have he := Ext.app S [plainObj .MTable e ad]
  unfold convVal
  dsimp only
  obtain ⟨H', S', l', q1, q2, q3, q4⟩ := run_flags (env := env) (f := S.length) (nm := c!"mtable")
    (fl := c!"innerTable") rfl rfl rfl cs as N _ H
    [(.self, .obj S.length), (.mathml_elements, .obj la), (.«name», .str c!"mtable"), (.flag, .str c!"innerTable")]
    ⟨rfl, rfl, rfl⟩ (look_last (plainObj .MTable e ad) rfl) (hat.kids.mono he) (hd.app _)
  fuel 9
  fuel B
  sym [MathMLElementToLatexConverterAdapter__make_mtable_tag_converter, MTable___init__, MTable__add_flag_recursive_if_name] [h1, h2, h3, run_children, q4]
  exact ⟨_, S', H', rfl, q1, he.trans q2, q3, q2.get (look_last _ rfl) rfl⟩

/-! ## Marks that are there already -/

mutual
theorem flag_same {H : Heap} {nm fl : Str} : ∀ (x : Elem), (∀ v r cs, Spec.Within (.mk nm v r cs) x → Dict.set (H.cells r) fl fl = H.cells r) →
    addFlag1 nm fl x H = (.ok (), H)
  | .mk m v r cs, h => by
    have h1 := flags_same cs fun c hc v r cs' hw => h v r cs' (.child hc hw)
    rw [addFlag1]
    by_cases hm : m = nm
    · subst hm
      have h2 : H.setItem r fl fl = H := by
        unfold Heap.setItem
        rw [h v r cs .self]
        have : (fun r' => if r' = r then H.cells r else H.cells r') = H.cells := by
          funext r'
          split
          · next e => rw [e]
          · rfl
        rw [this]
      simp only [beq_self_eq_true, if_true]
      have h3 : (modifyThe Heap (fun h => h.setItem r fl fl) : M PUnit) H = (.ok (), H) := by
        show (Except.ok (), H.setItem r fl fl) = _
        rw [h2]
      rw [Stack.M_bind_ok h3]
      exact h1
    · rw [if_neg (by simpa using hm)]
      exact h1
theorem flags_same {H : Heap} {nm fl : Str} : ∀ (cs : List Elem), (∀ c ∈ cs, ∀ v r cs', Spec.Within (.mk nm v r cs') c →
    Dict.set (H.cells r) fl fl = H.cells r) → addFlagRecursiveIfName nm fl cs H = (.ok (), H)
  | [], _ => by rw [addFlagRecursiveIfName]; rfl
  | c :: cs, h => by
    rw [addFlagRecursiveIfName, Stack.M_bind_ok (flag_same c (h c List.mem_cons_self))]
    exact flags_same cs fun c' hc => h c' (List.mem_cons_of_mem _ hc)
end

theorem classify_table {name : Str} (h : classify name = .mtable) : name = c!"mtable" := by
  have key : ∀ p ∈ dispatchTable, p.2 = .mtable → p.1 = c!"mtable" := by decide +kernel
  unfold classify at h
  dsimp only at h
  cases hg : Dict.get? dispatchTable (if name ≠ [] then name else c!"void") with
  | none => rw [hg] at h; cases h
  | some K =>
    rw [hg] at h
    cases h
    have := key _ (Dict.get?_mem hg) rfl
    dsimp only at this
    split at this
    · exact this
    · exact absurd this (by decide)

end Verif.Src
