import Verif.Source.Reading
import Verif.Model.Api

/-!
# The whole call

`MathMLToLaTeX.convert`, interpreted, does what `Verif.convert` says.
-/

namespace Verif.Src

attribute [local irreducible] vowelsWithAccents accentToLtxCmd specialFontChars allMathSymbolsByChar
  allMathSymbolsByGlyph mathNumberByGlyph allMathOperatorsByChar allMathOperatorsByGlyph

variable {env : Env} {φ : Nat → Nat} {N : Nat → Prop}

/-! ## Converters for the `math` elements -/

/-- The converter of a `math` element. -/
structure MathConv (φ : Nat → Nat) (N : Nat → Prop) (S : Store) (x : Elem) (c : Nat) : Prop where
  ok : ∃ w e ad, S[c]? = some (mathObj w e ad) ∧ S[w]? = some (.inst .WhiteSpaceNormalizer []) ∧
    S[ad]? = some adapterObj ∧ IsElem φ N S x e

theorem MathConv.mono {S S' : Store} {x : Elem} {c : Nat} (h : MathConv φ N S x c) (he : Ext S S') :
    MathConv φ N S' x c := by
  obtain ⟨w, e, ad, h1, h2, h3, h4⟩ := h.ok
  exact ⟨w, e, ad, he.get h1 rfl, he.get h2 rfl, he.get h3 rfl, h4.mono he⟩

/-- The converters of `math` elements. -/
def MathConvs (φ : Nat → Nat) (N : Nat → Prop) (S : Store) : List Elem → List Nat → Prop
  | [], [] => True
  | x :: xs, c :: cs => MathConv φ N S x c ∧ MathConvs φ N S xs cs
  | _, _ => False

theorem MathConvs.mono {S S' : Store} (he : Ext S S') : ∀ {xs : List Elem} {cs : List Nat},
    MathConvs φ N S xs cs → MathConvs φ N S' xs cs
  | [], [], _ => trivial
  | _ :: _, _ :: _, h => ⟨h.1.mono he, h.2.mono he⟩
  | [], _ :: _, h => h
  | _ :: _, [], h => h

/-- converter.py 10 -/
abbrev constructExpr : Expr :=
  .call (.attr (.call (.name .MathMLElementToLatexConverterAdapter) [] [] []) .to_latex_converter) [.name .mathml_element] [] []
/-- converter.py 15 -/
abbrev convertExpr : Expr := .call (.attr (.name .to_latex_converters) .convert) [] [] []

theorem construct_one {S : Store} {H : Heap} {x : Elem} {a : Nat} (hx : x.name = c!"math")
    (hi : IsElem φ N S x a) (hd : Dicts φ N H S) {l : Locals}
    (hl : look .MathMLElementToLatexConverterAdapter l = none) :
    ∃ c S', Ext S S' ∧ Dicts φ N H S' ∧ MathConv φ N S' x c ∧ ∀ n, 8 ≤ n →
      eval ⟨env, call env n, n⟩ constructExpr ((.mathml_element, .obj a) :: l) S = .ok (.obj c) S' := by
  obtain ⟨name, value, r, cs⟩ := x
  cases hx
  have hi0 := hi
  unfold IsElem at hi
  obtain ⟨hr, la, as, h2, h3, h4⟩ := hi
  have hm : ∀ n, 4 ≤ n → apply ⟨env, call env n, n⟩ (convVal S.length .math) [.obj a] []
      (S ++ [adapterObj] ++ [.dict (convDict S.length)]) =
      .ok (.obj (S.length + 2)) (S ++ [adapterObj] ++ [.dict (convDict S.length)] ++
        [mathObj (S.length + 3) a S.length] ++ [.inst .WhiteSpaceNormalizer []]) := by
    intro n hn
    obtain ⟨n, rfl⟩ : ∃ m, n = m + 4 := ⟨n - 4, by omega⟩
    unfold convVal
    sym [MathMLElementToLatexConverterAdapter__make_math_tag_converter, Math___init__] [h2]
  have hch := run_choice (env := env) (S := S ++ [adapterObj]) (ad := S.length) (look_last _ rfl) (look_old _ h2) (k := 4) hm
  refine ⟨S.length + 2, S ++ [adapterObj] ++ [.dict (convDict S.length)] ++
        [mathObj (S.length + 3) a S.length] ++ [.inst .WhiteSpaceNormalizer []], ?_, ?_, ?_, fun n hn => ?_⟩
  · later
  · same hd
  · refine ⟨S.length + 3, a, S.length, ?_, ?_, ?_, ?_⟩
    · at_store
    · at_store
    · at_store
    · exact hi0.mono (by later)
  · replace hch := hch n (by omega)
    sym [] [hl, hch]

theorem construct_all {H : Heap} {l : Locals} (hl : look .MathMLElementToLatexConverterAdapter l = none) :
    ∀ (xs : List Elem) (as : List Nat) (S : Store), (∀ x ∈ xs, x.name = c!"math") → IsElems φ N S xs as →
      Dicts φ N H S → ∃ cs S', Ext S S' ∧ Dicts φ N H S' ∧ MathConvs φ N S' xs cs ∧ ∀ n, 8 ≤ n →
        compRes (holds ⟨env, call env n, n⟩ []) (eval ⟨env, call env n, n⟩ constructExpr) .mathml_element l
          (as.map .obj) S = .ok (cs.map .obj) S'
  | [], [], S, _, _, hd => ⟨[], S, .refl S, hd, trivial, fun _ _ => rfl⟩
  | x :: xs, a :: as, S, hx, hi, hd => by
    unfold IsElems at hi
    obtain ⟨c, S1, p1, p2, p3, p4⟩ := construct_one (env := env) (hx x List.mem_cons_self) hi.1 hd hl
    obtain ⟨cs, S2, q1, q2, q3, q4⟩ := construct_all hl xs as S1
      (fun x h => hx x (List.mem_cons_of_mem _ h)) (hi.2.mono p1) p2
    refine ⟨c :: cs, S2, p1.trans q1, q2, ⟨p3.mono q1, q3⟩, fun n hn => ?_⟩
    rw [List.map_cons, compRes, holds, Res.bind_ok, if_pos rfl, p4 n (by omega), Res.bind_ok, q4 n (by omega)]
    rfl
  | [], _ :: _, _, _, hi, _ => by simp [IsElems] at hi
  | _ :: _, [], _, _, hi, _ => by simp [IsElems] at hi

/-- The action of a `math` element. -/
def mathAct (x : Elem) : M Str := mathConvert (kidsOf x.children)

theorem constructAll_math (H : Heap) : ∀ xs : List Elem, (∀ x ∈ xs, x.name = c!"math") →
    constructAll xs H = (.ok (xs.map mathAct), H)
  | [], _ => rfl
  | .mk name value r cs :: xs, hx => by
    cases (hx _ List.mem_cons_self : name = c!"math")
    have h1 : toConv (.mk c!"math" value r cs) H = (.ok (mathConvert (kidsOf cs)), H) := by
      rw [toConv]; rfl
    rw [constructAll, Stack.M_bind_ok h1, Stack.M_bind_ok (constructAll_math H xs fun x h => hx x (List.mem_cons_of_mem _ h))]
    rfl

theorem convert_one {S : Store} {H : Heap} {x : Elem} {c : Nat} (hc : MathConv φ N S x c) (hd : Dicts φ N H S)
    {l : Locals} :
    Good (2 * deep x + 12) φ N S (mathAct x H) .str (fun n => eval ⟨env, call env n, n⟩ convertExpr ((.to_latex_converters, .obj c) :: l) S) := by
  obtain ⟨name, value, r, cs⟩ := x
  obtain ⟨w, e, ad, h1, h2, h3, h4⟩ := hc.ok
  unfold IsElem at h4
  obtain ⟨hr, la, as, h5, h6, h7⟩ := h4
  rw [deep]
  have hg := good_of_runs (run_math (B := 2 * deeps cs) (env := env) (φ := φ) (N := N) (H := H) h2 ⟨h3, h5, h6, hr, h7, hd⟩
    (fun x hx => ElemOK.le (elemOK x (h7.ripe x hx)) (by have := deep_le_deeps hx; omega)) h1)
  unfold mathAct Elem.children
  rcases hg with ⟨s, H', h', g1, g2, g3, g4⟩ | ⟨e, H', v, h', g1, g2, g3⟩
  · refine .inl ⟨s, H', h', g1, fun n hn => ?_, g3, g4⟩
    replace g2 := g2 n (by omega)
    dsimp only at g2 ⊢
    sym [] [h1, g2]
  · refine .inr ⟨e, H', v, h', g1, fun n hn => ?_, g3⟩
    replace g2 := g2 n (by omega)
    dsimp only at g2 ⊢
    sym [] [h1, g2]

theorem convert_all {l : Locals} : ∀ (xs : List Elem) (cs : List Nat) (S : Store) (H : Heap), MathConvs φ N S xs cs →
      Dicts φ N H S → Good (2 * deeps xs + 12) φ N S (convertAll (xs.map mathAct) H) (fun ss => ss.map .str) (fun n =>
        compRes (holds ⟨env, call env n, n⟩ []) (eval ⟨env, call env n, n⟩ convertExpr) .to_latex_converters l
          (cs.map .obj) S)
  | [], [], S, H, _, hd => .inl ⟨[], H, S, rfl, fun n _ => rfl, .refl S, hd⟩
  | x :: xs, c :: cs, S, H, hc, hd => by
    rw [List.map_cons]
    unfold convertAll
    rw [deeps]
    rcases convert_one (env := env) (l := l) hc.1 hd with
      ⟨s, H', h', hx, hr, he, hd'⟩ | ⟨e, H', v, h', hx, hr, hR⟩
    · rw [Stack.M_bind_ok hx]
      rcases convert_all (l := l) xs cs h' H' (hc.2.mono he) hd' with
        ⟨ss, H'', h'', hx', hr', he', hd''⟩ | ⟨e, H'', v, h'', hx', hr', hR⟩
      · rw [Stack.M_bind_ok hx']
        refine .inl ⟨s :: ss, H'', h'', rfl, fun n hn => ?_, he.trans he', hd''⟩
        have hr := hr n (by omega)
        have hr' := hr' n (by omega)
        dsimp only at hr hr' ⊢
        rw [List.map_cons, compRes, holds, Res.bind_ok, if_pos rfl, hr, Res.bind_ok, hr', Res.bind_ok]
        rfl
      · rw [Stack.M_bind_error hx']
        refine .inr ⟨e, H'', v, h'', rfl, fun n hn => ?_, hR.mono he⟩
        have hr := hr n (by omega)
        have hr' := hr' n (by omega)
        dsimp only at hr hr' ⊢
        rw [List.map_cons, compRes, holds, Res.bind_ok, if_pos rfl, hr, Res.bind_ok, hr']
        rfl
    · rw [Stack.M_bind_error hx]
      refine .inr ⟨e, H', v, h', rfl, fun n hn => ?_, hR⟩
      have hr := hr n (by omega)
      dsimp only at hr ⊢
      rw [List.map_cons, compRes, holds, Res.bind_ok, if_pos rfl, hr]
      rfl
  | [], _ :: _, _, _, hc, _ => hc.elim
  | _ :: _, [], _, _, hc, _ => hc.elim

/-! ## From the text to the result -/

theorem buildElems_math : ∀ (nodes : List Node) (H : Heap), (∀ x ∈ nodes, ∃ ps cs, x = .elem c!"math" ps cs) →
    ∀ x ∈ (buildElems nodes H).1, x.name = c!"math"
  | [], H, _, x, hx => by rw [buildElems] at hx; exact absurd hx List.not_mem_nil
  | n :: ns, H, hn, x, hx => by
    obtain ⟨ps, cs, rfl⟩ := hn n List.mem_cons_self
    rw [buildElems_cons, buildElem_elem] at hx
    rcases List.mem_cons.1 hx with h | h
    · rw [h]; rfl
    · exact buildElems_math ns _ (fun x h => hn x (List.mem_cons_of_mem _ h)) x h

theorem join_nil_flatten : ∀ ss : List Str, join c!"" ss = ss.flatten
  | [] => rfl
  | [s] => by simp [join]
  | s :: t :: ss => by
    rw [join, join_nil_flatten (t :: ss)]
    simp

/-- What the factory leaves in the store. -/
abbrev withReader (S : Store) : Store :=
  S ++ [builderObj] ++ [handlerObj (S.length + 2)] ++ [.dict []] ++ [readerObj c!"" S.length (S.length + 1)]

/-- The adapter made by the factory. -/
theorem run_factory (S : Store) (n : Nat) : call env (n + 4) fn_make_xml_to_mathml_adapter [] [] S =
    .ok (.obj (S.length + 3)) (withReader S) := by
  sym [fn_make_xml_to_mathml_adapter, ErrorHandler___init__, XmlToMathMLAdapter___init__]
  rfl

theorem withReader_ready (S : Store) :
    Ready (withReader S) (S.length + 3) S.length (S.length + 1) (S.length + 2) c!"" := by
  refine ⟨?_, ?_, ?_, ?_⟩ <;> simp

/-- What the caller of the function sees. -/
inductive Seen : Except Exc Str → Res Val → Prop
  | ok (s : Str) (S : Store) : Seen (.ok s) (.ok (.str s) S)
  | exc {e : Exc} {v : Val} {S : Store} (h : Raised S v e) : Seen (.error e) (.exc v S)

theorem fixError_index {xml : Str} {er : ParseErr} {e : Exc} (h : fixError env xml er = .error e) :
    e = .indexError := by
  unfold fixError at h
  split at h
  · cases h
  · unfold fixMissingAttribute at h
    split at h
    · next hv =>
      cases h
      unfold fixMissingAttributeValue at hv
      repeat' (split at hv)
      all_goals (cases hv; try rfl)
    · split at h <;> cases h

/-- The exceptions of the reader are those of the libraries. -/
theorem mathmlElements_raised : ∀ (n : Nat) (o : Option Exc) (xml : Str) (e : Exc),
    (∀ e, o = some e → ∀ S : Store, Raised S (.exc e) e) → (mathmlElements env n o xml).1 = .error e →
    ∀ S : Store, Raised S (.exc e) e
  | 0, some e', xml, e, ho, h => by
    injection h with h
    exact h ▸ ho e' rfl
  | 0, none, xml, e, _, h => by cases h
  | n + 1, o, xml, e, _, h => by
    rw [mathmlElements] at h
    split at h
    · cases h
    · next er _ =>
      split at h
      · next hf =>
        injection h with h
        rw [fixError_index hf] at h
        subst h
        exact fun S => rfl
      · refine mathmlElements_raised n _ _ e (fun e' he' S => ?_) h
        cases he'
        cases er <;> rfl

/-- The whole call, from a bound for the reader and one for the depth of what is read. -/
theorem run_convert_of {K : Nat} (xml : Str) (S0 : Store) (B : Nat)
    (hB : ∀ nodes, (Adapter.fresh.domElements env xml).1 = .ok nodes → Spec.levelsAll nodes ≤ B)
    (hrun : RunsBy K (fun n => call env n XmlToMathMLAdapter_convert [.obj (S0.length + 3), .str xml] [] (withReader S0))
      (Elements (withReader S0).length (fun t S' => Ready S' (S0.length + 3) S0.length (S0.length + 1) (S0.length + 2) t ∧
        (withReader S0).length ≤ S'.length) (Adapter.fresh.domElements env xml).1)) :
    RunsBy (max K (2 * B + 12) + 1) (fun n => call env n MathMLToLaTeX_convert [.str xml] [] S0) (Seen (convert env xml)) := by
  have hrd := withReader_ready S0
  have hr1 := hrd.1
  have hfac : ∀ n, 4 ≤ n → call env n fn_make_xml_to_mathml_adapter [] [] S0 =
      .ok (.obj (S0.length + 3)) (withReader S0) := by
    intro n hn
    obtain ⟨n, rfl⟩ : ∃ m, n = m + 4 := ⟨n - 4, by omega⟩
    exact run_factory S0 n
  obtain ⟨_, hres, hk⟩ := hrun
  cases hres with
  | @raised e _ S hx _ =>
    have hc : convert env xml = .error e := by rw [convert, hx]
    fuel 1
    fuel (max K (2 * B + 12))
    sym [MathMLToLaTeX_convert] [hfac, hr1, hk]
    rw [hc]
    exact .exc (mathmlElements_raised 5 none _ e (fun _ h => by cases h) hx S)
  | @found nodes φ H es as a _ S hx he hd hi ha _ _ =>
    have hm := mathmlElements_math 5 none _ nodes hx
    have hle : deeps es ≤ B := by
      have h1 := buildElems_deep nodes Heap.empty
      rw [he] at h1
      rw [h1]
      exact hB nodes hx
    have hes : ∀ x ∈ es, x.name = c!"math" := by
      have := buildElems_math nodes Heap.empty hm
      rwa [he] at this
    obtain ⟨cs, S1, p1, p2, p3, p4⟩ := construct_all (env := env) (φ := φ) (N := H.next) (H := H)
      (l := [(.mathml_elements, .obj a), (.mathml, .str xml)]) rfl es as S hes hi hd
    have hg := convert_all (env := env)
      (l := [(.mathml_elements_to_latex_converters, .obj S1.length), (.mathml_elements, .obj a), (.mathml, .str xml)])
      es cs (S1 ++ [.list (cs.map .obj)]) H (p3.mono (.app _ _)) (p2.app _)
    have hc : convert env xml = (((convertAll (es.map mathAct) H).1).map fun ss => strip ss.flatten) := by
      rw [convert, hx]
      show (renderAll (buildElems nodes Heap.empty).1 (buildElems nodes Heap.empty).2).1 = _
      rw [he, renderAll, Stack.M_bind_ok (constructAll_math H es hes)]
      rcases hg with ⟨ss, H', h', g1, _⟩ | ⟨e, H', v, h', g1, _⟩
      · rw [Stack.M_bind_ok g1, g1]; rfl
      · rw [Stack.M_bind_error g1, g1]; rfl
    rw [hc]
    rcases hg with ⟨ss, H', h', g1, g2, g3, g4⟩ | ⟨e, H', v, h', g1, g2, g3⟩
    · rw [g1]
      fuel 1
      fuel (max K (2 * B + 12))
      sym [MathMLToLaTeX_convert] [hfac, hr1, hk, ha, p4, g2, strings_map]
      rw [join_nil_flatten]
      exact .ok _ _
    · rw [g1]
      fuel 1
      fuel (max K (2 * B + 12))
      sym [MathMLToLaTeX_convert] [hfac, hr1, hk, ha, p4, g2]
      exact .exc g3.raised

/-- The whole call, whatever objects there are. -/
theorem run_convert (xml : Str) (S0 : Store) :
    Runs (fun n => call env n MathMLToLaTeX_convert [.str xml] [] S0) (Seen (convert env xml)) := by
  obtain ⟨r, hq, k, hk⟩ := run_reader (env := env) (withReader_ready S0) xml
  cases hx : (Adapter.fresh.domElements env xml).1 with
  | ok nodes =>
    exact (run_convert_of xml S0 (Spec.levelsAll nodes) (fun ns h => by rw [hx] at h; cases h; exact Nat.le_refl _) ⟨r, hq, hk⟩).runs
  | error e => exact (run_convert_of xml S0 0 (fun ns h => by rw [hx] at h; cases h) ⟨r, hq, hk⟩).runs

/-- The whole call, with a bound on the fuel for a text that is accepted at once. -/
theorem run_convert_accepted (xml : Str) (S0 : Store) {dom : Doc}
    (hp : env.parse (removeMsWordPrefixes (removeLineBreaks xml)) = .ok dom) :
    RunsBy (2 * Spec.levelsAll (mathElements dom) + 13) (fun n => call env n MathMLToLaTeX_convert [.str xml] [] S0)
      (Seen (convert env xml)) := by
  refine (run_convert_of xml S0 (Spec.levelsAll (mathElements dom)) (fun ns hx => ?_)
    (run_reader_accepted (withReader_ready S0) xml hp)).le (by omega)
  have hdom : (Adapter.fresh.domElements env xml).1 = (mathmlElements env 5 none (removeMsWordPrefixes (removeLineBreaks xml))).1 := rfl
  rw [hdom, mathmlElements, hp] at hx
  cases hx
  exact Nat.le_refl _

end Verif.Src
