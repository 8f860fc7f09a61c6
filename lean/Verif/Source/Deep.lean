import Verif.Source.Whole
import Verif.Source.Cut

/-!
# Too many levels

The builder of elements needs two activations for every level of the document, whatever the turns of
loops that are allowed.
-/

namespace Verif.Src

attribute [local irreducible] vowelsWithAccents accentToLtxCmd specialFontChars allMathSymbolsByChar
  allMathSymbolsByGlyph mathNumberByGlyph allMathOperatorsByChar allMathOperatorsByGlyph

/-- Call a function, with at most `d` activations at a time, and `t` turns of a loop more than that. -/
def callD (env : Env) (t : Nat) : Nat → Func → List Val → List (Ident × Val) → Store → Res Val
  | 0, _, _, _, _ => .stuck
  | d + 1, f, args, kw, h =>
    match bindParams f.params args kw with
    | none => .stuck
    | some l => (execs ⟨env, callD env t d, t + d⟩ f.body l h).result

variable {env : Env} {t : Nat}

theorem callD_le : ∀ (d : Nat) (f : Func) (args : List Val) (kw : List (Ident × Val)) (h : Store),
    (callD env t d f args kw h).Le (call env (t + d) f args kw h)
  | 0, _, _, _, _ => .inl rfl
  | d + 1, f, args, kw, h => by
    rw [← Nat.add_assoc]
    unfold callD call
    cases bindParams f.params args kw with
    | none => exact .refl _
    | some l => exact Out.Le.result (execs_le (C := ⟨env, callD env t d, t + d⟩) (C' := ⟨env, call env (t + d), t + d⟩)
        ⟨rfl, callD_le d, Nat.le_refl _⟩ ..)

/-- A call with few activations does nothing else. -/
theorem callD_or {f : Func} {args : List Val} {kw : List (Ident × Val)} {S : Store} {r : Res Val} {k : Nat} (d : Nat)
    (h : ∀ n, k ≤ n → call env n f args kw S = r) :
    callD env t d f args kw S = .stuck ∨ callD env t d f args kw S = r := by
  rcases callD_le (env := env) (t := t) d f args kw S with h1 | h1
  · exact .inl h1
  · by_cases h2 : call env (t + d) f args kw S = .stuck
    · exact .inl (h1.trans h2)
    · refine .inr (h1.trans ?_)
      rw [← call_mono h2 (Nat.le_add_right _ k)]
      exact h _ (by omega)

theorem noDicts (S : Store) : Dicts id Heap.empty.next Heap.empty S :=
  (.of (fun r hr => absurd hr (Nat.not_lt_zero r)) fun r _ hr => absurd hr (Nat.not_lt_zero r))

theorem levels_other {x : Node} (h : x.isElem = false) : Spec.levels x = 0 := by
  cases x with
  | elem => cases h
  | _ => simp [Spec.levels]

theorem levelsAll_none : ∀ {xs : List Node}, hasElementChild xs = false → Spec.levelsAll xs = 0
  | [], _ => rfl
  | x :: xs, h => by
    simp only [hasElementChild, List.any_cons, Bool.or_eq_false_iff] at h
    rw [Spec.levelsAll, levels_other h.1, levelsAll_none (xs := xs) h.2]
    rfl

/-- Building the list of children. -/
theorem deep_list {S : Store} {b la : Nat} {xs : List Node} {d : Nat}
    (hla : S[la]? = some (.list (xs.map .node)))
    (h : ∀ d', d = d' + 1 → compRes (holds ⟨env, callD env t d', t + d'⟩ [namedExpr])
        (eval ⟨env, callD env t d', t + d'⟩ buildExpr) .el [(.self, .obj b), (.els, .obj la)] (xs.map .node) S = .stuck) :
    callD env t d ElementsToMathMLAdapter_convert [.obj b, .obj la] [] S = .stuck := by
  cases d with
  | zero => rfl
  | succ d =>
    have hc := h d rfl
    show (execs ⟨env, callD env t d, t + d⟩ ElementsToMathMLAdapter_convert.body [(.self, .obj b), (.els, .obj la)] S).result = _
    unfold ElementsToMathMLAdapter_convert
    sym [] [hla, hc]

mutual
theorem deep_elem : ∀ (x : Node) {S : Store} {b d : Nat}, S[b]? = some builderObj → x.isElem = true →
    d < 2 * Spec.levels x → callD env t d ElementsToMathMLAdapter__convert_element [.obj b, .node x] [] S = .stuck
  | .elem tag ps cs, S, b, d, hb, _, hd => by
    cases d with
    | zero => rfl
    | succ d =>
      rw [Spec.levels] at hd
      show (execs ⟨env, callD env t d, t + d⟩ ElementsToMathMLAdapter__convert_element.body [(.self, .obj b), (.el, .node (.elem tag ps cs))] S).result = _
      unfold ElementsToMathMLAdapter__convert_element
      rcases callD_or (t := t) d (fun n (hn : 1 ≤ n) => by
        obtain ⟨n, rfl⟩ : ∃ m, n = m + 1 := ⟨n - 1, by omega⟩
        exact run_convertAttributes (env := env) (b := b) (S := S) ps n rfl) with h1 | h1
      · sym [] [hb, h1]
      rcases callD_or (t := t) d (fun n (hn : 1 ≤ n) => by
        obtain ⟨n, rfl⟩ : ∃ m, n = m + 1 := ⟨n - 1, by omega⟩
        exact run_hasElementChild (env := env) (b := b) (S := S ++ [.dict (dictVal (convertAttributes ps))]) (.elem tag ps cs) n) with h2 | h2
      · sym [] [hb, h1, h2]
      simp only [childNodes] at h2
      cases hc : hasElementChild cs with
      | false =>
        rw [levelsAll_none hc] at hd
        obtain rfl : d = 0 := by omega
        cases h1
      | true =>
        rw [hc] at h2
        have h3 := deep_list (env := env) (t := t) (b := b) (d := d) (S := S ++ [.dict (dictVal (convertAttributes ps))] ++ [.list ((cs.filter Node.isElem).map .node)])
          (la := S.length + 1) (xs := cs.filter Node.isElem) (look_last _ (by simp)) fun d' hd' =>
            deep_elems cs rfl (look_old _ (look_old _ hb)) (by omega)
        sym [] [hb, h1, h2, comp_children, h3]
theorem deep_elems : ∀ (xs : List Node) {S : Store} {b d : Nat} {l : Locals}, look .self l = some (.obj b) →
    S[b]? = some builderObj → d < 2 * Spec.levelsAll xs →
    compRes (holds ⟨env, callD env t d, t + d⟩ [namedExpr])
        (eval ⟨env, callD env t d, t + d⟩ buildExpr) .el l ((xs.filter Node.isElem).map .node) S = .stuck
  | [], S, b, d, l, _, _, hd => by rw [Spec.levelsAll] at hd; omega
  | x :: xs, S, b, d, l, hl, hb, hd => by
    rw [Spec.levelsAll] at hd
    cases hx : x.isElem with
    | false =>
      rw [List.filter_cons_of_neg (by simp [hx])]
      rw [levels_other hx] at hd
      exact deep_elems xs hl hb (by omega)
    | true =>
      rw [List.filter_cons_of_pos hx, List.map_cons, compRes, holds_named _ _ hx, Res.bind_ok, if_pos rfl]
      by_cases h : d < 2 * Spec.levels x
      · have h1 := deep_elem x hb hx h
        have h2 : eval ⟨env, callD env t d, t + d⟩ buildExpr ((.el, .node x) :: l) S = .stuck := by
          sym [] [hl, hb, h1]
        rw [h2]
        rfl
      · obtain ⟨φ1, H1, S1, e, a, p1, p2, p3, p4, p5, p7, p6⟩ := (built (env := env) x).ok hb (noDicts S) hx
        rcases callD_or (t := t) d p6 with h1 | h1
        · have h2 : eval ⟨env, callD env t d, t + d⟩ buildExpr ((.el, .node x) :: l) S = .stuck := by
            sym [] [hl, hb, h1]
          rw [h2]
          rfl
        · rw [eval_build hl hb h1, Res.bind_ok, deep_elems xs hl (p2.get hb) (by omega)]
          rfl
end

/-- The reader. -/
theorem deep_reader {S : Store} {x b e d : Nat} {xml0 : Str} (h : Ready S x b e d xml0) (xml : Str) {nodes : List Node}
    (hx : (Adapter.fresh.domElements env xml).1 = .ok nodes) {m : Nat} (hm : m < 2 * Spec.levelsAll nodes + 2) :
    callD env t m XmlToMathMLAdapter_convert [.obj x, .str xml] [] S = .stuck := by
  cases m with
  | zero => rfl
  | succ m =>
    have h1 := h.1
    have hr := (h.set (removeLineBreaks xml)).set (removeMsWordPrefixes (removeLineBreaks xml))
    have h2 := (h.set (removeLineBreaks xml)).1
    have h3 := hr.1
    have h4 := hr.2
    show (execs ⟨env, callD env t m, t + m⟩ XmlToMathMLAdapter_convert.body [(.self, .obj x), (.xml, .str xml)] S).result = _
    unfold XmlToMathMLAdapter_convert
    rcases callD_or (t := t) m (fun n (hn : 1 ≤ n) => by
      obtain ⟨n, rfl⟩ : ∃ m, n = m + 1 := ⟨n - 1, by omega⟩
      exact run_removeLineBreaks (env := env) (S := S) (x := x) xml n) with g1 | g1
    · sym [] [h1, g1]
    rcases callD_or (t := t) m (fun n (hn : 1 ≤ n) => by
      obtain ⟨n, rfl⟩ : ∃ m, n = m + 1 := ⟨n - 1, by omega⟩
      exact run_removePrefixes (env := env) (S := S.set x (readerObj (removeLineBreaks xml) b e)) (x := x) (removeLineBreaks xml) n) with g2 | g2
    · sym [] [h1, h2, g1, g2]
    obtain ⟨_, hres, k, hk⟩ := run_mathmlElements (env := env) hr
    rcases callD_or (t := t) m hk with g3 | g3
    · sym [] [h1, h2, h3, h4, g1, g2, g3]
    have hdom : (Adapter.fresh.domElements env xml).1 = (mathmlElements env 5 none (removeMsWordPrefixes (removeLineBreaks xml))).1 := rfl
    rw [hdom] at hx
    cases hres with
    | raised hx' _ => rw [hx'] at hx; cases hx
    | @found nodes' a _ S1 hx' ha hr' =>
      rw [hx'] at hx
      cases hx
      have hb := hr'.1.2
      have hf : nodes.filter Node.isElem = nodes := by
        rw [List.filter_eq_self]
        intro x hx
        obtain ⟨ps, cs, rfl⟩ := mathmlElements_math 5 none _ nodes hx' x hx
        rfl
      have g4 := deep_list (env := env) (t := t) (b := b) (d := m) ha fun d' hd' => by
        have := deep_elems (env := env) (t := t) nodes (d := d') (l := [(.self, .obj b), (.els, .obj a)]) rfl hb (by omega)
        rwa [hf] at this
      sym [] [h1, h2, h3, h4, g1, g2, g3, hb, g4]

/-- The whole call. -/
theorem deep_convert (xml : Str) (S0 : Store) {nodes : List Node}
    (hx : (Adapter.fresh.domElements env xml).1 = .ok nodes) {m : Nat} (hm : m < 2 * Spec.levelsAll nodes + 3) :
    callD env t m MathMLToLaTeX_convert [.str xml] [] S0 = .stuck := by
  cases m with
  | zero => rfl
  | succ m =>
    have hrd := withReader_ready S0
    have hr1 := hrd.1
    show (execs ⟨env, callD env t m, t + m⟩ MathMLToLaTeX_convert.body [(.mathml, .str xml)] S0).result = _
    unfold MathMLToLaTeX_convert
    rcases callD_or (t := t) m (fun n (hn : 4 ≤ n) => by
      obtain ⟨n, rfl⟩ : ∃ m, n = m + 4 := ⟨n - 4, by omega⟩
      exact run_factory (env := env) S0 n) with g1 | g1
    · sym [] [g1]
    have g2 := deep_reader (t := t) hrd xml hx (m := m) (by omega)
    sym [] [g1, hr1, g2]

/-- The exception of the recursion limit comes where there are no activations left. -/
theorem callF_limit (env : Env) (stop : Exc) (L N : Nat) (hL : L ≤ N) : ∀ (d : Nat) {f : Func}, Calm f → ∀ args kw h,
    (callF env stop (fun m _ _ _ => decide (m + L ≤ N)) (N - L + d) f args kw h).Cut stop (callD env (N - L) d f args kw h)
  | 0, f, _, args, kw, h => by
    show (callF _ _ _ (N - L) f args kw h).Cut _ _
    cases hn : N - L with
    | zero => exact .refl _
    | succ n =>
      refine .inl ⟨h, ?_⟩
      unfold callF
      rw [if_pos (by rw [decide_eq_true_eq]; omega)]
  | d + 1, f, hf, args, kw, h => by
    rw [← Nat.add_assoc]
    have hC : Ctx.Cut stop ⟨env, callF env stop (fun m _ _ _ => decide (m + L ≤ N)) (N - L + d), N - L + d⟩
        ⟨env, callD env (N - L) d, N - L + d⟩ :=
      ⟨rfl, fun hf => callF_limit env stop L N hL d hf, rfl⟩
    unfold callF callD
    split
    · exact .inl ⟨_, rfl⟩
    · cases hb : bindParams f.params args kw with
      | none => exact .refl _
      | some l =>
        rcases hf with hf | rfl
        · exact (execs_cut hC _ hf _ _).result
        · exact (elements_cut hC (elements_params hb) h).result

/-- More activations and more turns change nothing. -/
theorem callD_mono {t t' : Nat} (ht : t ≤ t') : ∀ (d d' : Nat), d ≤ d' → ∀ (f : Func) (args : List Val)
    (kw : List (Ident × Val)) (h : Store), (callD env t d f args kw h).Le (callD env t' d' f args kw h)
  | 0, _, _, _, _, _, _ => .inl rfl
  | d + 1, d' + 1, hd, f, args, kw, h => by
    unfold callD
    cases bindParams f.params args kw with
    | none => exact .refl _
    | some l => exact Out.Le.result (execs_le (C := ⟨env, callD env t d, t + d⟩) (C' := ⟨env, callD env t' d', t' + d'⟩)
        ⟨rfl, callD_mono ht d d' (by omega), by simp; omega⟩ ..)

/-- If there are activations enough, the limit changes nothing. -/
theorem callD_le_callF (env : Env) (stop : Exc) (L N : Nat) (hL : L ≤ N) : ∀ (d : Nat) (f : Func) (args : List Val)
    (kw : List (Ident × Val)) (h : Store),
    (callD env (N - L) d f args kw h).Le (callF env stop (fun m _ _ _ => decide (m + L ≤ N)) (N - L + d) f args kw h)
  | 0, _, _, _, _ => .inl rfl
  | d + 1, f, args, kw, h => by
    rw [← Nat.add_assoc]
    unfold callD callF
    rw [if_neg (by rw [decide_eq_true_eq]; omega)]
    cases bindParams f.params args kw with
    | none => exact .refl _
    | some l => exact Out.Le.result (execs_le (C := ⟨env, callD env (N - L) d, N - L + d⟩)
        (C' := ⟨env, callF env stop (fun m _ _ _ => decide (m + L ≤ N)) (N - L + d), N - L + d⟩)
        ⟨rfl, callD_le_callF env stop L N hL d, Nat.le_refl _⟩ ..)

/-- All the fuel for activations. -/
theorem callD_zero : ∀ (d : Nat) (f : Func) (args : List Val) (kw : List (Ident × Val)) (h : Store),
    callD env 0 d f args kw h = call env d f args kw h
  | 0, _, _, _, _ => rfl
  | d + 1, f, args, kw, h => by
    unfold callD call
    have e : callD env 0 d = call env d := by
      funext f args kw h
      exact callD_zero d f args kw h
    rw [e, Nat.zero_add]
    rfl

end Verif.Src
