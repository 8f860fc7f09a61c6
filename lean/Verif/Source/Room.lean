import Verif.Source.Deep

/-!
# Repairs need few activations

The loops of the error handler may turn often, but its functions call few others; so the activations
that a call needs depend on the depth of the document only.
-/

namespace Verif.Src

attribute [local irreducible] vowelsWithAccents accentToLtxCmd specialFontChars allMathSymbolsByChar
  allMathSymbolsByGlyph mathNumberByGlyph allMathOperatorsByChar allMathOperatorsByGlyph

variable {env : Env}

theorem enterD {t d : Nat} {f : Func} {args : List Val} {kw : List (Ident × Val)} {l : Locals} {S : Store}
    (h : bindParams f.params args kw = some l) :
    callD env t (d + 1) f args kw S = (execs ⟨env, callD env t d, t + d⟩ f.body l S).result := by
  show (match bindParams f.params args kw with
    | none => Res.stuck
    | some l => (execs ⟨env, callD env t d, t + d⟩ f.body l S).result) = _
  rw [h]

/-- What is known about a call with fuel holds with so many activations. -/
theorem callD_of {f : Func} {args : List Val} {kw : List (Ident × Val)} {S : Store} {r : Res Val} {K : Nat}
    (hr : r ≠ .stuck) (h : ∀ n, K ≤ n → call env n f args kw S = r) (t d : Nat) (hd : K ≤ d) :
    callD env t d f args kw S = r := by
  have h1 := callD_mono (env := env) (Nat.zero_le t) d d (Nat.le_refl _) f args kw S
  rw [callD_zero, h d hd] at h1
  exact (h1.resolve_left hr).symm

theorem callD_ok {f : Func} {args : List Val} {kw : List (Ident × Val)} {S S' : Store} {v : Val}
    (h : ∀ n, call env (n + 1) f args kw S = .ok v S') (t d : Nat) (hd : 1 ≤ d) : callD env t d f args kw S = .ok v S' := by
  refine callD_of (K := 1) (fun h => by cases h) (fun n hn => ?_) t d hd
  obtain ⟨n, rfl⟩ : ∃ m, n = m + 1 := ⟨n - 1, by omega⟩
  exact h n

/-- A context of fuel, and one of activations. -/
theorem ctxD (t d : Nat) : Ctx.Le ⟨env, call env d, d⟩ ⟨env, callD env t d, t + d⟩ :=
  ⟨rfl, fun f args kw h => by
    have := callD_mono (env := env) (Nat.zero_le t) d d (Nat.le_refl _) f args kw h
    rwa [callD_zero] at this, by simp⟩

/-- With `D` activations and turns enough, a call has one and the same result, and it satisfies `Q`. -/
def RunsD (env : Env) (D : Nat) (f : Func) (args : List Val) (S : Store) (Q : Res Val → Prop) : Prop :=
  ∃ r, Q r ∧ ∃ K, ∀ t d, D ≤ d → K ≤ t → callD env t d f args [] S = r

/-! ## Repairs -/

theorem room_getWord {S : Store} {a pos t : Nat} (string : Str) (n : Nat) (hn : pos + string.length + 2 ≤ t) :
    callD env t (n + 1) ErrorHandler__get_word_at_str_pos [.obj a, .str string, .int pos] [] S =
      match getWordAtStrPos string pos with
      | none => .exc (.exc .indexError) S
      | some w => .ok (.str w) S := by
  rw [enterD (l := [(.self, .obj a), (.string, .str string), (.pos, .int pos)]) rfl]
  unfold ErrorHandler__get_word_at_str_pos
  have h1 := start_loop ⟨env, callD env t n, t + n⟩ string S pos (t + n)
    [(.«end», .int pos), (.start, .int pos), (.self, .obj a), (.string, .str string), (.pos, .int pos)]
    (by omega) rfl rfl
  rw [getWordAtStrPos]
  cases hw : wordStart string pos with
  | none =>
    rw [hw] at h1
    obtain ⟨l', h1⟩ := h1
    sym [] [h1]
  | some j =>
    rw [hw] at h1
    obtain ⟨l', h1, h2, h3⟩ := h1
    obtain ⟨hj, hp⟩ := wordStart_le string pos j hw
    obtain ⟨l'', g1, g2, g3⟩ := end_loop ⟨env, callD env t n, t + n⟩ string S (string.drop pos) pos (t + n) l'
      (by simp; omega) rfl (by rw [h3 _ (by decide)]; rfl) (by rw [h3 _ (by decide)]; rfl)
      (by rw [h3 _ (by decide)]; rfl)
    have hs : look .start l'' = some (.int (Int.ofNat j)) := by rw [g3 _ (by decide), h2]; rfl
    have hst : look .string l'' = some (.str string) := by
      rw [g3 _ (by decide), h3 _ (by decide)]; rfl
    have g2 : look .«end» l'' = some (.int (Int.ofNat (pos + (wordEnd (string.drop pos)).length))) := g2
    sym [] [h1, g1, hs, hst, g2]
    rw [List.take_add, wordEnd_take, List.drop_append_of_le_length (by simp; omega)]

theorem Repaired.ne {S : Store} {x : Except Exc Str} {r : Res Val} (h : Repaired S x r) : r ≠ .stuck := by
  obtain ⟨L, rfl⟩ := h
  cases x <;> exact fun h => by cases h

theorem room_fixValue {S : Store} {a d : Nat} (ha : S[a]? = some (handlerObj d)) (code line offset : Nat) (xml : Str) :
    RunsD env 2 ErrorHandler__fix_missing_attribute_value [.obj a, .exc (.expat code line offset), .str xml] S
      (Repaired S (fixMissingAttributeValue code line offset xml)) := by
  unfold fixMissingAttributeValue
  have hent := fun (t m : Nat) => enterD (env := env) (t := t) (d := m) (f := ErrorHandler__fix_missing_attribute_value)
    (args := [.obj a, .exc (.expat code line offset), .str xml]) (kw := []) (S := S)
    (l := [(.self, .obj a), (.error, .exc (.expat code line offset)), (.xml, .str xml)]) rfl
  by_cases hc : code = 4
  · rw [if_neg (by simp [hc])]
    have hi := pyIndex_map Val.str (splitOn '\n' xml) ((line : Int) - 1)
    cases hl : pyIndex (splitOn '\n' xml) ((line : Int) - 1) with
    | none =>
      rw [hl] at hi
      refine ⟨_, ⟨[.list ((splitOn '\n' xml).map .str)], rfl⟩, 0, fun t m hm _ => ?_⟩
      obtain ⟨m, rfl⟩ : ∃ n, m = n + 1 := ⟨m - 1, by omega⟩
      rw [hent]
      unfold ErrorHandler__fix_missing_attribute_value
      sym [] [ha, hi] [hc]
    | some goal =>
      rw [hl] at hi
      have hw := fun t m => room_getWord (env := env) (S := S ++ [.list ((splitOn '\n' xml).map .str)]) (a := a) (pos := offset) (t := t) goal m
      dsimp only
      cases hg : getWordAtStrPos goal offset with
      | none =>
        rw [hg] at hw
        refine ⟨_, ⟨[.list ((splitOn '\n' xml).map .str)], rfl⟩, offset + goal.length + 2, fun t m hm ht => ?_⟩
        obtain ⟨m, rfl⟩ : ∃ n, m = n + 2 := ⟨m - 2, by omega⟩
        rw [hent]
        unfold ErrorHandler__fix_missing_attribute_value
        sym [] [ha, hi, hw] [hc]
      | some w =>
        rw [hg] at hw
        obtain ⟨p, hp, hr⟩ := run_missingPattern (env := env) (S := S ++ [.list ((splitOn '\n' xml).map .str)]) (a := a) w
        have hr' := callD_ok hr
        have hs := hp.sub template_nil xml
        refine ⟨_, ⟨[.list ((splitOn '\n' xml).map .str)], rfl⟩, offset + goal.length + 2, fun t m hm ht => ?_⟩
        obtain ⟨m, rfl⟩ : ∃ n, m = n + 2 := ⟨m - 2, by omega⟩
        rw [hent]
        unfold ErrorHandler__fix_missing_attribute_value
        sym [] [ha, hi, hw, hr', hs] [hc]
  · rw [if_pos hc]
    have hc' : ¬ (code : Int) = 4 := by omega
    refine ⟨.ok (.str xml) S, ⟨[], by simp⟩, 0, fun t m hm ht => ?_⟩
    obtain ⟨m, rfl⟩ : ∃ n, m = n + 1 := ⟨m - 1, by omega⟩
    rw [hent]
    unfold ErrorHandler__fix_missing_attribute_value
    sym [] [] [hc, hc']

theorem room_fixMissing {S : Store} {a d : Nat} (ha : S[a]? = some (handlerObj d)) (code line offset : Nat) (xml : Str) :
    RunsD env 3 ErrorHandler__fix_missing_attribute [.obj a, .exc (.expat code line offset), .str xml] S
      (Repaired S (fixMissingAttribute env code line offset xml)) := by
  unfold fixMissingAttribute
  have hent := fun (t m : Nat) => enterD (env := env) (t := t) (d := m) (f := ErrorHandler__fix_missing_attribute)
    (args := [.obj a, .exc (.expat code line offset), .str xml]) (kw := []) (S := S)
    (l := [(.self, .obj a), (.error, .exc (.expat code line offset)), (.xml, .str xml)]) rfl
  obtain ⟨_, ⟨L, rfl⟩, k, hk⟩ := room_fixValue (env := env) ha code line offset xml
  cases hx : fixMissingAttributeValue code line offset xml with
  | error e =>
    rw [hx] at hk
    dsimp only at hk ⊢
    refine ⟨_, ⟨L, rfl⟩, k, fun t m hm ht => ?_⟩
    obtain ⟨m, rfl⟩ : ∃ n, m = n + 3 := ⟨m - 3, by omega⟩
    rw [hent]
    unfold ErrorHandler__fix_missing_attribute
    sym [] [ha, hk]
  | ok w =>
    rw [hx] at hk
    dsimp only at hk ⊢
    by_cases hw : w = xml
    · rw [if_neg (by simp [hw])]
      obtain ⟨p, hp, hr⟩ := run_genericPattern (env := env) (S := S ++ L) (a := a)
      have hr' := callD_ok hr
      refine ⟨_, ⟨L, rfl⟩, k + 7, fun t m hm ht => ?_⟩
      obtain ⟨m, rfl⟩ : ∃ n, m = n + 3 := ⟨m - 3, by omega⟩
      obtain ⟨l', q1, q2⟩ := generic_loop (C := ⟨env, callD env t (m + 2), t + (m + 2)⟩) (S := S ++ L) hp xml 5 (t + (m + 2)) 0 w
        [(.counter, .int 0), (.pattern, .pattern p), (.result, .str w), (.self, .obj a),
          (.error, .exc (.expat code line offset)), (.xml, .str xml)] (by omega) rfl rfl rfl rfl rfl rfl
      rw [hent]
      unfold ErrorHandler__fix_missing_attribute
      sym [] [ha, hk, hr', q1, q2] [hw]
    · rw [if_pos hw]
      refine ⟨_, ⟨L, rfl⟩, k, fun t m hm ht => ?_⟩
      obtain ⟨m, rfl⟩ : ∃ n, m = n + 3 := ⟨m - 3, by omega⟩
      rw [hent]
      unfold ErrorHandler__fix_missing_attribute
      sym [] [ha, hk] [hw]

theorem room_fixError {S : Store} {a d : Nat} (ha : S[a]? = some (handlerObj d)) (e : ParseErr) (xml : Str) :
    RunsD env 4 ErrorHandler_fix_error [.obj a, .str xml, .exc e.toExc] S (Repaired S (fixError env xml e)) := by
  have hent := fun (t m : Nat) => enterD (env := env) (t := t) (d := m) (f := ErrorHandler_fix_error)
    (args := [.obj a, .str xml, .exc e.toExc]) (kw := []) (S := S)
    (l := [(.self, .obj a), (.xml, .str xml), (.error, .exc e.toExc)]) rfl
  cases e with
  | other i =>
    unfold fixError
    refine ⟨.ok (.str xml) S, ⟨[], by simp⟩, 0, fun t m hm ht => ?_⟩
    obtain ⟨m, rfl⟩ : ∃ n, m = n + 1 := ⟨m - 1, by omega⟩
    rw [hent]
    unfold ErrorHandler_fix_error ParseErr.toExc
    sym [] [ha]
  | expat code line offset =>
    unfold fixError
    obtain ⟨_, ⟨L, rfl⟩, k, hk⟩ := room_fixMissing (env := env) ha code line offset xml
    dsimp only
    cases hx : fixMissingAttribute env code line offset xml with
    | error e =>
      rw [hx] at hk
      dsimp only at hk ⊢
      refine ⟨_, ⟨L, rfl⟩, k, fun t m hm ht => ?_⟩
      obtain ⟨m, rfl⟩ : ∃ n, m = n + 4 := ⟨m - 4, by omega⟩
      rw [hent]
      unfold ErrorHandler_fix_error ParseErr.toExc
      sym [] [ha, hk]
    | ok w =>
      rw [hx] at hk
      dsimp only at hk ⊢
      refine ⟨_, ⟨L, rfl⟩, k, fun t m hm ht => ?_⟩
      obtain ⟨m, rfl⟩ : ∃ n, m = n + 4 := ⟨m - 4, by omega⟩
      rw [hent]
      unfold ErrorHandler_fix_error ParseErr.toExc
      sym [] [ha, hk]

/-! ## Reading -/

theorem room_fix {S : Store} {x b e d : Nat} {xml : Str} (h : Ready S x b e d xml) (er : ParseErr) :
    ∃ L k, ∀ t n, 5 ≤ n → k ≤ t → callD env t n XmlToMathMLAdapter__fix_error [.obj x, .exc er.toExc] [] S =
      match fixError env xml er with
      | .ok t => .ok .none (S.set x (readerObj t b e) ++ L)
      | .error e' => .exc (.exc e') (S ++ L) := by
  obtain ⟨_, ⟨L, rfl⟩, k, hk⟩ := room_fixError (env := env) h.handler er xml
  refine ⟨L, k, fun t n hn ht => ?_⟩
  obtain ⟨n, rfl⟩ : ∃ m, n = m + 1 := ⟨n - 1, by omega⟩
  replace hk := hk t n (by omega) ht
  have h1 := h.1
  have h3 := h.3
  have h1' := look_old L h1
  rw [enterD (l := [(.self, .obj x), (.error, .exc er.toExc)]) rfl]
  unfold XmlToMathMLAdapter__fix_error
  cases hx : fixError env xml er with
  | ok w =>
    rw [hx] at hk
    dsimp only at hk ⊢
    sym [] [h1, h3, hk, h1']
  | error e' =>
    rw [hx] at hk
    dsimp only at hk ⊢
    sym [] [h1, h3, hk]

theorem room_loop {x b e d m : Nat} : ∀ (vs : List Val) (S : Store) (xml : Str) (l : Locals) (o : Option Exc),
    Ready S x b e d xml → m ≤ S.length → ReadLocals l x →
    (vs = [] → ∃ er, o = some er ∧ look .exception l = some (.exc er)) →
    ∃ out k, ReadEnd (fun t S' => Ready S' x b e d t ∧ m ≤ S'.length) (mathmlElements env vs.length o xml).1 out ∧
      ∀ t n, 5 ≤ n → k ≤ t → ∀ i,
      forOut (fun _ v l => (._, v) :: l) (execs ⟨env, callD env t n, t + n⟩ readBody) i vs l S = out
  | [], S, xml, l, o, hr, hm, hl, ho => by
    obtain ⟨er, rfl, h⟩ := ho rfl
    exact ⟨.next l S, 0, .tired rfl h ⟨hr, hm⟩, fun _ _ _ _ _ => rfl⟩
  | v :: vs, S, xml, l, o, hr, hm, ⟨l1, l2, l3⟩, _ => by
    have h1 := hr.1
    rw [List.length_cons, mathmlElements]
    cases hp : env.parse xml with
    | ok dom =>
      refine ⟨.ret (.obj S.length) (S ++ [.list ((mathElements dom).map .node)]), 0,
        .found rfl (look_last _ rfl) ⟨hr.app _, by simp; omega⟩, fun t n _ _ i => ?_⟩
      rw [forOut]
      sym [] [l1, l2, l3, h1, hp]
    | error er =>
      obtain ⟨L, k, hk⟩ := room_fix (env := env) hr er
      dsimp only
      cases hx : fixError env xml er with
      | error e' =>
        rw [hx] at hk
        dsimp only at hk
        refine ⟨.exc (.exc e') (unset .e ((.e, .exc er.toExc) :: (._, v) :: l)) (S ++ L), k,
          .raised rfl ⟨hr.app _, by simp; omega⟩, fun t n hn ht i => ?_⟩
        replace hk := hk t n hn ht
        rw [forOut]
        sym [] [l1, l2, l3, h1, hp, hk]
      | ok w =>
        rw [hx] at hk
        dsimp only at hk
        obtain ⟨out, k', q1, q2⟩ := room_loop (m := m) vs (S.set x (readerObj w b e) ++ L) w
          (unset .e ((.exception, .exc er.toExc) :: (.e, .exc er.toExc) :: (._, v) :: l)) (some er.toExc)
          ((hr.set w).app L) (by simp; omega) ⟨by rw [look_unset (by decide)]; exact l1, by rw [look_unset (by decide)]; exact l2, by rw [look_unset (by decide)]; exact l3⟩
          (fun _ => ⟨_, rfl, by rw [look_unset (by decide)]; rfl⟩)
        refine ⟨out, k + k', q1, fun t n hn ht i => ?_⟩
        replace hk := hk t n hn (by omega)
        rw [← q2 t n hn (by omega) (i + 1), forOut]
        have ht : execs ⟨env, callD env t n, t + n⟩ readBody ((._, v) :: l) S =
            .next (unset .e ((.exception, .exc er.toExc) :: (.e, .exc er.toExc) :: (._, v) :: l))
              (S.set x (readerObj w b e) ++ L) := by
          sym [] [l1, l2, l3, h1, hp, hk]
        rw [ht]

theorem room_mathmlElements {S : Store} {x b e d : Nat} {xml : Str} (h : Ready S x b e d xml) :
    RunsD env 6 XmlToMathMLAdapter__mathml_elements [.obj x] S
      (ReadRes (fun t S' => Ready S' x b e d t ∧ S.length ≤ S'.length) (mathmlElements env 5 none xml).1) := by
  obtain ⟨out, k, h1, h2⟩ := room_loop (env := env) ((List.range (Int.toNat 5)).map fun (i : Nat) => Val.int i) S xml
    [(.exception, .none), (.self, .obj x)] none h (Nat.le_refl S.length) ⟨rfl, rfl, rfl⟩ (fun h => by cases h)
  rw [List.length_map, List.length_range, show Int.toNat 5 = 5 from rfl] at h1
  have hent := fun (t m : Nat) => enterD (env := env) (t := t) (d := m) (f := XmlToMathMLAdapter__mathml_elements)
    (args := [.obj x]) (kw := []) (S := S) (l := [(.self, .obj x)]) rfl
  cases h1 with
  | found hx ha hr =>
    refine ⟨_, .found hx ha hr, k, fun t n hn ht => ?_⟩
    obtain ⟨n, rfl⟩ : ∃ m, n = m + 1 := ⟨n - 1, by omega⟩
    replace h2 := h2 t n (by omega) ht
    rw [hent]
    unfold XmlToMathMLAdapter__mathml_elements
    sym [] [h2]
  | raised hx hr =>
    refine ⟨_, .raised hx hr, k, fun t n hn ht => ?_⟩
    obtain ⟨n, rfl⟩ : ∃ m, n = m + 1 := ⟨n - 1, by omega⟩
    replace h2 := h2 t n (by omega) ht
    rw [hent]
    unfold XmlToMathMLAdapter__mathml_elements
    sym [] [h2]
  | tired hx hl hr =>
    refine ⟨_, .raised hx hr, k, fun t n hn ht => ?_⟩
    obtain ⟨n, rfl⟩ : ∃ m, n = m + 1 := ⟨n - 1, by omega⟩
    replace h2 := h2 t n (by omega) ht
    rw [hent]
    unfold XmlToMathMLAdapter__mathml_elements
    sym [] [h2, hl]

theorem room_reader {S : Store} {x b e d : Nat} {xml0 : Str} (h : Ready S x b e d xml0) (xml : Str) (B : Nat)
    (hB : ∀ nodes, (Adapter.fresh.domElements env xml).1 = .ok nodes → Spec.levelsAll nodes ≤ B) :
    RunsD env (2 * B + 7) XmlToMathMLAdapter_convert [.obj x, .str xml] S
      (Elements S.length (fun t S' => Ready S' x b e d t ∧ S.length ≤ S'.length) (Adapter.fresh.domElements env xml).1) := by
  have h1 := h.1
  have hr := (h.set (removeLineBreaks xml)).set (removeMsWordPrefixes (removeLineBreaks xml))
  have h2 := (h.set (removeLineBreaks xml)).1
  have h3 := hr.1
  have h4 := hr.2
  obtain ⟨_, hres, k, hk⟩ := room_mathmlElements (env := env) hr
  have hdom : (Adapter.fresh.domElements env xml).1 = (mathmlElements env 5 none (removeMsWordPrefixes (removeLineBreaks xml))).1 := rfl
  rw [hdom]
  have hent := fun (t m : Nat) => enterD (env := env) (t := t) (d := m) (f := XmlToMathMLAdapter_convert)
    (args := [.obj x, .str xml]) (kw := []) (S := S) (l := [(.self, .obj x), (.xml, .str xml)]) rfl
  have g1 := callD_ok (run_removeLineBreaks (env := env) (S := S) (x := x) xml)
  have g2 := callD_ok (run_removePrefixes (env := env) (S := S.set x (readerObj (removeLineBreaks xml) b e)) (x := x) (removeLineBreaks xml))
  cases hres with
  | raised hx hr' =>
    refine ⟨_, .raised hx ⟨hr'.1, by have := hr'.2; simpa using this⟩, k, fun t n hn ht => ?_⟩
    obtain ⟨n, rfl⟩ : ∃ m, n = m + 1 := ⟨n - 1, by omega⟩
    replace hk := hk t n (by omega) ht
    rw [hent]
    unfold XmlToMathMLAdapter_convert
    sym [] [h1, h2, h3, h4, g1, g2, hk]
  | @found nodes a w S1 hx ha hr' =>
    have hb := hr'.1.2
    have hm := mathmlElements_math 5 none _ nodes hx
    have hf : nodes.filter Node.isElem = nodes := by
      rw [List.filter_eq_self]
      intro x hx
      obtain ⟨ps, cs, rfl⟩ := hm x hx
      rfl
    obtain ⟨φ, H, S2, es, as, q1, q2, q3, q4, q5, q7, q6⟩ := (builts (env := env) nodes).ok (φ := id) (H := Heap.empty)
      (l := [(.self, .obj b), (.els, .obj a)]) rfl hb (.of (fun r hr => absurd hr (Nat.not_lt_zero r)) fun r _ hr => absurd hr (Nat.not_lt_zero r))
    rw [hf] at q6
    have hle := hB nodes (hdom ▸ hx)
    have hbl := callD_of (fun h => by cases h) (fun m hm => run_buildList (env := env) ha q6 m hm rfl)
    refine ⟨_, .found hx q1 (q3.app _) (q4.mono (.app _ _)) (look_last _ rfl)
      ((q7.mono (.app _ _) q4).low (by have := hr'.2; simpa using this)) ⟨(hr'.1.mono q2).app _, by have := hr'.2; have := q2.length; simp at *; omega⟩,
      k, fun t n hn ht => ?_⟩
    obtain ⟨n, rfl⟩ : ∃ m, n = m + 1 := ⟨n - 1, by omega⟩
    replace hk := hk t n (by omega) ht
    replace hbl := hbl t n (by omega)
    rw [hent]
    unfold XmlToMathMLAdapter_convert
    sym [] [h1, h2, h3, h4, g1, g2, hk, hb, hbl]

/-! ## The whole call -/

theorem Res.Le.eq {α : Type} {r r' : Res α} (h : r.Le r') (hr : r ≠ .stuck) : r' = r := (h.resolve_left hr).symm

theorem Res.ne_of {α : Type} {x r : Res α} (h : x = r) (hr : r ≠ .stuck) : x ≠ .stuck := h ▸ hr

theorem room_convert (xml : Str) (S0 : Store) (B : Nat)
    (hB : ∀ nodes, (Adapter.fresh.domElements env xml).1 = .ok nodes → Spec.levelsAll nodes ≤ B) :
    ∃ K, ∀ t d, 2 * B + 13 ≤ d → K ≤ t → callD env t d MathMLToLaTeX_convert [.str xml] [] S0 ≠ .stuck := by
  have hrd := withReader_ready S0
  have hr1 := hrd.1
  have hfac : ∀ t n, 4 ≤ n → callD env t n fn_make_xml_to_mathml_adapter [] [] S0 =
      .ok (.obj (S0.length + 3)) (withReader S0) := by
    refine callD_of (fun h => by cases h) fun n hn => ?_
    obtain ⟨n, rfl⟩ : ∃ m, n = m + 4 := ⟨n - 4, by omega⟩
    exact run_factory S0 n
  have hent := fun (t m : Nat) => enterD (env := env) (t := t) (d := m) (f := MathMLToLaTeX_convert)
    (args := [.str xml]) (kw := []) (S := S0) (l := [(.mathml, .str xml)]) rfl
  obtain ⟨_, hres, k, hk⟩ := room_reader (env := env) hrd xml B hB
  cases hres with
  | @raised e _ S hx _ =>
    refine ⟨k, fun t n hn ht => ?_⟩
    obtain ⟨n, rfl⟩ : ∃ m, n = m + 1 := ⟨n - 1, by omega⟩
    replace hk := hk t n (by omega) ht
    refine Res.ne_of (r := .exc (.exc e) S) ?_ (fun h => by cases h)
    rw [hent]
    unfold MathMLToLaTeX_convert
    sym [] [hfac, hr1, hk]
  | @found nodes φ H es as a _ S hx he hd hi ha _ _ =>
    have hm := mathmlElements_math 5 none _ nodes hx
    have hle : deeps es ≤ B := by
      have h1 := buildElems_deep nodes Heap.empty
      rw [he] at h1
      rw [h1]
      exact hB nodes hx
    have hes : ∀ x ∈ es, x.name = c!"math" := by
      have := buildElems_math nodes Heap.empty hm
      rwa [he] at this
    obtain ⟨cs, S1, p1, p2, p3, p4⟩ := construct_all (env := env) (φ := φ) (N := H.next) (H := H)
      (l := [(.mathml_elements, .obj a), (.mathml, .str xml)]) rfl es as S hes hi hd
    have p4' := fun t n (hn : 8 ≤ n) => Res.Le.eq (compRes_le (p := holds ⟨env, call env n, n⟩ []) (p' := holds ⟨env, callD env t n, t + n⟩ [])
      (fun _ _ => .refl _) (fun l h => eval_le (ctxD (env := env) t n) constructExpr l h) .mathml_element
      [(.mathml_elements, .obj a), (.mathml, .str xml)] (as.map .obj) S) (by rw [p4 n hn]; exact fun h => by cases h)
    have hg := convert_all (env := env)
      (l := [(.mathml_elements_to_latex_converters, .obj S1.length), (.mathml_elements, .obj a), (.mathml, .str xml)])
      es cs (S1 ++ [.list (cs.map .obj)]) H (p3.mono (.app _ _)) (p2.app _)
    have hle' := fun t n => compRes_le (p := holds ⟨env, call env n, n⟩ []) (p' := holds ⟨env, callD env t n, t + n⟩ [])
      (fun _ _ => .refl _) (fun l h => eval_le (ctxD (env := env) t n) convertExpr l h) .to_latex_converters
      [(.mathml_elements_to_latex_converters, .obj S1.length), (.mathml_elements, .obj a), (.mathml, .str xml)]
      (cs.map .obj) (S1 ++ [.list (cs.map .obj)])
    rcases hg with ⟨ss, H', h', g1, g2, g3, g4⟩ | ⟨e, H', v, h', g1, g2, g3⟩
    · refine ⟨k, fun t n hn ht => ?_⟩
      obtain ⟨n, rfl⟩ : ∃ m, n = m + 1 := ⟨n - 1, by omega⟩
      replace hk := hk t n (by omega) ht
      replace p4' := p4' t n (by omega)
      rw [p4 n (by omega)] at p4'
      have g2 := g2 n (by omega)
      dsimp only at g2
      have g5 := (hle' t n).eq (by rw [g2]; exact fun h => by cases h)
      rw [g2] at g5
      refine Res.ne_of (r := .ok (.str (strip (join [] ss))) (h' ++ [.list (ss.map .str)])) ?_ (fun h => by cases h)
      rw [hent]
      unfold MathMLToLaTeX_convert
      sym [] [hfac, hr1, hk, ha, p4', g5, strings_map]
    · refine ⟨k, fun t n hn ht => ?_⟩
      obtain ⟨n, rfl⟩ : ∃ m, n = m + 1 := ⟨n - 1, by omega⟩
      replace hk := hk t n (by omega) ht
      replace p4' := p4' t n (by omega)
      rw [p4 n (by omega)] at p4'
      have g2 := g2 n (by omega)
      dsimp only at g2
      have g5 := (hle' t n).eq (by rw [g2]; exact fun h => by cases h)
      rw [g2] at g5
      refine Res.ne_of (r := .exc v h') ?_ (fun h => by cases h)
      rw [hent]
      unfold MathMLToLaTeX_convert
      sym [] [hfac, hr1, hk, ha, p4', g5]

end Verif.Src
