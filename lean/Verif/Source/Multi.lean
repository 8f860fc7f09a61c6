import Verif.Source.Scripts

/-!
# `MAction` and `MMultiscripts`
-/

namespace Verif.Src

attribute [local irreducible] vowelsWithAccents accentToLtxCmd specialFontChars allMathSymbolsByChar
  allMathSymbolsByGlyph mathNumberByGlyph allMathOperatorsByChar allMathOperatorsByGlyph

variable {env : Env} {B : Nat}
variable {φ : Nat → Nat} {N : Dom} {H : Heap} {S : Store} {ad e : Nat} {name value : Str} {r : Nat}
  {cs : List Elem} {la : Nat} {as : List Nat} {c : Nat}

/-! ## `MAction` -/

theorem pyIndex_nil {α : Type} : pyIndex ([] : List α) 0 = none := rfl

/-- usecases.py 513–515, as a condition on the attributes. -/
def isToggle (A : Attrs) : Bool :=
  decide (Attrs.getD A c!"actiontype" [] = c!"toggle" ∨ Attrs.getD A c!"actiontype" [] = [])

theorem run_isToggle (hc : S[c]? = some (plainObj .MAction e ad))
    (h2 : S[e]? = some (elemObj name value la r)) {A : Attrs} (hd : S[r]? = some (.dict (dictVal A)))
    (n : Nat) :
    call env (n + 2) MAction__is_toggle [.obj c] [] S = .ok (.bool (isToggle A)) S := by
  have hg := get_dictVal A c!"actiontype"
  unfold isToggle Attrs.getD
  generalize hq : Dict.get? A c!"actiontype" = o at hg
  rcases o with _ | t
  · sym [MAction__is_toggle] [hc, h2, run_attributes, hd, hg]; rfl
  · rcases t with _ | ⟨t, ts⟩
    · sym [MAction__is_toggle] [hc, h2, run_attributes, hd, hg]; rfl
    · by_cases hv : (t :: ts) = c!"toggle"
      · rw [hv] at hg ⊢
        sym [MAction__is_toggle] [hc, h2, run_attributes, hd, hg]; rfl
      · sym [MAction__is_toggle] [hc, h2, run_attributes, hd, hg] [hv]
        simp [hv]

theorem run_maction (hat : At φ N H S ad e name value r cs la as)
    (hok : ∀ x ∈ cs, ElemOK env N (B + 12) x) (hc : S[c]? = some (plainObj .MAction e ad)) :
    RunsBy (B + 14) (fun n => call env n MAction_convert [.obj c] [] S)
      (Agrees φ N S (mactionConvert r (kidsOf cs) H)) := by
  obtain ⟨h1, h2, h3, h4, h5, h6⟩ := hat
  have ht := run_isToggle (env := env) hc h2 (h6.get r h4)
  unfold mactionConvert
  rw [attributes_bind]
  generalize hg : isToggle (H.cells r) = b at ht
  cases b with
  | true =>
    rw [if_pos (of_decide_eq_true hg)]
    rcases run_kids (env := env) (l := [(.children, .obj la), (.self, .obj c)]) hok
        ⟨h1, c, _, _, rfl, hc, rfl, rfl⟩ h5 h6 with
      ⟨ss, H', h', hx, hr, he, hd⟩ | ⟨x, H', v, h', hx, hr, hR⟩
    · rw [Stack.M_bind_ok hx]
      fuel 13
      fuel B
      sym [MAction_convert] [hc, h2, h3, run_children, hr, strings_map, ht]
      exact .ok rfl rfl (he.app' _) (hd.app _)
    · rw [Stack.M_bind_error hx]
      fuel 13
      fuel B
      sym [MAction_convert] [hc, h2, h3, run_children, hr, strings_map, ht]
      exact .exc rfl hR
  | false =>
    rw [if_neg (of_decide_eq_false hg)]
    match cs, as, h5, hok with
    | [], [], _, _ =>
      simp only [List.map_nil] at h3
      fuel 4
      sym [MAction_convert] [h1, hc, h2, h3, run_children, ht, pyIndex_nil]
      exact .exc rfl ⟨rfl, .refl _, by assumption⟩ (.refl _)
    | x :: cs, a :: as, h5, hok =>
      simp only [List.map_cons] at h3
      rw [kidsOf_cons]
      unfold IsElems at h5
      obtain ⟨c', g, m, r1, r2, r3⟩ := hok x (by simp) h1 h5.1 h6
      rcases r3 with ⟨s, H', h', hx, r3, he, hd⟩ | ⟨x, H', v, h', hx, r3, hR⟩
      · fuel 13
        fuel B
        sym [MAction_convert] [h1, hc, h2, h3, run_children, ht, pyIndex_0, r1, r2, r3]
        exact .ok hx rfl he hd
      · fuel 13
        fuel B
        sym [MAction_convert] [h1, hc, h2, h3, run_children, ht, pyIndex_0, r1, r2, r3]
        exact .exc hx hR
    | [], _ :: _, h5, _ => simp [IsElems] at h5
    | _ :: _, [], h5, _ => simp [IsElems] at h5

/-! ## `MMultiscripts` -/

theorem compile_spaces (w : Char → Bool) : compilePattern w false false c!"\\s+" =
    some ⟨false, .seq (.plus isSpace) .eps, false⟩ := rfl

theorem search_spaces (s : Str) : Pattern.search? ⟨false, .seq (.plus isSpace) .eps, false⟩ s =
    some ((Re.plus isSpace).search s) := by
  simp only [Pattern.search?, Bool.or_self, Bool.false_eq_true, if_false, Option.some.injEq]
  induction s with
  | nil => rfl
  | cons c s ih =>
    simp only [Re.search, ih]
    rfl

theorem run_wrapSpace {p : Nat} (hc : S[c]? = some (parenthesisObj .MMultiscripts e ad p))
    (hp : S[p]? = some parenObj) (val : Str) (n : Nat) :
    call env (n + 3) MMultiscripts__wrap_in_parenthesis_if_there_is_space [.obj c, .str val] [] S =
      .ok (.str (wrapInParenthesisIfThereIsSpace val)) S := by
  unfold wrapInParenthesisIfThereIsSpace
  generalize hs : (Re.plus isSpace).search val = b
  cases b with
  | true =>
    sym [MMultiscripts__wrap_in_parenthesis_if_there_is_space] [hc, hp, compile_spaces, search_spaces, run_parenWrap] [hs]
    rfl
  | false =>
    sym [MMultiscripts__wrap_in_parenthesis_if_there_is_space] [hc, hp, compile_spaces, search_spaces] [hs]
    rfl

theorem run_isPrescripts {x : Elem} {a p : Nat} (hi : IsElem φ N.all S x a)
    (hc : S[c]? = some (parenthesisObj .MMultiscripts e ad p)) (n : Nat) :
    call env (n + 2) MMultiscripts__is_prescripts [.obj c, .obj a] [] S =
        .ok (.bool (isPrescripts (x, convertElem x))) S := by
  obtain ⟨nm, vl, r, cs⟩ := x
  unfold IsElem at hi
  obtain ⟨hr, la, as, h2, h3, h4⟩ := hi
  simp only [isPrescripts, Elem.name]
  sym [MMultiscripts__is_prescripts] [h2, run_name]

theorem run_prescript {p : Nat} (hat : At φ N H S ad e name value r cs la as)
    (hok : ∀ x ∈ cs, ElemOK env N (B + 12) x) (hc : S[c]? = some (parenthesisObj .MMultiscripts e ad p)) :
    Good (B + 13) φ N S (prescriptLatex (kidsOf cs) H) .str
      (fun n => call env n MMultiscripts__prescript_latex [.obj c] [] S) := by
  obtain ⟨h1, h2, h3, h4, h5, h6⟩ := hat
  apply good_of_runs
  match cs, h5.length, h5, hok with
  | [], hlen, h5, hok | [x0], hlen, h5, hok | [x0, x1], hlen, h5, hok | [x0, x1, x2], hlen, h5, hok =>
    have hl : ¬ (as.length : Int) ≥ 4 := by rw [hlen]; simp
    have hl' : ¬ (as.length : Int) ≥ 6 := by rw [hlen]; simp
    fuel 4
    sym [MMultiscripts__prescript_latex] [h1, hc, h2, h3, run_children] [hl, hl']
    exact .ok rfl rfl (.refl S) h6
  | x0 :: x1 :: x2 :: x3 :: cs, hlen, h5, hok =>
    match as, h5, hlen with
    | a0 :: a1 :: a2 :: a3 :: as', h5, hlen =>
      unfold IsElems at h5
      obtain ⟨i0, h5⟩ := h5
      unfold IsElems at h5
      obtain ⟨i1, h5⟩ := h5
      unfold IsElems at h5
      obtain ⟨i2, h5⟩ := h5
      unfold IsElems at h5
      obtain ⟨i3, h5⟩ := h5
      have u1 := pyIndex_1 (Val.obj a0) (Val.obj a1) (Val.obj a2 :: Val.obj a3 :: as'.map Val.obj)
      have u2 := pyIndex_2 (Val.obj a0) (Val.obj a1) (Val.obj a2) (Val.obj a3 :: as'.map Val.obj)
      have u3 := pyIndex_3 (Val.obj a0) (Val.obj a1) (Val.obj a2) (Val.obj a3) (as'.map Val.obj)
      have hf1 := run_isPrescripts (env := env) i1 hc
      have hf3 := run_isPrescripts (env := env) i3 hc
      simp only [List.map_cons] at h3
      generalize hA : (Val.obj a0 :: Val.obj a1 :: Val.obj a2 :: Val.obj a3 :: as'.map Val.obj) = A at h3 u1 u2 u3
      have hlA : (A.length : Int) = (cs.length : Int) + 4 := by
        rw [← hA]
        simp only [List.length_cons, List.length_map] at hlen ⊢
        omega
      have hl : (A.length : Int) ≥ 4 := by omega
      simp only [kidsOf_cons, prescriptLatex]
      by_cases hv : isPrescripts (x1, convertElem x1) = true
      · rw [if_pos hv]
        rw [hv] at hf1
        obtain ⟨c1, b1, m1, p1, q1, z1⟩ := hok x2 (by simp) h1 i2 h6
        unfold scriptPair
        rcases z1 with ⟨s1, H1, g1, y1, t1, e1, d1⟩ | ⟨w, H1, v, g1, y1, t1, hR⟩
        · rw [Stack.M_bind_ok y1]
          obtain ⟨c2, b2, m2, p2, q2, z2⟩ := hok x3 (by simp) (e1.get h1 rfl) (i3.mono e1) d1
          rcases z2 with ⟨s2, H2, g2, y2, t2, e2, d2⟩ | ⟨w, H2, v, g2, y2, t2, hR⟩
          · rw [Stack.M_bind_ok y2]
            fuel 13
            fuel B
            sym [MMultiscripts__prescript_latex] [h1, hc, h2, h3, run_children, hf1, u1, u2, u3, p1, q1, t1, e1.get, p2, q2, t2, e2.get] [hl]
            exact .ok rfl (by simp) (e1.trans e2) d2
          · rw [Stack.M_bind_error y2]
            fuel 13
            fuel B
            sym [MMultiscripts__prescript_latex] [h1, hc, h2, h3, run_children, hf1, u1, u2, u3, p1, q1, t1, e1.get, p2, q2, t2] [hl]
            exact .exc rfl hR
        · rw [Stack.M_bind_error y1]
          fuel 13
          fuel B
          sym [MMultiscripts__prescript_latex] [h1, hc, h2, h3, run_children, hf1, u1, u2, u3, p1, q1, t1] [hl]
          exact .exc rfl hR
      · rw [if_neg hv]
        rw [Bool.not_eq_true] at hv
        rw [hv] at hf1
        match cs, h5, hok, hlA with
        | [], h5, hok, hlA | [x4], h5, hok, hlA =>
          have hl' : ¬ (A.length : Int) ≥ 6 := by rw [hlA]; simp
          fuel 4
          sym [MMultiscripts__prescript_latex] [h1, hc, h2, h3, run_children, hf1, u1] [hl, hl']
          exact .ok rfl rfl (.refl S) h6
        | x4 :: x5 :: cs, h5, hok, hlA =>
          match as', h5, hA with
          | a4 :: a5 :: as', h5, hA =>
            unfold IsElems at h5
            obtain ⟨i4, h5⟩ := h5
            unfold IsElems at h5
            obtain ⟨i5, h5⟩ := h5
            have u4 := pyIndex_4 (Val.obj a0) (Val.obj a1) (Val.obj a2) (Val.obj a3) (Val.obj a4) (Val.obj a5 :: as'.map Val.obj)
            have u5 := pyIndex_5 (Val.obj a0) (Val.obj a1) (Val.obj a2) (Val.obj a3) (Val.obj a4) (Val.obj a5) (as'.map Val.obj)
            simp only [List.map_cons] at hA
            rw [hA] at u4 u5
            have hl' : (A.length : Int) ≥ 6 := by rw [hlA]; simp only [List.length_cons]; omega
            simp only [kidsOf_cons]
            by_cases hv3 : isPrescripts (x3, convertElem x3) = true
            · rw [if_pos hv3]
              rw [hv3] at hf3
              obtain ⟨c1, b1, m1, p1, q1, z1⟩ := hok x4 (by simp) h1 i4 h6
              unfold scriptPair
              rcases z1 with ⟨s1, H1, g1, y1, t1, e1, d1⟩ | ⟨w, H1, v, g1, y1, t1, hR⟩
              · rw [Stack.M_bind_ok y1]
                obtain ⟨c2, b2, m2, p2, q2, z2⟩ := hok x5 (by simp) (e1.get h1 rfl) (i5.mono e1) d1
                rcases z2 with ⟨s2, H2, g2, y2, t2, e2, d2⟩ | ⟨w, H2, v, g2, y2, t2, hR⟩
                · rw [Stack.M_bind_ok y2]
                  fuel 13
                  fuel B
                  sym [MMultiscripts__prescript_latex] [h1, hc, h2, h3, run_children, hf1, hf3, u1, u3, u4, u5, p1, q1, t1, e1.get, p2, q2, t2, e2.get] [hl, hl']
                  exact .ok rfl (by simp) (e1.trans e2) d2
                · rw [Stack.M_bind_error y2]
                  fuel 13
                  fuel B
                  sym [MMultiscripts__prescript_latex] [h1, hc, h2, h3, run_children, hf1, hf3, u1, u3, u4, u5, p1, q1, t1, e1.get, p2, q2, t2] [hl, hl']
                  exact .exc rfl hR
              · rw [Stack.M_bind_error y1]
                fuel 13
                fuel B
                sym [MMultiscripts__prescript_latex] [h1, hc, h2, h3, run_children, hf1, hf3, u1, u3, u4, u5, p1, q1, t1] [hl, hl']
                exact .exc rfl hR
            · rw [if_neg hv3]
              rw [Bool.not_eq_true] at hv3
              rw [hv3] at hf3
              fuel 4
              sym [MMultiscripts__prescript_latex] [h1, hc, h2, h3, run_children, hf1, hf3, u1, u3] [hl, hl']
              exact .ok rfl rfl (.refl S) h6
          | [], h5, _ => simp [IsElems] at h5
          | [_], h5, _ => simp [IsElems] at h5
    | [], _, hlen | [_], _, hlen | [_, _], _, hlen | [_, _, _], _, hlen => simp at hlen

theorem run_postscript {p : Nat} (hat : At φ N H S ad e name value r cs la as)
    (hok : ∀ x ∈ cs, ElemOK env N (B + 12) x) (hc : S[c]? = some (parenthesisObj .MMultiscripts e ad p)) :
    Good (B + 13) φ N S (postscriptLatex (kidsOf cs) H) .str
      (fun n => call env n MMultiscripts__postscript_latex [.obj c] [] S) := by
  obtain ⟨h1, h2, h3, h4, h5, h6⟩ := hat
  apply good_of_runs
  match cs, h5.length, h5, hok with
  | [], hlen, h5, hok | [x0], hlen, h5, hok | [x0, x1], hlen, h5, hok =>
    have hl : (as.length : Int) < 3 := by rw [hlen]; simp
    fuel 4
    sym [MMultiscripts__postscript_latex] [h1, hc, h2, h3, run_children] [hl]
    exact .ok rfl rfl (.refl S) h6
  | x0 :: x1 :: x2 :: cs, hlen, h5, hok =>
    match as, h5, hlen with
    | a0 :: a1 :: a2 :: as', h5, hlen =>
      unfold IsElems at h5
      obtain ⟨i0, h5⟩ := h5
      unfold IsElems at h5
      obtain ⟨i1, h5⟩ := h5
      unfold IsElems at h5
      obtain ⟨i2, h5⟩ := h5
      have u1 := pyIndex_1 (Val.obj a0) (Val.obj a1) (Val.obj a2 :: as'.map Val.obj)
      have u2 := pyIndex_2 (Val.obj a0) (Val.obj a1) (Val.obj a2) (as'.map Val.obj)
      have hf1 := run_isPrescripts (env := env) i1 hc
      simp only [List.map_cons] at h3
      generalize hA : (Val.obj a0 :: Val.obj a1 :: Val.obj a2 :: as'.map Val.obj) = A at h3 u1 u2
      have hlA : (A.length : Int) = (cs.length : Int) + 3 := by
        rw [← hA]
        simp only [List.length_cons, List.length_map] at hlen ⊢
        omega
      have hl0 : ¬ (A.length : Int) < 3 := by omega
      have hl : (A.length : Int) ≥ 1 := by omega
      simp only [kidsOf_cons, postscriptLatex]
      by_cases hv : isPrescripts (x1, convertElem x1) = true
      · rw [if_pos hv]
        rw [hv] at hf1
        fuel 4
        sym [MMultiscripts__postscript_latex] [h1, hc, h2, h3, run_children, hf1, u1] [hl, hl0]
        exact .ok rfl rfl (.refl S) h6
      · rw [if_neg hv]
        rw [Bool.not_eq_true] at hv
        rw [hv] at hf1
        obtain ⟨c1, b1, m1, p1, q1, z1⟩ := hok x1 (by simp) h1 i1 h6
        unfold scriptPair
        rcases z1 with ⟨s1, H1, g1, y1, t1, e1, d1⟩ | ⟨w, H1, v, g1, y1, t1, hR⟩
        · rw [Stack.M_bind_ok y1]
          obtain ⟨c2, b2, m2, p2, q2, z2⟩ := hok x2 (by simp) (e1.get h1 rfl) (i2.mono e1) d1
          rcases z2 with ⟨s2, H2, g2, y2, t2, e2, d2⟩ | ⟨w, H2, v, g2, y2, t2, hR⟩
          · rw [Stack.M_bind_ok y2]
            fuel 13
            fuel B
            sym [MMultiscripts__postscript_latex] [h1, hc, h2, h3, run_children, hf1, u1, u2, p1, q1, t1, e1.get, p2, q2, t2, e2.get] [hl, hl0]
            exact .ok rfl (by simp) (e1.trans e2) d2
          · rw [Stack.M_bind_error y2]
            fuel 13
            fuel B
            sym [MMultiscripts__postscript_latex] [h1, hc, h2, h3, run_children, hf1, u1, u2, p1, q1, t1, e1.get, p2, q2, t2] [hl, hl0]
            exact .exc rfl hR
        · rw [Stack.M_bind_error y1]
          fuel 13
          fuel B
          sym [MMultiscripts__postscript_latex] [h1, hc, h2, h3, run_children, hf1, u1, u2, p1, q1, t1] [hl, hl0]
          exact .exc rfl hR
    | [], _, hlen | [_], _, hlen | [_, _], _, hlen => simp at hlen

theorem mmultiscriptsConvert_bad (name : Str) {kids : List Kid} (h : kids.length < 3) :
    mmultiscriptsConvert name kids = throw (.invalidChildren name 3 kids.length c!"at least") := by
  unfold mmultiscriptsConvert
  split
  · simp at h; omega
  · rfl

theorem run_mmultiscripts {p : Nat} (hat : At φ N H S ad e name value r cs la as)
    (hok : ∀ x ∈ cs, ElemOK env N (B + 12) x) (hc : S[c]? = some (parenthesisObj .MMultiscripts e ad p))
    (hp : S[p]? = some parenObj) :
    RunsBy (B + 14) (fun n => call env n MMultiscripts_convert [.obj c] [] S)
      (Agrees φ N S (mmultiscriptsConvert name (kidsOf cs) H)) := by
  have hat0 := hat
  obtain ⟨h1, h2, h3, h4, h5, h6⟩ := hat
  by_cases hlt : cs.length < 3
  · have hl : (as.length : Int) < 3 := by rw [h5.length]; omega
    rw [mmultiscriptsConvert_bad _ (by rw [kidsOf_length]; exact hlt), kidsOf_length, ← h5.length]
    fuel 4
    sym [MMultiscripts_convert] [hc, h2, h3, run_children, run_name, run_errorAtLeast] [hl]
    exact .exc rfl ⟨by rw [List.length_map]; exact raised_error S name 3 as.length _, .app _ _, Dicts.app (by assumption) _⟩ (.refl _)
  · have hl : ¬ (as.length : Int) < 3 := by rw [h5.length]; omega
    match cs, as, h5, hok, hlt with
    | x0 :: x1 :: x2 :: cs, a0 :: as', h5', hok, _ =>
      have i0 := h5'
      unfold IsElems at i0
      replace i0 := i0.1
      have g0 := pyIndex_0 (Val.obj a0) (as'.map Val.obj)
      simp only [List.map_cons] at h3
      generalize hA : (Val.obj a0 :: as'.map Val.obj) = A at h3 g0
      replace hl : ¬ (A.length : Int) < 3 := by
        rw [← hA]
        simpa using hl
      have hm : mmultiscriptsConvert name (kidsOf (x0 :: x1 :: x2 :: cs)) = (do
          let baseContent ← convertElem x0
          let pre ← prescriptLatex (kidsOf (x0 :: x1 :: x2 :: cs))
          let post ← postscriptLatex (kidsOf (x0 :: x1 :: x2 :: cs))
          return pre ++ wrapInParenthesisIfThereIsSpace baseContent ++ post) := by
        simp only [kidsOf_cons, mmultiscriptsConvert]
      rw [hm]
      obtain ⟨c1, b1, m1, p1, q1, z1⟩ := hok x0 (by simp) h1 i0 h6
      rcases z1 with ⟨s1, H1, g1, y1, t1, e1, d1⟩ | ⟨w, H1, v, g1, y1, t1, hR⟩
      · rw [Stack.M_bind_ok y1]
        have hw := run_wrapSpace (env := env) (e1.get hc rfl)
        rcases run_prescript (env := env) (hat0.mono e1 d1) hok (e1.get hc rfl) with
          ⟨s2, H2, g2, y2, t2, e2, d2⟩ | ⟨w, H2, v, g2, y2, t2, hR⟩
        · rw [Stack.M_bind_ok y2]
          have e12 := e1.trans e2
          rcases run_postscript (env := env) (hat0.mono e12 d2) hok (e12.get hc rfl) with
            ⟨s3, H3, g3, y3, t3, e3, d3⟩ | ⟨w, H3, v, g3, y3, t3, hR⟩
          · rw [Stack.M_bind_ok y3]
            fuel 14
            fuel B
            sym [MMultiscripts_convert] [h1, hc, h2, h3, hp, run_children, run_name, g0, p1, q1, t1, e1.get, t2, e2.get, run_wrapSpace, t3] [hl]
            exact .ok rfl (by simp) (e12.trans e3) d3
          · rw [Stack.M_bind_error y3]
            fuel 14
            fuel B
            sym [MMultiscripts_convert] [h1, hc, h2, h3, hp, run_children, run_name, g0, p1, q1, t1, e1.get, t2, e2.get, run_wrapSpace, t3] [hl]
            exact .exc rfl hR
        · rw [Stack.M_bind_error y2]
          fuel 14
          fuel B
          sym [MMultiscripts_convert] [h1, hc, h2, h3, hp, run_children, run_name, g0, p1, q1, t1, e1.get, t2] [hl]
          exact .exc rfl hR
      · rw [Stack.M_bind_error y1]
        fuel 14
        fuel B
        sym [MMultiscripts_convert] [h1, hc, h2, h3, hp, run_children, run_name, g0, p1, q1, t1] [hl]
        exact .exc rfl hR
    | [], _, _, _, hlt | [_], _, _, _, hlt | [_, _], _, _, _, hlt => simp at hlt
    | _ :: _, [], h5, _, _ => simp [IsElems] at h5

end Verif.Src
