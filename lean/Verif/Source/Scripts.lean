import Verif.Source.Layout

/-!
# The converters that take a fixed number of children
-/

namespace Verif.Src

attribute [local irreducible] vowelsWithAccents accentToLtxCmd specialFontChars allMathSymbolsByChar
  allMathSymbolsByGlyph mathNumberByGlyph allMathOperatorsByChar allMathOperatorsByGlyph

variable {env : Env} {B : Nat}
variable {φ : Nat → Nat} {N : Dom} {H : Heap} {S : Store} {ad e : Nat} {name value : Str} {r : Nat}
  {cs : List Elem} {la : Nat} {as : List Nat} {c : Nat}

theorem two_of_length {α : Type} {l : List α} (h : l.length = 2) : ∃ a b, l = [a, b] := by
  match l, h with
  | [a, b], _ => exact ⟨a, b, rfl⟩

theorem three_of_length {α : Type} {l : List α} (h : l.length = 3) : ∃ a b c, l = [a, b, c] := by
  match l, h with
  | [a, b, d], _ => exact ⟨a, b, d, rfl⟩

theorem raised_error (h : Store) (name : Str) (k m : Nat) (cmp : Str) :
    Raised (h ++ [errorObj name k m cmp]) (.obj h.length) (.invalidChildren name k m cmp) :=
  ⟨_, rfl, by simp⟩

theorem isElems_two {x y : Elem} {a b : Nat} (h : IsElems φ N.all S [x, y] [a, b]) :
    IsElem φ N.all S x a ∧ IsElem φ N.all S y b := by
  simp only [IsElems, and_true] at h
  exact h

theorem isElems_three {x y z : Elem} {a b d : Nat} (h : IsElems φ N.all S [x, y, z] [a, b, d]) :
    IsElem φ N.all S x a ∧ IsElem φ N.all S y b ∧ IsElem φ N.all S z d := by
  simp only [IsElems, and_true] at h
  exact h

theorem kidsOf_nil : kidsOf [] = [] := rfl

theorem msupConvert_bad (name : Str) {kids : List Kid} (h : kids.length ≠ 2) :
    msupConvert name kids = throw (.invalidChildren name 2 kids.length c!"exactly") := by
  unfold msupConvert
  split
  · simp at h
  · rfl

theorem run_msup {p b : Nat} (hat : At φ N H S ad e name value r cs la as)
    (hok : ∀ x ∈ cs, ElemOK env N (B + 12) x) (hc : S[c]? = some (scriptObj .MSup e ad p b))
    (hp : S[p]? = some parenObj) (hb : S[b]? = some bracketObj) :
    RunsBy (B + 14) (fun n => call env n MSup_convert [.obj c] [] S)
      (Agrees φ N S (msupConvert name (kidsOf cs) H)) := by
  obtain ⟨h1, h2, h3, h4, h5, h6⟩ := hat
  by_cases hl : cs.length = 2
  · obtain ⟨x, y, rfl⟩ := two_of_length hl
    obtain ⟨a1, a2, rfl⟩ := two_of_length (h5.length.trans hl)
    obtain ⟨i1, i2⟩ := isElems_two h5
    simp only [List.map_cons, List.map_nil] at h3
    simp only [kidsOf_cons, kidsOf_nil, msupConvert]
    rcases run_base (env := env) (f := MSup__handle_base_child) rfl rfl rfl h1 hc hp i1 h6 (hok x (by simp)) with
      ⟨s, H', h', hx, hr, he, hd⟩ | ⟨x, H', v, h', hx, hr, hR⟩
    · rw [Stack.M_bind_ok hx]
      rcases run_exponent (env := env) (f := MSup__handle_exponent_child) rfl rfl rfl (he.get h1 rfl)
          (he.get hc rfl) (he.get hb rfl) (i2.mono he) hd (hok y (by simp)) with
        ⟨s', H'', h'', hx', hr', he', hd'⟩ | ⟨x, H'', v, h'', hx', hr', hR⟩
      · rw [Stack.M_bind_ok hx']
        fuel 14
        fuel B
        sym [MSup_convert] [hc, h2, h3, run_children, run_name, hr, hr', he.get, pyIndex_0, pyIndex_1]
        exact .ok rfl (by simp) (he.trans he') hd'
      · rw [Stack.M_bind_error hx']
        fuel 14
        fuel B
        sym [MSup_convert] [hc, h2, h3, run_children, run_name, hr, hr', he.get, pyIndex_0, pyIndex_1]
        exact .exc rfl hR
    · rw [Stack.M_bind_error hx]
      fuel 14
      fuel B
      sym [MSup_convert] [hc, h2, h3, run_children, run_name, hr, pyIndex_0, pyIndex_1]
      exact .exc rfl hR
  · have hl' : ¬ (as.length : Int) = 2 := by rw [h5.length]; omega
    rw [msupConvert_bad _ (by rw [kidsOf_length]; exact hl), kidsOf_length, ← h5.length]
    fuel 3
    sym [MSup_convert] [hc, h2, h3, run_children, run_name, run_error2] [hl']
    exact .exc rfl ⟨by rw [List.length_map]; exact raised_error S name 2 as.length _, .app _ _, Dicts.app (by assumption) _⟩ (.refl _)

theorem msubConvert_bad (name : Str) {kids : List Kid} (h : kids.length ≠ 2) :
    msubConvert name kids = throw (.invalidChildren name 2 kids.length c!"exactly") := by
  unfold msubConvert
  split
  · simp at h
  · rfl

theorem run_msub {p b : Nat} (hat : At φ N H S ad e name value r cs la as)
    (hok : ∀ x ∈ cs, ElemOK env N (B + 12) x) (hc : S[c]? = some (scriptObj .MSub e ad p b))
    (hp : S[p]? = some parenObj) (hb : S[b]? = some bracketObj) :
    RunsBy (B + 14) (fun n => call env n MSub_convert [.obj c] [] S)
      (Agrees φ N S (msubConvert name (kidsOf cs) H)) := by
  obtain ⟨h1, h2, h3, h4, h5, h6⟩ := hat
  by_cases hl : cs.length = 2
  · obtain ⟨x, y, rfl⟩ := two_of_length hl
    obtain ⟨a1, a2, rfl⟩ := two_of_length (h5.length.trans hl)
    obtain ⟨i1, i2⟩ := isElems_two h5
    simp only [List.map_cons, List.map_nil] at h3
    simp only [kidsOf_cons, kidsOf_nil, msubConvert]
    rcases run_base (env := env) (f := MSub__handle_base_child) rfl rfl rfl h1 hc hp i1 h6 (hok x (by simp)) with
      ⟨s, H', h', hx, hr, he, hd⟩ | ⟨x, H', v, h', hx, hr, hR⟩
    · rw [Stack.M_bind_ok hx]
      rcases run_subscript (env := env) (f := MSub__handle_subscript_child) rfl rfl rfl (he.get h1 rfl)
          (he.get hc rfl) (he.get hb rfl) (i2.mono he) hd (hok y (by simp)) with
        ⟨s', H'', h'', hx', hr', he', hd'⟩ | ⟨x, H'', v, h'', hx', hr', hR⟩
      · rw [Stack.M_bind_ok hx']
        fuel 14
        fuel B
        sym [MSub_convert] [hc, h2, h3, run_children, run_name, hr, hr', he.get, pyIndex_0, pyIndex_1]
        exact .ok rfl (by simp) (he.trans he') hd'
      · rw [Stack.M_bind_error hx']
        fuel 14
        fuel B
        sym [MSub_convert] [hc, h2, h3, run_children, run_name, hr, hr', he.get, pyIndex_0, pyIndex_1]
        exact .exc rfl hR
    · rw [Stack.M_bind_error hx]
      fuel 14
      fuel B
      sym [MSub_convert] [hc, h2, h3, run_children, run_name, hr, pyIndex_0, pyIndex_1]
      exact .exc rfl hR
  · have hl' : ¬ (as.length : Int) = 2 := by rw [h5.length]; omega
    rw [msubConvert_bad _ (by rw [kidsOf_length]; exact hl), kidsOf_length, ← h5.length]
    fuel 3
    sym [MSub_convert] [hc, h2, h3, run_children, run_name, run_error2] [hl']
    exact .exc rfl ⟨by rw [List.length_map]; exact raised_error S name 2 as.length _, .app _ _, Dicts.app (by assumption) _⟩ (.refl _)

theorem mrootConvert_bad (name : Str) {kids : List Kid} (h : kids.length ≠ 2) :
    mrootConvert name kids = throw (.invalidChildren name 2 kids.length c!"exactly") := by
  unfold mrootConvert
  split
  · simp at h
  · rfl

theorem run_mroot (hat : At φ N H S ad e name value r cs la as)
    (hok : ∀ x ∈ cs, ElemOK env N (B + 12) x) (hc : S[c]? = some (plainObj .MRoot e ad)) :
    RunsBy (B + 14) (fun n => call env n MRoot_convert [.obj c] [] S)
      (Agrees φ N S (mrootConvert name (kidsOf cs) H)) := by
  obtain ⟨h1, h2, h3, h4, h5, h6⟩ := hat
  by_cases hl : cs.length = 2
  · obtain ⟨x0, x1, rfl⟩ := two_of_length hl
    obtain ⟨a0, a1, rfl⟩ := two_of_length (h5.length.trans hl)
    obtain ⟨i0, i1⟩ := isElems_two h5
    simp only [List.map_cons, List.map_nil] at h3
    simp only [kidsOf_cons, kidsOf_nil, mrootConvert]
    obtain ⟨c0, b0, m0, p0, q0, z0⟩ := hok x0 (by simp) h1 i0 h6
    rcases z0 with ⟨s0, H0, g0, y0, t0, e0, d0⟩ | ⟨w, H0, v, g0, y0, t0, hR⟩
    · rw [Stack.M_bind_ok y0]
      obtain ⟨c1, b1, m1, p1, q1, z1⟩ := hok x1 (by simp) (e0.get h1 rfl) (i1.mono e0) d0
      rcases z1 with ⟨s1, H1, g1, y1, t1, e1, d1⟩ | ⟨w, H1, v, g1, y1, t1, hR⟩
      · rw [Stack.M_bind_ok y1]
        fuel 13
        fuel B
        sym [MRoot_convert] [h1, hc, h2, h3, run_children, run_name, pyIndex_0, pyIndex_1, pyIndex_2, p0, q0, t0, e0.get, p1, q1, t1, e1.get]
        exact .ok rfl (by simp) (e0.trans e1) d1
      · rw [Stack.M_bind_error y1]
        fuel 13
        fuel B
        sym [MRoot_convert] [h1, hc, h2, h3, run_children, run_name, pyIndex_0, pyIndex_1, pyIndex_2, p0, q0, t0, e0.get, p1, q1, t1]
        exact .exc rfl hR
    · rw [Stack.M_bind_error y0]
      fuel 13
      fuel B
      sym [MRoot_convert] [h1, hc, h2, h3, run_children, run_name, pyIndex_0, pyIndex_1, pyIndex_2, p0, q0, t0]
      exact .exc rfl hR
  · have hl' : ¬ (as.length : Int) = 2 := by rw [h5.length]; omega
    rw [mrootConvert_bad _ (by rw [kidsOf_length]; exact hl), kidsOf_length, ← h5.length]
    fuel 3
    sym [MRoot_convert] [hc, h2, h3, run_children, run_name, run_error2] [hl']
    exact .exc rfl ⟨by rw [List.length_map]; exact raised_error S name 2 as.length _, .app _ _, Dicts.app (by assumption) _⟩ (.refl _)

theorem munderoverConvert_bad (name : Str) {kids : List Kid} (h : kids.length ≠ 3) :
    munderoverConvert name kids = throw (.invalidChildren name 3 kids.length c!"exactly") := by
  unfold munderoverConvert
  split
  · simp at h
  · rfl

theorem run_munderover (hat : At φ N H S ad e name value r cs la as)
    (hok : ∀ x ∈ cs, ElemOK env N (B + 12) x) (hc : S[c]? = some (plainObj .MUnderover e ad)) :
    RunsBy (B + 14) (fun n => call env n MUnderover_convert [.obj c] [] S)
      (Agrees φ N S (munderoverConvert name (kidsOf cs) H)) := by
  obtain ⟨h1, h2, h3, h4, h5, h6⟩ := hat
  by_cases hl : cs.length = 3
  · obtain ⟨x0, x1, x2, rfl⟩ := three_of_length hl
    obtain ⟨a0, a1, a2, rfl⟩ := three_of_length (h5.length.trans hl)
    obtain ⟨i0, i1, i2⟩ := isElems_three h5
    simp only [List.map_cons, List.map_nil] at h3
    simp only [kidsOf_cons, kidsOf_nil, munderoverConvert]
    obtain ⟨c0, b0, m0, p0, q0, z0⟩ := hok x0 (by simp) h1 i0 h6
    rcases z0 with ⟨s0, H0, g0, y0, t0, e0, d0⟩ | ⟨w, H0, v, g0, y0, t0, hR⟩
    · rw [Stack.M_bind_ok y0]
      obtain ⟨c1, b1, m1, p1, q1, z1⟩ := hok x1 (by simp) (e0.get h1 rfl) (i1.mono e0) d0
      rcases z1 with ⟨s1, H1, g1, y1, t1, e1, d1⟩ | ⟨w, H1, v, g1, y1, t1, hR⟩
      · rw [Stack.M_bind_ok y1]
        obtain ⟨c2, b2, m2, p2, q2, z2⟩ := hok x2 (by simp) (e1.get (e0.get h1 rfl) rfl) ((i2.mono e0).mono e1) d1
        rcases z2 with ⟨s2, H2, g2, y2, t2, e2, d2⟩ | ⟨w, H2, v, g2, y2, t2, hR⟩
        · rw [Stack.M_bind_ok y2]
          fuel 13
          fuel B
          sym [MUnderover_convert] [h1, hc, h2, h3, run_children, run_name, pyIndex_0, pyIndex_1, pyIndex_2, p0, q0, t0, e0.get, p1, q1, t1, e1.get, p2, q2, t2, e2.get]
          exact .ok rfl (by simp) ((e0.trans e1).trans e2) d2
        · rw [Stack.M_bind_error y2]
          fuel 13
          fuel B
          sym [MUnderover_convert] [h1, hc, h2, h3, run_children, run_name, pyIndex_0, pyIndex_1, pyIndex_2, p0, q0, t0, e0.get, p1, q1, t1, e1.get, p2, q2, t2]
          exact .exc rfl hR (e0.trans e1)
      · rw [Stack.M_bind_error y1]
        fuel 13
        fuel B
        sym [MUnderover_convert] [h1, hc, h2, h3, run_children, run_name, pyIndex_0, pyIndex_1, pyIndex_2, p0, q0, t0, e0.get, p1, q1, t1]
        exact .exc rfl hR
    · rw [Stack.M_bind_error y0]
      fuel 13
      fuel B
      sym [MUnderover_convert] [h1, hc, h2, h3, run_children, run_name, pyIndex_0, pyIndex_1, pyIndex_2, p0, q0, t0]
      exact .exc rfl hR
  · have hl' : ¬ (as.length : Int) = 3 := by rw [h5.length]; omega
    rw [munderoverConvert_bad _ (by rw [kidsOf_length]; exact hl), kidsOf_length, ← h5.length]
    fuel 3
    sym [MUnderover_convert] [hc, h2, h3, run_children, run_name, run_error3] [hl']
    exact .exc rfl ⟨by rw [List.length_map]; exact raised_error S name 3 as.length _, .app _ _, Dicts.app (by assumption) _⟩ (.refl _)

theorem attributes_bind {α : Type} (r : Nat) (f : Attrs → M α) (H : Heap) :
    (attributes r >>= f) H = f (H.cells r) H := rfl

/-- An instance of `MFrac` or `MMultiscripts`. -/
abbrev parenthesisObj (cls : Ident) (e ad p : Nat) : Obj :=
  .inst cls [(._math_element, .obj e), (._adapter, .obj ad), (._parenthesis_wrapper, .obj p)]

theorem mfracConvert_bad (name : Str) (aref : Nat) {kids : List Kid} (h : kids.length ≠ 2) :
    mfracConvert name aref kids = throw (.invalidChildren name 2 kids.length c!"exactly") := by
  unfold mfracConvert
  split
  · simp at h
  · rfl

theorem run_mfrac {p : Nat} (hat : At φ N H S ad e name value r cs la as)
    (hok : ∀ x ∈ cs, ElemOK env N (B + 12) x) (hc : S[c]? = some (parenthesisObj .MFrac e ad p)) (hp : S[p]? = some parenObj) :
    RunsBy (B + 14) (fun n => call env n MFrac_convert [.obj c] [] S)
      (Agrees φ N S (mfracConvert name r (kidsOf cs) H)) := by
  obtain ⟨h1, h2, h3, h4, h5, h6⟩ := hat
  by_cases hl : cs.length = 2
  · obtain ⟨x0, x1, rfl⟩ := two_of_length hl
    obtain ⟨a0, a1, rfl⟩ := two_of_length (h5.length.trans hl)
    obtain ⟨i0, i1⟩ := isElems_two h5
    simp only [List.map_cons, List.map_nil] at h3
    simp only [kidsOf_cons, kidsOf_nil, mfracConvert]
    obtain ⟨c0, b0, m0, p0, q0, z0⟩ := hok x0 (by simp) h1 i0 h6
    rcases z0 with ⟨s0, H0, g0, y0, t0, e0, d0⟩ | ⟨w, H0, v, g0, y0, t0, hR⟩
    · rw [Stack.M_bind_ok y0]
      obtain ⟨c1, b1, m1, p1, q1, z1⟩ := hok x1 (by simp) (e0.get h1 rfl) (i1.mono e0) d0
      rcases z1 with ⟨s1, H1, g1, y1, t1, e1, d1⟩ | ⟨w, H1, v, g1, y1, t1, hR⟩
      · rw [Stack.M_bind_ok y1]
        rw [attributes_bind]
        have hg := get_dictVal (H1.cells r) c!"bevelled"
        have hd := d1.get r h4
        unfold Attrs.getD
        generalize hq : Dict.get? (H1.cells r) c!"bevelled" = o at hg
        rcases o with _ | _ | ⟨t, ts⟩
        · fuel 13
          fuel B
          sym [MFrac_convert, MFrac__is_bevelled, MFrac__wrap_if_more_than_one_char] [h1, hc, h2, h3, hp, hd, hg, run_children, run_name, run_attributes, run_parenWrapIf, pyIndex_0, pyIndex_1, p0, q0, t0, e0.get, p1, q1, t1, e1.get]
          exact .ok rfl (by simp) (e0.trans e1) d1
        · fuel 13
          fuel B
          sym [MFrac_convert, MFrac__is_bevelled, MFrac__wrap_if_more_than_one_char] [h1, hc, h2, h3, hp, hd, hg, run_children, run_name, run_attributes, run_parenWrapIf, pyIndex_0, pyIndex_1, p0, q0, t0, e0.get, p1, q1, t1, e1.get]
          exact .ok rfl (by simp) (e0.trans e1) d1
        · fuel 13
          fuel B
          sym [MFrac_convert, MFrac__is_bevelled, MFrac__wrap_if_more_than_one_char] [h1, hc, h2, h3, hp, hd, hg, run_children, run_name, run_attributes, run_parenWrapIf, pyIndex_0, pyIndex_1, p0, q0, t0, e0.get, p1, q1, t1, e1.get]
          exact .ok rfl (by simp) (e0.trans e1) d1
      · rw [Stack.M_bind_error y1]
        fuel 13
        fuel B
        sym [MFrac_convert] [h1, hc, h2, h3, run_children, run_name, pyIndex_0, pyIndex_1, pyIndex_2, p0, q0, t0, e0.get, p1, q1, t1]
        exact .exc rfl hR
    · rw [Stack.M_bind_error y0]
      fuel 13
      fuel B
      sym [MFrac_convert] [h1, hc, h2, h3, run_children, run_name, pyIndex_0, pyIndex_1, pyIndex_2, p0, q0, t0]
      exact .exc rfl hR
  · have hl' : ¬ (as.length : Int) = 2 := by rw [h5.length]; omega
    rw [mfracConvert_bad _ _ (by rw [kidsOf_length]; exact hl), kidsOf_length, ← h5.length]
    fuel 3
    sym [MFrac_convert] [hc, h2, h3, run_children, run_name, run_error2] [hl']
    exact .exc rfl ⟨by rw [List.length_map]; exact raised_error S name 2 as.length _, .app _ _, Dicts.app (by assumption) _⟩ (.refl _)

/-! ## Under and over -/

theorem compile_under (w : Char → Bool) :
    compilePattern w false false c!"under" = some ⟨false, Re.lit c!"under", false⟩ := rfl

theorem search_under (s : Str) : Pattern.search? ⟨false, Re.lit c!"under", false⟩ s =
    some ((Re.lit c!"under").search s) := rfl

theorem run_applyCommand (content accent : Str) (hc : S[c]? = some (plainObj .GenericUnderOver e ad))
    (he : S[e]? = some (elemObj name value la r)) :
    RunsBy 4 (fun n => call env n GenericUnderOver__apply_command [.obj c, .str content, .str accent] [] S)
      fun r => ∃ L, r = .ok (.str (underOverApply ((Re.lit c!"under").search name) content accent))
        (S ++ L) := by
  generalize hs : (Re.lit c!"under").search name = b
  unfold underOverApply
  fuel 4
  test hv
  · cases b <;> rcases hv with rfl | rfl | rfl | rfl
    all_goals
      sym [GenericUnderOver__apply_command, UnderOverSetter___init__, UnderOverSetter_apply, UnderOverSetter__default_command] [hc, he, run_name, compile_under, search_under] [hs]
      created
  · simp only [not_or] at hv
    obtain ⟨v1, v2, v3, v4⟩ := hv
    cases b
    all_goals
      sym [GenericUnderOver__apply_command, UnderOverSetter___init__, UnderOverSetter_apply, UnderOverSetter__default_command] [hc, he, run_name, compile_under, search_under] [*]
      created

theorem underOverConvert_bad (name : Str) {kids : List Kid} (h : kids.length ≠ 2) :
    underOverConvert name kids = throw (.invalidChildren name 2 kids.length c!"exactly") := by
  unfold underOverConvert
  split
  · simp at h
  · rfl

theorem run_underOver (hat : At φ N H S ad e name value r cs la as)
    (hok : ∀ x ∈ cs, ElemOK env N (B + 12) x) (hc : S[c]? = some (plainObj .GenericUnderOver e ad)) :
    RunsBy (B + 14) (fun n => call env n GenericUnderOver_convert [.obj c] [] S)
      (Agrees φ N S (underOverConvert name (kidsOf cs) H)) := by
  obtain ⟨h1, h2, h3, h4, h5, h6⟩ := hat
  by_cases hl : cs.length = 2
  · obtain ⟨x0, x1, rfl⟩ := two_of_length hl
    obtain ⟨a0, a1, rfl⟩ := two_of_length (h5.length.trans hl)
    obtain ⟨i0, i1⟩ := isElems_two h5
    simp only [List.map_cons, List.map_nil] at h3
    simp only [kidsOf_cons, kidsOf_nil, underOverConvert]
    obtain ⟨c0, b0, m0, p0, q0, z0⟩ := hok x0 (by simp) h1 i0 h6
    rcases z0 with ⟨s0, H0, g0, y0, t0, e0, d0⟩ | ⟨w, H0, v, g0, y0, t0, hR⟩
    · rw [Stack.M_bind_ok y0]
      obtain ⟨c1, b1, m1, p1, q1, z1⟩ := hok x1 (by simp) (e0.get h1 rfl) (i1.mono e0) d0
      rcases z1 with ⟨s1, H1, g1, y1, t1, e1, d1⟩ | ⟨w, H1, v, g1, y1, t1, hR⟩
      · rw [Stack.M_bind_ok y1]
        obtain ⟨_, ⟨L, rfl⟩, hk⟩ := run_applyCommand (env := env) s0 s1 (e1.get (e0.get hc rfl) rfl) (e1.get (e0.get h2 rfl) rfl)
        fuel 13
        fuel B
        sym [GenericUnderOver_convert] [h1, hc, h2, h3, run_children, run_name, pyIndex_0, pyIndex_1, hk, p0, q0, t0, e0.get, p1, q1, t1, e1.get]
        exact .ok rfl rfl ((e0.trans e1).app' _) (d1.app _)
      · rw [Stack.M_bind_error y1]
        fuel 13
        fuel B
        sym [GenericUnderOver_convert] [h1, hc, h2, h3, run_children, run_name, pyIndex_0, pyIndex_1, pyIndex_2, p0, q0, t0, e0.get, p1, q1, t1]
        exact .exc rfl hR
    · rw [Stack.M_bind_error y0]
      fuel 13
      fuel B
      sym [GenericUnderOver_convert] [h1, hc, h2, h3, run_children, run_name, pyIndex_0, pyIndex_1, pyIndex_2, p0, q0, t0]
      exact .exc rfl hR
  · have hl' : ¬ (as.length : Int) = 2 := by rw [h5.length]; omega
    rw [underOverConvert_bad _ (by rw [kidsOf_length]; exact hl), kidsOf_length, ← h5.length]
    fuel 3
    sym [GenericUnderOver_convert] [hc, h2, h3, run_children, run_name, run_error2] [hl']
    exact .exc rfl ⟨by rw [List.length_map]; exact raised_error S name 2 as.length _, .app _ _, Dicts.app (by assumption) _⟩ (.refl _)

theorem msubsupConvert_bad (name : Str) {kids : List Kid} (h : kids.length ≠ 3) :
    msubsupConvert name kids = throw (.invalidChildren name 3 kids.length c!"exactly") := by
  unfold msubsupConvert
  split
  · simp at h
  · rfl

theorem run_msubsup {p b : Nat} (hat : At φ N H S ad e name value r cs la as)
    (hok : ∀ x ∈ cs, ElemOK env N (B + 12) x) (hc : S[c]? = some (scriptObj .MSubsup e ad p b))
    (hp : S[p]? = some parenObj) (hb : S[b]? = some bracketObj) :
    RunsBy (B + 14) (fun n => call env n MSubsup_convert [.obj c] [] S)
      (Agrees φ N S (msubsupConvert name (kidsOf cs) H)) := by
  obtain ⟨h1, h2, h3, h4, h5, h6⟩ := hat
  by_cases hl : cs.length = 3
  · obtain ⟨x, y, z, rfl⟩ := three_of_length hl
    obtain ⟨a1, a2, a3, rfl⟩ := three_of_length (h5.length.trans hl)
    obtain ⟨i1, i2, i3⟩ := isElems_three h5
    simp only [List.map_cons, List.map_nil] at h3
    simp only [kidsOf_cons, kidsOf_nil, msubsupConvert]
    rcases run_base (env := env) (f := MSubsup__handle_base_child) rfl rfl rfl h1 hc hp i1 h6 (hok x (by simp)) with
      ⟨s, H', h', hx, hr, he, hd⟩ | ⟨x, H', v, h', hx, hr, hR⟩
    · rw [Stack.M_bind_ok hx]
      rcases run_subscript (env := env) (f := MSubsup__handle_subscript_child) rfl rfl rfl (he.get h1 rfl)
          (he.get hc rfl) (he.get hb rfl) (i2.mono he) hd (hok y (by simp)) with
        ⟨s', H'', h'', hx', hr', he', hd'⟩ | ⟨x, H'', v, h'', hx', hr', hR⟩
      · rw [Stack.M_bind_ok hx']
        have he'' := he.trans he'
        rcases run_superscript (env := env) (f := MSubsup__handle_superscript_child) rfl rfl rfl (he''.get h1 rfl)
            (he''.get hc rfl) (he''.get hb rfl) (i3.mono he'') hd' (hok z (by simp)) with
          ⟨s2, H2, h2', hx2, hr2, he2, hd2⟩ | ⟨x, H2, v, h2', hx2, hr2, hR⟩
        · rw [Stack.M_bind_ok hx2]
          fuel 14
          fuel B
          sym [MSubsup_convert] [h1, hc, h2, h3, run_children, run_name, pyIndex_0, pyIndex_1, pyIndex_2, hr, hr', hr2, he.get, he'.get]
          exact .ok rfl (by simp) (he''.trans he2) hd2
        · rw [Stack.M_bind_error hx2]
          fuel 14
          fuel B
          sym [MSubsup_convert] [h1, hc, h2, h3, run_children, run_name, pyIndex_0, pyIndex_1, pyIndex_2, hr, hr', hr2, he.get, he'.get]
          exact .exc rfl hR
      · rw [Stack.M_bind_error hx']
        fuel 14
        fuel B
        sym [MSubsup_convert] [h1, hc, h2, h3, run_children, run_name, pyIndex_0, pyIndex_1, pyIndex_2, hr, hr', he.get]
        exact .exc rfl hR
    · rw [Stack.M_bind_error hx]
      fuel 14
      fuel B
      sym [MSubsup_convert] [h1, hc, h2, h3, run_children, run_name, pyIndex_0, pyIndex_1, pyIndex_2, hr]
      exact .exc rfl hR
  · have hl' : ¬ (as.length : Int) = 3 := by rw [h5.length]; omega
    rw [msubsupConvert_bad _ (by rw [kidsOf_length]; exact hl), kidsOf_length, ← h5.length]
    fuel 3
    sym [MSubsup_convert] [hc, h2, h3, run_children, run_name, run_error3] [hl']
    exact .exc rfl ⟨by rw [List.length_map]; exact raised_error S name 3 as.length _, .app _ _, Dicts.app (by assumption) _⟩ (.refl _)

end Verif.Src
