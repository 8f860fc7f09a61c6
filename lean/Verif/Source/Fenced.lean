import Verif.Source.Multi

/-!
# `MFenced`, with `Vector`, `Matrix` and `Separators`
-/

namespace Verif.Src

attribute [local irreducible] vowelsWithAccents accentToLtxCmd specialFontChars allMathSymbolsByChar
  allMathSymbolsByGlyph mathNumberByGlyph allMathOperatorsByChar allMathOperatorsByGlyph

variable {env : Env} {B : Nat}
variable {φ : Nat → Nat} {N : Dom} {H : Heap} {S : Store} {ad e : Nat} {name value : Str} {r : Nat}
  {cs : List Elem} {la : Nat} {as : List Nat} {c : Nat}

/-- The objects created, and a proof for the value. -/
macro "created_by " t:tacticSeq : tactic => `(tactic| (
  refine ⟨?_, ok_congr ?_ ?_⟩
  rotate_left 2
  · first
    | rfl
    | (simp only [List.append_assoc]; rfl)
    | exact (List.append_nil _).symm
  · ($t)))

/-! ## Joining with separators -/

theorem pyIndex_nat {α : Type} (l : List α) (i : Nat) : pyIndex l (i : Int) = l[i]? := by
  simp [pyIndex]

theorem pyIndex_last {α : Type} (l : List α) : pyIndex l (-1) = l.getLast? := by
  cases l with
  | nil => rfl
  | cons a l => simp [pyIndex, List.getLast?_eq_getElem?]

/-- An instance of `JoinWithManySeparators`. -/
abbrev joinObj (sp : Nat) : Obj := .inst .JoinWithManySeparators [(._separators, .obj sp)]

theorem run_getSeparator {j sp : Nat} {seps : List Str} (hj : S[j]? = some (joinObj sp))
    (hs : S[sp]? = some (.list (seps.map .str))) (i n : Nat) :
    call env (n + 1) JoinWithManySeparators__get [.obj j, .int i] [] S =
      .ok (.str (getSeparator seps i)) S := by
  have h1 := pyIndex_nat (seps.map Val.str) i
  have h2 := pyIndex_last (seps.map Val.str)
  unfold getSeparator
  generalize hA : seps.map Val.str = A at *
  have hl : A.length = seps.length := by rw [← hA, List.length_map]
  by_cases hi : i < seps.length
  · have hi' : (i : Int) < (A.length : Int) := by omega
    have hg : A[i]? = some (.str seps[i]) := by rw [← hA]; simp [hi]
    rw [hg] at h1
    sym [JoinWithManySeparators__get] [hj, hs, h1] [hi']
    simp [hi]
  · have hi' : ¬ (i : Int) < (A.length : Int) := by omega
    rw [List.getElem?_eq_none (by omega)]
    dsimp only
    cases hq : seps.getLast? with
    | none =>
      rw [List.getLast?_eq_none_iff] at hq
      have hz : A.length = 0 := by rw [hl, hq]; rfl
      sym [JoinWithManySeparators__get] [hj, hs, h1] [hi', hz]
    | some s =>
      have hz : 0 < A.length := by
        rw [hl]
        cases seps with
        | nil => cases hq
        | cons _ _ => simp only [List.length_cons]; omega
      have hg : A.getLast? = some (.str s) := by rw [← hA, List.getLast?_map, hq]; rfl
      rw [hg] at h2
      sym [JoinWithManySeparators__get] [hj, hs, h2] [hi', hz]

/-- services/wrapper.py 46–47: the body of the loop. -/
abbrev joinBody : List Stmt :=
  [.assign .separator (.ite (.cmp .eq (.name .index) (.sub (.call (.name .len) [.name .arr] [] []) (.int 1))) (.str c!"") (.call (.attr (.name .self) ._get) [.name .index] [] [])),
    .assign .acc (.add (.name .acc) (.add (.name .current_str) (.name .separator)))]

/-- The variables of the loop. -/
structure JoinLocals (l : Locals) (j arr : Nat) (acc : Str) : Prop where
  self : look .self l = some (.obj j)
  arr : look .arr l = some (.obj arr)
  acc : look .acc l = some (.str acc)
  len : look .len l = none

theorem run_joinBody {j sp arr : Nat} {seps ss : List Str} (hj : S[j]? = some (joinObj sp))
    (hs : S[sp]? = some (.list (seps.map .str))) (ha : S[arr]? = some (.list (ss.map .str)))
    {l : Locals} {acc : Str} (hl : JoinLocals l j arr acc) (i : Nat) (s : Str) (n : Nat) :
    ∃ l', execs ⟨env, call env (n + 1), n + 1⟩ joinBody ((.current_str, .str s) :: (.index, .int i) :: l) S =
      .next l' S ∧ JoinLocals l' j arr
        (acc ++ (s ++ if i + 1 = ss.length then [] else getSeparator seps i)) := by
  obtain ⟨l1, l2, l3, l4⟩ := hl
  generalize hA : ss.map Val.str = A at *
  have hl : A.length = ss.length := by rw [← hA, List.length_map]
  by_cases hi : i + 1 = ss.length
  · rw [if_pos hi]
    have hi' : (i : Int) = (A.length : Int) - 1 := by omega
    refine ⟨(.acc, .str (acc ++ (s ++ []))) :: (.separator, .str []) ::
      (.current_str, .str s) :: (.index, .int i) :: l, ?_, l1, l2, rfl, l4⟩
    sym [] [l1, l2, l3, l4, ha] [hi']
  · rw [if_neg hi]
    have hi' : ¬ (i : Int) = (A.length : Int) - 1 := by omega
    refine ⟨(.acc, .str (acc ++ (s ++ getSeparator seps i))) :: (.separator, .str (getSeparator seps i)) ::
      (.current_str, .str s) :: (.index, .int i) :: l, ?_, l1, l2, rfl, l4⟩
    sym [] [l1, l2, l3, l4, ha, hj, hs, run_getSeparator] [hi']

theorem run_joinLoop {j sp arr : Nat} {seps ss : List Str} (hj : S[j]? = some (joinObj sp))
    (hs : S[sp]? = some (.list (seps.map .str))) (ha : S[arr]? = some (.list (ss.map .str))) (n : Nat) :
    ∀ (rest : List Str) (i : Nat) (l : Locals) (acc : Str), i + rest.length = ss.length →
      JoinLocals l j arr acc →
      ∃ l', forOut (fun n v l => (.current_str, v) :: (.index, .int n) :: l)
        (execs ⟨env, call env (n + 1), n + 1⟩ joinBody) i (rest.map .str) l S = .next l' S ∧
        look .acc l' = some (.str (acc ++ joinManyFrom seps i rest))
  | [], i, l, acc, _, hl => ⟨l, rfl, by rw [hl.acc, joinManyFrom, List.append_nil]⟩
  | s :: rest, i, l, acc, hi, hl => by
    obtain ⟨l1, h1, h2⟩ := run_joinBody (env := env) hj hs ha hl i s n
    rw [List.length_cons] at hi
    obtain ⟨l2, h3, h4⟩ := run_joinLoop hj hs ha n rest (i + 1) l1 _ (by omega) h2
    refine ⟨l2, ?_, ?_⟩
    · rw [List.map_cons, forOut, h1]
      exact h3
    · rw [h4, joinManyFrom]
      have : (i + 1 = ss.length) ↔ rest = [] := by
        rw [← hi, ← List.length_eq_zero_iff]; omega
      simp [this]

theorem run_join {j sp arr : Nat} {seps ss : List Str} (hj : S[j]? = some (joinObj sp))
    (hs : S[sp]? = some (.list (seps.map .str))) (ha : S[arr]? = some (.list (ss.map .str))) (n : Nat) :
    call env (n + 2) JoinWithManySeparators_join [.obj j, .obj arr] [] S =
      .ok (.str (joinManyFrom seps 0 ss)) S := by
  obtain ⟨l, h1, h2⟩ := run_joinLoop (env := env) hj hs ha n ss 0
    [(.acc, .str []), (.self, .obj j), (.arr, .obj arr)] [] (by simp) ⟨rfl, rfl, rfl, rfl⟩
  rw [List.nil_append] at h2
  sym [JoinWithManySeparators_join] [ha, h1, h2]

/-! ## `Vector` -/

/-- An instance of `Vector`. -/
abbrev vectorObj (op close : Str) (sp : Nat) : Obj :=
  .inst .Vector [(._open, .str op), (._close, .str close), (._separators, .obj sp)]

theorem run_vectorApply {v sp arr : Nat} {op close : Str} {seps ss : List Str}
    (hv : S[v]? = some (vectorObj op close sp))
    (hs : S[sp]? = some (.list (seps.map .str))) (ha : S[arr]? = some (.list (ss.map .str))) :
    Yields 5 env Vector_apply [.obj v, .obj arr] S (.str (genericWrap op close (joinManyFrom seps 0 ss))) := by
  unfold Yields
  fuel 5
  sym [Vector_apply, JoinWithManySeparators___init__, GenericWrapper___init__, GenericWrapper_wrap, Wrapper___init__, Wrapper_wrap] [hv, hs, ha, run_join]
  created_by simp [genericWrap, wrap]

/-! ## `Matrix` -/

/-- An instance of `Separators`. -/
abbrev separatorsObj (op close : Str) : Obj := .inst .Separators [(._open, .str op), (._close, .str close)]
/-- An instance of `Matrix`. -/
abbrev matrixObj (sp : Nat) : Obj :=
  .inst .Matrix [(._separators, .obj sp), (._generic_command, .str c!"matrix")]

theorem run_separatorsWrap {sp : Nat} {op close : Str} (hs : S[sp]? = some (separatorsObj op close))
    (s : Str) : Yields 5 env Separators_wrap [.obj sp, .str s] S (.str (genericWrap op close s)) := by
  unfold Yields
  fuel 5
  sym [Separators_wrap, GenericWrapper___init__, GenericWrapper_wrap, Wrapper___init__, Wrapper_wrap] [hs]
  created_by simp [genericWrap, wrap]

theorem run_compare {sp : Nat} {op close : Str} (hs : S[sp]? = some (separatorsObj op close))
    (a b : Str) (n : Nat) :
    call env (n + 1) Separators__compare [.obj sp, .str a, .str b] [] S =
      .ok (.bool (decide (op = a ∧ close = b))) S := by
  by_cases h1 : op = a
  · by_cases h2 : close = b
    · sym [Separators__compare] [hs] [h1, h2]
      simp [h1, h2]
    · sym [Separators__compare] [hs] [h1, h2]
      simp [h1, h2]
  · sym [Separators__compare] [hs] [h1]
    simp [h1]

theorem run_command {v sp : Nat} {op close : Str} (hv : S[v]? = some (matrixObj sp))
    (hs : S[sp]? = some (separatorsObj op close)) (n : Nat) :
    call env (n + 3) Matrix__command [.obj v] [] S = .ok (.str (matrixCommand op close)) S := by
  unfold matrixCommand
  test h1
  · sym [Matrix__command, Separators_are_parentheses] [hv, hs, run_compare] [h1]
  test h2
  · sym [Matrix__command, Separators_are_parentheses, Separators_are_square_brackets] [hv, hs, run_compare] [h1, h2]
  test h3
  · sym [Matrix__command, Separators_are_parentheses, Separators_are_square_brackets, Separators_are_brackets] [hv, hs, run_compare] [h1, h2, h3]
  test h4
  · sym [Matrix__command, Separators_are_parentheses, Separators_are_square_brackets, Separators_are_brackets, Separators_are_divides] [hv, hs, run_compare] [h1, h2, h3, h4]
  test h5
  · sym [Matrix__command, Separators_are_parentheses, Separators_are_square_brackets, Separators_are_brackets, Separators_are_divides, Separators_are_parallels] [hv, hs, run_compare] [h1, h2, h3, h4, h5]
  test h6
  · sym [Matrix__command, Separators_are_parentheses, Separators_are_square_brackets, Separators_are_brackets, Separators_are_divides, Separators_are_parallels, Separators_are_not_equal] [hv, hs, run_compare] [h1, h2, h3, h4, h5, h6]
  · have h6 : (op == close) = true := by simpa using h6
    sym [Matrix__command, Separators_are_parentheses, Separators_are_square_brackets, Separators_are_brackets, Separators_are_divides, Separators_are_parallels, Separators_are_not_equal] [hv, hs, run_compare] [h1, h2, h3, h4, h5, h6]

theorem run_matrixApply {v sp arr : Nat} {op close : Str} {ss : List Str}
    (hv : S[v]? = some (matrixObj sp)) (hs : S[sp]? = some (separatorsObj op close))
    (ha : S[arr]? = some (.list (ss.map .str))) :
    Yields 6 env Matrix_apply [.obj v, .obj arr] S (.str (matrixApply op close ss)) := by
  unfold Yields matrixApply
  fuel 6
  dsimp only
  test h1
  · have hj := join_nil ss
    have hw := run_separatorsWrap (env := env) hs
    sym [Matrix_apply] [hv, hs, ha, run_command, strings_map] [h1]
    step hc run_separatorsWrap
    sym [] [hc]
    created_by simp [h1, join_nil]
  · sym [Matrix_apply] [hv, hs, ha, run_command, strings_map] [h1]
    refine ⟨[], ok_congr ?_ ?_⟩
    · simp [join_nil]
    · simp

/-! ## `_is_there_relative_of_name` -/

/-- usecases.py 358–359: the element of the comprehension. -/
abbrev relExpr : Expr :=
  .or (.cmp .eq (.attr (.name .child) .«name») (.name .element_name)) (.call (.attr (.name .self) ._is_there_relative_of_name) [.attr (.name .child) .children, .name .element_name] [] [])

theorem anyOf_bools (h : Store) (bs : List Bool) : anyOf h (bs.map .bool) = some (bs.any id) := by
  induction bs with
  | nil => rfl
  | cons b bs ih => cases b <;> simp [anyOf, truthy, ih]

theorem isThere_eq (nm : Str) (es : List Elem) :
    (es.map (hasRelativeOfName1 nm)).any id = isThereRelativeOfName nm es := by
  induction es with
  | nil => rfl
  | cons e es ih => rw [List.map_cons, List.any_cons, ih, isThereRelativeOfName]; rfl

/-! The nesting of elements. -/
mutual
/-- The number of levels of elements. -/
def deep : Elem → Nat
  | .mk _ _ _ cs => deeps cs + 1
/-- The largest number of levels. -/
def deeps : List Elem → Nat
  | [] => 0
  | x :: xs => max (deep x) (deeps xs)
end

theorem deep_le_deeps : ∀ {xs : List Elem} {x : Elem}, x ∈ xs → deep x ≤ deeps xs
  | y :: ys, x, h => by
    rw [deeps]
    rcases List.mem_cons.1 h with rfl | h
    · omega
    · have := deep_le_deeps h
      omega

mutual
theorem run_relative1 {nm : Str} {f la0 : Nat} {fs : List (Ident × Val)}
    (hff : look ._is_there_relative_of_name fs = none) :
    ∀ (x : Elem) (a : Nat) (S : Store), S[f]? = some (.inst .MFenced fs) → IsElem φ N.all S x a →
      ∃ L, ∀ n, deep x ≤ n → eval ⟨env, call env n, n⟩ relExpr
        [(.child, .obj a), (.self, .obj f), (.mathml_elements, .obj la0), (.element_name, .str nm)] S =
          .ok (.bool (hasRelativeOfName1 nm x)) (S ++ L)
  | .mk m vl r cs, a, S, hf, hi => by
    unfold IsElem at hi
    obtain ⟨hr, la, as, h1, h2, h3⟩ := hi
    rw [hasRelativeOfName1, deep]
    by_cases hm : m = nm
    · refine ⟨[], fun n hn => ?_⟩
      obtain ⟨n, rfl⟩ : ∃ m, n = m + 1 := ⟨n - 1, by omega⟩
      sym [] [hf, h1, run_name] [hm]
      simp [hm]
    · obtain ⟨L, hk⟩ := run_relatives (f := f) (la0 := la) (nm := nm) hff cs as S hf h3
      refine ⟨L ++ [.list ((cs.map (hasRelativeOfName1 nm)).map .bool)], fun n hn => ?_⟩
      obtain ⟨n, rfl⟩ : ∃ m, n = m + 1 := ⟨n - 1, by omega⟩
      replace hk := hk n (by omega)
      sym [MFenced__is_there_relative_of_name] [hf, hff, h1, h2, run_name, run_children, hk, anyOf_bools] [hm]
      rw [isThere_eq]
      simp [hm]
theorem run_relatives {nm : Str} {f la0 : Nat} {fs : List (Ident × Val)}
    (hff : look ._is_there_relative_of_name fs = none) :
    ∀ (xs : List Elem) (as : List Nat) (S : Store), S[f]? = some (.inst .MFenced fs) →
      IsElems φ N.all S xs as →
      ∃ L, ∀ n, deeps xs ≤ n → compRes (holds ⟨env, call env n, n⟩ []) (eval ⟨env, call env n, n⟩ relExpr)
        .child [(.self, .obj f), (.mathml_elements, .obj la0), (.element_name, .str nm)] (as.map .obj) S =
          .ok ((xs.map (hasRelativeOfName1 nm)).map .bool) (S ++ L)
  | [], [], S, _, _ => ⟨[], fun n _ => by simp [compRes]⟩
  | x :: xs, a :: as, S, hf, hi => by
    unfold IsElems at hi
    rw [deeps]
    obtain ⟨L, hk⟩ := run_relative1 (la0 := la0) (nm := nm) hff x a S hf hi.1
    obtain ⟨L', hk'⟩ := run_relatives (la0 := la0) (nm := nm) hff xs as (S ++ L) (look_old L hf)
      (hi.2.mono (.app S L))
    refine ⟨L ++ L', fun n hn => ?_⟩
    rw [List.map_cons, compRes, holds, Res.bind_ok, if_pos rfl, hk n (by omega), Res.bind_ok,
      hk' n (by omega), Res.bind_ok]
    simp
  | [], _ :: _, _, _, hi => by simp [IsElems] at hi
  | _ :: _, [], _, _, hi => by simp [IsElems] at hi
end

theorem run_relative {nm : Str} {f : Nat} {fs : List (Ident × Val)}
    (hff : look ._is_there_relative_of_name fs = none) (hf : S[f]? = some (.inst .MFenced fs))
    (hl : S[la]? = some (.list (as.map .obj))) (hi : IsElems φ N.all S cs as) :
    Yields (deeps cs + 1) env MFenced__is_there_relative_of_name [.obj f, .obj la, .str nm] S
      (.bool (isThereRelativeOfName nm cs)) := by
  obtain ⟨L, hk⟩ := run_relatives (env := env) (la0 := la) (nm := nm) hff cs as S hf hi
  unfold Yields
  fuel 1
  fuel (deeps cs)
  sym [MFenced__is_there_relative_of_name] [hf, hl, hk, anyOf_bools]
  rw [isThere_eq, List.append_assoc]
  exact ⟨_, rfl⟩

/-! ## The whole method -/

/-- An instance of `MFenced`. -/
abbrev fencedObj (e ad : Nat) (op close : Str) (sp : Nat) : Obj :=
  .inst .MFenced [(._math_element, .obj e), (._adapter, .obj ad), (._open, .str op), (._close, .str close),
    (._separators, .obj sp)]

theorem kidsOf_fst (cs : List Elem) : (kidsOf cs).map (·.1) = cs := by
  induction cs with
  | nil => rfl
  | cons c cs ih => rw [kidsOf_cons, List.map_cons, ih]

theorem run_mfenced {op close : Str} {sp : Nat} {seps : List Str}
    (hat : At φ N H S ad e name value r cs la as) (hB : deeps cs ≤ B) (hok : ∀ x ∈ cs, ElemOK env N (B + 12) x)
    (hc : S[c]? = some (fencedObj e ad op close sp)) (hs : S[sp]? = some (.list (seps.map .str))) :
    RunsBy (B + 14) (fun n => call env n MFenced_convert [.obj c] [] S)
      (Agrees φ N S (mfencedConvert op close seps (kidsOf cs) H)) := by
  obtain ⟨h1, h2, h3, h4, h5, h6⟩ := hat
  unfold mfencedConvert
  rw [kidsOf_fst]
  rcases run_kids (env := env) (l := [(.self, .obj c)]) hok ⟨h1, c, _, _, rfl, hc, rfl, rfl⟩ h5 h6 with
    ⟨ss, H', h', hx, hr, he, hd⟩ | ⟨x, H', v, h', hx, hr, hR⟩
  · rw [Stack.M_bind_ok hx]
    have hs' := he.get hs rfl
    have he1 := he.app' [.list (ss.map .str)]
    obtain ⟨_, ⟨L, rfl⟩, hk1⟩ := run_relative (env := env) (nm := c!"mtable") rfl (he1.get hc rfl) (he1.get h3 rfl)
      (h5.mono he1)
    dsimp only at hk1
    by_cases ht : isThereRelativeOfName c!"mtable" cs = true
    · rw [if_pos ht]
      rw [ht] at hk1
      fuel 13
      fuel B
      sym [MFenced_convert, Matrix___init__, Separators___init__] [h2, hc, h3, run_children, hr, he.get, hk1]
      step hm (run_matrixApply (ss := ss))
      sym [] [hm]
      exact .ok rfl rfl ((((((he1.app' _).app' _).app' _).app' _))) ((((hd.app _).app _).app _).app _ |>.app _)
    · rw [if_neg ht]
      rw [Bool.not_eq_true] at ht
      rw [ht] at hk1
      unfold vectorApply
      dsimp only
      fuel 13
      fuel B
      by_cases ho : op = [] <;> by_cases hcl : close = []
      · sym [MFenced_convert, Vector___init__] [h2, hc, h3, run_children, hr, he.get, hk1] [ho, hcl]
        step hm (run_vectorApply (ss := ss) (seps := seps)) [hs']
        sym [] [hm]
        exact .ok rfl (by simp [ho, hcl]) (((((he1.app' _).app' _).app' _))) ((((hd.app _).app _).app _).app _)
      · sym [MFenced_convert, Vector___init__] [h2, hc, h3, run_children, hr, he.get, hk1] [ho, hcl]
        step hm (run_vectorApply (ss := ss) (seps := seps)) [hs']
        sym [] [hm]
        exact .ok rfl (by simp [ho, hcl]) (((((he1.app' _).app' _).app' _))) ((((hd.app _).app _).app _).app _)
      · sym [MFenced_convert, Vector___init__] [h2, hc, h3, run_children, hr, he.get, hk1] [ho, hcl]
        step hm (run_vectorApply (ss := ss) (seps := seps)) [hs']
        sym [] [hm]
        exact .ok rfl (by simp [ho, hcl]) (((((he1.app' _).app' _).app' _))) ((((hd.app _).app _).app _).app _)
      · sym [MFenced_convert, Vector___init__] [h2, hc, h3, run_children, hr, he.get, hk1] [ho, hcl]
        step hm (run_vectorApply (ss := ss) (seps := seps)) [hs']
        sym [] [hm]
        exact .ok rfl (by simp [ho, hcl]) (((((he1.app' _).app' _).app' _))) ((((hd.app _).app _).app _).app _)
  · rw [Stack.M_bind_error hx]
    fuel 13
    fuel B
    sym [MFenced_convert] [h2, hc, h3, run_children, hr]
    exact .exc rfl hR

end Verif.Src
