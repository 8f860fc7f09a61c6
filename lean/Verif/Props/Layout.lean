import Verif.Props.Rules

/-! # Layout of the constructs (C27, C28, C30, C31, C32, C38, C42) -/

namespace Verif
open Spec

namespace Spec
/-- The nodes have these LaTeX strings, in order. -/
def LatexAll (b : Bool) (ns : List Node) (ss : List Str) : Prop := ns.map (latexIn b) = ss.map .ok
end Spec

theorem latexAll_iff {b : Bool} {ns : List Node} {ss : List Str} :
    LatexAll b ns ss ↔ seqAll (outcomes b ns) = .ok ss := by
  rw [seqAll_outcomes]
  unfold LatexAll
  induction ns generalizing ss with
  | nil => cases ss <;> simp
  | cons n ns ih =>
    cases ss with
    | nil => simp
    | cons s ss =>
      rw [List.map_cons, List.map_cons, List.cons.injEq, ih]
      simp only [List.length_cons, Nat.add_right_cancel_iff, List.zip_cons_cons, List.mem_cons,
        forall_eq_or_imp]
      exact ⟨fun ⟨a, b, c⟩ => ⟨b, a, c⟩, fun ⟨b, a, c⟩ => ⟨a, b, c⟩⟩

/-! ## C27 -/

namespace Spec
/-- The `i`-th separator, read off the attribute: the last one repeats. -/
def sepAt (seps : Str) (i : Nat) : Char := seps.getD i (seps.getLastD ',')

/-- `x0 s0 x1 s1 … xn`. -/
def separated (seps : Str) : List Str → Str
  | [] => []
  | x :: xs => x ++ (xs.mapIdx fun i y => sepAt seps i :: y).flatten
end Spec

theorem separator_eq (seps : Str) (i : Nat) : separator seps i = [sepAt seps i] := by
  unfold separator sepAt
  split
  · rename_i h
    rw [List.getD_eq_getElem?_getD, List.getElem?_eq_getElem h, Option.getD_some]
  · rename_i h
    rw [List.getD_eq_getElem?_getD, List.getElem?_eq_none (Nat.le_of_not_lt h), Option.getD_none]
    rcases List.eq_nil_or_concat seps with rfl | ⟨l, c, rfl⟩
    · rfl
    · simp

theorem interleave_eq (f : Nat → Str) (x : Str) (xs : List Str) :
    interleave f (x :: xs) = x ++ (xs.mapIdx fun i y => f i ++ y).flatten := by
  induction xs generalizing x f with
  | nil => simp [interleave]
  | cons y ys ih =>
    rw [interleave, ih, List.mapIdx_cons]
    simp

theorem separated_eq (seps : Str) (ss : List Str) :
    interleave (separator seps) ss = separated seps ss := by
  cases ss with
  | nil => rfl
  | cons x xs =>
    rw [interleave_eq, separated]
    simp only [separator_eq]
    rfl

theorem not_hasTable {cs : List Node} (h : ∀ n ∈ elements cs, tagIs c!"mtable" n = false) :
    ¬ HasTable cs := fun ⟨n, hn, ht⟩ => by rw [h n hn] at ht; cases ht

/-- **C27** Layout of a fence. -/
theorem C27_layout (b : Bool) (A : List (Str × Str)) (cs : List Node)
    (hn : ∀ n ∈ elements cs, tagIs c!"mtable" n = false) (s : Str) :
    latexIn b (.elem c!"mfenced" A cs) = .ok s ↔ ∃ ss, LatexAll b (kids cs) ss ∧
      s = c!"\\left" ++ (if attr A c!"open" = [] then c!"(" else attr A c!"open") ++
        separated (attr A c!"separators") ss ++
        c!"\\right" ++ (if attr A c!"close" = [] then c!")" else attr A c!"close") := by
  have : Decidable (HasTable cs) := .isFalse (not_hasTable hn)
  rw [latexIn_mfenced]
  simp only [not_hasTable hn, if_false, return_ok_iff, latexAll_iff, fence, separated_eq, orElse]
  exact ⟨fun ⟨a, h, e⟩ => ⟨a, h, e.symm⟩, fun ⟨a, h, e⟩ => ⟨a, h, e.symm⟩⟩

/-- **C27** The separators: the i-th character if there is one, otherwise the last, otherwise a
comma. -/
theorem C27_separators (seps : Str) (i : Nat) :
    (∀ h : i < seps.length, sepAt seps i = seps[i]) ∧
    (∀ init c, seps = init ++ [c] → seps.length ≤ i → sepAt seps i = c) ∧
    (seps = [] → sepAt seps i = ',') := by
  refine ⟨fun h => ?_, ?_, ?_⟩
  · simp [sepAt, List.getD_eq_getElem?_getD, h]
  · rintro init c rfl h
    rw [sepAt, List.getD_eq_getElem?_getD, List.getElem?_eq_none h]
    simp
  · rintro rfl; rfl

/-- **C27** Surplus separators are ignored: for `n + 1` children only the first `n` count. -/
theorem C27_surplus (seps more : Str) (ss : List Str) (h : ss.length ≤ seps.length + 1) :
    separated (seps ++ more) ss = separated seps ss := by
  cases ss with
  | nil => rfl
  | cons x xs =>
    rw [separated, separated]
    congr 2
    apply List.ext_getElem (by simp)
    intro i h1 h2
    have hi : i < seps.length := by simp at h1 h; omega
    simp [sepAt, List.getD_eq_getElem?_getD, hi, List.getElem?_append_left hi]

/-- Too few, and a missing delimiter. -/
example : latexIn false (.elem c!"mfenced" [(c!"separators", c!";|"), (c!"close", c!"]")]
    [.elem c!"mi" [] [.text c!"a"], .elem c!"mi" [] [.text c!"b"], .elem c!"mi" [] [.text c!"c"],
     .elem c!"mi" [] [.text c!"d"]]) = .ok c!"\\left(a;b|c|d\\right]" := by decide +kernel

/-- Unlike in MathML, a blank among the separators is a separator of its own. -/
theorem C27_blank_counts : latexIn false (.elem c!"mfenced" [(c!"separators", c!"; |")]
    [.elem c!"mi" [] [.text c!"a"], .elem c!"mi" [] [.text c!"b"], .elem c!"mi" [] [.text c!"c"],
     .elem c!"mi" [] [.text c!"d"]]) = .ok c!"\\left(a;b c|d\\right)" := by decide +kernel

/-! ## C28 -/

namespace Spec
/-- `\begin{env} … \end{env}` around the rendered children, which stand on their own lines. -/
def inEnv (env : Str) (ss : List Str) : Str :=
  c!"\\begin{" ++ env ++ c!"}\n" ++ ss.flatten ++ c!"\n\\end{" ++ env ++ c!"}"
end Spec

/-- **C28** The environment for every pair of delimiters. -/
theorem C28_environment (b : Bool) (A : List (Str × Str)) (cs : List Node)
    (ht : ∃ n ∈ elements cs, tagIs c!"mtable" n = true) (s : Str) :
    latexIn b (.elem c!"mfenced" A cs) = .ok s ↔ ∃ ss, LatexAll b (kids cs) ss ∧
      ((attr A c!"open" = c!"(" ∧ attr A c!"close" = c!")" ∧ s = inEnv c!"pmatrix" ss) ∨
       (attr A c!"open" = c!"[" ∧ attr A c!"close" = c!"]" ∧ s = inEnv c!"bmatrix" ss) ∨
       (attr A c!"open" = c!"{" ∧ attr A c!"close" = c!"}" ∧ s = inEnv c!"Bmatrix" ss) ∨
       (attr A c!"open" = c!"|" ∧ attr A c!"close" = c!"|" ∧ s = inEnv c!"vmatrix" ss) ∨
       (attr A c!"open" = c!"||" ∧ attr A c!"close" = c!"||" ∧ s = inEnv c!"Vmatrix" ss) ∨
       (attr A c!"open" = attr A c!"close" ∧ attr A c!"open" ≠ c!"|" ∧ attr A c!"open" ≠ c!"||" ∧
          s = inEnv c!"bmatrix" ss) ∨
       (attr A c!"open" ≠ attr A c!"close" ∧
          (attr A c!"open", attr A c!"close") ∉ [(c!"(", c!")"), (c!"[", c!"]"), (c!"{", c!"}")] ∧
          s = c!"\\left" ++ attr A c!"open" ++ inEnv c!"matrix" ss ++ c!"\\right" ++
            attr A c!"close")) := by
  have : Decidable (HasTable cs) := .isTrue ht
  rw [latexIn_mfenced]
  simp only [show HasTable cs from ht, if_true, return_ok_iff, latexAll_iff]
  refine exists_congr fun ss => and_congr_right fun _ => ?_
  generalize attr A c!"open" = o
  generalize attr A c!"close" = c
  unfold Spec.matrix environments
  simp only [List.find?_cons, List.find?_nil, Prod.mk.injEq]
  by_cases h1 : o = c!"(" ∧ c = c!")"
  · obtain ⟨rfl, rfl⟩ := h1
    simp [environment, inEnv, eq_comm]
  by_cases h2 : o = c!"[" ∧ c = c!"]"
  · obtain ⟨rfl, rfl⟩ := h2
    simp [environment, inEnv, eq_comm]
  by_cases h3 : o = c!"{" ∧ c = c!"}"
  · obtain ⟨rfl, rfl⟩ := h3
    simp [environment, inEnv, eq_comm]
  by_cases h4 : o = c!"|" ∧ c = c!"|"
  · obtain ⟨rfl, rfl⟩ := h4
    simp [environment, inEnv, eq_comm]
  by_cases h5 : o = c!"||" ∧ c = c!"||"
  · obtain ⟨rfl, rfl⟩ := h5
    simp [environment, inEnv, eq_comm]
  by_cases h6 : o = c
  · subst h6
    have h4' : o ≠ c!"|" := fun h => h4 ⟨h, h⟩
    have h5' : o ≠ c!"||" := fun h => h5 ⟨h, h⟩
    have e1 : ¬ (c!"(" = o ∧ c!")" = o) := fun ⟨a, b⟩ => by rw [← a] at b; exact absurd b (by decide)
    have e2 : ¬ (c!"[" = o ∧ c!"]" = o) := fun ⟨a, b⟩ => by rw [← a] at b; exact absurd b (by decide)
    have e3 : ¬ (c!"{" = o ∧ c!"}" = o) := fun ⟨a, b⟩ => by rw [← a] at b; exact absurd b (by decide)
    have e4 : ¬ (c!"|" = o ∧ c!"|" = o) := fun ⟨a, _⟩ => h4' a.symm
    have e5 : ¬ (c!"||" = o ∧ c!"||" = o) := fun ⟨a, _⟩ => h5' a.symm
    simp only [e1, e2, e3, e4, e5, decide_false, if_true]
    constructor
    · intro h
      exact .inr (.inr (.inr (.inr (.inr (.inl ⟨trivial, h4', h5', h.symm⟩)))))
    · rintro (⟨a, c, _⟩ | ⟨a, c, _⟩ | ⟨a, c, _⟩ | ⟨a, c, _⟩ | ⟨a, c, _⟩ | ⟨_, _, _, h⟩ | ⟨h, _⟩)
      · exact absurd ⟨a, c⟩ h1
      · exact absurd ⟨a, c⟩ h2
      · exact absurd ⟨a, c⟩ h3
      · exact absurd ⟨a, c⟩ h4
      · exact absurd ⟨a, c⟩ h5
      · exact h.symm
      · exact absurd rfl h
  · have f : ∀ x y : Str, ¬ (o = x ∧ c = y) → ¬ (x = o ∧ y = c) :=
      fun x y h ⟨a, b⟩ => h ⟨a.symm, b.symm⟩
    simp only [f _ _ h1, f _ _ h2, f _ _ h3, f _ _ h4, f _ _ h5, decide_false, h6, if_false]
    constructor
    · intro h
      refine .inr (.inr (.inr (.inr (.inr (.inr ⟨h6, ?_, h.symm⟩)))))
      simp only [List.mem_cons, Prod.mk.injEq, List.not_mem_nil, or_false, not_or]
      exact ⟨h1, h2, h3⟩
    · rintro (⟨a, c, _⟩ | ⟨a, c, _⟩ | ⟨a, c, _⟩ | ⟨a, c, _⟩ | ⟨a, c, _⟩ | ⟨h, _⟩ | ⟨_, _, h⟩)
      · exact absurd ⟨a, c⟩ h1
      · exact absurd ⟨a, c⟩ h2
      · exact absurd ⟨a, c⟩ h3
      · exact absurd ⟨a, c⟩ h4
      · exact absurd ⟨a, c⟩ h5
      · exact h.elim
      · exact h.symm

/-- **C28** Without delimiters the matrix is put in brackets, although a fence without a table
gets parentheses. -/
theorem C28_default_brackets (b : Bool) (A : List (Str × Str)) (cs : List Node)
    (ht : ∃ n ∈ elements cs, tagIs c!"mtable" n = true) (ho : attr A c!"open" = [])
    (hc : attr A c!"close" = []) (ss : List Str) (hs : LatexAll b (kids cs) ss) :
    latexIn b (.elem c!"mfenced" A cs) = .ok (inEnv c!"bmatrix" ss) := by
  rw [C28_environment b A cs ht]
  refine ⟨ss, hs, .inr (.inr (.inr (.inr (.inr (.inl ?_)))))⟩
  rw [ho, hc]
  exact ⟨rfl, by decide, by decide, rfl⟩

/-- **C28** With only one delimiter the other `\left` or `\right` lacks its delimiter. -/
theorem C28_one_sided (b : Bool) (A : List (Str × Str)) (cs : List Node)
    (ht : ∃ n ∈ elements cs, tagIs c!"mtable" n = true) (ho : attr A c!"open" ≠ [])
    (hc : attr A c!"close" = []) (ss : List Str) (hs : LatexAll b (kids cs) ss) :
    latexIn b (.elem c!"mfenced" A cs) =
      .ok (c!"\\left" ++ attr A c!"open" ++ inEnv c!"matrix" ss ++ c!"\\right") := by
  rw [C28_environment b A cs ht]
  refine ⟨ss, hs, .inr (.inr (.inr (.inr (.inr (.inr ?_)))))⟩
  rw [hc, List.append_nil]
  refine ⟨ho, ?_, rfl⟩
  simp

example : latexIn false (.elem c!"mfenced" [(c!"open", c!"|"), (c!"close", c!"|")]
    [.elem c!"mrow" [] [.elem c!"mtable" [] [.elem c!"mtr" [] [.elem c!"mtd" []
      [.elem c!"mn" [] [.text c!"1"]], .elem c!"mtd" [] [.elem c!"mn" [] [.text c!"2"]]]]]]) =
    .ok c!"\\begin{vmatrix}\n1 & 2\n\\end{vmatrix}" := by decide +kernel

/-! ## C30 -/

namespace Spec
/-- The base of a script with this LaTeX needs parentheses. -/
def Compound (n : Node) (s : Str) : Prop := 2 ≤ (childElems n).length ∧ 2 ≤ s.length
end Spec

theorem scriptBase_compound {n : Node} {s : Str} (h : Compound n s) :
    scriptBase n s = c!"\\left(" ++ s ++ c!"\\right)" := by
  simp [scriptBase, parensIfLong, h.1, h.2, parens]

theorem scriptBase_simple {n : Node} {s : Str} (h : ¬ Compound n s) : scriptBase n s = s := by
  unfold scriptBase parensIfLong
  split
  · rename_i h1
    split
    · rename_i h2; exact absurd ⟨h1, h2⟩ h
    · rfl
  · rfl

/-- **C30** Scripts on a compound base. -/
theorem C30_compound (b : Bool) (A : List (Str × Str)) (x d e : Node) (sx sd se : Str)
    (hx : latexIn b x = .ok sx) (hd : latexIn b d = .ok sd) (he : latexIn b e = .ok se)
    (hc : Compound x sx) :
    (∀ cs, kids cs = [x, e] → latexIn b (.elem c!"msup" A cs) =
      .ok (c!"\\left(" ++ sx ++ c!"\\right)^{" ++ se ++ c!"}")) ∧
    (∀ cs, kids cs = [x, d] → latexIn b (.elem c!"msub" A cs) =
      .ok (c!"\\left(" ++ sx ++ c!"\\right)_{" ++ sd ++ c!"}")) ∧
    (∀ cs, kids cs = [x, d, e] → latexIn b (.elem c!"msubsup" A cs) =
      .ok (c!"\\left(" ++ sx ++ c!"\\right)_{" ++ sd ++ c!"}^{" ++ se ++ c!"}")) := by
  refine ⟨fun cs h => ?_, fun cs h => ?_, fun cs h => ?_⟩
  · rw [latexIn_msup, h]
    simp [hx, he, bind, Except.bind, pure, Except.pure, scriptBase_compound hc, braces]
  · rw [latexIn_msub, h]
    simp [hx, hd, bind, Except.bind, pure, Except.pure, scriptBase_compound hc, braces]
  · rw [latexIn_msubsup, h]
    simp [hx, hd, he, bind, Except.bind, pure, Except.pure, scriptBase_compound hc, braces]

/-- **C30** Scripts on any other base, in particular on an element with a single child, however
much that child contains. -/
theorem C30_simple (b : Bool) (A : List (Str × Str)) (x d e : Node) (sx sd se : Str)
    (hx : latexIn b x = .ok sx) (hd : latexIn b d = .ok sd) (he : latexIn b e = .ok se)
    (hc : ¬ Compound x sx) :
    (∀ cs, kids cs = [x, e] → latexIn b (.elem c!"msup" A cs) =
      .ok (sx ++ c!"^{" ++ se ++ c!"}")) ∧
    (∀ cs, kids cs = [x, d] → latexIn b (.elem c!"msub" A cs) =
      .ok (sx ++ c!"_{" ++ sd ++ c!"}")) ∧
    (∀ cs, kids cs = [x, d, e] → latexIn b (.elem c!"msubsup" A cs) =
      .ok (sx ++ c!"_{" ++ sd ++ c!"}^{" ++ se ++ c!"}")) := by
  refine ⟨fun cs h => ?_, fun cs h => ?_, fun cs h => ?_⟩
  · rw [latexIn_msup, h]
    simp [hx, he, bind, Except.bind, pure, Except.pure, scriptBase_simple hc, braces]
  · rw [latexIn_msub, h]
    simp [hx, hd, bind, Except.bind, pure, Except.pure, scriptBase_simple hc, braces]
  · rw [latexIn_msubsup, h]
    simp [hx, hd, he, bind, Except.bind, pure, Except.pure, scriptBase_simple hc, braces]

/-- **C30** The wrapper case: a row of a row is not parenthesised, so the script attaches to the
last item. -/
theorem C30_wrapper (b : Bool) (A B : List (Str × Str)) (tag : Str) (ht : tag ∉ structured)
    (x e : Node) (hx : x.isElem = true) (he : e.isElem = true) (sx se : Str)
    (hsx : latexIn b x = .ok sx) (hse : latexIn b e = .ok se) :
    latexIn b (.elem c!"msup" A [.elem tag B [x], e]) = .ok (sx ++ c!"^{" ++ se ++ c!"}") := by
  have hk : kids [x] = [x] := by simp [kids, hx]
  refine (C30_simple b A (.elem tag B [x]) e e sx se se ?_ hse hse ?_).1 _ ?_
  · rw [latexIn_row b B [x] ht, return_ok_iff]
    refine ⟨[sx], ?_, rfl⟩
    rw [← latexAll_iff, hk]
    simp [LatexAll, hsx]
  · simp [Compound, childElems, hk]
  · have e1 : (Node.elem tag B [x]).isElem = true := rfl
    simp [kids, e1, he]

example : latexIn false (.elem c!"msup" [] [.elem c!"mrow" [] [.elem c!"mrow" []
      [.elem c!"mi" [] [.text c!"a"], .elem c!"mo" [] [.text c!"+"], .elem c!"mi" [] [.text c!"b"]]],
      .elem c!"mn" [] [.text c!"2"]]) = .ok c!"a + b^{2}" ∧
    latexIn false (.elem c!"msup" [] [.elem c!"mrow" []
      [.elem c!"mi" [] [.text c!"a"], .elem c!"mo" [] [.text c!"+"], .elem c!"mi" [] [.text c!"b"]],
      .elem c!"mn" [] [.text c!"2"]]) = .ok c!"\\left(a + b\\right)^{2}" := by decide +kernel

/-! ## C31 -/

namespace Spec
/-- The prescripts, by position: behind an `mprescripts` in second position, or else behind one
in fourth position. -/
def preAt (ks : List Node) : Option (Node × Node) :=
  match ks[1]?, ks[2]?, ks[3]? with
  | some m, some x, some y =>
    if isPre m then some (x, y)
    else match ks[4]?, ks[5]? with
      | some p, some q => if isPre y then some (p, q) else none
      | _, _ => none
  | _, _, _ => none

/-- The postscripts, by position. -/
def postAt (ks : List Node) : Option (Node × Node) :=
  match ks[1]?, ks[2]? with
  | some p, some q => if isPre p then none else some (p, q)
  | _, _ => none
end Spec

theorem prePair_eq (ks : List Node) : prePair ks = preAt ks := by
  rcases ks with _ | ⟨a, _ | ⟨m, _ | ⟨x, _ | ⟨y, _ | ⟨p, _ | ⟨q, r⟩⟩⟩⟩⟩⟩ <;>
    simp [prePair, preAt]

theorem postPair_eq (ks : List Node) : postPair ks = postAt ks := by
  rcases ks with _ | ⟨a, _ | ⟨m, _ | ⟨x, r⟩⟩⟩ <;> simp [postPair, postAt]

namespace Spec
/-- A pair of scripts has this LaTeX. -/
def PairLatex (b : Bool) (lead : Str) : Option (Node × Node) → Str → Prop
  | none, s => s = []
  | some (p, q), s => ∃ sp sq, latexIn b p = .ok sp ∧ latexIn b q = .ok sq ∧
      s = lead ++ c!"{" ++ sp ++ c!"}^{" ++ sq ++ c!"}"
end Spec

theorem pairLatex_iff (b : Bool) (lead : Str) (pq : Option (Node × Node)) (s : Str) :
    pairLatex b lead pq = .ok s ↔ PairLatex b lead pq s := by
  cases pq with
  | none => simp [pairLatex, PairLatex, eq_comm]
  | some pq =>
    obtain ⟨p, q⟩ := pq
    simp only [pairLatex, PairLatex, bind_ok_iff, pure_ok_iff]
    constructor
    · rintro ⟨x, hx, y, hy, rfl⟩; exact ⟨x, y, hx, hy, by simp [braces]⟩
    · rintro ⟨x, y, hx, hy, rfl⟩; exact ⟨x, hx, y, hy, by simp [braces]⟩

/-- **C31** Prescripts, base, postscripts. -/
theorem C31_layout (b : Bool) (A : List (Str × Str)) (cs : List Node) (s : Str) :
    latexIn b (.elem c!"mmultiscripts" A cs) = .ok s ↔ 3 ≤ (kids cs).length ∧
      ∃ x sx pre post, (kids cs)[0]? = some x ∧ latexIn b x = .ok sx ∧
        PairLatex b c!"\\_" (preAt (kids cs)) pre ∧ PairLatex b c!"_" (postAt (kids cs)) post ∧
        s = pre ++ (if (∃ c ∈ sx, isSpace c = true) then c!"\\left(" ++ sx ++ c!"\\right)" else sx) ++
          post := by
  rw [latexIn_mmultiscripts]
  rcases kids cs with _ | ⟨x, _ | ⟨y, _ | ⟨z, ks⟩⟩⟩
  · simp
  · simp
  · simp
  simp only [prePair_eq, postPair_eq, bind_ok_iff, pairLatex_iff, pure_ok_iff]
  constructor
  · rintro ⟨sx, hx, pre, hpre, post, hpost, rfl⟩
    exact ⟨by simp, x, sx, pre, post, rfl, hx, hpre, hpost, rfl⟩
  · rintro ⟨_, x', sx, pre, post, h0, hx, hpre, hpost, rfl⟩
    simp only [List.getElem?_cons_zero, Option.some.injEq] at h0
    subst h0
    exact ⟨sx, hx, pre, hpre, post, hpost, rfl⟩

/-- **C31** Children behind the sixth have no influence. -/
theorem C31_first_six (b : Bool) (A A' : List (Str × Str)) (cs cs' : List Node)
    (h : (kids cs).take 6 = (kids cs').take 6) (h3 : 3 ≤ (kids cs).length) :
    latexIn b (.elem c!"mmultiscripts" A cs) = latexIn b (.elem c!"mmultiscripts" A' cs') := by
  rw [latexIn_mmultiscripts, latexIn_mmultiscripts]
  have g : ∀ i, i < 6 → (kids cs)[i]? = (kids cs')[i]? := by
    intro i hi
    rw [← List.getElem?_take_of_lt hi, h, List.getElem?_take_of_lt hi]
  have hpre : preAt (kids cs) = preAt (kids cs') := by
    simp only [preAt, g 1 (by omega), g 2 (by omega), g 3 (by omega), g 4 (by omega), g 5 (by omega)]
  have hpost : postAt (kids cs) = postAt (kids cs') := by
    simp only [postAt, g 1 (by omega), g 2 (by omega)]
  have h0 := g 0 (by omega)
  have h2 := g 2 (by omega)
  clear g h
  generalize kids cs = K at *
  generalize kids cs' = K' at *
  rcases K with _ | ⟨x, _ | ⟨y, _ | ⟨z, ks⟩⟩⟩
  · simp at h3
  · simp at h3
  · simp at h3
  rcases K' with _ | ⟨x', _ | ⟨y', _ | ⟨z', ks'⟩⟩⟩
  · simp at h2
  · simp at h2
  · simp at h2
  simp only [List.getElem?_cons_zero, Option.some.injEq] at h0
  subst h0
  simp only [prePair_eq, postPair_eq, hpre, hpost]

/-- **C31** Without `mprescripts` in second or fourth position, children behind the third have no
influence: further script pairs are dropped. -/
theorem C31_further_dropped (b : Bool) (A : List (Str × Str)) (x p q : Node) (sx sp sq : Str)
    (more cs : List Node) (hk : kids cs = x :: p :: q :: more) (hp : isPre p = false)
    (hm : ∀ y, more.head? = some y → isPre y = false)
    (hx : latexIn b x = .ok sx) (hsp : latexIn b p = .ok sp) (hsq : latexIn b q = .ok sq)
    (hn : ∀ c ∈ sx, isSpace c = false) :
    latexIn b (.elem c!"mmultiscripts" A cs) =
      .ok (sx ++ c!"_{" ++ sp ++ c!"}^{" ++ sq ++ c!"}") := by
  rw [C31_layout, hk]
  refine ⟨by simp, x, sx, [], c!"_{" ++ sp ++ c!"}^{" ++ sq ++ c!"}", rfl, hx, ?_, ?_, ?_⟩
  · have : preAt (x :: p :: q :: more) = none := by
      rcases more with _ | ⟨y, _ | ⟨r, _ | ⟨t, more⟩⟩⟩ <;> simp_all [preAt]
    rw [this]; rfl
  · have : postAt (x :: p :: q :: more) = some (p, q) := by simp [postAt, hp]
    rw [this]
    exact ⟨sp, sq, hsp, hsq, by simp⟩
  · have : ¬ ∃ c ∈ sx, isSpace c = true := by
      rintro ⟨c, hc, h⟩; rw [hn c hc] at h; cases h
    simp [this]

example : latexIn false (.elem c!"mmultiscripts" [] [.elem c!"mi" [] [.text c!"X"],
    .elem c!"mi" [] [.text c!"a"], .elem c!"mi" [] [.text c!"b"], .elem c!"mprescripts" [] [],
    .elem c!"mi" [] [.text c!"c"], .elem c!"mi" [] [.text c!"d"], .elem c!"mi" [] [.text c!"e"],
    .elem c!"msup" [] []]) = .ok c!"\\_{c}^{d}X_{a}^{b}" := by decide +kernel

/-! ## C32 -/

/-- **C32** `mover` and `munder` with an accent command. -/
theorem C32_command (b : Bool) (A : List (Str × Str)) (cs : List Node) (x a : Node) (sx sa : Str)
    (hk : kids cs = [x, a]) (hx : latexIn b x = .ok sx) (ha : latexIn b a = .ok sa)
    (hc : sa ∈ [c!"\\hat", c!"\\bar", c!"\\underbrace", c!"\\overbrace"]) :
    latexIn b (.elem c!"mover" A cs) = .ok (sa ++ c!"{" ++ sx ++ c!"}") ∧
    latexIn b (.elem c!"munder" A cs) = .ok (sa ++ c!"{" ++ sx ++ c!"}") := by
  rw [latexIn_mover, latexIn_munder, hk]
  have hc' : sa ∈ accentCommands := hc
  simp [hx, ha, bind, Except.bind, pure, Except.pure, stacked, hc', braces]

/-- **C32** `mover` and `munder` with any other script. -/
theorem C32_set (b : Bool) (A : List (Str × Str)) (cs : List Node) (x a : Node) (sx sa : Str)
    (hk : kids cs = [x, a]) (hx : latexIn b x = .ok sx) (ha : latexIn b a = .ok sa)
    (hc : sa ∉ [c!"\\hat", c!"\\bar", c!"\\underbrace", c!"\\overbrace"]) :
    latexIn b (.elem c!"mover" A cs) = .ok (c!"\\overset{" ++ sa ++ c!"}{" ++ sx ++ c!"}") ∧
    latexIn b (.elem c!"munder" A cs) = .ok (c!"\\underset{" ++ sa ++ c!"}{" ++ sx ++ c!"}") := by
  rw [latexIn_mover, latexIn_munder, hk]
  have hc' : sa ∉ accentCommands := hc
  simp [hx, ha, bind, Except.bind, pure, Except.pure, stacked, hc', braces]

example : latexIn false (.elem c!"mover" [] [.elem c!"mi" [] [.text c!"x"],
      .elem c!"mo" [] [.text c!"^"]]) = .ok c!"\\hat{x}" ∧
    latexIn false (.elem c!"munder" [] [.elem c!"mo" [] [.text c!"lim"],
      .elem c!"mi" [] [.text c!"n"]]) = .ok c!"\\underset{n}{lim}" := by decide +kernel

/-! ## C38 -/

/-- **C38** Plain fractions. -/
theorem C38_plain (b : Bool) (A : List (Str × Str)) (cs : List Node) (n d : Node) (sn sd : Str)
    (hk : kids cs = [n, d]) (hn : latexIn b n = .ok sn) (hd : latexIn b d = .ok sd)
    (hA : (∀ p ∈ A, p.1 = c!"bevelled" → p.2 = [] ∨ p.2 = c!"bevelled")) :
    latexIn b (.elem c!"mfrac" A cs) = .ok (c!"\\frac{" ++ sn ++ c!"}{" ++ sd ++ c!"}") := by
  have : attr A c!"bevelled" = [] := by
    unfold attr attr?
    cases hf : A.reverse.find? (fun p => p.1 = c!"bevelled") with
    | none => rfl
    | some p =>
      have h1 := List.find?_some hf
      have h2 := List.mem_reverse.1 (List.mem_of_find?_eq_some hf)
      rcases hA p h2 (by simpa using h1) with h | h <;> simp [h]
  rw [latexIn_mfrac, hk]
  simp [hn, hd, bind, Except.bind, pure, Except.pure, this, braces]

/-- **C38** Bevelled fractions: any value but the empty one and `bevelled`. -/
theorem C38_bevelled (b : Bool) (A B : List (Str × Str)) (cs : List Node) (n d : Node) (sn sd : Str)
    (hk : kids cs = [n, d]) (hn : latexIn b n = .ok sn) (hd : latexIn b d = .ok sd) (v : Str)
    (hv : v ≠ []) (hv' : v ≠ c!"bevelled") (hB : ∀ p ∈ B, p.1 ≠ c!"bevelled") :
    latexIn b (.elem c!"mfrac" (A ++ (c!"bevelled", v) :: B) cs) =
      .ok ((if sn.length ≤ 1 then sn else c!"\\left(" ++ sn ++ c!"\\right)") ++ c!"/" ++
        (if sd.length ≤ 1 then sd else c!"\\left(" ++ sd ++ c!"\\right)")) := by
  have h : attr (A ++ (c!"bevelled", v) :: B) c!"bevelled" = v := by
    have : B.reverse.find? (fun p => p.1 = c!"bevelled") = none := by
      rw [List.find?_eq_none]
      intro p hp
      simpa using hB p (List.mem_reverse.1 hp)
    unfold attr attr?
    rw [List.reverse_append, List.reverse_cons, List.find?_append, List.find?_append, this]
    simp [hv']
  have e : ∀ s : Str, parensIfLong s =
      if s.length ≤ 1 then s else c!"\\left(" ++ s ++ c!"\\right)" := by
    intro s
    unfold parensIfLong parens
    by_cases h : s.length ≤ 1
    · rw [if_pos h, if_neg (by omega)]
    · rw [if_neg h, if_pos (by omega)]
  rw [latexIn_mfrac, hk]
  simp only [hn, hd, h]
  simp [bind, Except.bind, pure, Except.pure, hv, e]

/-- `bevelled="false"` is bevelled. -/
example : latexIn false (.elem c!"mfrac" [(c!"bevelled", c!"false")] [.elem c!"mn" [] [.text c!"12"],
    .elem c!"mi" [] [.text c!"x"]]) = .ok c!"\\left(12\\right)/x" := by decide +kernel

/-! ## C42 -/

/-- **C42** The children joined by blanks between the two parts of the command of the notation. -/
theorem C42_layout (b : Bool) (A : List (Str × Str)) (cs : List Node) (s : Str) :
    latexIn b (.elem c!"menclose" A cs) = .ok s ↔ ∃ ss, LatexAll b (kids cs) ss ∧
      ((∃ l r, (attr A c!"notation", l, r) ∈ enclosures ∧ s = l ++ join c!" " ss ++ r) ∨
       ((∀ e ∈ enclosures, e.1 ≠ attr A c!"notation") ∧
          s = c!"\\overline{\\left.\\right)" ++ join c!" " ss ++ c!"}")) := by
  rw [latexIn_menclose]
  simp only [return_ok_iff, latexAll_iff]
  refine exists_congr fun ss => and_congr_right fun _ => ?_
  generalize attr A c!"notation" = k
  have nd : (enclosures.map Prod.fst).Nodup := by decide
  unfold enclosure
  cases hf : enclosures.find? (fun p => p.1 = k) with
  | none =>
    rw [List.find?_eq_none] at hf
    have hf' : ∀ e ∈ enclosures, e.1 ≠ k := fun e he => by simpa using hf e he
    constructor
    · rintro rfl; exact .inr ⟨hf', rfl⟩
    · rintro (⟨l, r, h, _⟩ | ⟨_, rfl⟩)
      · exact absurd rfl (hf' _ h)
      · rfl
  | some p =>
    have hp := List.mem_of_find?_eq_some hf
    have hk : p.1 = k := by simpa using List.find?_some hf
    constructor
    · rintro rfl; exact .inl ⟨p.2.1, p.2.2, by rw [← hk]; exact hp, rfl⟩
    · rintro (⟨l, r, h, rfl⟩ | ⟨h, _⟩)
      · have h1 : Dict.get? enclosures k = some p.2 := (Dict.get?_iff nd k p.2).2 (hk ▸ hp)
        have h2 : Dict.get? enclosures k = some (l, r) := (Dict.get?_iff nd k _).2 h
        rw [h1, Option.some.injEq] at h2
        simp only [h2]
      · exact absurd hk (h p hp)

example : latexIn false (.elem c!"menclose" [(c!"notation", c!"actuarial")]
      [.elem c!"mi" [] [.text c!"a"], .elem c!"mi" [] [.text c!"b"]]) =
      .ok c!"\\overline{\\left.a b\\right|}" ∧
    latexIn false (.elem c!"menclose" [(c!"notation", c!"notation")]
      [.elem c!"mi" [] [.text c!"a"]]) = .ok c!"\\overline{\\left.\\right)a}" := by decide +kernel

/-- **C42** `left`, `right` and `madruwb` leave a `\left` or `\right` without partner. -/
theorem C42_one_sided (b : Bool) (cs : List Node) (ss : List Str) (h : LatexAll b (kids cs) ss) :
    latexIn b (.elem c!"menclose" [(c!"notation", c!"left")] cs) =
      .ok (c!"\\left|" ++ join c!" " ss) ∧
    latexIn b (.elem c!"menclose" [(c!"notation", c!"right")] cs) =
      .ok (join c!" " ss ++ c!"\\right|") ∧
    latexIn b (.elem c!"menclose" [(c!"notation", c!"madruwb")] cs) =
      .ok (c!"\\underline{" ++ join c!" " ss ++ c!"\\right|}") := by
  refine ⟨?_, ?_, ?_⟩
  · exact (C42_layout b _ cs _).2 ⟨ss, h, .inl ⟨c!"\\left|", [], by decide, by simp⟩⟩
  · exact (C42_layout b _ cs _).2 ⟨ss, h, .inl ⟨[], c!"\\right|", by decide, by simp⟩⟩
  · exact (C42_layout b _ cs _).2 ⟨ss, h, .inl ⟨c!"\\underline{", c!"\\right|}", by decide, rfl⟩⟩

end Verif
