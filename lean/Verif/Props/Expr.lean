import Verif.Spec.Expr
import Verif.Props.Means
import Verif.Props.Doc
import Verif.Props.Size
import Verif.Props.Text

/-!
# C99: different formulas have different LaTeX
-/

namespace Verif.Formulas
open Spec

/-- The item of each sign is the expected one. -/
theorem signs_table : ∀ p ∈ signs,
    (p.tag = c!"mi" ∧ tokens (characterApply (normalize (tokenData [.text p.text]))) = [p.tok] ∨
     p.tag = c!"mo" ∧ tokens (operate (normalize (tokenData [.text p.text]))) = [p.tok] ∨
     p.tag = c!"mn" ∧ tokens ((fun k => if (Dict.get? mathNumberByGlyph k).getD [] ≠ [] then
      (Dict.get? mathNumberByGlyph k).getD [] else k) (normalize (tokenData [.text p.text]))) = [p.tok]) ∧
    symTok p.tok = true := by decide +kernel

theorem signs_inj : ∀ p ∈ signs, ∀ q ∈ signs, p.tok = q.tok → p = q := by decide +kernel

theorem signs_bracket : ∀ p ∈ signs, ∃ s, latexIn false p.node = .ok s ∧ ']' ∉ s := by
  have h : ∀ p ∈ signs, (match latexIn false p.node with | .ok s => decide (']' ∉ s) | .error _ => false) = true := by
    decide +kernel
  intro p hp
  have := h p hp
  split at this
  · exact ⟨_, ‹_›, of_decide_eq_true this⟩
  · cases this

theorem sign_means {p : Sign} (hp : p ∈ signs) (l : List Item) : Means false l p.node (l ++ [.sym p.tok]) := by
  obtain ⟨h, ht⟩ := signs_table p hp
  obtain ⟨tag, text, tok⟩ := p
  rcases h with ⟨rfl, h⟩ | ⟨rfl, h⟩ | ⟨rfl, h⟩
  · exact means_mi l h ht
  · exact means_mo l h ht
  · exact means_mn l h ht

mutual
/-- What a part of a formula is read as. -/
def Expr.item : Expr → Item
  | .sign p _ => .sym p.tok
  | .opening => .fence (.char '(') (.char '.') []
  | .closing => .fence (.char '.') (.char ')') []
  | .frac a b => .app c!"frac" [items a, items b]
  | .sqrt a => .app c!"sqrt" [items a]
  | .fenced a => inParens (items a)
  | .over a e => .app c!"overset" [items e, items a]
  | .under a d => .app c!"underset" [items d, items a]
  | .root p _ a => .root [.sym p.tok] (items a)
  | .sup p _ e => .sup (.sym p.tok) (items e)
  | .sub p _ d => .sub (.sym p.tok) (items d)
  | .both p _ d e => .sup (.sub (.sym p.tok) (items d)) (items e)
  | .supRow x y l e => .sup (inParens (x.item :: y.item :: items l)) (items e)
  | .subRow x y l d => .sub (inParens (x.item :: y.item :: items l)) (items d)
  | .bothRow x y l d e => .sup (.sub (inParens (x.item :: y.item :: items l)) (items d)) (items e)
/-- The items of several parts. -/
def items : List Expr → List Item
  | [] => []
  | x :: l => x.item :: items l
end

theorem sign_isElem (p : Sign) : p.node.isElem = true := rfl

theorem expr_isElem (x : Expr) : x.node.isElem = true := by cases x <;> rfl

theorem nodes_isElem : ∀ l : List Expr, ∀ n ∈ nodes l, n.isElem = true
  | [], _, h => nomatch h
  | x :: l, n, h => by
    rcases List.mem_cons.1 h with rfl | h
    · exact expr_isElem x
    · exact nodes_isElem l n h

theorem kids_nodes (l : List Expr) : kids (nodes l) = nodes l := List.filter_eq_self.2 (nodes_isElem l)

theorem kids_two (x y : Expr) (l : List Expr) : kids (x.node :: y.node :: nodes l) = x.node :: y.node :: nodes l := by
  exact kids_nodes (x :: y :: l)

/-- What brings one item has LaTeX that is not empty. -/
theorem nonempty_of_means {n : Node} {i : Item} (he : n.isElem = true) (h : Means false [] n [i]) {s : Str} (hs : Renders false n s) : s ≠ [] := by
  rintro rfl
  obtain ⟨t, ht, hr⟩ := C60_element h
  have := (renders_iff he false []).1 hs
  rw [ht] at this
  cases this
  have h0 : ReadsAs [] [] := Reads.nil
  cases C60_reading_unique hr h0

theorem join_two (s t : Str) (ss : List Str) (h : s ≠ []) : 2 ≤ (join c!" " (s :: t :: ss)).length := by
  cases s with
  | nil => exact absurd rfl h
  | cons c s => simp [join]; omega

theorem row_long {n m : Node} {ns : List Node} (hk : kids (n :: m :: ns) = n :: m :: ns) {i : Item}
    (he : n.isElem = true) (h : Means false [] n [i]) : Long false (mrow (n :: m :: ns)) := by
  intro s hs
  generalize hN : mrow (n :: m :: ns) = N at hs
  cases hs <;> simp only [mrow, Node.elem.injEq] at hN <;> try (exact absurd hN.1 (by decide))
  obtain ⟨rfl, rfl, rfl⟩ := hN
  rename_i ss _ hl hall
  rw [hk] at hl hall
  match ss, hl with
  | s :: t :: ss, _ => exact join_two s t ss (nonempty_of_means he h (hall (n, s) (by simp)))

/-- The elements that are found by a test. -/
def found (q : Str → Bool) (ns : List Node) : List Node := (elements ns).filter fun n => match n with | .elem tag _ _ => q tag | _ => false

theorem found_elem (q : Str → Bool) (tag : Str) (A : Attrs) (cs ns : List Node) :
    found q (.elem tag A cs :: ns) = (if q tag then [.elem tag A cs] else []) ++ found q cs ++ found q ns := by
  unfold found
  rw [elements, elementsOf, List.filter_append, List.filter_cons]
  cases h : q tag <;> simp [h]

/-- The names of the elements of formulas. -/
def tagsUsed : List Str :=
  [c!"mi", c!"mo", c!"mn", c!"mrow", c!"mfrac", c!"msqrt", c!"mfenced", c!"mover", c!"munder", c!"mroot", c!"msup", c!"msub", c!"msubsup"]

theorem signs_tags : ∀ p ∈ signs, p.tag ∈ tagsUsed := by decide +kernel

theorem used_found {q : Str → Bool} (hq : ∀ t ∈ tagsUsed, q t = false) {tag : Str} (ht : tag ∈ tagsUsed) (A : Attrs) (cs ns : List Node) :
    found q (.elem tag A cs :: ns) = found q cs ++ found q ns := by
  rw [found_elem, hq tag ht]
  rfl

theorem sign_found {q : Str → Bool} (hq : ∀ t ∈ tagsUsed, q t = false) {p : Sign} (hp : p ∈ signs) (ns : List Node) :
    found q (p.node :: ns) = found q ns := by
  rw [Sign.node, used_found hq (signs_tags p hp)]
  rfl

theorem row_found {q : Str → Bool} (hq : ∀ t ∈ tagsUsed, q t = false) (cs ns : List Node) :
    found q (mrow cs :: ns) = found q cs ++ found q ns := used_found hq (by decide) _ _ _

theorem found_nil (q : Str → Bool) : found q [] = [] := rfl

mutual
/-- There are no other elements in a formula. -/
theorem expr_found {q : Str → Bool} (hq : ∀ t ∈ tagsUsed, q t = false) : ∀ (x : Expr) (ns : List Node), found q (x.node :: ns) = found q ns
  | .sign _ h, ns => sign_found hq h ns
  | .opening, ns => by rw [Expr.node, used_found hq (by decide)]; rfl
  | .closing, ns => by rw [Expr.node, used_found hq (by decide)]; rfl
  | .frac a b, ns | .over a b, ns | .under a b, ns => by
    rw [Expr.node, used_found hq (by decide), row_found hq, row_found hq, nodes_found hq a, nodes_found hq b]; rfl
  | .sqrt a, ns => by rw [Expr.node, used_found hq (by decide), nodes_found hq a]; rfl
  | .fenced a, ns => by rw [Expr.node, used_found hq (by decide), row_found hq, nodes_found hq a]; rfl
  | .root p h a, ns => by rw [Expr.node, used_found hq (by decide), row_found hq, sign_found hq h, nodes_found hq a]; rfl
  | .sup p h e, ns | .sub p h e, ns => by
    rw [Expr.node, used_found hq (by decide), sign_found hq h, row_found hq, nodes_found hq e]; rfl
  | .both p h d e, ns => by
    rw [Expr.node, used_found hq (by decide), sign_found hq h, row_found hq, row_found hq, nodes_found hq d, nodes_found hq e]; rfl
  | .supRow x y l e, ns | .subRow x y l e, ns => by
    rw [Expr.node, used_found hq (by decide), row_found hq, row_found hq, expr_found hq x, expr_found hq y, nodes_found hq l,
      nodes_found hq e]; rfl
  | .bothRow x y l d e, ns => by
    rw [Expr.node, used_found hq (by decide), row_found hq, row_found hq, row_found hq, expr_found hq x, expr_found hq y,
      nodes_found hq l, nodes_found hq d, nodes_found hq e]; rfl
theorem nodes_found {q : Str → Bool} (hq : ∀ t ∈ tagsUsed, q t = false) : ∀ l : List Expr, found q (nodes l) = []
  | [] => rfl
  | x :: l => by rw [nodes, expr_found hq x, nodes_found hq l]
end

theorem no_table (l : List Expr) : ¬ HasTable [mrow (nodes l)] := by
  rintro ⟨n, hn, ht⟩
  have hq : ∀ t ∈ tagsUsed, (t == c!"mtable") = false := by decide
  have h : found (· == c!"mtable") [mrow (nodes l)] = [] := by
    rw [row_found hq, nodes_found hq]
    rfl
  refine List.filter_eq_nil_iff.1 h n hn ?_
  cases n with
  | elem tag A cs => exact ht
  | _ => cases ht

theorem fenced_means (k : List Expr) (h : Means false [] (mrow (nodes k)) (items k)) (l : List Item) :
    Means false l (.elem c!"mfenced" [] [mrow (nodes k)]) (l ++ [inParens (items k)]) :=
  Means.mfenced (ls := fun i => if i = 0 then [] else items k) (no_table k) (by decide) (by decide) (by decide) rfl (by
    intro i hi
    have : i = 0 := Nat.lt_one_iff.1 hi
    subst this
    exact h)

mutual
theorem expr_means : ∀ (x : Expr) (l : List Item), Means false l x.node (l ++ [x.item])
  | .sign _ h, l => sign_means h l
  | .opening, l => .mo (s := c!"\\left(\\right.") ((moSymbol_iff _ _).2 (by decide +kernel))
      ((Reads.fence (a := .char '(') (b := .char '.') (by decide) (by decide) .nil).nuc l)
  | .closing, l => .mo (s := c!"\\left.\\right)") ((moSymbol_iff _ _).2 (by decide +kernel))
      ((Reads.fence (a := .char '.') (b := .char ')') (by decide) (by decide) .nil).nuc l)
  | .frac a b, l => .mfrac rfl rfl (row_means a) (row_means b)
  | .sqrt a, l => MeansAll.msqrt (by rw [kids_nodes]; exact nodes_mean a [])
  | .fenced a, l => fenced_means a (row_means a) l
  | .over a e, l => .over rfl (row_means a) (row_means e)
  | .under a d, l => .under rfl (row_means a) (row_means d)
  | .root p h a, l => by
    obtain ⟨s, hs, hb⟩ := signs_bracket p h
    exact .mroot rfl (renders_ok (sign_isElem p) hs hb) (row_means a) (sign_means h [])
  | .sup p h e, l => .msup rfl (.inl ⟨.inl (show 0 < 2 by decide), rfl, rfl⟩) (sign_means h l) rfl (row_means e)
  | .sub p h d, l => .msub rfl (.inl ⟨.inl (show 0 < 2 by decide), rfl, rfl⟩) (sign_means h l) rfl (row_means d)
  | .both p h d e, l => .msubsup rfl (.inl ⟨.inl (show 0 < 2 by decide), rfl, rfl⟩) (sign_means h l) rfl rfl (row_means d) (row_means e)
  | .supRow x y k e, l =>
    .msup rfl (.inr ⟨⟨by simp [mrow, childElems, kids_two], row_long (kids_two x y k) (expr_isElem x) (expr_means x [])⟩, rfl, rfl⟩)
      (MeansAll.row (by decide) (by
        rw [kids_two]
        exact .cons (expr_means x _) (.cons (expr_means y _) (nodes_mean k _)))) rfl (row_means e)
  | .subRow x y k d, l =>
    .msub rfl (.inr ⟨⟨by simp [mrow, childElems, kids_two], row_long (kids_two x y k) (expr_isElem x) (expr_means x [])⟩, rfl, rfl⟩)
      (MeansAll.row (by decide) (by
        rw [kids_two]
        exact .cons (expr_means x _) (.cons (expr_means y _) (nodes_mean k _)))) rfl (row_means d)
  | .bothRow x y k d e, l =>
    .msubsup rfl (.inr ⟨⟨by simp [mrow, childElems, kids_two], row_long (kids_two x y k) (expr_isElem x) (expr_means x [])⟩, rfl, rfl⟩)
      (MeansAll.row (by decide) (by
        rw [kids_two]
        exact .cons (expr_means x _) (.cons (expr_means y _) (nodes_mean k _)))) rfl rfl (row_means d) (row_means e)
theorem nodes_mean : ∀ (k : List Expr) (l : List Item), MeansAll false l (nodes k) (l ++ items k)
  | [], l => by rw [items, List.append_nil]; exact .nil
  | x :: k, l => .cons (expr_means x l) (by
      have := nodes_mean k (l ++ [x.item])
      rw [List.append_assoc] at this
      exact this)
theorem row_means : ∀ (k : List Expr), Means false [] (mrow (nodes k)) (items k)
  | k => MeansAll.row (by decide) (by rw [kids_nodes]; exact nodes_mean k [])
end

mutual
theorem item_inj : ∀ x y : Expr, x.item = y.item → x = y
  | .sign p hp, y, h => by
    cases y <;> simp only [Expr.item, inParens, reduceCtorEq, Item.sym.injEq] at h
    cases signs_inj _ hp _ ‹_› h
    rfl
  | .opening, y, h => by
    cases y <;> simp [Expr.item, inParens] at h
    rfl
  | .closing, y, h => by
    cases y <;> simp [Expr.item, inParens] at h
    rfl
  | .frac a b, y, h => by
    cases y <;> simp only [Expr.item, inParens, reduceCtorEq, Item.app.injEq, List.cons.injEq, and_true, false_and, and_false] at h
    rw [items_inj a _ h.2.1, items_inj b _ h.2.2]
  | .fenced a, y, h => by
    cases y <;> simp [Expr.item, inParens] at h
    rw [items_inj a _ h]
  | .over a b, y, h => by
    cases y <;> simp only [Expr.item, inParens, reduceCtorEq, Item.app.injEq, List.cons.injEq, and_true, false_and, and_false] at h
    rw [items_inj b _ h.2.1, items_inj a _ h.2.2]
  | .under a b, y, h => by
    cases y <;> simp only [Expr.item, inParens, reduceCtorEq, Item.app.injEq, List.cons.injEq, and_true, false_and, and_false] at h
    rw [items_inj b _ h.2.1, items_inj a _ h.2.2]
  | .sqrt a, y, h => by
    cases y <;> simp only [Expr.item, inParens, reduceCtorEq, Item.app.injEq, List.cons.injEq, and_true, and_false] at h
    rw [items_inj a _ h.2]
  | .root p hp a, y, h => by
    cases y <;> simp only [Expr.item, inParens, reduceCtorEq, Item.root.injEq, Item.sym.injEq, List.cons.injEq, and_true] at h
    cases signs_inj _ hp _ ‹_› h.1
    rw [items_inj a _ h.2]
  | .sup p hp e, y, h => by
    cases y <;> simp only [Expr.item, inParens, reduceCtorEq, Item.sup.injEq, Item.sym.injEq, false_and] at h
    cases signs_inj _ hp _ ‹_› h.1
    rw [items_inj e _ h.2]
  | .sub p hp d, y, h => by
    cases y <;> simp only [Expr.item, inParens, reduceCtorEq, Item.sub.injEq, Item.sym.injEq, false_and] at h
    cases signs_inj _ hp _ ‹_› h.1
    rw [items_inj d _ h.2]
  | .both p hp d e, y, h => by
    cases y <;> simp only [Expr.item, inParens, reduceCtorEq, Item.sup.injEq, Item.sub.injEq, Item.sym.injEq, false_and] at h
    cases signs_inj _ hp _ ‹_› h.1.1
    rw [items_inj d _ h.1.2, items_inj e _ h.2]
  | .supRow x1 x2 l e, y, h => by
    cases y <;> simp only [Expr.item, inParens, reduceCtorEq, Item.sup.injEq, Item.fence.injEq, List.cons.injEq,
      true_and, false_and] at h
    rw [item_inj x1 _ h.1.1, item_inj x2 _ h.1.2.1, items_inj l _ h.1.2.2, items_inj e _ h.2]
  | .subRow x1 x2 l d, y, h => by
    cases y <;> simp only [Expr.item, inParens, reduceCtorEq, Item.sub.injEq, Item.fence.injEq, List.cons.injEq,
      true_and, false_and] at h
    rw [item_inj x1 _ h.1.1, item_inj x2 _ h.1.2.1, items_inj l _ h.1.2.2, items_inj d _ h.2]
  | .bothRow x1 x2 l d e, y, h => by
    cases y <;> simp only [Expr.item, inParens, reduceCtorEq, Item.sup.injEq, Item.sub.injEq, Item.fence.injEq, List.cons.injEq,
      true_and, false_and] at h
    rw [item_inj x1 _ h.1.1.1, item_inj x2 _ h.1.1.2.1, items_inj l _ h.1.1.2.2, items_inj d _ h.1.2, items_inj e _ h.2]
theorem items_inj : ∀ k l : List Expr, items k = items l → k = l
  | [], [], _ => rfl
  | [], _ :: _, h => by simp [items] at h
  | _ :: _, [], h => by simp [items] at h
  | x :: k, y :: l, h => by
    simp only [items, List.cons.injEq] at h
    rw [item_inj x y h.1, items_inj k l h.2]
end

theorem maths_mathOf (l : List Expr) : maths (mathOf l) = [.elem c!"math" [] (nodes l)] := by
  have hq : ∀ t ∈ tagsUsed, (t == c!"math") = false := by decide
  have h : maths (nodes l) = [] := by
    refine List.filter_eq_nil_iff.2 fun n hn hm => List.filter_eq_nil_iff.1 (nodes_found hq l) n hn ?_
    cases n with
    | elem tag A cs => exact hm
    | _ => cases hm
  rw [mathOf, maths_cons_elem, h]
  rfl

theorem math_means (l : List Expr) : Means false [] (.elem c!"math" [] (nodes l)) (items l) :=
  MeansAll.math (by rw [kids_nodes]; exact nodes_mean l [])

end Verif.Formulas

namespace Verif
open Spec Formulas

/-- **C99** Formulas that are made of signs, fractions, roots and scripts are converted, and different
ones have different LaTeX. -/
theorem C99_document (k l : List Expr) :
    (∃ s, docResult (mathOf k) = .ok s) ∧ (docResult (mathOf k) = docResult (mathOf l) → k = l) := by
  have hm : ∀ l, maths (mathOf l) = [.elem c!"math" [] (nodes l)] := maths_mathOf
  obtain ⟨s, hs, hr⟩ := C60_document _ _ _ (hm k) (math_means k)
  obtain ⟨t, ht, hr'⟩ := C60_document _ _ _ (hm l) (math_means l)
  refine ⟨⟨s, hs⟩, fun h => ?_⟩
  rw [hs, ht] at h
  cases h
  exact items_inj k l (C60_reading_unique hr hr')

/-- **C99** at the API. -/
theorem C99_convert (env env' : Env) (x x' : Str) (k l : List Expr) (hd : ParsesTo env x (mathOf k))
    (hd' : ParsesTo env' x' (mathOf l)) :
    (∃ s, convert env x = .ok s) ∧ (convert env x = convert env' x' → k = l) := by
  rw [hd.convert, hd'.convert]
  exact C99_document k l

/-- **C99** So there is a way back: the formula can be recovered from the LaTeX. -/
theorem C99_way_back : ∃ back : Str → List Expr, ∀ (env : Env) (x : Str) (l : List Expr), ParsesTo env x (mathOf l) →
    ∃ s, convert env x = .ok s ∧ back s = l := by
  classical
  refine ⟨fun s => if h : ∃ l, docResult (mathOf l) = .ok s then h.choose else [], fun env x l hd => ?_⟩
  obtain ⟨s, hs⟩ := (C99_document l l).1
  have h : ∃ l, docResult (mathOf l) = .ok s := ⟨l, hs⟩
  refine ⟨s, by rw [hd.convert]; exact hs, ?_⟩
  have hc : docResult (mathOf h.choose) = .ok s := h.choose_spec
  simp only [dif_pos h]
  exact (C99_document _ l).2 (by rw [hc, hs])

/-- A letter. -/
def letterOf (c : Char) (h : ⟨c!"mi", [c], .char c⟩ ∈ signs := by decide) : Expr := .sign _ h

/-- A digit. -/
def digitOf (c : Char) (h : ⟨c!"mn", [c], .char c⟩ ∈ signs := by decide) : Expr := .sign _ h

/-- An operator. -/
def plusSign : Expr := .sign ⟨c!"mo", c!"+", .char '+'⟩ (by decide)

/-- The square of a sum. -/
def squareOfSum : List Expr := [.supRow (letterOf 'a') plusSign [letterOf 'b'] [digitOf '2']]

/-- A sum with a square. -/
def sumOfSquare : List Expr :=
  [letterOf 'a', plusSign, .sup ⟨c!"mi", c!"b", .char 'b'⟩ (by decide) [digitOf '2']]

/-- A root of a fraction, with scripts and parentheses. -/
def rootOfFraction : List Expr :=
  [.root ⟨c!"mn", c!"3", .char '3'⟩ (by decide) [.frac [.opening, letterOf 'a', .closing]
    [.both ⟨c!"mi", c!"π", .word c!"pi"⟩ (by decide) squareOfSum sumOfSquare]]]

/-- Something over something in parentheses, and under it. -/
def stackOf : List Expr := [.over [.under [.fenced sumOfSquare] [letterOf 'n']] squareOfSum]

/-- These formulas are not alike, and nor are the results. -/
example : docResult (mathOf squareOfSum) = .ok c!"\\left(a + b\\right)^{2}" ∧
    docResult (mathOf sumOfSquare) = .ok c!"a + b^{2}" ∧
    docResult (mathOf stackOf) = .ok
      c!"\\overset{\\left(a + b\\right)^{2}}{\\underset{n}{\\left(a + b^{2}\\right)}}" ∧
    docResult (mathOf rootOfFraction) = .ok
      c!"\\sqrt[3]{\\frac{\\left(\\right. a \\left.\\right)}{\\pi_{\\left(a + b\\right)^{2}}^{a + b^{2}}}}" := by
  refine ⟨?_, ?_, ?_, ?_⟩ <;> rw [docResult_eq] <;> decide +kernel

/-- **C99** The base of a script must be a sign or a row of at least two parts.  If it is a row whose only
part is another row, then there are different formulas with the same LaTeX. -/
theorem C99_row_of_one : ∃ s,
    docResult [.elem c!"math" [] [.elem c!"msup" [] [mrow [mrow [tokenOf c!"mi" c!"a", tokenOf c!"mo" c!"+", tokenOf c!"mi" c!"b"]],
      tokenOf c!"mn" c!"2"]]] = .ok s ∧ docResult (mathOf sumOfSquare) = .ok s := by
  refine ⟨c!"a + b^{2}", ?_, ?_⟩ <;> rw [docResult_eq] <;> decide +kernel

/-- **C99** Scripts are not told from limits: `munderover` has the LaTeX of `msubsup`. -/
theorem C99_limits {p : Sign} (hp : p ∈ signs) (d e : List Expr) : ∃ s,
    latexIn false (.elem c!"munderover" [] [p.node, mrow (nodes d), mrow (nodes e)]) = .ok s ∧
    latexIn false (.elem c!"msubsup" [] [p.node, mrow (nodes d), mrow (nodes e)]) = .ok s := by
  obtain ⟨s, hs, _⟩ := C60_phrase (sign_means hp [])
  obtain ⟨t, ht, _⟩ := C60_phrase (row_means d)
  obtain ⟨u, hu, _⟩ := C60_phrase (row_means e)
  exact ⟨_, (renders_iff rfl _ _).1 (.munderover rfl hs ht hu), (renders_iff rfl _ _).1 (.msubsup rfl hs ht hu)⟩

/-- The limits of a sum. -/
example : latexIn false (.elem c!"munderover" [] [tokenOf c!"mo" c!"∑", mrow (nodes [letterOf 'n']), mrow (nodes squareOfSum)]) =
    .ok c!"\\sum_{n}^{\\left(a + b\\right)^{2}}" := by decide +kernel

end Verif
