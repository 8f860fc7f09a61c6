import Verif.Source.Dispatch
import Verif.Spec.Stack

/-!
# From DOM nodes to elements

xml_elements_to_mathml_element.py: the elements that the source builds are those of the
model, and the dictionaries of attributes are created in the same order.
-/

namespace Verif.Src

attribute [local irreducible] vowelsWithAccents accentToLtxCmd specialFontChars allMathSymbolsByChar
  allMathSymbolsByGlyph mathNumberByGlyph allMathOperatorsByChar allMathOperatorsByGlyph

variable {env : Env}

/-- The object that builds elements. -/
abbrev builderObj : Obj := .inst .ElementsToMathMLAdapter []

/-! ## Children that are elements -/

/-- `child.nodeType == Node.ELEMENT_NODE` -/
abbrev isElemExpr : Expr := .cmp .eq (.attr (.name .child) .nodeType) (.attr (.name .Node) .ELEMENT_NODE)

theorem eval_isElem (C : Ctx) {l : Locals} (hl : look .Node l = none) (h : Store) (c : Node) :
    eval C isElemExpr ((.child, .node c) :: l) h = .ok (.bool c.isElem) h := by
  cases c <;> sym [] [hl] <;> rfl

theorem holds_isElem (C : Ctx) {l : Locals} (hl : look .Node l = none) (h : Store) (c : Node) :
    holds C [isElemExpr] ((.child, .node c) :: l) h = .ok c.isElem h := by
  rw [holds, eval_isElem C hl]
  cases c.isElem <;> rfl

theorem any_isElem (C : Ctx) {l : Locals} (hl : look .Node l = none) (h : Store) : ∀ cs : List Node,
    anyRes (eval C isElemExpr) .child l (cs.map .node) h = .ok (.bool (hasElementChild cs)) h
  | [] => rfl
  | c :: cs => by
    rw [List.map_cons, anyRes, eval_isElem C hl, Res.bind_ok]
    have ih := any_isElem C hl h cs
    cases hc : c.isElem with
    | true => simp [truthy, hasElementChild, hc]
    | false =>
      simp only [truthy, ih]
      simp [hasElementChild, hc]

theorem comp_isElem (C : Ctx) {l : Locals} (hl : look .Node l = none) (h : Store) : ∀ cs : List Node,
    compRes (holds C [isElemExpr]) (eval C (.name .child)) .child l (cs.map .node) h =
      .ok ((cs.filter Node.isElem).map .node) h
  | [] => rfl
  | c :: cs => by
    have ih := comp_isElem C hl h cs
    rw [List.map_cons, compRes, holds_isElem C hl, Res.bind_ok]
    cases hc : c.isElem with
    | true =>
      rw [List.filter_cons_of_pos hc, if_pos rfl, eval]
      simp only [look, if_true, Res.bind_ok, ih, List.map_cons]
    | false =>
      rw [List.filter_cons_of_neg (by simp [hc]), if_neg (by simp), ih]

theorem comp_children (C : Ctx) {l : Locals} (hl : look .Node l = none) (h : Store) (tag : Str)
    (ps : List (Str × Str)) (cs : List Node) :
    compRes (holds C [isElemExpr]) (eval C (.name .child)) .child l
      ((childNodes (.elem tag ps cs)).map .node) h = .ok ((cs.filter Node.isElem).map .node) h :=
  comp_isElem C hl h cs

theorem run_hasElementChild {S : Store} {b : Nat} (n : Node) (m : Nat) :
    call env (m + 1) ElementsToMathMLAdapter__has_element_child [.obj b, .node n] [] S =
      .ok (.bool (hasElementChild (childNodes n))) S := by
  have h := any_isElem ⟨env, call env m, m⟩ (l := [(.self, .obj b), (.el, .node n)]) rfl S (childNodes n)
  sym [ElementsToMathMLAdapter__has_element_child] [h]

/-! ## Attributes -/

/-- xml_elements_to_mathml_element.py 49–51: the body of the loop. -/
abbrev attrBody : List Stmt :=
   [.assign .attr_value (.ite (.cmp .eq (.attr (.name .attr) .value) (.attr (.name .attr) .«name»)) (.str c!"") (.attr (.name .attr) .value)),
    .setItem (.name .attr_dict) (.attr (.name .attr) .«name») (.name .attr_value)]

theorem attr_turn (C : Ctx) {l : Locals} {S : Store} {d : Nat} (hS : S.length = d)
    (hl : look .attr_dict l = some (.obj d)) (A : Attrs) (k v : Str) :
    execs C attrBody ((.attr, .nodeAttr k v) :: l) (S ++ [.dict (dictVal A)]) =
      .next ((.attr_value, .str (if v = k then [] else v)) :: (.attr, .nodeAttr k v) :: l)
        (S ++ [.dict (dictVal (Dict.set A k (if v = k then [] else v)))]) := by
  subst hS
  by_cases h : v = k
  · sym [] [hl] [h]
    simp [set_dictVal, h]
  · sym [] [hl] [h]
    simp [set_dictVal, h]

theorem attr_loop (C : Ctx) {S : Store} {d : Nat} (hS : S.length = d) :
    ∀ (ps : List (Str × Str)) (l : Locals) (A : Attrs) (i : Nat), look .attr_dict l = some (.obj d) →
    ∃ l', look .attr_dict l' = some (.obj d) ∧
      forOut (fun _ v l => (.attr, v) :: l) (execs C attrBody) i (ps.map fun p => .nodeAttr p.1 p.2) l
        (S ++ [.dict (dictVal A)]) = .next l'
          (S ++ [.dict (dictVal (ps.foldl (fun d p => Dict.set d p.1 (if p.2 = p.1 then [] else p.2)) A))])
  | [], l, A, i, hl => ⟨l, hl, rfl⟩
  | p :: ps, l, A, i, hl => by
    obtain ⟨l', h1, h2⟩ := attr_loop C hS ps
      ((.attr_value, .str (if p.2 = p.1 then [] else p.2)) :: (.attr, .nodeAttr p.1 p.2) :: l)
      (Dict.set A p.1 (if p.2 = p.1 then [] else p.2)) (i + 1) hl
    refine ⟨l', h1, ?_⟩
    rw [List.map_cons, forOut, attr_turn C hS hl]
    exact h2

theorem run_convertAttributes {S : Store} {b : Nat} (ps : List (Str × Str)) (m : Nat) {d : Nat}
    (hS : S.length = d) :
    call env (m + 1) ElementsToMathMLAdapter__convert_element_attributes [.obj b, .nodeMap ps] [] S =
      .ok (.obj d) (S ++ [.dict (dictVal (convertAttributes ps))]) := by
  subst hS
  obtain ⟨l', h1, h2⟩ := attr_loop ⟨env, call env m, m⟩ (S := S) rfl ps
    [(.attr_dict, .obj S.length), (.self, .obj b), (.attributes, .nodeMap ps)] [] 0 rfl
  simp only [show dictVal [] = dictOf [] [] [] from rfl] at h2
  sym [ElementsToMathMLAdapter__convert_element_attributes] [h1, h2]
  rfl

/-! ## Elements -/

/-- More dictionaries have got addresses, from `m` on. -/
structure Grow (m : Nat) (φ : Nat → Nat) (N : Nat) (φ' : Nat → Nat) (N' : Nat) : Prop where
  le : N ≤ N'
  same : ∀ r, r < N → φ' r = φ r
  new : ∀ r, N ≤ r → r < N' → m ≤ φ' r

theorem Grow.refl (m : Nat) (φ : Nat → Nat) (N : Nat) : Grow m φ N φ N :=
  ⟨Nat.le_refl _, fun _ _ => rfl, fun _ _ _ => by omega⟩

theorem Grow.trans {m m' : Nat} {φ φ' φ'' : Nat → Nat} {N N' N'' : Nat} (h : Grow m φ N φ' N')
    (h' : Grow m' φ' N' φ'' N'') (hm : m ≤ m') : Grow m φ N φ'' N'' :=
  ⟨Nat.le_trans h.le h'.le, fun r hr => by
    rw [h'.same r (Nat.lt_of_lt_of_le hr h.le), h.same r hr], fun r h1 h2 => by
    by_cases hr : r < N'
    · rw [h'.same r hr]
      exact h.new r h1 hr
    · exact Nat.le_trans hm (h'.new r (by omega) h2)⟩

mutual
theorem IsElem.grow {m : Nat} {φ φ' : Nat → Nat} {N N' : Nat} {h : Store} (hg : Grow m φ N φ' N') :
    ∀ {e : Elem} {a : Nat}, IsElem φ N h e a → IsElem φ' N' h e a
  | .mk _ _ r cs, a, hi => by
    unfold IsElem at hi ⊢
    obtain ⟨hr, la, as, h1, h2, h3⟩ := hi
    exact ⟨Nat.lt_of_lt_of_le hr hg.le, la, as, by rw [hg.same r hr]; exact h1, h2,
      IsElems.grow hg h3⟩
theorem IsElems.grow {m : Nat} {φ φ' : Nat → Nat} {N N' : Nat} {h : Store} (hg : Grow m φ N φ' N') :
    ∀ {es : List Elem} {as : List Nat}, IsElems φ N h es as → IsElems φ' N' h es as
  | [], [], _ => by simp [IsElems]
  | e :: es, a :: as, hi => by
    unfold IsElems at hi ⊢
    exact ⟨hi.1.grow hg, hi.2.grow hg⟩
  | [], _ :: _, hi => by simp [IsElems] at hi
  | _ :: _, [], hi => by simp [IsElems] at hi
end

/-- The addresses with that of a new dictionary. -/
def withNew (φ : Nat → Nat) (N a : Nat) (r : Nat) : Nat := if r = N then a else φ r

theorem withNew_grow (φ : Nat → Nat) (N a : Nat) : Grow a φ N (withNew φ N a) (N + 1) :=
  ⟨Nat.le_succ N, fun r hr => by simp [withNew, Nat.ne_of_lt hr], fun r h1 h2 => by
    rw [withNew, if_pos (by omega)]
    exact Nat.le_refl a⟩

theorem Dicts.new {φ : Nat → Nat} {H : Heap} {S : Store} (hd : Dicts φ H.next H S) (A : Attrs) :
    Dicts (withNew φ H.next S.length) (alloc A H).2.next (alloc A H).2
      (S ++ [.dict (dictVal A)]) := by
  have hn : (alloc A H).2.next = H.next + 1 := rfl
  have hc : ∀ r, (alloc A H).2.cells r = if r = H.next then A else H.cells r := fun _ => rfl
  rw [hn]
  refine Dicts.of (N := fun r => r < H.next + 1) ?_ ?_
  · intro r hr
    rw [hc, withNew]
    by_cases he : r = H.next
    · rw [if_pos he, if_pos he]; exact look_last _ rfl
    · rw [if_neg he, if_neg he]; exact look_old _ (hd.get r (show r < H.next by omega))
  · intro r s hr hs h
    unfold withNew at h
    by_cases he : r = H.next <;> by_cases hf : s = H.next
    · omega
    · rw [if_pos he, if_neg hf] at h
      have := get_lt (hd.get s (show s < H.next by omega))
      omega
    · rw [if_neg he, if_pos hf] at h
      have := get_lt (hd.get r (show r < H.next by omega))
      omega
    · rw [if_neg he, if_neg hf] at h
      exact hd.inj r s (show r < H.next by omega) (show s < H.next by omega) h

/-- `self._convert_element(el)` -/
abbrev buildExpr : Expr := .call (.attr (.name .self) ._convert_element) [.name .el] [] []
/-- `el.tagName is not None` -/
abbrev namedExpr : Expr := .cmp .isNot (.attr (.name .el) .tagName) (.none)

/-- The objects that make up the element at `a`: itself, the list of its children, its dictionary, and
those of the children. -/
inductive Piece (S : Store) : Nat → Nat → Prop
  | self {a} : Piece S a a
  | children {a name value la d} : S[a]? = some (elemObj name value la d) → Piece S a la
  | attributes {a name value la d} : S[a]? = some (elemObj name value la d) → Piece S a d
  | child {a name value la d b c} {as : List Nat} : S[a]? = some (elemObj name value la d) → S[la]? = some (.list (as.map .obj)) →
      b ∈ as → Piece S b c → Piece S a c

theorem objs_inj : ∀ {as bs : List Nat}, as.map Val.obj = bs.map Val.obj → as = bs
  | [], [], _ => rfl
  | a :: as, b :: bs, h => by
    simp only [List.map_cons, List.cons.injEq, Val.obj.injEq] at h
    rw [h.1, objs_inj h.2]
  | [], _ :: _, h => by cases h
  | _ :: _, [], h => by cases h

theorem IsElems.find {φ : Nat → Nat} {N : Nat → Prop} {S : Store} : ∀ {es : List Elem} {as : List Nat} {b : Nat},
    IsElems φ N S es as → b ∈ as → ∃ e ∈ es, IsElem φ N S e b
  | [], [], _, _, h => by cases h
  | e :: es, a :: as, b, hi, h => by
    unfold IsElems at hi
    rcases List.mem_cons.1 h with rfl | h
    · exact ⟨e, List.mem_cons_self, hi.1⟩
    · obtain ⟨e', h1, h2⟩ := IsElems.find hi.2 h
      exact ⟨e', List.mem_cons_of_mem _ h1, h2⟩
  | [], _ :: _, _, hi, _ => by simp [IsElems] at hi
  | _ :: _, [], _, hi, _ => by simp [IsElems] at hi

/-- Later objects do not belong to the element. -/
theorem Piece.back {φ : Nat → Nat} {N : Nat → Prop} {S S' : Store} (he : Adds S S') {a c : Nat} (h : Piece S' a c) :
    ∀ {e : Elem}, IsElem φ N S e a → Piece S a c := by
  induction h with
  | self => intro _ _; exact .self
  | children h =>
    rintro ⟨n, v, r, cs⟩ hi
    unfold IsElem at hi
    obtain ⟨_, la, as, h1, _, _⟩ := hi
    rw [he.get h1] at h
    cases h
    exact .children h1
  | attributes h =>
    rintro ⟨n, v, r, cs⟩ hi
    unfold IsElem at hi
    obtain ⟨_, la, as, h1, _, _⟩ := hi
    rw [he.get h1] at h
    cases h
    exact .attributes h1
  | child h hl hb _ ih =>
    rintro ⟨n, v, r, cs⟩ hi
    unfold IsElem at hi
    obtain ⟨_, la, as, h1, h2, h3⟩ := hi
    rw [he.get h1] at h
    cases h
    rw [he.get h2] at hl
    injection hl with hl
    injection hl with hl
    cases objs_inj hl
    obtain ⟨e, _, h4⟩ := h3.find hb
    exact .child h1 h2 hb (ih h4)

/-- The elements at the addresses are made up of objects in ranges one after the other, from `lo` on. -/
inductive Ranges (S : Store) : Nat → List Nat → Prop
  | nil {lo} : Ranges S lo []
  | cons {lo mid a as} : (∀ c, Piece S a c → lo ≤ c ∧ c < mid) → lo ≤ mid → mid ≤ S.length → Ranges S mid as →
      Ranges S lo (a :: as)

theorem Ranges.mem {S : Store} {lo : Nat} {as : List Nat} (h : Ranges S lo as) : ∀ b ∈ as, ∀ c, Piece S b c →
    lo ≤ c ∧ c < S.length := by
  induction h with
  | nil => intro b hb; cases hb
  | cons h1 h2 h3 _ ih =>
    intro b hb c hc
    rcases List.mem_cons.1 hb with rfl | hb
    · have := h1 c hc
      omega
    · have := ih b hb c hc
      omega

theorem Ranges.mono {φ : Nat → Nat} {N : Nat → Prop} {S S' : Store} (he : Adds S S') {lo : Nat} {as : List Nat}
    (h : Ranges S lo as) : ∀ {es : List Elem}, IsElems φ N S es as → Ranges S' lo as := by
  induction h with
  | nil => intro _ _; exact .nil
  | cons h1 h2 h3 _ ih =>
    intro es hi
    cases es with
    | nil => simp [IsElems] at hi
    | cons e es =>
      unfold IsElems at hi
      exact .cons (fun c hc => h1 c (hc.back he hi.1)) h2 (Nat.le_trans h3 he.length) (ih hi.2)

theorem Ranges.low {S : Store} {lo lo' : Nat} {as : List Nat} (h : Ranges S lo as) (hl : lo' ≤ lo) : Ranges S lo' as := by
  cases h with
  | nil => exact .nil
  | cons h1 h2 h3 h4 =>
    refine .cons (fun c hc => ?_) (Nat.le_trans hl h2) h3 h4
    have := h1 c hc
    omega

/-- The source builds the element of a node as the model does. -/
structure Built (env : Env) (x : Node) : Prop where
  ok : ∀ {φ : Nat → Nat} {H : Heap} {S : Store} {b : Nat}, S[b]? = some builderObj →
    Dicts φ H.next H S → x.isElem = true → ∃ φ' H' S' e a, buildElem x H = (some e, H') ∧ Adds S S' ∧
      Dicts φ' H'.next H' S' ∧ IsElem φ' H'.next S' e a ∧ Grow S.length φ H.next φ' H'.next ∧
      (∀ c, Piece S' a c → S.length ≤ c ∧ c < S'.length) ∧
      ∀ m, 2 * Spec.levels x + 2 ≤ m → call env m ElementsToMathMLAdapter__convert_element [.obj b, .node x] [] S =
        .ok (.obj a) S'

/-- The source builds the elements of nodes as the model does. -/
structure Builts (env : Env) (xs : List Node) : Prop where
  ok : ∀ {φ : Nat → Nat} {H : Heap} {S : Store} {b : Nat} {l : Locals}, look .self l = some (.obj b) →
    S[b]? = some builderObj → Dicts φ H.next H S → ∃ φ' H' S' es as,
      buildElems xs H = (es, H') ∧ Adds S S' ∧
      Dicts φ' H'.next H' S' ∧ IsElems φ' H'.next S' es as ∧ Grow S.length φ H.next φ' H'.next ∧
      Ranges S' S.length as ∧
      ∀ m, 2 * Spec.levelsAll xs + 2 ≤ m → compRes (holds ⟨env, call env m, m⟩ [namedExpr])
        (eval ⟨env, call env m, m⟩ buildExpr) .el l ((xs.filter Node.isElem).map .node) S =
        .ok (as.map .obj) S'

theorem buildElem_other {x : Node} (h : x.isElem = false) (H : Heap) : buildElem x H = (none, H) := by
  cases x <;> first | rfl | cases h

theorem buildElems_none : ∀ {xs : List Node}, hasElementChild xs = false → ∀ H : Heap,
    buildElems xs H = ([], H)
  | [], _, H => by rw [buildElems]; rfl
  | x :: xs, h, H => by
    simp only [hasElementChild, List.any_cons, Bool.or_eq_false_iff] at h
    rw [buildElems]
    show (let p := buildElem x H; let q := buildElems xs p.2;
      ((match p.1 with | some e => e :: q.1 | none => q.1), q.2)) = _
    simp only [buildElem_other h.1, buildElems_none (xs := xs) h.2]

theorem buildElems_cons (x : Node) (xs : List Node) (H : Heap) :
    buildElems (x :: xs) H = ((match (buildElem x H).1 with
      | some e => e :: (buildElems xs (buildElem x H).2).1
      | none => (buildElems xs (buildElem x H).2).1), (buildElems xs (buildElem x H).2).2) := by
  rw [buildElems]; rfl

theorem buildElem_elem (tag : Str) (ps : List (Str × Str)) (cs : List Node) (H : Heap) :
    buildElem (.elem tag ps cs) H = (some (.mk tag (strip (elementValue cs)) H.next
      (buildElems cs (alloc (convertAttributes ps) H).2).1),
      (buildElems cs (alloc (convertAttributes ps) H).2).2) := by
  rw [buildElem]; rfl

theorem eval_build {S S' : Store} {b a : Nat} {l : Locals} {x : Node} {C : Ctx}
    (hl : look .self l = some (.obj b)) (hb : S[b]? = some builderObj)
    (hx : C.call ElementsToMathMLAdapter__convert_element [.obj b, .node x] [] S = .ok (.obj a) S') :
    eval C buildExpr ((.el, .node x) :: l) S = .ok (.obj a) S' := by
  sym [] [hl, hb, hx]

theorem holds_named (C : Ctx) {l : Locals} (h : Store) {x : Node} (hx : x.isElem = true) :
    holds C [namedExpr] ((.el, .node x) :: l) h = .ok true h := by
  cases x with
  | elem tag ps cs => sym [] []
  | _ => cases hx

theorem run_buildList {S S' : Store} {b la k : Nat} {xs : List Node} {as : List Nat}
    (hla : S[la]? = some (.list (xs.map .node)))
    (h : ∀ m, k ≤ m → compRes (holds ⟨env, call env m, m⟩ [namedExpr])
        (eval ⟨env, call env m, m⟩ buildExpr) .el [(.self, .obj b), (.els, .obj la)] (xs.map .node) S =
        .ok (as.map .obj) S') (m : Nat) (hm : k + 1 ≤ m) {a : Nat} (ha : S'.length = a) :
    call env m ElementsToMathMLAdapter_convert [.obj b, .obj la] [] S =
      .ok (.obj a) (S' ++ [.list (as.map .obj)]) := by
  obtain ⟨m, rfl⟩ : ∃ n, m = n + 1 := ⟨m - 1, by omega⟩
  subst ha
  replace h := h m (by omega)
  sym [ElementsToMathMLAdapter_convert] [hla, h]

/-- The text of an element without elements in it. -/
def firstValue : List Node → Str
  | [] => []
  | c :: _ => c.nodeValue

theorem elementValue_none {cs : List Node} (h : hasElementChild cs = false) :
    elementValue cs = firstValue cs := by
  cases cs <;> simp [elementValue, h, firstValue]

mutual
theorem built : ∀ x : Node, Built env x
  | .elem tag ps cs => ⟨fun {φ H S b} hb hd _ => by
    have hd1 := hd.new (convertAttributes ps)
    have he1 : Adds S (S ++ [.dict (dictVal (convertAttributes ps))]) := .app _ _
    have hg1 := withNew_grow φ H.next S.length
    rw [buildElem_elem]
    have hat := fun m => run_convertAttributes (env := env) (b := b) (S := S) ps m rfl
    have hhas := fun m => run_hasElementChild (env := env) (b := b) (S := S ++ [.dict (dictVal (convertAttributes ps))])
      (.elem tag ps cs) m
    simp only [childNodes] at hhas
    cases hc : hasElementChild cs with
    | true =>
      have hv : elementValue cs = [] := by simp [elementValue, hc]
      rw [hc] at hhas
      rw [hv]
      have he2 : Adds (S ++ [.dict (dictVal (convertAttributes ps))])
        (S ++ [.dict (dictVal (convertAttributes ps))] ++ [.list ((cs.filter Node.isElem).map .node)]) := .app _ _
      obtain ⟨φ2, H2, S2, es, as, q1, q2, q3, q4, q5, q7, q6⟩ := (builts cs).ok
        (l := [(.self, .obj b), (.els, .obj (S.length + 1))]) rfl
        ((he1.trans he2).get hb) (hd1.app [.list ((cs.filter Node.isElem).map .node)])
      have hlist := fun m hm a => run_buildList (env := env) (b := b) (la := S.length + 1) (look_last _ (by simp)) q6 m hm (a := a)
      have hS2 := ((he1.trans he2).trans q2).length
      have hdn : S2[S.length]? = some (.dict (dictVal (H2.cells H.next))) := by
        have := q3.get H.next (by have := q5.le; exact this)
        rw [q5.same H.next (Nat.lt_succ_self _), withNew, if_pos rfl] at this
        exact this
      rw [q1]
      refine ⟨φ2, H2, S2 ++ [.list (as.map .obj)] ++ [elemObj tag (strip []) S2.length S.length], _, S2.length + 1, rfl, ?_, (q3.app _).app _, ?_, hg1.trans q5 (by simp), ?_, fun m hm => ?_⟩
      · exact (((he1.trans he2).trans q2).app' _).app' _
      · unfold IsElem
        refine ⟨q5.le, S2.length, as, ?_, look_old _ (look_last _ rfl), (q4.mono (.app _ _)).mono (.app _ _)⟩
        rw [q5.same H.next (Nat.lt_succ_self _), withNew, if_pos rfl]
        exact look_last _ (by simp)
      · have hnew : (S2 ++ [Obj.list (as.map .obj)] ++ [elemObj tag (strip []) S2.length S.length])[S2.length + 1]? =
          some (elemObj tag (strip []) S2.length S.length) := look_last _ (by simp)
        have hnl : (S2 ++ [Obj.list (as.map .obj)] ++ [elemObj tag (strip []) S2.length S.length])[S2.length]? =
          some (.list (as.map .obj)) := look_old _ (look_last _ rfl)
        intro c hc
        simp only [List.length_append, List.length_cons, List.length_nil]
        cases hc with
        | self => omega
        | children h => rw [hnew] at h; cases h; omega
        | attributes h => rw [hnew] at h; cases h; omega
        | child h hl hb hc =>
          rw [hnew] at h
          cases h
          rw [hnl] at hl
          injection hl with hl
          injection hl with hl
          cases objs_inj hl
          obtain ⟨e, _, h4⟩ := q4.find hb
          have := q7.mem _ hb c (hc.back ((Adds.app _ _).app' _) h4)
          simp only [List.length_append, List.length_cons, List.length_nil] at this
          omega
      · rw [Spec.levels] at hm
        obtain ⟨m, rfl⟩ : ∃ n, m = n + 2 * Spec.levelsAll cs + 4 := ⟨m - (2 * Spec.levelsAll cs + 4), by omega⟩
        sym [ElementsToMathMLAdapter__convert_element, GenericMathMLElement___init__] [hb, hat, hhas, comp_children, hlist]
    | false =>
      rw [buildElems_none hc, elementValue_none hc]
      rw [hc] at hhas
      have hel : ∀ v, IsElem (withNew φ H.next S.length) ((H.next + 1 : Nat) : Nat → Prop)
          (S ++ [Obj.dict (dictVal (convertAttributes ps))] ++ [Obj.list []] ++ [elemObj tag v (S.length + 1) S.length])
          (.mk tag v H.next []) (S.length + 2) := by
        intro v
        unfold IsElem
        refine ⟨Nat.lt_succ_self _, S.length + 1, [], ?_, look_old _ (look_last _ (by simp)), by simp [IsElems]⟩
        rw [withNew, if_pos rfl]
        exact look_last _ (by simp)
      have hpc : ∀ v c, Piece (S ++ [Obj.dict (dictVal (convertAttributes ps))] ++ [.list []] ++ [elemObj tag v (S.length + 1) S.length])
          (S.length + 2) c → S.length ≤ c ∧
          c < (S ++ [Obj.dict (dictVal (convertAttributes ps))] ++ [Obj.list []] ++ [elemObj tag v (S.length + 1) S.length]).length := by
        intro v c hc
        have hnew : (S ++ [Obj.dict (dictVal (convertAttributes ps))] ++ [Obj.list []] ++ [elemObj tag v (S.length + 1) S.length])[S.length + 2]? =
          some (elemObj tag v (S.length + 1) S.length) := look_last _ (by simp)
        have hnl : (S ++ [Obj.dict (dictVal (convertAttributes ps))] ++ [Obj.list []] ++ [elemObj tag v (S.length + 1) S.length])[S.length + 1]? =
          some (.list []) := look_old _ (look_last _ (by simp))
        simp only [List.length_append, List.length_cons, List.length_nil]
        cases hc with
        | self => omega
        | children h => rw [hnew] at h; cases h; omega
        | attributes h => rw [hnew] at h; cases h; omega
        | child h hl hb _ =>
          rw [hnew] at h
          cases h
          rw [hnl] at hl
          injection hl with hl
          injection hl with hl
          cases objs_inj (as := []) hl
          cases hb
      cases cs with
      | nil =>
        refine ⟨_, _, S ++ [.dict (dictVal (convertAttributes ps))] ++ [.list []] ++ [elemObj tag (strip []) (S.length + 1) S.length], _, S.length + 2, rfl, ?_, (hd1.app _).app _, hel _, hg1, hpc _, fun m hm => ?_⟩
        · exact (he1.app' _).app' _
        · rw [Spec.levels] at hm
          obtain ⟨m, rfl⟩ : ∃ n, m = n + 4 := ⟨m - 4, by omega⟩
          sym [ElementsToMathMLAdapter__convert_element, GenericMathMLElement___init__] [hb, hat, hhas]
      | cons c cs =>
        refine ⟨_, _, S ++ [.dict (dictVal (convertAttributes ps))] ++ [.list []] ++ [elemObj tag (strip c.nodeValue) (S.length + 1) S.length], _, S.length + 2, rfl, ?_, (hd1.app _).app _, hel _, hg1, hpc _, fun m hm => ?_⟩
        · exact (he1.app' _).app' _
        · rw [Spec.levels] at hm
          obtain ⟨m, rfl⟩ : ∃ n, m = n + 4 := ⟨m - 4, by omega⟩
          simp only [hasElementChild, List.any_cons, Bool.or_eq_false_iff] at hc
          cases c with
          | elem => cases hc.1
          | _ => sym [ElementsToMathMLAdapter__convert_element, GenericMathMLElement___init__] [hb, hat, hhas]⟩
  | .text _ | .cdata _ | .comment _ | .pi _ _ => ⟨fun _ _ h => by cases h⟩
theorem builts : ∀ xs : List Node, Builts env xs
  | [] => ⟨fun {φ H S b l} _ _ hd => ⟨φ, H, S, [], [], by rw [buildElems]; rfl, .refl S, hd,
      by simp [IsElems], .refl _ _ _, .nil, fun _ _ => rfl⟩⟩
  | x :: xs => ⟨fun {φ H S b l} hl hb hd => by
    rw [buildElems_cons]
    cases hx : x.isElem with
    | true =>
      obtain ⟨φ1, H1, S1, e, a, p1, p2, p3, p4, p5, p7, p6⟩ := (built x).ok hb hd hx
      obtain ⟨φ2, H2, S2, es, as, q1, q2, q3, q4, q5, q7, q6⟩ := (builts xs).ok hl (p2.get hb) p3
      simp only [p1, q1]
      refine ⟨φ2, H2, S2, e :: es, a :: as, rfl, p2.trans q2, q3, ?_, p5.trans q5 p2.length,
        .cons (fun c hc => p7 c (hc.back q2 p4)) p2.length q2.length q7, fun m hm => ?_⟩
      · unfold IsElems
        exact ⟨(p4.mono q2.ext).grow q5, q4⟩
      · rw [Spec.levelsAll] at hm
        rw [List.filter_cons_of_pos hx, List.map_cons, compRes, holds_named _ _ hx, Res.bind_ok,
          if_pos rfl, eval_build hl hb (p6 m (by omega)), Res.bind_ok, q6 m (by omega)]
        rfl
    | false =>
      rw [buildElem_other hx]
      rw [List.filter_cons_of_neg (by simp [hx])]
      obtain ⟨φ2, H2, S2, es, as, q1, q2, q3, q4, q5, q7, q6⟩ := (builts xs).ok hl hb hd
      exact ⟨φ2, H2, S2, es, as, q1, q2, q3, q4, q5, q7, fun m hm => q6 m (by rw [Spec.levelsAll] at hm; omega)⟩⟩
end

mutual
/-- An element has as many levels as its node. -/
theorem buildElem_deep : ∀ (x : Node) (H : Heap) (e : Elem), (buildElem x H).1 = some e → deep e = Spec.levels x
  | .elem tag ps cs, H, e, h => by
    rw [buildElem_elem] at h
    cases h
    rw [deep, buildElems_deep cs _, Spec.levels, Nat.add_comm]
  | .text _, _, _, h | .cdata _, _, _, h | .comment _, _, _, h | .pi _ _, _, _, h => by cases h
theorem buildElems_deep : ∀ (xs : List Node) (H : Heap), deeps (buildElems xs H).1 = Spec.levelsAll xs
  | [], H => by rw [buildElems]; rfl
  | x :: xs, H => by
    rw [buildElems_cons, Spec.levelsAll]
    cases hx : (buildElem x H).1 with
    | some e =>
      show max (deep e) (deeps (buildElems xs (buildElem x H).2).1) = _
      rw [buildElem_deep x H e hx, buildElems_deep xs _]
    | none =>
      show deeps (buildElems xs (buildElem x H).2).1 = _
      rw [buildElems_deep xs _]
      cases x with
      | elem => rw [buildElem_elem] at hx; cases hx
      | _ => simp [Spec.levels]
end

end Verif.Src
