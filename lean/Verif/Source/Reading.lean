import Verif.Source.Repair

/-!
# Reading the text

`XmlToMathMLAdapter`: the text is prepared, parsed and repaired as in the model.
-/

namespace Verif.Src

attribute [local irreducible] vowelsWithAccents accentToLtxCmd specialFontChars allMathSymbolsByChar
  allMathSymbolsByGlyph mathNumberByGlyph allMathOperatorsByChar allMathOperatorsByGlyph

variable {env : Env}

/-- An instance of `XmlToMathMLAdapter`. -/
abbrev readerObj (xml : Str) (b e : Nat) : Obj :=
  .inst .XmlToMathMLAdapter [(._xml, .str xml), (._elements_converter, .obj b), (._error_handler, .obj e)]

/-- The objects involved. -/
structure Ready (S : Store) (x b e d : Nat) (xml : Str) : Prop where
  reader : S[x]? = some (readerObj xml b e)
  builder : S[b]? = some builderObj
  handler : S[e]? = some (handlerObj d)
  locator : S[d]? = some (.dict [])

theorem Ready.app {S : Store} {x b e d : Nat} {xml : Str} (h : Ready S x b e d xml) (L : Store) :
    Ready (S ++ L) x b e d xml := ⟨look_old L h.1, look_old L h.2, look_old L h.3, look_old L h.4⟩

theorem Ready.set {S : Store} {x b e d : Nat} {xml : Str} (h : Ready S x b e d xml) (xml' : Str) :
    Ready (S.set x (readerObj xml' b e)) x b e d xml' := by
  have hb : x ≠ b := by intro hx; have := h.1; rw [hx, h.2] at this; cases this
  have he : x ≠ e := by intro hx; have := h.1; rw [hx, h.3] at this; cases this
  have hd : x ≠ d := by intro hx; have := h.1; rw [hx, h.4] at this; cases this
  exact ⟨look_set _ h.1, by rw [List.getElem?_set_ne hb]; exact h.2, by rw [List.getElem?_set_ne he]; exact h.3,
    by rw [List.getElem?_set_ne hd]; exact h.4⟩

theorem run_removeLineBreaks {S : Store} {x : Nat} (xml : Str) (n : Nat) :
    call env (n + 1) XmlToMathMLAdapter__remove_line_breaks [.obj x, .str xml] [] S =
      .ok (.str (removeLineBreaks xml)) S := by
  obtain ⟨p, h1, h2⟩ := compile_lineBreaks env.isWord
  have hs := h2.sub template_nil xml
  sym [XmlToMathMLAdapter__remove_line_breaks] [h1, hs]
  rfl

theorem run_removePrefixes {S : Store} {x : Nat} (xml : Str) (n : Nat) :
    call env (n + 1) XmlToMathMLAdapter__remove_ms_word_prefixes [.obj x, .str xml] [] S =
      .ok (.str (removeMsWordPrefixes xml)) S := by
  obtain ⟨p, h1, h2⟩ := compile_mml env.isWord
  have hs := h2.sub template_nil xml
  sym [XmlToMathMLAdapter__remove_ms_word_prefixes] [h1, hs]
  rfl

theorem Ready.mono {S S' : Store} {x b e d : Nat} {xml : Str} (h : Ready S x b e d xml) (he : Adds S S') :
    Ready S' x b e d xml := ⟨he.get h.1, he.get h.2, he.get h.3, he.get h.4⟩

/-- A repair, and what it leaves in the object. -/
theorem run_fix {S : Store} {x b e d : Nat} {xml : Str} (h : Ready S x b e d xml) (er : ParseErr) :
    ∃ L k, ∀ n, k ≤ n → call env n XmlToMathMLAdapter__fix_error [.obj x, .exc er.toExc] [] S =
      match fixError env xml er with
      | .ok t => .ok .none (S.set x (readerObj t b e) ++ L)
      | .error e' => .exc (.exc e') (S ++ L) := by
  obtain ⟨_, ⟨L, rfl⟩, k, hk⟩ := run_fixError (env := env) h.handler er xml
  refine ⟨L, k + 1, fun n hn => ?_⟩
  obtain ⟨n, rfl⟩ : ∃ m, n = m + 1 := ⟨n - 1, by omega⟩
  replace hk := hk n (by omega)
  have h1 := h.1
  have h3 := h.3
  have h1' := look_old L h1
  cases hx : fixError env xml er with
  | ok t =>
    rw [hx] at hk
    dsimp only at hk ⊢
    sym [XmlToMathMLAdapter__fix_error] [h1, h3, hk, h1']
  | error e' =>
    rw [hx] at hk
    dsimp only at hk ⊢
    sym [XmlToMathMLAdapter__fix_error] [h1, h3, hk]

/-- adapter.py 42–49: the body of the loop. -/
abbrev readBody : List Stmt :=
   [.tryExcept
    [.assign .dom (.call (.name .parseString) [.attr (.name .self) ._xml] [] []),
     .assign .elements (.call (.attr (.name .dom) .getElementsByTagName) [.str c!"math"] [] []),
     .ret (.call (.name .list) [.name .elements] [] [])]
    .e
    [.expr (.call (.attr (.name .self) ._fix_error) [.name .e] [] []),
     .assign .exception (.name .e)]]

/-- The variables of the loop. -/
structure ReadLocals (l : Locals) (x : Nat) : Prop where
  self : look .self l = some (.obj x)
  parse : look .parseString l = none
  list : look .list l = none

theorem look_unset {x y : Ident} (h : x ≠ y) : ∀ l : Locals, look x (unset y l) = look x l
  | [] => rfl
  | (z, v) :: l => by
    have ih := look_unset h l
    unfold unset at ih ⊢
    by_cases hz : z = y
    · subst hz
      simp only [ne_eq, not_true_eq_false, decide_false, Bool.false_eq_true, not_false_eq_true,
        List.filter_cons_of_neg, look, if_neg h, ih]
    · rw [List.filter_cons_of_pos (by simp [hz]), look, look, ih]

/-- How the loop ends. -/
inductive ReadEnd (r : Str → Store → Prop) (x : Except Exc (List Node)) : Out → Prop
  | found {nodes : List Node} {a : Nat} {t : Str} {S : Store} (hx : x = .ok nodes)
      (ha : S[a]? = some (.list (nodes.map .node))) (hr : r t S) :
      ReadEnd r x (.ret (.obj a) S)
  | raised {e : Exc} {l : Locals} {t : Str} {S : Store} (hx : x = .error e) (hr : r t S) :
      ReadEnd r x (.exc (.exc e) l S)
  | tired {e : Exc} {l : Locals} {t : Str} {S : Store} (hx : x = .error e)
      (hl : look .exception l = some (.exc e)) (hr : r t S) : ReadEnd r x (.next l S)

theorem read_loop {x b e d m : Nat} : ∀ (vs : List Val) (S : Store) (xml : Str) (l : Locals) (o : Option Exc),
    Ready S x b e d xml → m ≤ S.length → ReadLocals l x →
    (vs = [] → ∃ er, o = some er ∧ look .exception l = some (.exc er)) →
    ∃ out k, ReadEnd (fun t S' => Ready S' x b e d t ∧ m ≤ S'.length) (mathmlElements env vs.length o xml).1 out ∧ ∀ n, k ≤ n → ∀ i,
      forOut (fun _ v l => (._, v) :: l) (execs ⟨env, call env n, n⟩ readBody) i vs l S = out
  | [], S, xml, l, o, hr, hm, hl, ho => by
    obtain ⟨er, rfl, h⟩ := ho rfl
    exact ⟨.next l S, 0, .tired rfl h ⟨hr, hm⟩, fun _ _ _ => rfl⟩
  | v :: vs, S, xml, l, o, hr, hm, ⟨l1, l2, l3⟩, _ => by
    have h1 := hr.1
    rw [List.length_cons, mathmlElements]
    cases hp : env.parse xml with
    | ok dom =>
      refine ⟨.ret (.obj S.length) (S ++ [.list ((mathElements dom).map .node)]), 0,
        .found rfl (look_last _ rfl) ⟨hr.app _, by simp; omega⟩, fun n _ i => ?_⟩
      rw [forOut]
      sym [] [l1, l2, l3, h1, hp]
    | error er =>
      obtain ⟨L, k, hk⟩ := run_fix (env := env) hr er
      dsimp only
      cases hx : fixError env xml er with
      | error e' =>
        rw [hx] at hk
        dsimp only at hk
        refine ⟨.exc (.exc e') (unset .e ((.e, .exc er.toExc) :: (._, v) :: l)) (S ++ L), k,
          .raised rfl ⟨hr.app _, by simp; omega⟩, fun n hn i => ?_⟩
        replace hk := hk n hn
        rw [forOut]
        sym [] [l1, l2, l3, h1, hp, hk]
      | ok t =>
        rw [hx] at hk
        dsimp only at hk
        obtain ⟨out, k', q1, q2⟩ := read_loop (m := m) vs (S.set x (readerObj t b e) ++ L) t
          (unset .e ((.exception, .exc er.toExc) :: (.e, .exc er.toExc) :: (._, v) :: l)) (some er.toExc)
          ((hr.set t).app L) (by simp; omega) ⟨by rw [look_unset (by decide)]; exact l1, by rw [look_unset (by decide)]; exact l2, by rw [look_unset (by decide)]; exact l3⟩
          (fun _ => ⟨_, rfl, by rw [look_unset (by decide)]; rfl⟩)
        refine ⟨out, k + k', q1, fun n hn i => ?_⟩
        replace hk := hk n (by omega)
        rw [← q2 n (by omega) (i + 1), forOut]
        have ht : execs ⟨env, call env n, n⟩ readBody ((._, v) :: l) S =
            .next (unset .e ((.exception, .exc er.toExc) :: (.e, .exc er.toExc) :: (._, v) :: l))
              (S.set x (readerObj t b e) ++ L) := by
          sym [] [l1, l2, l3, h1, hp, hk]
        rw [ht]

/-- What reading leaves. -/
inductive ReadRes (r : Str → Store → Prop) (x : Except Exc (List Node)) : Res Val → Prop
  | found {nodes : List Node} {a : Nat} {t : Str} {S : Store} (hx : x = .ok nodes)
      (ha : S[a]? = some (.list (nodes.map .node))) (hr : r t S) :
      ReadRes r x (.ok (.obj a) S)
  | raised {e : Exc} {t : Str} {S : Store} (hx : x = .error e) (hr : r t S) : ReadRes r x (.exc (.exc e) S)

theorem run_mathmlElements {S : Store} {x b e d : Nat} {xml : Str} (h : Ready S x b e d xml) :
    Runs (fun n => call env n XmlToMathMLAdapter__mathml_elements [.obj x] [] S)
      (ReadRes (fun t S' => Ready S' x b e d t ∧ S.length ≤ S'.length) (mathmlElements env 5 none xml).1) := by
  obtain ⟨out, k, h1, h2⟩ := read_loop (env := env) ((List.range (Int.toNat 5)).map fun (i : Nat) => Val.int i) S xml
    [(.exception, .none), (.self, .obj x)] none h (Nat.le_refl S.length) ⟨rfl, rfl, rfl⟩ (fun h => by cases h)
  rw [List.length_map, List.length_range, show Int.toNat 5 = 5 from rfl] at h1
  cases h1 with
  | found hx ha hr =>
    fuel 1
    fuel k
    sym [XmlToMathMLAdapter__mathml_elements] [h2]
    exact .found hx ha hr
  | raised hx hr =>
    fuel 1
    fuel k
    sym [XmlToMathMLAdapter__mathml_elements] [h2]
    exact .raised hx hr
  | tired hx hl hr =>
    fuel 1
    fuel k
    sym [XmlToMathMLAdapter__mathml_elements] [h2, hl]
    exact .raised hx hr

/-- With a bound, if the text is accepted at once. -/
theorem run_mathmlElements_accepted {S : Store} {x b e d : Nat} {xml : Str} (h : Ready S x b e d xml) {dom : Doc}
    (hp : env.parse xml = .ok dom) :
    RunsBy 1 (fun n => call env n XmlToMathMLAdapter__mathml_elements [.obj x] [] S)
      (ReadRes (fun t S' => Ready S' x b e d t ∧ S.length ≤ S'.length) (mathmlElements env 5 none xml).1) := by
  have h1 := h.1
  have h2 : ∀ n, forOut (fun _ v l => (._, v) :: l) (execs ⟨env, call env n, n⟩ readBody) 0
      ((List.range (Int.toNat 5)).map fun (i : Nat) => Val.int i) [(.exception, .none), (.self, .obj x)] S =
      .ret (.obj S.length) (S ++ [.list ((mathElements dom).map .node)]) := by
    intro n
    rw [show (List.range (Int.toNat 5)).map (fun (i : Nat) => Val.int i) = .int 0 :: [.int 1, .int 2, .int 3, .int 4] from rfl, forOut]
    sym [] [h1, hp]
  rw [mathmlElements, hp]
  fuel 1
  sym [XmlToMathMLAdapter__mathml_elements] [h2]
  exact .found rfl (look_last _ rfl) ⟨h.app _, by simp⟩

/-! ## The elements of a document -/

mutual
theorem mathElementsOf_math : ∀ (n x : Node), x ∈ mathElementsOf n → ∃ ps cs, x = .elem c!"math" ps cs
  | .elem tag ps cs, x, h => by
    rw [mathElementsOf] at h
    rcases List.mem_append.1 h with h | h
    · split at h
      · next ht =>
        rw [ht] at h
        exact ⟨ps, cs, List.mem_singleton.1 h⟩
      · cases h
    · exact mathElements_math cs x h
  | .text _, _, h | .cdata _, _, h | .comment _, _, h | .pi _ _, _, h => by
    simp [mathElementsOf] at h
theorem mathElements_math : ∀ (ns : List Node) (x : Node), x ∈ mathElements ns →
    ∃ ps cs, x = .elem c!"math" ps cs
  | [], _, h => by simp [mathElements] at h
  | n :: ns, x, h => by
    rw [mathElements] at h
    rcases List.mem_append.1 h with h | h
    · exact mathElementsOf_math n x h
    · exact mathElements_math ns x h
end

theorem mathmlElements_math : ∀ (n : Nat) (o : Option Exc) (xml : Str) (nodes : List Node),
    (mathmlElements env n o xml).1 = .ok nodes → ∀ x ∈ nodes, ∃ ps cs, x = .elem c!"math" ps cs
  | 0, some e, xml, nodes, h => by cases h
  | 0, none, xml, nodes, h => by
    injection h with h
    rw [← h]
    simp
  | n + 1, o, xml, nodes, h => by
    rw [mathmlElements] at h
    split at h
    · next dom _ => injection h with h; rw [← h]; exact mathElements_math dom
    · split at h
      · cases h
      · exact mathmlElements_math n _ _ nodes h

/-- What the whole of `XmlToMathMLAdapter.convert` leaves: the elements of the model, and no
other dictionaries of attributes than theirs, made up of new objects; and the reader itself, with some text in it. -/
inductive Elements (m : Nat) (r : Str → Store → Prop) (x : Except Exc (List Node)) : Res Val → Prop
  | found {nodes : List Node} {φ : Nat → Nat} {H : Heap} {es : List Elem} {as : List Nat} {a : Nat} {t : Str} {S : Store}
      (hx : x = .ok nodes) (he : buildElems nodes Heap.empty = (es, H)) (hd : Dicts φ H.next H S)
      (hi : IsElems φ H.next S es as) (ha : S[a]? = some (.list (as.map .obj)))
      (hn : Ranges S m as) (hr : r t S) :
      Elements m r x (.ok (.obj a) S)
  | raised {e : Exc} {t : Str} {S : Store} (hx : x = .error e) (hr : r t S) : Elements m r x (.exc (.exc e) S)

/-- The whole of `XmlToMathMLAdapter.convert`, from a bound for the reading and one for the depth of what is read. -/
theorem run_reader_of {S : Store} {x b e d K : Nat} {xml0 : Str} (h : Ready S x b e d xml0) (xml : Str) (B : Nat)
    (hB : ∀ nodes, (Adapter.fresh.domElements env xml).1 = .ok nodes → Spec.levelsAll nodes ≤ B)
    (hrun : RunsBy K (fun n => call env n XmlToMathMLAdapter__mathml_elements [.obj x] []
        ((S.set x (readerObj (removeLineBreaks xml) b e)).set x (readerObj (removeMsWordPrefixes (removeLineBreaks xml)) b e)))
      (ReadRes (fun t S' => Ready S' x b e d t ∧
          ((S.set x (readerObj (removeLineBreaks xml) b e)).set x (readerObj (removeMsWordPrefixes (removeLineBreaks xml)) b e)).length ≤ S'.length)
        (mathmlElements env 5 none (removeMsWordPrefixes (removeLineBreaks xml))).1)) :
    RunsBy (max K (2 * B + 3) + 2) (fun n => call env n XmlToMathMLAdapter_convert [.obj x, .str xml] [] S)
      (Elements S.length (fun t S' => Ready S' x b e d t ∧ S.length ≤ S'.length) (Adapter.fresh.domElements env xml).1) := by
  have h1 := h.1
  have hr := (h.set (removeLineBreaks xml)).set (removeMsWordPrefixes (removeLineBreaks xml))
  have h2 := (h.set (removeLineBreaks xml)).1
  have h3 := hr.1
  have h4 := hr.2
  obtain ⟨_, hres, hk⟩ := hrun
  have hdom : (Adapter.fresh.domElements env xml).1 = (mathmlElements env 5 none (removeMsWordPrefixes (removeLineBreaks xml))).1 := rfl
  rw [hdom]
  cases hres with
  | raised hx hr' =>
    fuel 2
    fuel (max K (2 * B + 3))
    sym [XmlToMathMLAdapter_convert] [h1, h2, h3, h4, run_removeLineBreaks, run_removePrefixes, hk]
    exact .raised hx ⟨hr'.1, by have := hr'.2; simpa using this⟩
  | @found nodes a t S1 hx ha hr' =>
    have hb := hr'.1.2
    have hm := mathmlElements_math 5 none _ nodes hx
    have hf : nodes.filter Node.isElem = nodes := by
      rw [List.filter_eq_self]
      intro x hx
      obtain ⟨ps, cs, rfl⟩ := hm x hx
      rfl
    obtain ⟨φ, H, S2, es, as, q1, q2, q3, q4, q5, q7, q6⟩ := (builts (env := env) nodes).ok (φ := id) (H := Heap.empty)
      (l := [(.self, .obj b), (.els, .obj a)]) rfl hb (.of (fun r hr => absurd hr (Nat.not_lt_zero r)) fun r _ hr => absurd hr (Nat.not_lt_zero r))
    rw [hf] at q6
    have hle := hB nodes (hdom ▸ hx)
    have hbl := run_buildList (env := env) ha q6
    fuel 2
    fuel (max K (2 * B + 3))
    sym [XmlToMathMLAdapter_convert] [h1, h2, h3, h4, run_removeLineBreaks, run_removePrefixes, hk, hb, hbl]
    exact .found hx q1 (q3.app _) (q4.mono (.app _ _)) (look_last _ rfl)
      ((q7.mono (.app _ _) q4).low (by have := hr'.2; simpa using this)) ⟨(hr'.1.mono q2).app _, by have := hr'.2; have := q2.length; simp at *; omega⟩

theorem run_reader {S : Store} {x b e d : Nat} {xml0 : Str} (h : Ready S x b e d xml0) (xml : Str) :
    Runs (fun n => call env n XmlToMathMLAdapter_convert [.obj x, .str xml] [] S)
      (Elements S.length (fun t S' => Ready S' x b e d t ∧ S.length ≤ S'.length) (Adapter.fresh.domElements env xml).1) := by
  obtain ⟨r, hq, k, hk⟩ := run_mathmlElements (env := env)
    ((h.set (removeLineBreaks xml)).set (removeMsWordPrefixes (removeLineBreaks xml)))
  cases hx : (Adapter.fresh.domElements env xml).1 with
  | ok nodes => rw [← hx]; exact (run_reader_of h xml (Spec.levelsAll nodes) (fun ns h => by rw [hx] at h; cases h; exact Nat.le_refl _) ⟨r, hq, hk⟩).runs
  | error e => rw [← hx]; exact (run_reader_of h xml 0 (fun ns h => by rw [hx] at h; cases h) ⟨r, hq, hk⟩).runs

/-- The whole of `XmlToMathMLAdapter.convert`, with a bound on the fuel for a text that is accepted at once. -/
theorem run_reader_accepted {S : Store} {x b e d : Nat} {xml0 : Str} (h : Ready S x b e d xml0) (xml : Str) {dom : Doc}
    (hp : env.parse (removeMsWordPrefixes (removeLineBreaks xml)) = .ok dom) :
    RunsBy (2 * Spec.levelsAll (mathElements dom) + 5) (fun n => call env n XmlToMathMLAdapter_convert [.obj x, .str xml] [] S)
      (Elements S.length (fun t S' => Ready S' x b e d t ∧ S.length ≤ S'.length) (Adapter.fresh.domElements env xml).1) := by
  refine (run_reader_of h xml (Spec.levelsAll (mathElements dom)) (fun ns hx => ?_)
    (run_mathmlElements_accepted (env := env)
      ((h.set (removeLineBreaks xml)).set (removeMsWordPrefixes (removeLineBreaks xml))) hp)).le (by omega)
  have hdom : (Adapter.fresh.domElements env xml).1 = (mathmlElements env 5 none (removeMsWordPrefixes (removeLineBreaks xml))).1 := rfl
  rw [hdom, mathmlElements, hp] at hx
  cases hx
  exact Nat.le_refl _

end Verif.Src
