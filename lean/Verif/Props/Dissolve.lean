import Verif.Spec.Dissolve
import Verif.Props.Text
import Verif.Props.Context

/-! # Rows and annotations at the top (C65), and what matters about an element (C66) -/

namespace Verif
open Spec

/-! ## C65 -/

/-- The words of the LaTeX of some nodes. -/
def rowWords (b : Bool) (ns : List Node) : Except Exc (List Str) := do
  return ((← seqAll (outcomes b (kids ns))).map split).flatten

theorem rowWords_nil (b : Bool) : rowWords b [] = .ok [] := rfl

theorem rowWords_skip (b : Bool) {n : Node} (h : n.isElem = false) (ns : List Node) :
    rowWords b (n :: ns) = rowWords b ns := by
  unfold rowWords kids
  rw [List.filter_cons_of_neg (by simp [h])]

theorem rowWords_cons (b : Bool) {n : Node} (h : n.isElem = true) (ns : List Node) :
    rowWords b (n :: ns) =
      (do let s ← latexIn b n; let ws ← rowWords b ns; return split s ++ ws) := by
  have e : kids (n :: ns) = n :: kids ns := by simp [kids, h]
  unfold rowWords
  rw [e, seqAll_cons]
  cases latexIn b n with
  | error e => rfl
  | ok s => cases seqAll (outcomes b (kids ns)) <;> rfl

theorem rowWords_append (b : Bool) (ns ms : List Node) :
    rowWords b (ns ++ ms) =
      (do let ws ← rowWords b ns; let vs ← rowWords b ms; return ws ++ vs) := by
  unfold rowWords
  rw [kids_append, seqAll_append]
  cases seqAll (outcomes b (kids ns)) with
  | error e => rfl
  | ok ss =>
    cases seqAll (outcomes b (kids ms)) with
    | error e => rfl
    | ok ts =>
      show Except.ok _ = Except.ok _
      rw [List.map_append, List.flatten_append]

theorem rowWords_row (b : Bool) {tag : Str} (h : tag ∉ structured) (A : List (Str × Str))
    (cs : List Node) : (do let s ← latexIn b (.elem tag A cs); return split s : Except Exc _) =
      rowWords b cs := by
  rw [latexIn_row b A cs h]
  unfold rowWords
  cases seqAll (outcomes b (kids cs)) with
  | error e => rfl
  | ok ss =>
    show Except.ok _ = Except.ok _
    rw [split_join_flatten]

theorem Spec.Dissolved.words {ns ms : List Node} (h : Dissolved ns ms) (b : Bool) :
    rowWords b ns = rowWords b ms := by
  induction h with
  | nil => rfl
  | skip h _ ih => rw [rowWords_skip b h, ih]
  | @keep n ns ms _ ih =>
    by_cases hn : n.isElem = true
    · rw [rowWords_cons b hn, rowWords_cons b hn, ih]
    · have hn : n.isElem = false := by simpa using hn
      rw [rowWords_skip b hn, rowWords_skip b hn, ih]
  | @row tag A cs ks ns ms ht _ _ ih1 ih2 =>
    rw [rowWords_cons b rfl, rowWords_append, ← ih1, ← ih2, ← rowWords_row b ht A cs]
    cases latexIn b (.elem tag A cs) <;> rfl

theorem latexIn_math_words (b : Bool) (A : List (Str × Str)) (cs : List Node) :
    latexIn b (.elem c!"math" A cs) = (rowWords b cs).map (join c!" ") := by
  rw [latexIn_math]
  unfold rowWords
  cases seqAll (outcomes b (kids cs)) with
  | error e => rfl
  | ok ss =>
    show Except.ok _ = Except.ok _
    rw [← split_join_flatten]
    rfl

theorem Spec.Dissolved.elements {ns ms : List Node} (h : Dissolved ns ms) (t : Str)
    (ht : t ∈ structured) : (elements ns).filter (tagIs t) = (elements ms).filter (tagIs t) := by
  induction h with
  | nil => rfl
  | @skip n ns ms h _ ih =>
    have e : elementsOf n = [] := by cases n <;> first | rfl | cases h
    rw [Spec.elements, e, List.nil_append, ih]
  | keep _ ih => rw [Spec.elements, Spec.elements, List.filter_append, List.filter_append, ih]
  | @row tag A cs ks ns ms hs _ _ ih1 ih2 =>
    have hne : ¬ (tagIs t (.elem tag A cs) = true) := by
      simp only [tagIs, beq_iff_eq]
      rintro rfl
      exact hs ht
    rw [Spec.elements, elementsOf, elements_append, List.filter_append, List.filter_append,
      List.filter_cons_of_neg hne, ih1, ih2]

theorem weak_opened {n n' : Node} (h : Opened n n') : Weak n n' := by
  obtain ⟨h⟩ := h
  rename_i A cs ks
  have hl : ∀ b, latexIn b (.elem c!"math" A cs) = latexIn b (.elem c!"math" A ks) := fun b => by
    rw [latexIn_math_words, latexIn_math_words, h.words]
  refine ⟨rfl, hl, rfl, ?_, ?_⟩
  · have e := h.elements c!"mtable" (by decide)
    have any : ∀ ns : List Node, ns.any (tagIs c!"mtable") =
        !((ns.filter (tagIs c!"mtable")).isEmpty) := by
      intro ns
      induction ns with
      | nil => rfl
      | cons x ns ih => by_cases hx : tagIs c!"mtable" x = true <;> simp [hx, ih]
    simp only [tabled, elementsOf, List.any_cons]
    rw [any, any, e]
    rfl
  · have e : maths cs = maths ks := by
      have hm : ∀ n, isMath n = tagIs c!"math" n := by
        intro n; cases n <;> rfl
      have := h.elements c!"math" (by decide)
      unfold Spec.maths
      simpa only [funext hm] using this
    rw [maths_elem, maths_elem, if_pos rfl, if_pos rfl, List.map_append, List.map_append, e,
      List.map_cons, List.map_cons, hl false]

/-- **C65** Rows inside `math`, or inside other such rows, can be replaced by their content. -/
theorem C65_rows (env env' : Env) (x x' : Str) (d d' : Doc) (h : ParsesTo env x d)
    (h' : ParsesTo env' x' d') (hd : DocRel (Clos Opened) d d') : convert env x = convert env' x' := by
  refine convert_clos (fun _ _ => weak_opened) ?_ h h' hd
  rintro _ _ ⟨⟩
  exact ⟨rfl, rfl⟩

mutual
theorem dissolved_bare (n : Node) {ns ms : List Node} (h : Dissolved ns ms) :
    Dissolved (n :: ns) (bare n ++ ms) := by
  match n with
  | .text _ => exact .skip rfl h
  | .cdata _ => exact .skip rfl h
  | .comment _ => exact .skip rfl h
  | .pi _ _ => exact .skip rfl h
  | .elem tag A cs =>
    rw [bare]
    split
    · exact .keep h
    · rename_i ht
      exact .row ht (dissolved_bares cs) h
theorem dissolved_bares (ns : List Node) : Dissolved ns (bares ns) := by
  match ns with
  | [] => exact .nil
  | n :: ns =>
    rw [bares]
    exact dissolved_bare n (dissolved_bares ns)
end

/-- **C65** So a `math` element is rendered like the sequence of the elements with a meaning that are
left when all of these rows are dissolved. -/
theorem C65_normal_form (b : Bool) (A : List (Str × Str)) (cs : List Node) :
    latexIn b (.elem c!"math" A cs) = latexIn b (.elem c!"math" A (bares cs)) :=
  (weak_opened ⟨dissolved_bares cs⟩).latex b

theorem bares_append (ns ms : List Node) : bares (ns ++ ms) = bares ns ++ bares ms := by
  induction ns with
  | nil => rfl
  | cons n ns ih => simp [bares, ih]

mutual
theorem bare_quiet (n : Node) (h : Quiet n) : bare n = [] := by
  match n with
  | .text _ => rfl
  | .cdata _ => rfl
  | .comment _ => rfl
  | .pi _ _ => rfl
  | .elem tag A cs =>
    have h1 : tag ∉ structured := by
      intro ht
      have := h (.elem tag A cs) (by rw [elementsOf]; exact List.mem_cons_self) tag ht
      simp [tagIs] at this
    rw [bare, if_neg h1]
    exact bares_quiet cs fun m hm t ht => h m (by rw [elementsOf]; exact List.mem_cons_of_mem _ hm) t ht
theorem bares_quiet (ns : List Node)
    (h : ∀ m ∈ elements ns, ∀ t ∈ structured, tagIs t m = false) : bares ns = [] := by
  match ns with
  | [] => rfl
  | n :: ns =>
    rw [bares, bare_quiet n fun m hm => h m (by rw [elements]; exact List.mem_append_left _ hm),
      bares_quiet ns fun m hm => h m (by rw [elements]; exact List.mem_append_right _ hm)]
    rfl
end

/-- **C65** `semantics` around a formula, with annotations that have nothing to show, changes
nothing: neither the LaTeX nor the exception. -/
theorem C65_semantics (b : Bool) (A B : List (Str × Str)) (p : Node) (pre post : List Node)
    (hpre : ∀ n ∈ pre, Quiet n) (hpost : ∀ n ∈ post, Quiet n) :
    latexIn b (.elem c!"math" A [.elem c!"semantics" B (pre ++ p :: post)]) =
      latexIn b (.elem c!"math" A [p]) := by
  have q : ∀ ns : List Node, (∀ n ∈ ns, Quiet n) → bares ns = [] := by
    intro ns h
    induction ns with
    | nil => rfl
    | cons n ns ih =>
      rw [bares, bare_quiet n (h n (by simp)), ih fun m hm => h m (by simp [hm])]
      rfl
  rw [C65_normal_form b A [p], C65_normal_form]
  congr 2
  rw [bares, bare, if_neg (by decide), bares_append, q pre hpre]
  simp [bares, q post hpost]

/-- The same for whole documents: annotated formulas, as they are found on the web. -/
theorem C65_annotated (env env' : Env) (x x' : Str) (A B : List (Str × Str)) (p : Node)
    (post : List Node) (hm : maths [p] = []) (hpost : ∀ n ∈ post, Quiet n)
    (h : ParsesTo env x [.elem c!"math" A [.elem c!"semantics" B (p :: post)]])
    (h' : ParsesTo env' x' [.elem c!"math" A [p]]) : convert env x = convert env' x' := by
  have hq : ∀ ns : List Node, (∀ n ∈ ns, Quiet n) → maths ns = [] := by
    intro ns h
    induction ns with
    | nil => rfl
    | cons n ns ih =>
      rw [maths_cons, ih fun m hm => h m (by simp [hm]), List.append_nil]
      unfold Spec.maths
      rw [List.filter_eq_nil_iff]
      intro m hm
      have e : elements [n] = elementsOf n := by simp [elements]
      rw [e] at hm
      have := h n (by simp) m hm c!"math" (by decide)
      cases m <;> simp_all [isMath, tagIs]
  rw [h.convert, h'.convert, docResult_firstOrAll, docResult_firstOrAll]
  have e1 : maths [.elem c!"math" A [p]] = [.elem c!"math" A [p]] := by
    rw [maths_elem, if_pos rfl, hm]; rfl
  have e2 : maths [.elem c!"math" A [.elem c!"semantics" B (p :: post)]] =
      [.elem c!"math" A [.elem c!"semantics" B (p :: post)]] := by
    rw [maths_elem, if_pos rfl, maths_elem, if_neg (by decide), maths_cons, hm, hq post hpost]; rfl
  rw [e1, e2, List.map_cons, List.map_cons, show p :: post = [] ++ p :: post from rfl,
    C65_semantics false A B p [] post (by simp) hpost]

/-- The document of an encyclopedia: an annotation in TeX, and one in Content MathML. -/
example : latexIn false (.elem c!"math" [] [.elem c!"semantics" []
    [.elem c!"mrow" [] [.elem c!"mstyle" [] [.elem c!"mi" [] [.text c!"E"],
        .elem c!"mo" [] [.text c!"="]], .elem c!"mi" [] [.text c!"m"]],
      .elem c!"annotation" [(c!"encoding", c!"application/x-tex")] [.text c!"E=m"],
      .elem c!"annotation-xml" [] [.elem c!"apply" [] [.elem c!"eq" [] [],
        .elem c!"ci" [] [.text c!"E"], .elem c!"ci" [] [.text c!"m"]]]]]) =
    .ok c!"E = m" := by decide +kernel

example : Quiet (.elem c!"annotation-xml" [] [.elem c!"apply" [] [.elem c!"eq" [] [],
    .elem c!"ci" [] [.text c!"E"], .elem c!"ci" [] [.text c!"m"]]]) := by
  unfold Quiet
  simp only [elementsOf, elements]
  decide

/-- **C65** An annotation in Presentation MathML is not quiet: the formula is written twice. -/
theorem C65_presentation_twice (b : Bool) (A B C : List (Str × Str)) (s : Str)
    (cs : List Node) (h : latexIn b (.elem c!"math" [] cs) = .ok s) (hs : s ≠ []) :
    latexIn b (.elem c!"math" A [.elem c!"semantics" B [.elem c!"mrow" [] cs,
      .elem c!"annotation-xml" C cs]]) = .ok (s ++ c!" " ++ s) := by
  rw [latexIn_math_words] at h ⊢
  have e : Dissolved [.elem c!"semantics" B [.elem c!"mrow" [] cs, .elem c!"annotation-xml" C cs]]
      (bares cs ++ bares cs) := by
    have hb := dissolved_bares cs
    have := Dissolved.row (tag := c!"semantics") (A := B) (by decide)
      (Dissolved.row (tag := c!"mrow") (A := []) (by decide) hb
        (Dissolved.row (tag := c!"annotation-xml") (A := C) (by decide) hb .nil)) .nil
    simpa using this
  rw [(dissolved_bares cs).words] at h
  rw [e.words, rowWords_append]
  cases hw : rowWords b (bares cs) with
  | error e => rw [hw] at h; cases h
  | ok ws =>
    rw [hw] at h
    have h : join c!" " ws = s := Except.ok.inj h
    show Except.ok _ = Except.ok _
    have hne : ws ≠ [] := by rintro rfl; exact hs h.symm
    rw [join_append hne hne, h]

/-- **C65** Away from the top a blank remains, and in the base of a script there are parentheses. -/
theorem C65_only_at_the_top :
    latexIn false (.elem c!"math" [] [.elem c!"msqrt" [] [.elem c!"semantics" []
      [.elem c!"mi" [] [.text c!"x"], .elem c!"annotation" [] [.text c!"x"]]]]) =
      .ok c!"\\sqrt{x }" ∧
    latexIn false (.elem c!"math" [] [.elem c!"msup" [] [.elem c!"semantics" []
      [.elem c!"mi" [] [.text c!"x"], .elem c!"annotation" [] [.text c!"x"]],
      .elem c!"mn" [] [.text c!"2"]]]) = .ok c!"\\left(x \\right)^{2}" := by decide +kernel

/-! ## C66 -/

/-- **C66** Elements with the same LaTeX can be exchanged anywhere, any number of times, if they agree
in what else matters. -/
theorem C66_compositional (env env' : Env) (x x' : Str) (d d' : Doc) (h : ParsesTo env x d)
    (h' : ParsesTo env' x' d') (hd : DocRel (Cong Interchangeable) d d') :
    convert env x = convert env' x' := by
  refine convert_cong ?_ (fun _ _ h => h.elems) h h' hd
  intro n n' h
  refine ⟨⟨h.elems.1.trans h.elems.2.symm, h.latex, h.mark, ?_, by rw [h.maths.1, h.maths.2]⟩,
    baseLatex_eq h.latex (.inl h.wide)⟩
  unfold tabled
  rw [Bool.eq_iff_iff, List.any_eq_true, List.any_eq_true]
  exact h.table

/-- A Greek letter and its name, in a fence. -/
example : DocRel (Cong Interchangeable)
    (inMath (.elem c!"mfenced" [] [.elem c!"mi" [] [.text c!"α"]]))
    (inMath (.elem c!"mfenced" [] [.elem c!"mo" [(c!"form", c!"prefix")] [.text c!"\\alpha"]])) := by
  refine docRel_inMath (.elem rfl fun p hp => ?_)
  simp only [List.zip_cons_cons, List.zip_nil_left, List.mem_singleton] at hp
  subst hp
  refine .base ⟨⟨rfl, rfl⟩, by decide +kernel, by decide, ?_, ?_, rfl, rfl⟩
  · simp only [elementsOf, elements]; decide
  · unfold wide; decide

/-- **C66** Each of the four conditions besides the LaTeX is needed. -/
theorem C66_conditions_needed :
    -- the mark between scripts
    (docResult (inMath (.elem c!"mmultiscripts" [] [.elem c!"mi" [] [.text c!"x"],
        .elem c!"mprescripts" [] [], .elem c!"mi" [] [.text c!"a"], .elem c!"mi" [] [.text c!"b"]])) ≠
      docResult (inMath (.elem c!"mmultiscripts" [] [.elem c!"mi" [] [.text c!"x"],
        .elem c!"none" [] [], .elem c!"mi" [] [.text c!"a"], .elem c!"mi" [] [.text c!"b"]]))) ∧
    -- a table
    (docResult (inMath (.elem c!"mfenced" [] [.elem c!"mphantom" [] [.elem c!"mtable" [] []]])) ≠
      docResult (inMath (.elem c!"mfenced" [] [.elem c!"mphantom" [] []]))) ∧
    -- two children
    (docResult (inMath (.elem c!"msup" [] [.elem c!"mi" [] [.text c!"x y"], .elem c!"none" [] []])) ≠
      docResult (inMath (.elem c!"msup" [] [.elem c!"mrow" [] [.elem c!"mi" [] [.text c!"x"],
        .elem c!"mi" [] [.text c!"y"]], .elem c!"none" [] []]))) ∧
    -- `math` inside
    (docResult (inMath (.elem c!"math" [] [.elem c!"mi" [] [.text c!"x"]])) ≠
      docResult (inMath (.elem c!"mi" [] [.text c!"x"]))) := by
  simp only [docResult_eq]
  decide +kernel

/-- The LaTeX of the exchanged elements is the same in each of these cases. -/
example : ∀ b,
    latexIn b (.elem c!"mprescripts" [] []) = latexIn b (.elem c!"none" [] []) ∧
    latexIn b (.elem c!"mphantom" [] [.elem c!"mtable" [] []]) =
      latexIn b (.elem c!"mphantom" [] []) ∧
    latexIn b (.elem c!"mi" [] [.text c!"x y"]) = latexIn b (.elem c!"mrow" []
      [.elem c!"mi" [] [.text c!"x"], .elem c!"mi" [] [.text c!"y"]]) ∧
    latexIn b (.elem c!"math" [] [.elem c!"mi" [] [.text c!"x"]]) =
      latexIn b (.elem c!"mi" [] [.text c!"x"]) := by decide +kernel

end Verif
