import Verif.Lemmas.Context
import Verif.Props.Layout

/-!
# Parts of documents that do not matter (C16, C17, C18, C19, C20, C21, C33, C34)

Each theorem is about any number of replacements at any depth, and about the outcome of the API,
exceptions included.
-/

namespace Verif
open Spec

theorem Spec.ParsesTo.convert {env : Env} {x : Str} {d : Doc} (h : ParsesTo env x d) :
    convert env x = docResult d := by
  obtain ⟨n, y, hn, hc, hp⟩ := h
  exact C06_first_success env x y n d hn hc hp

theorem convert_cong {R : Node → Node → Prop} (hR : ∀ n n', R n n' → Strong n n')
    (hE : OnElems R) {env env' : Env} {x x' : Str} {d d' : Doc} (h : ParsesTo env x d)
    (h' : ParsesTo env' x' d') (hd : DocRel (Cong R) d d') : convert env x = convert env' x' := by
  rw [h.convert, h'.convert]
  exact docResult_cong hR hE hd.1 hd.2

theorem convert_clos {R : Node → Node → Prop} (hR : ∀ n n', R n n' → Weak n n')
    (hE : OnElems R) {env env' : Env} {x x' : Str} {d d' : Doc} (h : ParsesTo env x d)
    (h' : ParsesTo env' x' d') (hd : DocRel (Clos R) d d') : convert env x = convert env' x' := by
  rw [h.convert, h'.convert]
  exact docResult_clos hR hE hd.1 hd.2

theorem weak_refl_all (ns : List Node) : All2 Weak ns ns := All2.refl Weak.refl ns

/-- A document with one `math` element with one child. -/
def inMath (n : Node) : Doc := [.elem c!"math" [] [n]]

/-- The examples replace one node below `math`. -/
theorem docRel_inMath {R : Node → Node → Prop} {n n' : Node} (h : Cong R n n') :
    DocRel (Cong R) (inMath n) (inMath n') := by
  refine ⟨rfl, fun p hp => ?_⟩
  simp only [inMath, List.zip_cons_cons, List.zip_nil_left, List.mem_singleton] at hp
  subst hp
  refine .elem rfl fun p hp => ?_
  simp only [List.zip_cons_cons, List.zip_nil_left, List.mem_singleton] at hp
  subst hp
  exact h

/-! ## C18 -/

instance (A : List (Str × Str)) : Decidable (DistinctNames A) := by
  unfold DistinctNames; infer_instance

theorem attr?_of_mem {A : List (Str × Str)} (hA : DistinctNames A) {k v : Str} (h : (k, v) ∈ A) :
    attr? A k = some (if v = k then [] else v) := by
  unfold attr?
  have hf : A.reverse.find? (fun p => p.1 = k) = some (k, v) := by
    cases e : A.reverse.find? (fun p => p.1 = k) with
    | none =>
      have := List.find?_eq_none.1 e (k, v) (by simpa using h)
      simp at this
    | some p =>
      have h1 := List.find?_some e
      have h2 := List.mem_of_find?_eq_some e
      simp only [decide_eq_true_eq] at h1
      rw [List.mem_reverse] at h2
      have : p.2 = v := by
        clear e
        unfold DistinctNames at hA
        induction A with
        | nil => cases h
        | cons q A ih =>
          rw [List.map_cons, List.nodup_cons] at hA
          rcases List.mem_cons.1 h with rfl | h'
          · rcases List.mem_cons.1 h2 with rfl | h2
            · rfl
            · exact absurd (List.mem_map.2 ⟨p, h2, h1⟩) hA.1
          · rcases List.mem_cons.1 h2 with rfl | h2
            · exact absurd (List.mem_map.2 ⟨(k, v), h', h1.symm⟩ : p.1 ∈ A.map Prod.fst) hA.1
            · exact ih hA.2 h' h2
      rw [← this, ← h1]
  rw [hf]; rfl

theorem attr?_of_not_mem {A : List (Str × Str)} {k : Str} (h : ∀ v, (k, v) ∉ A) :
    attr? A k = none := by
  unfold attr?
  rw [List.find?_eq_none.2, Option.map_none]
  intro p hp
  simp only [decide_eq_true_eq]
  rintro rfl
  exact h p.2 (by simpa using hp)

theorem attr_agree {A A' : List (Str × Str)} (hA : DistinctNames A) (hA' : DistinctNames A')
    {k : Str} (h : ∀ v, (k, v) ∈ A ↔ (k, v) ∈ A') : attr A k = attr A' k := by
  unfold attr
  by_cases e : ∃ v, (k, v) ∈ A
  · obtain ⟨v, hv⟩ := e
    rw [attr?_of_mem hA hv, attr?_of_mem hA' ((h v).1 hv)]
  · rw [attr?_of_not_mem fun v hv => e ⟨v, hv⟩, attr?_of_not_mem fun v hv => e ⟨v, (h v).2 hv⟩]

/-- **C18** Attributes other than those listed for the element, and the order of attributes, do
not matter. -/
theorem C18_attributes (env env' : Env) (x x' : Str) (d d' : Doc) (h : ParsesTo env x d)
    (h' : ParsesTo env' x' d') (hd : DocRel (Cong SameAttrs) d d') : convert env x = convert env' x' := by
  refine convert_cong ?_ ?_ h h' hd
  · rintro _ _ ⟨h1, h2, h3⟩
    exact strong_elem (fun k hk => attr_agree h1 h2 (h3 k hk)) (fun _ => rfl) (weak_refl_all _)
      (fun _ x x' e e' _ => by rw [e] at e'; cases e'; rfl)
  · rintro _ _ ⟨_, _, _⟩
    exact ⟨rfl, rfl⟩

/-- **C18** Every attribute listed does matter, for some element with that name. -/
theorem C18_recognised : ∀ tag k, k ∈ recognised tag → ∃ (v : Str) (cs : List Node),
    latexIn false (.elem tag [(k, v)] cs) ≠ latexIn false (.elem tag [] cs) := by
  intro tag k hk
  unfold recognised at hk
  split at hk
  · rename_i h
    simp only [List.mem_cons, List.not_mem_nil, or_false] at hk
    subst hk
    rcases h with rfl | rfl
    · exact ⟨c!"bold", [.text c!"x"], by decide +kernel⟩
    · exact ⟨c!"bold", [.text c!"x"], by decide +kernel⟩
  · split at hk
    · rename_i h
      subst h
      simp only [List.mem_cons, List.not_mem_nil, or_false] at hk
      rcases hk with rfl | rfl | rfl
      · exact ⟨c!"[", [], by decide +kernel⟩
      · exact ⟨c!"]", [], by decide +kernel⟩
      · exact ⟨c!";", [.elem c!"mi" [] [], .elem c!"mi" [] []], by decide +kernel⟩
    · split at hk
      · rename_i h
        subst h
        simp only [List.mem_cons, List.not_mem_nil, or_false] at hk
        subst hk
        exact ⟨c!"true", [.elem c!"mi" [] [], .elem c!"mi" [] []], by decide +kernel⟩
      · split at hk
        · rename_i h
          subst h
          simp only [List.mem_cons, List.not_mem_nil, or_false] at hk
          subst hk
          exact ⟨c!"tooltip", [.elem c!"mi" [] [], .elem c!"mi" [] []], by decide +kernel⟩
        · split at hk
          · rename_i h
            subst h
            simp only [List.mem_cons, List.not_mem_nil, or_false] at hk
            subst hk
            exact ⟨c!"box", [], by decide +kernel⟩
          · split at hk
            · rename_i h
              subst h
              simp only [List.mem_cons, List.not_mem_nil, or_false] at hk
              subst hk
              exact ⟨c!"x", [], by decide +kernel⟩
            · cases hk

/-- Attributes that change, appear, disappear and are reordered, inside a table. -/
example : DocRel (Cong SameAttrs)
    (inMath (.elem c!"mfenced" [(c!"open", c!"["), (c!"class", c!"a"), (c!"close", c!"]")]
      [.elem c!"mi" [(c!"mathvariant", c!"bold")] [.text c!"x"]]))
    (inMath (.elem c!"mfenced" [(c!"close", c!"]"), (c!"open", c!"[")]
      [.elem c!"mi" [(c!"id", c!"i"), (c!"mathvariant", c!"bold")] [.text c!"x"]])) := by
  refine docRel_inMath (.trans (.base ⟨by decide, by decide, ?_⟩) (.elem rfl ?_))
  · intro k hk v
    simp only [recognised] at hk
    simp at hk
    rcases hk with rfl | rfl | rfl <;> simp
  · intro p hp
    simp only [List.zip_cons_cons, List.zip_nil_left, List.mem_singleton] at hp
    subst hp
    refine .base ⟨by decide, by decide, ?_⟩
    intro k hk v
    simp [recognised] at hk
    subst hk
    simp

/-! ## C21 -/

theorem attr_selfNamed (A B : List (Str × Str)) (k k' : Str) :
    attr (A ++ (k, k) :: B) k' = attr (A ++ (k, []) :: B) k' := by
  unfold attr attr?
  have e : ∀ v : Str, (A ++ (k, v) :: B).reverse = B.reverse ++ ((k, v) :: A.reverse) := by simp
  rw [e, e, List.find?_append, List.find?_append]
  cases B.reverse.find? (fun p => p.1 = k') with
  | some p => rfl
  | none =>
    rw [Option.none_or, Option.none_or, List.find?_cons, List.find?_cons]
    by_cases h : k = k'
    · subst h; simp
    · simp [h]

/-- **C21** An attribute whose value is its own name behaves like one with an empty value. -/
theorem C21_self_named (env env' : Env) (x x' : Str) (d d' : Doc) (h : ParsesTo env x d)
    (h' : ParsesTo env' x' d') (hd : DocRel (Cong SelfNamed) d d') : convert env x = convert env' x' := by
  refine convert_cong ?_ ?_ h h' hd
  · rintro _ _ ⟨⟩
    exact strong_elem (fun k _ => attr_selfNamed _ _ _ k) (fun _ => rfl) (weak_refl_all _)
      (fun _ x x' e e' _ => by rw [e] at e'; cases e'; rfl)
  · rintro _ _ ⟨⟩
    exact ⟨rfl, rfl⟩

/-- `open="open"` is rendered with the default bracket, although `open="o"` is not. -/
example : docResult (inMath (.elem c!"mfenced" [(c!"open", c!"open")] [])) =
    docResult (inMath (.elem c!"mfenced" [(c!"open", c!"")] [])) ∧
    docResult (inMath (.elem c!"mfenced" [(c!"open", c!"open")] [])) ≠
    docResult (inMath (.elem c!"mfenced" [(c!"open", c!"o")] [])) := by
  constructor
  · have hd : DocRel (Cong SelfNamed) (inMath (.elem c!"mfenced" [(c!"open", c!"open")] []))
        (inMath (.elem c!"mfenced" [(c!"open", c!"")] [])) :=
      docRel_inMath (.base (SelfNamed.mk (A := []) (B := [])))
    exact C21_self_named _ _ _ _ _ _ ⟨0, _, by decide, .first, rfl⟩ ⟨0, _, by decide, .first, rfl⟩ hd
  · rw [docResult_eq, docResult_eq]; decide +kernel

/-! ## C19 -/

theorem tokenData_kids {cs : List Node} (h : kids cs ≠ []) : tokenData cs = [] := by
  unfold tokenData
  rw [if_pos]
  cases e : kids cs with
  | nil => exact absurd e h
  | cons n ns =>
    obtain ⟨h1, h2⟩ := mem_kids.1 (e ▸ List.mem_cons_self : n ∈ kids cs)
    exact ⟨n, h1, h2⟩

/-- **C19** In an element with element children the other nodes do not matter. -/
theorem C19_surroundings (env env' : Env) (x x' : Str) (d d' : Doc) (h : ParsesTo env x d)
    (h' : ParsesTo env' x' d') (hd : DocRel (Cong SameKids) d d') : convert env x = convert env' x' := by
  refine convert_cong ?_ ?_ h h' hd
  · rintro _ _ ⟨hk, hne⟩
    refine strong_elem (fun _ _ => rfl) (fun _ => ?_) (hk ▸ weak_refl_all _) ?_
    · rw [tokenData_kids hne, tokenData_kids (hk ▸ hne)]
    · intro _ x x' e e' _
      rw [hk, e'] at e
      cases e; rfl
  · rintro _ _ ⟨⟩
    exact ⟨rfl, rfl⟩

/-- **C19** Nor do they outside the root element. -/
theorem C19_prolog (env env' : Env) (x x' : Str) (d d' : Doc) (h : ParsesTo env x d)
    (h' : ParsesTo env' x' d') (hd : kids d = kids d') : convert env x = convert env' x' := by
  rw [h.convert, h'.convert]
  exact docResult_congr (hd ▸ weak_refl_all _)

example : DocRel (Cong SameKids)
    (inMath (.elem c!"msqrt" [] [.text c!"\n  ", .elem c!"mi" [] [.text c!"x"], .comment c!"no"]))
    (inMath (.elem c!"msqrt" [] [.cdata c!"y", .pi c!"a" c!"b", .elem c!"mi" [] [.text c!"x"]])) :=
  docRel_inMath (.base ⟨rfl, by decide⟩)

/-- **C19** The condition is needed: in an element without element children they do matter. -/
theorem C19_needs_children : docResult (inMath (.elem c!"mi" [] [.text c!"x"])) ≠
    docResult (inMath (.elem c!"mi" [] [])) := by
  rw [docResult_eq, docResult_eq]; decide +kernel

/-! ## C20 -/

theorem tokenData_first {n : Node} {ns : List Node} (h : kids (n :: ns) = []) :
    tokenData (n :: ns) = dataOf n := by
  have hne : ¬ ∃ m ∈ n :: ns, m.isElem = true := by
    rintro ⟨m, hm, e⟩
    have := mem_kids.2 ⟨hm, e⟩
    rw [h] at this
    cases this
  unfold tokenData
  rw [if_neg hne]
  cases n <;> rfl

theorem strip_strip (s : Str) : strip (strip s) = strip s := by
  have h1 : ∀ t : Str, lstrip (lstrip t) = lstrip t := by
    intro t
    apply lstrip_eq
    intro c u e
    unfold lstrip at e
    induction t with
    | nil => cases e
    | cons a t ih =>
      rw [List.dropWhile_cons] at e
      split at e
      · exact ih e
      · rename_i ha
        cases e
        simpa using ha
  have h2 : ∀ t : Str, rstrip (rstrip t) = rstrip t := by
    intro t
    have := h1 t.reverse
    unfold rstrip
    unfold lstrip at this
    rw [List.reverse_reverse, this]
  unfold strip
  have h3 : lstrip (rstrip (lstrip s)) = rstrip (lstrip s) := by
    apply lstrip_eq
    intro c t e
    obtain ⟨u, hu, _⟩ := rstrip_append (lstrip s)
    rw [e] at hu
    have hl := h1 s
    rw [hu] at hl
    unfold lstrip at hl
    rw [List.cons_append, List.dropWhile_cons] at hl
    by_cases hc : isSpace c = true
    · rw [if_pos hc] at hl
      have := congrArg List.length hl
      have hle := (List.dropWhile_suffix isSpace (l := t ++ u)).length_le
      rw [this] at hle
      simp at hle
      omega
    · simpa using hc
  rw [h3, h2]

/-- **C20** In an element without element children only the data of the first child node matter,
up to whitespace at its ends, whatever kind of node it is. -/
theorem C20_first_child (env env' : Env) (x x' : Str) (d d' : Doc) (h : ParsesTo env x d)
    (h' : ParsesTo env' x' d') (hd : DocRel (Cong FirstOnly) d d') : convert env x = convert env' x' := by
  refine convert_cong ?_ ?_ h h' hd
  · rintro _ _ ⟨hk⟩
    refine strong_elem (fun _ _ => rfl) (fun _ => ?_) ?_ ?_
    · rw [tokenData_first hk, tokenData_first rfl, dataOf, strip_strip]
    · rw [hk]; exact .nil
    · intro _ x x' e
      rw [hk] at e
      cases e
  · rintro _ _ ⟨⟩
    exact ⟨rfl, rfl⟩

/-- **C20** A comment cuts the text short. -/
theorem C20_cut : docResult (inMath (.elem c!"mn" [] [.text c!"12", .comment c!"a", .text c!"34"])) =
    .ok c!"12" := by
  rw [docResult_eq]; decide +kernel

/-- **C20** A leading comment is shown, whatever it says. -/
theorem C20_comment_leaks (s : Str) (rest : List Node) (h : kids rest = []) :
    docResult (inMath (.elem c!"mn" [] (.comment s :: rest))) =
      docResult (inMath (.elem c!"mn" [] [.text (strip s)])) :=
  C20_first_child _ _ _ _ _ _ ⟨0, _, by decide, .first, rfl⟩ ⟨0, _, by decide, .first, rfl⟩
    (docRel_inMath (.base ⟨h⟩))

example : docResult (inMath (.elem c!"mn" [] [.comment c!" secret ", .text c!"34"])) =
    .ok c!"secret" := by
  rw [C20_comment_leaks _ _ rfl, docResult_eq]; decide +kernel

/-! ## C34 -/

theorem recognised_row {tag : Str} (h : tag ∉ structured) : recognised tag = [] := by
  unfold recognised
  have h1 : ∀ t ∈ structured, tag ≠ t := fun t ht e => h (e ▸ ht)
  rw [if_neg, if_neg (h1 _ (by decide)), if_neg (h1 _ (by decide)), if_neg (h1 _ (by decide)),
    if_neg (h1 _ (by decide)), if_neg (h1 _ (by decide))]
  rintro (e | e)
  · exact h1 _ (by decide) e
  · exact h1 _ (by decide) e

theorem tagIs_row {tag t : Str} (h : tag ∉ structured) (ht : t ∈ structured) :
    (tag == t) = false := by
  simp only [beq_eq_false_iff_ne]
  rintro rfl
  exact h ht

theorem strong_renamed {n n' : Node} (h : Renamed n n') : Strong n n' := by
  obtain ⟨h1, h2, h3, h4⟩ := h
  rename_i tag tag' A A' cs
  have hl : ∀ b, latexIn b (.elem tag A cs) = latexIn b (.elem tag' A' cs) := fun b => by
    rw [latexIn_row b A cs h1, latexIn_row b A' cs h2]
  refine ⟨⟨rfl, hl, ?_, ?_, ?_⟩, ?_⟩
  · simp only [isPre, tagIs]
    rw [beq_eq_false_iff_ne.2 h3, beq_eq_false_iff_ne.2 h4]
  · simp only [tabled, elementsOf, List.any_cons, tagIs]
    rw [tagIs_row h1 (by decide), tagIs_row h2 (by decide)]
  · have e1 : tag ≠ c!"math" := fun e => h1 (e ▸ by decide)
    have e2 : tag' ≠ c!"math" := fun e => h2 (e ▸ by decide)
    rw [maths_elem, maths_elem, if_neg e1, if_neg e2]
  · exact baseLatex_eq hl (.inl Iff.rfl)

/-- **C34** Names without a meaning, `mrow` among them, can be exchanged. -/
theorem C34_unknown (env env' : Env) (x x' : Str) (d d' : Doc) (h : ParsesTo env x d)
    (h' : ParsesTo env' x' d') (hd : DocRel (Cong Renamed) d d') : convert env x = convert env' x' := by
  refine convert_cong (fun _ _ => strong_renamed) ?_ h h' hd
  rintro _ _ ⟨⟩
  exact ⟨rfl, rfl⟩

/-- **C34** Without element children they are rendered as nothing. -/
theorem C34_empty (b : Bool) (tag : Str) (A : List (Str × Str)) (cs : List Node)
    (h : tag ∉ structured) (hk : kids cs = []) : latexIn b (.elem tag A cs) = .ok [] := by
  rw [latexIn_row b A cs h, hk]; rfl

example : DocRel (Cong Renamed)
    (inMath (.elem c!"mrow" [] [.elem c!"mi" [] [.text c!"x"], .elem c!"mspace" [] []]))
    (inMath (.elem c!"semantics" [] [.elem c!"mi" [] [.text c!"x"], .elem c!"mstyle" [] []])) := by
  refine docRel_inMath (.trans (.base (.mk (tag' := c!"semantics") (A' := []) (by decide)
    (by decide) (by decide) (by decide))) (.elem rfl ?_))
  intro p hp
  simp only [List.zip_cons_cons, List.zip_nil_left, List.mem_cons, List.not_mem_nil, or_false] at hp
  rcases hp with rfl | rfl
  · exact .refl
  · exact .base ⟨by decide, by decide, by decide, by decide⟩

/-- **C34** `mprescripts` is different. -/
theorem C34_mprescripts : docResult (inMath (.elem c!"mmultiscripts" []
      [.elem c!"mi" [] [.text c!"x"], .elem c!"mprescripts" [] [], .elem c!"mi" [] [.text c!"a"],
       .elem c!"mi" [] [.text c!"b"]])) ≠
    docResult (inMath (.elem c!"mmultiscripts" []
      [.elem c!"mi" [] [.text c!"x"], .elem c!"none" [] [], .elem c!"mi" [] [.text c!"a"],
       .elem c!"mi" [] [.text c!"b"]])) := by
  rw [docResult_eq, docResult_eq]; decide +kernel

/-! ## C16 -/

theorem hasTable_bool {cs cs' : List Node} (h : HasTable cs ↔ HasTable cs') :
    (elements cs).any (tagIs c!"mtable") = (elements cs').any (tagIs c!"mtable") := by
  rw [Bool.eq_iff_iff, List.any_eq_true, List.any_eq_true]
  exact h

/-- **C16** What `mphantom` contains does not matter, if it contains no `math`, and tables only
if it contained tables before. -/
theorem C16_phantom (env env' : Env) (x x' : Str) (d d' : Doc) (h : ParsesTo env x d)
    (h' : ParsesTo env' x' d') (hd : DocRel (Cong PhantomContent) d d') :
    convert env x = convert env' x' := by
  refine convert_cong ?_ ?_ h h' hd
  · rintro _ _ ⟨h1, h2, h3⟩
    have hl : ∀ A A' cs cs' b, latexIn b (.elem c!"mphantom" A cs) =
        latexIn b (.elem c!"mphantom" A' cs') := fun A A' cs cs' b => by
      rw [latexIn_mphantom, latexIn_mphantom]
    refine ⟨⟨rfl, hl _ _ _ _, rfl, ?_, ?_⟩, baseLatex_eq (hl _ _ _ _) (.inr ⟨rfl, rfl⟩)⟩
    · simp only [tabled, elementsOf, List.any_cons, tagIs]
      rw [hasTable_bool h3]
    · rw [maths_elem, maths_elem, h1, h2]; rfl
  · rintro _ _ ⟨⟩
    exact ⟨rfl, rfl⟩

/-- Invalid content instead of valid content, under a script. -/
example : DocRel (Cong PhantomContent)
    (inMath (.elem c!"msup" [] [.elem c!"mphantom" [] [.elem c!"mi" [] [.text c!"x"]],
      .elem c!"mn" [] [.text c!"2"]]))
    (inMath (.elem c!"msup" [] [.elem c!"mphantom" [(c!"id", c!"p")] [.elem c!"mfrac" [] []],
      .elem c!"mn" [] [.text c!"2"]])) := by
  refine docRel_inMath (.elem rfl ?_)
  intro p hp
  simp only [List.zip_cons_cons, List.zip_nil_left, List.mem_cons, List.not_mem_nil, or_false] at hp
  rcases hp with rfl | rfl
  · refine .base ⟨by decide, by decide, ?_⟩
    simp [HasTable, elements, elementsOf, tagIs]
  · exact .refl

/-- **C16** The first proviso is needed: a table hidden in a phantom changes the enclosing fence. -/
theorem C16_hidden_table : docResult (inMath (.elem c!"mfenced" []
      [.elem c!"mphantom" [] [.elem c!"mtable" [] []]])) ≠
    docResult (inMath (.elem c!"mfenced" [] [.elem c!"mphantom" [] []])) := by
  rw [docResult_eq, docResult_eq]; decide +kernel

/-- **C16** So is the second: a `math` element in a phantom is rendered on its own. -/
theorem C16_hidden_math : docResult (inMath (.elem c!"mphantom" []
      [.elem c!"math" [] [.elem c!"mi" [] [.text c!"x"]]])) = .ok c!"x" ∧
    docResult (inMath (.elem c!"mphantom" [] [])) = .ok [] := by
  rw [docResult_eq, docResult_eq]; decide +kernel

/-! ## C17 -/

theorem weak_unselected {n n' : Node} (h : UnselectedWeak n n') : Weak n n' := by
  obtain ⟨ht, h1, h2, h3, h4, h5⟩ := h
  refine ⟨rfl, fun b => ?_, rfl, ?_, ?_⟩
  · rw [latexIn_maction, latexIn_maction, if_neg ht, if_neg ht, h1, h2]
  · simp only [tabled, elementsOf, List.any_cons, tagIs]
    rw [hasTable_bool h5]
  · rw [maths_elem, maths_elem, if_neg (by decide), if_neg (by decide), List.nil_append,
      List.nil_append]
    rw [maths_kids, h1, List.flatMap_cons]
    rename_i cs cs' x ks ks'
    have e : ∀ l : List Node, kids (kids l) = kids l := by simp [kids]
    have hs : ∀ l : List Node, maths l = [] → kids l = l → l.flatMap (fun n => maths [n]) = [] := by
      intro l h0 hl
      rw [maths_kids, hl] at h0
      exact h0
    have k1 : kids ks = ks := by
      have := e cs; rw [h1] at this
      have hx : x.isElem = true := (mem_kids.1 (h1 ▸ List.mem_cons_self : x ∈ kids cs)).2
      simpa [kids, hx] using this
    have k2 : kids ks' = ks' := by
      have := e cs'; rw [h2] at this
      have hx : x.isElem = true := (mem_kids.1 (h2 ▸ List.mem_cons_self : x ∈ kids cs')).2
      simpa [kids, hx] using this
    rw [hs ks h3 k1, maths_kids cs', h2, List.flatMap_cons, hs ks' h4 k2]

/-- **C17** The children that `maction` does not select do not matter, not even as causes of
failure, if they contain no `math`, and tables only if there were tables before, and if there were
any of them. -/
theorem C17_unselected (env env' : Env) (x x' : Str) (d d' : Doc) (h : ParsesTo env x d)
    (h' : ParsesTo env' x' d') (hd : DocRel (Cong Unselected) d d') :
    convert env x = convert env' x' := by
  refine convert_cong ?_ ?_ h h' hd
  · rintro _ _ ⟨ht, h1, h2, h3, h4, h5, h6⟩
    have hw := weak_unselected ⟨ht, h1, h2, h3, h4, h5⟩
    refine ⟨hw, baseLatex_eq hw.latex (.inl ?_)⟩
    unfold wide
    rw [childElems, childElems, h1, h2]
    rename_i ks ks'
    cases ks with
    | nil => rw [h6.1 rfl]
    | cons a as =>
      cases ks' with
      | nil => simp at h6
      | cons b bs => simp
  · rintro _ _ ⟨⟩
    exact ⟨rfl, rfl⟩

/-- **C17** Except for bases of scripts, they can also be left out. -/
theorem C17_unselected_removed (env env' : Env) (x x' : Str) (d d' : Doc) (h : ParsesTo env x d)
    (h' : ParsesTo env' x' d') (hd : DocRel (Clos UnselectedWeak) d d') :
    convert env x = convert env' x' := by
  refine convert_clos (fun _ _ => weak_unselected) ?_ h h' hd
  rintro _ _ ⟨⟩
  exact ⟨rfl, rfl⟩

/-- **C17** Without a selection all are rendered. -/
theorem C17_toggle (b : Bool) (A : List (Str × Str)) (cs : List Node)
    (h : attr A c!"actiontype" = c!"toggle" ∨ attr A c!"actiontype" = []) (s : Str) :
    latexIn b (.elem c!"maction" A cs) = .ok s ↔
      ∃ ss, (kids cs).map (latexIn b) = ss.map .ok ∧ s = join c!" \\Longrightarrow " ss := by
  rw [latexIn_maction, if_pos (show isToggle _ from h), return_ok_iff]
  constructor
  · rintro ⟨ss, h1, rfl⟩
    exact ⟨ss, latexAll_iff.2 h1, rfl⟩
  · rintro ⟨ss, h1, rfl⟩
    exact ⟨ss, latexAll_iff.1 h1, rfl⟩

/-- The second child of a tooltip may be invalid. -/
example : DocRel (Cong Unselected)
    (inMath (.elem c!"maction" [(c!"actiontype", c!"tooltip")]
      [.elem c!"mi" [] [.text c!"x"], .elem c!"mi" [] [.text c!"y"]]))
    (inMath (.elem c!"maction" [(c!"actiontype", c!"tooltip")]
      [.elem c!"mi" [] [.text c!"x"], .elem c!"mfrac" [] [], .elem c!"mi" [] []])) := by
  refine docRel_inMath (.base (.mk (by decide) rfl rfl (by decide) (by decide) ?_
    (by constructor <;> (intro h; revert h; decide))))
  simp [HasTable, elements, elementsOf, tagIs]

/-- **C17** The provisos are needed: tables. -/
theorem C17_hidden_table :
    docResult (inMath (.elem c!"mfenced" [] [.elem c!"maction" [(c!"actiontype", c!"tooltip")]
      [.elem c!"mi" [] [.text c!"x"], .elem c!"mtable" [] []]])) ≠
    docResult (inMath (.elem c!"mfenced" [] [.elem c!"maction" [(c!"actiontype", c!"tooltip")]
      [.elem c!"mi" [] [.text c!"x"], .elem c!"mrow" [] []]])) := by
  rw [docResult_eq, docResult_eq]; decide +kernel

/-- **C17** The provisos are needed: the number of children. -/
theorem C17_number :
    docResult (inMath (.elem c!"msup" [] [.elem c!"maction" [(c!"actiontype", c!"tooltip")]
      [.elem c!"mi" [] [.text c!"xy"], .elem c!"mi" [] []], .elem c!"mi" [] []])) ≠
    docResult (inMath (.elem c!"msup" [] [.elem c!"maction" [(c!"actiontype", c!"tooltip")]
      [.elem c!"mi" [] [.text c!"xy"]], .elem c!"mi" [] []])) := by
  rw [docResult_eq, docResult_eq]; decide +kernel

/-- **C17** The provisos are needed: `math` elements. -/
theorem C17_hidden_math :
    docResult (inMath (.elem c!"maction" [(c!"actiontype", c!"tooltip")]
      [.elem c!"mi" [] [.text c!"x"], .elem c!"math" [] [.elem c!"mi" [] [.text c!"y"]]])) =
      .ok c!"xy" := by
  rw [docResult_eq]; decide +kernel

/-! ## C33 -/

theorem kids_append (a b : List Node) : kids (a ++ b) = kids a ++ kids b := by simp [kids]

theorem elements_append (a b : List Node) : elements (a ++ b) = elements a ++ elements b := by
  induction a with
  | nil => rfl
  | cons n ns ih => simp [elements, ih]

theorem maths_append (a b : List Node) : maths (a ++ b) = maths a ++ maths b := by
  unfold maths; rw [elements_append, List.filter_append]

theorem join_append {sep : Str} : ∀ {a b : List Str}, a ≠ [] → b ≠ [] →
    join sep (a ++ b) = join sep a ++ sep ++ join sep b
  | [], _, h, _ => absurd rfl h
  | [x], [], _, h => absurd rfl h
  | [x], y :: ys, _, _ => by simp [join]
  | x :: x' :: xs, b, _, h => by
    have := join_append (sep := sep) (a := x' :: xs) (b := b) (by simp) h
    rw [List.cons_append] at this
    rw [List.cons_append, List.cons_append, join, this, join]
    simp

theorem join_group {sep : Str} {a m c : List Str} (h : m ≠ []) :
    join sep (a ++ m ++ c) = join sep (a ++ join sep m :: c) := by
  have hs : ∀ c : List Str, join sep (m ++ c) = join sep (join sep m :: c) := by
    intro c
    cases c with
    | nil => simp [join]
    | cons y ys => rw [join_append h (by simp), join]
  cases a with
  | nil => exact hs c
  | cons x xs =>
    rw [List.append_assoc, join_append (by simp) (by simp [h]), hs, join_append (by simp) (by simp)]

theorem seqAll_append (b : Bool) : ∀ ns ms : List Node, seqAll (outcomes b (ns ++ ms)) =
    (do let ss ← seqAll (outcomes b ns); let ts ← seqAll (outcomes b ms); return ss ++ ts)
  | [], ms => by
    show _ = (do let ts ← seqAll (outcomes b ms); return [] ++ ts)
    rw [List.nil_append]
    cases seqAll (outcomes b ms) <;> rfl
  | n :: ns, ms => by
    rw [List.cons_append, seqAll_cons, seqAll_cons, seqAll_append b ns ms]
    cases latexIn b n with
    | error e => rfl
    | ok s =>
      cases seqAll (outcomes b ns) with
      | error e => rfl
      | ok ss => cases seqAll (outcomes b ms) <;> rfl

theorem seqAll_length {b : Bool} {ns : List Node} {ss : List Str}
    (h : seqAll (outcomes b ns) = .ok ss) : ns.length = ss.length := ((seqAll_outcomes b _ _).1 h).1

theorem seqAll_group (b : Bool) {row : Str} (hr : row ∉ structured) (A : List (Str × Str))
    {us vs ws : List Node} (h : kids vs ≠ []) :
    (do let ss ← seqAll (outcomes b (kids (us ++ vs ++ ws))); return join c!" " ss : Except Exc Str) =
    (do let ss ← seqAll (outcomes b (kids (us ++ .elem row A vs :: ws))); return join c!" " ss) := by
  have e : kids (us ++ .elem row A vs :: ws) = kids us ++ .elem row A vs :: kids ws := by
    rw [kids_append]; rfl
  rw [e, kids_append, kids_append, seqAll_append, seqAll_append, seqAll_append, seqAll_cons,
    latexIn_row b A vs hr]
  cases seqAll (outcomes b (kids us)) with
  | error e => rfl
  | ok ss =>
    cases hv : seqAll (outcomes b (kids vs)) with
    | error e => rfl
    | ok ts =>
      cases seqAll (outcomes b (kids ws)) with
      | error e => rfl
      | ok rs =>
        show Except.ok (join c!" " (ss ++ ts ++ rs)) = Except.ok (join c!" " (ss ++ join c!" " ts :: rs))
        rw [join_group]
        rintro rfl
        have := seqAll_length hv
        exact h (List.eq_nil_of_length_eq_zero this)

/-- The LaTeX of a construct with blanks between its children depends on its content only. -/
theorem spacing_latex {tag : Str} (h : Spacing tag) (A : List (Str × Str)) :
    ∃ f : Str → Str, ∀ b cs, latexIn b (.elem tag A cs) =
      ((do let ss ← seqAll (outcomes b (kids cs)); return join c!" " ss) : Except Exc Str).map f := by
  rcases h with h | h
  · refine ⟨id, fun b cs => ?_⟩
    rw [latexIn_row b A cs h]
    cases seqAll (outcomes b (kids cs)) <;> rfl
  · simp only [List.mem_cons, List.not_mem_nil, or_false] at h
    rcases h with rfl | rfl | rfl | rfl
    · refine ⟨normalize, fun b cs => ?_⟩
      rw [latexIn_math]
      cases seqAll (outcomes b (kids cs)) <;> rfl
    · refine ⟨fun s => c!"\\sqrt" ++ braces s, fun b cs => ?_⟩
      rw [latexIn_msqrt]
      cases seqAll (outcomes b (kids cs)) <;> rfl
    · refine ⟨fun s => c!"\\color{red}" ++ braces s, fun b cs => ?_⟩
      rw [latexIn_merror]
      cases seqAll (outcomes b (kids cs)) <;> rfl
    · refine ⟨fun s => (enclosure (attr A c!"notation")).1 ++ s ++ (enclosure (attr A c!"notation")).2,
        fun b cs => ?_⟩
      rw [latexIn_menclose]
      cases seqAll (outcomes b (kids cs)) <;> rfl

theorem weak_grouped {n n' : Node} (h : Grouped n n') : Weak n n' := by
  obtain ⟨hs, hr, hk⟩ := h
  rename_i tag row A A' us vs ws
  obtain ⟨f, hf⟩ := spacing_latex hs A
  have hl : ∀ b, latexIn b (.elem tag A (us ++ vs ++ ws)) =
      latexIn b (.elem tag A (us ++ .elem row A' vs :: ws)) := fun b => by
    rw [hf, hf, seqAll_group b hr A' hk]
  refine ⟨rfl, hl, rfl, ?_, ?_⟩
  · have e := tagIs_row (t := c!"mtable") hr (by decide)
    simp [tabled, elementsOf, elements_append, elements, List.any_append, tagIs, e]
  · rw [maths_elem, maths_elem, List.map_append, List.map_append]
    congr 1
    · split
      · rw [List.map_cons, List.map_cons, hl false, List.map_nil]
      · rfl
    · have e1 : row ≠ c!"math" := fun e => hr (e ▸ by decide)
      rw [maths_append, maths_append, maths_append, maths_cons, maths_elem, if_neg e1,
        List.nil_append, List.append_assoc]

/-- **C33** Grouping consecutive children by `mrow`, or by any other element without a meaning,
is transparent, except in the base of a script. -/
theorem C33_grouping (env env' : Env) (x x' : Str) (d d' : Doc) (h : ParsesTo env x d)
    (h' : ParsesTo env' x' d') (hd : DocRel (Clos Grouped) d d') : convert env x = convert env' x' := by
  refine convert_clos (fun _ _ => weak_grouped) ?_ h h' hd
  rintro _ _ ⟨⟩
  exact ⟨rfl, rfl⟩

theorem weak_boxed {n n' : Node} (h : Boxed n n') : Weak n n' := by
  obtain ⟨he, hp, hr, hr'⟩ := h
  rename_i row A
  have hk : kids [n] = [n] := by simp [kids, he]
  refine ⟨he, fun b => ?_, ?_, ?_, ?_⟩
  · rw [latexIn_row b A _ hr, hk, seqAll_cons]
    cases latexIn b n with
    | error e => rfl
    | ok s => rfl
  · rw [hp]
    simp [isPre, tagIs, hr']
  · have e := tagIs_row (t := c!"mtable") hr (by decide)
    simp [tabled, elementsOf, elements, tagIs, e]
  · have e1 : row ≠ c!"math" := fun e => hr (e ▸ by decide)
    rw [maths_elem, if_neg e1, List.nil_append]

/-- **C33** A single element, other than `mprescripts`, can be put in an `mrow` anywhere, even
where the number of children matters, except in the base of a script. -/
theorem C33_single (env env' : Env) (x x' : Str) (d d' : Doc) (h : ParsesTo env x d)
    (h' : ParsesTo env' x' d') (hd : DocRel (Clos Boxed) d d') : convert env x = convert env' x' := by
  refine convert_clos (fun _ _ => weak_boxed) ?_ h h' hd
  rintro _ _ ⟨h, _, _, _⟩
  exact ⟨h, rfl⟩

example : DocRel (Clos Grouped)
    [.elem c!"math" [] [.elem c!"mi" [] [.text c!"x"], .elem c!"mo" [] [.text c!"+"],
      .elem c!"mi" [] [.text c!"y"]]]
    [.elem c!"math" [] [.elem c!"mi" [] [.text c!"x"], .elem c!"mrow" [] [.elem c!"mo" [] [.text c!"+"],
      .elem c!"mi" [] [.text c!"y"]]]] := by
  refine ⟨rfl, fun p hp => ?_⟩
  simp only [List.zip_cons_cons, List.zip_nil_left, List.mem_singleton] at hp
  subst hp
  exact .base (Grouped.mk (us := [_]) (vs := [_, _]) (ws := []) (.inr (by decide)) (by decide)
    (by decide))

/-- **C33** In the base of a script it is not. -/
theorem C33_not_in_base :
    docResult (inMath (.elem c!"msup" [] [.elem c!"mrow" []
      [.elem c!"mi" [] [.text c!"x"], .elem c!"mi" [] [.text c!"y"]], .elem c!"mn" [] [.text c!"2"]])) =
      .ok c!"\\left(x y\\right)^{2}" ∧
    docResult (inMath (.elem c!"msup" [] [.elem c!"mrow" [] [.elem c!"mrow" []
      [.elem c!"mi" [] [.text c!"x"], .elem c!"mi" [] [.text c!"y"]]], .elem c!"mn" [] [.text c!"2"]])) =
      .ok c!"x y^{2}" := by
  rw [docResult_eq, docResult_eq]; decide +kernel

/-- **C33** Nor is an empty `mrow` transparent: inside a text-like context it adds a blank. -/
theorem C33_empty_row :
    latexIn false (.elem c!"msqrt" [] [.elem c!"mi" [] [.text c!"x"]]) = .ok c!"\\sqrt{x}" ∧
    latexIn false (.elem c!"msqrt" [] [.elem c!"mi" [] [.text c!"x"], .elem c!"mrow" [] []]) =
      .ok c!"\\sqrt{x }" := by decide +kernel

end Verif
