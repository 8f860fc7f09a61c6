import Verif.Props.Xml

/-!
# Documents with several `math` elements (C59, C60)

The results are put together without anything between them.  So the last token of one and the first
of the next may become one token; if they do not, the parts are read one after the other.
-/

namespace Verif
open Spec

/-- No token of the parts is changed by putting them together. -/
def Spec.Apart (ss : List Str) : Prop := tokens ss.flatten = (ss.map tokens).flatten

/-- The results of the `math` elements, in order. -/
def Spec.Results (d : Doc) (ss : List Str) : Prop := (maths d).map (latexIn false) = ss.map .ok

theorem docResult_results {d : Doc} {ss : List Str} (h : Results d ss) :
    docResult d = .ok ss.flatten := by
  rw [docResult_firstOrAll, firstOrAll_ok.2 h]

theorem MeansAll.results {l l' : List Item} {ns : List Node} (h : MeansAll false l ns l') :
    ∃ ss : List Str, ns.map (latexIn false) = ss.map .ok ∧ Reads (.run l l') (ss.map tokens).flatten := by
  induction h with
  | nil => exact ⟨[], rfl, .nil⟩
  | @cons l l1 l' n ns h _ ih =>
    obtain ⟨s, hr, hs⟩ := C60_phrase h
    have he : n.isElem = true := by cases h <;> rfl
    obtain ⟨ss, e, hss⟩ := ih
    refine ⟨s :: ss, by rw [List.map_cons, (renders_iff he false s).1 hr, e]; rfl, ?_⟩
    exact hs.run_append hss

/-- **C60** Several `math` elements: if no tokens run together, the result is read as what they stand
for, one after the other. -/
theorem C60_several (d : Doc) (v : List Item) (h : MeansAll false [] (maths d) v)
    (ha : ∀ ss, Results d ss → Apart ss) : ∃ s, docResult d = .ok s ∧ ReadsAs s v := by
  obtain ⟨ss, e, hr⟩ := h.results
  refine ⟨ss.flatten, docResult_results e, ?_⟩
  rw [ReadsAs, ha ss e]
  exact hr

/-- Proper elements one after the other. -/
inductive ProperAll : Room → List Node → Room → Prop
  | nil {q} : ProperAll q [] q
  | cons {q q1 q' n ns} : Proper false q n q1 → ProperAll q1 ns q' → ProperAll q (n :: ns) q'

theorem ProperAll.results {q q' : Room} {ns : List Node} (h : ProperAll q ns q') :
    ∃ ss : List Str, ns.map (latexIn false) = ss.map .ok ∧ Latex (.run q q') (ss.map tokens).flatten := by
  induction h with
  | nil => exact ⟨[], rfl, .nil⟩
  | @cons q q1 q' n ns h _ ih =>
    obtain ⟨s, hr, hs⟩ := C59_phrase h
    have he : n.isElem = true := by cases h <;> rfl
    obtain ⟨ss, e, hss⟩ := ih
    refine ⟨s :: ss, by rw [List.map_cons, (renders_iff he false s).1 hr, e]; rfl, ?_⟩
    exact hs.run_append hss

/-- **C59** Several `math` elements: if no tokens run together, the result is a formula. -/
theorem C59_several (d : Doc) (q : Room) (h : ProperAll fresh (maths d) q)
    (ha : ∀ ss, Results d ss → Apart ss) : ∃ s, docResult d = .ok s ∧ Formula s := by
  obtain ⟨ss, e, hr⟩ := h.results
  refine ⟨ss.flatten, docResult_results e, q, ?_⟩
  rw [ha ss e]
  exact hr

theorem lexStep_bs {st : Lex} {c : Char} (h : (lexStep st c).2 = .bs) : c = '\\' := by
  have hs : (lexStart c).2 = .bs → c = '\\' := by
    unfold lexStart
    intro h
    split at h
    · assumption
    · split at h
      · cases h
      · split at h <;> cases h
  cases st with
  | plain => exact hs h
  | bs => rw [lexStep] at h; split at h <;> cases h
  | word w =>
    rw [lexStep] at h
    split at h
    · cases h
    · exact hs h
  | prime =>
    rw [lexStep] at h
    split at h
    · cases h
    · exact hs h

theorem lexed_bs {s : Str} (h : lexed s = .bs) : ∃ u, s = u ++ ['\\'] := by
  rcases List.eq_nil_or_concat s with rfl | ⟨u, c, rfl⟩
  · cases h
  · rw [List.concat_eq_append] at h ⊢
    unfold lexed at h
    rw [lexAll_append] at h
    exact ⟨u, by rw [lexStep_bs h]⟩

/-- **C60** Tokens do not run together if no part but the first begins with a letter or a prime, and
none ends with a backslash. -/
theorem C60_apart (ss : List Str) (h : ∀ s ∈ ss.tail, ∀ c u, s = c :: u → isLetter c = false ∧ c ≠ '\'')
    (hb : ∀ s ∈ ss, ∀ u, s ≠ u ++ ['\\']) : Apart ss := by
  induction ss with
  | nil => rfl
  | cons s ss ih =>
    have ih := ih (fun t ht => h t (List.mem_of_mem_tail ht)) (fun t ht => hb t (List.mem_cons_of_mem _ ht))
    have hst : Starts ss.flatten := by
      rw [List.tail_cons] at h
      clear ih
      clear ih hb
      induction ss with
      | nil => rintro c u ⟨⟩
      | cons t ss ih =>
        intro c u e
        rw [List.flatten_cons] at e
        cases t with
        | nil => exact ih (fun t ht => h t (List.mem_cons_of_mem _ ht)) c u e
        | cons d t =>
          rw [List.cons_append, List.cons.injEq] at e
          rw [← e.1]
          exact h (d :: t) List.mem_cons_self d t rfl
    rw [Apart, List.flatten_cons, tokens_append (fun e => ?_) hst, ih, List.map_cons, List.flatten_cons]
    obtain ⟨u, e⟩ := lexed_bs e
    exact hb s List.mem_cons_self u e

/-- Two `math` elements in a paragraph. -/
def twoMaths (x y : Node) : Doc := [.elem c!"p" [] [.elem c!"math" [] [x], .elem c!"math" [] [y]]]

/-- **C59** If they do run together, the result need not be a formula although every part is one. -/
theorem C59_run_together : ∃ d s, (∀ n ∈ maths d, ∃ t, latexIn false n = .ok t ∧ Formula t) ∧
    docResult d = .ok s ∧ ¬ Formula s := by
  refine ⟨twoMaths (tokenOf c!"mi" c!"α") (tokenOf c!"mi" c!"x"), c!"\\alphax", ?_,
    by rw [docResult_eq]; decide +kernel, not_formula (by decide +kernel)⟩
  intro n hn
  have hm : maths (twoMaths (tokenOf c!"mi" c!"α") (tokenOf c!"mi" c!"x")) =
      [.elem c!"math" [] [tokenOf c!"mi" c!"α"], .elem c!"math" [] [tokenOf c!"mi" c!"x"]] := rfl
  have key : ∀ {x : Str} {t : Tok}, tokens (characterApply (normalize (tokenData [.text x]))) = [t] →
      symTok t = true → ∃ s, latexIn false (.elem c!"math" [] [tokenOf c!"mi" x]) = .ok s ∧ Formula s := by
    intro x t h1 h2
    obtain ⟨s, e, hr⟩ := C60_element (MeansAll.math (A := []) (cs := [tokenOf c!"mi" x])
      (.cons (means_mi (b := false) [] h1 h2) .nil))
    exact ⟨s, e, (C60_formula_reads s).2 ⟨_, hr⟩⟩
  rw [hm] at hn
  simp only [List.mem_cons, List.not_mem_nil, or_false] at hn
  rcases hn with rfl | rfl
  · exact key (t := .word c!"alpha") (by decide +kernel) (by decide +kernel)
  · exact key (t := .char 'x') (by decide +kernel) (by decide +kernel)

/-- `α`, `+` and `2` in three elements. -/
def threeMaths : Doc := [.elem c!"p" [] [.elem c!"math" [] [tokenOf c!"mi" c!"α"],
  .elem c!"math" [] [tokenOf c!"mo" c!"+"], .elem c!"math" [] [tokenOf c!"mn" c!"2"]]]

theorem threeMaths_maths : maths threeMaths = [.elem c!"math" [] [tokenOf c!"mi" c!"α"],
    .elem c!"math" [] [tokenOf c!"mo" c!"+"], .elem c!"math" [] [tokenOf c!"mn" c!"2"]] := rfl

/-- An instance of C60_several: they are read as a sum. -/
example : ∃ s, docResult threeMaths = .ok s ∧
    ReadsAs s [.sym (.word c!"alpha"), .sym (.char '+'), .sym (.char '2')] := by
  refine C60_several _ _ ?_ ?_
  · rw [threeMaths_maths]
    exact .cons (MeansAll.math (.cons (means_mi [] (t := .word c!"alpha") (by decide +kernel)
        (by decide +kernel)) .nil))
      (.cons (MeansAll.math (.cons (means_mo _ (t := .char '+') (by decide +kernel) (by decide +kernel)) .nil))
        (.cons (MeansAll.math (.cons (means_mn _ (t := .char '2') (by decide +kernel) (by decide +kernel))
          .nil)) .nil))
  · intro ss h
    have e : ss = [c!"\\alpha", c!"+", c!"2"] := by
      refine (List.map_inj_right fun _ _ h => Except.ok.inj h).1 (h.symm.trans ?_)
      rw [threeMaths_maths]
      decide +kernel
    subst e
    unfold Apart
    decide +kernel

/-- The string. -/
example : docResult threeMaths = .ok c!"\\alpha+2" := by
  rw [docResult_eq]; decide +kernel

end Verif
