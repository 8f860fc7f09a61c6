import Verif.Lemmas.Arity
import Verif.Props.Doc

/-! # Functional correctness and failures (C37, C11, C12) -/

namespace Verif
open Spec

/-! ## C37 -/

theorem isElem_of_isMath {n : Node} (h : isMath n = true) : n.isElem = true := by
  cases n <;> simp [isMath] at h; rfl

theorem map_eq_map_ok {ns : List Node} {ss : List Str} {b : Bool} :
    ns.map (latexIn b) = ss.map .ok ↔
      ns.length = ss.length ∧ ∀ p ∈ ns.zip ss, latexIn b p.1 = .ok p.2 := by
  induction ns generalizing ss with
  | nil => cases ss <;> simp
  | cons n ns ih =>
    cases ss with
    | nil => simp
    | cons s ss => simp [ih, and_left_comm]

/-- **C37** On every DOM element the library returns `s` exactly if `s` is derivable by the
rules. -/
theorem C37_element (n : Node) (hn : n.isElem = true) (s : Str) :
    latexOf n = .ok s ↔ Renders false n s := by
  rw [latexOf_eq, renders_iff hn]

/-- **C37** On every accepted document the library returns `s` exactly if `s` is the
concatenation of strings derivable for the `math` elements. -/
theorem C37_document (d : Doc) (s : Str) :
    docResult d = .ok s ↔
      ∃ ss : List Str, (maths d).length = ss.length ∧
        (∀ p ∈ (maths d).zip ss, Renders false p.1 p.2) ∧ s = ss.flatten := by
  rw [C04_document_order]
  have e : latexOf = latexIn false := funext latexOf_eq
  constructor
  · rintro ⟨ss, h, rfl⟩
    rw [e, map_eq_map_ok] at h
    refine ⟨ss, h.1, fun p hp => ?_, rfl⟩
    rw [renders_iff (isElem_of_isMath (maths_isMath _ (List.of_mem_zip hp).1))]
    exact h.2 p hp
  · rintro ⟨ss, h1, h2, rfl⟩
    exact ⟨ss, by rw [e, map_eq_map_ok]; exact ⟨h1, fun p hp => (h2 p hp).sound⟩, rfl⟩

/-- **C37** at the API. -/
theorem C37_convert (env : Env) (x : Str) (d : Doc) (hp : env.parse (prep x) = .ok d) (s : Str) :
    convert env x = .ok s ↔
      ∃ ss : List Str, (maths d).length = ss.length ∧
        (∀ p ∈ (maths d).zip ss, Renders false p.1 p.2) ∧ s = ss.flatten := by
  rw [C05_accepted_never_repaired env x d hp]
  exact C37_document d s

/-- **C37** The rules determine the LaTeX. -/
theorem C37_deterministic {b : Bool} {n : Node} {s t : Str} (h : Renders b n s)
    (h' : Renders b n t) : s = t := by
  have := h.sound
  rw [h'.sound] at this
  simpa using this.symm

/-- A derivation: `<msup><mi>α</mi><mn>2</mn></msup>`. -/
example : Renders false (.elem c!"msup" [] [.elem c!"mi" [] [.text c!" α "], .text c!"\n",
    .elem c!"mn" [] [.text c!"2"]]) c!"\\alpha^{2}" := by
  have h : ∀ n : Node, n.isElem = true → ∀ s, latexIn false n = .ok s → Renders false n s :=
    fun n hn s => (renders_iff hn false s).2
  exact h _ rfl _ (by decide +kernel)

/-! ## C11, C12 -/

theorem err_docResult (d : Doc) :
    err (docResult d) = ((maths d).flatMap evaluated).findSome? violation := by
  rw [docResult_firstOrAll, findSome?_flatMap']
  have h : ∀ ms : List Node, (∀ n ∈ ms, isMath n = true) →
      err (firstOrAll (ms.map (latexIn false))) =
        ms.findSome? fun n => (evaluated n).findSome? violation := by
    intro ms hm
    induction ms with
    | nil => rfl
    | cons n ms ih =>
      have hn := err_evaluated n (isElem_of_isMath (hm n List.mem_cons_self)) false
      have ih := ih fun m h => hm m (List.mem_cons_of_mem _ h)
      rw [List.map_cons, List.findSome?_cons, ← hn, ← ih]
      cases hl : latexIn false n with
      | error e => rfl
      | ok s =>
        cases hf : firstOrAll (ms.map (latexIn false)) with
        | error e => simp only [firstOrAll, hf]; rfl
        | ok ss => simp only [firstOrAll, hf]; rfl
  rw [← h _ maths_isMath]
  cases firstOrAll ((maths d).map (latexIn false)) <;> rfl

/-- **C11** An accepted document is converted successfully exactly if every element that is
rendered has the number of children it needs. -/
theorem C11_success_iff (d : Doc) :
    (∃ s, docResult d = .ok s) ↔ ∀ n ∈ maths d, ∀ m ∈ evaluated n, violation m = none := by
  rw [err_none_iff, err_docResult, List.findSome?_eq_none_iff]
  simp only [List.mem_flatMap, forall_exists_index, and_imp]
  exact ⟨fun h n hn m hm => h m n hn hm, fun h m n hn hm => h n hn m hm⟩

/-- **C11** at the API. -/
theorem C11_convert (env : Env) (x : Str) (d : Doc) (hp : env.parse (prep x) = .ok d) :
    (∃ s, convert env x = .ok s) ↔ ∀ n ∈ maths d, ∀ m ∈ evaluated n, violation m = none := by
  rw [C05_accepted_never_repaired env x d hp]
  exact C11_success_iff d

/-- **C12** If the conversion of an accepted document raises, the exception is the complaint about
the first offending element in evaluation order. -/
theorem C12_first_violation (d : Doc) (e : Exc) :
    docResult d = .error e ↔ ((maths d).flatMap evaluated).findSome? violation = some e := by
  rw [err_error_iff, err_docResult]

/-- **C12** at the API, spelled out: everything before the offender is fine. -/
theorem C12_convert (env : Env) (x : Str) (d : Doc) (hp : env.parse (prep x) = .ok d) (e : Exc) :
    convert env x = .error e ↔ ∃ before n after,
      (maths d).flatMap evaluated = before ++ n :: after ∧ (∀ m ∈ before, violation m = none) ∧
        violation n = some e := by
  rw [C05_accepted_never_repaired env x d hp, C12_first_violation, List.findSome?_eq_some_iff]
  constructor
  · rintro ⟨l1, a, l2, h1, h2, h3⟩; exact ⟨l1, a, l2, h1, h3, h2⟩
  · rintro ⟨l1, a, l2, h1, h2, h3⟩; exact ⟨l1, a, l2, h1, h3, h2⟩

/-- **C12** Evaluation order: the element, then its rendered children one after the other. -/
theorem C12_order (n : Node) : evaluated n = n :: (selected n).flatMap evaluated := evaluated_eq n

/-- The inner `mroot` is fine; of the two bad elements the `msup` in the prescripts comes first
although the bad `mfrac` stands before it in the document. -/
def badScripts : Node :=
  .elem c!"mmultiscripts" [] [.elem c!"mroot" [] [.elem c!"mi" [] [.text c!"x"], .elem c!"mn" [] []],
    .elem c!"mfrac" [] [], .elem c!"none" [] [], .elem c!"mprescripts" [] [],
    .elem c!"msup" [] [.elem c!"mi" [] []], .elem c!"none" [] []]

example : docResult [.elem c!"math" [] [badScripts]] =
    .error (.invalidChildren c!"msup" 2 1 c!"exactly") := by
  rw [docResult_eq]; decide +kernel

/-- A bad element that is not rendered does no harm. -/
example : docResult [.elem c!"math" [] [.elem c!"mphantom" [] [badScripts]]] = .ok [] := by
  rw [docResult_eq]; decide +kernel

/-- **C12** The text of the complaint: it names the tag of an element that was reached, what that
tag needs, and how many child elements this element has. -/
theorem C12_message (d : Doc) (tag : Str) (required actual : Nat) (comparison : Str)
    (h : docResult d = .error (.invalidChildren tag required actual comparison)) :
    ∃ A cs, .elem tag A cs ∈ (maths d).flatMap evaluated ∧
      invalidChildrenMessage tag required actual comparison =
        tag ++ c!" tag must have " ++
          (if tag = c!"mmultiscripts" then c!"at least 3"
            else if tag = c!"msubsup" ∨ tag = c!"munderover" then c!"exactly 3"
            else c!"exactly 2") ++
          c!" children. It's actually " ++ (Nat.repr (kids cs).length).toList := by
  obtain ⟨n, hn, hv⟩ := List.exists_of_findSome?_eq_some ((C12_first_violation d _).1 h)
  cases n with
  | elem t A cs =>
    have key : t = tag ∧ (kids cs).length = actual ∧ comparison ++ c!" " ++
        (Nat.repr required).toList = (if tag = c!"mmultiscripts" then c!"at least 3"
            else if tag = c!"msubsup" ∨ tag = c!"munderover" then c!"exactly 3"
            else c!"exactly 2") := by
      simp only [violation] at hv
      split at hv
      · rename_i p hp
        split at hv
        · simp at hv
        · simp only [Option.some.injEq, Exc.invalidChildren.injEq] at hv
          obtain ⟨rfl, rfl, rfl, rfl⟩ := hv
          refine ⟨rfl, rfl, ?_⟩
          have h1 := List.find?_some hp
          have h2 := List.mem_of_find?_eq_some hp
          simp only [decide_eq_true_eq] at h1
          rw [← h1]
          revert h2
          have : ∀ p ∈ arities, c!"exactly" ++ c!" " ++ (Nat.repr p.2).toList =
              (if p.1 = c!"mmultiscripts" then c!"at least 3"
                else if p.1 = c!"msubsup" ∨ p.1 = c!"munderover" then c!"exactly 3"
                else c!"exactly 2") := by decide +kernel
          exact this p
      · split at hv
        · rename_i hm
          simp only [Option.some.injEq, Exc.invalidChildren.injEq] at hv
          obtain ⟨rfl, rfl, rfl, rfl⟩ := hv
          refine ⟨rfl, rfl, ?_⟩
          rw [if_pos hm.1]
          decide +kernel
        · split at hv <;> simp at hv
    obtain ⟨rfl, rfl, h3⟩ := key
    refine ⟨A, cs, hn, ?_⟩
    rw [← h3, invalidChildrenMessage]
    simp only [List.append_assoc]
  | _ => simp [violation] at hv

/-- An instance of the text. -/
example : invalidChildrenMessage c!"msup" 2 1 c!"exactly" =
    c!"msup tag must have exactly 2 children. It's actually 1" := by decide +kernel

end Verif
