import Verif.Lemmas.Str
import Verif.Spec.Doc
import Verif.Props.Adapter

/-! # Properties of whole documents (C01, C04, C43, C44) -/

namespace Verif
open Spec

/-! ## Documents as lists of `math` elements -/

theorem pconv_math_normal {b : Bool} {v : Str} {a : Attrs} {cs : List PElem} {s : Str}
    (h : pconv b (.mk c!"math" v a cs) = .ok s) : WsNormal s := by
  rw [pconv_mk, show classify c!"math" = .math by decide] at h
  simp only [pnode] at h
  cases hk : seqAll (cs.map fun c => (c, pconv (b || c!"math" == c!"mtable") c)) with
  | error e => rw [hk] at h; cases h
  | ok ss => rw [hk] at h; cases h; exact normalize_wsNormal _

theorem latexIn_math_normal {b : Bool} {n : Node} (hn : isMath n = true) {s : Str}
    (h : latexIn b n = .ok s) : WsNormal s := by
  match n with
  | .elem tag attrs cs =>
    have ht : tag = c!"math" := by simpa [isMath] using hn
    subst ht
    simp only [latexIn, toPElem] at h
    exact pconv_math_normal h

/-- All results, or the first error. -/
def firstOrAll : List (Except Exc Str) → Except Exc (List Str)
  | [] => .ok []
  | .error e :: _ => .error e
  | .ok s :: rs =>
    match firstOrAll rs with
    | .error e => .error e
    | .ok ss => .ok (s :: ss)

theorem pconvAll_eq (ms : List Node) (h : ∀ n ∈ ms, isMath n = true) :
    pconvAll (toPElems ms) = firstOrAll (ms.map (latexIn false)) := by
  induction ms with
  | nil => rfl
  | cons n ms ih =>
    have hn := h n List.mem_cons_self
    have ih := ih fun m hm => h m (List.mem_cons_of_mem _ hm)
    match n with
    | .elem tag attrs cs =>
      simp only [toPElems, toPElem, pconvAll, List.map_cons, ih]
      have : latexIn false (.elem tag attrs cs) =
        pconv false (.mk tag (strip (elementValue cs)) (convertAttributes attrs) (toPElems cs)) := by
        simp only [latexIn, toPElem]
      rw [this]
      cases pconv false (.mk tag (strip (elementValue cs)) (convertAttributes attrs) (toPElems cs)) with
      | error e => rfl
      | ok s =>
        cases hf : firstOrAll (ms.map (latexIn false)) with
        | error e => simp only [firstOrAll, hf]; rfl
        | ok ss => simp only [firstOrAll, hf]; rfl

theorem firstOrAll_ok {rs : List (Except Exc Str)} {ss : List Str} :
    firstOrAll rs = .ok ss ↔ rs = ss.map .ok := by
  induction rs generalizing ss with
  | nil =>
    constructor
    · intro h; cases h; rfl
    · intro h; cases ss with
      | nil => rfl
      | cons => simp at h
  | cons r rs ih =>
    cases r with
    | error e =>
      constructor
      · intro h; simp [firstOrAll] at h
      · intro h; cases ss <;> simp at h
    | ok s =>
      rw [firstOrAll]
      cases hf : firstOrAll rs with
      | error e =>
        constructor
        · intro h; simp at h
        · intro h
          cases ss with
          | nil => simp at h
          | cons t ss =>
            simp only [List.map_cons, List.cons.injEq] at h
            rw [ih.2 h.2] at hf; simp at hf
      | ok ss' =>
        have := ih.1 hf
        constructor
        · intro h; cases h; rw [this]; rfl
        · intro h
          cases ss with
          | nil => simp at h
          | cons t ss =>
            simp only [List.map_cons, List.cons.injEq, Except.ok.injEq] at h
            rw [ih.2 h.2] at hf
            cases hf
            rw [h.1]

theorem firstOrAll_error {rs : List (Except Exc Str)} {e : Exc} :
    firstOrAll rs = .error e ↔ ∃ (ss : List Str) (rest : List Res), rs = ss.map .ok ++ .error e :: rest := by
  induction rs with
  | nil =>
    constructor
    · intro h; simp [firstOrAll] at h
    · rintro ⟨ss, rest, h⟩; simp at h
  | cons r rs ih =>
    cases r with
    | error e' =>
      constructor
      · intro h; cases h; exact ⟨[], rs, rfl⟩
      · rintro ⟨ss, rest, h⟩
        cases ss with
        | nil => simp only [List.map_nil, List.nil_append, List.cons.injEq] at h; rw [h.1]; rfl
        | cons => simp at h
    | ok s =>
      rw [firstOrAll]
      constructor
      · intro h
        cases hf : firstOrAll rs with
        | error e' =>
          rw [hf] at h
          simp only [Except.error.injEq] at h
          subst h
          obtain ⟨ss, rest, h⟩ := ih.1 hf
          exact ⟨s :: ss, rest, by rw [h]; rfl⟩
        | ok ss => rw [hf] at h; simp at h
      · rintro ⟨ss, rest, h⟩
        cases ss with
        | nil => simp at h
        | cons t ss =>
          simp only [List.map_cons, List.cons_append, List.cons.injEq] at h
          rw [ih.2 ⟨ss, rest, h.2⟩]

theorem maths_isMath {d : Doc} : ∀ n ∈ maths d, isMath n = true := by
  intro n hn
  exact (List.mem_filter.1 hn).2

theorem docResult_firstOrAll (d : Doc) :
    docResult d = (match firstOrAll ((maths d).map (latexIn false)) with
      | .error e => .error e
      | .ok ss => .ok ss.flatten) := by
  rw [docResult_eq, renderDoc, mathElements_eq]
  show (pconvAll (toPElems (maths d)) >>= fun ss => pure (strip ss.flatten)) = _
  rw [pconvAll_eq _ maths_isMath]
  cases hf : firstOrAll ((maths d).map (latexIn false)) with
  | error e => rfl
  | ok ss =>
    show Except.ok (strip ss.flatten) = Except.ok ss.flatten
    rw [WsNormal.strip_eq]
    apply WsNormal.flatten
    intro s hs
    have h1 := firstOrAll_ok.1 hf
    have h2 : (Except.ok s : Res) ∈ (maths d).map (latexIn false) := by
      rw [h1]; exact List.mem_map.2 ⟨s, hs, rfl⟩
    obtain ⟨n, hn, he⟩ := List.mem_map.1 h2
    exact latexIn_math_normal (maths_isMath n hn) he

/-! ## C04 -/

/-- **C04** The result for an accepted document is the concatenation of the conversions of its
`math` elements in document order. -/
theorem C04_document_order (d : Doc) (s : Str) :
    docResult d = .ok s ↔
      ∃ ss : List Str, (maths d).map latexOf = ss.map .ok ∧ s = ss.flatten := by
  rw [docResult_firstOrAll, show latexOf = latexIn false from funext latexOf_eq]
  cases hf : firstOrAll ((maths d).map (latexIn false)) with
  | error e =>
    constructor
    · intro h; simp at h
    · rintro ⟨ss, h, _⟩; rw [firstOrAll_ok.2 h] at hf; simp at hf
  | ok ss =>
    constructor
    · intro h; simp only [Except.ok.injEq] at h; exact ⟨ss, firstOrAll_ok.1 hf, h.symm⟩
    · rintro ⟨ss', h, rfl⟩
      rw [firstOrAll_ok.2 h] at hf
      cases hf; rfl

/-- **C04** at the API. -/
theorem C04_convert (env : Env) (x : Str) (d : Doc) (hp : env.parse (prep x) = .ok d) (s : Str) :
    convert env x = .ok s ↔ ∃ ss : List Str, (maths d).map latexOf = ss.map .ok ∧ s = ss.flatten := by
  rw [C05_accepted_never_repaired env x d hp]
  exact C04_document_order d s

/-- **C04** A document without `math` gives the empty string. -/
theorem C04_no_math (d : Doc) (h : maths d = []) : docResult d = .ok [] :=
  (C04_document_order d []).2 ⟨[], by rw [h]; rfl, rfl⟩

/-- Two `math` elements, the second one inside another element. -/
example : docResult [.elem c!"p" [] [.elem c!"math" [] [.elem c!"mi" [] [.text c!"x"]],
    .text c!" and ", .elem c!"b" [] [.elem c!"math" [] [.elem c!"mn" [] [.text c!"2"]]]]] =
    .ok c!"x2" := by
  rw [docResult_eq]; decide +kernel

/-! ## C43 -/

/-- **C43** The conversion of a document raises exactly if that of some `math` element does, and
it raises the exception of the first one. -/
theorem C43_error_containment (d : Doc) (e : Exc) :
    docResult d = .error e ↔
      ∃ before n after, maths d = before ++ n :: after ∧ (∀ m ∈ before, ∃ s, latexOf m = .ok s) ∧
        latexOf n = .error e := by
  rw [docResult_firstOrAll, show latexOf = latexIn false from funext latexOf_eq]
  have key : firstOrAll ((maths d).map (latexIn false)) = .error e ↔
      ∃ before n after, maths d = before ++ n :: after ∧
        (∀ m ∈ before, ∃ s, latexIn false m = .ok s) ∧ latexIn false n = .error e := by
    rw [firstOrAll_error]
    constructor
    · rintro ⟨ss, rest, h⟩
      obtain ⟨l1, l2, h1, h2, h3⟩ := List.map_eq_append_iff.1 h
      obtain ⟨n, after, rfl, h5, h6⟩ := List.map_eq_cons_iff.1 h3
      refine ⟨l1, n, after, h1, ?_, h5⟩
      intro m hm
      have : latexIn false m ∈ l1.map (latexIn false) := List.mem_map.2 ⟨m, hm, rfl⟩
      rw [h2] at this
      obtain ⟨s, _, hs⟩ := List.mem_map.1 this
      exact ⟨s, hs.symm⟩
    · rintro ⟨before, n, after, h1, h2, h3⟩
      have : ∃ ss : List Str, before.map (latexIn false) = ss.map .ok := by
        clear h1
        induction before with
        | nil => exact ⟨[], rfl⟩
        | cons m ms ih =>
          obtain ⟨s, hs⟩ := h2 m List.mem_cons_self
          obtain ⟨ss, hss⟩ := ih fun x hx => h2 x (List.mem_cons_of_mem _ hx)
          exact ⟨s :: ss, by simp [hs, hss]⟩
      obtain ⟨ss, hss⟩ := this
      exact ⟨ss, after.map (latexIn false), by rw [h1, List.map_append, hss, List.map_cons, h3]⟩
  rw [← key]
  cases hf : firstOrAll ((maths d).map (latexIn false)) with
  | error e' => simp
  | ok ss => simp

example : docResult [.elem c!"p" [] [.elem c!"math" [] [.elem c!"mi" [] [.text c!"x"]],
    .elem c!"math" [] [.elem c!"msup" [] []], .elem c!"math" [] [.elem c!"mfrac" [] []]]] =
    .error (.invalidChildren c!"msup" 2 0 c!"exactly") := by
  rw [docResult_eq]; decide +kernel

/-! ## C01 -/

theorem Spec.Normal.of_ws {s : Str} (h : WsNormal s) : Normal s :=
  ⟨h.blanks, fun ⟨a, b, hab⟩ => h.single ⟨a, b, by rw [← hab]; simp⟩, h.head, h.last⟩

theorem docResult_normal {d : Doc} {s : Str} (h : docResult d = .ok s) : WsNormal s := by
  obtain ⟨ss, h1, rfl⟩ := (C04_document_order d s).1 h
  apply WsNormal.flatten
  intro t ht
  have h2 : (Except.ok t : Res) ∈ (maths d).map latexOf := by
    rw [h1]; exact List.mem_map.2 ⟨t, ht, rfl⟩
  obtain ⟨n, hn, he⟩ := List.mem_map.1 h2
  rw [latexOf_eq] at he
  exact latexIn_math_normal (maths_isMath n hn) he

/-- A successful conversion is the conversion of some document returned by the parser. -/
theorem convert_ok_doc {env : Env} {x s : Str} (h : convert env x = .ok s) :
    ∃ n y d, n < 5 ∧ Consulted env x n y ∧ env.parse y = .ok d ∧ docResult d = .ok s := by
  obtain ⟨n, y, hn, hc, hcase⟩ := C06_exhaustive env x
  rcases hcase with ⟨d, hp⟩ | ⟨e, hp, hr⟩ | ⟨rfl, e, hp, hr⟩
  · exact ⟨n, y, d, hn, hc, hp, by rw [← C06_first_success env x y n d hn hc hp, h]⟩
  · rw [C06_repair_fails env x y n e hn hc hp hr] at h; simp at h
  · rw [C06_last_error env x y e hc hp hr] at h; simp at h

/-- **C01** Whatever `convert` returns is whitespace-normal. -/
theorem C01_output_normal (env : Env) (x s : Str) (h : convert env x = .ok s) : Normal s := by
  obtain ⟨n, y, d, _, _, _, hd⟩ := convert_ok_doc h
  exact .of_ws (docResult_normal hd)

example : docResult [.elem c!"math" [] [.elem c!"mi" [] [.text c!" a \t b"],
    .elem c!"mrow" [] [], .elem c!"mo" [] [.text c!"="], .elem c!"mrow" [] []]] = .ok c!"a b =" := by
  rw [docResult_eq]; decide +kernel

/-! ## C44 -/

/-- **C44** A `math` element contributes its own conversion, and the `math` elements inside it
contribute theirs once more. -/
theorem C44_nested_math (attrs : List (Str × Str)) (cs : List Node) (s : Str) :
    docResult [.elem c!"math" attrs cs] = .ok s ↔
      ∃ outer inner, latexOf (.elem c!"math" attrs cs) = .ok outer ∧ docResult cs = .ok inner ∧
        s = outer ++ inner := by
  have hm : maths [.elem c!"math" attrs cs] = .elem c!"math" attrs cs :: maths cs := by
    simp [maths, elements, elementsOf, isMath]
  constructor
  · intro h
    obtain ⟨ss, h1, rfl⟩ := (C04_document_order _ _).1 h
    rw [hm] at h1
    cases ss with
    | nil => simp at h1
    | cons t ss =>
      simp only [List.map_cons, List.cons.injEq] at h1
      exact ⟨t, ss.flatten, h1.1, (C04_document_order _ _).2 ⟨ss, h1.2, rfl⟩, rfl⟩
  · rintro ⟨outer, inner, h1, h2, rfl⟩
    obtain ⟨ss, h3, rfl⟩ := (C04_document_order _ _).1 h2
    exact (C04_document_order _ _).2 ⟨outer :: ss, by rw [hm]; simp [h1, h3], rfl⟩

/-- **C44** So wrapping a `math` element in another one is observable. -/
theorem C44_observable :
    docResult [.elem c!"math" [] [.elem c!"mi" [] [.text c!"x"]]] = .ok c!"x" ∧
    docResult [.elem c!"math" [] [.elem c!"math" [] [.elem c!"mi" [] [.text c!"x"]]]] = .ok c!"xx" := by
  rw [docResult_eq, docResult_eq]
  constructor <;> decide +kernel

end Verif
