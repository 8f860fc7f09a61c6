import Verif.Spec.Junk
import Verif.Props.Expat

/-! # What the generic repair repairs (C73) -/

namespace Verif
open Spec Spec.Xml

theorem last_gt {a b t w : Str} (ht : '>' ∉ t) (h : a ++ t = b ++ '>' :: w) :
    ∃ u, a = b ++ '>' :: u ∧ w = u ++ t := by
  rcases List.append_eq_append_iff.1 h with ⟨u, h1, h2⟩ | ⟨u, h1, h2⟩
  · cases u with
    | nil =>
      simp only [List.nil_append] at h2
      exact absurd (h2 ▸ List.mem_cons_self) ht
    | cons c u => exact absurd (h2 ▸ List.mem_append_right _ List.mem_cons_self) ht
  · cases u with
    | nil =>
      simp only [List.nil_append] at h2
      exact absurd (h2 ▸ List.mem_cons_self) ht
    | cons c u =>
      simp only [List.cons_append, List.cons.injEq] at h2
      obtain ⟨rfl, h2⟩ := h2
      exact ⟨u, h1, h2⟩

/-- **C73** If the text that the generic repair leaves is accepted, then the text before was a whole
document, a blank, some junk without blanks and with a `>` at its end, and white space; and the junk is
what is gone. -/
theorem C73_only_junk (env : Env) (hc : Closed env) (x y z : Str) (n : Nat) (d : Doc)
    (h : Consulted env x n y) (hy : ¬ ∃ d, env.parse y = .ok d) (ht : Truncated y z)
    (hz : env.parse z = .ok d) :
    ∃ doc junk w, y = doc ++ ' ' :: (junk ++ '>' :: w) ∧ z = doc ++ ' ' :: w ∧ EndsTag doc ∧
      ' ' ∉ junk ∧ ∀ c ∈ w, blank c = true := by
  cases ht with
  | unchanged => exact absurd ⟨d, hz⟩ hy
  | @cut a m t ha hm ht =>
    have ho : ∀ c ∈ a ++ ' ' :: t, c ≠ '\n' ∧ c ≠ '\r' := by
      intro c hcm
      refine h.oneLine c ?_
      simp only [List.mem_append, List.mem_cons] at hcm ⊢
      rcases hcm with h | h | h
      · exact .inl h
      · exact .inr (.inl h)
      · exact .inr (.inr (.inr (.inr h)))
    obtain ⟨b, w, h1, h2⟩ := hc _ _ ho hz
    obtain ⟨u, rfl, rfl⟩ := last_gt (t := ' ' :: t) (by
      simp only [List.mem_cons, not_or]; exact ⟨by decide, ht⟩) h1
    exact ⟨_, m, t, rfl, rfl, ⟨b, u, rfl, fun c hc => h2 c (List.mem_append_left _ hc)⟩, hm,
      fun c hc => h2 c (List.mem_append_right _ (List.mem_cons_of_mem _ hc))⟩

/-- **C73** Conversely, such junk is removed if the error is not an invalid token, and the document is
converted. -/
theorem C73_junk_removed (env : Env) (x doc junk w : Str) (code line offset : Nat) (d : Doc)
    (hx : prep x = doc ++ ' ' :: (junk ++ '>' :: w)) (hd : '<' ∈ doc) (hj : ' ' ∉ junk) (hw : '>' ∉ w)
    (he : env.parse (prep x) = .error (.expat code line offset)) (hcode : code ≠ 4)
    (hp : env.parse (doc ++ ' ' :: w) = .ok d) : convert env x = docResult d := by
  refine C06_first_success env x (doc ++ ' ' :: w) 1 d (by decide) ?_ hp
  exact .next .first he (.generic hcode (hx ▸ .cut hd hj hw))

theorem prefix_back {y z doc w : Str} (h : Truncated y z) (hz : z = doc ++ w) (hd : ∃ a, doc = a ++ ['>']) :
    ∃ w', y = doc ++ w' := by
  cases h with
  | unchanged => exact ⟨w, hz⟩
  | @cut a m t ha hm ht =>
    obtain ⟨b, rfl⟩ := hd
    rw [List.append_assoc] at hz
    obtain ⟨u, rfl, -⟩ := last_gt (t := ' ' :: t) (by
      simp only [List.mem_cons, not_or]; exact ⟨by decide, ht⟩) hz
    exact ⟨u ++ ' ' :: (m ++ '>' :: t), by simp⟩

/-- **C73** If the parser never complains about an invalid token, then the only text that can be
accepted in place of the input is a beginning of it that ends with `>`, up to white space at the end.  So
nothing in the middle of a text is ever repaired: no missing value, no undefined entity, no
tag without an end. -/
theorem C73_beginning (env : Env) (hc : Closed env) (x y : Str) (n : Nat) (d : Doc) (hn : n < 5)
    (hno : NoInvalidToken env x) (h : Consulted env x n y) (hp : env.parse y = .ok d) :
    ∃ doc w, y = doc ++ w ∧ doc <+: prep x ∧ (∃ a, doc = a ++ ['>']) ∧ ∀ c ∈ w, blank c = true := by
  obtain ⟨a, w, h1, h2⟩ := hc y d h.oneLine hp
  refine ⟨a ++ ['>'], w, by rw [h1, List.append_assoc]; rfl, ?_, ⟨a, rfl⟩, h2⟩
  have key : ∀ n y, Consulted env x n y → n < 5 → ∀ w, y = (a ++ ['>']) ++ w → (a ++ ['>']) <+: prep x := by
    intro n y h
    induction h with
    | first => intro _ w hw; exact ⟨w, hw.symm⟩
    | @next n y z e h3 h4 h5 ih =>
      intro hn w hw
      have : ∃ w', y = (a ++ ['>']) ++ w' := by
        cases h5 with
        | other => exact ⟨w, hw⟩
        | generic _ ht => exact prefix_back ht hw ⟨a, rfl⟩
        | word => exact absurd h4 (hno n _ _ _ (by omega) h3)
        | emptyWord => exact absurd h4 (hno n _ _ _ (by omega) h3)
        | wordGeneric => exact absurd h4 (hno n _ _ _ (by omega) h3)
        | emptyWordGeneric => exact absurd h4 (hno n _ _ _ (by omega) h3)
      obtain ⟨w', hw'⟩ := this
      exact ih (by omega) w' hw'
  exact key n y h hn w (by rw [h1, List.append_assoc]; rfl)

/-- **C73** So if no beginning of the text is a document, the call raises an error. -/
theorem C73_rejected (env : Env) (hc : Closed env) (x : Str) (hno : NoInvalidToken env x)
    (h : ∀ doc w, doc <+: prep x → (∀ c ∈ w, blank c = true) → ¬ ∃ d, env.parse (doc ++ w) = .ok d) :
    ∃ y e, Consulted env x 4 y ∧ env.parse y = .error e ∧ convert env x = .error e.toExc := by
  obtain ⟨n, y, hn, hcon, hcase⟩ := C06_exhaustive env x
  rcases hcase with ⟨d, hp⟩ | ⟨e, hp, line, offset, rfl, -⟩ | ⟨rfl, e, hp, hr⟩
  · obtain ⟨doc, w, rfl, h1, -, h2⟩ := C73_beginning env hc x y n d hn hno hcon hp
    exact absurd ⟨d, hp⟩ (h doc w h1 h2)
  · exact absurd hp (hno n y line offset hn hcon)
  · exact ⟨y, e, hcon, hp, C06_last_error env x y e hcon hp hr⟩

/-- **C73**, an instance: an undefined entity after a blank.  The call raises not the error about the
entity, but the one about the text that is left of it, which ends within a tag. -/
theorem C73_misleading (env : Env) (c c' l l' o o' : Nat) (hc : c ≠ 4) (hc' : c' ≠ 4)
    (h : env.parse c!"<math><mi mathvariant='bold'>&alpha;</mi></math>" = .error (.expat c l o))
    (h' : env.parse c!"<math><mi " = .error (.expat c' l' o')) :
    convert env c!"<math><mi mathvariant='bold'>&alpha;</mi></math>" = .error (.expat c' l' o') := by
  refine dead_end (n := 1) (uncut _ (by decide +kernel)) h' hc' (.next ?_ h (.generic hc ?_)) (by decide)
  · exact (show Consulted env _ 0 (prep c!"<math><mi mathvariant='bold'>&alpha;</mi></math>") from .first)
  · exact .cut (a := c!"<math><mi") (m := c!"mathvariant='bold'>&alpha;</mi></math") (t := [])
      (by decide) (by decide) (by decide)

/-! ## Such parsers exist -/

theorem endsTag_append {a b : Str} (h : EndsTag b) : EndsTag (a ++ b) := by
  obtain ⟨c, w, rfl, h⟩ := h
  exact ⟨a ++ c, w, by rw [List.append_assoc], h⟩

theorem Spec.Xml.Content.nil_of {y : Str} (h : Content y []) : y = [] := by
  cases h; rfl

theorem Spec.Xml.Content.ends {x : Str} {n : Node} (h : Content x [n])
    (hn : ∀ t, n ≠ .text t) : EndsTag x := by
  have fin : ∀ {a : Str} {b : Str}, b = a ++ c!">" → EndsTag b := fun {a b} h => ⟨a, [], h, by simp⟩
  cases h with
  | text => exact absurd rfl (hn _)
  | @empty n a as y ns h1 h2 h3 h4 =>
    rw [h4.nil_of]
    exact fin (a := '<' :: (n ++ (a ++ ['/']))) (by simp)
  | @elem n a as x ms w y ns h1 h2 h3 h4 h5 h6 =>
    rw [h6.nil_of]
    exact fin (a := '<' :: (n ++ (a ++ '>' :: (x ++ '<' :: '/' :: (n ++ w))))) (by simp)
  | @comment t y ns h1 h2 h3 =>
    rw [h3.nil_of]
    exact fin (a := c!"<!--" ++ (t ++ c!"--")) (by simp)
  | @cdata t y ns h1 h2 h3 h4 =>
    rw [h4.nil_of]
    exact fin (a := c!"<![CDATA[" ++ (t ++ c!"]]")) (by simp)
  | @pi t w d y ns h1 h2 h3 h4 h5 h6 h7 h8 =>
    rw [h8.nil_of]
    exact fin (a := c!"<?" ++ (t ++ (w ++ (d ++ c!"?")))) (by simp)

theorem Spec.Xml.Misc.ends {x : Str} {ns : List Node} (h : Misc x ns) :
    (∀ c ∈ x, blank c = true) ∨ EndsTag x := by
  induction h with
  | blanks h => exact .inl h
  | @node w x n y ns h1 h2 h3 h4 ih =>
    right
    have hx : EndsTag x := h2.ends (by
      rintro t rfl
      rcases h3 with ⟨_, h⟩ | ⟨_, _, h⟩ <;> cases h)
    rcases ih with ih | ih
    · obtain ⟨b, u, rfl, hu⟩ := hx
      refine ⟨w ++ b, u ++ y, by simp, fun c hc => ?_⟩
      rcases List.mem_append.1 hc with hc | hc
      · exact hu c hc
      · exact ih c hc
    · exact endsTag_append (endsTag_append ih)

theorem Spec.Xml.Document.ends {x : Str} {d : Doc} (h : Document x d) (hx : ∀ c ∈ x, c ≠ '\n' ∧ c ≠ '\r') :
    EndsTag x := by
  have he : eol x = x := by
    clear h
    induction x with
    | nil => rfl
    | cons c x ih =>
      have := ih (fun d hd => hx d (List.mem_cons_of_mem _ hd))
      have hc := (hx c List.mem_cons_self).2
      rw [eol]
      · rw [this]
      · intro s h; exact fun h' => hc h
      · exact fun h' => hc h'
  obtain ⟨v, m, t, k, e, m', ns, ks, n, ns', h1, -, -, -, -, h2, h3, h4, -⟩ := h
  rw [← he, h1]
  refine endsTag_append (endsTag_append (endsTag_append (endsTag_append ?_)))
  have h5 : EndsTag e := h2.ends (by rintro t rfl; cases h3)
  rcases h4.ends with h4 | h4
  · obtain ⟨b, u, rfl, hu⟩ := h5
    refine ⟨b, u ++ m', by simp, fun c hc => ?_⟩
    rcases List.mem_append.1 hc with hc | hc
    · exact hu c hc
    · exact h4 c hc
  · exact endsTag_append h4

open Classical in
/-- A parser that accepts what XML says, and nothing else. -/
noncomputable def strictEnv : Env where
  parse x := if h : ∃ d, Document x d then .ok h.choose else .error (.expat 2 1 0)
  isWord c := isAsciiAlnum c

open Classical in
/-- **C73** There are parsers that are correct and closed. -/
theorem C73_parser_exists : Correct strictEnv ∧ Closed strictEnv := by
  constructor
  · intro x d h
    have he : ∃ d, Document x d := ⟨d, h⟩
    show (if h : ∃ d, Document x d then Except.ok h.choose else _) = _
    rw [dif_pos he, C61_unique x _ d he.choose_spec h]
  · intro x d hx h
    by_cases he : ∃ d, Document x d
    · exact he.choose_spec.ends hx
    · change (if h : ∃ d, Document x d then Except.ok h.choose else _) = _ at h
      rw [dif_neg he] at h
      cases h

/-! ## Cases meeting the hypotheses -/

/-- A parser that accepts one text. -/
def junkEnv : Env :=
  ⟨fun s => if s = c!"<math><mi>x</mi></math> " then .ok [.elem c!"math" [] [.elem c!"mi" [] [.text c!"x"]]]
    else .error (.expat 9 1 24), isAsciiAlnum⟩

example : Closed junkEnv := by
  intro x d _ h
  unfold junkEnv at h
  by_cases hx : x = c!"<math><mi>x</mi></math> "
  · subst hx
    exact ⟨c!"<math><mi>x</mi></math", c!" ", rfl, by decide⟩
  · simp only [hx, if_false] at h
    cases h

example (x : Str) : NoInvalidToken junkEnv x := by
  intro n y line offset _ _ h
  unfold junkEnv at h
  simp only at h
  split at h
  · cases h
  · injection h with h
    injection h with h
    exact absurd h (by decide)

example : Consulted junkEnv c!"<math><mi>x</mi></math> <b>" 1 c!"<math><mi>x</mi></math> " :=
  .next .first (e := .expat 9 1 24) rfl
    (.generic (by decide) (.cut (a := c!"<math><mi>x</mi></math>") (m := c!"<b") (t := [])
      (by decide) (by decide) (by decide)))

example (doc w : Str) : ¬ ∃ d, (⟨fun _ => .error (.expat 11 1 10), isAsciiAlnum⟩ : Env).parse (doc ++ w) = .ok d :=
  fun ⟨_, h⟩ => by cases h

example : convert junkEnv c!"<math><mi>x</mi></math> <b>" = .ok c!"x" := by
  rw [C73_junk_removed junkEnv _ c!"<math><mi>x</mi></math>" c!"<b" [] 9 1 24
    [.elem c!"math" [] [.elem c!"mi" [] [.text c!"x"]]] (by decide +kernel)
    (by decide) (by decide) (by decide) rfl (by decide) rfl]
  rw [docResult_eq]
  decide +kernel

end Verif
