import Verif.Lemmas.Expat
import Verif.Props.Missing
import Verif.Props.Xml

/-!
# C70: attributes without a value, with a parser that reports positions like expat
-/

namespace Verif
open Spec Spec.Xml

/-- **C70** There are parsers that are correct and precise, so that the hypotheses of the following
theorems can be met. -/
theorem C70_parser_exists : Correct expatEnv ∧ Precise expatEnv := ⟨expatEnv_correct, expatEnv_precise⟩

theorem prep_oneLine (x : Str) : OneLine (prep x) := by
  intro c hc
  have := (dropMml_sublist _).subset hc
  simpa [dropBreaks, and_comm] using (List.mem_filter.1 this).2

theorem written_sub {S : Str → Bool} : ∀ (ts : List GapTok) (c : Char), c ∈ written S ts →
    c ∈ written (fun _ => true) ts
  | [], c, h => h
  | .ch a :: ts, c, h => by
    rcases List.mem_cons.1 h with rfl | h
    · exact .head _
    · exact .tail _ (written_sub ts c h)
  | .gap n :: ts, c, h => by
    show c ∈ (if true then n ++ ['='] else []) ++ _
    rw [if_pos rfl]
    rcases List.mem_append.1 h with h | h
    · split at h
      · exact List.mem_append_left _ h
      · cases h
    · exact List.mem_append_right _ (written_sub ts c h)

theorem Spec.Xml.AtEnds.placed {ts : List GapTok} (h : AtEnds ts) : Placed ts := by
  intro p n q e
  obtain ⟨h1, ⟨p', h2, _⟩, q', h3⟩ := h p n q e
  obtain ⟨h4, h5⟩ := Xml.attrName_chars h1
  refine ⟨h4, fun c hc => ?_, ⟨p', h2⟩, q', .inr h3⟩
  have := h5 c hc
  refine ⟨?_, ?_, ?_⟩ <;> (rintro rfl; revert this; decide)

theorem Spec.Xml.AtEnds.points {env : Env} (hp : Precise env) {ts : List GapTok} (h : AtEnds ts)
    (hl : OneLine (written (fun _ => true) ts)) : Points env ts := by
  intro S p n q e hS hf
  obtain ⟨h1, ⟨p', rfl, ht⟩, q', rfl⟩ := h p n q e
  have e1 : written S (p' ++ [.ch ' ']) = written (fun _ => false) p' ++ [' '] := by
    rw [written_congr (S' := fun _ => false) _ hf, written_append]
    rfl
  have e2 : written S ts =
      (written (fun _ => false) p' ++ ([' '] ++ n) ++ ([] ++ '=' :: [])) ++ '>' :: written S q' := by
    rw [e, written_append, e1]
    show _ ++ ((if S n then n ++ ['='] else []) ++ _) = _
    rw [if_pos hS]
    simp [written]
  refine ⟨(written (fun _ => false) p' ++ ([' '] ++ n) ++ ([] ++ '=' :: [])).length, ?_, ?_, ?_⟩
  · rw [e2]
    refine hp.1 _ [] [] '>' _ ⟨_, [' '], n, ht, by simp, by decide, h1, rfl⟩ (by simp) (by simp) ?_ (by decide)
      (by decide) (by decide)
    intro c hc
    exact hl c (written_sub (S := S) ts c (by rw [e2]; exact List.mem_append_left _ hc))
  · rw [e1]
    simp only [List.length_append, List.length_cons, List.length_nil]
    omega
  · rw [e1]
    simp only [List.length_append, List.length_cons, List.length_nil]
    omega

/-- **C70** If the attributes without a value stand at the ends of their tags and have at most four
different names, the text is converted as the document without these attributes. -/
theorem C70_at_the_end (env : Env) (hc : Correct env) (hp : Precise env) (x : Str) (ts : List GapTok)
    (names : List Str) (d : Doc) (hx : prep x = written (fun _ => true) ts) (he : AtEnds ts)
    (hap : Distinguished ts) (h4 : names.length ≤ 4) (hn : ∀ n, .gap n ∈ ts → n ∈ names)
    (hd : Document (written (fun _ => false) ts) d) : convert env x = docResult d :=
  C58_four_names env x ts names d hx he.placed hap (he.points hp (hx ▸ prep_oneLine x)) h4 hn (hc _ _ hd)

/-- **C70** With five or more different names it is a syntax error. -/
theorem C70_five_names (env : Env) (hp : Precise env) (x : Str) (ts : List GapTok) (names : List Str)
    (hx : prep x = written (fun _ => true) ts) (he : AtEnds ts) (hap : Distinguished ts)
    (h5 : 5 ≤ names.length) (hnd : names.Nodup) (hn : ∀ n ∈ names, .gap n ∈ ts) :
    ∃ o, convert env x = .error (.expat 4 1 o) :=
  C58_five_names env x ts names hx he.placed hap (he.points hp (hx ▸ prep_oneLine x)) h5 hnd hn

theorem only_gap : ∀ {p q A C : List GapTok} {n m : Str}, p ++ .gap n :: q = A ++ .gap m :: C →
    (∀ k, GapTok.gap k ∉ A) → (∀ k, GapTok.gap k ∉ C) → p = A ∧ n = m ∧ q = C
  | [], _, [], _, _, _, e, _, _ => by
    injection e with h1 h2
    injection h1 with h1
    exact ⟨rfl, h1, h2⟩
  | [], _, a :: A, _, n, _, e, hA, _ => by
    injection e with h1 h2
    exact absurd (by rw [← h1]; exact .head _) (hA n)
  | b :: p, q, [], _, n, _, e, _, hC => by
    injection e with h1 h2
    exact absurd (by rw [← h2]; exact List.mem_append_right _ (.head _)) (hC n)
  | b :: p, q, a :: A, _, _, _, e, hA, hC => by
    injection e with h1 h2
    obtain ⟨h3, h4, h5⟩ := only_gap h2 (fun k h => hA k (.tail _ h)) hC
    exact ⟨by rw [h1, h3], h4, h5⟩

/-- **C70** The case of one attribute: `x` is a text with `name=` at the end of one of its start tags. -/
theorem C70_one (env : Env) (hc : Correct env) (hp : Precise env) (x u name v : Str) (d : Doc)
    (hx : prep x = u ++ ' ' :: (name ++ '=' :: '>' :: v)) (hu : InTag u) (hn : AttrName name)
    (hq : ∀ a b, u ++ ' ' :: '>' :: v = a ++ (name ++ '=' :: b) → ¬ Unquoted b)
    (hd : Document (u ++ ' ' :: '>' :: v) d) : convert env x = docResult d := by
  have e : ∀ S, written S (u.map .ch ++ .ch ' ' :: .gap name :: .ch '>' :: v.map .ch) =
      u ++ ' ' :: ((if S name then name ++ ['='] else []) ++ '>' :: v) := by
    intro S
    rw [written_append, written_chars]
    show u ++ ' ' :: ((if S name then name ++ ['='] else []) ++ '>' :: written S (v.map .ch)) = _
    rw [written_chars]
  have hno : ∀ (x : Str) (m : Str), GapTok.gap m ∉ x.map GapTok.ch := by
    intro x m h
    obtain ⟨c, _, h⟩ := List.mem_map.1 h
    cases h
  have hmem : ∀ m, GapTok.gap m ∈ u.map GapTok.ch ++ .ch ' ' :: .gap name :: .ch '>' :: v.map .ch → m = name := by
    intro m h
    rcases List.mem_append.1 h with h | h
    · exact absurd h (hno u m)
    · rcases List.mem_cons.1 h with h | h
      · cases h
      · rcases List.mem_cons.1 h with h | h
        · injection h
        · rcases List.mem_cons.1 h with h | h
          · cases h
          · exact absurd h (hno v m)
  refine C70_at_the_end env hc hp x (u.map .ch ++ .ch ' ' :: .gap name :: .ch '>' :: v.map .ch) [name] d
    (by rw [hx, e]; simp) ?_ ?_ (by simp) (fun m h => by rw [hmem m h]; simp) (by rw [e]; simpa using hd)
  · intro p n q h
    have hp1 : p ++ .gap n :: q = (u.map GapTok.ch ++ [.ch ' ']) ++ .gap name :: .ch '>' :: v.map .ch := by
      rw [← h]; simp
    have h1 : ∀ m, GapTok.gap m ∉ u.map GapTok.ch ++ [.ch ' '] := by
      intro m h
      rcases List.mem_append.1 h with h | h
      · exact hno u m h
      · simp at h
    obtain ⟨rfl, rfl, rfl⟩ := only_gap hp1 h1 (fun m h => by
      rcases List.mem_cons.1 h with h | h
      · cases h
      · exact hno v m h)
    exact ⟨hn, ⟨_, rfl, by rw [written_chars]; exact hu⟩, _, rfl⟩
  · intro n h
    rw [hmem n h]
    refine ⟨fun a b hab => hq a b (by rw [← hab, e]; simp), fun m a hm hma => ?_⟩
    rw [hmem m hm] at hma
    have := congrArg List.length hma
    simp only [List.length_append] at this
    exact List.length_eq_zero_iff.1 (by omega)

/-! ## Other places

An attribute without a value that stands elsewhere in its tag is not what the library removes. -/

theorem Spec.Consulted.oneLine {env : Env} {x y : Str} {n : Nat} (h : Consulted env x n y) : OneLine y :=
  fun c hc => prep_oneLine x c (h.sublist.subset hc)

theorem Spec.Xml.OneLine.left {u v : Str} (h : OneLine (u ++ v)) : OneLine u :=
  fun c hc => h c (List.mem_append_left _ hc)

/-- **C70** If another attribute follows, after a blank, this other attribute is removed, and the one
without a value stays. -/
theorem C70_neighbour (env : Env) (hp : Precise env) (x y u e e' w post : Str) (c : Char) (n : Nat)
    (h : Consulted env x n y) (hy : y = u ++ (e ++ '=' :: e') ++ ' ' :: ((c :: w) ++ post)) (hu : Named u)
    (he : ∀ b ∈ e, blank b = true) (he' : ∀ b ∈ e', blank b = true)
    (hc : gap c = false ∧ c ≠ '"' ∧ c ≠ '\'') (hw : ' ' ∉ c :: w ∧ '>' ∉ c :: w)
    (hpost : ∃ rest, post = ' ' :: rest ∨ post = '>' :: rest)
    (hone : ∀ a b, y = a ++ ((c :: w) ++ b) → Unquoted b → a = u ++ (e ++ '=' :: e') ++ [' ']) :
    Consulted env x (n + 1) (u ++ (e ++ '=' :: e') ++ ' ' :: post) := by
  have h1 : y = u ++ (e ++ '=' :: (e' ++ [' '])) ++ c :: (w ++ post) := by rw [hy]; simp
  have h2 : OneLine (u ++ (e ++ '=' :: (e' ++ [' ']))) := (h1 ▸ h.oneLine).left
  have h3 := hp.1 u e (e' ++ [' ']) c (w ++ post) hu he (fun b hb => by
    rcases List.mem_append.1 hb with hb | hb
    · exact he' b hb
    · rw [List.mem_singleton.1 hb]; decide) h2 hc.1 hc.2.1 hc.2.2
  rw [← h1] at h3
  refine C58_one env x y _ (c :: w) n 1 _ h h3 (Nat.le_refl _)
    ⟨u ++ (e ++ '=' :: e'), post, hy, rfl, by simp, hw.1, hw.2, hpost, hone, ?_, ?_⟩
  · simp only [List.length_append, List.length_cons, List.length_nil]; omega
  · simp only [List.length_append, List.length_cons, List.length_nil]; omega

/-- **C70** At the end of an empty tag the slash is removed, too: what was an element is an open tag. -/
theorem C70_empty_tag (env : Env) (hp : Precise env) (x y t name v : Str) (n : Nat)
    (h : Consulted env x n y) (hy : y = t ++ ' ' :: (name ++ '=' :: '/' :: '>' :: v)) (ht : InTag t)
    (hn : AttrName name)
    (hone : ∀ a b, y = a ++ (name ++ '=' :: '/' :: b) → Unquoted b → a = t ++ [' ']) :
    Consulted env x (n + 1) (t ++ ' ' :: '>' :: v) := by
  have h1 : y = t ++ ([' '] ++ name) ++ ([] ++ '=' :: []) ++ '/' :: '>' :: v := by rw [hy]; simp
  have h2 : OneLine (t ++ ([' '] ++ name) ++ ([] ++ '=' :: [])) := (h1 ▸ h.oneLine).left
  have h3 := hp.1 (t ++ ([' '] ++ name)) [] [] '/' ('>' :: v) ⟨t, [' '], name, ht, by simp, by decide, hn, rfl⟩
    (by simp) (by simp) h2 (by decide) (by decide) (by decide)
  rw [← h1] at h3
  have h4 := (Xml.attrName_chars hn).2
  refine C58_one env x y _ (name ++ c!"=/") n 1 _ h h3 (Nat.le_refl _)
    ⟨t, '>' :: v, by rw [hy]; simp, rfl, by simp, ?_, ?_, ⟨v, .inr rfl⟩, fun a b hab => hone a b (by
      rw [hab]; simp), ?_, ?_⟩
  · intro hm
    rcases List.mem_append.1 hm with hm | hm
    · exact absurd (h4 _ hm) (by decide)
    · revert hm; decide
  · intro hm
    rcases List.mem_append.1 hm with hm | hm
    · exact absurd (h4 _ hm) (by decide)
    · revert hm; decide
  · simp only [List.length_append, List.length_cons, List.length_nil]; omega
  · simp only [List.length_append, List.length_cons, List.length_nil]; omega

theorem Spec.DeletedEq.same {s s' : Str} (h : DeletedEq s s') : DeletedEq s' s' := by
  induction h with
  | nil => exact .nil
  | delete _ _ ih => exact ih
  | @keep c s s' hc hs ih =>
    refine .keep (fun hk => hc ⟨hk.1, ?_⟩) ih
    intro d t e
    subst e
    cases hs with
    | delete h1 h2 => constructor <;> decide
    | keep h1 h2 => exact hk.2 _ _ rfl

theorem deletedEq_none : ∀ {s : Str}, (∀ a b, s = a ++ '=' :: b → ¬ Unquoted b) → DeletedEq s s
  | [], _ => .nil
  | c :: s, h => .keep (fun hc => h [] s (by rw [hc.1]; rfl) hc.2)
      (deletedEq_none fun a b e => h (c :: a) b (by rw [e]; rfl))

theorem deletedEq_one : ∀ {p q : Str}, Unquoted q →
    (∀ a b, p ++ '=' :: q = a ++ '=' :: b → Unquoted b → a = p) → DeletedEq (p ++ '=' :: q) (p ++ q)
  | [], q, hq, h => .delete hq (deletedEq_none fun a b e hb => by
      have := h ('=' :: a) b (by rw [e]; rfl) hb
      cases this)
  | c :: p, q, hq, h => .keep (fun hc => by
      have := h [] (p ++ '=' :: q) (by rw [hc.1]; rfl) hc.2
      cases this) (deletedEq_one hq fun a b e hb => by
      have := h (c :: a) b (by rw [List.cons_append, e]; rfl) hb
      injection this)

/-- **C70** If only white space, ending with a blank, follows, first the sign `=` is removed, and then
everything from the last blank in a tag to the last `>`. -/
theorem C70_blank_before_end (env : Env) (hp : Precise env) (x y z t name e v : Str) (n : Nat)
    (h : Consulted env x n y) (hy : y = t ++ ' ' :: name ++ '=' :: (e ++ ' ' :: '>' :: v)) (ht : InTag t)
    (hn : AttrName name) (he : ∀ b ∈ e, blank b = true)
    (hone : ∀ a b, y = a ++ '=' :: b → Unquoted b → a = t ++ ' ' :: name)
    (hz : Truncated (t ++ ' ' :: name ++ (e ++ ' ' :: '>' :: v)) z) :
    Consulted env x (n + 1) (t ++ ' ' :: name ++ (e ++ ' ' :: '>' :: v)) ∧ Consulted env x (n + 2) z := by
  have hb : ∀ b ∈ e ++ [' '], blank b = true := fun b hb => by
    rcases List.mem_append.1 hb with hb | hb
    · exact he b hb
    · rw [List.mem_singleton.1 hb]; decide
  have hN : Named (t ++ ' ' :: name) := ⟨t, [' '], name, ht, by simp, by decide, hn, rfl⟩
  have h1 : y = t ++ ' ' :: name ++ ([] ++ '=' :: (e ++ [' '])) ++ '>' :: v := by rw [hy]; simp
  have h2 : OneLine (t ++ ' ' :: name ++ ([] ++ '=' :: (e ++ [' ']))) := (h1 ▸ h.oneLine).left
  have h3 := hp.1 _ [] (e ++ [' ']) '>' v hN (by simp) hb h2 (by decide) (by decide) (by decide)
  rw [← h1] at h3
  have hq : Unquoted (e ++ ' ' :: '>' :: v) := by
    intro c s hc
    have : blank c = true := by
      cases e with
      | nil => injection hc with hc _; rw [← hc]; decide
      | cons b e => injection hc with hc _; rw [← hc]; exact he b (.head _)
    constructor <;> (rintro rfl; revert this; decide)
  have h4 : DeletedEq y (t ++ ' ' :: name ++ (e ++ ' ' :: '>' :: v)) := by
    rw [hy]; exact deletedEq_one hq fun a b hab => hone a b (hy.trans hab)
  have h5 : Consulted env x (n + 1) (t ++ ' ' :: name ++ (e ++ ' ' :: '>' :: v)) := by
    refine .next h h3 (.emptyWord (Nat.le_refl _) ?_ h4 ?_)
    · exact ⟨t ++ ' ' :: name ++ ([] ++ '=' :: (e ++ [' '])), [], [], '>' :: v, by rw [h1]; simp, by simp, rfl, by simp,
        .inr ⟨t ++ ' ' :: name ++ '=' :: e, by simp⟩, by simp, by simp, .inr ⟨v, .inr rfl⟩⟩
    · intro hc
      have := congrArg List.length (hc.trans hy)
      simp only [List.length_append, List.length_cons] at this
      omega
  refine ⟨h5, ?_⟩
  have h6 : t ++ ' ' :: name ++ (e ++ ' ' :: '>' :: v) = t ++ ' ' :: name ++ (e ++ [' ']) ++ '>' :: v := by simp
  have h7 := hp.2 _ (e ++ [' ']) '>' v hN hb ((h6 ▸ h5.oneLine).left) (by decide) (by decide) (by simp)
  rw [← h6] at h7
  refine .next h5 h7 (.emptyWordGeneric (Nat.le_refl _) ?_ h4.same hz)
  exact ⟨t ++ ' ' :: name ++ (e ++ [' ']), [], [], '>' :: v, by simp, by simp, rfl, by simp,
      .inr ⟨t ++ ' ' :: name ++ e, by simp⟩, by simp, by simp, .inr ⟨v, .inr rfl⟩⟩

/-! ## Instances -/

/-- Deciding, for a given text, that a word occurs only once except before a quotation mark. -/
theorem one_place (y w pre : Str) (h : ∀ i, i ≤ y.length → w.isPrefixOf (y.drop i) = true →
      i = pre.length ∨ ((y.drop i).drop w.length).head?.any (fun c => c == '"' || c == '\'') = true)
    (hy : y.take pre.length = pre) (a b : Str) (e : y = a ++ (w ++ b)) (hb : Unquoted b) : a = pre := by
  rcases h a.length (by rw [e]; simp) (by
    rw [e, List.drop_left]; exact List.isPrefixOf_iff_prefix.2 ⟨b, rfl⟩) with h | h
  · rw [← hy, ← h, e, List.take_left]
  · rw [e, List.drop_left, List.drop_left] at h
    cases b with
    | nil => simp at h
    | cons c b =>
      have := hb c b rfl
      simp [this.1, this.2] at h

theorem inTag_mi : InTag c!"<math><mi" :=
  ⟨c!"<math>", c!"mi", [], [], .down (p := []) (n := c!"math") (a := []) (as := []) (x := [])
    (.root (v := []) (m := []) (t := []) (k := []) (by decide) (.blanks (by simp)) (.inl rfl) (.blanks (by simp)))
    (by decide) (.nil (by simp)) (by unfold Distinct; decide) .nil, by decide, .nil (by simp), rfl⟩

/-- **C70**, an instance: one attribute without a value, at the end of its tag. -/
theorem C70_single (env : Env) (hc : Correct env) (hp : Precise env) :
    convert env c!"<math><mi a=>x</mi></math>" = .ok c!"x" := by
  have hd : Document c!"<math><mi >x</mi></math>" [.elem c!"math" [] [.elem c!"mi" [] [.text c!"x"]]] :=
    token_document (n := c!"mi") (a := c!" ") (t := c!"x") (by decide) (.nil (by decide)) (by unfold Distinct; decide)
      (by decide) (spelled_raw (by decide)) (by rintro ⟨p, q, e⟩; have := congrArg List.length e; simp at this; omega)
      (by decide)
  rw [C70_one env hc hp _ c!"<math><mi" c!"a" c!"x</mi></math>" _ (by decide +kernel) inTag_mi (.inl (by decide))
    (apart_of _ _ (by decide +kernel)) hd, docResult_eq]
  decide +kernel

example : convert expatEnv c!"<math><mi a=>x</mi></math>" = .ok c!"x" :=
  C70_single _ expatEnv_correct expatEnv_precise

/-- Deciding, for a given text, that no `>` comes after a blank. -/
theorem uncut (y : Str) (h : ∀ i, i ≤ y.length → (y.drop i).head? = some ' ' → '>' ∉ y.drop i) : Truncated y y := by
  refine .unchanged ?_
  rintro ⟨a, b, c, d, e⟩
  have h2 : y = (a ++ '<' :: b) ++ ' ' :: (c ++ '>' :: d) := by rw [e]; simp
  have h3 := h (a ++ '<' :: b).length (by
    have := congrArg List.length h2
    rw [List.length_append] at this
    omega)
  rw [h2, List.drop_left] at h3
  exact h3 rfl (by simp)

theorem stays {env : Env} {x y : Str} {n code line o : Nat} (hy : Truncated y y)
    (he : env.parse y = .error (.expat code line o)) (hcode : code ≠ 4) :
    ∀ k, Consulted env x n y → Consulted env x (n + k) y
  | 0, h => h
  | k + 1, h => .next (stays hy he hcode k h) he (.generic hcode hy)

/-- A text that is rejected, with another error than 4, and that the generic repair leaves alone, is the
last one: its error is the outcome of the call. -/
theorem dead_end {env : Env} {x y : Str} {n code line o : Nat} (hy : Truncated y y)
    (he : env.parse y = .error (.expat code line o)) (hcode : code ≠ 4)
    (h : Consulted env x n y) (hn : n ≤ 4) : convert env x = .error (.expat code line o) := by
  have h4 := stays hy he hcode (4 - n) h
  rw [Nat.add_sub_cancel' hn] at h4
  refine C06_last_error env x _ _ h4 he ?_
  rintro ⟨l, o', e, -⟩
  injection e with e
  exact hcode e

theorem blank_consulted {env : Env} (hp : Precise env) {x : Str} {n : Nat}
    (h : Consulted env x n c!"<math><mi a= >x</mi></math>") : Consulted env x (n + 2) c!"<math><mi a " :=
  (C70_blank_before_end env hp x c!"<math><mi a= >x</mi></math>" _ c!"<math><mi" c!"a" [] c!"x</mi></math>" n h
    (by decide) inTag_mi (.inl (by decide)) (by simp)
    (fun a b e => one_place _ c!"=" c!"<math><mi a" (by decide +kernel) (by decide) a b e)
    (.cut (a := c!"<math><mi a") (m := c!">x</mi></math") (t := []) (by decide) (by decide) (by decide))).2

/-- **C70**, an instance: with a blank before the `>` the text is not repaired.  The parser is asked to
say, about a text that ends within a tag, anything but that there is an invalid token; expat says that
there is an unclosed token. -/
theorem C70_blank_not_repaired (env : Env) (hp : Precise env) (code line o : Nat)
    (he : env.parse c!"<math><mi a " = .error (.expat code line o)) (hcode : code ≠ 4) :
    convert env c!"<math><mi a= >x</mi></math>" = .error (.expat code line o) :=
  dead_end (uncut _ (by decide +kernel)) he hcode (blank_consulted hp
    (show Consulted env _ 0 (prep c!"<math><mi a= >x</mi></math>") from .first)) (by decide)

/-- **C70**, an instance: with another attribute behind the one without a value, the text is not
repaired either. -/
theorem C70_before_another (env : Env) (hp : Precise env) (code line o : Nat)
    (he : env.parse c!"<math><mi a " = .error (.expat code line o)) (hcode : code ≠ 4) :
    convert env c!"<math><mi a= b='1'>x</mi></math>" = .error (.expat code line o) := by
  refine dead_end (n := 3) (uncut _ (by decide +kernel)) he hcode (blank_consulted hp ?_) (by decide)
  exact C70_neighbour env hp _ (prep c!"<math><mi a= b='1'>x</mi></math>") c!"<math><mi a" [] [] c!"='1'"
    c!">x</mi></math>" 'b' 0 .first (by decide +kernel)
    ⟨_, [' '], c!"a", inTag_mi, by simp, by decide, .inl (by decide), by decide⟩ (by simp) (by simp) (by decide)
    (by decide) ⟨_, .inr rfl⟩
    (fun a b e => one_place _ c!"b='1'" c!"<math><mi a= " (by decide +kernel) (by decide +kernel) a b e)

/-- The same without the attribute that has no value. -/
theorem C70_without_it (env : Env) (hc : Correct env) :
    convert env c!"<math><mi b='1'>x</mi></math>" = .ok c!"x" := by
  have hd : Document c!"<math><mi b='1'>x</mi></math>"
      [.elem c!"math" [] [.elem c!"mi" [(c!"b", c!"1")] [.text c!"x"]]] :=
    token_document (n := c!"mi") (a := c!" b='1'") (t := c!"x") (by decide)
      (.cons (w := [' ']) (n := c!"b") (e := []) (e' := []) (q := '\'') (v := c!"1") (d := c!"1") (x := []) (by decide)
        (by decide) (.inl (by decide)) (by simp) (by simp) (.inr rfl)
        (spelled_raw (by decide)) (.nil (by simp))) (by unfold Distinct; decide)
      (by decide) (spelled_raw (by decide)) (by rintro ⟨p, q, e⟩; have := congrArg List.length e; simp at this; omega)
      (by decide)
  rw [C61_convert env hc _ _ (show Document (prep c!"<math><mi b='1'>x</mi></math>") _ from hd), docResult_eq]
  decide +kernel

/-- **C70**, an instance: an empty tag becomes a start tag, so that the text is no XML any more. -/
theorem C70_empty_not_repaired (env : Env) (hp : Precise env) :
    Consulted env c!"<math><mspace a=/></math>" 1 c!"<math><mspace ></math>" ∧
      ¬ ∃ d, Document c!"<math><mspace ></math>" d := by
  refine ⟨C70_empty_tag env hp _ (prep c!"<math><mspace a=/></math>") c!"<math><mspace" c!"a" c!"</math>" 0 .first
    (by decide +kernel) ?_ (.inl (by decide))
    (fun a b e => one_place _ c!"a=/" c!"<math><mspace " (by decide +kernel) (by decide +kernel) a b e), ?_⟩
  · exact ⟨c!"<math>", c!"mspace", [], [], .down (p := []) (n := c!"math") (a := []) (as := []) (x := [])
      (.root (v := []) (m := []) (t := []) (k := []) (by decide) (.blanks (by simp)) (.inl rfl) (.blanks (by simp)))
      (by decide) (.nil (by simp)) (by unfold Distinct; decide) .nil, by decide, .nil (by simp), rfl⟩
  · rintro ⟨d, h⟩
    have h1 := Xml.read_of h
    have h2 : Xml.read c!"<math><mspace ></math>" = none := by decide +kernel
    rw [h2] at h1
    cases h1

/-- **C70**, an instance: so it is rejected.  The two hypotheses are what expat says: a closing tag that
does not fit, and an unclosed token. -/
theorem C70_empty_rejected (env : Env) (hp : Precise env) (code line o code' line' o' : Nat)
    (he : env.parse c!"<math><mspace ></math>" = .error (.expat code line o)) (hcode : code ≠ 4)
    (he' : env.parse c!"<math><mspace " = .error (.expat code' line' o')) (hcode' : code' ≠ 4) :
    convert env c!"<math><mspace a=/></math>" = .error (.expat code' line' o') :=
  dead_end (n := 2) (uncut _ (by decide +kernel)) he' hcode' (.next (C70_empty_not_repaired env hp).1 he
    (.generic hcode (.cut (a := c!"<math><mspace") (m := c!"></math") (t := []) (by decide) (by decide) (by decide))))
    (by decide)

example : convert expatEnv c!"<math><mi a= b='1'>x</mi></math>" = .error (.expat 5 1 0) :=
  C70_before_another _ expatEnv_precise _ _ _ (by rfl) (by decide)

example : convert expatEnv c!"<math><mi a= >x</mi></math>" = .error (.expat 5 1 0) :=
  C70_blank_not_repaired _ expatEnv_precise _ _ _ (by rfl) (by decide)

example : convert expatEnv c!"<math><mspace a=/></math>" = .error (.expat 5 1 0) :=
  C70_empty_rejected _ expatEnv_precise 5 1 0 _ _ _ (by rfl) (by decide) (by rfl) (by decide)


/-- `AtEnds`, read from the left. -/
def EndsFrom (acc ts : List GapTok) : Prop :=
  ∀ p n q, ts = p ++ .gap n :: q → AttrName n ∧
    (∃ p', acc ++ p = p' ++ [.ch ' '] ∧ InTag (written (fun _ => false) p')) ∧ ∃ q', q = .ch '>' :: q'

theorem endsFrom_nil {acc} : EndsFrom acc [] := fun p n q e => by cases p <;> cases e

theorem endsFrom_chars : ∀ {acc ts} (x : Str), EndsFrom (acc ++ x.map .ch) ts → EndsFrom acc (x.map .ch ++ ts)
  | acc, ts, [], h => by rwa [List.map_nil, List.append_nil] at h
  | acc, ts, c :: x, h => by
    have h1 : EndsFrom (acc ++ [.ch c]) (x.map .ch ++ ts) := endsFrom_chars x (by simpa using h)
    intro p n q e
    cases p with
    | nil => cases e
    | cons a p =>
      injection e with e1 e2
      subst e1
      obtain ⟨h2, ⟨p', h3, h4⟩, h5⟩ := h1 p n q e2
      exact ⟨h2, ⟨p', by rw [← h3]; simp, h4⟩, h5⟩

theorem endsFrom_gap {acc acc' ts n} (hn : AttrName n) (ha : acc = acc' ++ [.ch ' '])
    (ht : InTag (written (fun _ => false) acc')) (h : EndsFrom (acc ++ [.gap n]) (.ch '>' :: ts)) :
    EndsFrom acc (.gap n :: .ch '>' :: ts) := by
  intro p m q e
  cases p with
  | nil =>
    injection e with e1 e2
    injection e1 with e1
    subst e1
    exact ⟨hn, ⟨acc', by rw [List.append_nil, ha], ht⟩, _, e2.symm⟩
  | cons a p =>
    injection e with e1 e2
    subst e1
    obtain ⟨h2, ⟨p', h3, h4⟩, h5⟩ := h p m q e2
    exact ⟨h2, ⟨p', by rw [← h3]; simp, h4⟩, h5⟩

theorem inside_nil : Inside [] :=
  .root (v := []) (m := []) (t := []) (k := []) (by decide) (.blanks (by simp)) (.inl rfl) (.blanks (by simp))

theorem Spec.Xml.Inside.tag {p n : Str} (h : Inside p) (hn : Name n) : InTag (p ++ '<' :: n) :=
  ⟨p, n, [], [], h, hn, .nil (by simp), by simp⟩

theorem Spec.Xml.Inside.opened {p n : Str} (h : Inside p) (hn : Name n) : Inside (p ++ '<' :: (n ++ c!" >")) :=
  .down (a := c!" ") (as := []) (x := []) h hn (.nil (by decide)) (by unfold Distinct; decide) .nil

/-- A start tag with an attribute without a value. -/
def tagToks (n m : Str) : List GapTok := ('<' :: (n ++ [' '])).map .ch ++ [.gap m, .ch '>']

theorem endsFrom_tag {acc ts : List GapTok} {n m : Str} (hn : Name n) (hm : AttrName m)
    (hi : Inside (written (fun _ => false) acc))
    (h : Inside (written (fun _ => false) (acc ++ tagToks n m)) → EndsFrom (acc ++ tagToks n m) ts) :
    EndsFrom acc (tagToks n m ++ ts) := by
  have h1 : Inside (written (fun _ => false) (acc ++ tagToks n m)) := by
    rw [written_append, tagToks, written_append, written_chars]
    have := hi.opened hn
    simpa [written] using this
  rw [tagToks, List.append_assoc]
  refine endsFrom_chars _ (endsFrom_gap (acc' := acc ++ ('<' :: n).map .ch) hm (by simp) ?_ ?_)
  · rw [written_append, written_chars]
    exact hi.tag hn
  · refine endsFrom_chars ['>'] ?_
    have := h h1
    simpa [tagToks] using this

/-- A text with five attributes without a value, the first two of which have the same name. -/
def nestToks (e : Str) : List GapTok :=
  tagToks c!"math" c!"a" ++ (tagToks c!"mrow" c!"a" ++ (tagToks c!"mrow" c!"b" ++ (tagToks c!"mrow" c!"c" ++
    (tagToks c!"mrow" c!"d" ++ (tagToks c!"mi" e ++ (c!"x</mi></mrow></mrow></mrow></mrow></math>".map .ch ++ []))))))

theorem nestToks_atEnds {e : Str} (he : AttrName e) : AtEnds (nestToks e) := by
  show EndsFrom [] (nestToks e)
  refine endsFrom_tag (by decide) (.inl (by decide)) inside_nil fun h => ?_
  refine endsFrom_tag (by decide) (.inl (by decide)) h fun h => ?_
  refine endsFrom_tag (by decide) (.inl (by decide)) h fun h => ?_
  refine endsFrom_tag (by decide) (.inl (by decide)) h fun h => ?_
  refine endsFrom_tag (by decide) (.inl (by decide)) h fun h => ?_
  refine endsFrom_tag (by decide) he h fun h => ?_
  exact endsFrom_chars _ endsFrom_nil

theorem nestToks_gaps {e n : Str} (h : .gap n ∈ nestToks e) : n ∈ [c!"a", c!"b", c!"c", c!"d", e] := by
  simpa [nestToks, tagToks] using h

theorem nestToks_apart {e : Str} (he : e = c!"d" ∨ e = c!"e") : Distinguished (nestToks e) := by
  intro n hn
  have h1 := nestToks_gaps hn
  have h2 : ∀ k ∈ [c!"a", c!"b", c!"c", c!"d", e], ∃ c, k = [c] := by
    rcases he with rfl | rfl <;> simp
  refine ⟨?_, ?_⟩
  · have h3 : written (fun _ => false) (nestToks e) = written (fun _ => false) (nestToks c!"d") := by
      rcases he with rfl | rfl <;> decide
    rw [h3]
    have h4 : ∀ k ∈ [c!"a", c!"b", c!"c", c!"d", c!"e"], ∀ a b,
        written (fun _ => false) (nestToks c!"d") = a ++ (k ++ '=' :: b) → ¬ Unquoted b := by
      intro k _ a b e
      have : '=' ∉ written (fun _ => false) (nestToks c!"d") := by decide +kernel
      exact absurd (by rw [e]; simp) this
    refine h4 n ?_
    rcases he with rfl | rfl <;> simp at h1 ⊢ <;> grind
  · intro m a hm e
    obtain ⟨c, rfl⟩ := h2 _ (nestToks_gaps hm)
    obtain ⟨c', rfl⟩ := h2 _ h1
    have := congrArg List.length e
    simpa using this

/-- **C70**, an instance: five attributes without a value, of four names. -/
example : convert expatEnv c!"<math a=><mrow a=><mrow b=><mrow c=><mrow d=><mi d=>x</mi></mrow></mrow></mrow></mrow></math>"
    = .ok c!"x" := by
  rw [C70_at_the_end expatEnv expatEnv_correct expatEnv_precise _ (nestToks c!"d") [c!"a", c!"b", c!"c", c!"d"]
    [.elem c!"math" [] [.elem c!"mrow" [] [.elem c!"mrow" [] [.elem c!"mrow" [] [.elem c!"mrow" []
      [.elem c!"mi" [] [.text c!"x"]]]]]]] (by decide +kernel) (nestToks_atEnds (.inl (by decide)))
    (nestToks_apart (.inl rfl)) (by decide) (fun n h => by simpa using nestToks_gaps h) ?_, docResult_eq]
  · decide +kernel
  · have h0 : Content c!"x" [.text c!"x"] := .text (x := c!"x") (by decide) (spelled_raw (by decide))
      (by rintro ⟨p, q, e⟩; have := congrArg List.length e; simp at this; omega) (by simp [NoText]) .nil
    have ht : ∀ {n x ms}, Name n → Content x ms →
        Content ('<' :: (n ++ (c!" " ++ '>' :: (x ++ '<' :: '/' :: (n ++ ([] ++ '>' :: [])))))) [.elem n [] ms] :=
      fun hn h => .elem hn (.nil (by decide)) (by unfold Distinct; decide) h (by simp) .nil
    exact ⟨[], [], [], [], _, [], [], [], _, [], by rw [List.append_nil]; rfl, by decide, .blanks (by simp), .inl rfl,
      .blanks (by simp), ht (n := c!"math") (by decide) (ht (n := c!"mrow") (by decide) (ht (n := c!"mrow") (by decide)
        (ht (n := c!"mrow") (by decide) (ht (n := c!"mrow") (by decide) (ht (n := c!"mi") (by decide) h0))))), rfl,
      .blanks (by simp), rfl⟩

/-- **C70**, an instance: one name more. -/
example : ∃ o, convert expatEnv
    c!"<math a=><mrow a=><mrow b=><mrow c=><mrow d=><mi e=>x</mi></mrow></mrow></mrow></mrow></math>"
      = .error (.expat 4 1 o) :=
  C70_five_names expatEnv expatEnv_precise _ (nestToks c!"e") [c!"a", c!"b", c!"c", c!"d", c!"e"] (by decide +kernel)
    (nestToks_atEnds (.inl (by decide))) (nestToks_apart (.inr rfl)) (by decide) (by decide)
    (by intro n h; simp at h; simp [nestToks, tagToks]; grind)

end Verif
