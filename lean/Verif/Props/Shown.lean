import Verif.Spec.Shown
import Verif.Props.Layout
import Verif.Props.Context

/-! # Visible content is not lost (C35) and tables in tables (C29) -/

namespace Verif
open Spec

/-! ## Normalisation and parts of strings -/

theorem split_eq (s : Str) : split s = if (splitAux s).1 = [] then (splitAux s).2
    else (splitAux s).1 :: (splitAux s).2 := rfl

theorem join_cons_cons (c : Char) (w : Str) (ws : List Str) :
    join c!" " ((c :: w) :: ws) = c :: join c!" " (w :: ws) := by
  cases ws <;> simp [join]

theorem splitAux_cons (c : Char) (s : Str) : splitAux (c :: s) =
    if isSpace c then ([], split s) else (c :: (splitAux s).1, (splitAux s).2) := by
  rw [splitAux, split_eq]

theorem normalize_cons {c : Char} (h : isSpace c = false) (s : Str) :
    normalize (c :: s) = c :: join c!" " ((splitAux s).1 :: (splitAux s).2) := by
  unfold normalize
  rw [split_eq, splitAux_cons, h]
  simp only [Bool.false_eq_true, if_false, reduceCtorEq]
  rw [join_cons_cons]

theorem join_nil_cons (ws : List Str) (h : ws ≠ []) :
    join c!" " ([] :: ws) = ' ' :: join c!" " ws := by
  cases ws with
  | nil => exact absurd rfl h
  | cons w ws => simp [join]

theorem normalize_prefix_aux (b : Str) : ∀ t : Str,
    normalize t <+: normalize (t ++ b) ∧
    join c!" " ((splitAux t).1 :: (splitAux t).2) <+:
      join c!" " ((splitAux (t ++ b)).1 :: (splitAux (t ++ b)).2)
  | [] => by
    constructor
    · exact List.nil_prefix
    · simp only [splitAux, join]; exact List.nil_prefix
  | c :: t => by
    obtain ⟨hq, hr⟩ := normalize_prefix_aux b t
    by_cases hc : isSpace c = true
    · constructor
      · unfold normalize at *
        rw [List.cons_append, split_cons_space _ hc, split_cons_space _ hc]
        exact hq
      · rw [List.cons_append, splitAux_cons, splitAux_cons, if_pos hc, if_pos hc]
        by_cases h0 : split t = []
        · rw [h0]; exact List.nil_prefix
        · have h1 : split (t ++ b) ≠ [] := by
            intro h1
            unfold normalize at hq
            rw [h1] at hq
            have : join c!" " (split t) = [] := List.prefix_nil.1 hq
            exact join_ne_nil (split_good t) h0 this
          rw [join_nil_cons _ h0, join_nil_cons _ h1]
          exact (List.prefix_cons_inj ' ').2 hq
    · have hc : isSpace c = false := by simpa using hc
      have e : join c!" " ((splitAux (c :: t)).1 :: (splitAux (c :: t)).2) <+:
          join c!" " ((splitAux (c :: t ++ b)).1 :: (splitAux (c :: t ++ b)).2) := by
        rw [List.cons_append, splitAux_cons, splitAux_cons, hc]
        simp only [Bool.false_eq_true, if_false]
        rw [join_cons_cons, join_cons_cons]
        exact (List.prefix_cons_inj c).2 hr
      refine ⟨?_, e⟩
      rw [List.cons_append, normalize_cons hc, normalize_cons hc]
      exact (List.prefix_cons_inj c).2 hr

theorem normalize_suffix_cons (c : Char) (t : Str) : normalize t <:+ normalize (c :: t) := by
  by_cases hc : isSpace c = true
  · unfold normalize
    rw [split_cons_space _ hc]
    exact List.suffix_refl _
  · have hc : isSpace c = false := by simpa using hc
    rw [normalize_cons hc]
    unfold normalize
    rw [split_eq]
    split
    · rename_i h
      rw [h]
      by_cases h0 : (splitAux t).2 = []
      · rw [h0]; exact List.nil_suffix
      · rw [join_nil_cons _ h0]
        exact (List.suffix_cons _ _).trans (List.suffix_cons _ _)
    · exact List.suffix_cons _ _

theorem normalize_suffix (t : Str) : ∀ a : Str, normalize t <:+ normalize (a ++ t)
  | [] => List.suffix_refl _
  | c :: a => (normalize_suffix t a).trans (normalize_suffix_cons c (a ++ t))

/-- Normalisation keeps parts. -/
theorem normalize_infix {t s : Str} (h : t <:+: s) : normalize t <:+: normalize s := by
  obtain ⟨a, b, rfl⟩ := h
  rw [List.append_assoc]
  exact ((normalize_prefix_aux b t).1.isInfix).trans (normalize_suffix (t ++ b) a).isInfix

/-! ## Children in the LaTeX of the parent -/

theorem infix_append_of_left {a s t : Str} (h : a <:+: s) : a <:+: s ++ t :=
  h.trans (List.prefix_append s t).isInfix

theorem infix_append_of_right {a s t : Str} (h : a <:+: t) : a <:+: s ++ t :=
  h.trans (List.suffix_append s t).isInfix

theorem infix_flatten {s : Str} : ∀ {ss : List Str}, s ∈ ss → s <:+: ss.flatten
  | s' :: ss, h => by
    rw [List.flatten_cons]
    rcases List.mem_cons.1 h with rfl | h
    · exact infix_append_of_left List.infix_rfl
    · exact infix_append_of_right (infix_flatten h)

theorem infix_join {s sep : Str} : ∀ {ss : List Str}, s ∈ ss → s <:+: join sep ss
  | [x], h => by simp only [List.mem_singleton] at h; rw [h]; exact List.infix_rfl
  | x :: y :: ss, h => by
    rw [join]
    rcases List.mem_cons.1 h with rfl | h
    · exact infix_append_of_left (infix_append_of_left List.infix_rfl)
    · exact infix_append_of_right (infix_join h)

theorem infix_interleave {s : Str} : ∀ {ss : List Str} {sep : Nat → Str}, s ∈ ss →
    s <:+: interleave sep ss
  | [x], _, h => by simp only [List.mem_singleton] at h; rw [h]; exact List.infix_rfl
  | x :: y :: ss, sep, h => by
    rw [interleave]
    rcases List.mem_cons.1 h with rfl | h
    · exact infix_append_of_left (infix_append_of_left List.infix_rfl)
    · exact infix_append_of_right (infix_interleave h)

theorem infix_braces {a s : Str} (h : a <:+: s) : a <:+: braces s :=
  infix_append_of_left (infix_append_of_right h)

theorem infix_parens {a s : Str} (h : a <:+: s) : a <:+: parens s :=
  infix_append_of_left (infix_append_of_right h)

theorem infix_parensIfLong (s : Str) : s <:+: parensIfLong s := by
  unfold parensIfLong
  split
  · exact infix_parens List.infix_rfl
  · exact List.infix_rfl

theorem infix_parensIfSpace (s : Str) : s <:+: parensIfSpace s := by
  unfold parensIfSpace
  split
  · exact infix_parens List.infix_rfl
  · exact List.infix_rfl

theorem infix_scriptBase (n : Node) (s : Str) : s <:+: scriptBase n s := by
  unfold scriptBase
  split
  · exact infix_parensIfLong s
  · exact List.infix_rfl

theorem infix_environment {s env : Str} {ss : List Str} (h : s ∈ ss) : s <:+: environment env ss := by
  unfold environment
  refine infix_append_of_left (infix_append_of_left (infix_append_of_left ?_))
  exact infix_append_of_right (infix_flatten h)

theorem infix_matrix {s op close : Str} {ss : List Str} (h : s ∈ ss) :
    s <:+: matrix op close ss := by
  unfold matrix
  split
  · exact infix_environment h
  · split
    · exact infix_environment h
    · exact infix_append_of_left (infix_append_of_left (infix_append_of_right (infix_environment h)))

theorem mem_zip_of_left {α β : Type} {x : α} : ∀ {xs : List α} {ys : List β},
    xs.length = ys.length → x ∈ xs → ∃ y, (x, y) ∈ xs.zip ys ∧ y ∈ ys
  | x' :: xs, y :: ys, hl, h => by
    rcases List.mem_cons.1 h with rfl | h
    · exact ⟨y, by simp, by simp⟩
    · obtain ⟨z, h1, h2⟩ := mem_zip_of_left (by simpa using hl) h
      exact ⟨z, by simp [h1], by simp [h2]⟩
  | x' :: xs, [], hl, _ => by simp at hl

/-- The `mtable` flag for the children. -/
def tableFlag (b : Bool) (n : Node) : Bool := b || tagIs c!"mtable" n

theorem all_shown {b : Bool} {K : List Node} {ss : List Str} {c : Node} {s : Str}
    (hl : K.length = ss.length) (hr : ∀ p ∈ K.zip ss, Renders b p.1 p.2) (hc : c ∈ K)
    (hs : ∀ t ∈ ss, t <:+: s) : ∃ t, Renders b c t ∧ t <:+: s := by
  obtain ⟨t, h1, h2⟩ := mem_zip_of_left hl hc
  exact ⟨t, hr _ h1, hs t h2⟩

theorem mem_pairList {c : Node} {o : Option (Node × Node)} (h : c ∈ pairList o) :
    ∃ p q, o = some (p, q) ∧ (c = p ∨ c = q) := by
  rcases o with _ | ⟨p, q⟩
  · cases h
  · exact ⟨p, q, rfl, by simpa [pairList] using h⟩

/-- A shown child occurs in the LaTeX of its parent. -/
theorem Spec.Renders.shown {b : Bool} {n : Node} {s : Str} (h : Renders b n s) {c : Node}
    (hc : c ∈ selected n) : ∃ t, Renders (tableFlag b n) c t ∧
      normalize t <:+: normalize s ∧ (isMath n = false → t <:+: s) := by
  have wrap : ∀ {b : Bool} {n : Node} {s : Str}, (∃ t, Renders b c t ∧ t <:+: s) →
      ∃ t, Renders b c t ∧ normalize t <:+: normalize s ∧ (isMath n = false → t <:+: s) := by
    rintro b n s ⟨t, h1, h2⟩
    exact ⟨t, h1, normalize_infix h2, fun _ => h2⟩
  cases h with
  | @row _ tag A cs ss hst hl hr =>
    have e : tableFlag b (.elem tag A cs) = b := by
      have : (tag == c!"mtable") = false := tagIs_row hst (by decide)
      simp [tableFlag, tagIs, this]
    rw [e]
    have hne : ∀ t ∈ structured, tag ≠ t := fun t ht e => hst (e ▸ ht)
    have hk : selected (.elem tag A cs) = kids cs := by
      have h1 : tag ∉ leaves := fun h =>
        hst ((by decide : ∀ t ∈ leaves, t ∈ structured) tag h)
      rw [selected, if_neg h1, if_neg (fun h => hne _ (by decide) h.1), if_neg (hne _ (by decide))]
    rw [hk] at hc
    exact wrap (all_shown hl hr hc fun _ => infix_join)
  | @math _ A cs ss hl hr =>
    have e : tableFlag b (.elem c!"math" A cs) = b := by simp [tableFlag, tagIs]
    rw [e]
    obtain ⟨t, h1, h2⟩ := all_shown (s := join c!" " ss) hl hr hc fun _ => infix_join
    refine ⟨t, h1, ?_, fun h => by cases h⟩
    rw [normalize_idem]
    exact normalize_infix h2
  | mi _ => cases hc
  | mo _ => cases hc
  | mn _ => cases hc
  | mtext _ => cases hc
  | @msqrt _ A cs ss hl hr =>
    have e : tableFlag b (.elem c!"msqrt" A cs) = b := by simp [tableFlag, tagIs]
    rw [e]
    exact wrap (all_shown hl hr hc fun _ h => infix_append_of_right (infix_braces (infix_join h)))
  | @merror _ A cs ss hl hr =>
    have e : tableFlag b (.elem c!"merror" A cs) = b := by simp [tableFlag, tagIs]
    rw [e]
    exact wrap (all_shown hl hr hc fun _ h => infix_append_of_right (infix_braces (infix_join h)))
  | @menclose _ A cs ss hl hr =>
    have e : tableFlag b (.elem c!"menclose" A cs) = b := by simp [tableFlag, tagIs]
    rw [e]
    exact wrap (all_shown hl hr hc fun _ h => infix_append_of_left
      (infix_append_of_right (infix_join h)))
  | mphantom => cases hc
  | @mfrac _ A cs n d sn sd hk _ hn hd =>
    have e : tableFlag b (.elem c!"mfrac" A cs) = b := by simp [tableFlag, tagIs]
    rw [e]
    have hc : c ∈ kids cs := hc
    rw [hk] at hc
    simp only [List.mem_cons, List.not_mem_nil, or_false] at hc
    rcases hc with rfl | rfl
    · exact wrap ⟨_, hn, infix_append_of_left (infix_append_of_right (infix_braces List.infix_rfl))⟩
    · exact wrap ⟨_, hd, infix_append_of_right (infix_braces List.infix_rfl)⟩
  | @bevelled _ A cs n d sn sd hk _ hn hd =>
    have e : tableFlag b (.elem c!"mfrac" A cs) = b := by simp [tableFlag, tagIs]
    rw [e]
    have hc : c ∈ kids cs := hc
    rw [hk] at hc
    simp only [List.mem_cons, List.not_mem_nil, or_false] at hc
    rcases hc with rfl | rfl
    · exact wrap ⟨_, hn, infix_append_of_left (infix_append_of_left (infix_parensIfLong _))⟩
    · exact wrap ⟨_, hd, infix_append_of_right (infix_parensIfLong _)⟩
  | @mroot _ A cs n i sn si hk hn hi =>
    have e : tableFlag b (.elem c!"mroot" A cs) = b := by simp [tableFlag, tagIs]
    rw [e]
    have hc : c ∈ kids cs := hc
    rw [hk] at hc
    simp only [List.mem_cons, List.not_mem_nil, or_false] at hc
    rcases hc with rfl | rfl
    · exact wrap ⟨_, hn, infix_append_of_right (infix_braces List.infix_rfl)⟩
    · exact wrap ⟨_, hi, infix_append_of_left (infix_append_of_left (infix_append_of_right
        List.infix_rfl))⟩
  | @msup _ A cs x e sx se hk hx he =>
    have e' : tableFlag b (.elem c!"msup" A cs) = b := by simp [tableFlag, tagIs]
    rw [e']
    have hc : c ∈ kids cs := hc
    rw [hk] at hc
    simp only [List.mem_cons, List.not_mem_nil, or_false] at hc
    rcases hc with rfl | rfl
    · exact wrap ⟨_, hx, infix_append_of_left (infix_append_of_left (infix_scriptBase _ _))⟩
    · exact wrap ⟨_, he, infix_append_of_right (infix_braces List.infix_rfl)⟩
  | @msub _ A cs x e sx se hk hx he =>
    have e' : tableFlag b (.elem c!"msub" A cs) = b := by simp [tableFlag, tagIs]
    rw [e']
    have hc : c ∈ kids cs := hc
    rw [hk] at hc
    simp only [List.mem_cons, List.not_mem_nil, or_false] at hc
    rcases hc with rfl | rfl
    · exact wrap ⟨_, hx, infix_append_of_left (infix_append_of_left (infix_scriptBase _ _))⟩
    · exact wrap ⟨_, he, infix_append_of_right (infix_braces List.infix_rfl)⟩
  | @msubsup _ A cs x d e sx sd se hk hx hd he =>
    have e' : tableFlag b (.elem c!"msubsup" A cs) = b := by simp [tableFlag, tagIs]
    rw [e']
    have hc : c ∈ kids cs := hc
    rw [hk] at hc
    simp only [List.mem_cons, List.not_mem_nil, or_false] at hc
    rcases hc with rfl | rfl | rfl
    · exact wrap ⟨_, hx, infix_append_of_left (infix_append_of_left (infix_append_of_left
        (infix_append_of_left (infix_scriptBase _ _))))⟩
    · exact wrap ⟨_, hd, infix_append_of_left (infix_append_of_left (infix_append_of_right
        (infix_braces List.infix_rfl)))⟩
    · exact wrap ⟨_, he, infix_append_of_right (infix_braces List.infix_rfl)⟩
  | @munder _ A cs x a sx sa hk hx ha =>
    have e' : tableFlag b (.elem c!"munder" A cs) = b := by simp [tableFlag, tagIs]
    rw [e']
    have hc : c ∈ kids cs := hc
    rw [hk] at hc
    simp only [List.mem_cons, List.not_mem_nil, or_false] at hc
    unfold stacked
    rcases hc with rfl | rfl
    · refine wrap ⟨_, hx, ?_⟩
      split <;> exact infix_append_of_right (infix_braces List.infix_rfl)
    · refine wrap ⟨_, ha, ?_⟩
      split
      · exact infix_append_of_left List.infix_rfl
      · exact infix_append_of_left (infix_append_of_right (infix_braces List.infix_rfl))
  | @mover _ A cs x a sx sa hk hx ha =>
    have e' : tableFlag b (.elem c!"mover" A cs) = b := by simp [tableFlag, tagIs]
    rw [e']
    have hc : c ∈ kids cs := hc
    rw [hk] at hc
    simp only [List.mem_cons, List.not_mem_nil, or_false] at hc
    unfold stacked
    rcases hc with rfl | rfl
    · refine wrap ⟨_, hx, ?_⟩
      split <;> exact infix_append_of_right (infix_braces List.infix_rfl)
    · refine wrap ⟨_, ha, ?_⟩
      split
      · exact infix_append_of_left List.infix_rfl
      · exact infix_append_of_left (infix_append_of_right (infix_braces List.infix_rfl))
  | @munderover _ A cs x d e sx sd se hk hx hd he =>
    have e' : tableFlag b (.elem c!"munderover" A cs) = b := by simp [tableFlag, tagIs]
    rw [e']
    have hc : c ∈ kids cs := hc
    rw [hk] at hc
    simp only [List.mem_cons, List.not_mem_nil, or_false] at hc
    rcases hc with rfl | rfl | rfl
    · exact wrap ⟨_, hx, infix_append_of_left (infix_append_of_left (infix_append_of_left
        (infix_append_of_left List.infix_rfl)))⟩
    · exact wrap ⟨_, hd, infix_append_of_left (infix_append_of_left (infix_append_of_right
        (infix_braces List.infix_rfl)))⟩
    · exact wrap ⟨_, he, infix_append_of_right (infix_braces List.infix_rfl)⟩
  | @mmultiscripts _ A cs x ks sx s1 s2 s3 s4 hk _ hx h1 h2 h3 h4 =>
    have e' : tableFlag b (.elem c!"mmultiscripts" A cs) = b := by simp [tableFlag, tagIs]
    rw [e']
    have hc : c ∈ (kids cs).take 1 ++ pairList (prePair (kids cs)) ++ pairList (postPair (kids cs)) := hc
    rw [List.mem_append, List.mem_append] at hc
    have hs1 : ∀ (pre u v : Str) o, o.isSome = true → u <:+: scripts pre o u v := by
      intro pre u v o ho
      unfold scripts
      rw [if_pos ho]
      exact infix_append_of_left (infix_append_of_left (infix_append_of_right
        (infix_braces List.infix_rfl)))
    have hs2 : ∀ (pre u v : Str) o, o.isSome = true → v <:+: scripts pre o u v := by
      intro pre u v o ho
      unfold scripts
      rw [if_pos ho]
      exact infix_append_of_right (infix_braces List.infix_rfl)
    rcases hc with (hc | hc) | hc
    · rw [hk] at hc
      simp only [List.take_succ_cons, List.take_zero, List.mem_cons, List.not_mem_nil, or_false] at hc
      subst hc
      exact wrap ⟨_, hx, infix_append_of_left (infix_append_of_right (infix_parensIfSpace _))⟩
    · obtain ⟨p, q, ho, rfl | rfl⟩ := mem_pairList hc
      · exact wrap ⟨_, h1 _ _ ho, infix_append_of_left (infix_append_of_left
          (hs1 _ _ _ _ (by rw [ho]; rfl)))⟩
      · exact wrap ⟨_, h2 _ _ ho, infix_append_of_left (infix_append_of_left
          (hs2 _ _ _ _ (by rw [ho]; rfl)))⟩
    · obtain ⟨p, q, ho, rfl | rfl⟩ := mem_pairList hc
      · exact wrap ⟨_, h3 _ _ ho, infix_append_of_right (hs1 _ _ _ _ (by rw [ho]; rfl))⟩
      · exact wrap ⟨_, h4 _ _ ho, infix_append_of_right (hs2 _ _ _ _ (by rw [ho]; rfl))⟩
  | @toggle _ A cs ss ht hl hr =>
    have e : tableFlag b (.elem c!"maction" A cs) = b := by simp [tableFlag, tagIs]
    rw [e]
    have hk : selected (.elem c!"maction" A cs) = kids cs := by
      rw [selected, if_neg (by decide), if_neg (fun h => h.2 ht), if_neg (by decide)]
    rw [hk] at hc
    exact wrap (all_shown hl hr hc fun _ => infix_join)
  | @maction _ A cs x ks s ht hk hx =>
    have e : tableFlag b (.elem c!"maction" A cs) = b := by simp [tableFlag, tagIs]
    rw [e]
    have hk' : selected (.elem c!"maction" A cs) = [x] := by
      rw [selected, if_neg (by decide), if_pos ⟨rfl, ht⟩, hk]; rfl
    rw [hk'] at hc
    simp only [List.mem_singleton] at hc
    subst hc
    exact wrap ⟨_, hx, List.infix_rfl⟩
  | @mfenced _ A cs ss _ hl hr =>
    have e : tableFlag b (.elem c!"mfenced" A cs) = b := by simp [tableFlag, tagIs]
    rw [e]
    exact wrap (all_shown hl hr hc fun _ h => infix_append_of_left (infix_append_of_left
      (infix_append_of_right (infix_interleave h))))
  | @matrix _ A cs ss _ hl hr =>
    have e : tableFlag b (.elem c!"mfenced" A cs) = b := by simp [tableFlag, tagIs]
    rw [e]
    exact wrap (all_shown hl hr hc fun _ h => infix_matrix h)
  | @mtable A cs ss _ hl hr =>
    have e : tableFlag false (.elem c!"mtable" A cs) = true := by simp [tableFlag, tagIs]
    rw [e]
    exact wrap (all_shown hl hr hc fun _ => infix_join)
  | @innerTable _ A cs ss _ hl hr =>
    have e : tableFlag b (.elem c!"mtable" A cs) = true := by simp [tableFlag, tagIs]
    rw [e]
    exact wrap (all_shown hl hr hc fun _ h => infix_append_of_left (infix_append_of_right
      (infix_join h)))
  | @mtr _ A cs ss hl hr =>
    have e : tableFlag b (.elem c!"mtr" A cs) = b := by simp [tableFlag, tagIs]
    rw [e]
    exact wrap (all_shown hl hr hc fun _ => infix_join)

theorem selected_isElem {n c : Node} (h : c ∈ selected n) : c.isElem = true := by
  have h := selected_sub h
  cases n with
  | elem tag A cs => exact (List.mem_filter.1 h).2
  | _ => cases h

/-- **C35** A visible part of a rendered element is rendered, and its LaTeX occurs in that of the
element: literally if no `math` element is passed on the way, and up to whitespace otherwise. -/
theorem C35_element {n m : Node} {path : List Node} (hs : Shown n path m) :
    ∀ (b : Bool) (s : Str), n.isElem = true → latexIn b n = .ok s →
    ∃ t, latexIn (b || path.any (tagIs c!"mtable")) m = .ok t ∧ normalize t <:+: normalize s ∧
      ((∀ a ∈ path, isMath a = false) → t <:+: s) := by
  induction hs with
  | self =>
    intro b s _ h
    exact ⟨s, by simpa using h, List.infix_rfl, fun _ => List.infix_rfl⟩
  | @down n c path m hc _ ih =>
    intro b s hn h
    obtain ⟨t, h1, h2, h3⟩ := ((renders_iff hn b s).2 h).shown hc
    have hce := selected_isElem hc
    obtain ⟨u, g1, g2, g3⟩ := ih (tableFlag b n) t hce ((renders_iff hce _ _).1 h1)
    refine ⟨u, ?_, g2.trans h2, fun hp => ?_⟩
    · rw [← g1]
      simp only [tableFlag, List.any_cons, Bool.or_assoc]
    · exact (g3 fun a ha => hp a (List.mem_cons_of_mem _ ha)).trans (h3 (hp n List.mem_cons_self))

/-- **C35** at the API: what is visible in some `math` element of the input occurs in the output,
up to whitespace. -/
theorem C35_nothing_lost (env : Env) (x : Str) (d : Doc) (hd : ParsesTo env x d) (s : Str)
    (h : convert env x = .ok s) (root : Node) (hr : root ∈ maths d) (path : List Node) (m : Node)
    (hm : Shown root path m) :
    ∃ t, latexIn (path.any (tagIs c!"mtable")) m = .ok t ∧ normalize t <:+: s := by
  rw [hd.convert] at h
  obtain ⟨ss, h1, rfl⟩ := (C04_document_order d s).1 h
  have h2 : latexOf root ∈ (maths d).map latexOf := List.mem_map.2 ⟨root, hr, rfl⟩
  rw [h1] at h2
  obtain ⟨u, hu, he⟩ := List.mem_map.1 h2
  rw [latexOf_eq] at he
  have hroot := maths_isMath root hr
  have hn : root.isElem = true := by cases root <;> first | rfl | cases hroot
  obtain ⟨t, g1, g2, _⟩ := C35_element hm false u hn he.symm
  refine ⟨t, by simpa using g1, ?_⟩
  rw [(latexIn_math_normal hroot he.symm).normalize_eq] at g2
  exact g2.trans (infix_flatten hu)

/-- The rendering of a token does not depend on enclosing tables. -/
theorem token_flag {n : Node} (h : isToken n = true) (b b' : Bool) : latexIn b n = latexIn b' n := by
  cases n with
  | elem tag A cs =>
    simp only [isToken, tagIs, Bool.or_eq_true, beq_iff_eq] at h
    rcases h with ((rfl | rfl) | rfl) | rfl
    · rw [latexIn_mi, latexIn_mi]
    · rw [latexIn_mo, latexIn_mo]
    · rw [latexIn_mn, latexIn_mn]
    · rw [latexIn_mtext, latexIn_mtext]
  | _ => simp [isToken, tagIs] at h

/-- **C35** for tokens: a visible token looks the same everywhere, and its LaTeX is in the output. -/
theorem C35_tokens (env : Env) (x : Str) (d : Doc) (hd : ParsesTo env x d) (s : Str)
    (h : convert env x = .ok s) (root : Node) (hr : root ∈ maths d) (path : List Node) (m : Node)
    (hm : Shown root path m) (ht : isToken m = true) :
    ∃ t, latexOf m = .ok t ∧ normalize t <:+: s := by
  obtain ⟨t, h1, h2⟩ := C35_nothing_lost env x d hd s h root hr path m hm
  exact ⟨t, by rw [latexOf_eq, token_flag ht _ _]; exact h1, h2⟩

/-! ### All tokens at once -/

theorem shownTokens_eq (n : Node) :
    shownTokens n = if isToken n then [n] else (printed n).flatMap shownTokens := by
  rw [shownTokens]
  congr 1
  simp [List.flatMap_subtype]

theorem Spec.Scattered.left {ts : List Str} {s : Str} (g : Str) (h : Scattered ts s) :
    Scattered ts (g ++ s) := by
  cases h with
  | nil => exact .nil
  | @cons g' t ts s h =>
    rw [← List.append_assoc, ← List.append_assoc]
    exact .cons h

theorem Spec.Scattered.append {ts us : List Str} {s u : Str} (h : Scattered ts s)
    (h' : Scattered us u) : Scattered (ts ++ us) (s ++ u) := by
  induction h with
  | nil => exact h'.left _
  | cons _ ih =>
    rw [List.append_assoc, List.cons_append]
    exact .cons ih

theorem Spec.Scattered.right {ts : List Str} {s : Str} (g : Str) (h : Scattered ts s) :
    Scattered ts (s ++ g) := by
  have := h.append (us := []) (u := g) .nil
  rwa [List.append_nil] at this

/-- Pieces up to whitespace. -/
def Inked (ts : List Str) (s : Str) : Prop := Scattered (ts.map ink) (ink s)

theorem ink_append (s t : Str) : ink (s ++ t) = ink s ++ ink t := List.filter_append ..

theorem Inked.nil {s : Str} : Inked [] s := Scattered.nil

theorem Inked.left {ts : List Str} {s : Str} (g : Str) (h : Inked ts s) : Inked ts (g ++ s) := by
  unfold Inked; rw [ink_append]; exact Scattered.left _ h

theorem Inked.right {ts : List Str} {s : Str} (g : Str) (h : Inked ts s) : Inked ts (s ++ g) := by
  unfold Inked; rw [ink_append]; exact Scattered.right _ h

theorem Inked.append {ts us : List Str} {s u : Str} (h : Inked ts s) (h' : Inked us u) :
    Inked (ts ++ us) (s ++ u) := by
  unfold Inked; rw [ink_append, List.map_append]; exact Scattered.append h h'

theorem Inked.self (s : Str) : Inked [s] s := by
  have : Scattered [ink s] ([] ++ ink s ++ []) := .cons .nil
  simpa [Inked] using this

theorem ink_join_splitAux : ∀ s : Str,
    ink (join c!" " (split s)) = ink s ∧
    ink (join c!" " ((splitAux s).1 :: (splitAux s).2)) = ink s
  | [] => by decide
  | c :: s => by
    obtain ⟨h1, h2⟩ := ink_join_splitAux s
    by_cases hc : isSpace c = true
    · have e : ink (c :: s) = ink s := by simp [ink, hc]
      rw [e, split_cons_space _ hc, splitAux_cons, if_pos hc]
      refine ⟨h1, ?_⟩
      by_cases h0 : split s = []
      · rw [← h1, h0]; decide
      · simp only
        rw [join_nil_cons _ h0, ← h1]
        simp [ink, isSpace_blank]
    · have hc : isSpace c = false := by simpa using hc
      have e : ink (c :: s) = c :: ink s := by simp [ink, hc]
      have e2 : ∀ t, ink (c :: t) = c :: ink t := by intro t; simp [ink, hc]
      have := normalize_cons hc s
      unfold normalize at this
      rw [this, e2, e, h2, splitAux_cons, hc]
      simp only [Bool.false_eq_true, if_false]
      rw [join_cons_cons, e2, h2]
      simp

/-- Normalisation loses only whitespace. -/
theorem ink_normalize (s : Str) : ink (normalize s) = ink s := (ink_join_splitAux s).1

/-- The LaTeX strings of tokens. -/
def TokenLatex (ns : List Node) (ts : List Str) : Prop := ns.map latexOf = ts.map .ok

theorem TokenLatex.append {ns ms : List Node} {ts us : List Str} (h : TokenLatex ns ts)
    (h' : TokenLatex ms us) : TokenLatex (ns ++ ms) (ts ++ us) := by
  unfold TokenLatex at *; rw [List.map_append, List.map_append, h, h']

/-- All visible tokens of `ns` occur in `s`. -/
def Traces (ns : List Node) (s : Str) : Prop :=
  ∃ ts, TokenLatex (ns.flatMap shownTokens) ts ∧ Inked ts s

theorem Traces.nil {s : Str} : Traces [] s := ⟨[], rfl, .nil⟩

theorem Traces.append {ns ms : List Node} {s u : Str} (h : Traces ns s) (h' : Traces ms u) :
    Traces (ns ++ ms) (s ++ u) := by
  obtain ⟨ts, h1, h2⟩ := h
  obtain ⟨us, g1, g2⟩ := h'
  exact ⟨ts ++ us, by rw [List.flatMap_append]; exact h1.append g1, h2.append g2⟩

theorem Traces.left {ns : List Node} {s : Str} (g : Str) (h : Traces ns s) : Traces ns (g ++ s) := by
  obtain ⟨ts, h1, h2⟩ := h
  exact ⟨ts, h1, h2.left g⟩

theorem Traces.right {ns : List Node} {s : Str} (g : Str) (h : Traces ns s) :
    Traces ns (s ++ g) := by
  obtain ⟨ts, h1, h2⟩ := h
  exact ⟨ts, h1, h2.right g⟩

theorem Traces.braces {ns : List Node} {s : Str} (h : Traces ns s) : Traces ns (braces s) :=
  (h.left _).right _

theorem Traces.parensIfLong {ns : List Node} {s : Str} (h : Traces ns s) :
    Traces ns (parensIfLong s) := by
  unfold Spec.parensIfLong
  split
  · exact (h.left _).right _
  · exact h

theorem Traces.parensIfSpace {ns : List Node} {s : Str} (h : Traces ns s) :
    Traces ns (parensIfSpace s) := by
  unfold Spec.parensIfSpace
  split
  · exact (h.left _).right _
  · exact h

theorem Traces.scriptBase {ns : List Node} {n : Node} {s : Str} (h : Traces ns s) :
    Traces ns (scriptBase n s) := by
  unfold Spec.scriptBase
  split
  · exact h.parensIfLong
  · exact h

theorem Traces.normalize {ns : List Node} {s : Str} (h : Traces ns s) : Traces ns (normalize s) := by
  obtain ⟨ts, h1, h2⟩ := h
  refine ⟨ts, h1, ?_⟩
  unfold Inked
  rw [ink_normalize]
  exact h2

/-- Node by node. -/
inductive TracesAll : List Node → List Str → Prop
  | nil : TracesAll [] []
  | cons {n s ns ss} : Traces [n] s → TracesAll ns ss → TracesAll (n :: ns) (s :: ss)

theorem tracesAll {ns : List Node} {ss : List Str} (hl : ns.length = ss.length)
    (h : ∀ p ∈ ns.zip ss, Traces [p.1] p.2) : TracesAll ns ss := by
  induction ns generalizing ss with
  | nil =>
    cases ss with
    | nil => exact .nil
    | cons s ss => simp at hl
  | cons n ns ih =>
    cases ss with
    | nil => simp at hl
    | cons s ss =>
      exact .cons (h (n, s) (by simp)) (ih (by simpa using hl) fun p hp => h p (by simp [hp]))

theorem TracesAll.flatten {ns : List Node} {ss : List Str} (h : TracesAll ns ss) :
    Traces ns ss.flatten := by
  induction h with
  | nil => exact .nil
  | cons h1 _ ih => exact h1.append ih

theorem TracesAll.join {ns : List Node} {ss : List Str} (sep : Str) (h : TracesAll ns ss) :
    Traces ns (join sep ss) := by
  induction h with
  | nil => exact .nil
  | cons h1 h2 ih =>
    cases h2 with
    | nil => exact h1
    | cons _ _ => exact (h1.right sep).append ih

theorem TracesAll.interleave {ns : List Node} {ss : List Str} (h : TracesAll ns ss) :
    ∀ sep, Traces ns (interleave sep ss) := by
  induction h with
  | nil => exact fun _ => .nil
  | cons h1 h2 ih =>
    cases h2 with
    | nil => exact fun _ => h1
    | cons _ _ => exact fun sep => (h1.right (sep 0)).append (ih _)

theorem TracesAll.environment {ns : List Node} {ss : List Str} (h : TracesAll ns ss) (env : Str) :
    Traces ns (environment env ss) := by
  unfold Spec.environment
  exact (((h.flatten.left _).right _).right _).right _

theorem TracesAll.matrix {ns : List Node} {ss : List Str} (h : TracesAll ns ss) (op close : Str) :
    Traces ns (matrix op close ss) := by
  unfold Spec.matrix
  split
  · exact h.environment _
  · split
    · exact h.environment _
    · exact (((h.environment _).left _).right _).right _

theorem Traces.stacked {x a : Node} {cmd sx sa : Str} (hx : Traces [x] sx) (ha : Traces [a] sa) :
    Traces [a, x] (stacked cmd sx sa) := by
  unfold Spec.stacked
  split
  · exact ha.append hx.braces
  · exact (ha.braces.left cmd).append hx.braces

theorem Traces.scripts {lead : Str} {pq : Option (Node × Node)} {u v : Str}
    (h1 : ∀ p q, pq = some (p, q) → Traces [p] u) (h2 : ∀ p q, pq = some (p, q) → Traces [q] v) :
    Traces (pairList pq) (scripts lead pq u v) := by
  rcases pq with _ | ⟨p, q⟩
  · exact .nil
  · exact (((h1 p q rfl).braces.left lead).right _).append (h2 p q rfl).braces

theorem Traces.of_printed {n : Node} {s : Str} (ht : isToken n = false) (h : Traces (printed n) s) :
    Traces [n] s := by
  obtain ⟨ts, h1, h2⟩ := h
  refine ⟨ts, ?_, h2⟩
  rw [List.flatMap_cons, List.flatMap_nil, List.append_nil, shownTokens_eq, ht]
  exact h1

theorem Traces.token {b : Bool} {n : Node} {s : Str} (ht : isToken n = true)
    (h : latexIn b n = .ok s) : Traces [n] s := by
  refine ⟨[s], ?_, .self s⟩
  rw [List.flatMap_cons, List.flatMap_nil, List.append_nil, shownTokens_eq, ht]
  unfold TokenLatex
  simp [latexOf_eq, token_flag ht false b, h]

theorem Spec.Renders.traces {b : Bool} {n : Node} {s : Str} (h : Renders b n s) : Traces [n] s := by
  induction h with
  | @row b tag A cs ss hst hl hr ih =>
    have hne : ∀ t ∈ structured, tag ≠ t := fun t ht e => hst (e ▸ ht)
    have hp : printed (.elem tag A cs) = kids cs := by
      rw [printed, if_neg, if_neg (hne _ (by decide)), selected, if_neg, if_neg, if_neg]
      · exact hne _ (by decide)
      · exact fun h => hne _ (by decide) h.1
      · exact fun h => hst ((by decide : ∀ t ∈ leaves, t ∈ structured) tag h)
      · exact fun h => hst ((by decide : ∀ t ∈ [c!"mroot", c!"mover", c!"munder"],
          t ∈ structured) tag h)
    refine .of_printed ?_ (hp ▸ (tracesAll hl ih).join _)
    simp [isToken, tagIs, hne c!"mi" (by decide), hne c!"mo" (by decide), hne c!"mn" (by decide),
      hne c!"mtext" (by decide)]
  | math hl hr ih => exact .of_printed rfl ((tracesAll hl ih).join _).normalize
  | mi h => exact .token (b := false) rfl (Renders.mi h).sound
  | mo h => exact .token (b := false) rfl (Renders.mo h).sound
  | mn h => exact .token (b := false) rfl (Renders.mn h).sound
  | mtext h => exact .token (b := false) rfl (Renders.mtext h).sound
  | msqrt hl hr ih => exact .of_printed rfl (((tracesAll hl ih).join _).braces.left _)
  | merror hl hr ih => exact .of_printed rfl (((tracesAll hl ih).join _).braces.left _)
  | menclose hl hr ih => exact .of_printed rfl ((((tracesAll hl ih).join _).left _).right _)
  | mphantom => exact .of_printed rfl .nil
  | @mfrac b A cs n d sn sd hk _ _ _ ih1 ih2 =>
    refine .of_printed rfl ?_
    have hp : printed (.elem c!"mfrac" A cs) = [n, d] := hk
    rw [hp]
    exact (ih1.braces.left _).append ih2.braces
  | @bevelled b A cs n d sn sd hk _ _ _ ih1 ih2 =>
    refine .of_printed rfl ?_
    have hp : printed (.elem c!"mfrac" A cs) = [n, d] := hk
    rw [hp]
    exact (ih1.parensIfLong.right _).append ih2.parensIfLong
  | @mroot b A cs n i sn si hk _ _ ih1 ih2 =>
    refine .of_printed rfl ?_
    have hp : printed (.elem c!"mroot" A cs) = (kids cs).reverse := rfl
    rw [hp, hk]
    exact ((ih2.left _).right _).append ih1.braces
  | @msup b A cs x e sx se hk _ _ ih1 ih2 =>
    refine .of_printed rfl ?_
    have hp : printed (.elem c!"msup" A cs) = [x, e] := hk
    rw [hp]
    exact (ih1.scriptBase.right _).append ih2.braces
  | @msub b A cs x e sx se hk _ _ ih1 ih2 =>
    refine .of_printed rfl ?_
    have hp : printed (.elem c!"msub" A cs) = [x, e] := hk
    rw [hp]
    exact (ih1.scriptBase.right _).append ih2.braces
  | @msubsup b A cs x d e sx sd se hk _ _ _ ih1 ih2 ih3 =>
    refine .of_printed rfl ?_
    have hp : printed (.elem c!"msubsup" A cs) = [x, d, e] := hk
    rw [hp]
    exact (((ih1.scriptBase.right _).append ih2.braces).right _).append ih3.braces
  | @munder b A cs x a sx sa hk _ _ ih1 ih2 =>
    refine .of_printed rfl ?_
    have hp : printed (.elem c!"munder" A cs) = (kids cs).reverse := rfl
    rw [hp, hk]
    exact .stacked ih1 ih2
  | @mover b A cs x a sx sa hk _ _ ih1 ih2 =>
    refine .of_printed rfl ?_
    have hp : printed (.elem c!"mover" A cs) = (kids cs).reverse := rfl
    rw [hp, hk]
    exact .stacked ih1 ih2
  | @munderover b A cs x d e sx sd se hk _ _ _ ih1 ih2 ih3 =>
    refine .of_printed rfl ?_
    have hp : printed (.elem c!"munderover" A cs) = [x, d, e] := hk
    rw [hp]
    exact (((ih1.right _).append ih2.braces).right _).append ih3.braces
  | @mmultiscripts b A cs x ks sx s1 s2 s3 s4 hk _ _ _ _ _ _ ih0 ih1 ih2 ih3 ih4 =>
    refine .of_printed rfl ?_
    have hp : printed (.elem c!"mmultiscripts" A cs) =
        pairList (prePair (kids cs)) ++ [x] ++ pairList (postPair (kids cs)) := by
      rw [printed, if_neg (by decide), if_pos rfl, hk]
      rfl
    rw [hp]
    exact ((Traces.scripts ih1 ih2).append ih0.parensIfSpace).append (.scripts ih3 ih4)
  | @toggle b A cs ss ht hl hr ih =>
    refine .of_printed rfl ?_
    have hp : printed (.elem c!"maction" A cs) = kids cs := by
      rw [printed, if_neg (by decide), if_neg (by decide), selected, if_neg (by decide),
        if_neg (fun h => h.2 ht), if_neg (by decide)]
    rw [hp]
    exact (tracesAll hl ih).join _
  | @maction b A cs x ks s ht hk hx ih =>
    refine .of_printed rfl ?_
    have hp : printed (.elem c!"maction" A cs) = [x] := by
      rw [printed, if_neg (by decide), if_neg (by decide), selected, if_neg (by decide),
        if_pos ⟨rfl, ht⟩, hk]
      rfl
    rw [hp]
    exact ih
  | mfenced _ hl hr ih =>
    exact .of_printed rfl (((((tracesAll hl ih).interleave _).left _).right _).right _)
  | matrix _ hl hr ih => exact .of_printed rfl ((tracesAll hl ih).matrix _ _)
  | mtable _ hl hr ih => exact .of_printed rfl ((tracesAll hl ih).join _)
  | innerTable _ hl hr ih => exact .of_printed rfl ((((tracesAll hl ih).join _).left _).right _)
  | mtr hl hr ih => exact .of_printed rfl ((tracesAll hl ih).join _)

theorem traces_maths {ms : List Node} {ss : List Str} (hm : ∀ n ∈ ms, isMath n = true)
    (h : ms.map latexOf = ss.map .ok) : Traces ms ss.flatten := by
  induction ms generalizing ss with
  | nil => exact .nil
  | cons n ms ih =>
    cases ss with
    | nil => simp at h
    | cons t ss =>
      simp only [List.map_cons, List.cons.injEq] at h
      have hn := hm n List.mem_cons_self
      have he : n.isElem = true := by cases n <;> first | rfl | cases hn
      rw [latexOf_eq] at h
      exact ((renders_iff he false t).2 h.1).traces.append
        (ih (fun m h => hm m (List.mem_cons_of_mem _ h)) h.2)

/-- **C35** for all tokens at once: the visible tokens of all `math` elements are printed one after
the other, without overlap and in printing order; whitespace aside, the output consists of them and
of what lies between. -/
theorem C35_in_order (env : Env) (x : Str) (d : Doc) (hd : ParsesTo env x d) (s : Str)
    (h : convert env x = .ok s) :
    ∃ ts : List Str, ((maths d).flatMap shownTokens).map latexOf = ts.map .ok ∧
      Scattered (ts.map ink) (ink s) := by
  rw [hd.convert] at h
  obtain ⟨ss, h1, rfl⟩ := (C04_document_order d s).1 h
  exact traces_maths (fun n hn => maths_isMath n hn) h1

/-- Prescripts, a root, an accent, a phantom and an unselected child. -/
def shownExample : Node :=
  .elem c!"math" []
    [.elem c!"mroot" [] [.elem c!"mi" [] [.text c!"x"], .elem c!"mn" [] [.text c!"3"]],
     .elem c!"mphantom" [] [.elem c!"mi" [] [.text c!"p"]],
     .elem c!"maction" [(c!"actiontype", c!"tooltip")]
       [.elem c!"mi" [] [.text c!"α"], .elem c!"mi" [] [.text c!"q"]],
     .elem c!"mtext" [] [.text c!"if  so"]]

/-- Its tokens and its LaTeX. -/
example : (shownTokens shownExample).map latexOf =
      [.ok c!"3", .ok c!"x", .ok c!"\\alpha", .ok c!"\\text{if  so}"] ∧
    docResult [shownExample] = .ok c!"\\sqrt[3]{x} \\alpha \\text{if so}" := by
  constructor
  · simp only [shownExample, shownTokens_eq]
    decide +kernel
  · rw [docResult_eq]; decide +kernel

/-- The root index is visible, with the root in the path. -/
example : Shown shownExample [shownExample, .elem c!"mroot" [] [.elem c!"mi" [] [.text c!"x"],
    .elem c!"mn" [] [.text c!"3"]]] (.elem c!"mn" [] [.text c!"3"]) :=
  .down (.head _) (.down (.tail _ (.head _)) .self)

/-- "Up to whitespace" is needed: the two blanks of the `mtext` do not survive. -/
theorem C35_only_up_to_whitespace : ∃ s t,
    docResult [shownExample] = .ok s ∧
    latexOf (.elem c!"mtext" [] [.text c!"if  so"]) = .ok t ∧ ¬ t <:+: s := by
  refine ⟨c!"\\sqrt[3]{x} \\alpha \\text{if so}", c!"\\text{if  so}", ?_, ?_, ?_⟩
  · rw [docResult_eq]; decide +kernel
  · rw [latexOf_eq]; decide +kernel
  · decide +kernel

/-! ## C29 -/

/-- **C29** A table: rows are separated by `\\`, and there is an environment around them exactly
if the table is inside another one or has a non-empty `innerTable` attribute. -/
theorem C29_table (b : Bool) (A : List (Str × Str)) (cs : List Node) (s : Str) :
    latexIn b (.elem c!"mtable" A cs) = .ok s ↔
      ∃ rows, LatexAll true (kids cs) rows ∧
        s = if b = true ∨ attr A c!"innerTable" ≠ [] then
            c!"\\begin{matrix}" ++ join c!" \\\\\n" rows ++ c!"\\end{matrix}"
          else join c!" \\\\\n" rows := by
  rw [latexIn_mtable]
  simp only [latexAll_iff]
  constructor
  · intro h
    obtain ⟨ss, h1, h2⟩ := bind_ok_iff.1 h
    refine ⟨ss, h1, ?_⟩
    split at h2
    · rename_i hc; rw [if_pos hc]; exact (pure_ok_iff.1 h2).symm
    · rename_i hc; rw [if_neg hc]; exact (pure_ok_iff.1 h2).symm
  · rintro ⟨ss, h1, rfl⟩
    refine bind_ok_iff.2 ⟨ss, h1, ?_⟩
    split <;> rfl

/-- **C29** Cells of a row are separated by ampersands. -/
theorem C29_row (b : Bool) (A : List (Str × Str)) (cs : List Node) (s : Str) :
    latexIn b (.elem c!"mtr" A cs) = .ok s ↔
      ∃ cells, LatexAll b (kids cs) cells ∧ s = join c!" & " cells := by
  rw [latexIn_mtr]
  simp only [latexAll_iff]
  constructor
  · intro h
    obtain ⟨ss, h1, h2⟩ := bind_ok_iff.1 h
    exact ⟨ss, h1, (pure_ok_iff.1 h2).symm⟩
  · rintro ⟨ss, h1, rfl⟩
    exact bind_ok_iff.2 ⟨ss, h1, rfl⟩

/-- **C29** at the API: every visible table of the document is rendered, up to whitespace, with an
environment exactly if another table is among its ancestors or its `innerTable` attribute is not
empty. -/
theorem C29_visible_tables (env : Env) (x : Str) (d : Doc) (hd : ParsesTo env x d) (s : Str)
    (h : convert env x = .ok s) (root : Node) (hr : root ∈ maths d) (path : List Node)
    (A : List (Str × Str)) (cs : List Node) (hm : Shown root path (.elem c!"mtable" A cs)) :
    ∃ rows, LatexAll true (kids cs) rows ∧
      (((∃ a ∈ path, tagIs c!"mtable" a = true) ∨ attr A c!"innerTable" ≠ []) →
        normalize (c!"\\begin{matrix}" ++ join c!" \\\\\n" rows ++ c!"\\end{matrix}") <:+: s) ∧
      (¬ ((∃ a ∈ path, tagIs c!"mtable" a = true) ∨ attr A c!"innerTable" ≠ []) →
        latexIn (path.any (tagIs c!"mtable")) (.elem c!"mtable" A cs) =
          .ok (join c!" \\\\\n" rows) ∧
        normalize (join c!" \\\\\n" rows) <:+: s) := by
  obtain ⟨t, h1, h2⟩ := C35_nothing_lost env x d hd s h root hr path _ hm
  obtain ⟨rows, h3, rfl⟩ := (C29_table _ _ _ _).1 h1
  rw [← List.any_eq_true]
  refine ⟨rows, h3, fun hc => ?_, fun hc => ?_⟩
  · rw [if_pos hc] at h2; exact h2
  · rw [if_neg hc] at h2
    refine ⟨?_, h2⟩
    rw [h1, if_neg hc]

/-- A table in a cell of a table, and one next to it. -/
example : docResult [.elem c!"math" []
    [.elem c!"mtable" [] [.elem c!"mtr" []
       [.elem c!"mtd" [] [.elem c!"mtable" [] [.elem c!"mtr" [] [.elem c!"mtd" []
          [.elem c!"mi" [] [.text c!"a"]], .elem c!"mtd" [] [.elem c!"mi" [] [.text c!"b"]]]]],
        .elem c!"mtd" [] [.elem c!"mi" [] [.text c!"c"]]],
       .elem c!"mtr" [] [.elem c!"mtd" [] [.elem c!"mi" [] [.text c!"d"]]]],
     .elem c!"mtable" [] [.elem c!"mtr" [] [.elem c!"mtd" [] [.elem c!"mi" [] [.text c!"e"]]]]]] =
    .ok c!"\\begin{matrix}a & b\\end{matrix} & c \\\\ d e" := by
  rw [docResult_eq]; decide +kernel

end Verif
