import Verif.Model.Matcher
import Verif.Lemmas.Adapter
import Verif.Spec.Matcher

/-! # The counted matcher: same results, and how many steps it takes -/

namespace Verif
open Spec

/-! ## Same results -/

@[simp] theorem tick_fst {α : Type} (x : Counted α) : (tick x).1 = x.1 := rfl
@[simp] theorem tick_snd {α : Type} (x : Counted α) : (tick x).2 = x.2 + 1 := rfl

@[simp] theorem orElseC_fst {β : Type} (x : Counted (Option β)) (y : Unit → Counted (Option β)) :
    (orElseC x y).1 = x.1.orElse (fun u => (y u).1) := by
  obtain ⟨x, n⟩ := x
  cases x <;> rfl

theorem orElseC_le {β : Type} (x : Counted (Option β)) (y : Unit → Counted (Option β)) :
    (orElseC x y).2 ≤ x.2 + (y ()).2 := by
  obtain ⟨x, n⟩ := x
  cases x <;> simp [orElseC]

theorem orElseC_ge {β : Type} (x : Counted (Option β)) (y : Unit → Counted (Option β)) :
    x.2 ≤ (orElseC x y).2 := by
  obtain ⟨x, n⟩ := x
  cases x <;> simp [orElseC]

theorem orElseC_none {β : Type} (x : Counted (Option β)) (y : Unit → Counted (Option β))
    (h : x.1 = none) : (orElseC x y).2 = x.2 + (y ()).2 := by
  obtain ⟨x, n⟩ := x
  subst h
  rfl

theorem starC_fst {β : Type} (p : Char → Bool) (s : Str) (k : Str → Counted (Option β)) :
    (starC p s k).1 = starM p s (fun s' => (k s').1) := by
  induction s with
  | nil => rfl
  | cons c s ih =>
    rw [starC, starM, tick_fst]
    split
    · rw [orElseC_fst, ih]
    · rfl

theorem Re.runC_fst {β : Type} (r : Re) (s : Str) (g : Caps) (k : Str → Caps → Counted (Option β)) :
    (r.runC s g k).1 = r.run s g (fun s' g' => (k s' g').1) := by
  induction r generalizing β s g with
  | eps => rfl
  | cls p =>
    cases s with
    | nil => rfl
    | cons c s =>
      simp only [Re.runC, Re.run, tick_fst]
      split <;> rfl
  | seq a b iha ihb =>
    rw [Re.runC, Re.run, iha]
    congr 1
    funext s' g'
    exact ihb ..
  | alt a b iha ihb => rw [Re.runC, Re.run, tick_fst, orElseC_fst, iha, ihb]
  | star p => exact starC_fst ..
  | opt a iha => rw [Re.runC, Re.run, tick_fst, orElseC_fst, iha]
  | grp n a iha => rw [Re.runC, Re.run, tick_fst, iha]
  | nla a iha =>
    rw [Re.runC, Re.run, tick_fst]
    have := iha (β := Unit) s g (fun _ _ => (some (), 0))
    generalize a.runC s g (fun _ _ => ((some (), 0) : Counted (Option Unit))) = x at this
    obtain ⟨x, n⟩ := x
    simp only at this
    rw [← this]
    cases x <;> rfl

theorem Re.matchHereC_fst (r : Re) (must : Bool) (s : Str) :
    (r.matchHereC must s).1 = r.matchHere must s := by
  rw [Re.matchHereC, tick_fst, Re.runC_fst]
  rfl

theorem Re.searchC_fst (r : Re) (s : Str) : (r.searchC s).1 = r.search s := by
  induction s with
  | nil => rw [Re.searchC, Re.search, Re.matchHereC_fst]
  | cons c s ih =>
    rw [Re.searchC, Re.search, ← Re.matchHereC_fst]
    generalize r.matchHereC false (c :: s) = x
    obtain ⟨x, n⟩ := x
    cases x
    · simpa using ih
    · rfl

theorem Re.subGoC_fst (r : Re) (repl : Caps → Str) (n : Nat) (must : Bool) (s : Str) :
    (r.subGoC repl n must s).1 = r.subGo repl n must s := by
  induction n generalizing must s with
  | zero => rfl
  | succ n ih =>
    rw [Re.subGoC, Re.subGo.eq_def]
    simp only
    rw [← Re.matchHereC_fst]
    generalize r.matchHereC must s = x
    obtain ⟨x, m⟩ := x
    cases x with
    | some p => simp only; rw [ih]
    | none =>
      cases s with
      | nil => rfl
      | cons c s => simp only; rw [ih]

theorem Re.subC_fst (r : Re) (repl : Caps → Str) (s : Str) : (r.subC repl s).1 = r.sub repl s :=
  Re.subGoC_fst ..

theorem fixMissingAttributeValueC_fst (c l o : Nat) (xml : Str) :
    (fixMissingAttributeValueC c l o xml).1 = fixMissingAttributeValue c l o xml := by
  rw [fixMissingAttributeValueC, fixMissingAttributeValue]
  split
  · rfl
  · cases pyIndex (splitOn '\n' xml) ((l : Int) - 1) with
    | none => rfl
    | some line =>
      simp only
      cases getWordAtStrPos line o with
      | none => rfl
      | some word => simp only [Re.subC_fst]

theorem genericLoopC_fst (env : Env) (xml : Str) (n : Nat) (result : Str) :
    (genericLoopC env xml n result).1 = genericLoop env xml n result := by
  induction n generalizing result with
  | zero => rfl
  | succ n ih =>
    rw [genericLoopC, genericLoop]
    simp only [Re.searchC_fst, Re.subC_fst]
    split
    · exact ih _
    · rfl

theorem fixErrorC_fst (env : Env) (xml : Str) (e : ParseErr) :
    (fixErrorC env xml e).1 = fixError env xml e := by
  cases e with
  | other i => rfl
  | expat c l o =>
    rw [fixErrorC, fixError, fixMissingAttributeC, fixMissingAttribute, ← fixMissingAttributeValueC_fst]
    generalize fixMissingAttributeValueC c l o xml = x
    obtain ⟨x, m⟩ := x
    cases x with
    | error e => rfl
    | ok r =>
      simp only
      split
      · rfl
      · simp only [genericLoopC_fst]

theorem mathmlElementsC_fst (env : Env) (n : Nat) (exc : Option Exc) (xml : Str) :
    (mathmlElementsC env n exc xml).1 = mathmlElements env n exc xml := by
  induction n generalizing exc xml with
  | zero => cases exc <;> rfl
  | succ n ih =>
    rw [mathmlElementsC, mathmlElements]
    cases env.parse xml with
    | ok d => rfl
    | error e =>
      simp only
      rw [← fixErrorC_fst]
      generalize fixErrorC env xml e = x
      obtain ⟨x, m⟩ := x
      cases x with
      | error e => rfl
      | ok r => exact ih _ _

theorem Adapter.domElementsC_fst (env : Env) (a : Adapter) (xml : Str) :
    (a.domElementsC env xml).1 = a.domElements env xml := by
  rw [Adapter.domElementsC, Adapter.domElements]
  simp only [mathmlElementsC_fst, removeLineBreaksC, removeMsWordPrefixesC, removeLineBreaks,
    removeMsWordPrefixes, Re.subC_fst]

/-! ## Substitution: the steps of all attempts -/

/-- The sum of `w` over all suffixes. -/
def suffixSum (w : Str → Nat) : Str → Nat
  | [] => w []
  | c :: s => w (c :: s) + suffixSum w s

theorem suffixSum_le {w : Str → Nat} {s t : Str} (h : t <:+ s) : suffixSum w t ≤ suffixSum w s := by
  induction s with
  | nil => rw [List.suffix_nil.1 h]; exact Nat.le_refl _
  | cons c s ih =>
    rcases List.suffix_cons_iff.1 h with rfl | h
    · exact Nat.le_refl _
    · exact Nat.le_trans (ih h) (Nat.le_add_left _ _)

theorem le_suffixSum (w : Str → Nat) (s : Str) : w s ≤ suffixSum w s := by
  cases s <;> simp [suffixSum]

/-- If an attempt at a suffix `t` takes at most `w t` steps, then a substitution takes at most twice the
sum: a position is visited at most twice. -/
theorem Re.subGoC_le (r : Re) (repl : Caps → Str) (w : Str → Nat) (n : Nat) :
    ∀ (must : Bool) (s : Str), (∀ (m : Bool) (t : Str), t <:+ s → (r.matchHereC m t).2 ≤ w t) →
    (r.subGoC repl n must s).2 + (if must then w s else 0) ≤ 2 * suffixSum w s := by
  induction n with
  | zero =>
    intro must s h
    have := le_suffixSum w s
    rw [Re.subGoC]
    split <;> simp <;> omega
  | succ n ih =>
    intro must s h
    have h0 := h must s (List.suffix_refl _)
    have hm := Re.matchHereC_fst r must s
    have hw := le_suffixSum w s
    rw [Re.subGoC]
    generalize r.matchHereC must s = x at *
    obtain ⟨x, m⟩ := x
    simp only at h0 hm
    cases x with
    | none =>
      cases s with
      | nil =>
        simp only [suffixSum] at *
        split <;> omega
      | cons c s =>
        simp only
        have h1 := ih false s (fun m t ht => h m t (ht.trans (List.suffix_cons ..)))
        simp only [Bool.false_eq_true, if_false, suffixSum] at *
        split <;> omega
    | some p =>
      obtain ⟨s', g⟩ := p
      simp only
      obtain ⟨hsuf, hlt⟩ := Re.matchHere_suffix hm.symm
      have h1 := ih (s'.length == s.length) s' (fun m t ht => h m t (ht.trans hsuf))
      by_cases he : s'.length = s.length
      · have hs : s' = s := hsuf.eq_of_length he
        subst hs
        cases must with
        | true => exact absurd (hlt rfl) (Nat.lt_irrefl _)
        | false =>
          simp only [BEq.rfl, if_true, Bool.false_eq_true, if_false] at *
          omega
      · rw [show (s'.length == s.length) = false from by simpa using he] at h1 ⊢
        simp only [Bool.false_eq_true, if_false] at h1
        cases s with
        | nil =>
          rw [List.suffix_nil.1 hsuf] at he
          exact absurd rfl he
        | cons c s =>
          rcases List.suffix_cons_iff.1 hsuf with rfl | h2
          · exact absurd rfl he
          · have := suffixSum_le (w := w) h2
            simp only [suffixSum] at *
            split <;> omega

theorem Re.subC_le (r : Re) (repl : Caps → Str) (w : Str → Nat) (s : Str)
    (h : ∀ (m : Bool) (t : Str), t <:+ s → (r.matchHereC m t).2 ≤ w t) :
    (r.subC repl s).2 ≤ 2 * suffixSum w s := by
  have := r.subGoC_le repl w (2 * s.length + 2) false s h
  simpa [Re.subC] using this

theorem Re.searchC_le (r : Re) (w : Str → Nat) (s : Str)
    (h : ∀ t : Str, t <:+ s → (r.matchHereC false t).2 ≤ w t) : (r.searchC s).2 ≤ suffixSum w s := by
  induction s with
  | nil => exact h [] (List.suffix_refl _)
  | cons c s ih =>
    have h0 := h (c :: s) (List.suffix_refl _)
    have h1 := ih (fun t ht => h t (ht.trans (List.suffix_cons ..)))
    rw [Re.searchC]
    generalize r.matchHereC false (c :: s) = x at *
    obtain ⟨x, m⟩ := x
    cases x <;> simp only [suffixSum] at * <;> omega

/-- Attempts that cost `A`, and `D` more at certain characters. -/
def weight (f : Char → Bool) (A D : Nat) : Str → Nat
  | [] => A
  | c :: _ => A + if f c then D else 0

theorem suffixSum_weight (f : Char → Bool) (A D : Nat) (s : Str) :
    suffixSum (weight f A D) s = (s.length + 1) * A + s.countP f * D := by
  induction s with
  | nil => simp [suffixSum, weight]
  | cons c s ih =>
    rw [suffixSum, ih, weight, List.length_cons, List.countP_cons, Nat.add_mul (s.length + 1),
      Nat.add_mul (s.countP f)]
    split <;> omega

/-! ## Single patterns -/

theorem starC_le {β : Type} (p f : Char → Bool) (A D : Nat) (s : Str) (k : Str → Counted (Option β))
    (h : ∀ t, t <:+ s → (k t).2 ≤ weight f A D t) :
    (starC p s k).2 ≤ (s.length + 1) * (A + 1) + s.countP f * D := by
  induction s with
  | nil =>
    have := h [] (List.suffix_refl _)
    simp only [starC, tick_snd, weight, List.length_nil, List.countP_nil] at *
    omega
  | cons c s ih =>
    have h0 := h (c :: s) (List.suffix_refl _)
    have h1 := ih (fun t ht => h t (ht.trans (List.suffix_cons ..)))
    rw [starC, tick_snd, List.length_cons, List.countP_cons, Nat.add_mul (s.length + 1),
      Nat.add_mul (s.countP f)]
    simp only [weight] at h0
    by_cases hp : p c = true
    · rw [if_pos hp]
      have := orElseC_le (starC p s k) (fun _ => k (c :: s))
      split at h0 <;> simp_all <;> omega
    · rw [if_neg hp]
      split at h0 <;> simp_all <;> omega

/-- A class repeated and then a character outside of the class: what follows is tried once only. -/
theorem starC_once {β : Type} (p : Char → Bool) (A D : Nat) (s : Str) (k : Str → Counted (Option β))
    (h : ∀ t, t <:+ s → (k t).2 ≤ D) (h' : ∀ c t, c :: t <:+ s → p c = true → (k (c :: t)).2 ≤ A) :
    (starC p s k).2 ≤ (s.length + 1) * (A + 1) + D := by
  induction s with
  | nil =>
    have := h [] (List.suffix_refl _)
    simp only [starC, tick_snd, List.length_nil] at *
    omega
  | cons c s ih =>
    have h1 := ih (fun t ht => h t (ht.trans (List.suffix_cons ..)))
      (fun d t ht => h' d t (ht.trans (List.suffix_cons ..)))
    rw [starC, tick_snd, List.length_cons, Nat.add_mul (s.length + 1)]
    by_cases hp : p c = true
    · rw [if_pos hp]
      have := orElseC_le (starC p s k) (fun _ => k (c :: s))
      have h0 := h' c s (List.suffix_refl _) hp
      omega
    · rw [if_neg hp]
      have h0 := h (c :: s) (List.suffix_refl _)
      omega

theorem chrC_le {β : Type} (c : Char) (K : Nat) (s : Str) (g : Caps) (k : Str → Caps → Counted (Option β))
    (h : ∀ t, s = c :: t → (k t g).2 ≤ K) : ((Re.chr c).runC s g k).2 ≤ weight (· == c) 1 K s := by
  cases s with
  | nil => simp [Re.chr, Re.runC, weight]
  | cons d s =>
    simp only [Re.chr, Re.runC, weight, tick_snd]
    by_cases hd : (d == c) = true
    · rw [if_pos hd, if_pos hd]
      have := h s (by rw [beq_iff_eq.1 hd])
      omega
    · rw [if_neg hd, if_neg hd]
      exact Nat.le_refl _

/-! ## The pattern of the generic repair, at most -/

theorem weight_mono {f : Char → Bool} {A B D K : Nat} (h : A ≤ B) (h' : D ≤ K) (s : Str) :
    weight f A D s ≤ weight f B K s := by
  cases s with
  | nil => exact h
  | cons c s => simp only [weight]; split <;> omega

theorem weight_zero (f : Char → Bool) (A : Nat) (s : Str) : weight f A 0 s = A := by
  cases s with
  | nil => rfl
  | cons c s => simp [weight]

theorem weight_le (f : Char → Bool) (A D : Nat) (s : Str) : weight f A D s ≤ A + D := by
  cases s with
  | nil => exact Nat.le_add_right _ _
  | cons c s => simp only [weight]; split <;> omega

theorem tailGrp_le {β : Type} (u : Str) (g : Caps) (k : Str → Caps → Counted (Option β))
    (h : ∀ t g, (k t g).2 = 0) : (tailGrp.runC u g k).2 ≤ 2 * u.length + 3 := by
  simp only [tailGrp, Re.runC, tick_snd]
  have := starC_le isDot (fun _ => false) 1 0 u (fun s' => (Re.chr '>').runC s' g
    (fun s' g' => k s' ((4, u.take (u.length - s'.length)) :: g'))) (fun t _ => by
      have := chrC_le '>' 0 t g (fun s' g' => k s' ((4, u.take (u.length - s'.length)) :: g'))
        (fun t' _ => by rw [h]; exact Nat.le_refl _)
      rw [weight_zero] at this ⊢
      exact this)
  omega

theorem quoteC_le {β : Type} (n K : Nat) (s : Str) (g : Caps) (k : Str → Caps → Counted (Option β))
    (h : (k s g).2 ≤ K) : ((Re.nla (.grp n (.cls isQuote))).runC s g k).2 ≤ 3 + K := by
  simp only [Re.runC, tick_snd]
  cases s with
  | nil => simp [tick]; omega
  | cons c s =>
    by_cases hc : isQuote c = true
    · simp [tick, hc]
    · simp [tick, hc]; omega

theorem wordGrp_le {β : Type} {env : Env} (he : env.isWord '=' = false) (K : Nat) (u : Str) (g : Caps)
    (k : Str → Caps → Counted (Option β)) (h : ∀ t g, t <:+ u → (k t g).2 ≤ K) :
    ((wordGrp env).runC u g k).2 ≤ 2 * u.length + 6 + K := by
  simp only [wordGrp, Re.plus]
  rw [Re.runC, tick_snd, Re.runC, Re.runC]
  cases u with
  | nil => simp [Re.runC, tick]; omega
  | cons c u =>
    rw [Re.runC, tick_snd]
    split
    · rw [Re.runC]
      have := starC_once env.isWord 1 (4 + K) u (fun s' => (Re.seq (.chr '=')
          (.nla (.grp 3 (.cls isQuote)))).runC s' g
          (fun s' g' => k s' ((2, (c :: u).take ((c :: u).length - s'.length)) :: g'))) (by
        intro t ht
        rw [Re.runC]
        have := chrC_le '=' (3 + K) t g (fun s' g' => (Re.nla (.grp 3 (.cls isQuote))).runC s' g'
          (fun s' g' => k s' ((2, (c :: u).take ((c :: u).length - s'.length)) :: g'))) (by
            intro t' ht'
            apply quoteC_le
            apply h
            subst ht'
            exact (List.suffix_cons _ _).trans (ht.trans (List.suffix_cons _ _)))
        have := weight_le (· == '=') 1 (3 + K) t
        omega) (by
        intro d t _ hd
        have hne : (d == '=') = false := by
          cases h : d == '=' with
          | false => rfl
          | true => rw [beq_iff_eq.1 h, he] at hd; cases hd
        simp [Re.chr, Re.runC, tick, hne])
      simp only [List.length_cons] at this ⊢
      omega
    · simp only [List.length_cons]; omega

theorem tailPat_le {β : Type} {env : Env} (he : env.isWord '=' = false) (u : Str) (g : Caps)
    (k : Str → Caps → Counted (Option β)) (h : ∀ t g, (k t g).2 = 0) :
    ((tailPat env).runC u g k).2 ≤ 6 * u.length + 13 := by
  rw [tailPat, Re.runC, Re.runC, tick_snd]
  have h1 := wordGrp_le he (2 * u.length + 3) u g (fun s' g' => tailGrp.runC s' g' k) (fun t g' ht => by
    have := tailGrp_le t g' k h
    have := ht.length_le
    omega)
  have h2 := tailGrp_le u g k h
  have h3 := orElseC_le ((wordGrp env).runC u g (fun s' g' => tailGrp.runC s' g' k))
    (fun _ => tailGrp.runC u g k)
  omega

/-- The steps of an attempt of the generic pattern: many only at a `<`. -/
theorem generic_matchHereC_le {env : Env} (he : env.isWord '=' = false) (must : Bool) (s : Str)
    (N P : Nat) (hN : s.length ≤ N) (hP : s.countP (· == ' ') ≤ P) :
    ((genericPattern env).matchHereC must s).2 ≤
      weight (· == '<') 3 (2 * (N + 1) + P * (6 * N + 13)) s := by
  rw [Re.matchHereC, tick_snd, genericPattern_eq, Re.runC, Re.runC, tick_snd, Re.runC]
  have h1 := chrC_le '<' (2 * (N + 1) + P * (6 * N + 13)) s [] (fun s' g' =>
      (Re.seq (.star isDot) (.chr ' ')).runC s' g' (fun s' g' => (tailPat env).runC s'
        ((1, s.take (s.length - s'.length)) :: g')
        (fun s' g => ((if must && s'.length == s.length then none else some (s', g), 0) :
          Counted (Option (Str × Caps)))))) (by
    intro t ht
    rw [Re.runC, Re.runC]
    have := starC_le isDot (· == ' ') 1 (6 * N + 13) t (fun s' => (Re.chr ' ').runC s' []
      (fun s' g' => (tailPat env).runC s' ((1, s.take (s.length - s'.length)) :: g')
        (fun s' g => ((if must && s'.length == s.length then none else some (s', g), 0) :
          Counted (Option (Str × Caps)))))) (by
      intro u hu
      apply chrC_le
      intro v hv
      have h2 := tailPat_le he v ((1, s.take (s.length - v.length)) :: [])
        (fun s' g => ((if must && s'.length == s.length then none else some (s', g), 0) :
          Counted (Option (Str × Caps)))) (fun _ _ => rfl)
      have := hu.length_le
      subst hv; subst ht
      simp only [List.length_cons] at *
      omega)
    refine Nat.le_trans this (Nat.add_le_add ?_ (Nat.mul_le_mul_right _ ?_))
    · subst ht; simp only [List.length_cons] at hN; omega
    · subst ht; rw [List.countP_cons] at hP; omega)
  refine Nat.le_trans (Nat.add_le_add_right (Nat.add_le_add_right h1 1) 1) ?_
  cases s with
  | nil => simp [weight]
  | cons c s => simp only [weight]; omega

/-- Bound for one pass of the generic pattern. -/
def passBound (N L P : Nat) : Nat := (N + 1) * 3 + L * (2 * (N + 1) + P * (6 * N + 13))

theorem generic_searchC_le {env : Env} (he : env.isWord '=' = false) (s : Str) :
    ((genericPattern env).searchC s).2 ≤
      passBound s.length (s.countP (· == '<')) (s.countP (· == ' ')) := by
  have := (genericPattern env).searchC_le _ s (fun t ht => generic_matchHereC_le he false t s.length
    (s.countP (· == ' ')) ht.length_le (ht.sublist.countP_le))
  rwa [suffixSum_weight] at this

theorem generic_subC_le {env : Env} (he : env.isWord '=' = false) (repl : Caps → Str) (s : Str) :
    ((genericPattern env).subC repl s).2 ≤
      2 * passBound s.length (s.countP (· == '<')) (s.countP (· == ' ')) := by
  have := (genericPattern env).subC_le repl _ s (fun m t ht => generic_matchHereC_le he m t s.length
    (s.countP (· == ' ')) ht.length_le (ht.sublist.countP_le))
  rwa [suffixSum_weight] at this

theorem genericLoopC_le {env : Env} (he : env.isWord '=' = false) (s : Str) (n : Nat) (r : Str) :
    (genericLoopC env s n r).2 ≤
      n * (3 * passBound s.length (s.countP (· == '<')) (s.countP (· == ' '))) := by
  induction n generalizing r with
  | zero => exact Nat.zero_le _
  | succ n ih =>
    rw [genericLoopC, Nat.add_mul]
    have h1 := generic_searchC_le he s
    have h2 := generic_subC_le he (fun g => capText 1 g ++ capText 3 g) s
    have h3 := ih ((genericPattern env).subC (fun g => capText 1 g ++ capText 3 g) s).1
    simp only
    split
    · simp only; omega
    · simp only; omega

/-! ## The other patterns, at most -/

theorem litC_le {β : Type} (w : Str) (K : Nat) (s : Str) (g : Caps)
    (k : Str → Caps → Counted (Option β)) (h : ∀ t, (k t g).2 ≤ K) :
    ((Re.lit w).runC s g k).2 ≤ w.length + K := by
  induction w generalizing s with
  | nil => simpa [Re.lit, Re.runC] using h s
  | cons c w ih =>
    rw [Re.lit, Re.runC]
    have h1 := chrC_le c (w.length + K) s g (fun s' g' => (Re.lit w).runC s' g' k) (fun t _ => ih t)
    have h2 := weight_le (· == c) 1 (w.length + K) s
    simp only [List.length_cons]
    omega

theorem missing_matchHereC_le (w : Str) (must : Bool) (s : Str) :
    ((missingValuePattern w).matchHereC must s).2 ≤ 2 * w.length + 11 := by
  rw [Re.matchHereC, tick_snd, missingValuePattern, Re.runC, tick_snd]
  generalize hk : (fun s' g => ((if must && s'.length == s.length then none else some (s', g), 0) :
          Counted (Option (Str × Caps)))) = k
  have hk0 : ∀ t g, (k t g).2 = 0 := by intro t g; rw [← hk]
  refine Nat.le_trans (Nat.add_le_add_right (Nat.add_le_add_right (orElseC_le _ _) 1) 1) ?_
  have h1 : ((Re.grp 1 (.seq (Re.lit w) (.seq (.chr '=') (.nla (.grp 2 (.cls isQuote)))))).runC s [] k).2 ≤
      w.length + 5 := by
    rw [Re.runC, tick_snd, Re.runC]
    refine Nat.add_le_add_right (litC_le w 4 s [] _ (fun t => ?_)) 1
    rw [Re.runC]
    have h1 := chrC_le '=' 3 t [] (fun s' g' => (Re.nla (.grp 2 (.cls isQuote))).runC s' g'
      (fun s' g' => k s' ((1, s.take (s.length - s'.length)) :: g'))) (fun t' _ =>
        quoteC_le 2 0 t' _ _ (Nat.le_of_eq (hk0 _ _)))
    have h2 := weight_le (· == '=') 1 3 t
    omega
  have h2 : ((Re.grp 3 (.seq (Re.lit w) (.nla (.grp 4 (.cls isQuote))))).runC s [] k).2 ≤ w.length + 4 := by
    rw [Re.runC, tick_snd, Re.runC]
    refine Nat.add_le_add_right (litC_le w 3 s [] _ (fun t => ?_)) 1
    refine quoteC_le 4 0 t _ _ ?_
    exact Nat.le_of_eq (hk0 _ _)
  omega

theorem missing_subC_le (w : Str) (repl : Caps → Str) (s : Str) :
    ((missingValuePattern w).subC repl s).2 ≤ 2 * ((s.length + 1) * (2 * w.length + 11)) := by
  have := (missingValuePattern w).subC_le repl (weight (fun _ => false) (2 * w.length + 11) 0) s
    (fun m t _ => by rw [weight_zero]; exact missing_matchHereC_le w m t)
  rw [suffixSum_weight] at this
  omega

theorem chr_none_le {β : Type} (c : Char) (K : Nat) (s : Str) (g : Caps)
    (k : Str → Caps → Counted (Option β)) (h : ∀ t, (k t g).2 ≤ K) :
    ((Re.chr c).runC s g k).2 ≤ 1 + K :=
  Nat.le_trans (chrC_le c K s g k (fun t _ => h t)) (weight_le _ _ _ _)

theorem lineBreaksC_le (s : Str) : (removeLineBreaksC s).2 ≤ 14 * (s.length + 1) := by
  have := lineBreakPattern.subC_le (fun _ => []) (weight (fun _ => false) 7 0) s (by
    intro must t _
    rw [weight_zero, Re.matchHereC, tick_snd, lineBreakPattern, Re.runC, tick_snd]
    refine Nat.le_trans (Nat.add_le_add_right (Nat.add_le_add_right (orElseC_le _ _) 1) 1) ?_
    have h1 := chr_none_le '\n' 0 t [] (fun s' g => ((if must && s'.length == t.length then none
      else some (s', g), 0) : Counted (Option (Str × Caps)))) (fun _ => Nat.le_refl _)
    have h2 := orElseC_le ((Re.seq (.chr '\r') (.chr '\n')).runC t [] (fun s' g => ((if must &&
      s'.length == t.length then none else some (s', g), 0) : Counted (Option (Str × Caps)))))
      (fun _ => (Re.chr '\r').runC t [] (fun s' g => ((if must && s'.length == t.length then none
      else some (s', g), 0) : Counted (Option (Str × Caps)))))
    have h3 := chr_none_le '\r' 1 t [] (fun s' g' => (Re.chr '\n').runC s' g' (fun s' g => ((if must &&
      s'.length == t.length then none else some (s', g), 0) : Counted (Option (Str × Caps)))))
      (fun t' => chr_none_le '\n' 0 t' [] _ (fun _ => Nat.le_refl _))
    have h4 := chr_none_le '\r' 0 t [] (fun s' g => ((if must && s'.length == t.length then none
      else some (s', g), 0) : Counted (Option (Str × Caps)))) (fun _ => Nat.le_refl _)
    rw [Re.runC, tick_snd]
    rw [Re.runC] at h2 ⊢
    omega)
  rw [suffixSum_weight] at this
  rw [removeLineBreaksC]
  omega

theorem msWordC_le (s : Str) : (removeMsWordPrefixesC s).2 ≤ 10 * (s.length + 1) := by
  have := (Re.lit c!"mml:").subC_le (fun _ => []) (weight (fun _ => false) 5 0) s (by
    intro must t _
    rw [weight_zero, Re.matchHereC, tick_snd]
    exact Nat.add_le_add_right (litC_le c!"mml:" 0 t [] _ (fun _ => Nat.le_refl _)) 1)
  rw [suffixSum_weight] at this
  rw [removeMsWordPrefixesC]
  omega

/-! ## A repair -/

theorem wordEnd_length (s : Str) : (wordEnd s).length ≤ s.length := by
  induction s with
  | nil => exact Nat.le_refl _
  | cons c s ih =>
    rw [wordEnd]
    split
    · simpa using ih
    · exact Nat.zero_le _

theorem getWord_length {s w : Str} {p : Nat} (h : getWordAtStrPos s p = some w) :
    w.length ≤ s.length := by
  rw [getWordAtStrPos] at h
  split at h
  · cases h
  · injection h with h
    subst h
    have := wordEnd_length (s.drop p)
    simp only [List.length_append, List.length_drop, List.length_take] at *
    omega

/-- Bound for the steps of one repair. -/
def repairBound (N L P : Nat) : Nat := 2 * ((N + 1) * (2 * N + 11)) + 15 * passBound N L P

theorem fixErrorC_le {env : Env} (he : env.isWord '=' = false) {s : Str} (hs : '\n' ∉ s) (e : ParseErr) :
    (fixErrorC env s e).2 ≤ repairBound s.length (s.countP (· == '<')) (s.countP (· == ' ')) := by
  cases e with
  | other i => exact Nat.zero_le _
  | expat c l o =>
    rw [fixErrorC, fixMissingAttributeC, repairBound]
    have h1 : (fixMissingAttributeValueC c l o s).2 ≤ 2 * ((s.length + 1) * (2 * s.length + 11)) := by
      rw [fixMissingAttributeValueC]
      split
      · exact Nat.zero_le _
      · split
        · exact Nat.zero_le _
        · rename_i line hl
          split
          · exact Nat.zero_le _
          · rename_i w hw
            simp only
            refine Nat.le_trans (missing_subC_le w _ s) (Nat.mul_le_mul_left _ (Nat.mul_le_mul_left _ ?_))
            have hw := getWord_length hw
            have : line = s := by
              rw [splitOn_noSep hs, pyIndex_one] at hl
              split at hl
              · injection hl with hl; exact hl.symm
              · cases hl
            subst this
            omega
    generalize fixMissingAttributeValueC c l o s = x at *
    obtain ⟨x, m⟩ := x
    cases x with
    | error e => simp only at *; omega
    | ok r =>
      have h2 := genericLoopC_le he s 5 r
      simp only at *
      split
      · simp only; omega
      · simp only; omega

theorem repairBound_mono {N N' L L' P P' : Nat} (h1 : N ≤ N') (h2 : L ≤ L') (h3 : P ≤ P') :
    repairBound N L P ≤ repairBound N' L' P' := by
  rw [repairBound, repairBound, passBound, passBound]
  refine Nat.add_le_add (Nat.mul_le_mul_left _ (Nat.mul_le_mul (by omega) (by omega)))
    (Nat.mul_le_mul_left _ (Nat.add_le_add (by omega) (Nat.mul_le_mul h2 (Nat.add_le_add (by omega)
      (Nat.mul_le_mul h3 (by omega))))))

theorem fixError_sublist {env : Env} {s s' : Str} (hs : '\n' ∉ s) {e : ParseErr}
    (h : fixError env s e = .ok s') : s'.Sublist s :=
  ((fixError_ok hs).1 h).sublist

theorem mathmlElementsC_le {env : Env} (he : env.isWord '=' = false) (n : Nat) :
    ∀ (exc : Option Exc) (s : Str), '\n' ∉ s → (mathmlElementsC env n exc s).2 ≤
      n * repairBound s.length (s.countP (· == '<')) (s.countP (· == ' ')) := by
  induction n with
  | zero => intro exc s _; cases exc <;> exact Nat.zero_le _
  | succ n ih =>
    intro exc s hs
    rw [mathmlElementsC, Nat.add_mul]
    split
    · exact Nat.zero_le _
    · rename_i e _
      have h1 := fixErrorC_le he hs e
      have h2 := fixErrorC_fst env s e
      generalize fixErrorC env s e = x at *
      obtain ⟨x, m⟩ := x
      cases x with
      | error e' => simp only at *; omega
      | ok s' =>
        have h3 := fixError_sublist hs h2.symm
        have h4 := ih (some e.toExc) s' (fun h => hs (h3.subset h))
        have h5 := Nat.mul_le_mul_left n (repairBound_mono h3.length_le (h3.countP_le (p := (· == '<')))
          (h3.countP_le (p := (· == ' '))))
        simp only at *
        omega

/-! ## At least -/

theorem starC_fail {β : Type} (p : Char → Bool) (s : Str) (k : Str → Counted (Option β))
    (hp : ∀ c ∈ s, p c = true) (hk : ∀ t, t <:+ s → (k t).1 = none) :
    starC p s k = (none, suffixSum (fun t => (k t).2 + 1) s) := by
  induction s with
  | nil =>
    rw [starC, suffixSum]
    exact Prod.ext (hk [] (List.suffix_refl _)) rfl
  | cons c s ih =>
    rw [starC, suffixSum, if_pos (hp c List.mem_cons_self),
      ih (fun d hd => hp d (List.mem_cons_of_mem _ hd)) (fun t ht => hk t (ht.trans (List.suffix_cons ..)))]
    refine Prod.ext ?_ ?_
    · simp [hk (c :: s) (List.suffix_refl _)]
    · simp [orElseC]; omega

theorem suffixSum_ge_length (w : Str → Nat) (s : Str) (h : ∀ t, 1 ≤ w t) : s.length < suffixSum w s := by
  induction s with
  | nil => exact h []
  | cons c s ih =>
    have := h (c :: s)
    simp only [suffixSum, List.length_cons]
    omega

theorem runC_none {β : Type} {r : Re} {s : Str} {g : Caps} {k : Str → Caps → Counted (Option β)}
    (h : ∀ b, r.run s g (fun s' g' => (k s' g').1) ≠ some b) : (r.runC s g k).1 = none := by
  rw [Re.runC_fst]
  cases hr : r.run s g (fun s' g' => (k s' g').1) with
  | none => rfl
  | some b => exact absurd hr (h b)

theorem chr_fail {β : Type} (c : Char) (s : Str) (g : Caps) (k : Str → Caps → Counted (Option β))
    (h : ∀ t, s = c :: t → (k t g).1 = none) : ((Re.chr c).runC s g k).1 = none := by
  cases s with
  | nil => rfl
  | cons d s =>
    simp only [Re.chr, Re.runC, tick_fst]
    split
    · rename_i hd
      exact h s (by rw [beq_iff_eq.1 hd])
    · rfl

theorem tailGrp_ge {β : Type} (u : Str) (g : Caps) (k : Str → Caps → Counted (Option β))
    (hn : '\n' ∉ u) (hu : '>' ∉ u) : u.length ≤ (tailGrp.runC u g k).2 := by
  simp only [tailGrp, Re.runC, tick_snd]
  rw [starC_fail _ _ _ (isDot_of_noLF hn)]
  · have := suffixSum_ge_length (fun t => ((Re.chr '>').runC t g
      (fun s' g' => k s' ((4, u.take (u.length - s'.length)) :: g'))).2 + 1) u (fun _ => by omega)
    omega
  · intro t ht
    apply chr_fail
    intro t' ht'
    exact absurd (ht.subset (ht' ▸ List.mem_cons_self)) hu

theorem tailPat_ge {β : Type} (env : Env) (u : Str) (g : Caps) (k : Str → Caps → Counted (Option β))
    (hn : '\n' ∉ u) (hu : '>' ∉ u) : u.length ≤ ((tailPat env).runC u g k).2 := by
  rw [tailPat, Re.runC, Re.runC, tick_snd, orElseC_none]
  · have := tailGrp_ge u g k hn hu
    omega
  · apply runC_none
    intro b hb
    obtain ⟨s1, g1, h1, h2⟩ := Re.run_suffix _ _ _ _ _ hb
    rw [Re.runC_fst] at h2
    exact hu (h1.subset (tailGrp_mem h2))

theorem brackets_free (m : Nat) : '\n' ∉ brackets m ∧ '>' ∉ brackets m := by
  induction m with
  | zero => exact ⟨List.not_mem_nil, List.not_mem_nil⟩
  | succ m ih =>
    rw [brackets]
    simp only [List.mem_cons, not_or]
    exact ⟨⟨by decide, by decide, ih.1⟩, ⟨by decide, by decide, ih.2⟩⟩

theorem brackets_length (m : Nat) : (brackets m).length = 2 * m := by
  induction m with
  | zero => rfl
  | succ m ih => simp only [brackets, List.length_cons, ih]; omega

theorem brackets_sum (w : Str → Nat) (h : ∀ m, 2 * m ≤ w (' ' :: brackets m)) (m : Nat) :
    m * (m + 1) ≤ suffixSum w (' ' :: brackets m) := by
  induction m with
  | zero => exact Nat.zero_le _
  | succ m ih =>
    have h1 := h (m + 1)
    have h2 : suffixSum w (' ' :: brackets (m + 1)) = w (' ' :: brackets (m + 1)) +
      (w (brackets (m + 1)) + suffixSum w (' ' :: brackets m)) := rfl
    have h3 : (m + 1) * (m + 1 + 1) = m * (m + 1) + 2 * (m + 1) := by
      rw [Nat.mul_comm (m + 1), ← Nat.add_mul]
    omega

theorem generic_matchHereC_ge (env : Env) (m : Nat) :
    m * (m + 1) ≤ ((genericPattern env).matchHereC false (brackets (m + 1))).2 := by
  rw [Re.matchHereC, tick_snd, genericPattern_eq, Re.runC, Re.runC, tick_snd, Re.runC, brackets, Re.chr,
    Re.runC, tick_snd]
  simp only [BEq.rfl, if_true]
  rw [Re.runC, Re.runC]
  have hf := brackets_free m
  rw [starC_fail _ _ _ (isDot_of_noLF (by simp only [List.mem_cons, not_or]; exact ⟨by decide, hf.1⟩))]
  · refine Nat.le_trans ?_ (Nat.le_add_right _ 3)
    dsimp only
    refine brackets_sum _ (fun i => ?_) m
    have hi := brackets_free i
    have := tailPat_ge env (brackets i) ((1, ('<' :: ' ' :: brackets m).take
      (('<' :: ' ' :: brackets m).length - (brackets i).length)) :: []) (fun s' g =>
        ((if false && s'.length == ('<' :: ' ' :: brackets m).length then none else some (s', g), 0) :
          Counted (Option (Str × Caps)))) hi.1 hi.2
    simp only [Re.chr, Re.runC, tick_snd, BEq.rfl, if_true]
    exact Nat.le_trans (Nat.le_trans (Nat.le_of_eq (brackets_length i).symm) this) (by omega)
  · intro t ht
    apply chr_fail
    intro t' ht'
    apply runC_none
    intro b hb
    have h1 : t' <:+ ' ' :: brackets m := (List.suffix_cons ' ' t').trans (ht' ▸ ht)
    have h2 := h1.subset (tailPat_mem hb)
    rcases List.mem_cons.1 h2 with h2 | h2
    · exact absurd h2 (by decide)
    · exact hf.2 h2

theorem generic_search_fail (env : Env) {s : Str} (h : '>' ∉ s) : (genericPattern env).search s = false := by
  induction s with
  | nil => rfl
  | cons c s ih =>
    rw [Re.search, ih (fun hm => h (List.mem_cons_of_mem _ hm)), Bool.or_false]
    cases hm : (genericPattern env).matchHere false (c :: s) with
    | none => rfl
    | some p =>
      rw [Re.matchHere, genericPattern_eq, Re.run] at hm
      obtain ⟨s1, g1, h1, h2⟩ := Re.run_suffix _ _ _ _ _ hm
      exact absurd (h1.subset (tailPat_mem h2)) h

theorem searchC_cons (r : Re) (c : Char) (s : Str) (h : r.search (c :: s) = false) :
    (r.searchC (c :: s)).2 = (r.matchHereC false (c :: s)).2 + (r.searchC s).2 := by
  rw [Re.search, Bool.or_eq_false_iff, ← Re.matchHereC_fst] at h
  rw [Re.searchC]
  generalize r.matchHereC false (c :: s) = x at *
  obtain ⟨x, n⟩ := x
  cases x with
  | none => rfl
  | some b => simp at h

theorem searchC_brackets (env : Env) (m : Nat) :
    m * (m * m) + 3 ≤ 3 * ((genericPattern env).searchC (brackets m)).2 + m := by
  induction m with
  | zero =>
    have : 1 ≤ ((genericPattern env).searchC (brackets 0)).2 := by
      simp only [brackets, Re.searchC, Re.matchHereC, tick_snd]
      omega
    omega
  | succ m ih =>
    have hf := (brackets_free (m + 1)).2
    have h1 := generic_matchHereC_ge env m
    rw [brackets] at hf h1 ⊢
    rw [searchC_cons _ _ _ (generic_search_fail env hf),
      searchC_cons _ _ _ (generic_search_fail env (fun h => hf (List.mem_cons_of_mem _ h)))]
    have h2 : (m + 1) * ((m + 1) * (m + 1)) = m * (m * m) + 3 * (m * (m + 1)) + 1 := by
      simp only [Nat.add_mul, Nat.mul_add, Nat.one_mul, Nat.mul_one]
      have : m * m * m = m * (m * m) := Nat.mul_assoc _ _ _
      omega
    omega

end Verif
