import Verif.Props.Adapter
import Verif.Spec.Missing

/-! # Attributes without a value (C58) -/

namespace Verif
open Spec

theorem deletable_occurrence {w s t : Str} (h : Deletable w s t) :
    ∃ b, s = w ++ b ∧ Unquoted b := by
  rcases h with ⟨rfl, _⟩ | ⟨rfl, h, _⟩
  · refine ⟨_, rfl, ?_⟩
    intro c u e
    rw [← (List.cons.inj e).1]
    decide
  · exact ⟨_, rfl, h⟩

/-- Where nothing is deletable, nothing is deleted. -/
theorem deleted_keep (w : Str) : ∀ (u s s' : Str),
    (∀ a b, u = a ++ b → b ≠ [] → ¬ ∃ t, Deletable w (b ++ s) t) → Deleted w s s' →
    Deleted w (u ++ s) (u ++ s')
  | [], _, _, _, hs => hs
  | c :: u, s, s', h, hs => by
    refine .keep (h [] (c :: u) rfl (by simp)) (deleted_keep w u s s' ?_ hs)
    intro a b e hb
    exact h (c :: a) b (by rw [e]; rfl) hb

theorem deleted_self (w u : Str) (h : ∀ a b, u = a ++ b → ¬ ∃ t, Deletable w b t) :
    Deleted w u u := by
  have := deleted_keep w u [] [] (fun a b e _ => by rw [List.append_nil]; exact h a b e) .nil
  simpa using this

theorem Spec.Lone.deleted {w y z : Str} {o : Nat} (h : Lone w y z o) : Deleted w y z := by
  obtain ⟨pre, post, hy, hz, hne, -, -, hpost, hu, -, -⟩ := h
  have hocc : ∀ a s, y = a ++ s → (∃ t, Deletable w s t) → a = pre ++ [' '] := by
    rintro a s e ⟨t, ht⟩
    obtain ⟨b, rfl, hb⟩ := deletable_occurrence ht
    exact hu a b e hb
  have hq : Unquoted post := by
    obtain ⟨r, rfl | rfl⟩ := hpost <;> · intro c u e; rw [← (List.cons.inj e).1]; decide
  have hd : Deletable w (w ++ post) post := by
    refine .inr ⟨rfl, hq, ?_⟩
    rintro ⟨u, rfl, -⟩
    obtain ⟨r, e | e⟩ := hpost <;> exact absurd (List.cons.inj e).1 (by decide)
  have e1 : y = (pre ++ [' ']) ++ (w ++ post) := by rw [hy]; simp
  have e2 : z = (pre ++ [' ']) ++ post := by rw [hz]; simp
  rw [e1, e2]
  refine deleted_keep _ _ _ _ ?_ (.delete hd (deleted_self _ _ ?_))
  · intro a b e hb hdel
    have := hocc a (b ++ (w ++ post)) (by rw [e1, e]; simp) hdel
    rw [this] at e
    have := List.append_cancel_left (as := pre ++ [' ']) (bs := []) (cs := b) (by simpa using e)
    exact hb this.symm
  · intro a b e hdel
    have := hocc (pre ++ [' '] ++ (w ++ a)) b (by rw [e1, e]; simp) hdel
    have hl := congrArg List.length this
    have := List.length_pos_iff.2 hne
    simp only [List.length_append, List.length_cons, List.length_nil] at hl
    omega

theorem Spec.Lone.wordAt {w y z : Str} {o : Nat} (h : Lone w y z o) : WordAt y o w := by
  obtain ⟨pre, post, hy, -, -, hb, hg, hpost, -, h1, h2⟩ := h
  refine ⟨pre ++ [' '], w.take (o - pre.length - 1), w.drop (o - pre.length - 1), post,
    ?_, ?_, ?_, ?_, .inr ⟨pre, rfl⟩, ?_, ?_, ?_⟩
  · rw [← List.append_assoc (w.take _), List.take_append_drop, hy]; simp
  · simp only [List.length_append, List.length_take, List.length_cons, List.length_nil]
    omega
  · rw [List.take_append_drop]
  · exact fun hc => hb (List.mem_of_mem_take hc)
  · exact fun hc => hb (List.mem_of_mem_drop hc)
  · exact fun hc => hg (List.mem_of_mem_drop hc)
  · obtain ⟨r, h | h⟩ := hpost
    · exact .inr ⟨r, .inl h⟩
    · exact .inr ⟨r, .inr h⟩

theorem Spec.Lone.ne {w y z : Str} {o : Nat} (h : Lone w y z o) : z ≠ y := by
  obtain ⟨pre, post, hy, hz, hne, -⟩ := h
  intro e
  have hl := congrArg List.length (hz.symm.trans (e.trans hy))
  have := List.length_pos_iff.2 hne
  simp only [List.length_append, List.length_cons] at hl
  omega

/-- **C58** When the parser points at a word, in any of the parses, that word is removed and nothing
else. -/
theorem C58_one (env : Env) (x y z w : Str) (n line o : Nat) (h : Consulted env x n y)
    (hp : env.parse y = .error (.expat 4 line o)) (hl : line ≤ 1) (hv : Lone w y z o) :
    Consulted env x (n + 1) z :=
  have hne : w ≠ [] := by obtain ⟨_, _, _, _, hne, _⟩ := hv; exact hne
  .next h hp (.word hl hv.wordAt hne hv.deleted hv.ne)

theorem Spec.Gaps.consulted {env : Env} {x y z : Str} {k n : Nat} (hg : Gaps env k y z)
    (h : Consulted env x n y) : Consulted env x (n + k) z := by
  induction hg generalizing n with
  | none => exact h
  | one hp hl hv _ ih =>
    have := ih (C58_one env x _ _ _ n _ _ h hp hl hv)
    rwa [Nat.add_assoc, Nat.add_comm 1] at this

/-- **C58** Up to four attributes without a value are removed, and the rest is converted. -/
theorem C58_up_to_four (env : Env) (x z : Str) (k : Nat) (d : Doc) (hk : k ≤ 4)
    (hg : Gaps env k (prep x) z) (hd : env.parse z = .ok d) : convert env x = docResult d := by
  have := hg.consulted .first
  rw [Nat.zero_add] at this
  exact C06_first_success env x z k d (by omega) this hd

/-- **C58** The fifth one is an error, even if the parser would accept the text without it. -/
theorem C58_not_five (env : Env) (x y z name : Str) (line o : Nat)
    (hg : Gaps env 4 (prep x) y) (hp : env.parse y = .error (.expat 4 line o)) (hl : line ≤ 1)
    (hv : Lone (name ++ ['=']) y z o) : convert env x = .error (.expat 4 line o) := by
  have h4 := hg.consulted .first
  refine C06_last_error env x y _ h4 hp ?_
  rintro ⟨l, o', he, hf⟩
  obtain ⟨-, rfl, rfl⟩ : (4 : Nat) = 4 ∧ line = l ∧ o = o' := by simpa using he
  obtain ⟨pre, post, rfl, -, -, -, -, -, -, -, h2⟩ := hv
  rcases hf with hf | hf
  · omega
  · simp at hf h2; omega

/-- Deciding `Lone` for a given text. -/
theorem lone_of (w pre post : Str) (o : Nat) (hw : w ≠ [] ∧ ' ' ∉ w ∧ '>' ∉ w)
    (hpost : post.head? = some ' ' ∨ post.head? = some '>')
    (hu : ∀ i, i ≤ (pre ++ ' ' :: (w ++ post)).length →
      w.isPrefixOf ((pre ++ ' ' :: (w ++ post)).drop i) = true → i = pre.length + 1)
    (h1 : pre.length + 1 ≤ o) (h2 : o ≤ pre.length + 1 + w.length) :
    Lone w (pre ++ ' ' :: (w ++ post)) (pre ++ ' ' :: post) o := by
  refine ⟨pre, post, rfl, rfl, hw.1, hw.2.1, hw.2.2, ?_, ?_, h1, h2⟩
  · cases post with
    | nil => simp at hpost
    | cons c r => exact ⟨r, by simpa using hpost⟩
  · intro a b e _
    have hl : a.length ≤ (pre ++ ' ' :: (w ++ post)).length := by rw [e]; simp
    have hp : w.isPrefixOf ((pre ++ ' ' :: (w ++ post)).drop a.length) = true := by
      rw [e, List.drop_left]; exact List.isPrefixOf_iff_prefix.2 ⟨b, rfl⟩
    have hi := hu _ hl hp
    have := congrArg (List.take (pre.length + 1)) e
    rw [← hi, List.take_left, hi, show pre ++ ' ' :: (w ++ post) = (pre ++ [' ']) ++ (w ++ post) by
      simp, show pre.length + 1 = (pre ++ [' ']).length by simp, List.take_left] at this
    exact this.symm

/-- A parser that rejects two attributes without a value, at the `>` after each. -/
def gapEnv : Env :=
  ⟨fun s =>
    if s = c!"<math a=><mi b=>x</mi></math>" then .error (.expat 4 1 8)
    else if s = c!"<math ><mi b=>x</mi></math>" then .error (.expat 4 1 13)
    else if s = c!"<math ><mi >x</mi></math>" then
      .ok [.elem c!"math" [] [.elem c!"mi" [] [.text c!"x"]]]
    else .error (.expat 3 1 0), fun c => isAsciiAlnum c⟩

theorem gapEnv_gaps :
    Gaps gapEnv 2 c!"<math a=><mi b=>x</mi></math>" c!"<math ><mi >x</mi></math>" :=
  .one (name := c!"a") (line := 1) (o := 8) rfl (by decide)
    (lone_of c!"a=" c!"<math" c!"><mi b=>x</mi></math>" 8 (by decide) (by decide) (by decide)
      (by decide) (by decide))
    (.one (name := c!"b") (line := 1) (o := 13) rfl (by decide)
      (lone_of c!"b=" c!"<math ><mi" c!">x</mi></math>" 13 (by decide) (by decide) (by decide)
        (by decide) (by decide)) .none)

example : convert gapEnv c!"<mml:math a=>\n<mi b=>x</mi></mml:math>" = .ok c!"x" := by
  rw [C58_up_to_four gapEnv _ c!"<math ><mi >x</mi></math>" 2
    [.elem c!"math" [] [.elem c!"mi" [] [.text c!"x"]]] (by decide)
    (by rw [show prep c!"<mml:math a=>\n<mi b=>x</mi></mml:math>" =
      c!"<math a=><mi b=>x</mi></math>" by decide +kernel]; exact gapEnv_gaps) rfl, docResult_eq]
  decide +kernel

/-- A parser that reports the first one of five such attributes, and accepts the rest. -/
def fiveEnv : Env :=
  ⟨fun s => match List.lookup s [(c!"<v a=><w b=><x c=><y d=><z e=>", 5),
    (c!"<v ><w b=><x c=><y d=><z e=>", 9),
    (c!"<v ><w ><x c=><y d=><z e=>", 13),
    (c!"<v ><w ><x ><y d=><z e=>", 17),
    (c!"<v ><w ><x ><y ><z e=>", 21)] with
    | some o => .error (.expat 4 1 o)
    | none => .ok [], fun c => isAsciiAlnum c⟩

example : convert fiveEnv c!"<v a=><w b=><x c=><y d=><z e=>" = .error (.expat 4 1 21) ∧
    fiveEnv.parse c!"<v ><w ><x ><y ><z >" = .ok [] := by
  refine ⟨C58_not_five fiveEnv _ c!"<v ><w ><x ><y ><z e=>" c!"<v ><w ><x ><y ><z >" c!"e" 1 21 ?_ rfl (by decide) (lone_of c!"e=" c!"<v ><w ><x ><y ><z" c!">" 21 (by decide) (by decide) (by decide) (by decide)
      (by decide)), rfl⟩
  rw [show prep c!"<v a=><w b=><x c=><y d=><z e=>" = c!"<v a=><w b=><x c=><y d=><z e=>" by decide +kernel]
  exact .one (name := c!"a") (line := 1) (o := 5) rfl (by decide)
    (lone_of c!"a=" c!"<v" c!"><w b=><x c=><y d=><z e=>" 5 (by decide) (by decide) (by decide) (by decide)
      (by decide)) <|
    .one (name := c!"b") (line := 1) (o := 9) rfl (by decide)
    (lone_of c!"b=" c!"<v ><w" c!"><x c=><y d=><z e=>" 9 (by decide) (by decide) (by decide) (by decide)
      (by decide)) <|
    .one (name := c!"c") (line := 1) (o := 13) rfl (by decide)
    (lone_of c!"c=" c!"<v ><w ><x" c!"><y d=><z e=>" 13 (by decide) (by decide) (by decide) (by decide)
      (by decide)) <|
    .one (name := c!"d") (line := 1) (o := 17) rfl (by decide)
    (lone_of c!"d=" c!"<v ><w ><x ><y" c!"><z e=>" 17 (by decide) (by decide) (by decide) (by decide)
      (by decide)) <|
    .none

/-! ## Many attributes without a value, with few names -/

theorem written_append (S : Str → Bool) : ∀ p q, written S (p ++ q) = written S p ++ written S q
  | [], _ => rfl
  | .ch c :: p, q => by
    show c :: written S (p ++ q) = _
    rw [written_append S p q]; rfl
  | .gap n :: p, q => by
    show (if S n then n ++ ['='] else []) ++ written S (p ++ q) = _
    rw [written_append S p q, ← List.append_assoc]; rfl

theorem concat_of_append {α : Type} {p p' a : List α} {x : α} (hne : p' ≠ [])
    (h : p ++ p' = a ++ [x]) : ∃ p'', p' = p'' ++ [x] := by
  have : p'.getLast? = some x := by
    have h1 := congrArg List.getLast? h
    rw [List.getLast?_append, List.getLast?_eq_some_getLast hne] at h1
    rw [List.getLast?_eq_some_getLast hne]
    simpa using h1
  exact List.getLast?_eq_some_iff.1 this

theorem eq_of_split_at {c : Char} : ∀ {a b s t : Str}, c ∉ a → c ∉ b → a ++ c :: s = b ++ c :: t →
    a = b
  | [], [], _, _, _, _, _ => rfl
  | [], d :: b, _, _, _, hb, h => absurd (.head _) ((List.cons.inj h).1 ▸ hb)
  | d :: a, [], _, _, ha, _, h => absurd (.head _) ((List.cons.inj h).1 ▸ ha)
  | d :: a, e :: b, _, _, ha, hb, h => by
    obtain ⟨rfl, h'⟩ := List.cons.inj h
    rw [eq_of_split_at (fun h => ha (.tail _ h)) (fun h => hb (.tail _ h)) h']

/-- Names read along the tokens: as long as no blank and no `>` is read, only characters are met,
since there is a blank before each gap. -/
theorem written_prefix (S : Str → Bool) : ∀ (u : Str) (ts : List GapTok) (r : Str) (c₀ : Char),
    c₀ ≠ ' ' → (∀ c ∈ u, c ≠ ' ') →
    (∀ p n q, .ch c₀ :: ts = p ++ .gap n :: q → ∃ p', p = p' ++ [.ch ' ']) →
    written S ts = u ++ r →
    ∃ q, ts = u.map GapTok.ch ++ q ∧ written S q = r ∧ ∀ n q', q ≠ .gap n :: q'
  | [], ts, r, c₀, h0, _, hp, h => by
    refine ⟨ts, rfl, h, ?_⟩
    rintro n q' rfl
    obtain ⟨p', e⟩ := hp [.ch c₀] n q' rfl
    have := List.append_inj_right' (show [] ++ [GapTok.ch c₀] = p' ++ [.ch ' '] from e) rfl
    simp at this
    exact h0 this
  | c :: u, [], r, c₀, _, _, _, h => by simp [written] at h
  | c :: u, .gap n :: ts, r, c₀, h0, _, hp, _ => by
    obtain ⟨p', e⟩ := hp [.ch c₀] n ts rfl
    have := List.append_inj_right' (show [] ++ [GapTok.ch c₀] = p' ++ [.ch ' '] from e) rfl
    simp at this
    exact absurd this h0
  | c :: u, .ch d :: ts, r, c₀, h0, hu, hp, h => by
    obtain ⟨rfl, h'⟩ := List.cons.inj (show d :: written S ts = c :: (u ++ r) from h)
    obtain ⟨q, rfl, hr, hq⟩ := written_prefix S u ts r d (hu d (.head _))
      (fun c hc => hu c (.tail _ hc)) (by
        intro p n q e
        obtain ⟨p', e'⟩ := hp (.ch c₀ :: p) n q (by rw [e]; rfl)
        cases p' with
        | nil =>
          cases p with
          | nil => simp at e
          | cons => simp at e'
        | cons a p' => exact ⟨p', (List.cons.inj e').2⟩) h'
    exact ⟨q, rfl, hr, hq⟩

theorem written_chars (S : Str → Bool) : ∀ u : Str, written S (u.map GapTok.ch) = u
  | [] => rfl
  | c :: u => by
    show c :: written S (u.map GapTok.ch) = _
    rw [written_chars S u]

theorem written_head {ts : List GapTok} (h : ∀ n q, ts ≠ .gap n :: q) (S S' : Str → Bool)
    (hu : Unquoted (written S ts)) : Unquoted (written S' ts) := by
  cases ts with
  | nil => exact hu
  | cons t ts =>
    cases t with
    | gap n => exact absurd rfl (h n ts)
    | ch c =>
      intro d t e
      obtain ⟨rfl, -⟩ := List.cons.inj (show c :: written S' ts = d :: t from e)
      exact hu _ _ rfl

/-- All attributes without a value that have the name `n` are removed at once, and nothing else. -/
theorem deleted_written {S : Str → Bool} {n : Str} (hn : S n = true) : ∀ (p ts : List GapTok),
    Placed (p ++ ts) → Distinguished (p ++ ts) → .gap n ∈ p ++ ts →
    Deleted (n ++ ['=']) (written S ts) (written (fun m => S m && m != n) ts)
  | _, [], _, _, _ => .nil
  | p, .ch c :: ts, hp, ha, hg => by
    have hne : ∀ c ∈ n, c ≠ ' ' ∧ c ≠ '>' ∧ c ≠ '=' := by
      obtain ⟨a, b, e⟩ := List.append_of_mem hg
      exact (hp _ _ _ e).2.1
    have e1 : p ++ .ch c :: ts = (p ++ [.ch c]) ++ ts := by simp
    refine .keep ?_ (deleted_written hn (p ++ [.ch c]) ts (e1 ▸ hp) (e1 ▸ ha) (e1 ▸ hg))
    rintro ⟨t, ht⟩
    obtain ⟨b, e, hb⟩ := deletable_occurrence ht
    cases n with
    | nil =>
      obtain ⟨a, b, e⟩ := List.append_of_mem hg
      exact (hp _ _ _ e).1 rfl
    | cons d n =>
      obtain ⟨rfl, e'⟩ := List.cons.inj (show c :: written S ts = d :: (n ++ ['='] ++ b) from e)
      have hc : c ≠ ' ' := (hne c (.head _)).1
      obtain ⟨q, rfl, hq, hq'⟩ := written_prefix S (n ++ ['=']) ts b c hc (by
        intro x hx
        rcases List.mem_append.1 hx with hx | hx
        · exact (hne x (.tail _ hx)).1
        · rw [List.mem_singleton.1 hx]; decide) (by
        intro p' m q e
        obtain ⟨p₂, e₂⟩ := (hp (p ++ p') m q (by rw [e, List.append_assoc])).2.2.1
        exact concat_of_append (by rintro rfl; simp at e) e₂) e'
      refine (ha (c :: n) hg).1 (written (fun _ => false) p) (written (fun _ => false) q) ?_
        (written_head hq' S _ (hq ▸ hb))
      rw [written_append]
      show _ ++ c :: written _ _ = _
      rw [written_append, written_chars]
      simp
  | p, .gap m :: ts, hp, ha, hg => by
    obtain ⟨hm, hmc, -, q', hq⟩ := hp p m ts rfl
    have e1 : p ++ .gap m :: ts = (p ++ [.gap m]) ++ ts := by simp
    have ih := deleted_written hn (p ++ [.gap m]) ts (e1 ▸ hp) (e1 ▸ ha) (e1 ▸ hg)
    show Deleted _ ((if S m then m ++ ['='] else []) ++ _)
      ((if (S m && m != n) then m ++ ['='] else []) ++ _)
    by_cases hmn : m = n
    · subst hmn
      rw [if_pos hn, if_neg (by simp)]
      refine .delete (.inr ⟨rfl, ?_, ?_⟩) ih
      · rcases hq with rfl | rfl <;> · intro c u e; rw [← (List.cons.inj e).1]; decide
      · rcases hq with rfl | rfl <;>
        · rintro ⟨u, e, -⟩
          exact absurd (List.cons.inj e).1 (by decide)
    · by_cases hS : S m
      · rw [if_pos hS, if_pos (by simp [hS, hmn])]
        refine deleted_keep _ _ _ _ ?_ ih
        rintro a b e hb ⟨t, ht⟩
        obtain ⟨r, e', -⟩ := deletable_occurrence ht
        have hne : ∀ c ∈ n, c ≠ ' ' ∧ c ≠ '>' ∧ c ≠ '=' := by
          obtain ⟨a, b, e⟩ := List.append_of_mem hg
          exact (hp _ _ _ e).2.1
        obtain ⟨b', rfl⟩ : ∃ b', b = b' ++ ['='] := concat_of_append hb e.symm
        have e2 : m = a ++ b' := by
          have := List.append_inj_left' (e.trans (List.append_assoc a b' ['=']).symm) rfl
          exact this
        have hb' : '=' ∉ b' := fun h => (hmc '=' (by rw [e2]; simp [h])).2.2 rfl
        have hn' : '=' ∉ n := fun h => (hne '=' h).2.2 rfl
        have e3 : b' = n := by
          rw [List.append_assoc, List.append_assoc] at e'
          exact eq_of_split_at hb' hn' e'
        subst e3
        have := (ha _ hg).2 m a (by simp) e2
        rw [this] at e2
        exact hmn (by simpa using e2)
      · rw [if_neg hS, if_neg (by simp [hS])]
        exact ih

theorem written_length {S S' : Str → Bool} (h : ∀ m, S' m = true → S m = true) : ∀ ts,
    (written S' ts).length ≤ (written S ts).length
  | [] => Nat.le_refl _
  | .ch c :: ts => Nat.succ_le_succ (written_length h ts)
  | .gap n :: ts => by
    show ((if S' n then n ++ ['='] else []) ++ _).length ≤ ((if S n then n ++ ['='] else []) ++ _).length
    have := written_length h ts
    by_cases h' : S' n
    · rw [if_pos h', if_pos (h n h')]; simp only [List.length_append]; omega
    · rw [if_neg h']; simp only [List.length_append, List.length_nil]; omega

/-- The first attribute without a value is removed, with all others of its name. -/
theorem consulted_name {env : Env} {x : Str} {k : Nat} {S : Str → Bool} {ts p q : List GapTok} {n : Str}
    (hpl : Placed ts) (hap : Distinguished ts) (hpt : Points env ts)
    (hc : Consulted env x k (written S ts)) (hts : ts = p ++ .gap n :: q) (hS : S n = true)
    (hf : ∀ m, .gap m ∈ p → S m = false) :
    Consulted env x (k + 1) (written (fun m => S m && m != n) ts) := by
  obtain ⟨o, hp, h1, h2⟩ := hpt S p n q hts hS hf
  obtain ⟨hn, hnc, ⟨p', hp'⟩, q', hq⟩ := hpl p n q hts
  have hy : written S ts = written S p ++ (n ++ ['='] ++ written S q) := by
    rw [hts, written_append]
    show _ ++ ((if S n then n ++ ['='] else []) ++ _) = _
    rw [if_pos hS]
  refine .next hc hp (.word (w := n ++ ['=']) (by decide) ?_ (by simp) ?_ ?_)
  · refine ⟨written S p, (n ++ ['=']).take (o - (written S p).length),
      (n ++ ['=']).drop (o - (written S p).length), written S q, ?_, ?_, ?_, ?_, ?_, ?_, ?_, ?_⟩
    · rw [← List.append_assoc ((n ++ ['=']).take _), List.take_append_drop, hy]
    · simp only [List.length_append, List.length_take, List.length_cons, List.length_nil]
      omega
    · rw [List.take_append_drop]
    · intro h
      rcases List.mem_append.1 (List.mem_of_mem_take h) with h | h
      · exact (hnc _ h).1 rfl
      · simp at h
    · refine .inr ⟨written S p', ?_⟩
      rw [hp', written_append]; rfl
    · intro h
      rcases List.mem_append.1 (List.mem_of_mem_drop h) with h | h
      · exact (hnc _ h).1 rfl
      · simp at h
    · intro h
      rcases List.mem_append.1 (List.mem_of_mem_drop h) with h | h
      · exact (hnc _ h).2.1 rfl
      · simp at h
    · rcases hq with rfl | rfl
      · exact .inr ⟨_, .inl rfl⟩
      · exact .inr ⟨_, .inr rfl⟩
  · exact deleted_written hS [] ts hpl hap (by rw [hts]; simp)
  · intro e
    have hle : ∀ m, (S m && m != n) = true → S m = true := fun m h => (Bool.and_eq_true_iff.1 h).1
    have l1 := written_length hle p
    have l2 := written_length hle q
    have e' : written (fun m => S m && m != n) ts =
        written (fun m => S m && m != n) p ++ written (fun m => S m && m != n) q := by
      rw [hts, written_append]
      show _ ++ ((if (S n && n != n) then n ++ ['='] else []) ++ _) = _
      rw [if_neg (by simp)]; rfl
    have := congrArg List.length (e'.symm.trans (e.trans hy))
    simp only [List.length_append, List.length_cons, List.length_nil] at this
    omega

/-- The first gap whose name is in `S`, if any. -/
theorem first_gap (S : Str → Bool) : ∀ ts : List GapTok,
    (∃ p n q, ts = p ++ .gap n :: q ∧ S n = true ∧ ∀ m, .gap m ∈ p → S m = false) ∨
    ∀ m, .gap m ∈ ts → S m = false
  | [] => .inr (by simp)
  | .ch c :: ts => by
    rcases first_gap S ts with ⟨p, n, q, rfl, hn, hp⟩ | h
    · exact .inl ⟨.ch c :: p, n, q, rfl, hn, fun m hm => hp m (by simpa using hm)⟩
    · exact .inr fun m hm => h m (by simpa using hm)
  | .gap k :: ts => by
    by_cases hk : S k
    · exact .inl ⟨[], k, ts, rfl, hk, by simp⟩
    · rcases first_gap S ts with ⟨p, n, q, rfl, hn, hp⟩ | h
      · refine .inl ⟨.gap k :: p, n, q, rfl, hn, fun m hm => ?_⟩
        rcases List.mem_cons.1 hm with hm | hm
        · injection hm with hm; rw [hm]; simpa using hk
        · exact hp m hm
      · refine .inr fun m hm => ?_
        rcases List.mem_cons.1 hm with hm | hm
        · injection hm with hm; rw [hm]; simpa using hk
        · exact h m hm

theorem written_congr {S S' : Str → Bool} : ∀ ts : List GapTok, (∀ m, .gap m ∈ ts → S m = S' m) →
    written S ts = written S' ts
  | [], _ => rfl
  | .ch c :: ts, h => by
    show c :: _ = c :: _
    rw [written_congr ts fun m hm => h m (.tail _ hm)]
  | .gap n :: ts, h => by
    show (if S n then n ++ ['='] else []) ++ _ = (if S' n then n ++ ['='] else []) ++ _
    rw [written_congr ts fun m hm => h m (.tail _ hm), h n (.head _)]

theorem consulted_names {env : Env} {x : Str} {ts : List GapTok}
    (hpl : Placed ts) (hap : Distinguished ts) (hpt : Points env ts) : ∀ (i k : Nat) (S : Str → Bool)
    (l : List Str), l.length ≤ i → Consulted env x k (written S ts) →
    (∀ n, .gap n ∈ ts → S n = true → n ∈ l) →
    ∃ j, j ≤ k + i ∧ Consulted env x j (written (fun _ => false) ts)
  | i, k, S, l, hi, hc, hl => by
    rcases first_gap S ts with ⟨p, n, q, hts, hn, hf⟩ | h
    · have hm := hl n (by rw [hts]; simp) hn
      have hpos : 0 < l.length := List.length_pos_iff.2 (List.ne_nil_of_mem hm)
      obtain ⟨i, rfl⟩ : ∃ i', i = i' + 1 := ⟨i - 1, by omega⟩
      obtain ⟨j, hj, hcj⟩ := consulted_names hpl hap hpt i (k + 1) _ (l.erase n)
        (by rw [List.length_erase_of_mem hm]; omega)
        (consulted_name hpl hap hpt hc hts hn hf) (by
          intro m hm' hSm
          obtain ⟨h1, h2⟩ := Bool.and_eq_true_iff.1 hSm
          have hne : m ≠ n := by simpa using h2
          exact (List.mem_erase_of_ne hne).2 (hl m hm' h1))
      exact ⟨j, by omega, hcj⟩
    · exact ⟨k, by omega, by rwa [written_congr ts h] at hc⟩

/-- **C58** Any number of attributes without a value are removed if they have at most four different
names, and the rest is converted. -/
theorem C58_four_names (env : Env) (x : Str) (ts : List GapTok) (names : List Str) (d : Doc)
    (hx : prep x = written (fun _ => true) ts) (hpl : Placed ts) (hap : Distinguished ts)
    (hpt : Points env ts) (h4 : names.length ≤ 4) (hn : ∀ n, .gap n ∈ ts → n ∈ names)
    (hd : env.parse (written (fun _ => false) ts) = .ok d) : convert env x = docResult d := by
  obtain ⟨j, hj, hc⟩ := consulted_names hpl hap hpt 4 0 (fun _ => true) names h4
    (hx ▸ Consulted.first) (fun n h _ => hn n h)
  exact C06_first_success env x _ j d (by omega) hc hd

theorem consulted_fourth {env : Env} {x : Str} {ts : List GapTok}
    (hpl : Placed ts) (hap : Distinguished ts) (hpt : Points env ts) : ∀ (i k : Nat) (S : Str → Bool)
    (l : List Str), l.Nodup → i < l.length → Consulted env x k (written S ts) →
    (∀ n ∈ l, .gap n ∈ ts ∧ S n = true) →
    ∃ S' n, Consulted env x (k + i) (written S' ts) ∧ .gap n ∈ ts ∧ S' n = true
  | 0, k, S, [], _, hi, _, _ => absurd hi (by simp)
  | 0, k, S, n :: l, _, _, hc, hl => ⟨S, n, hc, hl n (.head _)⟩
  | i + 1, k, S, l, hnd, hi, hc, hl => by
    rcases first_gap S ts with ⟨p, n, q, hts, hn, hf⟩ | h
    · obtain ⟨S', n', h1, h2⟩ := consulted_fourth hpl hap hpt i (k + 1) _ (l.erase n)
        (hnd.erase n) (by
          have := List.le_length_erase (a := n) (l := l)
          omega)
        (consulted_name hpl hap hpt hc hts hn hf) (by
          intro m hm
          obtain ⟨h1, h2⟩ := (List.Nodup.mem_erase_iff hnd).1 hm
          exact ⟨(hl m h2).1, by simp [(hl m h2).2, h1]⟩)
      exact ⟨S', n', by rwa [Nat.add_assoc, Nat.add_comm 1] at h1, h2⟩
    · have hpos : 0 < l.length := by omega
      obtain ⟨n, hn⟩ := List.exists_mem_of_length_pos hpos
      exact absurd ((h n (hl n hn).1).symm.trans (hl n hn).2) (by simp)

/-- **C58** With five or more different names it is a syntax error. -/
theorem C58_five_names (env : Env) (x : Str) (ts : List GapTok) (names : List Str)
    (hx : prep x = written (fun _ => true) ts) (hpl : Placed ts) (hap : Distinguished ts)
    (hpt : Points env ts) (h5 : 5 ≤ names.length) (hnd : names.Nodup)
    (hn : ∀ n ∈ names, .gap n ∈ ts) : ∃ o, convert env x = .error (.expat 4 1 o) := by
  obtain ⟨S, n, hc, hg, hS⟩ := consulted_fourth hpl hap hpt 4 0 (fun _ => true) names hnd
    (by omega) (hx ▸ Consulted.first) (fun n h => ⟨hn n h, rfl⟩)
  rcases first_gap S ts with ⟨p, m, q, hts, hm, hf⟩ | h
  · obtain ⟨o, hp, h1, h2⟩ := hpt S p m q hts hm hf
    refine ⟨o, C06_last_error env x _ _ hc hp ?_⟩
    rintro ⟨l, o', he, hlt⟩
    obtain ⟨rfl, rfl⟩ : 1 = l ∧ o = o' := by simpa using he
    have : written S ts = written S p ++ (m ++ ['='] ++ written S q) := by
      rw [hts, written_append]
      show _ ++ ((if S m then m ++ ['='] else []) ++ _) = _
      rw [if_pos hm]
    rw [this] at hlt
    simp only [List.length_append, List.length_cons, List.length_nil] at hlt
    omega
  · rw [h n hg] at hS
    exact absurd hS (by simp)

/-- Deciding `Placed`; `t` is the token before. -/
def placedB (t : GapTok) : List GapTok → Bool
  | [] => true
  | .ch c :: ts => placedB (.ch c) ts
  | .gap n :: ts => n != [] && n.all (fun c => c != ' ' && c != '>' && c != '=') && t == .ch ' ' &&
      (ts.head? == some (.ch ' ') || ts.head? == some (.ch '>')) && placedB (.gap n) ts

theorem placed_of : ∀ (ts : List GapTok) (t : GapTok), placedB t ts = true → ∀ p n q,
    ts = p ++ .gap n :: q → n ≠ [] ∧ (∀ c ∈ n, c ≠ ' ' ∧ c ≠ '>' ∧ c ≠ '=') ∧
    (∃ p', t :: p = p' ++ [.ch ' ']) ∧ ∃ q', q = .ch ' ' :: q' ∨ q = .ch '>' :: q'
  | [], _, _, p, n, q, e => by simp at e
  | .ch c :: ts, t, h, [], n, q, e => by simp at e
  | .ch c :: ts, t, h, a :: p, n, q, e => by
    obtain ⟨rfl, e'⟩ := List.cons.inj e
    obtain ⟨h1, h2, ⟨p', h3⟩, h4⟩ := placed_of ts (.ch c) h p n q e'
    exact ⟨h1, h2, ⟨t :: p', by rw [h3]; rfl⟩, h4⟩
  | .gap m :: ts, t, h, [], n, q, e => by
    obtain ⟨h0, rfl⟩ := List.cons.inj e
    injection h0 with h0
    subst h0
    simp only [placedB, Bool.and_eq_true, List.all_eq_true, Bool.or_eq_true, bne_iff_ne, ne_eq,
      beq_iff_eq] at h
    obtain ⟨⟨⟨⟨h1, h2⟩, h3⟩, h4⟩, -⟩ := h
    refine ⟨h1, fun c hc => ⟨(h2 c hc).1.1, (h2 c hc).1.2, (h2 c hc).2⟩, ⟨[], by rw [h3]; rfl⟩, ?_⟩
    cases ts with
    | nil => simp at h4
    | cons a r => exact ⟨r, by simpa using h4⟩
  | .gap m :: ts, t, h, a :: p, n, q, e => by
    obtain ⟨rfl, e'⟩ := List.cons.inj e
    simp only [placedB, Bool.and_eq_true] at h
    obtain ⟨h1, h2, ⟨p', h3⟩, h4⟩ := placed_of ts (.gap m) h.2 p n q e'
    exact ⟨h1, h2, ⟨t :: p', by rw [h3]; rfl⟩, h4⟩

/-- A text with five attributes without a value; four of them are `columnalign`. -/
def cellToks : List GapTok :=
  c!"<mtd ".map GapTok.ch ++ .gap c!"columnalign" :: (c!"><mi a='1' ".map GapTok.ch ++ .gap c!"b" ::
    (c!"><mtd ".map GapTok.ch ++ .gap c!"columnalign" :: (c!" ><mtd ".map GapTok.ch ++
      .gap c!"columnalign" :: (c!"><mtd ".map GapTok.ch ++ .gap c!"columnalign" ::
        c!">".map GapTok.ch))))

example : written (fun _ => true) cellToks =
    c!"<mtd columnalign=><mi a='1' b=><mtd columnalign= ><mtd columnalign=><mtd columnalign=>" := by
  decide +kernel

/-- A parser that complains twice. -/
def cellEnv : Env :=
  ⟨fun y => if y = c!"<mtd ><mi a='1' ><mtd  ><mtd ><mtd >" then .ok []
    else if y = c!"<mtd ><mi a='1' b=><mtd  ><mtd ><mtd >" then .error (.expat 4 1 18)
    else .error (.expat 4 1 17), fun c => isAsciiAlnum c⟩

/-- Deciding the first half of `Distinguished` for one name. -/
theorem apart_of (z n : Str) (h : ∀ i, i ≤ z.length →
    (n ++ ['=']).isPrefixOf (z.drop i) = true →
      ((z.drop i).drop (n.length + 1)).head? = some '"' ∨
      ((z.drop i).drop (n.length + 1)).head? = some '\'') :
    ∀ a b, z = a ++ (n ++ '=' :: b) → ¬ Unquoted b := by
  intro a b e hu
  have := h a.length (by rw [e]; simp) (by
    rw [e, List.drop_left]; exact List.isPrefixOf_iff_prefix.2 ⟨b, by simp⟩)
  rw [e, List.drop_left, show n ++ '=' :: b = (n ++ ['=']) ++ b by simp,
    show n.length + 1 = (n ++ ['=']).length by simp, List.drop_left] at this
  cases b with
  | nil => simp at this
  | cons c b =>
    have := hu c b rfl
    simp_all

/-- Two ways of naming the first gap in `S` agree. -/
theorem first_gap_unique {S : Str → Bool} : ∀ {p p' q q' : List GapTok} {n n' : Str},
    p ++ .gap n :: q = p' ++ .gap n' :: q' → S n = true → S n' = true →
    (∀ m, .gap m ∈ p → S m = false) → (∀ m, .gap m ∈ p' → S m = false) → p = p' ∧ n = n'
  | [], [], _, _, _, _, e, _, _, _, _ => by
    injection (List.cons.inj e).1 with e
    exact ⟨rfl, e⟩
  | [], t :: p', _, _, n, _, e, hn, _, _, hp' => by
    obtain ⟨rfl, -⟩ := List.cons.inj e
    exact absurd (hn.symm.trans (hp' n (.head _))) (by simp)
  | t :: p, [], _, _, _, n', e, _, hn', hp, _ => by
    obtain ⟨rfl, -⟩ := List.cons.inj e
    exact absurd (hn'.symm.trans (hp n' (.head _))) (by simp)
  | t :: p, t' :: p', q, q', n, n', e, hn, hn', hp, hp' => by
    obtain ⟨rfl, e'⟩ := List.cons.inj e
    obtain ⟨h1, h2⟩ := first_gap_unique e' hn hn' (fun m h => hp m (.tail _ h))
      (fun m h => hp' m (.tail _ h))
    exact ⟨by rw [h1], h2⟩

theorem cellToks_gaps : ∀ n, .gap n ∈ cellToks → n = c!"columnalign" ∨ n = c!"b" := by
  intro n h
  have : n = c!"columnalign" ∨ n = c!"b" ∨ n = c!"columnalign" := by simpa [cellToks] using h
  rcases this with h | h | h
  · exact .inl h
  · exact .inr h
  · exact .inl h

theorem cellToks_placed : Placed cellToks := by
  intro p n q e
  obtain ⟨h1, h2, ⟨p', h3⟩, h4⟩ := placed_of cellToks (.ch 'x') (by decide +kernel) p n q e
  refine ⟨h1, h2, ?_, h4⟩
  cases p' with
  | nil => simp at h3
  | cons a p' => exact ⟨p', (List.cons.inj h3).2⟩

theorem cellToks_apart : Distinguished cellToks := by
  intro n hn
  rcases cellToks_gaps n hn with rfl | rfl
  · refine ⟨apart_of _ _ (by decide +kernel), ?_⟩
    intro m a hm e
    rcases cellToks_gaps m hm with rfl | rfl
    · have := congrArg List.length e
      simpa using this
    · have := congrArg List.length e
      simp at this
  · refine ⟨apart_of _ _ (by decide +kernel), ?_⟩
    intro m a hm e
    rcases cellToks_gaps m hm with rfl | rfl
    · have := congrArg List.getLast? e
      simp at this
    · have := congrArg List.length e
      simpa using this

theorem cellEnv_points : Points cellEnv cellToks := by
  intro S p n q e hn hp
  by_cases hc : S c!"columnalign" = true
  · obtain ⟨rfl, rfl⟩ := first_gap_unique (S := S) (p' := c!"<mtd ".map GapTok.ch)
      (e.symm.trans (show cellToks = _ ++ _ from rfl)) hn hc hp (by simp)
    refine ⟨17, ?_, by simp [written], by simp [written]⟩
    have hne : written S cellToks ≠ c!"<mtd ><mi a='1' ><mtd  ><mtd ><mtd >" ∧
        written S cellToks ≠ c!"<mtd ><mi a='1' b=><mtd  ><mtd ><mtd >" := by
      simp [cellToks, written, hc]
    show (if _ then _ else _) = _
    rw [if_neg hne.1]
    show (if _ then _ else _) = _
    rw [if_neg hne.2]
  · have hc' : S c!"columnalign" = false := by simpa using hc
    have hg := cellToks_gaps n (by rw [e]; simp)
    have hb : n = c!"b" := by
      rcases hg with rfl | rfl
      · exact absurd hn hc
      · rfl
    subst hb
    obtain ⟨rfl, -⟩ := first_gap_unique (S := S) (n' := c!"b")
      (p' := c!"<mtd ".map GapTok.ch ++ .gap c!"columnalign" :: c!"><mi a='1' ".map GapTok.ch)
      (e.symm.trans (show cellToks = _ ++ _ from rfl)) hn hn hp (by simp [hc'])
    refine ⟨18, ?_, ?_, ?_⟩
    · have : written S cellToks = c!"<mtd ><mi a='1' b=><mtd  ><mtd ><mtd >" := by
        simp [cellToks, written, hc', hn]
      rw [this]
      rfl
    · simp [written, hc']
    · simp [written, hc']

example : convert cellEnv
    c!"<mtd columnalign=><mi a='1' b=><mtd columnalign= ><mtd columnalign=>\n<mtd columnalign=>" =
    docResult [] :=
  C58_four_names cellEnv _ cellToks [c!"columnalign", c!"b"] [] (by decide +kernel) cellToks_placed
    cellToks_apart cellEnv_points (by decide)
    (fun n h => by rcases cellToks_gaps n h with rfl | rfl <;> simp) (by
      rw [show written (fun _ => false) cellToks = c!"<mtd ><mi a='1' ><mtd  ><mtd ><mtd >" by
        decide +kernel]; rfl)

/-- **C58** The condition on names is needed: `a=` is also the end of `data=`, and what is left of
that is an attribute without even a `=`. -/
theorem C58_end_of_a_name (env : Env)
    (hp : env.parse c!"<math a=><mi data=>x</mi></math>" = .error (.expat 4 1 8)) :
    Consulted env c!"<math a=><mi data=>x</mi></math>" 1 c!"<math ><mi dat>x</mi></math>" := by
  have hf : prep c!"<math a=><mi data=>x</mi></math>" = c!"<math a=><mi data=>x</mi></math>" := by
    decide +kernel
  refine .next (hf ▸ .first) hp (.word (w := c!"a=") (by decide) ?_ (by decide)
    ((missing_sub_iff (by decide) _ _).1 (by decide +kernel)) (by decide))
  exact ⟨c!"<math ", c!"a=", [], c!"><mi data=>x</mi></math>", by decide, by decide, by decide,
    by decide, .inr ⟨c!"<math", rfl⟩, by decide, by decide, .inr ⟨_, .inr rfl⟩⟩

/-- **C58** So is the condition that the word does not occur elsewhere: it is removed from the value
of another attribute too. -/
theorem C58_inside_a_value (env : Env)
    (hp : env.parse c!"<math a=><mi href='?a=1'>x</mi></math>" = .error (.expat 4 1 8)) :
    Consulted env c!"<math a=><mi href='?a=1'>x</mi></math>" 1
      c!"<math ><mi href='?1'>x</mi></math>" := by
  have hf : prep c!"<math a=><mi href='?a=1'>x</mi></math>" =
      c!"<math a=><mi href='?a=1'>x</mi></math>" := by decide +kernel
  refine .next (hf ▸ .first) hp (.word (w := c!"a=") (by decide) ?_ (by decide)
    ((missing_sub_iff (by decide) _ _).1 (by decide +kernel)) (by decide))
  exact ⟨c!"<math ", c!"a=", [], c!"><mi href='?a=1'>x</mi></math>", by decide, by decide,
    by decide, by decide, .inr ⟨c!"<math", rfl⟩, by decide, by decide, .inr ⟨_, .inr rfl⟩⟩

/-- **C58** An attribute without even a `=` is worse: its name is removed wherever it occurs.  In
`<math><mi a>x</mi></math>` that is also in `math`, and then there is no formula any more. -/
theorem C58_bare_name (env : Env)
    (hp : env.parse c!"<math><mi a>x</mi></math>" = .error (.expat 4 1 11))
    (hq : env.parse c!"<mth><mi >x</mi></mth>" =
      .ok [.elem c!"mth" [] [.elem c!"mi" [] [.text c!"x"]]]) :
    convert env c!"<math><mi a>x</mi></math>" = .ok [] := by
  have hf : prep c!"<math><mi a>x</mi></math>" = c!"<math><mi a>x</mi></math>" := by decide +kernel
  have h1 : Consulted env c!"<math><mi a>x</mi></math>" 1 c!"<mth><mi >x</mi></mth>" := by
    refine .next (hf ▸ .first) hp (.word (w := c!"a") (by decide) ?_ (by decide)
      ((missing_sub_iff (by decide) _ _).1 (by decide +kernel)) (by decide))
    exact ⟨c!"<math><mi ", c!"a", [], c!">x</mi></math>", by decide, by decide, by decide,
      by decide, .inr ⟨c!"<math><mi", rfl⟩, by decide, by decide, .inr ⟨_, .inr rfl⟩⟩
  rw [C06_first_success env _ _ 1 _ (by decide) h1 hq, docResult_eq]
  decide +kernel

/-- **C58** The repair goes by the position alone.  In `<mi a= b="1">` the value of `a` could still
come after the blank, so that a parser can report it missing only at `b`: then `b` is removed, which
is complete, and `a` stays. -/
theorem C58_neighbour_lost (env : Env)
    (hp : env.parse c!"<math><mi a= b='1'>x</mi></math>" = .error (.expat 4 1 13)) :
    Consulted env c!"<math><mi a= b='1'>x</mi></math>" 1 c!"<math><mi a= >x</mi></math>" := by
  have hf : prep c!"<math><mi a= b='1'>x</mi></math>" = c!"<math><mi a= b='1'>x</mi></math>" := by
    decide +kernel
  refine C58_one env _ _ _ c!"b='1'" 0 1 13 (hf ▸ .first) hp (by decide) ?_
  exact lone_of c!"b='1'" c!"<math><mi a=" c!">x</mi></math>" 13 (by decide) (by decide) (by decide)
    (by decide) (by decide)

/-- **C58** And then, if the parser complains at the `>`, the `=` alone is removed: `a` stays. -/
theorem C58_blank_before_end (env : Env)
    (hp : env.parse c!"<math><mi a= >x</mi></math>" = .error (.expat 4 1 13)) :
    Consulted env c!"<math><mi a= >x</mi></math>" 1 c!"<math><mi a >x</mi></math>" := by
  have hf : prep c!"<math><mi a= >x</mi></math>" = c!"<math><mi a= >x</mi></math>" := by
    decide +kernel
  refine .next (hf ▸ .first) hp (.emptyWord (by decide) ?_ ?_ (by decide))
  · exact ⟨c!"<math><mi a= ", [], [], c!">x</mi></math>", rfl, rfl, rfl, by decide,
      .inr ⟨c!"<math><mi a=", rfl⟩, by decide, by decide, .inr ⟨_, .inr rfl⟩⟩
  · have hk : ∀ u s s', '=' ∉ u → DeletedEq s s' → DeletedEq (u ++ s) (u ++ s') := by
      intro u s s' hu hs
      induction u with
      | nil => exact hs
      | cons c u ih =>
        refine .keep (fun h => hu (by rw [h.1]; exact .head _)) (ih fun h => hu (.tail _ h))
    refine hk c!"<math><mi a" _ c!" >x</mi></math>" (by decide) (.delete ?_ ?_)
    · intro c t e
      rw [← (List.cons.inj e).1]; decide
    · have := hk c!" >x</mi></math>" [] [] (by decide) .nil
      exact this

end Verif
