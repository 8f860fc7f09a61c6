import Verif.Spec.Latex
import Verif.Lemmas.Commands

/-! # Composing formulas -/

namespace Verif
open Spec

/-! ## Tokens -/

/-- The finished tokens and the state at the end. -/
def lexAll : Lex → Str → List Tok × Lex
  | st, [] => ([], st)
  | st, c :: s => ((lexStep st c).1 ++ (lexAll (lexStep st c).2 s).1, (lexAll (lexStep st c).2 s).2)

theorem tokensFrom_eq (st : Lex) (s : Str) :
    tokensFrom st s = (lexAll st s).1 ++ lexEnd (lexAll st s).2 := by
  induction s generalizing st with
  | nil => rfl
  | cons c s ih => rw [tokensFrom, ih, lexAll, List.append_assoc]

theorem tokensFrom_append (st : Lex) (s t : Str) :
    tokensFrom st (s ++ t) = (lexAll st s).1 ++ tokensFrom (lexAll st s).2 t := by
  induction s generalizing st with
  | nil => rfl
  | cons c s ih => rw [List.cons_append, tokensFrom, ih, lexAll, List.append_assoc]

theorem lexAll_append (st : Lex) (s t : Str) :
    (lexAll st (s ++ t)).2 = (lexAll (lexAll st s).2 t).2 := by
  induction s generalizing st with
  | nil => rfl
  | cons c s ih => rw [List.cons_append, lexAll, lexAll, ih]

/-- The state at the end. -/
def lexed (s : Str) : Lex := (lexAll .plain s).2

/-- The text does not begin with something that continues a token. -/
def Starts (t : Str) : Prop := ∀ c u, t = c :: u → isLetter c = false ∧ c ≠ '\''

theorem tokensFrom_starts {st : Lex} (hst : st ≠ .bs) {t : Str} (ht : Starts t) :
    tokensFrom st t = lexEnd st ++ tokens t := by
  cases t with
  | nil => simp [tokensFrom, tokens, lexEnd]
  | cons c t =>
    obtain ⟨h1, h2⟩ := ht c t rfl
    cases st with
    | plain => rfl
    | bs => exact absurd rfl hst
    | word w => simp [tokensFrom, tokens, lexStep, lexEnd, h1]
    | prime => simp [tokensFrom, tokens, lexStep, lexEnd, h2]

theorem tokens_append {s t : Str} (hs : lexed s ≠ .bs) (ht : Starts t) :
    tokens (s ++ t) = tokens s ++ tokens t := by
  rw [tokens, tokensFrom_append]
  show (lexAll .plain s).1 ++ tokensFrom (lexed s) t = _
  rw [tokensFrom_starts hs ht, ← List.append_assoc]
  congr 1
  exact (tokensFrom_eq .plain s).symm

theorem tokens_append_plain {s : Str} (hs : lexed s = .plain) (t : Str) :
    tokens (s ++ t) = tokens s ++ tokens t := by
  rw [tokens, tokensFrom_append]
  show (lexAll .plain s).1 ++ tokensFrom (lexed s) t = _
  have e : tokens s = (lexAll .plain s).1 ++ lexEnd (lexed s) := tokensFrom_eq .plain s
  rw [e, hs]
  simp [lexEnd, tokens]

theorem lexed_append_plain {s : Str} (hs : lexed s = .plain) (t : Str) :
    lexed (s ++ t) = lexed t := by
  unfold lexed at *; rw [lexAll_append, hs]

/-- What comes after a text that begins something new. -/
theorem lexed_starts {s t : Str} (hs : lexed s ≠ .bs) (ht : Starts t) (hne : t ≠ []) :
    lexed (s ++ t) = lexed t := by
  unfold lexed at *
  rw [lexAll_append]
  cases t with
  | nil => exact absurd rfl hne
  | cons c t =>
    obtain ⟨h1, h2⟩ := ht c t rfl
    cases h : (lexAll .plain s).2 with
    | plain => rfl
    | bs => exact absurd h hs
    | word w => simp [lexAll, lexStep, h1]
    | prime => simp [lexAll, lexStep, h2]

/-! ## Whitespace -/

theorem lexStep_space {c : Char} (h : isSpace c = true) {st : Lex} (hst : st ≠ .bs) :
    lexStep st c = (lexEnd st, .plain) := by
  obtain ⟨h0, h1, -⟩ := space_facts h
  have e : lexStart c = ([], .plain) := by simp [lexStart, h1, h]
  have h2 : c ≠ '\'' := by rintro rfl; revert h; decide
  cases st with
  | plain => exact e
  | bs => exact absurd rfl hst
  | word w => simp [lexStep, h0, e, lexEnd]
  | prime => simp [lexStep, h2, e, lexEnd]

theorem tokensFrom_gap {g : Str} (hg : ∀ c ∈ g, isSpace c = true) (hne : g ≠ []) {st : Lex}
    (hst : st ≠ .bs) (t : Str) : tokensFrom st (g ++ t) = lexEnd st ++ tokens t := by
  induction g generalizing st with
  | nil => exact absurd rfl hne
  | cons c g ih =>
    rw [List.cons_append, tokensFrom, lexStep_space (hg c List.mem_cons_self) hst]
    cases g with
    | nil => rfl
    | cons d g =>
      rw [ih (fun e he => hg e (List.mem_cons_of_mem _ he)) (by simp) (by simp)]
      rfl

/-- Tokens that the grammar knows. -/
def sane : Tok → Bool
  | .symb c => !isSpace c
  | .char c => c ≠ '\\'
  | .word _ => true

theorem not_bs_of_sane {s : Str} {st : Lex} (h : ∀ t ∈ tokensFrom st s, sane t = true) :
    (lexAll st s).2 ≠ .bs := by
  intro e
  rw [tokensFrom_eq, e] at h
  have := h (.char '\\') (by simp [lexEnd])
  revert this; decide

theorem tokensFrom_blanked {ws : List Str} {s : Str} (h : Spaced ws s)
    (hs : ∀ c t, s = c :: t → isSpace c = true) {st : Lex}
    (hr : ∀ t ∈ tokensFrom st s, sane t = true) :
    tokensFrom st s = tokensFrom st (blanked ws) := by
  have notbs : ∀ {g : Str} (t : Str), (∀ c ∈ g, isSpace c = true) → g ≠ [] →
      (∀ x ∈ tokensFrom st (g ++ t), sane x = true) → st ≠ .bs := by
    rintro g t hg hne hr rfl
    cases g with
    | nil => exact hne rfl
    | cons c g =>
      have hc := hg c List.mem_cons_self
      obtain ⟨h0, -, -⟩ := space_facts hc
      have := hr (.symb c) (by simp [tokensFrom, lexStep, h0])
      simp [sane, hc] at this
  induction h generalizing st with
  | @none g hgap =>
    cases g with
    | nil => rfl
    | cons c g =>
      have hst := notbs (g := c :: g) [] hgap (by simp) (by simpa using hr)
      have := tokensFrom_gap hgap (by simp) hst []
      rw [List.append_nil] at this
      rw [this]; simp [blanked, tokensFrom, tokens, lexEnd]
  | @word g w ws rest hgap hne hw hrest hsp ih =>
    have hgne : g ≠ [] := by
      rintro rfl
      obtain ⟨c, t, rfl⟩ := List.exists_cons_of_ne_nil hne
      have := hs c (t ++ rest) (by simp)
      rw [hw c List.mem_cons_self] at this; cases this
    have hst := notbs (w ++ rest) hgap hgne (by simpa using hr)
    have e : blanked (w :: ws) = [' '] ++ (w ++ blanked ws) := by simp [blanked]
    rw [e, tokensFrom_gap (g := [' ']) (by decide) (by simp) hst, List.append_assoc,
      tokensFrom_gap hgap hgne hst]
    rw [List.append_assoc, tokensFrom_gap hgap hgne hst] at hr
    have hr2 : ∀ t ∈ tokens (w ++ rest), sane t = true :=
      fun t ht => hr t (List.mem_append_right _ ht)
    congr 1
    rw [tokens, tokensFrom_append] at hr2
    rw [tokens, tokens, tokensFrom_append, tokensFrom_append]
    congr 1
    have hr3 : ∀ t ∈ tokensFrom (lexAll .plain w).2 rest, sane t = true :=
      fun t ht => hr2 t (List.mem_append_right _ ht)
    refine ih hrest hr3 ?_
    rintro g t hg hgn hr rfl'
    cases g with
    | nil => exact hgn rfl
    | cons c g =>
      have hc := hg c List.mem_cons_self
      obtain ⟨h0, -, -⟩ := space_facts hc
      have := hr (.symb c) (by simp [rfl', tokensFrom, lexStep, h0])
      simp [sane, hc] at this

theorem tokens_normalize {s : Str} (h : ∀ t ∈ tokens s, sane t = true) :
    tokens (normalize s) = tokens s := by
  have hsp := spaced_split s
  unfold Verif.normalize
  generalize split s = ws at hsp
  cases hsp with
  | @none g hgap =>
    cases hg : s with
    | nil => rfl
    | cons c g =>
      rw [hg] at hgap
      have := tokensFrom_gap (g := c :: g) hgap (by simp) (st := .plain) (by decide) []
      rw [List.append_nil] at this
      rw [tokens, tokens, this]; rfl
  | @word g w ws rest hgap hne hw hrest hsp =>
    rw [join_blanked]
    have hg : ∀ t, tokens (g ++ t) = tokens t := by
      intro t
      cases g with
      | nil => rfl
      | cons c g =>
        rw [tokens, tokensFrom_gap hgap (by simp) (by decide)]; rfl
    rw [List.append_assoc, hg] at h ⊢
    rw [tokens, tokensFrom_append] at h
    rw [tokens, tokens, tokensFrom_append, tokensFrom_append]
    rw [tokensFrom_blanked hsp hrest fun t ht => h t (List.mem_append_right _ ht)]

/-! ## Phrases -/

theorem ordinary_sane {c : Char} (h : ordinary c = true) : sane (.char c) = true := by
  cases hs : sane (.char c) with
  | true => rfl
  | false =>
    simp [sane] at hs
    subst hs; revert h; decide

theorem sane_named : ∀ n ∈ c!"red" :: matrixNames, ∀ t ∈ named n, sane t = true := by decide

theorem Spec.Latex.sane {p : Phrase} {f : List Tok} (h : Latex p f) : ∀ t ∈ f, sane t = true := by
  induction h with
  | nil => simp
  | atom _ _ h1 h2 =>
    simp only [List.mem_append]
    rintro t (h | h)
    · exact h1 t h
    · exact h2 t h
  | sup _ _ h1 h2 =>
    simp only [List.mem_cons, List.mem_append]
    rintro t (rfl | h | h)
    · exact by decide
    · exact h1 t h
    · exact h2 t h
  | sub _ _ h1 h2 =>
    simp only [List.mem_cons, List.mem_append]
    rintro t (rfl | h | h)
    · exact by decide
    · exact h1 t h
    · exact h2 t h
  | prime _ h1 =>
    simp only [List.mem_cons]
    rintro t (rfl | h)
    · exact by decide
    · exact h1 t h
  | group _ h1 =>
    simp only [List.mem_cons, List.mem_append, List.not_mem_nil, or_false]
    rintro t (rfl | h | rfl)
    · exact by decide
    · exact h1 t h
    · exact by decide
  | none => simp
  | more _ _ h1 h2 =>
    simp only [List.mem_append]
    rintro t (h | h)
    · exact h1 t h
    · exact h2 t h
  | char hc => simp only [List.mem_singleton, forall_eq]; exact ordinary_sane hc
  | @symb c hc =>
    simp only [List.mem_singleton, forall_eq]
    exact (by decide : ∀ c ∈ controlSymbols, Verif.sane (.symb c) = true) c hc
  | word _ => simp [Verif.sane]
  | braces _ h => exact h
  | command _ _ h =>
    simp only [List.mem_cons]
    rintro t (rfl | hm)
    · exact rfl
    · exact h t hm
  | root _ _ _ h1 h2 =>
    simp only [List.mem_cons, List.mem_append]
    rintro t (rfl | rfl | h | rfl | h)
    · exact rfl
    · exact by decide
    · exact h1 t h
    · exact by decide
    · exact h2 t h
  | color _ h =>
    simp only [List.mem_cons, List.mem_append]
    rintro t (rfl | hm | hm)
    · exact rfl
    · exact sane_named _ (by simp) t hm
    · exact h t hm
  | text _ _ h =>
    simp only [List.mem_cons, List.mem_append, List.not_mem_nil, or_false]
    rintro t (rfl | rfl | hm | rfl)
    · exact rfl
    · exact by decide
    · exact h t hm
    · exact by decide
  | @fence l r q f hl hr _ h =>
    simp only [List.mem_cons, List.mem_append, List.not_mem_nil, or_false]
    have key : ∀ d, delimiter d = true → Verif.sane d = true := by
      intro d hd
      cases d with
      | word => rfl
      | symb c =>
        have : c ∈ c!"{}|" := by simpa [delimiter] using hd
        exact (by decide : ∀ c ∈ c!"{}|", Verif.sane (.symb c) = true) c this
      | char c =>
        have : c ∈ c!"()[]|/.<>" := by simpa [delimiter] using hd
        exact (by decide : ∀ c ∈ c!"()[]|/.<>", Verif.sane (.char c) = true) c this
    rintro t (rfl | rfl | hm | rfl | rfl)
    · exact rfl
    · exact key _ hl
    · exact h t hm
    · exact rfl
    · exact key _ hr
  | matrix hn _ h =>
    simp only [List.mem_cons, List.mem_append]
    rintro t (rfl | (hm | hm) | rfl | hm)
    · exact rfl
    · exact sane_named _ (List.mem_cons_of_mem _ hn) t hm
    · exact h t hm
    · exact rfl
    · exact sane_named _ (List.mem_cons_of_mem _ hn) t hm
  | textEnd => simp
  | textChar hc _ h =>
    simp only [List.mem_cons]
    rintro t (rfl | hm)
    · exact ordinary_sane hc
    · exact h t hm
  | degree _ h =>
    simp only [List.mem_cons]
    rintro t (rfl | hm)
    · exact rfl
    · exact h t hm
  | nested _ _ _ h1 h2 =>
    simp only [List.mem_cons, List.mem_append]
    rintro t (rfl | rfl | h | rfl | h)
    · exact rfl
    · exact by decide
    · exact h1 t h
    · exact by decide
    · exact h2 t h
  | cell _ h => exact h
  | column _ _ h1 h2 =>
    simp only [List.mem_cons, List.mem_append]
    rintro t (h | rfl | h)
    · exact h1 t h
    · exact by decide
    · exact h2 t h
  | line _ _ _ h1 h2 =>
    simp only [List.mem_cons, List.mem_append]
    rintro t (h | rfl | h)
    · exact h1 t h
    · exact by decide
    · exact h2 t h

theorem Spec.Latex.lexed {p : Phrase} {s : Str} (h : Latex p (tokens s)) : lexed s ≠ .bs :=
  not_bs_of_sane h.sane

theorem Spec.Latex.nuc {x : List Tok} (h : Latex .nucleus x) (q : Room) :
    Latex (.run q fresh) x := by
  have := Latex.atom (q := q) h .nil
  rwa [List.append_nil] at this

theorem Spec.Latex.run_append {q q1 q2 : Room} {f g : List Tok} (h : Latex (.run q q1) f)
    (hg : Latex (.run q1 q2) g) : Latex (.run q q2) (f ++ g) := by
  generalize hp : Phrase.run q q1 = p at h
  induction h generalizing q with
  | nil => cases hp; exact hg
  | atom hx _ _ ih => cases hp; rw [List.append_assoc]; exact .atom hx (ih rfl)
  | sup hx _ _ ih => cases hp; rw [List.cons_append, List.append_assoc]; exact .sup hx (ih rfl)
  | sub hx _ _ ih => cases hp; rw [List.cons_append, List.append_assoc]; exact .sub hx (ih rfl)
  | prime _ ih => cases hp; exact .prime (ih rfl)
  | _ => cases hp

theorem Spec.Latex.one {g : List Tok} (h : Latex .group g) : Latex (.groups 1) g := by
  have := Latex.more h .none
  rwa [List.append_nil] at this

theorem Spec.Latex.two {g g' : List Tok} (h : Latex .group g) (h' : Latex .group g') :
    Latex (.groups 2) (g ++ g') := .more h h'.one

/-! ## A parser -/

def fastSymbols : KM Unit := KM.ofDict (symbols.map fun w => (w, ()))
def fastCommands : KM Nat := KM.ofDict commands

def isSymbol (w : Str) : Bool := (fastSymbols.find (keyCode w)).isSome
def arity (w : Str) : Option Nat := fastCommands.find (keyCode w)

theorem mem_of_isSymbol {w : Str} (h : isSymbol w = true) : w ∈ symbols := by
  unfold isSymbol fastSymbols at h
  rw [KM.find_ofDict] at h
  obtain ⟨u, hu⟩ := Option.isSome_iff_exists.1 h
  have := Dict.get?_mem hu
  obtain ⟨w', hw', e⟩ := List.mem_map.1 this
  cases e
  exact hw'

theorem mem_of_arity {w : Str} {n : Nat} (h : arity w = some n) : (w, n) ∈ commands := by
  unfold arity fastCommands at h
  rw [KM.find_ofDict] at h
  exact Dict.get?_mem h

/-- What is to be read. -/
inductive Goal where
  | run (q : Room)
  | groups (n : Nat)
  | text

/-- Read as much as possible: the scripts that are possible then, and the rest. -/
def parse : Nat → Goal → List Tok → Option (Room × List Tok)
  | 0, _, _ => none
  | n + 1, .groups k, ts =>
    match k with
    | 0 => some (fresh, ts)
    | k + 1 =>
      match ts with
      | .char c :: ts =>
        if c = '{' then
          match parse n (.run fresh) ts with
          | some (_, .char d :: r) => if d = '}' then parse n (.groups k) r else none
          | _ => none
        else none
      | _ => none
  | n + 1, .text, ts =>
    match ts with
    | .char c :: ts => if ordinary c then parse n .text ts else some (fresh, .char c :: ts)
    | .word w :: ts =>
      if w = c!"textdegree" then parse n .text ts else some (fresh, .word w :: ts)
    | ts => some (fresh, ts)
  | n + 1, .run q, ts =>
    match ts with
    | .char c :: r =>
      if c = '^' then
        if q.sup then (parse n (.groups 1) r).bind fun p => parse n (.run ⟨false, q.sub⟩) p.2
        else none
      else if c = '_' then
        if q.sub then (parse n (.groups 1) r).bind fun p => parse n (.run ⟨q.sup, false⟩) p.2
        else none
      else if c = '\'' then
        if q.sup then parse n (.run ⟨false, q.sub⟩) r else none
      else if ordinary c then parse n (.run fresh) r
      else if c = '{' then
        (parse n (.groups 1) (.char c :: r)).bind fun p => parse n (.run fresh) p.2
      else some (q, .char c :: r)
    | .symb c :: r =>
      if controlSymbols.contains c then parse n (.run fresh) r else some (q, .symb c :: r)
    | .word w :: r =>
      if isSymbol w then parse n (.run fresh) r
      else if w = c!"sqrt" ∧ r.head? = some (.char '[') then
        match parse n (.run fresh) (r.tail.takeWhile (· ≠ .char ']')),
            r.tail.dropWhile (· ≠ .char ']') with
        | some (_, []), _ :: r => (parse n (.groups 1) r).bind fun p => parse n (.run fresh) p.2
        | _, _ => none
      else match arity w with
        | some k => (parse n (.groups k) r).bind fun p => parse n (.run fresh) p.2
        | none =>
          if textMacros.contains w then
            match r with
            | .char c :: r =>
              if c = '{' then
                match parse n .text r with
                | some (_, .char d :: r) => if d = '}' then parse n (.run fresh) r else none
                | _ => none
              else none
            | _ => none
          else if w = c!"left" then
            match r with
            | d :: r =>
              if delimiter d then
                match parse n (.run fresh) r with
                | some (_, .word v :: e :: r) =>
                  if v = c!"right" ∧ delimiter e = true then parse n (.run fresh) r else none
                | _ => none
              else none
            | [] => none
          else some (q, .word w :: r)
    | [] => some (q, [])

/-- What has been read. -/
def Goal.phrase : Goal → Room → Phrase
  | .run q, q' => .run q q'
  | .groups n, _ => .groups n
  | .text, _ => .text

theorem Spec.Latex.unone {g : List Tok} (h : Latex (.groups 1) g) : Latex .group g := by
  cases h with
  | more h1 h2 =>
    cases h2
    rwa [List.append_nil]

theorem parse_sound (n : Nat) : ∀ (g : Goal) (ts : List Tok) (q' : Room) (r : List Tok),
    parse n g ts = some (q', r) → ∃ f, ts = f ++ r ∧ Latex (g.phrase q') f := by
  induction n with
  | zero => intro g ts q' r h; unfold parse at h; cases h
  | succ n ih =>
    have ihr := fun q => ih (.run q)
    have ihg := fun k => ih (.groups k)
    have iht := ih .text
    have after : ∀ {q x ts q' r}, Latex .nucleus x → parse n (.run fresh) ts = some (q', r) →
        ∃ f, x ++ ts = f ++ r ∧ Latex (.run q q') f := by
      intro q x ts q' r hx h
      obtain ⟨f, e, hf⟩ := ihr _ _ _ _ h
      exact ⟨x ++ f, by rw [e, List.append_assoc], .atom hx hf⟩
    intro g ts q' r h
    match g with
    | .groups k =>
      unfold parse at h
      cases k with
      | zero => cases h; exact ⟨[], rfl, .none⟩
      | succ k =>
        dsimp only at h
        split at h
        · split at h
          · rename_i hc; subst hc
            split at h
            · rename_i q1 d r' hp
              split at h
              · rename_i hd; subst hd
                obtain ⟨f, e, hf⟩ := ihr _ _ _ _ hp
                obtain ⟨f', e', hf'⟩ := ihg _ _ _ _ h
                refine ⟨(.char '{' :: (f ++ [.char '}'])) ++ f', ?_, .more (.group hf) hf'⟩
                rw [e, e']; simp
              · cases h
            · cases h
          · cases h
        · cases h
    | .text =>
      unfold parse at h
      split at h
      · split at h
        · rename_i hc
          obtain ⟨f, e, hf⟩ := iht _ _ _ h
          exact ⟨_ :: f, by rw [e]; rfl, .textChar hc hf⟩
        · simp only [Option.some.injEq, Prod.mk.injEq] at h
          exact ⟨[], by simp [h.2], .textEnd⟩
      · split at h
        · rename_i hc; subst hc
          obtain ⟨f, e, hf⟩ := iht _ _ _ h
          exact ⟨_ :: f, by rw [e]; rfl, .degree hf⟩
        · simp only [Option.some.injEq, Prod.mk.injEq] at h
          exact ⟨[], by simp [h.2], .textEnd⟩
      · simp only [Option.some.injEq, Prod.mk.injEq] at h
        exact ⟨[], by simp [h.2], .textEnd⟩
    | .run q =>
      have stop : ∀ {ts : List Tok}, some (q, ts) = some (q', r) →
          ∃ f, ts = f ++ r ∧ Latex (.run q q') f := by
        intro ts h
        simp only [Option.some.injEq, Prod.mk.injEq] at h
        exact ⟨[], by simp [h.2], h.1 ▸ .nil⟩
      unfold parse at h
      split at h
      · rename_i c t
        split at h
        · rename_i hc; subst hc
          split at h
          · rename_i hq
            obtain ⟨p, h1, h2⟩ := Option.bind_eq_some_iff.1 h
            obtain ⟨f, e, hf⟩ := ihg _ _ _ _ h1
            obtain ⟨f', e', hf'⟩ := ihr _ _ _ _ h2
            refine ⟨.char '^' :: (f ++ f'), by rw [e, e']; simp, ?_⟩
            have : q = ⟨true, q.sub⟩ := by rw [← hq]
            show Latex (.run q q') _
            rw [this]
            exact .sup hf.unone hf'
          · cases h
        · split at h
          · rename_i hc; subst hc
            split at h
            · rename_i hq
              obtain ⟨p, h1, h2⟩ := Option.bind_eq_some_iff.1 h
              obtain ⟨f, e, hf⟩ := ihg _ _ _ _ h1
              obtain ⟨f', e', hf'⟩ := ihr _ _ _ _ h2
              refine ⟨.char '_' :: (f ++ f'), by rw [e, e']; simp, ?_⟩
              have : q = ⟨q.sup, true⟩ := by rw [← hq]
              show Latex (.run q q') _
              rw [this]
              exact .sub hf.unone hf'
            · cases h
          · split at h
            · rename_i hc; subst hc
              split at h
              · rename_i hq
                obtain ⟨f', e', hf'⟩ := ihr _ _ _ _ h
                refine ⟨.char '\'' :: f', by rw [e']; simp, ?_⟩
                have : q = ⟨true, q.sub⟩ := by rw [← hq]
                show Latex (.run q q') _
                rw [this]
                exact .prime hf'
              · cases h
            · split at h
              · rename_i hc
                exact after (.char hc) h
              · split at h
                · rename_i hc; subst hc
                  obtain ⟨p, h1, h2⟩ := Option.bind_eq_some_iff.1 h
                  obtain ⟨f, e, hf⟩ := ihg _ _ _ _ h1
                  rw [e]
                  exact after (.braces hf.unone) h2
                · exact stop h
      · rename_i c t
        split at h
        · rename_i hc
          exact after (.symb (by simpa using hc)) h
        · exact stop h
      · rename_i w t
        split at h
        · rename_i hw
          exact after (.word (mem_of_isSymbol hw)) h
        · split at h
          · rename_i hw
            obtain ⟨rfl, hb⟩ := hw
            cases t with
            | nil => cases hb
            | cons d t =>
              simp only [List.head?_cons, Option.some.injEq] at hb
              subst hb
              split at h
              · rename_i e r' h1 h2
                obtain ⟨p, h3, h4⟩ := Option.bind_eq_some_iff.1 h
                obtain ⟨f, e1, hf⟩ := ihr _ _ _ _ h1
                obtain ⟨g, e2, hg⟩ := ihg _ _ _ _ h3
                have e3 : e = .char ']' := by
                  have := List.head?_dropWhile_not (fun x => decide (x ≠ Tok.char ']')) t
                  rw [List.tail_cons] at h2
                  rw [h2] at this
                  simpa using this
                rw [List.append_nil, List.tail_cons] at e1
                rw [List.tail_cons] at h2
                have e4 : t = f ++ .char ']' :: r' := by
                  subst e3
                  rw [← e1, ← h2, List.takeWhile_append_dropWhile]
                have hm : .char ']' ∉ f := by
                  rw [← e1]
                  intro hm
                  have := List.all_takeWhile (p := fun x => decide (x ≠ Tok.char ']')) (l := t)
                  rw [List.all_eq_true] at this
                  simpa using this _ hm
                have := after (q := q) (.root hf hm hg.unone) h4
                rw [e4, e2]
                simpa [Goal.phrase] using this
              · cases h
          split at h
          · rename_i k hk
            obtain ⟨p, h1, h2⟩ := Option.bind_eq_some_iff.1 h
            obtain ⟨f, e, hf⟩ := ihg _ _ _ _ h1
            rw [e]
            exact after (.command (mem_of_arity hk) hf) h2
          · split at h
            · rename_i hw
              split at h
              · split at h
                · rename_i hc; subst hc
                  split at h
                  · rename_i hp
                    split at h
                    · rename_i hd; subst hd
                      obtain ⟨f, e, hf⟩ := iht _ _ _ hp
                      have := after (q := q) (.text (by simpa using hw) hf) h
                      rw [e]
                      simpa [Goal.phrase] using this
                    · cases h
                  · cases h
                · cases h
              · cases h
            · split at h
              · rename_i hw; subst hw
                split at h
                · split at h
                  · rename_i hd
                    split at h
                    · rename_i hp
                      split at h
                      · rename_i hd2
                        obtain ⟨rfl, hd2⟩ := hd2
                        obtain ⟨f, e, hf⟩ := ihr _ _ _ _ hp
                        have := after (q := q) (.fence hd hd2 hf) h
                        rw [e]
                        simpa [Goal.phrase] using this
                      · cases h
                    · cases h
                  · cases h
                · cases h
              · exact stop h
      · exact stop h

/-- All of it is read. -/
def parses (q q' : Room) (s : Str) : Bool :=
  match parse (tokens s).length.succ (.run q) (tokens s) with
  | some (p, []) => p = q'
  | _ => false

theorem parses_sound {q q' : Room} {s : Str} (h : parses q q' s = true) :
    Latex (.run q q') (tokens s) := by
  unfold parses at h
  split at h
  · rename_i p hp
    obtain ⟨f, e, hf⟩ := parse_sound _ _ _ _ _ hp
    rw [e, List.append_nil]
    have : p = q' := by simpa using h
    exact this ▸ hf
  · cases h

end Verif
