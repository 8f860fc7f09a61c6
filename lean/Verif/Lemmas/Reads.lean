import Verif.Lemmas.Latex
import Verif.Spec.Reads

/-! # Readings of formulas: they exist, and there is only one -/

namespace Verif
open Spec

/-! ## Last items -/

theorem lastItem_concat (l : List Item) (i : Item) : lastItem (l ++ [i]) = i := by
  induction l with
  | nil => rfl
  | cons x l ih =>
    cases l with
    | nil => rfl
    | cons y l => simpa [lastItem] using ih

theorem onLast_concat (f : Item → Item) (l : List Item) (i : Item) :
    onLast f (l ++ [i]) = l ++ [f i] := by
  induction l with
  | nil => rfl
  | cons x l ih =>
    cases l with
    | nil => rfl
    | cons y l => simpa [onLast] using ih

theorem lastItem_onLast (f : Item → Item) (l : List Item) :
    lastItem (onLast f l) = f (lastItem l) := by
  induction l with
  | nil => rfl
  | cons x l ih =>
    cases l with
    | nil => rfl
    | cons y l =>
      have : ∃ z m, onLast f (y :: l) = z :: m := by
        cases l <;> simp [onLast]
      obtain ⟨z, m, e⟩ := this
      rw [onLast, lastItem, e, lastItem, ← e, ih]

theorem Spec.Reads.plain {s : Shape} {f : List Tok} (h : Reads s f) :
    ∀ {i}, s = .nucleus i → i.hasSup = false ∧ i.hasSub = false := by
  cases h <;> intro i e <;> cases e <;> exact ⟨rfl, rfl⟩

theorem Spec.Reads.run_append {l l1 l2 : List Item} {f g : List Tok} (h : Reads (.run l l1) f)
    (hg : Reads (.run l1 l2) g) : Reads (.run l l2) (f ++ g) := by
  generalize hp : Shape.run l l1 = p at h
  induction h generalizing l with
  | nil => cases hp; exact hg
  | atom hx _ _ ih => cases hp; rw [List.append_assoc]; exact .atom hx (ih rfl)
  | sup h1 hx _ _ ih => cases hp; rw [List.cons_append, List.append_assoc]; exact .sup h1 hx (ih rfl)
  | sub h1 hx _ _ ih => cases hp; rw [List.cons_append, List.append_assoc]; exact .sub h1 hx (ih rfl)
  | prime h1 _ ih => cases hp; exact .prime h1 (ih rfl)
  | _ => cases hp

theorem Spec.Reads.nuc {i : Item} {x : List Tok} (h : Reads (.nucleus i) x) (l : List Item) :
    Reads (.run l (l ++ [i])) x := by
  have := Reads.atom (l := l) h .nil
  rwa [List.append_nil] at this

theorem Spec.Reads.one {l : List Item} {g : List Tok} (h : Reads (.group l) g) :
    Reads (.groups [l]) g := by
  have := Reads.more h .none
  rwa [List.append_nil] at this

theorem Spec.Reads.two {l l' : List Item} {g g' : List Tok} (h : Reads (.group l) g)
    (h' : Reads (.group l') g') : Reads (.groups [l, l']) (g ++ g') := .more h h'.one

/-! ## The same grammar -/

/-- The scripts that are possible after some items. -/
def roomAfter (l : List Item) : Room := ⟨!(lastItem l).hasSup, !(lastItem l).hasSub⟩

/-- The phrase without the items. -/
def Spec.Shape.phrase : Shape → Phrase
  | .run l l' => .run (roomAfter l) (roomAfter l')
  | .nucleus _ => .nucleus
  | .group _ => .group
  | .groups ls => .groups ls.length
  | .text _ => .text
  | .body _ => .body

theorem Spec.Reads.latex {s : Shape} {f : List Tok} (h : Reads s f) : Latex s.phrase f := by
  induction h with
  | nil => exact .nil
  | @atom l l' i x f hx _ ih1 ih2 =>
    have e : roomAfter (l ++ [i]) = fresh := by
      rw [roomAfter, lastItem_concat, (hx.plain rfl).1, (hx.plain rfl).2]; rfl
    simp only [Shape.phrase, e] at ih2
    exact .atom ih1 ih2
  | @sup l l' e g f h1 _ _ ih1 ih2 =>
    simp only [Shape.phrase, roomAfter, lastItem_onLast, Item.hasSup, Item.hasSub, h1] at ih1 ih2 ⊢
    exact .sup ih1 ih2
  | @sub l l' e g f h1 _ _ ih1 ih2 =>
    simp only [Shape.phrase, roomAfter, lastItem_onLast, Item.hasSup, Item.hasSub, h1] at ih1 ih2 ⊢
    exact .sub ih1 ih2
  | @prime l l' f h1 _ ih =>
    simp only [Shape.phrase, roomAfter, lastItem_onLast, Item.hasSup, Item.hasSub, h1] at ih ⊢
    exact .prime ih
  | group _ ih => exact .group ih
  | none => exact .none
  | more _ _ ih1 ih2 => exact .more ih1 ih2
  | char h => exact .char h
  | symb h => exact .symb h
  | word h => exact .word h
  | braces _ ih => exact .braces ih
  | command h e _ ih => subst e; exact .command h ih
  | root _ h _ ih1 ih2 => exact .root ih1 h ih2
  | color _ ih => exact .color ih
  | text h _ ih => exact .text h ih
  | fence h1 h2 _ ih => exact .fence h1 h2 ih
  | matrix h _ ih => exact .matrix h ih
  | textEnd => exact .textEnd
  | textChar h _ ih => exact .textChar h ih
  | degree _ ih => exact .degree ih
  | nested h _ _ ih1 ih2 => exact .nested h ih1 ih2
  | cell _ ih => exact .cell ih
  | column _ _ ih1 ih2 => exact .column ih1 ih2
  | line _ _ h ih1 ih2 => exact .line ih1 ih2 h

theorem Spec.Reads.lexed {p : Shape} {s : Str} (h : Reads p (tokens s)) : lexed s ≠ .bs :=
  h.latex.lexed

/-- The items allow the scripts. -/
def Allows (l : List Item) (q : Room) : Prop :=
  (q.sup = true → (lastItem l).hasSup = false) ∧ (q.sub = true → (lastItem l).hasSub = false)

theorem allows_nil (q : Room) : Allows [] q := ⟨fun _ => rfl, fun _ => rfl⟩

/-- There is a reading. -/
def Readable : Phrase → List Tok → Prop
  | .run q q', f => ∀ l, Allows l q → ∃ l', Reads (.run l l') f ∧ Allows l' q'
  | .nucleus, f => ∃ i, Reads (.nucleus i) f
  | .group, f => ∃ l, Reads (.group l) f
  | .groups n, f => ∃ ls, ls.length = n ∧ Reads (.groups ls) f
  | .text, f => ∃ l, Reads (.text l) f
  | .body, f => ∃ r rows, Reads (.body (r :: rows)) f

theorem Spec.Latex.readable {p : Phrase} {f : List Tok} (h : Latex p f) : Readable p f := by
  induction h with
  | nil => intro l hl; exact ⟨l, .nil, hl⟩
  | atom _ _ ih1 ih2 =>
    intro l _
    obtain ⟨i, hi⟩ := ih1
    obtain ⟨l', h, ha⟩ := ih2 (l ++ [i]) (by
      unfold Allows
      rw [lastItem_concat]
      exact ⟨fun _ => (hi.plain rfl).1, fun _ => (hi.plain rfl).2⟩)
    exact ⟨l', .atom hi h, ha⟩
  | sup _ _ ih1 ih2 =>
    intro l hl
    obtain ⟨e, he⟩ := ih1
    obtain ⟨l', h, ha⟩ := ih2 (onLast (fun x => .sup x e) l) (by
      unfold Allows
      rw [lastItem_onLast]
      exact ⟨fun h => (nomatch h), hl.2⟩)
    exact ⟨l', .sup (hl.1 rfl) he h, ha⟩
  | sub _ _ ih1 ih2 =>
    intro l hl
    obtain ⟨e, he⟩ := ih1
    obtain ⟨l', h, ha⟩ := ih2 (onLast (fun x => .sub x e) l) (by
      unfold Allows
      rw [lastItem_onLast]
      exact ⟨hl.1, fun h => (nomatch h)⟩)
    exact ⟨l', .sub (hl.2 rfl) he h, ha⟩
  | prime _ ih =>
    intro l hl
    obtain ⟨l', h, ha⟩ := ih (onLast .prime l) (by
      unfold Allows
      rw [lastItem_onLast]
      exact ⟨fun h => (nomatch h), hl.2⟩)
    exact ⟨l', .prime (hl.1 rfl) h, ha⟩
  | group _ ih => obtain ⟨l, h, -⟩ := ih [] (allows_nil _); exact ⟨l, .group h⟩
  | none => exact ⟨[], rfl, .none⟩
  | more _ _ ih1 ih2 =>
    obtain ⟨l, h1⟩ := ih1
    obtain ⟨ls, e, h2⟩ := ih2
    exact ⟨l :: ls, by simp [e], .more h1 h2⟩
  | char h => exact ⟨_, .char h⟩
  | symb h => exact ⟨_, .symb h⟩
  | word h => exact ⟨_, .word h⟩
  | braces _ ih => obtain ⟨l, h⟩ := ih; exact ⟨_, .braces h⟩
  | command h _ ih => obtain ⟨ls, e, h2⟩ := ih; exact ⟨_, .command h e h2⟩
  | root _ h _ ih1 ih2 =>
    obtain ⟨l, h1, -⟩ := ih1 [] (allows_nil _)
    obtain ⟨r, h2⟩ := ih2
    exact ⟨_, .root h1 h h2⟩
  | color _ ih => obtain ⟨l, h⟩ := ih; exact ⟨_, .color h⟩
  | text h _ ih => obtain ⟨l, h2⟩ := ih; exact ⟨_, .text h h2⟩
  | fence h1 h2 _ ih => obtain ⟨l, h3, -⟩ := ih [] (allows_nil _); exact ⟨_, .fence h1 h2 h3⟩
  | matrix h _ ih => obtain ⟨r, rows, h2⟩ := ih; exact ⟨_, .matrix h h2⟩
  | textEnd => exact ⟨_, .textEnd⟩
  | textChar h _ ih => obtain ⟨l, h2⟩ := ih; exact ⟨_, .textChar h h2⟩
  | degree _ ih => obtain ⟨l, h2⟩ := ih; exact ⟨_, .degree h2⟩
  | nested h _ _ ih1 ih2 =>
    obtain ⟨l, h2⟩ := ih1
    obtain ⟨l', h3⟩ := ih2
    exact ⟨_, .nested h h2 h3⟩
  | cell _ ih => obtain ⟨l, h, -⟩ := ih [] (allows_nil _); exact ⟨_, _, .cell h⟩
  | column _ _ ih1 ih2 =>
    obtain ⟨l, h, -⟩ := ih1 [] (allows_nil _)
    obtain ⟨r, rows, h2⟩ := ih2
    exact ⟨_, _, .column h h2⟩
  | line _ _ ho ih1 ih2 =>
    obtain ⟨l, h, -⟩ := ih1 [] (allows_nil _)
    obtain ⟨r, rows, h2⟩ := ih2
    exact ⟨_, _, .line h h2 ho⟩

/-! ## A deterministic reader -/

/-- The words with a rule of their own. -/
def ruleWords : List Str :=
  [c!"sqrt", c!"left", c!"right", c!"begin", c!"end", c!"color"]

theorem symbols_read : ∀ w ∈ symbols, w ∉ ruleWords ∧ textMacros.contains w = false ∧
    arity w = none ∧ isSymbol w = true := by decide +kernel

theorem commands_read : ∀ p ∈ commands, p.1 = c!"sqrt" ∧ p.2 = 1 ∨
    p.1 ∉ ruleWords ∧ textMacros.contains p.1 = false ∧ arity p.1 = some p.2 := by decide +kernel

theorem textMacros_read : ∀ w ∈ textMacros, w ∉ ruleWords ∧ textMacros.contains w = true ∧
    w ≠ c!"textdegree" := by decide +kernel

theorem matrixNames_read : ∀ n ∈ matrixNames, '}' ∉ n := by
  decide +kernel

namespace Scan

/-- What the formula in braces is for. -/
inductive Use where
  | group
  | sup
  | sub
  | arg (w : Str) (done : List (List Item)) (k : Nat)
  | radicand (index : List Item)
  | red

/-- What is open, with the items before it. -/
inductive Frame where
  | brace (u : Use) (c : List Item)
  | index (c : List Item)
  | left (a : Tok) (c : List Item)
  | env (name : Str) (c : List Item) (rows : List (List (List Item))) (row : List (List Item))
  | text (inText : Bool) (w : Str) (c : List Item)

/-- What is expected. -/
inductive Mode where
  | run (l : List Item)
  | want (u : Use) (c : List Item)
  | root (c : List Item)
  | open (c : List Item)
  | close (a : Tok) (body c : List Item)
  | newline
  | text (l : List Item)
  | textArg (inText : Bool) (w : Str) (c : List Item)
  | name (kind : Fin 3) (c : List Item)
  | naming (kind : Fin 3) (n : Str) (c : List Item)

def args (w : Str) (done : List (List Item)) (c : List Item) : Nat → Mode
  | 0 => .run (c ++ [.app w done])
  | k + 1 => .want (.arg w done k) c

/-- The formula in braces is `l`. -/
def finish (l c : List Item) : Use → Mode
  | .group => .run (c ++ [.group l])
  | .sup => .run (onLast (fun x => .sup x l) c)
  | .sub => .run (onLast (fun x => .sub x l) c)
  | .arg w done k => args w (done ++ [l]) c k
  | .radicand i => .run (c ++ [.root i l])
  | .red => .run (c ++ [.red l])

def isIndex : List Frame → Bool
  | .index _ :: _ => true
  | _ => false

def runStep (l : List Item) (S : List Frame) : Tok → Option (Mode × List Frame)
  | .char '^' => if (lastItem l).hasSup then none else some (.want .sup l, S)
  | .char '_' => if (lastItem l).hasSub then none else some (.want .sub l, S)
  | .char '\'' => if (lastItem l).hasSup then none else some (.run (onLast .prime l), S)
  | .char '{' => some (.run [], .brace .group l :: S)
  | .char '}' =>
    match S with
    | .brace u c :: S => some (finish l c u, S)
    | _ => none
  | .char '&' =>
    match S with
    | .env name c rows row :: S => some (.run [], .env name c rows (row ++ [l]) :: S)
    | _ => none
  | .char x =>
    if isIndex S && x = ']' then
      match S with
      | .index c :: S => some (.want (.radicand l) c, S)
      | _ => none
    else if ordinary x then some (.run (l ++ [.sym (.char x)]), S) else none
  | .symb x =>
    if x = '\\' then
      match S with
      | .env name c rows row :: S => some (.newline, .env name c (rows ++ [row ++ [l]]) [] :: S)
      | _ => none
    else if controlSymbols.contains x then some (.run (l ++ [.sym (.symb x)]), S) else none
  | .word w =>
    if w = c!"sqrt" then some (.root l, S)
    else if w = c!"left" then some (.open l, S)
    else if w = c!"right" then
      match S with
      | .left a c :: S => some (.close a l c, S)
      | _ => none
    else if w = c!"begin" then some (.name 1 l, S)
    else if w = c!"end" then some (.name 2 l, S)
    else if w = c!"color" then some (.name 0 l, S)
    else if textMacros.contains w then some (.textArg false w l, S)
    else
      match arity w with
      | some n => some (args w [] l n, S)
      | none => if isSymbol w then some (.run (l ++ [.sym (.word w)]), S) else none

def step : Mode → List Frame → Tok → Option (Mode × List Frame)
  | .run l, S, t => runStep l S t
  | .want u c, S, .char '{' => some (.run [], .brace u c :: S)
  | .want _ _, _, _ => none
  | .root c, S, .char '[' => some (.run [], .index c :: S)
  | .root c, S, .char '{' => some (.run [], .brace (.arg c!"sqrt" [] 0) c :: S)
  | .root _, _, _ => none
  | .open c, S, t => if delimiter t then some (.run [], .left t c :: S) else none
  | .close a l c, S, t => if delimiter t then some (.run (c ++ [.fence a t l]), S) else none
  | .newline, S, t => if lineOption t then none else runStep [] S t
  | .text l, S, .char '}' =>
    match S with
    | .text true w c :: S => some (.text (c ++ [.text w l]), S)
    | .text false w c :: S => some (.run (c ++ [.text w l]), S)
    | _ => none
  | .text l, S, .char x => if ordinary x then some (.text (l ++ [.sym (.char x)]), S) else none
  | .text l, S, .word w =>
    if w = c!"textdegree" then some (.text (l ++ [.sym (.word w)]), S)
    else if textMacros.contains w then some (.textArg true w l, S) else none
  | .text _, _, .symb _ => none
  | .textArg b w c, S, .char '{' => some (.text [], .text b w c :: S)
  | .textArg _ _ _, _, _ => none
  | .name k c, S, .char '{' => some (.naming k [] c, S)
  | .name _ _, _, _ => none
  | .naming k w l, S, .char '}' =>
    match k with
    | 0 => if w = c!"red" then some (.want .red l, S) else none
    | 1 => if matrixNames.contains w then some (.run [], .env w l [] [] :: S) else none
    | 2 =>
      match S with
      | .env name c rows row :: S =>
        if w = name then some (.run (c ++ [.matrix name (rows ++ [row ++ [l]])]), S) else none
      | _ => none
  | .naming k w l, S, .char x => some (.naming k (w ++ [x]) l, S)
  | .naming _ _ _, _, _ => none

def all : Mode → List Frame → List Tok → Option (Mode × List Frame)
  | m, S, [] => some (m, S)
  | m, S, t :: ts =>
    match step m S t with
    | some (m, S) => all m S ts
    | none => none

theorem append {m : Mode} {S : List Frame} {m' : Mode} {S' : List Frame} {f g : List Tok}
    (h : all m S f = some (m', S')) : all m S (f ++ g) = all m' S' g := by
  induction f generalizing m S with
  | nil => cases h; rfl
  | cons t f ih =>
    rw [List.cons_append, all]
    rw [all] at h
    split
    · rename_i e; rw [e] at h; exact ih h
    · rename_i e; rw [e] at h; cases h

theorem cons {m : Mode} {S : List Frame} {t : Tok} {m' : Mode} {S' : List Frame}
    {f : List Tok} (h : step m S t = some (m', S')) : all m S (t :: f) = all m' S' f := by
  rw [all, h]

theorem read_name {k : Fin 3} {S : List Frame} {f : List Tok} {l : List Item} :
    ∀ {n w : Str}, '}' ∉ n →
      all (.naming k w l) S (n.map .char ++ f) = all (.naming k (w ++ n) l) S f
  | [], w, _ => by simp
  | c :: n, w, h => by
    have hc : c ≠ '}' := by rintro rfl; exact h (by simp)
    have : step (.naming k w l) S (.char c) = some (.naming k (w ++ [c]) l, S) := by
      unfold step
      split <;> simp_all
    rw [List.map_cons, List.cons_append, cons this,
      read_name fun h' => h (List.mem_cons_of_mem _ h')]
    simp

theorem run_word {l : List Item} {S : List Frame} {w : Str} (h : w ∉ ruleWords) :
    runStep l S (.word w) = if textMacros.contains w then some (.textArg false w l, S)
      else match arity w with
        | some n => some (args w [] l n, S)
        | none => if isSymbol w then some (.run (l ++ [.sym (.word w)]), S) else none := by
  simp only [ruleWords, List.mem_cons, List.not_mem_nil, or_false, not_or] at h
  simp [runStep, h]

theorem run_char {l : List Item} {S : List Frame} {c : Char} (h : ordinary c = true)
    (hS : isIndex S = true → c ≠ ']') :
    runStep l S (.char c) = some (.run (l ++ [.sym (.char c)]), S) := by
  have hc : ∀ d ∈ c!"\\{}$%#&^_~'", c ≠ d := by
    intro d hd e; subst e
    unfold ordinary at h
    have := List.contains_iff_mem.2 hd
    rw [this] at h; simp at h
  have h' : (isIndex S && c = ']') = false := by
    simp only [Bool.and_eq_false_imp, decide_eq_false_iff_not]
    exact hS
  unfold runStep
  split <;> try (rename_i e; cases e)
  all_goals first
    | exact absurd rfl (hc _ (by decide))
    | skip
  simp_all

theorem newline {S : List Frame} {f : List Tok} (hne : f ≠ [])
    (h : ∀ t u, f = t :: u → lineOption t = false) :
    all .newline S f = all (.run []) S f := by
  cases f with
  | nil => exact absurd rfl hne
  | cons t f => rw [all, all, step, step, h t f rfl]; rfl

/-- The rows with those that are still to come. -/
def glue (R : List (List (List Item))) (r : List (List Item)) :
    List (List (List Item)) → List (List (List Item))
  | [] => R
  | r0 :: rs => R ++ (r ++ r0) :: rs

theorem glue_nil (R rs : List (List (List Item))) : glue R [] rs = R ++ rs := by
  cases rs <;> simp [glue]

/-- What the reader does with a phrase. -/
def Does : Shape → List Tok → Prop
  | .run l l', f => ∀ S : List Frame, (isIndex S = true → .char ']' ∉ f) →
      all (.run l) S f = some (.run l', S)
  | .nucleus i, f => ∀ (l : List Item) (S : List Frame), (isIndex S = true → .char ']' ∉ f) →
      all (.run l) S f = some (.run (l ++ [i]), S)
  | .group l, f => ∀ u c S, all (.want u c) S f = some (finish l c u, S)
  | .groups ls, f => ∀ w done c S,
      all (args w done c ls.length) S f = some (.run (c ++ [.app w (done ++ ls)]), S)
  | .text l, f => ∀ t S, all (.text t) S f = some (.text (t ++ l), S)
  | .body rows, f => ∀ name c R r S, ∃ R' r' l m, (m = .newline ∧ l = [] ∨ m = .run l) ∧
      all (.run []) (.env name c R r :: S) f = some (m, .env name c R' r' :: S) ∧
      R' ++ [r' ++ [l]] = glue R r rows

theorem group_brace' {p : Shape} {g : List Tok} (h : Reads p g) {l : List Item}
    (hp : p = .group l) : ∃ t, g = .char '{' :: t := by
  cases h <;> first | exact ⟨_, rfl⟩ | cases hp

theorem does {p : Shape} {f : List Tok} (h : Reads p f) : Does p f := by
  induction h with
  | nil => intro S _; rfl
  | atom _ _ ih1 ih2 =>
    intro S hS
    simp only [List.mem_append, not_or] at hS
    rw [append (ih1 _ S fun h => (hS h).1)]
    exact ih2 S fun h => (hS h).2
  | @sup l l' e g f h1 _ _ ih1 ih2 =>
    intro S hS
    simp only [List.mem_cons, List.mem_append, not_or] at hS
    rw [cons (m' := .want .sup l) (S' := S) (by simp [step, runStep, h1]), append (ih1 _ _ S)]
    exact ih2 S fun h => (hS h).2.2
  | @sub l l' e g f h1 _ _ ih1 ih2 =>
    intro S hS
    simp only [List.mem_cons, List.mem_append, not_or] at hS
    rw [cons (m' := .want .sub l) (S' := S) (by simp [step, runStep, h1]), append (ih1 _ _ S)]
    exact ih2 S fun h => (hS h).2.2
  | @prime l l' f h1 _ ih =>
    intro S hS
    simp only [List.mem_cons, not_or] at hS
    rw [cons (m' := .run (onLast .prime l)) (S' := S) (by simp [step, runStep, h1])]
    exact ih S fun h => (hS h).2
  | group _ ih =>
    intro u c S
    rw [cons (m' := .run []) (S' := .brace u c :: S) rfl, append (ih _ (by simp [isIndex]))]
    rfl
  | none => intro w done c S; simp [all, args]
  | @more l ls g f _ _ ih1 ih2 =>
    intro w done c S
    have e : args w done c (l :: ls).length = .want (.arg w done ls.length) c := rfl
    rw [e, append (ih1 _ c S), finish, ih2]
    simp
  | @char c hc =>
    intro l S hS
    simp only [List.mem_cons, List.not_mem_nil, or_false] at hS
    rw [cons (by
      rw [step, run_char hc]
      intro h e; exact hS h (by rw [e]))]
    rfl
  | @symb c hc =>
    intro l S _
    have h1 : c ≠ '\\' := by rintro rfl; revert hc; decide
    rw [cons (m' := .run (l ++ [.sym (.symb c)])) (S' := S) (by
      simp [step, runStep, h1, hc])]
    rfl
  | @word w hw =>
    intro l S _
    obtain ⟨h1, h2, h3, h4⟩ := symbols_read w hw
    rw [cons (m' := .run (l ++ [.sym (.word w)])) (S' := S) (by
      rw [step, run_word h1, h2, h3, h4]; rfl)]
    rfl
  | braces hg ih =>
    intro l S _
    obtain ⟨t, rfl⟩ := group_brace' hg rfl
    have := ih .group l S
    rw [cons (m' := .run []) (S' := .brace .group l :: S) rfl] at this ⊢
    exact this
  | @command w n ls f hw hn hf ih =>
    intro l S _
    subst hn
    rcases commands_read _ hw with ⟨e1, e2⟩ | ⟨h1, h2, h3⟩
    · cases e1
      match ls, e2, hf, ih with
      | [a], _, hf, ih =>
        cases hf with
        | more h1 h2 =>
          cases h2
          rw [List.append_nil] at ih ⊢
          obtain ⟨t, rfl⟩ := group_brace' h1 rfl
          have := ih c!"sqrt" [] l S
          rw [cons (m' := .root l) (S' := S) rfl,
            cons (m' := .run []) (S' := .brace (.arg c!"sqrt" [] 0) l :: S) rfl]
          have e : args c!"sqrt" [] l [a].length = .want (.arg c!"sqrt" [] 0) l := rfl
          rw [e, cons (m' := .run []) (S' := .brace (.arg c!"sqrt" [] 0) l :: S) rfl] at this
          exact this
    · rw [cons (m' := args w [] l ls.length) (S' := S) (by
        rw [step, run_word h1, h2, h3]; rfl)]
      exact ih w [] l S
  | @root a r f g _ hb _ ih1 ih2 =>
    intro l S _
    rw [cons (m' := .root l) (S' := S) rfl,
      cons (m' := .run []) (S' := .index l :: S) rfl, append (ih1 _ fun _ => hb),
      cons (m' := .want (.radicand a) l) (S' := S) rfl]
    exact ih2 (.radicand a) l S
  | color _ ih =>
    intro l S _
    rw [cons (m' := .name 0 l) (S' := S) rfl]
    have : all (.name 0 l) S (named c!"red") = some (.want .red l, S) := rfl
    rw [append this]
    exact ih .red l S
  | @text w l f hw _ ih =>
    intro c S _
    obtain ⟨h1, h2, -⟩ := textMacros_read w hw
    rw [cons (m' := .textArg false w c) (S' := S) (by
        rw [step, run_word h1, h2]; rfl),
      cons (m' := .text []) (S' := .text false w c :: S) rfl, append (ih _ _)]
    rfl
  | @fence a b l f ha hb _ ih =>
    intro c S _
    rw [cons (m' := .open c) (S' := S) rfl,
      cons (m' := .run []) (S' := .left a c :: S) (by rw [step, ha]; rfl),
      append (ih _ (by simp [isIndex])), cons (m' := .close a l c) (S' := S) rfl,
      cons (m' := .run (c ++ [.fence a b l])) (S' := S) (by rw [step, hb]; rfl)]
    rfl
  | @matrix name rows f hn _ ih =>
    intro c S _
    have h1 := matrixNames_read name hn
    have hb : ∀ (k : Fin 3) (l : List Item) (S S' : List Frame) (m : Mode),
        step (.naming k name l) S (.char '}') = some (m, S') →
        all (.name k l) S (named name) = some (m, S') := by
      intro k l S S' m hm
      unfold named
      rw [List.cons_append, cons (m' := .naming k [] l) (S' := S) rfl, read_name h1,
        List.nil_append, cons hm]
      rfl
    obtain ⟨R, r, l, m, hm, e, hg⟩ := ih name c [] [] S
    rw [cons (m' := .name 1 c) (S' := S) rfl, List.append_assoc,
      append (hb 1 c S (.env name c [] [] :: S) (.run []) (by simp [step, hn])),
      append e]
    have hend : step m (.env name c R r :: S) (.word c!"end") =
        some (.name 2 l, .env name c R r :: S) := by
      rcases hm with ⟨rfl, rfl⟩ | rfl <;> rfl
    rw [cons hend]
    refine hb 2 l _ S _ ?_
    rw [glue_nil, List.nil_append] at hg
    simp [step, hg]
  | textEnd => intro t S; simp [all]
  | @textChar c l f hc _ ih =>
    intro t S
    have h1 : c ≠ '}' := by rintro rfl; revert hc; decide
    have : step (.text t) S (.char c) = some (.text (t ++ [.sym (.char c)]), S) := by
      unfold step
      split <;> simp_all
    rw [cons this, ih]
    simp
  | degree _ ih =>
    intro t S
    rw [cons (m' := .text (t ++ [.sym (.word c!"textdegree")])) (S' := S) rfl, ih]
    simp
  | @nested w l l' f f' hw _ _ ih1 ih2 =>
    intro t S
    obtain ⟨-, h2, h3⟩ := textMacros_read w hw
    rw [cons (m' := .textArg true w t) (S' := S) (by
        rw [step, if_neg h3, h2]; rfl),
      cons (m' := .text []) (S' := .text true w t :: S) rfl, append (ih1 _ _),
      cons (m' := .text (t ++ [.text w l])) (S' := S) rfl, ih2]
    simp
  | @cell l f _ ih =>
    intro name c R r S
    exact ⟨R, r, l, .run l, .inr rfl, ih _ (by simp [isIndex]), rfl⟩
  | @column l r0 rows f f' _ _ ih1 ih2 =>
    intro name c R r S
    obtain ⟨R', r', l', m, hm, e, hg⟩ := ih2 name c R (r ++ [l]) S
    refine ⟨R', r', l', m, hm, ?_, by rw [hg]; simp [glue]⟩
    rw [append (ih1 _ (by simp [isIndex])),
      cons (m' := .run []) (S' := .env name c R (r ++ [l]) :: S) rfl]
    exact e
  | @line l rows f f' _ _ ho ih1 ih2 =>
    intro name c R r S
    have e0 : ∀ g, all (.run []) (.env name c R r :: S) (f ++ .symb '\\' :: g) =
        all .newline (.env name c (R ++ [r ++ [l]]) [] :: S) g := by
      intro g
      rw [append (ih1 _ (by simp [isIndex])),
        cons (m' := .newline) (S' := .env name c (R ++ [r ++ [l]]) [] :: S) rfl]
    obtain ⟨R', r', l', m, hm, e, hg⟩ := ih2 name c (R ++ [r ++ [l]]) [] S
    have hg' : R' ++ [r' ++ [l']] = glue R r ([l] :: rows) := by
      rw [hg, glue_nil]; simp [glue]
    by_cases hne : f' = []
    · subst hne
      rw [all] at e
      simp only [Option.some.injEq, Prod.mk.injEq, List.cons.injEq, Frame.env.injEq] at e
      obtain ⟨rfl, ⟨-, -, rfl, rfl⟩, -⟩ := e
      rcases hm with ⟨hm, -⟩ | hm
      · cases hm
      · cases hm
        exact ⟨_, _, [], .newline, .inl ⟨rfl, rfl⟩, by rw [e0]; rfl, hg'⟩
    · exact ⟨R', r', l', m, hm, by rw [e0, newline hne ho]; exact e, hg'⟩

end Scan

theorem Spec.ReadsAs.unique {s : Str} {l l' : List Item} (h : ReadsAs s l) (h' : ReadsAs s l') :
    l = l' := by
  have h1 : Scan.all (.run []) [] (tokens s) = some (.run l, []) :=
    Scan.does h [] (by simp [Scan.isIndex])
  have h2 : Scan.all (.run []) [] (tokens s) = some (.run l', []) :=
    Scan.does h' [] (by simp [Scan.isIndex])
  rw [h1] at h2
  cases h2
  rfl

/-- A formula has exactly one reading. -/
theorem formula_iff (s : Str) : Formula s ↔ ∃ l, ReadsAs s l := by
  constructor
  · rintro ⟨q, h⟩
    obtain ⟨l, h, -⟩ := h.readable [] (allows_nil _)
    exact ⟨l, h⟩
  · rintro ⟨l, h⟩
    exact ⟨roomAfter l, h.latex⟩

/-- The reader accepts a text as a formula. -/
def accepts (s : Str) : Bool :=
  match Scan.all (.run []) [] (tokens s) with
  | some (.run _, []) => true
  | _ => false

theorem Spec.Formula.accepts {s : Str} (h : Formula s) : accepts s = true := by
  obtain ⟨l, h⟩ := (formula_iff s).1 h
  have : Scan.all (.run []) [] (tokens s) = some (.run l, []) :=
    Scan.does h [] (by simp [Scan.isIndex])
  rw [Verif.accepts, this]

theorem not_formula {s : Str} (h : accepts s = false) : ¬ Formula s := fun hf => by
  rw [hf.accepts] at h; cases h

end Verif
