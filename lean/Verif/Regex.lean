import Verif.Py

/-!
# The fragment of Python's `re` that the code base uses

A backtracking matcher in continuation style: alternatives are tried in the
order in which CPython tries them, repetition is greedy.
-/

namespace Verif

/-- Patterns.  `star`/`plus` repeat a character class (all the code base needs). -/
inductive Re where
  | eps
  | cls (p : Char → Bool)
  | seq (a b : Re)
  | alt (a b : Re)
  | star (p : Char → Bool)
  | opt (a : Re)
  | grp (n : Nat) (a : Re)
  /-- negative lookahead `(?!a)`; groups inside it are unset afterwards -/
  | nla (a : Re)

namespace Re

/-- A literal character. -/
def chr (c : Char) : Re := cls (fun x => x == c)

/-- A literal string, i.e. `re.escape(s)`. -/
def lit : Str → Re
  | [] => eps
  | c :: s => seq (chr c) (lit s)

/-- `p+` -/
def plus (p : Char → Bool) : Re := seq (cls p) (star p)

end Re

/-- Captured groups, latest binding first. -/
abbrev Caps := List (Nat × Str)

/-- Greedy repetition of a class, longest first. -/
def starM {β : Type} (p : Char → Bool) (s : Str) (k : Str → Option β) : Option β :=
  match s with
  | [] => k []
  | c :: s' => if p c then (starM p s' k).orElse (fun _ => k (c :: s')) else k (c :: s')

/-- Match `r` at the beginning of `s`; `k` receives the unread input and groups. -/
def Re.run {β : Type} : Re → Str → Caps → (Str → Caps → Option β) → Option β
  | eps, s, g, k => k s g
  | cls p, s, g, k =>
    match s with
    | [] => none
    | c :: s' => if p c then k s' g else none
  | seq a b, s, g, k => a.run s g (fun s' g' => b.run s' g' k)
  | alt a b, s, g, k => (a.run s g k).orElse (fun _ => b.run s g k)
  | star p, s, g, k => starM p s (fun s' => k s' g)
  | opt a, s, g, k => (a.run s g k).orElse (fun _ => k s g)
  | grp n a, s, g, k =>
    a.run s g (fun s' g' => k s' ((n, s.take (s.length - s'.length)) :: g'))
  | nla a, s, g, k =>
    match a.run s g (fun _ _ => some ()) with
    | some _ => none
    | none => k s g

/-- Match at the beginning of `s`.  With `must`, an empty match is rejected (the
matcher backtracks into the next alternative), CPython `must_advance`. -/
def Re.matchHere (r : Re) (must : Bool) (s : Str) : Option (Str × Caps) :=
  r.run s [] (fun s' g => if must && s'.length == s.length then none else some (s', g))

/-- `re.search(r, s)` is not `None`. -/
def Re.search (r : Re) : Str → Bool
  | [] => (r.matchHere false []).isSome
  | c :: s => (r.matchHere false (c :: s)).isSome || r.search s

/-- Worker of `sub`; `fuel` bounds the number of steps (each step either copies a
character or performs a match, and after an empty match the next step at the same
position is not an empty match). -/
def Re.subGo (r : Re) (repl : Caps → Str) : Nat → Bool → Str → Str
  | 0, _, s => s
  | fuel + 1, must, s =>
    match r.matchHere must s with
    | some (s', g) => repl g ++ r.subGo repl fuel (s'.length == s.length) s'
    | none =>
      match s with
      | [] => []
      | c :: s' => c :: r.subGo repl fuel false s'

/-- `re.sub(r, repl, s)`, Python ≥ 3.7. -/
def Re.sub (r : Re) (repl : Caps → Str) (s : Str) : Str :=
  r.subGo repl (2 * s.length + 2) false s

/-- `\n` in a replacement template: the text of the group, or "" if it is unset. -/
def capText (n : Nat) (g : Caps) : Str :=
  match g with
  | [] => []
  | (m, t) :: g' => if m = n then t else capText n g'

end Verif
