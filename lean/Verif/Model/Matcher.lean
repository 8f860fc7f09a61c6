import Verif.Model.Xml

/-!
# The same, with the work of the pattern matcher counted

`Verif/Regex.lean` and `Model/Xml.lean` once more; every function also returns how many steps the
matcher of `re` takes: one for every character it looks at, one for every repetition it extends, one
for every alternative, group and lookahead it enters.  CPython's `_sre` looks ahead by one literal
character before it continues after `.*`, which saves a constant factor only.  `Lemmas/Matcher`
proves that the first components are the functions of the other two files.
-/

namespace Verif

/-- A result together with the number of steps taken. -/
abbrev Counted (α : Type) := α × Nat

/-- One step more. -/
def tick {α : Type} (x : Counted α) : Counted α := (x.1, x.2 + 1)

/-- Backtracking: the second computation only if the first has failed. -/
def orElseC {β : Type} (x : Counted (Option β)) (y : Unit → Counted (Option β)) : Counted (Option β) :=
  match x.1 with
  | some b => (some b, x.2)
  | none => ((y ()).1, x.2 + (y ()).2)

/-- `starM`, one step for every length that is tried. -/
def starC {β : Type} (p : Char → Bool) (s : Str) (k : Str → Counted (Option β)) : Counted (Option β) :=
  match s with
  | [] => tick (k [])
  | c :: s' => tick (if p c then orElseC (starC p s' k) (fun _ => k (c :: s')) else k (c :: s'))

/-- `Re.run` -/
def Re.runC {β : Type} : Re → Str → Caps → (Str → Caps → Counted (Option β)) → Counted (Option β)
  | eps, s, g, k => k s g
  | cls p, s, g, k =>
    tick (match s with
    | [] => (none, 0)
    | c :: s' => if p c then k s' g else (none, 0))
  | seq a b, s, g, k => a.runC s g (fun s' g' => b.runC s' g' k)
  | alt a b, s, g, k => tick (orElseC (a.runC s g k) (fun _ => b.runC s g k))
  | star p, s, g, k => starC p s (fun s' => k s' g)
  | opt a, s, g, k => tick (orElseC (a.runC s g k) (fun _ => k s g))
  | grp n a, s, g, k =>
    tick (a.runC s g (fun s' g' => k s' ((n, s.take (s.length - s'.length)) :: g')))
  | nla a, s, g, k =>
    tick (match a.runC s g (fun _ _ => (some (), 0)) with
    | (some _, n) => (none, n)
    | (none, n) => ((k s g).1, n + (k s g).2))

/-- `Re.matchHere` -/
def Re.matchHereC (r : Re) (must : Bool) (s : Str) : Counted (Option (Str × Caps)) :=
  tick (r.runC s [] (fun s' g => (if must && s'.length == s.length then none else some (s', g), 0)))

/-- `Re.search` -/
def Re.searchC (r : Re) : Str → Counted Bool
  | [] => ((r.matchHereC false []).1.isSome, (r.matchHereC false []).2)
  | c :: s =>
    match r.matchHereC false (c :: s) with
    | (some _, n) => (true, n)
    | (none, n) => ((r.searchC s).1, n + (r.searchC s).2)

/-- `Re.subGo` -/
def Re.subGoC (r : Re) (repl : Caps → Str) : Nat → Bool → Str → Counted Str
  | 0, _, s => (s, 0)
  | fuel + 1, must, s =>
    match r.matchHereC must s with
    | (some (s', g), n) =>
      let rest := r.subGoC repl fuel (s'.length == s.length) s'
      (repl g ++ rest.1, n + rest.2)
    | (none, n) =>
      match s with
      | [] => ([], n)
      | c :: s' =>
        let rest := r.subGoC repl fuel false s'
        (c :: rest.1, n + rest.2)

/-- `Re.sub` -/
def Re.subC (r : Re) (repl : Caps → Str) (s : Str) : Counted Str :=
  r.subGoC repl (2 * s.length + 2) false s

/-- adapter.py 29–31 `_remove_line_breaks`. -/
def removeLineBreaksC (xml : Str) : Counted Str := lineBreakPattern.subC (fun _ => []) xml

/-- adapter.py 33–35 `_remove_ms_word_prefixes`. -/
def removeMsWordPrefixesC (xml : Str) : Counted Str := (Re.lit c!"mml:").subC (fun _ => []) xml

/-- error_handler.py 28–40 `_fix_missing_attribute_value`. -/
def fixMissingAttributeValueC (code lineno offset : Nat) (xml : Str) : Counted (Except Exc Str) :=
  if code ≠ 4 then (.ok xml, 0)
  else
    match pyIndex (splitOn '\n' xml) ((lineno : Int) - 1) with
    | none => (.error .indexError, 0)
    | some goalLine =>
      match getWordAtStrPos goalLine offset with
      | none => (.error .indexError, 0)
      | some word =>
        let r := (missingValuePattern word).subC (fun _ => []) xml
        (.ok r.1, r.2)

/-- error_handler.py 22–25: the loop. -/
def genericLoopC (env : Env) (xml : Str) : Nat → Str → Counted Str
  | 0, result => (result, 0)
  | n + 1, result =>
    let found := (genericPattern env).searchC xml
    if found.1 then
      let r := (genericPattern env).subC (fun g => capText 1 g ++ capText 3 g) xml
      let rest := genericLoopC env xml n r.1
      (rest.1, found.2 + r.2 + rest.2)
    else (result, found.2)

/-- error_handler.py 15–26 `_fix_missing_attribute`. -/
def fixMissingAttributeC (env : Env) (code lineno offset : Nat) (xml : Str) :
    Counted (Except Exc Str) :=
  match fixMissingAttributeValueC code lineno offset xml with
  | (.error e, n) => (.error e, n)
  | (.ok result, n) =>
    if result ≠ xml then (.ok result, n)
    else
      let r := genericLoopC env xml 5 result
      (.ok r.1, n + r.2)

/-- error_handler.py 9–13 `fix_error`. -/
def fixErrorC (env : Env) (xml : Str) : ParseErr → Counted (Except Exc Str)
  | .other _ => (.ok xml, 0)
  | .expat code lineno offset => fixMissingAttributeC env code lineno offset xml

/-- adapter.py 37–51 `_mathml_elements` with `n` attempts left. -/
def mathmlElementsC (env : Env) : Nat → Option Exc → Str → Counted (Except Exc (List Node) × Str)
  | 0, exception, xml =>
    match exception with
    | some e => ((.error e, xml), 0)
    | none => ((.ok [], xml), 0)
  | n + 1, _, xml =>
    match env.parse xml with
    | .ok dom => ((.ok (mathElements dom), xml), 0)
    | .error e =>
      match fixErrorC env xml e with
      | (.error e', m) => ((.error e', xml), m)
      | (.ok xml', m) =>
        let rest := mathmlElementsC env n (some e.toExc) xml'
        (rest.1, m + rest.2)

/-- adapter.py 20–24 `XmlToMathMLAdapter.convert`, up to the conversion of DOM nodes. -/
def Adapter.domElementsC (env : Env) (_self : Adapter) (xml : Str) :
    Counted (Except Exc (List Node) × Adapter) :=
  let s1 := removeLineBreaksC xml
  let s2 := removeMsWordPrefixesC s1.1
  let r := mathmlElementsC env 5 none s2.1
  ((r.1.1, ⟨r.1.2⟩), s1.2 + s2.2 + r.2)

end Verif
