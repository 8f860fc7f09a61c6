import Verif.Source.Whole
import Verif.Source.Frame
import Verif.Source.Fuel
import Verif.Props.Rules

/-!
# The source text itself (C79 to C82)

`Source/Code.lean` is the syntax tree of every function of the code base, made from the files in
/repo by tools/gen_source.py; `Source/Semantics.lean` says what such trees mean.
-/

namespace Verif.Src
open Spec

/-- `MathMLToLaTeX.convert(x)`, called when the objects `S` exist, ends with `r`: with enough
fuel, and then with any larger amount. -/
def Ends (env : Env) (x : Str) (S : Store) (r : Res Val) : Prop :=
  ∃ k, ∀ n, k ≤ n → call env n MathMLToLaTeX_convert [.str x] [] S = r

theorem Ends.unique {env : Env} {x : Str} {S : Store} {r r' : Res Val} (h : Ends env x S r) (h' : Ends env x S r') :
    r = r' := by
  obtain ⟨k, hk⟩ := h
  obtain ⟨k', hk'⟩ := h'
  rw [← hk (k + k') (by omega), hk' (k + k') (by omega)]

theorem ends (env : Env) (x : Str) (S : Store) : ∃ r, Ends env x S r ∧ Seen (convert env x) r := by
  obtain ⟨r, h1, k, hk⟩ := run_convert (env := env) x S
  exact ⟨r, ⟨k, hk⟩, h1⟩

/-- **C79** The source returns a string exactly if the model does, and the same one. -/
theorem C79_returns (env : Env) (x : Str) (S : Store) (s : Str) :
    (∃ S', Ends env x S (.ok (.str s) S')) ↔ convert env x = .ok s := by
  obtain ⟨r, h1, h2⟩ := ends env x S
  constructor
  · rintro ⟨S', h⟩
    cases h.unique h1
    generalize convert env x = c at h2
    cases h2
    rfl
  · intro h
    rw [h] at h2
    cases h2 with
    | ok _ S' => exact ⟨S', h1⟩

/-- **C79** The source raises exactly if the model does, and what it raises is the exception of
the model: the object made by the library, or an instance of `InvalidNumberOfChildrenError` whose
message is that of the model. -/
theorem C79_raises (env : Env) (x : Str) (S : Store) (v : Val) (S' : Store)
    (h : Ends env x S (.exc v S')) : ∃ e, convert env x = .error e ∧ Raised S' v e := by
  obtain ⟨r, h1, h2⟩ := ends env x S
  cases h.unique h1
  generalize convert env x = c at h2
  cases h2 with
  | exc hr => exact ⟨_, rfl, hr⟩

/-- **C79** The other direction. -/
theorem C79_raised (env : Env) (x : Str) (S : Store) (e : Exc) (h : convert env x = .error e) :
    ∃ v S', Ends env x S (.exc v S') ∧ Raised S' v e := by
  obtain ⟨r, h1, h2⟩ := ends env x S
  rw [h] at h2
  cases h2 with
  | exc hr => exact ⟨_, _, h1, hr⟩

/-- `def f(mathml): return MathMLToLaTeX.convert(mathml)` -/
def staticCode : Func :=
  ⟨[(.mathml, none)], [.ret (.call (.attr (.name .MathMLToLaTeX) .convert) [.name .mathml] [] [])]⟩

/-- `def f(mathml): return MathMLToLaTeX().convert(mathml)`, as in README.md. -/
def readmeCode : Func :=
  ⟨[(.mathml, none)],
   [.ret (.call (.attr (.call (.name .MathMLToLaTeX) [] [] []) .convert) [.name .mathml] [] [])]⟩

theorem run_usage {env : Env} {f : Func} {x : Str} {S S0 : Store} (hf : ∀ n r, r ≠ .stuck →
      call env (n + 1) MathMLToLaTeX_convert [.str x] [] S0 = r → call env (n + 2) f [.str x] [] S = r) :
    ∃ r, (∃ k, ∀ n, k ≤ n → call env n f [.str x] [] S = r) ∧ Seen (convert env x) r := by
  obtain ⟨r, ⟨k, hk⟩, h2⟩ := ends env x S0
  refine ⟨r, ⟨k + 2, fun n hn => ?_⟩, h2⟩
  obtain ⟨n, rfl⟩ : ∃ m, n = m + 2 := ⟨n - 2, by omega⟩
  refine hf n r ?_ (hk _ (by omega))
  rintro rfl
  generalize convert env x = c at h2
  cases h2

/-- **C79** The call by the name of the class. -/
theorem C79_static (env : Env) (x : Str) (S : Store) :
    ∃ r, (∃ k, ∀ n, k ≤ n → call env n staticCode [.str x] [] S = r) ∧ Seen (convert env x) r := by
  refine run_usage (S0 := S) fun n r hr h => ?_
  cases r with
  | ok v S' => sym [staticCode] [h]
  | exc v S' => sym [staticCode] [h]
  | stuck => exact absurd rfl hr

/-- **C79** The call on an instance, which README.md shows. -/
theorem C79_readme (env : Env) (x : Str) (S : Store) :
    ∃ r, (∃ k, ∀ n, k ≤ n → call env n readmeCode [.str x] [] S = r) ∧ Seen (convert env x) r := by
  refine run_usage (S0 := S ++ [.inst .MathMLToLaTeX []]) fun n r hr h => ?_
  cases r with
  | ok v S' => sym [readmeCode] [h]
  | exc v S' => sym [readmeCode] [h]
  | stuck => exact absurd rfl hr

/-- A parser that knows one document, `x` squared. -/
def squareEnv : Env where
  parse _ := .ok [.elem c!"math" [] [.elem c!"msup" [] [.elem c!"mi" [] [.text c!"x"], .elem c!"mn" [] [.text c!"2"]]]]
  isWord _ := true

example (S : Store) : ∃ S' k, ∀ n, k ≤ n → call squareEnv n readmeCode [.str c!"<math/>"] [] S = .ok (.str c!"x^{2}") S' := by
  have h := C05_accepted_never_repaired squareEnv c!"<math/>" _ rfl
  have hc : convert squareEnv c!"<math/>" = .ok c!"x^{2}" := by rw [h, docResult_eq]; decide +kernel
  obtain ⟨r, ⟨k, h1⟩, h2⟩ := C79_readme squareEnv c!"<math/>" S
  rw [hc] at h2
  cases h2 with
  | ok _ S' => exact ⟨S', k, h1⟩

example (S : Store) : ∃ S', Ends squareEnv c!"<math/>" S (.ok (.str c!"x^{2}") S') := by
  rw [C79_returns]
  have h := C05_accepted_never_repaired squareEnv c!"<math/>" _ rfl
  rw [h, docResult_eq]
  decide +kernel

/-! ## Nothing else can happen -/

theorem renders_errors (d : Doc) (e : Exc) (h : docResult d = .error e) :
    e = .indexError ∨ ∃ tag n m c, e = .invalidChildren tag n m c := by
  obtain ⟨n, _, hv⟩ := List.exists_of_findSome?_eq_some ((C12_first_violation d e).1 h)
  cases n with
  | elem t A cs =>
    simp only [violation] at hv
    repeat' (split at hv)
    all_goals first
      | (cases hv; done)
      | (cases hv; exact .inl rfl)
      | (cases hv; exact .inr ⟨_, _, _, _, rfl⟩)
  | _ => cases hv

theorem convert_errors (env : Env) (x : Str) (e : Exc) (h : convert env x = .error e) :
    (∃ y er, env.parse y = .error er ∧ e = er.toExc) ∨ e = .indexError ∨ ∃ tag n m c, e = .invalidChildren tag n m c := by
  obtain ⟨n, y, hn, hc, hd | he | he⟩ := C06_exhaustive env x
  · obtain ⟨d, hd⟩ := hd
    rw [C06_first_success env x y n d hn hc hd] at h
    exact .inr (renders_errors d e h)
  · obtain ⟨er, h1, h2⟩ := he
    rw [C06_repair_fails env x y n er hn hc h1 h2] at h
    cases h
    exact .inr (.inl rfl)
  · obtain ⟨rfl, er, h1, h2⟩ := he
    rw [C06_last_error env x y er hc h1 h2] at h
    cases h
    exact .inl ⟨y, er, h1, rfl⟩

/-- The exceptions that a caller has to expect. -/
inductive Expected (env : Env) (S : Store) : Val → Prop
  /-- one that the parser raised -/
  | parser {y : Str} {er : ParseErr} (h : env.parse y = .error er) : Expected env S (.exc er.toExc)
  | indexError : Expected env S (.exc .indexError)
  | children {a : Nat} {fields : List (Ident × Val)}
      (h : S[a]? = some (.inst .InvalidNumberOfChildrenError fields)) : Expected env S (.obj a)

/-- **C80** Every call ends, with a string or with one of the exceptions that are to be expected:
the source has no endless loop and no endless recursion, uses no name that is not defined, no
attribute that is not there, no operation on operands of the wrong type, no call with the wrong
arguments, and raises no `KeyError`. -/
theorem C80_ends_well (env : Env) (x : Str) (S : Store) : ∃ r, Ends env x S r ∧
    ((∃ s S', r = .ok (.str s) S') ∨ ∃ v S', r = .exc v S' ∧ Expected env S' v) := by
  obtain ⟨r, h1, h2⟩ := ends env x S
  refine ⟨r, h1, ?_⟩
  generalize hc : convert env x = c at h2
  cases h2 with
  | ok s S' => exact .inl ⟨s, S', rfl⟩
  | exc hr =>
    rename_i e v S'
    refine .inr ⟨v, S', rfl, ?_⟩
    rcases convert_errors env x _ hc with ⟨y, er, h3, rfl⟩ | rfl | ⟨tag, n, m, c, rfl⟩
    · cases er with
      | expat c l o => cases hr; exact .parser h3
      | other i => cases hr; exact .parser h3
    · cases hr; exact .indexError
    · obtain ⟨a, rfl, ha⟩ := hr
      exact .children ha

/-- **C80** The fuel is only a bound: with less, the call has not ended; it never ends otherwise. -/
theorem C80_fuel (env : Env) (x : Str) (S : Store) (r : Res Val) (h : Ends env x S r) (n : Nat) :
    call env n MathMLToLaTeX_convert [.str x] [] S = .stuck ∨
      call env n MathMLToLaTeX_convert [.str x] [] S = r := by
  obtain ⟨k, hk⟩ := h
  rcases call_le env n (n + k) (by omega) MathMLToLaTeX_convert [.str x] [] S with h1 | h1
  · exact .inl h1
  · exact .inr (h1.trans (hk (n + k) (by omega)))

example (S : Store) : ∃ S', Ends ⟨fun _ => .error (.other 7), fun _ => true⟩ c!"<math>" S
    (.exc (.exc (.parserOther 7)) S') := by
  obtain ⟨v, S', h1, h2⟩ := C79_raised ⟨fun _ => .error (.other 7), fun _ => true⟩ c!"<math>" S (.parserOther 7)
    (C07_first_attempt _ _ 7 rfl)
  cases h2
  exact ⟨S', h1⟩

/-! ## Other objects -/

/-- Two results look the same: equal strings, equal library exceptions, or instances of
`InvalidNumberOfChildrenError` with the same attributes. -/
inductive SameLook : Res Val → Res Val → Prop
  | ok (s : Str) (S S' : Store) : SameLook (.ok (.str s) S) (.ok (.str s) S')
  | exc (e : Exc) (S S' : Store) : SameLook (.exc (.exc e) S) (.exc (.exc e) S')
  | children {a a' : Nat} {S S' : Store} {fields : List (Ident × Val)}
      (h : S[a]? = some (.inst .InvalidNumberOfChildrenError fields))
      (h' : S'[a']? = some (.inst .InvalidNumberOfChildrenError fields)) :
      SameLook (.exc (.obj a) S) (.exc (.obj a') S')

/-- **C81** What the call gives does not depend on the objects that exist when it is made, whatever
they are and whatever has been done with them before. -/
theorem C81_history (env : Env) (x : Str) (S S' : Store) (r r' : Res Val) (h : Ends env x S r)
    (h' : Ends env x S' r') : SameLook r r' := by
  obtain ⟨q, h1, h2⟩ := ends env x S
  obtain ⟨q', h1', h2'⟩ := ends env x S'
  cases h.unique h1
  cases h'.unique h1'
  generalize convert env x = c at h2 h2'
  cases h2 with
  | ok s S' => cases h2'; exact .ok ..
  | exc hr =>
    cases h2' with
    | exc hr' =>
      rename_i e v S v' S'
      cases e with
      | invalidChildren tag n m c =>
        obtain ⟨a, rfl, ha⟩ := hr
        obtain ⟨a', rfl, ha'⟩ := hr'
        exact .children ha ha'
      | _ => cases hr; cases hr'; exact .exc ..

/-- The calls of a program: each starts with the objects that the one before has left. -/
inductive Session (env : Env) : Store → List Str → List (Res Val) → Prop
  | nil (S : Store) : Session env S [] []
  | ok {S S' : Store} {x : Str} {v : Val} {xs : List Str} {rs : List (Res Val)} (h : Ends env x S (.ok v S'))
      (hs : Session env S' xs rs) : Session env S (x :: xs) (.ok v S' :: rs)
  | exc {S S' : Store} {x : Str} {v : Val} {xs : List Str} {rs : List (Res Val)} (h : Ends env x S (.exc v S'))
      (hs : Session env S' xs rs) : Session env S (x :: xs) (.exc v S' :: rs)

/-- **C81** Calls made one after the other: each gives what it would give in a fresh interpreter. -/
theorem C81_session (env : Env) (S : Store) (xs : List Str) (rs : List (Res Val)) (h : Session env S xs rs) :
    xs.length = rs.length ∧ ∀ (i : Nat) (x : Str) (r r' : Res Val), xs[i]? = some x → rs[i]? = some r →
      Ends env x [] r' → SameLook r r' := by
  induction h with
  | nil => exact ⟨rfl, fun i x r r' hx => by simp at hx⟩
  | ok h _ ih =>
    refine ⟨congrArg (· + 1) ih.1, fun i x r r' hx hr he => ?_⟩
    cases i with
    | zero => cases hx; cases hr; exact C81_history _ _ _ _ _ _ h he
    | succ i => exact ih.2 i x r r' hx hr he
  | exc h _ ih =>
    refine ⟨congrArg (· + 1) ih.1, fun i x r r' hx hr he => ?_⟩
    cases i with
    | zero => cases hx; cases hr; exact C81_history _ _ _ _ _ _ h he
    | succ i => exact ih.2 i x r r' hx hr he

/-- **C81** And a program never has to stop: there is a next result after any calls. -/
theorem C81_progress (env : Env) (S : Store) (xs : List Str) : ∃ rs, Session env S xs rs := by
  induction xs generalizing S with
  | nil => exact ⟨[], .nil S⟩
  | cons x xs ih =>
    obtain ⟨r, h, ⟨s, S', rfl⟩ | ⟨v, S', rfl, _⟩⟩ := C80_ends_well env x S
    · obtain ⟨rs, hs⟩ := ih S'
      exact ⟨_, .ok h hs⟩
    · obtain ⟨rs, hs⟩ := ih S'
      exact ⟨_, .exc h hs⟩

/-- Two calls, the second of which finds the objects of the first. -/
example : ∃ S' S'', Session squareEnv [] [c!"<math/>", c!"<math/>"] [.ok (.str c!"x^{2}") S', .ok (.str c!"x^{2}") S''] := by
  have h := C05_accepted_never_repaired squareEnv c!"<math/>" _ rfl
  have hc : convert squareEnv c!"<math/>" = .ok c!"x^{2}" := by rw [h, docResult_eq]; decide +kernel
  obtain ⟨S', h1⟩ := (C79_returns squareEnv c!"<math/>" [] _).2 hc
  obtain ⟨S'', h2⟩ := (C79_returns squareEnv c!"<math/>" S' _).2 hc
  exact ⟨S', S'', .ok h1 (.ok h2 (.nil _))⟩

/-- **C82** A function of the code base, called with arguments that refer to objects in `P` only,
where objects in `P` refer to objects in `P` only, leaves all other objects as they are; and the
same holds of what it returns or raises.  (`P` contains the objects that will be created.) -/
theorem C82_reachable (P : Nat → Prop) (S : Store) (hP : ∀ a, S.length ≤ a → P a)
    (hS : ∀ a o, S[a]? = some o → P a → OwnO P o) (env : Env) (n : Nat) (f : Func) (args : List Val)
    (ha : ∀ v ∈ args, OwnV P v) :
    match call env n f args [] S with
    | .ok v S' => OwnV P v ∧ ∀ a, a < S.length → ¬ P a → S'[a]? = S[a]?
    | .exc v S' => OwnV P v ∧ ∀ a, a < S.length → ¬ P a → S'[a]? = S[a]?
    | .stuck => True := by
  have h := kept_call (P := P) (S := S) hP env n f args [] S ha (by intro p hp; cases hp)
    ⟨Nat.le_refl _, hS, fun _ _ _ => rfl⟩
  split
  · next e => rw [e] at h; exact ⟨h.1, h.2.same⟩
  · next e => rw [e] at h; exact ⟨h.1, h.2.same⟩
  · trivial

/-- **C82** `convert` changes no object that existed before the call. -/
theorem C82_untouched (env : Env) (x : Str) (S : Store) (r : Res Val) (h : Ends env x S r) :
    ∃ L, (∃ v, r = .ok v (S ++ L)) ∨ ∃ v, r = .exc v (S ++ L) := by
  obtain ⟨k, hk⟩ := h
  have key : ∀ S' : Store, Frame (fun a => S.length ≤ a) S S' → ∃ L, S' = S ++ L := by
    intro S' hf
    refine ⟨S'.drop S.length, ?_⟩
    have : S'.take S.length = S := by
      apply List.ext_getElem?
      intro i
      by_cases hi : i < S.length
      · rw [List.getElem?_take_of_lt hi]
        exact hf.same i hi (by omega)
      · rw [List.getElem?_take_eq_none (by omega), List.getElem?_eq_none (by omega)]
    conv => lhs; rw [← List.take_append_drop S.length S', this]
  have h1 := kept_call (P := fun a => S.length ≤ a) (S := S) (fun _ h => h) env k MathMLToLaTeX_convert [.str x] [] S
    (by simp [OwnV]) (by intro p hp; cases hp)
    ⟨Nat.le_refl _, fun a o ha hn => by (rw [List.getElem?_eq_none hn] at ha; cases ha), fun _ _ _ => rfl⟩
  rw [hk k (Nat.le_refl _)] at h1
  cases r with
  | ok v S' =>
    obtain ⟨L, rfl⟩ := key S' h1.2
    exact ⟨L, .inl ⟨v, rfl⟩⟩
  | exc v S' =>
    obtain ⟨L, rfl⟩ := key S' h1.2
    exact ⟨L, .inr ⟨v, rfl⟩⟩
  | stuck =>
    obtain ⟨r, h2, h3⟩ := ends env x S
    cases h2.unique ⟨k, hk⟩
    generalize convert env x = c at h3
    cases h3

/-- A list that somebody else holds, before and after. -/
example (L : Store) : ∃ S', Ends squareEnv c!"<math/>" (.list [.str c!"theirs"] :: L) (.ok (.str c!"x^{2}") S') ∧
    S'[0]? = some (.list [.str c!"theirs"]) := by
  have h := C05_accepted_never_repaired squareEnv c!"<math/>" _ rfl
  have hc : convert squareEnv c!"<math/>" = .ok c!"x^{2}" := by rw [h, docResult_eq]; decide +kernel
  obtain ⟨S', h1⟩ := (C79_returns squareEnv c!"<math/>" (.list [.str c!"theirs"] :: L) _).2 hc
  obtain ⟨L', ⟨v, h2⟩ | ⟨v, h2⟩⟩ := C82_untouched _ _ _ _ h1
  · cases h2
    exact ⟨_, h1, rfl⟩
  · cases h2

end Verif.Src
