import Verif.Model.Stack

/-!
# Faults

Calls that can fail for reasons that have nothing to do with the input: no memory left, an exception
raised by a signal handler (Control-C, a time limit) or set by another thread.  `Faults` says which of
the moments of a run are hit; the moments are the beginning and the end of every call.
-/

namespace Verif.Stack

/-- The fault that happens at each moment, if any. -/
abbrev Faults := Nat → Option Fault

/-- Computations that are told the faults and the number of the next moment. -/
def FM (α : Type) : Type := Faults → Nat → Heap → Except Stop α × Nat × Heap

instance : Monad FM where
  pure a := fun _ t h => (.ok a, t, h)
  bind x f := fun o t h =>
    match x o t h with
    | (.ok a, t', h') => f a o t' h'
    | (.error s, t', h') => (.error s, t', h')

/-- Whether `except Exception` catches it. -/
def Stop.caught : Stop → Bool
  | .fault f => f.exception
  | _ => true

/-- A moment at which a fault can happen. -/
def moment : FM Unit := fun o t h =>
  match o t with
  | some f => (.error (.fault f), t + 1, h)
  | none => (.ok (), t + 1, h)

instance : Reading FM where
  throwL s := fun _ t h => (.error s, t, h)
  tryL x handler := fun o t h =>
    match x o t h with
    | (.ok a, t', h') => (.ok a, t', h')
    | (.error s, t', h') => if s.caught then handler s o t' h' else (.error s, t', h')
  call x := do
    moment
    let a ← x
    moment
    return a
  heap f := fun _ t h => (.ok (f h).1, t, (f h).2)
  lib _ := moment

/-- A call of `MathMLToLaTeX.convert` that begins at the moment `t`; `h` has the dictionaries left
behind by earlier calls. -/
def faulty (m : Machine) (env : Env) (mathml : Str) (o : Faults) (t : Nat) (h : Heap) :
    Except Stop Str × Nat × Heap :=
  convert (F := FM) m env mathml o t h

/-- A call that was made: its text, the moments at which it began and ended, and its outcome. -/
structure Call where
  text : Str
  begins : Nat
  ends : Nat
  outcome : Except Stop Str

/-- A history of calls, one after the other, whether they fail or not.  Each one finds what the ones
before have left behind. -/
def history (m : Machine) (env : Env) (o : Faults) : List Str → Nat → Heap → List Call
  | [], _, _ => []
  | x :: xs, t, h =>
    let r := faulty m env x o t h
    ⟨x, t, r.2.1, r.1⟩ :: history m env o xs r.2.1 r.2.2

end Verif.Stack
