import Verif.Model.Threads
import Verif.Spec.History

/-!
# Interleaved execution

A configuration is the memory shared by all threads, and for each thread what it has still to do.
A schedule lets threads take steps in any order; a step is one operation on a dictionary.
-/

namespace Verif

/-- One step of a program in a given memory; `none` if it has finished. -/
def Prog.step {α : Type} : Prog α → Heap → Option (Prog α × Heap)
  | .pure _, _ => none
  | .throw _, _ => none
  | .alloc a k, h =>
    some (k h.next, ⟨h.next + 1, fun r => if r = h.next then a else h.cells r⟩)
  | .read r k, h => some (k (h.cells r), h)
  | .setItem r key v p, h => some (p, h.setItem r key v)

/-- How a program that has finished ended. -/
def Prog.result {α : Type} : Prog α → Option (Except Exc α)
  | .pure a => some (.ok a)
  | .throw e => some (.error e)
  | _ => none

namespace Spec

/-- Memory and threads. -/
structure Config where
  heap : Heap
  threads : List (Prog Str)

/-- The thread number `i` takes a step. -/
def StepBy (i : Nat) (c c' : Config) : Prop :=
  ∃ p p' h', c.threads[i]? = some p ∧ p.step c.heap = some (p', h') ∧
    c' = ⟨h', c.threads.set i p'⟩

/-- Some thread takes a step. -/
def Step (c c' : Config) : Prop := ∃ i, StepBy i c c'

/-- Executions: `Run is c c'` if the threads `is` take a step each, in this order. -/
inductive Run : List Nat → Config → Config → Prop where
  | nil {c : Config} : Run [] c c
  | cons {i : Nat} {is : List Nat} {c c' c'' : Config} :
      StepBy i c c' → Run is c' c'' → Run (i :: is) c c''

/-- What a thread does: call `MathMLToLaTeX().convert(text)`, or render an element that was built
before the threads started and that all of them can reach. -/
inductive Job where
  | call (env : Env) (text : Str)
  | render (e : Elem)

/-- The program of the thread. -/
def Job.program : Job → Prog Str
  | .call env text => Th.convert env text
  | .render e => Th.convertElem e

/-- The memory when the threads start: elements have been built for some nodes. -/
inductive Memory : List (Node × Elem) → Heap → Prop where
  | start (h : Heap) : Memory [] h
  | build {trees : List (Node × Elem)} {h h' : Heap} {n : Node} {e : Elem} :
      Memory trees h → buildElem n h = (some e, h') → Memory ((n, e) :: trees) h'

/-- The element is the root or is reached from it without passing through a table. -/
inductive Outside : Elem → Elem → Prop where
  | self {e : Elem} : Outside e e
  | child {e c e' : Elem} : e.name ≠ c!"mtable" → c ∈ e.children → Outside e' c → Outside e' e

end Spec
end Verif
