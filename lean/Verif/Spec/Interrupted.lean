import Verif.Spec.Threads

/-!
# Threads that are interrupted

Faults (no memory left, an exception that another thread or a signal handler raises in a thread) end
what a thread does.  Outside of parsing nothing in the library catches exceptions, so the thread
has nothing left to do; what it has done to shared dictionaries stays.
-/

namespace Verif.Spec

/-- What happens next. -/
inductive Happening where
  /-- A thread takes a step. -/
  | step (i : Nat)
  /-- A fault ends a thread. -/
  | fault (i : Nat) (e : Exc)

/-- It happens. -/
def Happening.to : Happening → Config → Config → Prop
  | .step i, c, c' => StepBy i c c'
  | .fault i e, c, c' => ∃ p, c.threads[i]? = some p ∧ p.result = none ∧
      c' = ⟨c.heap, c.threads.set i (.throw e)⟩

/-- Executions with faults. -/
inductive FaultyRun : List Happening → Config → Config → Prop where
  | nil {c : Config} : FaultyRun [] c c
  | cons {a : Happening} {as : List Happening} {c c' c'' : Config} :
      a.to c c' → FaultyRun as c' c'' → FaultyRun (a :: as) c c''

end Verif.Spec
