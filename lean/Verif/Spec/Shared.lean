import Verif.Model.Shared

/-! # Threads that share an adapter object -/

namespace Verif.Spec

/-- The attribute `_xml` and what the threads have still to do. -/
structure Shared where
  cell : Str
  threads : List (CellProg Found)

/-- The thread number `i` takes a step, if there is one. -/
def Shared.stepBy (s : Shared) (i : Nat) : Shared :=
  match s.threads[i]? with
  | none => s
  | some p => ⟨(p.step s.cell).2, s.threads.set i (p.step s.cell).1⟩

/-- The threads take steps in the given order. -/
def Shared.run (s : Shared) (schedule : List Nat) : Shared := schedule.foldl Shared.stepBy s

/-- Each thread calls `convert` of the same object, with its text; before that the object may have been
used. -/
def Shared.start (env : Env) (cell : Str) (texts : List Str) : Shared :=
  ⟨cell, texts.map (domElementsP env)⟩

/-- The thread number `i` has ended like this. -/
def Shared.Ended (s : Shared) (i : Nat) (r : Found) : Prop := s.threads[i]? = some (.ret r)

end Verif.Spec
