import Verif
open Lean Elab Command
run_cmd do
  let env ← getEnv
  let mut m : Std.HashMap String (Array Name) := {}
  for (n, ci) in env.constants.map₁.toList do
    match n, ci with
    | .str p s, .thmInfo _ =>
      if (p == `Verif || p == `Verif.Src || p == `Verif.Src.Live || p == `Verif.Src.Writes || p == `Verif.Src.Writes.Marking) && s.startsWith "C" && s.contains '_' && ((s.drop 1).take 1).all Char.isDigit then
        let ax ← liftCoreM (collectAxioms n)
        let k := toString ((ax.map toString).toList.mergeSort)
        m := m.insert k ((m.getD k #[]).push n)
    | _, _ => pure ()
  for (k, v) in m.toList do
    IO.println s!"{k}: {v.size}: {(v.toList.map toString).mergeSort}"
