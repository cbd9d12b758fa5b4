import Verif

/-! Prints the axioms of every theorem of `MANIFEST.json`: copy to `/tmp/axioms.lean` and run `lake env lean /tmp/axioms.lean` in `/verif/lean`. -/

open Lean

run_cmd Elab.Command.liftCoreM do
  let env ← getEnv
  let mut names : Array Name := #[]
  for (n, c) in env.constants.map₁.toList do
    if c matches .thmInfo _ then
      if let .str (.str .anonymous "PyBSM") s := n then
        if s.length > 3 && s.front == 'C' && (s.toList.getD 1 'x').isDigit then names := names.push n
  for n in names.qsort (·.toString < ·.toString) do
    let ax ← collectAxioms n
    IO.println s!"{n}\t{", ".intercalate (ax.qsort (·.toString < ·.toString) |>.toList.map toString)}"
