import Verif.Model.Scenario

/-!
# A scenario and data files that change while it is used

The loaders read the files anew at each call (`utils.py`:84-100 and, for a scenario, `scenario.py`:127-165). Here
somebody else may replace the files between two steps of the client.
-/

noncomputable section

namespace PyBSM

/-- The data files as they are now, and a scenario object. (`utils.py`:80-100, `scenario.py`:23-165) -/
structure World where
  files : Files
  scenario : Scenario

/-- What can happen: the client does something with the scenario (`scenario.py`:84-165), or the data files are replaced
(as an upgrade of the package does with the files read at `utils.py`:84-100). -/
inductive WorldOp where
  | client (op : ScenOp)
  | disk (files : Files)

/-- One step; `scenario.py`:84-165 for those of the client. -/
def World.step (w : World) : WorldOp → World
  | .client op => { w with scenario := (w.scenario.step w.files op).1 }
  | .disk files => { w with files := files }

/-- Several steps, client of `scenario.py`:84-165. -/
def World.after (w : World) (ops : List WorldOp) : World := ops.foldl World.step w

/-- What reading `atm` gives now, `scenario.py`:127-165. -/
def World.read (w : World) : Except PyErr Atm := (w.scenario.readAtm w.files).1

end PyBSM
