import Verif.Model.World
import Verif.Spec.Scenario

/-!
# Specification vocabulary: data files that change
-/

noncomputable section

namespace PyBSM.Spec

/-- The step assigns one of the three parameters that select an atmosphere. -/
def WorldOp.Selects : WorldOp → Prop
  | .client op => IsParamWrite op
  | .disk _ => False

/-- What a loader called now, for the parameters the scenario has now, returns. -/
def loadNow (w : World) : Except PyErr Atm :=
  if w.scenario.interp then loadInterp w.files w.scenario.altitude w.scenario.groundRange w.scenario.ihaze
  else loadNoInterp w.files w.scenario.altitude w.scenario.groundRange w.scenario.ihaze

/-- Every read of `atm` during the steps raised an exception. -/
def AllReadsRaise (w : World) (ops : List WorldOp) : Prop :=
  ∀ before after, ops = before ++ .client .readAtm :: after → ∃ e, (w.after before).read = .error e

end PyBSM.Spec
