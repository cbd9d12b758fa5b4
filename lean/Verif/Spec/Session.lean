import Verif.Model.Session
import Verif.Spec.Scenario
import Verif.Spec.Niirs

/-!
# Specification of client sessions (C80)

The reference behaviour has no caches and no hidden writes: objects hold what the client assigned to them.  Reads and
calls change nothing, with the one exception that a `niirs5` call which gets as far as the SNR replaces the sharpening
kernel of its sensor.
-/

noncomputable section

open Classical

namespace PyBSM.Spec

/-- What an assignment to an attribute of a scenario does; reading changes nothing. -/
def assigned (sc : Scenario) : ScenOp → Scenario
  | .setIhaze v => { sc with ihaze := v }
  | .setAltitude v => { sc with altitude := v }
  | .setGroundRange v => { sc with groundRange := v }
  | .setName v => { sc with name := v }
  | .setAircraftSpeed v => { sc with aircraftSpeed := v }
  | .setTargetReflectance v => { sc with targetReflectance := v }
  | .setTargetTemperature v => { sc with targetTemperature := v }
  | .setBackgroundReflectance v => { sc with backgroundReflectance := v }
  | .setBackgroundTemperature v => { sc with backgroundTemperature := v }
  | .setHaWindSpeed v => { sc with haWindSpeed := v }
  | .setCn2At1m v => { sc with cn2At1m := v }
  | .readAtm => sc

/-- The call gets as far as the SNR: the atmosphere loads and covers part of the band, and the SNR stage succeeds. -/
def ReachesSNR (env : Env) (s : Sensor) (sc : Scenario) (interp : Bool) : Prop :=
  ∃ atm m, niirsAtm env s sc interp = .ok atm ∧ niirsMid s atm = .ok m

/-- The objects after an action. -/
def objectsAfter (env : Env) (w : Objects) : Action → Objects
  | .assign i g => { w with sensor := Function.update w.sensor i (g (w.sensor i)) }
  | .scenario j op => { w with scenario := Function.update w.scenario j (assigned (w.scenario j) op) }
  | .niirs5 i j interp =>
    if ReachesSNR env (w.sensor i) (w.scenario j) interp then
      { w with sensor := Function.update w.sensor i { w.sensor i with filterKernel := [[1]] } }
    else w
  | _ => w

/-- The scenario without any cached atmosphere. -/
def uncached (sc : Scenario) : Scenario := { sc with atmCache := none }

/-- What the client sees of an action. -/
def outcome (env : Env) (w : Objects) : Action → Outcome
  | .scenario j .readAtm => .atmosphere (loadFresh env.files (w.scenario j).interp
      ⟨(w.scenario j).altitude, (w.scenario j).groundRange, (w.scenario j).ihaze⟩)
  | .look i => .attributes (w.sensor i)
  | .lookScene j => .scene (w.scenario j).attributes
  | .niirs i j interp => .report (niirs env (w.sensor i) (w.scenario j) interp).1
  | .niirs5 i j interp => .report (niirs5 env (w.sensor i) (w.scenario j) interp).1
  | .simulate usable rng r i j => .images ((simulateImage env usable rng r (w.sensor i) (uncached (w.scenario j))).map
      fun R => (R.trueImg, R.blurImg, R.noisyImg))
  | _ => .done

/-- The outcomes of a session. -/
def outcomes (env : Env) : Objects → List Action → List Outcome
  | _, [] => []
  | w, a :: as => outcome env w a :: outcomes env (objectsAfter env w a) as

/-- The action assigns nothing and is not a `niirs5` call. -/
def Action.Inert : Action → Prop
  | .scenario _ .readAtm => True
  | .look _ => True
  | .lookScene _ => True
  | .niirs _ _ _ => True
  | .simulate _ _ _ _ _ => True
  | _ => False

/-- No scenario has an atmosphere cached yet. -/
def Fresh (w : Objects) : Prop := ∀ j, (w.scenario j).atmCache = none

end PyBSM.Spec
