import Verif.Model.Metrics

/-!
# Specification vocabulary: histories of NIIRS calls
-/

noncomputable section

namespace PyBSM.Spec

/-- One call on a pair of sensor and scenario objects; the flag is the `interp` argument. -/
inductive Call where
  | niirs (interp : Bool)
  | niirs5 (interp : Bool)

/-- What a call returns and how it leaves the two objects. -/
def Call.run (env : Env) (s : Sensor) (sc : Scenario) : Call → Except PyErr Metrics × Sensor × Scenario
  | .niirs i => PyBSM.niirs env s sc i
  | .niirs5 i => PyBSM.niirs5 env s sc i

/-- The two objects after a history of calls. -/
def after (env : Env) (s : Sensor) (sc : Scenario) : List Call → Sensor × Scenario
  | [] => (s, sc)
  | c :: cs => let r := c.run env s sc; after env r.2.1 r.2.2 cs

/-- The scenarios agree in everything but the reflectances and temperatures of target and background. -/
structure SameScene (a b : Scenario) : Prop where
  name : a.name = b.name
  ihaze : a.ihaze = b.ihaze
  altitude : a.altitude = b.altitude
  groundRange : a.groundRange = b.groundRange
  aircraftSpeed : a.aircraftSpeed = b.aircraftSpeed
  haWindSpeed : a.haWindSpeed = b.haWindSpeed
  cn2At1m : a.cn2At1m = b.cn2At1m

end PyBSM.Spec
