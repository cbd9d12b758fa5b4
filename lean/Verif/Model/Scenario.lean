import Verif.Model.Utils

/-!
# Model of `src/pybsm/simulation/scenario.py`
-/

noncomputable section

open Classical

namespace PyBSM

/-- The attributes of a `Scenario` object, `scenario.py`:69-98.  `atmCache` is `_atm`, `interp` is
`_interp` (set by the constructor only). -/
structure Scenario where
  name : String
  ihaze : ℤ
  altitude : XR
  groundRange : XR
  aircraftSpeed : XR
  targetReflectance : XR
  targetTemperature : XR
  backgroundReflectance : XR
  backgroundTemperature : XR
  haWindSpeed : XR
  cn2At1m : XR
  interp : Bool
  atmCache : Option Atm

/-- `Scenario.__init__` with its default arguments, `scenario.py`:69-98. -/
def Scenario.new (name : String) (ihaze : ℤ) (altitude groundRange : XR)
    (aircraftSpeed : XR := 0) (targetReflectance : XR := 0.15) (targetTemperature : XR := 295)
    (backgroundReflectance : XR := 0.07) (backgroundTemperature : XR := 293)
    (haWindSpeed : XR := 21) (cn2At1m : XR := 1.7e-14) (interp : Bool := false) : Scenario where
  name := name
  ihaze := ihaze
  altitude := altitude
  groundRange := groundRange
  aircraftSpeed := aircraftSpeed
  targetReflectance := targetReflectance
  targetTemperature := targetTemperature
  backgroundReflectance := backgroundReflectance
  backgroundTemperature := backgroundTemperature
  haWindSpeed := haWindSpeed
  cn2At1m := cn2At1m
  interp := interp
  atmCache := none

/-- `ihaze` setter, `scenario.py`:104-107. -/
def Scenario.setIhaze (s : Scenario) (v : ℤ) : Scenario := { s with atmCache := none, ihaze := v }

/-- `altitude` setter, `scenario.py`:113-116. -/
def Scenario.setAltitude (s : Scenario) (v : XR) : Scenario :=
  { s with atmCache := none, altitude := v }

/-- `ground_range` setter, `scenario.py`:122-125. -/
def Scenario.setGroundRange (s : Scenario) (v : XR) : Scenario :=
  { s with atmCache := none, groundRange := v }

/-- One call of a database loader, as seen by an observer of the file system. (`scenario.py`:156-163) -/
structure LoadCall where
  interp : Bool
  altitude : XR
  groundRange : XR
  ihaze : ℤ

/-- The loader a scenario uses, `scenario.py`:156-163. -/
def dbLoad (files : Files) (c : LoadCall) : Except PyErr Atm :=
  if c.interp then loadInterp files c.altitude c.groundRange c.ihaze
  else loadNoInterp files c.altitude c.groundRange c.ihaze

/-- The `atm` property, `scenario.py`:127-165: result, new state, and the loader calls it made.  An
exception of the loader propagates and leaves `_atm` unassigned. -/
def Scenario.readAtm (files : Files) (s : Scenario) :
    Except PyErr Atm × Scenario × List LoadCall :=
  match s.atmCache with
  | some a => (.ok a, s, [])
  | none =>
    let call : LoadCall := ⟨s.interp, s.altitude, s.groundRange, s.ihaze⟩
    match dbLoad files call with
    | .ok a => (.ok a, { s with atmCache := some a }, [call])
    | .error e => (.error e, s, [call])

/-- The things a client can do to a scenario: assign one of its public attributes or read `atm`.
(`scenario.py`:84-165) -/
inductive ScenOp where
  | setIhaze (v : ℤ)
  | setAltitude (v : XR)
  | setGroundRange (v : XR)
  | setName (v : String)
  | setAircraftSpeed (v : XR)
  | setTargetReflectance (v : XR)
  | setTargetTemperature (v : XR)
  | setBackgroundReflectance (v : XR)
  | setBackgroundTemperature (v : XR)
  | setHaWindSpeed (v : XR)
  | setCn2At1m (v : XR)
  | readAtm

/-- One client step: new state, the value or exception of a read, the loader calls made.  Plain
attributes are plain assignments (`scenario.py`:84-94 declares them without setters). -/
def Scenario.step (files : Files) (s : Scenario) :
    ScenOp → Scenario × Option (Except PyErr Atm) × List LoadCall
  | .setIhaze v => (s.setIhaze v, none, [])
  | .setAltitude v => (s.setAltitude v, none, [])
  | .setGroundRange v => (s.setGroundRange v, none, [])
  | .setName v => ({ s with name := v }, none, [])
  | .setAircraftSpeed v => ({ s with aircraftSpeed := v }, none, [])
  | .setTargetReflectance v => ({ s with targetReflectance := v }, none, [])
  | .setTargetTemperature v => ({ s with targetTemperature := v }, none, [])
  | .setBackgroundReflectance v => ({ s with backgroundReflectance := v }, none, [])
  | .setBackgroundTemperature v => ({ s with backgroundTemperature := v }, none, [])
  | .setHaWindSpeed v => ({ s with haWindSpeed := v }, none, [])
  | .setCn2At1m v => ({ s with cn2At1m := v }, none, [])
  | .readAtm => let r := s.readAtm files; (r.2.1, some r.1, r.2.2)

/-- Run a history of client steps: the final state, the outputs and the loader calls, in order.
(client of `scenario.py`:23-165) -/
def Scenario.run (files : Files) (s : Scenario) :
    List ScenOp → Scenario × List (Except PyErr Atm) × List LoadCall
  | [] => (s, [], [])
  | op :: ops =>
    let r := s.step files op
    let q := r.1.run files ops
    (q.1, r.2.1.toList ++ q.2.1, r.2.2 ++ q.2.2)

end PyBSM
