import Verif.Model.Simulation

/-!
# Client sessions: several sensor and scenario objects shared by calls in any order

Python passes objects by reference.  The objects of a client program are identified by numbers; the same object may be
used in many calls, and a call changes the object itself.
-/

noncomputable section

open Classical

namespace PyBSM

/-- The sensor and scenario objects of a client program, by identity.
(`sensor.py`, `scenario.py`: both classes have ordinary mutable instances) -/
structure Objects where
  sensor : ℕ → Sensor
  scenario : ℕ → Scenario

/-- What a client program can do with them: assign attributes of a sensor (plain attributes, `sensor.py`:185-232),
assign an attribute of a scenario or read its atmosphere (`scenario.py`:100-165), read the attributes of a sensor or
scenario, or call `niirs`, `niirs5` (`metrics/functional.py`:278-583) or `simulate_image` (`simulation/functional.py`:143-266). -/
inductive Action where
  | assign (i : ℕ) (change : Sensor → Sensor)
  | scenario (j : ℕ) (op : ScenOp)
  | look (i : ℕ)
  | lookScene (j : ℕ)
  | niirs (i j : ℕ) (interp : Bool)
  | niirs5 (i j : ℕ) (interp : Bool)
  | simulate (usable : Bool) (rng : Rng) (r : RefImage) (i j : ℕ)

/-- The attributes of a scenario, without the target and background reflectances and temperatures: those `niirs` and
`niirs5` overwrite (C57, C58) and no modelled function reads. (`scenario.py`:84-94) -/
structure SceneAttributes where
  name : String
  ihaze : ℤ
  altitude : XR
  groundRange : XR
  aircraftSpeed : XR
  haWindSpeed : XR
  cn2At1m : XR

/-- Reading them. (`scenario.py`:84-125) -/
def Scenario.attributes (sc : Scenario) : SceneAttributes :=
  ⟨sc.name, sc.ihaze, sc.altitude, sc.groundRange, sc.aircraftSpeed, sc.haWindSpeed, sc.cn2At1m⟩

/-- What the client program sees of an action: nothing, an atmosphere, the attributes of a sensor or scenario, a report
or the three images; reads and calls may raise.
(return values at `scenario.py`:165, `metrics/functional.py`:435, 583, `simulation/functional.py`:266) -/
inductive Outcome where
  | done
  | atmosphere (x : Except PyErr Atm)
  | attributes (s : Sensor)
  | scene (x : SceneAttributes)
  | report (x : Except PyErr Metrics)
  | images (x : Except PyErr (Img × Img × Img))

/-- The images of `simulate_image`, `simulation/functional.py`:266, and the caller's scenario afterwards: the only
statement that touches it is the read of `scenario.atm` (196), which may leave the atmosphere cached, whether or not
a later statement raises. -/
def simulateCall (env : Env) (usable : Bool) (rng : Rng) (r : RefImage) (s : Sensor) (sc : Scenario) :
    Except PyErr (Img × Img × Img) × Scenario :=
  ((simulateImage env usable rng r s sc).map fun R => (R.trueImg, R.blurImg, R.noisyImg),
    (sc.readAtm env.files).2.1)

/-- One action on the objects. (the calls cited at `Action`) -/
def Objects.step (env : Env) (w : Objects) : Action → Objects × Outcome
  | .assign i g => ({ w with sensor := Function.update w.sensor i (g (w.sensor i)) }, .done)
  | .scenario j op =>
    let r := (w.scenario j).step env.files op
    ({ w with scenario := Function.update w.scenario j r.1 },
      match r.2.1 with
      | none => .done
      | some x => .atmosphere x)
  | .look i => (w, .attributes (w.sensor i))
  | .lookScene j => (w, .scene (w.scenario j).attributes)
  | .niirs i j interp =>
    let r := PyBSM.niirs env (w.sensor i) (w.scenario j) interp
    (⟨Function.update w.sensor i r.2.1, Function.update w.scenario j r.2.2⟩, .report r.1)
  | .niirs5 i j interp =>
    let r := PyBSM.niirs5 env (w.sensor i) (w.scenario j) interp
    (⟨Function.update w.sensor i r.2.1, Function.update w.scenario j r.2.2⟩, .report r.1)
  | .simulate usable rng r i j =>
    let x := simulateCall env usable rng r (w.sensor i) (w.scenario j)
    ({ w with scenario := Function.update w.scenario j x.2 }, .images x.1)

/-- A whole session: the objects at the end and the outcomes in order. (client code) -/
def Objects.run (env : Env) : Objects → List Action → Objects × List Outcome
  | w, [] => (w, [])
  | w, a :: as =>
    let r := w.step env a
    let q := Objects.run env r.1 as
    (q.1, r.2 :: q.2)

end PyBSM
