import Verif.Model.Session
import Verif.Model.Plot

/-!
# Arrays and reports by reference

The array attributes of a sensor are references to array objects, which the client may also hold, put into several
sensors and write into; a report keeps references to the sensor and the scenario it was made from.  Here every array has
an identity.
-/

noncomputable section

open Classical

namespace PyBSM

/-- The contents of an array object: one-dimensional, or the two-dimensional filter kernel. (`sensor.py`:176-231) -/
inductive Cell where
  | row (xs : List XR)
  | kernel (k : Kernel)

/-- As a one-dimensional array. (client code; a kernel put where a one-dimensional array is expected is not modelled
and reads as an empty array) -/
def Cell.asRow : Cell → List XR
  | .row xs => xs
  | .kernel _ => []

/-- As a filter kernel. (client code; the converse mistake reads as an empty kernel) -/
def Cell.asKernel : Cell → Kernel
  | .row _ => []
  | .kernel k => k

/-- The attributes of a sensor that are arrays, `sensor.py`:176-231. -/
inductive ArrayAttr where
  | wavelengths
  | transmission
  | qeWavelengths
  | qe
  | otherNoise
  | filterKernel

/-- A sensor with the given array contents, the other attributes taken from `plain`. (`sensor.py`:173-232) -/
def assemble (plain : Sensor) (c : ArrayAttr → Cell) : Sensor :=
  { plain with
    optTransWavelengths := (c .wavelengths).asRow
    opticsTransmission := (c .transmission).asRow
    qeWavelengths := (c .qeWavelengths).asRow
    qe := (c .qe).asRow
    otherNoise := (c .otherNoise).asRow
    filterKernel := (c .filterKernel).asKernel }

/-- A sensor object: its plain attributes (those of `plain` that are arrays are not used) and, for each array
attribute, the array it refers to. (`sensor.py`:173-232) -/
structure SensorObj where
  plain : Sensor
  ref : ArrayAttr → ℕ

/-- A report object: its results, which include no reference to an array of a sensor, and the sensor object it was made
from, `metrics/functional.py`:294-298, 455-459. The results are made of new arrays (303-410, 464-570); a client writing into those is
not modelled. -/
structure ReportObj where
  results : Metrics
  sensor : ℕ

/-- The state of a client program: the array objects by identity, the client's variables holding arrays, the sensor
objects, scenarios and report objects. (client code) -/
structure Memory where
  cells : List Cell
  vars : List ℕ
  sensors : List SensorObj
  scenario : ℕ → Scenario
  reports : List ReportObj

/-- A program that has only created its scenarios, `scenario.py`:69-98. -/
def Memory.start (scenario : ℕ → Scenario) : Memory := ⟨[], [], [], scenario, []⟩

/-- Where the client finds an array: in one of its variables, or as an attribute of a sensor. (client code;
`sensor.py`:173-232) -/
inductive Place where
  | var (n : ℕ)
  | attr (i : ℕ) (a : ArrayAttr)

/-- What a client can do: create an array, keep a reference to an array in a variable, create a sensor
(`sensor.py`:139-232, the optional arguments at their defaults: they are plain and can be assigned), assign plain
attributes, assign an array to an attribute, write into an array, look at an array or at a sensor, use a scenario
(`scenario.py`:84-165), call `niirs`, `niirs5` (`metrics/functional.py`:265-583) or `simulate_image`
(`simulation/functional.py`:143-266), look at the results or the sensor of a report, and plot a report
(`metrics/functional.py`:676-811). -/
inductive MemOp where
  | array (c : Cell)
  | keep (p : Place)
  | sensor (name : String) (D f pX : XR) (p : Place)
  | assign (i : ℕ) (change : Sensor → Sensor)
  | put (i : ℕ) (a : ArrayAttr) (p : Place)
  | write (p : Place) (g : Cell → Cell)
  | contents (p : Place)
  | look (i : ℕ)
  | scenario (j : ℕ) (op : ScenOp)
  | niirs (i j : ℕ) (interp : Bool)
  | niirs5 (i j : ℕ) (interp : Bool)
  | simulate (usable : Bool) (rng : Rng) (r : RefImage) (i j : ℕ)
  | results (r : ℕ)
  | sensorOf (r : ℕ)
  | plotMTFs (r : ℕ) (angle : ℝ)
  | plotNoise (r : ℕ)

/-- What it sees. `noObject` is the outcome of naming a variable, sensor or report that does not exist; such an
operation does nothing. (return values of the calls cited at `MemOp`) -/
inductive MemOut where
  | done
  | noObject
  | raised (e : PyErr)
  | contents (c : Cell)
  | attributes (s : Sensor)
  | atmosphere (x : Except PyErr Atm)
  | images (x : Except PyErr (Img × Img × Img))
  | results (m : Metrics)
  | mtfs (x : Except PyErr MtfPlot)
  | noise (x : Except PyErr NoisePlot)

/-- The array object at a place. (client code) -/
def Memory.find (w : Memory) : Place → Option ℕ
  | .var n => w.vars[n]?
  | .attr i a => w.sensors[i]?.map (·.ref a)

/-- The contents of an array object. (client code) -/
def Memory.cell (w : Memory) (n : ℕ) : Cell := w.cells.getD n (.row [])

/-- The attributes of a sensor object at present. (`sensor.py`:173-232) -/
def Memory.view (w : Memory) (t : SensorObj) : Sensor := assemble t.plain fun a => w.cell (t.ref a)

/-- `niirs5` gets as far as line 554 of `metrics/functional.py`: the atmosphere and the SNR calculation have not raised. -/
def reachesKernelReset (env : Env) (s : Sensor) (sc : Scenario) (interp : Bool) : Prop :=
  ∃ atm m, niirsAtm env s sc interp = .ok atm ∧ niirsMid s atm = .ok m

/-- The references of a new sensor whose wavelength array is `n`, if the next array object created is number `k`: the
wavelengths of the transmission and of the quantum efficiency are the caller's array itself (`sensor.py`:176, 208), the
other four arrays are new (177, 209, 227, 231). -/
def newRefs (n k : ℕ) : ArrayAttr → ℕ
  | .wavelengths => n
  | .transmission => k
  | .qeWavelengths => n
  | .qe => k + 1
  | .otherNoise => k + 2
  | .filterKernel => k + 3

/-- Adding a report if the call succeeded: `metrics/functional.py`:294-297, 435, 455-458, 583. -/
def Memory.record (w : Memory) (i : ℕ) : Except PyErr Metrics → Memory × MemOut
  | .error e => (w, .raised e)
  | .ok m => ({ w with reports := w.reports ++ [⟨m, i⟩] }, .results m)

/-- One step. `niirs`, `simulate_image` and the plots store nothing in a sensor; `niirs5` makes the attribute
`filter_kernel` refer to a new array (`metrics/functional.py`:554). The plots read `f` and `read_noise` of the sensor the
report refers to (`metrics/functional.py`:695, 742, 778). -/
def Memory.step (env : Env) (w : Memory) : MemOp → Memory × MemOut
  | .array c => ({ w with cells := w.cells ++ [c], vars := w.vars ++ [w.cells.length] }, .done)
  | .keep p =>
    match w.find p with
    | none => (w, .noObject)
    | some n => ({ w with vars := w.vars ++ [n] }, .done)
  | .sensor name D f pX p =>
    match w.find p with
    | none => (w, .noObject)
    | some n =>
      match Sensor.new name D f pX (w.cell n).asRow with
      | .error e => (w, .raised e)
      | .ok s =>
        ({ w with
            cells := w.cells ++ [.row s.opticsTransmission, .row s.qe, .row s.otherNoise, .kernel s.filterKernel]
            sensors := w.sensors ++ [⟨s, newRefs n w.cells.length⟩] }, .done)
  | .assign i g =>
    match w.sensors[i]? with
    | none => (w, .noObject)
    | some t => ({ w with sensors := w.sensors.set i { t with plain := g t.plain } }, .done)
  | .put i a p =>
    match w.sensors[i]?, w.find p with
    | some t, some n => ({ w with sensors := w.sensors.set i { t with ref := Function.update t.ref a n } }, .done)
    | _, _ => (w, .noObject)
  | .write p g =>
    match w.find p with
    | none => (w, .noObject)
    | some n => ({ w with cells := w.cells.modify n g }, .done)
  | .contents p =>
    match w.find p with
    | none => (w, .noObject)
    | some n => (w, .contents (w.cell n))
  | .look i =>
    match w.sensors[i]? with
    | none => (w, .noObject)
    | some t => (w, .attributes (w.view t))
  | .scenario j op =>
    let r := (w.scenario j).step env.files op
    ({ w with scenario := Function.update w.scenario j r.1 },
      match r.2.1 with
      | none => .done
      | some x => .atmosphere x)
  | .niirs i j interp =>
    match w.sensors[i]? with
    | none => (w, .noObject)
    | some t =>
      let r := PyBSM.niirs env (w.view t) (w.scenario j) interp
      Memory.record { w with scenario := Function.update w.scenario j r.2.2 } i r.1
  | .niirs5 i j interp =>
    match w.sensors[i]? with
    | none => (w, .noObject)
    | some t =>
      let r := PyBSM.niirs5 env (w.view t) (w.scenario j) interp
      let w' := { w with scenario := Function.update w.scenario j r.2.2 }
      if reachesKernelReset env (w.view t) (w.scenario j) interp then
        Memory.record { w' with
            cells := w.cells ++ [Cell.kernel [[1]]]
            sensors := w.sensors.set i { t with ref := Function.update t.ref .filterKernel w.cells.length } } i r.1
      else w'.record i r.1
  | .simulate usable rng r i j =>
    match w.sensors[i]? with
    | none => (w, .noObject)
    | some t =>
      let x := simulateCall env usable rng r (w.view t) (w.scenario j)
      ({ w with scenario := Function.update w.scenario j x.2 }, .images x.1)
  | .results r =>
    match w.reports[r]? with
    | none => (w, .noObject)
    | some m => (w, .results m.results)
  | .sensorOf r =>
    match w.reports[r]?.bind fun m => w.sensors[m.sensor]? with
    | none => (w, .noObject)
    | some t => (w, .attributes (w.view t))
  | .plotMTFs r angle =>
    match w.reports[r]?.bind fun m => w.sensors[m.sensor]?.map fun t => (m, t) with
    | none => (w, .noObject)
    | some (m, t) => (w, .mtfs (plotCommonMTFs m.results (w.view t) angle))
  | .plotNoise r =>
    match w.reports[r]?.bind fun m => w.sensors[m.sensor]?.map fun t => (m, t) with
    | none => (w, .noObject)
    | some (m, t) => (w, .noise (plotNoiseTerms m.results (w.view t)))

/-- A whole program: the state at the end and what was seen, in order. (client code) -/
def Memory.run (env : Env) : Memory → List MemOp → Memory × List MemOut
  | w, [] => (w, [])
  | w, op :: ops =>
    let r := w.step env op
    let q := Memory.run env r.1 ops
    (q.1, r.2 :: q.2)

end PyBSM
