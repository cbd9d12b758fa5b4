import Verif.Model.References
import Verif.Spec.Session

/-!
# Specification of arrays and reports by reference (C126)

The reference behaviour copies: a variable or an attribute holds the contents of an array, and giving it to another
variable or sensor copies those contents. Sensors and reports are still objects.
-/

noncomputable section

open Classical

namespace PyBSM.Spec

/-- A program state with copied arrays. -/
structure Copies where
  vars : List Cell
  sensors : List (Sensor × (ArrayAttr → Cell))
  scenario : ℕ → Scenario
  reports : List ReportObj

/-- The contents at a place. -/
def Copies.find (v : Copies) : Place → Option Cell
  | .var n => v.vars[n]?
  | .attr i a => v.sensors[i]?.map (·.2 a)

/-- The array attributes of a sensor as contents. -/
def arraysOf (s : Sensor) : ArrayAttr → Cell
  | .wavelengths => .row s.optTransWavelengths
  | .transmission => .row s.opticsTransmission
  | .qeWavelengths => .row s.qeWavelengths
  | .qe => .row s.qe
  | .otherNoise => .row s.otherNoise
  | .filterKernel => .kernel s.filterKernel

/-- The attributes of sensor `i`. -/
def Copies.attributes (v : Copies) (i : ℕ) : Option Sensor := v.sensors[i]?.map fun t => assemble t.1 t.2

/-- The state after an operation. Writing into an array is not part of the reference behaviour. -/
def Copies.after (env : Env) (v : Copies) : MemOp → Copies
  | .array c => { v with vars := v.vars ++ [c] }
  | .keep p => { v with vars := v.vars ++ (v.find p).toList }
  | .sensor name D f pX p =>
    match (v.find p).map fun c => Sensor.new name D f pX c.asRow, v.find p with
    | some (.ok s), some c => { v with sensors := v.sensors ++ [(s, Function.update (Function.update (arraysOf s)
        .wavelengths c) .qeWavelengths c)] }
    | _, _ => v
  | .assign i g => { v with sensors := v.sensors.modify i fun t => (g t.1, t.2) }
  | .put i a p =>
    match v.find p with
    | none => v
    | some c => { v with sensors := v.sensors.modify i fun t => (t.1, Function.update t.2 a c) }
  | .scenario j op => { v with scenario := Function.update v.scenario j ((v.scenario j).step env.files op).1 }
  | .niirs i j interp =>
    match v.attributes i with
    | none => v
    | some s => { v with
        scenario := Function.update v.scenario j (niirs env s (v.scenario j) interp).2.2
        reports := v.reports ++ ((niirs env s (v.scenario j) interp).1.toOption.map fun m => ⟨m, i⟩).toList }
  | .niirs5 i j interp =>
    match v.attributes i with
    | none => v
    | some s => { v with
        sensors := v.sensors.modify i fun t =>
          if ReachesSNR env s (v.scenario j) interp then (t.1, Function.update t.2 .filterKernel (.kernel [[1]])) else t
        scenario := Function.update v.scenario j (niirs5 env s (v.scenario j) interp).2.2
        reports := v.reports ++ ((niirs5 env s (v.scenario j) interp).1.toOption.map fun m => ⟨m, i⟩).toList }
  | .simulate usable rng r i j =>
    match v.attributes i with
    | none => v
    | some s => { v with scenario := Function.update v.scenario j (simulateCall env usable rng r s (v.scenario j)).2 }
  | _ => v

/-- The outcome of a rating. -/
def ratingSeen : Except PyErr Metrics → MemOut
  | .error e => .raised e
  | .ok m => .results m

/-- What the client sees of an operation. -/
def Copies.seen (env : Env) (v : Copies) : MemOp → MemOut
  | .array _ => .done
  | .keep p => if (v.find p).isSome then .done else .noObject
  | .sensor name D f pX p =>
    match v.find p with
    | none => .noObject
    | some c =>
      match Sensor.new name D f pX c.asRow with
      | .error e => .raised e
      | .ok _ => .done
  | .assign i _ => if i < v.sensors.length then .done else .noObject
  | .put i _ p => if i < v.sensors.length ∧ (v.find p).isSome then .done else .noObject
  | .write _ _ => .done
  | .contents p => ((v.find p).map MemOut.contents).getD .noObject
  | .look i => ((v.attributes i).map MemOut.attributes).getD .noObject
  | .scenario j op =>
    match ((v.scenario j).step env.files op).2.1 with
    | none => .done
    | some x => .atmosphere x
  | .niirs i j interp =>
    ((v.attributes i).map fun s => ratingSeen (niirs env s (v.scenario j) interp).1).getD .noObject
  | .niirs5 i j interp =>
    ((v.attributes i).map fun s => ratingSeen (niirs5 env s (v.scenario j) interp).1).getD .noObject
  | .simulate usable rng r i j =>
    ((v.attributes i).map fun s => MemOut.images (simulateCall env usable rng r s (v.scenario j)).1).getD .noObject
  | .results r => (v.reports[r]?.map fun m => MemOut.results m.results).getD .noObject
  | .sensorOf r => (v.reports[r]?.bind fun m => (v.attributes m.sensor).map MemOut.attributes).getD .noObject
  | .plotMTFs r angle => (v.reports[r]?.bind fun m => (v.attributes m.sensor).map fun s =>
      MemOut.mtfs (plotCommonMTFs m.results s angle)).getD .noObject
  | .plotNoise r => (v.reports[r]?.bind fun m => (v.attributes m.sensor).map fun s =>
      MemOut.noise (plotNoiseTerms m.results s)).getD .noObject

/-- What the client sees of a program. -/
def Copies.run (env : Env) : Copies → List MemOp → List MemOut
  | _, [] => []
  | v, op :: ops => v.seen env op :: (v.after env op).run env ops

/-- The operation writes into an array. -/
def IsWrite : MemOp → Prop
  | .write _ _ => True
  | _ => False

/-- The operation assigns an array to attribute `a` of sensor `i`. -/
def Puts (i : ℕ) (a : ArrayAttr) : MemOp → Prop
  | .put k b _ => k = i ∧ b = a
  | _ => False

/-- The operation takes an array that is an attribute of a sensor and gives it to a variable or a sensor. -/
def TakesAttribute : MemOp → Prop
  | .keep (.attr _ _) => True
  | .sensor _ _ _ _ (.attr _ _) => True
  | .put _ _ (.attr _ _) => True
  | _ => False

/-- What a program that has run `ops` sees of `op`. -/
def lastSeen (env : Env) (scenario : ℕ → Scenario) (ops : List MemOp) (op : MemOp) : MemOut :=
  (((Memory.start scenario).run env ops).1.step env op).2

/-- The number of sensors a program has created. -/
def sensorCount (env : Env) (scenario : ℕ → Scenario) (ops : List MemOp) : ℕ :=
  ((Memory.start scenario).run env ops).1.sensors.length

/-- The number of reports a program has created. -/
def reportCount (env : Env) (scenario : ℕ → Scenario) (ops : List MemOp) : ℕ :=
  ((Memory.start scenario).run env ops).1.reports.length

/-- The number of variables of a program. -/
def varCount (env : Env) (scenario : ℕ → Scenario) (ops : List MemOp) : ℕ :=
  ((Memory.start scenario).run env ops).1.vars.length

end PyBSM.Spec
