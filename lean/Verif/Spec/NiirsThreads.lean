import Verif.Spec.Niirs
import Verif.Model.NiirsThreads

/-!
# Specification: calls on a sensor shared by threads (C104)
-/

noncomputable section

namespace PyBSM.Spec

/-- A call: which function, the scenario and the `interp` argument. -/
structure NiirsCall where
  five : Bool
  scenario : Scenario
  interp : Bool

/-- All threads are about to make their calls, on the sensor `s` as the client left it. -/
def calling (s : Sensor) (calls : ℕ → NiirsCall) : SharedKernel :=
  ⟨s.filterKernel, fun i => .start (calls i).five (calls i).scenario (calls i).interp⟩

/-- The sensor without sharpening. -/
def unsharpened (s : Sensor) : Sensor := { s with filterKernel := [[1]] }

/-- How a call ends when it has the sensor `s` to itself. -/
def NiirsCall.alone (env : Env) (s : Sensor) (c : NiirsCall) : Except PyErr Metrics :=
  if c.five then (niirs5 env s c.scenario c.interp).1 else (niirs env s c.scenario c.interp).1

/-- A `niirs` call whose kernel is replaced by the identity between the computation of the OTFs and that of the noise gain. -/
def NiirsCall.overtaken (env : Env) (s : Sensor) (c : NiirsCall) : Except PyErr Metrics := do
  let atm ← niirsAtm env s c.scenario c.interp
  let m ← niirsMid s atm
  let otf ← niirsGrid env s c.scenario m s.filterKernel
  niirsFinish s c.scenario atm m otf [[1]]

/-- The report `m'` describes no sensor: it has the OTFs of the report `m`, but the noise gain of the identity kernel. -/
def Mixed (m m' : Metrics) : Prop :=
  m'.otf = m.otf ∧ ∃ a b c d e f, m'.giqe34 = some (a, b, c, d, 1, e, f)

end PyBSM.Spec
