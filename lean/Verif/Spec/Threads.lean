import Verif.Spec.Scenario
import Verif.Model.Threads

/-!
# Specification for threads and interrupts (C95, C96)
-/

noncomputable section

namespace PyBSM.Spec

/-- The parameters a scenario holds. -/
def keyOf (s : Scenario) : AtmKey := ⟨s.altitude, s.groundRange, s.ihaze⟩

/-- A scenario whose cached atmosphere, if there is one, is that of its parameters: a new scenario,
or any scenario that has been used from one thread only (C01). -/
def CacheFresh (files : Files) (s : Scenario) : Prop :=
  ∀ a, s.atmCache = some a → loadFresh files s.interp (keyOf s) = .ok a

/-- What a read of `atm` should end with, given the outcome of the load. -/
def endingOf : Except PyErr Atm → Ending
  | .ok a => .returned (some a)
  | .error e => .raised e

/-- The altitude the scenario starts with, or one that some thread is about to assign. -/
def SomeAltitude (σ : Shared) (v : XR) : Prop :=
  v = σ.scenario.altitude ∨ ∃ i, σ.threads i = (AtmOp.setAltitude v).start

/-- The ground range the scenario starts with, or one that some thread is about to assign. -/
def SomeGroundRange (σ : Shared) (v : XR) : Prop :=
  v = σ.scenario.groundRange ∨ ∃ i, σ.threads i = (AtmOp.setGroundRange v).start

/-- The haze index the scenario starts with, or one that some thread is about to assign. -/
def SomeIhaze (σ : Shared) (v : ℤ) : Prop :=
  v = σ.scenario.ihaze ∨ ∃ i, σ.threads i = (AtmOp.setIhaze v).start

/-- The parameters after an operation that ran to its end. -/
def keyAfter (k : AtmKey) : AtmOp → AtmKey
  | .setIhaze v => { k with ihaze := v }
  | .setAltitude v => { k with altitude := v }
  | .setGroundRange v => { k with groundRange := v }
  | .readAtm => k

/-- How the operations end when they are carried out one after the other and every read loads
afresh. -/
def endings (files : Files) (interp : Bool) : AtmKey → List AtmOp → List Ending
  | _, [] => []
  | k, .readAtm :: ops => endingOf (loadFresh files interp k) :: endings files interp k ops
  | k, op :: ops => .assigned :: endings files interp (keyAfter k op) ops

/-- Every scheduled thread makes eight accesses in a row: no operation overlaps another one. -/
def oneAtATime (order : List ℕ) : List ℕ := order.flatMap (List.replicate 8)

end PyBSM.Spec
