import Verif.Model.Scenario

/-!
# Specification of `Scenario.atm` (C01, C02)

The reference behaviour has no cache at all: a read consults the database with whatever the three
parameters are at that moment.
-/

noncomputable section

namespace PyBSM.Spec

/-- The three parameters that select an atmosphere. -/
structure AtmKey where
  altitude : XR
  groundRange : XR
  ihaze : ℤ

/-- Loading the database afresh. -/
def loadFresh (files : Files) (interp : Bool) (k : AtmKey) : Except PyErr Atm :=
  match interp with
  | true => loadInterp files k.altitude k.groundRange k.ihaze
  | false => loadNoInterp files k.altitude k.groundRange k.ihaze

/-- What every read in a history must return, in order. -/
def reads (files : Files) (interp : Bool) : AtmKey → List ScenOp → List (Except PyErr Atm)
  | _, [] => []
  | k, .setIhaze v :: ops => reads files interp { k with ihaze := v } ops
  | k, .setAltitude v :: ops => reads files interp { k with altitude := v } ops
  | k, .setGroundRange v :: ops => reads files interp { k with groundRange := v } ops
  | k, .readAtm :: ops => loadFresh files interp k :: reads files interp k ops
  | k, _ :: ops => reads files interp k ops

/-- The step assigns one of the three parameters. -/
def IsParamWrite : ScenOp → Prop
  | .setIhaze _ => True
  | .setAltitude _ => True
  | .setGroundRange _ => True
  | _ => False

/-- The step is a read of `atm`. -/
def isRead : ScenOp → Bool
  | .readAtm => true
  | _ => false

end PyBSM.Spec
