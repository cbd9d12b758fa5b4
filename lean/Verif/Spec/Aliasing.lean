import Verif.Model.Aliasing
import Verif.Spec.Session

/-!
# Specification for histories with array writes (C81)
-/

noncomputable section

open Classical

namespace PyBSM.Spec

/-- What the client has written into array `a`, in order. -/
def writesTo (a : ℕ) : List ArrayOp → List (Atm → Atm)
  | [] => []
  | .write b g :: ops => if b = a then g :: writesTo a ops else writesTo a ops
  | _ :: ops => writesTo a ops

/-- An array after a list of writes. -/
def overwritten (x : Atm) (gs : List (Atm → Atm)) : Atm := gs.foldl (fun y g => g y) x

/-- The attributes of scenario `j` after a history: exactly the client's assignments. -/
def paramsAfter (j : ℕ) : Scenario → List ArrayOp → Scenario
  | sc, [] => sc
  | sc, .scenario k op :: ops => if k = j then paramsAfter j (assigned sc op) ops else paramsAfter j sc ops
  | sc, _ :: ops => paramsAfter j sc ops

/-- The operation assigns one of the three parameters of scenario `j`. -/
def Reassigns (j : ℕ) : ArrayOp → Prop
  | .scenario k op => k = j ∧ IsParamWrite op
  | _ => False

/-- A read of `atm` of scenario `j` after the history returns array `a`. -/
def Returns (env : Env) (params : ℕ → Scenario) (ops : List ArrayOp) (j a : ℕ) : Prop :=
  (((Arrays.start params).after env ops).step env (.scenario j .readAtm)).2 = .array (.ok a)

/-- The history only writes into arrays that existed when they were written to. -/
def Legal (env : Env) (params : ℕ → Scenario) (ops : List ArrayOp) : Prop :=
  ∀ l r a g, ops = l ++ .write a g :: r → a < ((Arrays.start params).after env l).heap.length

end PyBSM.Spec
