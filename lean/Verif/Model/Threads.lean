import Verif.Model.Scenario

/-!
# `Scenario` in small steps: threads and interrupts (`src/pybsm/simulation/scenario.py`)

The methods of `Model/Scenario.lean` are atomic.  Here the same code is cut at every access to an
attribute of the shared object, which is where CPython may switch to another thread or deliver an
asynchronous exception such as `KeyboardInterrupt`.  Simplifications: each attribute read or write is
atomic (CPython's global interpreter lock), the database files do not change, and the loader call is
one step (it touches no attribute of the scenario).  A thread performs one operation; a client that
performs several is several threads of which each starts after its predecessor has ended.
-/

noncomputable section

open Classical

namespace PyBSM

/-- How one operation on a scenario ended: `atm` returned (`none` is Python's `None`) or raised, or an
assignment finished.  (`scenario.py`:104-165) -/
inductive Ending where
  | returned (a : Option Atm)
  | raised (e : PyErr)
  | assigned

/-- Where a thread is: about to execute the named access.  (`scenario.py`:104-107, 113-116, 122-125,
154-165) -/
inductive Thread where
  /-- 154: evaluate `self._atm is None` -/
  | check
  /-- 156: read `self._interp` -/
  | readInterp
  /-- 158, 162: read the first argument `self.altitude` -/
  | readAltitude (interp : Bool)
  /-- 158, 162: read the second argument `self.ground_range` -/
  | readGroundRange (interp : Bool) (altitude : XR)
  /-- 158, 162: read the third argument `self.ihaze` -/
  | readIhaze (interp : Bool) (altitude groundRange : XR)
  /-- 157, 161: call the loader -/
  | call (c : LoadCall)
  /-- 157, 161: assign `self._atm` -/
  | store (a : Atm)
  /-- 165: read `self._atm` once more and return it -/
  | fetch
  /-- 106: `self._atm = None` -/
  | setIhaze (v : ℤ)
  /-- 107: `self._ihaze = value` -/
  | setIhaze' (v : ℤ)
  /-- 115: `self._atm = None` -/
  | setAltitude (v : XR)
  /-- 116: `self._altitude = value` -/
  | setAltitude' (v : XR)
  /-- 124: `self._atm = None` -/
  | setGroundRange (v : XR)
  /-- 125: `self._ground_range = value` -/
  | setGroundRange' (v : XR)
  /-- the operation has ended -/
  | done (r : Ending)

/-- One access by a thread to the shared scenario, `scenario.py`:104-107, 113-116, 122-125, 154-165. -/
def Thread.step (files : Files) (s : Scenario) : Thread → Scenario × Thread
  | .check => (s, match s.atmCache with | none => .readInterp | some _ => .fetch)
  | .readInterp => (s, .readAltitude s.interp)
  | .readAltitude i => (s, .readGroundRange i s.altitude)
  | .readGroundRange i a => (s, .readIhaze i a s.groundRange)
  | .readIhaze i a g => (s, .call ⟨i, a, g, s.ihaze⟩)
  | .call c => (s, match dbLoad files c with | .ok a => .store a | .error e => .done (.raised e))
  | .store a => ({ s with atmCache := some a }, .fetch)
  | .fetch => (s, .done (.returned s.atmCache))
  | .setIhaze v => ({ s with atmCache := none }, .setIhaze' v)
  | .setIhaze' v => ({ s with ihaze := v }, .done .assigned)
  | .setAltitude v => ({ s with atmCache := none }, .setAltitude' v)
  | .setAltitude' v => ({ s with altitude := v }, .done .assigned)
  | .setGroundRange v => ({ s with atmCache := none }, .setGroundRange' v)
  | .setGroundRange' v => ({ s with groundRange := v }, .done .assigned)
  | .done r => (s, .done r)

/-- A scenario shared by threads numbered by the naturals.  (clients of `scenario.py`:23-165) -/
structure Shared where
  scenario : Scenario
  threads : ℕ → Thread

/-- Thread `i` makes one access.  (clients of `scenario.py`:23-165) -/
def Shared.step (files : Files) (σ : Shared) (i : ℕ) : Shared where
  scenario := ((σ.threads i).step files σ.scenario).1
  threads := Function.update σ.threads i ((σ.threads i).step files σ.scenario).2

/-- Run a schedule: the list says which thread moves next.  (clients of `scenario.py`:23-165) -/
def Shared.run (files : Files) (σ : Shared) : List ℕ → Shared
  | [] => σ
  | i :: is => (σ.step files i).run files is

/-- `n` consecutive accesses by one thread.  (`scenario.py`:104-165) -/
def Thread.steps (files : Files) : ℕ → Scenario → Thread → Scenario × Thread
  | 0, s, t => (s, t)
  | n + 1, s, t => Thread.steps files n (t.step files s).1 (t.step files s).2

/-- The first instruction of the operations of a scenario that involve more than one attribute.
(`scenario.py`:104-165) -/
inductive AtmOp where
  | setIhaze (v : ℤ)
  | setAltitude (v : XR)
  | setGroundRange (v : XR)
  | readAtm

/-- Entering an operation.  (`scenario.py`:106, 115, 124, 154) -/
def AtmOp.start : AtmOp → Thread
  | .setIhaze v => .setIhaze v
  | .setAltitude v => .setAltitude v
  | .setGroundRange v => .setGroundRange v
  | .readAtm => .check

/-- A single-threaded client whose operations may be cut short: operation `p.1` is abandoned after
`p.2` accesses if it has not ended by then (an asynchronous exception such as `KeyboardInterrupt`
leaves the object as it is at that moment).  (clients of `scenario.py`:23-165) -/
def Scenario.runInterrupted (files : Files) (s : Scenario) : List (AtmOp × ℕ) → Scenario
  | [] => s
  | p :: ps => (Thread.steps files p.2 s p.1.start).1.runInterrupted files ps

end PyBSM
