import Verif.Model.Session

/-!
# The atmosphere arrays as objects

`Scenario.atm` returns the cached numpy array itself, not a copy (`scenario.py`:127-165).  Here arrays have
identities, so that a client can write into an array it was given.
-/

noncomputable section

open Classical

namespace PyBSM

/-- Scenario objects and atmosphere arrays.  Arrays are numbered in the order of their creation; `cache j` is what
`_atm` of scenario `j` refers to (`scenario.py`:98); `params j` are its other attributes, its value cache is unused. -/
structure Arrays where
  heap : List Atm
  params : ℕ → Scenario
  cache : ℕ → Option ℕ

/-- A program that has just created its scenarios, `scenario.py`:69-98. -/
def Arrays.start (params : ℕ → Scenario) : Arrays := ⟨[], params, fun _ => none⟩

/-- Scenario `j` as the value that `Model/Scenario.lean` works with: the array `_atm` refers to
(`scenario.py`:127-165) is replaced by its present contents. -/
def Arrays.view (w : Arrays) (j : ℕ) : Scenario := { w.params j with atmCache := (w.cache j).bind fun a => w.heap[a]? }

/-- `Scenario.atm`, `scenario.py`:127-165, returning the identity of the array.  Every load creates a new array
(`utils.py`:96-112, 190-247). -/
def Arrays.read (files : Files) (w : Arrays) (j : ℕ) : Arrays × Except PyErr ℕ :=
  match w.cache j with
  | some a => (w, .ok a)
  | none =>
    match dbLoad files ⟨(w.params j).interp, (w.params j).altitude, (w.params j).groundRange, (w.params j).ihaze⟩ with
    | .error e => (w, .error e)
    | .ok atm =>
      ({ w with heap := w.heap ++ [atm], cache := Function.update w.cache j (some w.heap.length) }, .ok w.heap.length)

/-- What a client can do: use a scenario as before (`scenario.py`:84-165), write into an array, look at the contents of
an array, or call `simulate_image` (`simulation/functional.py`:143-266). -/
inductive ArrayOp where
  | scenario (j : ℕ) (op : ScenOp)
  | write (a : ℕ) (g : Atm → Atm)
  | contents (a : ℕ)
  | simulate (usable : Bool) (rng : Rng) (r : RefImage) (s : Sensor) (j : ℕ)

/-- What it sees: nothing, the identity of an array, its contents or images (return values of the calls cited at
`ArrayOp`; `scenario.py`:165, `simulation/functional.py`:266). -/
inductive ArrayOut where
  | done
  | array (x : Except PyErr ℕ)
  | contents (x : Option Atm)
  | images (x : Except PyErr (Img × Img × Img))

/-- The effect of assigning a scenario attribute on `_atm`, `scenario.py`:104-125. -/
def dropsCache : ScenOp → Bool
  | .setIhaze _ => true
  | .setAltitude _ => true
  | .setGroundRange _ => true
  | _ => false

/-- One step.  `simulate_image` reads the atmosphere (`simulation/functional.py`:195) and does not write into it:
`reflectance_to_photoelectrons` crops it into a new array (`radiance/functional.py`:580-581). -/
def Arrays.step (env : Env) (w : Arrays) : ArrayOp → Arrays × ArrayOut
  | .scenario j .readAtm => let r := w.read env.files j; (r.1, .array r.2)
  | .scenario j op =>
    ({ w with params := Function.update w.params j ((w.params j).step env.files op).1
              cache := if dropsCache op then Function.update w.cache j none else w.cache }, .done)
  | .write a g => ({ w with heap := w.heap.modify a g }, .done)
  | .contents a => (w, .contents w.heap[a]?)
  | .simulate usable rng r s j =>
    ((w.read env.files j).1, .images (simulateCall env usable rng r s (w.view j)).1)

/-- The state after a history (client code). -/
def Arrays.after (env : Env) (w : Arrays) (ops : List ArrayOp) : Arrays := ops.foldl (fun w op => (w.step env op).1) w

end PyBSM
