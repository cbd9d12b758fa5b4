import Verif.Model.Session

/-!
# The random generator behind `simulate_image`

`simulate_image` draws from numpy's global generator (`np.random.poisson`, `np.random.normal`), whose state outlives the
call.  The generator itself is outside the model: it is an arbitrary machine with a state, of which `np.random.seed`
sets the state and every draw returns a number and the next state.
-/

noncomputable section

open Classical

namespace PyBSM

/-- numpy's global generator.  `seeded n` is its state after `np.random.seed(n)`, `poisson m` draws a count with mean
`m` and `normal` a standard normal variate (`np.random.normal(loc, scale)` returns `loc + scale` times such a variate).
(used at `simulation/functional.py`:255-257) -/
structure Generator where
  State : Type
  seeded : ℕ → State
  poisson : ℝ → State → ℕ × State
  normal : State → ℝ × State

/-- `np.random.poisson(lam=...)` of an array: one draw after the other, in row-major order.
(used at `simulation/functional.py`:255) -/
def Generator.poissons (G : Generator) : List ℝ → G.State → List ℕ × G.State
  | [], st => ([], st)
  | m :: ms, st =>
    let x := G.poisson m st
    let y := G.poissons ms x.2
    (x.1 :: y.1, y.2)

/-- The standard normal variates of `np.random.normal(array, scale)`: one per entry, in row-major order.
(used at `simulation/functional.py`:257) -/
def Generator.normals (G : Generator) : ℕ → G.State → List ℝ × G.State
  | 0, st => ([], st)
  | n + 1, st =>
    let x := G.normal st
    let y := G.normals n x.2
    (x.1 :: y.1, y.2)

/-- `simulate_image` up to its first draw, `simulation/functional.py`:190-254, and the check of all the means with
which `np.random.poisson` (255) begins: the true image, the blurred image, the standard deviation of the Gaussian
noise and the scenario. -/
def simulateMeans (env : Env) (usable : Bool) (r : RefImage) (s : Sensor) (sc : Scenario) :
    Except PyErr (Img × Img × ℝ × Scenario) := do
  let rd := sc.readAtm env.files
  let atm ← rd.1
  let sc := rd.2.1
  let (ref, pe, wl, weights) ← reflectanceToPhotoelectrons atm s s.intTime
  let slant := flatSlantRange sc
  let keep := (wl.zip weights).filter (fun p => XR.lt 0 p.2)
  let mtfWl := keep.map (·.1)
  let mn ← amin mtfWl
  let cutoff := s.D / mn
  let otf ← gridOTFs env 1501 s sc cutoff mtfWl (keep.map (·.2)) slant s.intTime
  let uRng := freqAxis 1501 cutoff
  let vRng := (linspace 1 (-1) 1501).map (· * cutoff)
  let df := ((uRng.getD 1 .nan - uRng.getD 0 .nan).abs
    + (vRng.getD 0 .nan - vRng.getD 1 .nan).abs) / 2
  if XR.le df 0 then .error .valueError
  else
    let ifov ← Scal.div (.py ((s.pX + s.pY) / 2)) (.py s.f)
    let q := quantizationNoise s.maxN s.bitDepth
    let gNoise := XR.sqrt (q ^ 2 + s.readNoise ^ 2)
    let t ← trueImage r ref pe
    let tr ← allReal t
    let trueImg := imgOfPixels r.img.h r.img.w tr
    let rows ← otf.mapM fun row => allReal row.system
    let (blur, _) ← applyOtfToImage usable trueImg (.py r.gsd) (.np slant) 1501 1501
      (fun i j => (((rows.getD i []).getD j 0 : ℝ) : ℂ)) (.np df) ifov
    if ∃ i < blur.h, ∃ j < blur.w, blur.px i j < 0 then .error .valueError
    else
      match gNoise with
      | .fin g => .ok (trueImg, blur, g, sc)
      | _ => .error .outsideModel

/-- `simulate_image`, `simulation/functional.py`:143-266, with the global generator in state `st`: its images and the
state in which it leaves the generator.  All the Poisson counts are drawn (255) before the first normal variate (257).
A call that raises does so before the first draw. -/
def simulateDrawn (env : Env) (G : Generator) (usable : Bool) (st : G.State) (r : RefImage) (s : Sensor)
    (sc : Scenario) : Except PyErr (Img × Img × Img) × G.State :=
  match simulateMeans env usable r s sc with
  | .error e => (.error e, st)
  | .ok (t, b, g, _) =>
    let p := G.poissons b.ravel st
    let n := G.normals (b.h * b.w) p.2
    (.ok (t, b, { b with px := fun i j => (p.1.getD (i * b.w + j) 0 : ℝ) + g * n.1.getD (i * b.w + j) 0 }), n.2)

/-- The objects of a client program together with the state of the global generator.
(`simulation/functional.py`:255-257 use numpy's module-level generator) -/
structure Lab (G : Generator) where
  objects : Objects
  gen : G.State

/-- What a client program does that draws nothing: everything of `Action` but `simulate_image`.
(no other function of the package uses `np.random`) -/
def Action.DrawsNothing : Action → Prop
  | .simulate .. => False
  | _ => True

/-- What a client program can do: any action that draws nothing, `simulate_image`
(`simulation/functional.py`:143-266), `np.random.seed`, and any use it makes of the global generator itself. -/
inductive LabAction (G : Generator) where
  | act (a : Action) (h : a.DrawsNothing)
  | simulate (usable : Bool) (r : RefImage) (i j : ℕ)
  | seed (n : ℕ)
  | draw (f : G.State → G.State)

/-- One action. (the calls cited at `Action` and `LabAction`; `simulate_image` may leave the atmosphere cached in the
scenario, `simulation/functional.py`:196) -/
def Lab.step {G : Generator} (env : Env) (l : Lab G) : LabAction G → Lab G × Outcome
  | .act a _ =>
    let r := l.objects.step env a
    ({ l with objects := r.1 }, r.2)
  | .simulate usable r i j =>
    let w := l.objects
    let x := simulateDrawn env G usable l.gen r (w.sensor i) (w.scenario j)
    (⟨{ w with scenario := Function.update w.scenario j ((w.scenario j).readAtm env.files).2.1 }, x.2⟩, .images x.1)
  | .seed n => ({ l with gen := G.seeded n }, .done)
  | .draw f => ({ l with gen := f l.gen }, .done)

/-- A whole session: the objects and the generator at the end, and the outcomes in order. (client code) -/
def Lab.run {G : Generator} (env : Env) : Lab G → List (LabAction G) → Lab G × List Outcome
  | l, [] => (l, [])
  | l, a :: as =>
    let r := l.step env a
    let q := Lab.run env r.1 as
    (q.1, r.2 :: q.2)

end PyBSM
