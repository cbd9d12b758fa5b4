import Verif.Model.Simulation

/-!
# What the package writes to the log

Two functions write log records: `reflectance_to_photoelectrons` when it scales the photoelectron table down, and
`simulate_image` when its result has more rows than the reference image.  A record is modelled by the values it shows;
the formatting of numbers and the configuration of Python's `logging` are outside the model.
-/

noncomputable section

open Classical

namespace PyBSM

/-- A log record: "Reducing integration time from ... to ..." (`radiance/functional.py`:642-645) or "The simulated image
has oversampled the reference image" (`simulation/functional.py`:260-264). -/
inductive LogRecord where
  | reducing (old new : XR)
  | oversampled

/-- `reflectance_to_photoelectrons` up to its log message, `radiance/functional.py`:574-640: the wavelengths, the
photoelectrons and spectral weights for each reflectance, and the largest number of photoelectrons. -/
def photoelectronTable (atm : Atm) (s : Sensor) (intTime : XR) :
    Except PyErr (List XR × List (XR × List XR) × XR) := do
  let atm ← bandCrop s atm
  let wl := atm.map (· 0)
  let rows ← (linspace 0 1 100).mapM fun r => do
    let optTrans ← systemTransmission s wl
    let qe ← resampleByWavelength s.qeWavelengths s.qe wl
    let other ← selfEmission s wl
    let (rate, _, dN) ← signalRate wl (totalRadiance atm r 300) optTrans (.py s.D) (.py s.f)
      s.wX s.wY qe other s.darkCurrent
    Except.ok (ε := PyErr) (rate * intTime * s.nTdi, dN)
  let peMax ← amax (rows.map (·.1))
  .ok (wl, rows, peMax)

/-- `reflectance_to_photoelectrons`, `radiance/functional.py`:535-653, with the records it logs. -/
def reflectanceLogged (atm : Atm) (s : Sensor) (intTime : XR) :
    List LogRecord × Except PyErr (List XR × List XR × List XR × List XR) :=
  match photoelectronTable atm s intTime with
  | .error e => ([], .error e)
  | .ok (wl, rows, peMax) =>
    let sat := peMax / s.maxN
    let pe := rows.map (·.1)
    let log := if XR.lt 1 sat then [.reducing intTime (intTime / sat)] else []
    let pe := if XR.lt 1 sat then pe.map (· / sat) else pe
    let pe := pe.map fun p => if XR.lt s.maxN p then s.maxN else p
    let weights := (rows.map (·.2)).getLastD []
    (log, do
      let wMax ← pyMax weights
      .ok (linspace 0 1 100, pe, wl, weights.map (· / wMax)))

/-- `simulate_image`, `simulation/functional.py`:143-266, with the records it logs: those of
`reflectance_to_photoelectrons` (196), even if a later statement raises, and at the end (259-264) the warning. -/
def simulateLogged (env : Env) (usable : Bool) (rng : Rng) (r : RefImage) (s : Sensor) (sc : Scenario) :
    List LogRecord × Except PyErr SimResult :=
  match (sc.readAtm env.files).1 with
  | .error e => ([], .error e)
  | .ok atm =>
    let log := (reflectanceLogged atm s s.intTime).1
    match simulateImage env usable rng r s sc with
    | .error e => (log, .error e)
    | .ok R => (log ++ (if r.img.h < R.noisyImg.h then [.oversampled] else []), .ok R)

end PyBSM
