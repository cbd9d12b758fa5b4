import Verif.Model.Metrics

/-!
# `niirs` and `niirs5` in small steps: a sensor shared by threads

Of the attributes of a sensor the package itself assigns only one after construction: `niirs5` sets `filter_kernel`
(`metrics/functional.py`:554). Here the two functions are cut at every access to that attribute. Simplifications: everything
between two accesses is one step (it reads only attributes that no thread assigns); the client assigns no attribute while
the calls run; the database files do not change. The target and background reflectances and temperatures that the calls
write into their scenarios are read by no modelled function and left out.
-/

noncomputable section

open Classical

namespace PyBSM

/-- `niirs` from the OTFs on, `metrics/functional.py`:403-435, with the kernel read at line 412. -/
def niirsFinish (s : Sensor) (sc : Scenario) (atm : Atm) (m : NiirsMid) (otf : List OTFRow) (kernel : Kernel) :
    Except PyErr Metrics := do
  let slant := niirsSlantRange sc
  let df := axisStep (freqAxis 101 m.cutoff)
  let ifovX ← Scal.div (.py s.pX) (.py s.f)
  let ifovY ← Scal.div (.py s.pY) (.py s.f)
  let gsdX := ifovX.val * slant
  let gsdY := ifovY.val * slant
  let gsdGm := XR.sqrt (gsdX * gsdY)
  let (rer, eho) ← giqeEdgeTerms (otf.map fun r => r.system.map XR.abs) df ifovX.val ifovY.val
  let ng ← noiseGain kernel
  let snr := XR.sqrt s.frameStacks * m.snr.snr
  let niirs3 ← giqe3 (.np rer) (.np gsdGm) (.np eho) (.np ng) (.np snr)
  let nadir ← nadirAngle (.py 0) (.py sc.altitude) (.np slant)
  let elev := .fin (Real.pi / 2) - nadir
  let (niirs4, gsdGp) ← giqe4 (.np rer) (.np gsdGm) (.np eho) (.np ng) (.np snr) elev
  .ok {
    slantRange := slant, atm := atm, tgtRadiance := m.tgtRadiance, bkgRadiance := m.bkgRadiance
    radianceWavelengths := m.wl, snr := m.snr, pathNoise := m.pathNoise, sceneNoise := m.sceneNoise
    mtfWavelengths := m.mtfWavelengths, mtfWeights := m.mtfWeights, cutoffFrequency := m.cutoff
    df := df, otf := otf, ifovX := ifovX.val, ifovY := ifovY.val, gsdX := gsdX, niirs := niirs3
    elevAngle := elev, giqe34 := some (gsdY, gsdGm, rer, eho, ng, niirs4, gsdGp), giqe5 := none }

/-- `niirs5` from the OTFs on, `metrics/functional.py`:566-583; it does not read the kernel any more. -/
def niirs5Finish (s : Sensor) (sc : Scenario) (atm : Atm) (m : NiirsMid) (otf : List OTFRow) :
    Except PyErr Metrics := do
  let slant := niirsSlantRange sc
  let df := axisStep (freqAxis 101 m.cutoff)
  let ifovX ← Scal.div (.py s.pX) (.py s.f)
  let ifovY ← Scal.div (.py s.pY) (.py s.f)
  let gsdX := ifovX.val * slant
  let (rer0, rer90) ← giqe5RER (otf.map fun r => r.system.map XR.abs) df ifovX.val ifovY.val
  let nadir ← nadirAngle (.py 0) (.py sc.altitude) (.np slant)
  let elev := .fin (Real.pi / 2) - nadir
  let snr := XR.sqrt s.frameStacks * m.snr.snr
  let (niirs, gsdW, rer) ← giqe5 rer0 rer90 gsdX (.np snr) elev
  .ok {
    slantRange := slant, atm := atm, tgtRadiance := m.tgtRadiance, bkgRadiance := m.bkgRadiance
    radianceWavelengths := m.wl, snr := m.snr, pathNoise := m.pathNoise, sceneNoise := m.sceneNoise
    mtfWavelengths := m.mtfWavelengths, mtfWeights := m.mtfWeights, cutoffFrequency := m.cutoff
    df := df, otf := otf, ifovX := ifovX.val, ifovY := ifovY.val, gsdX := gsdX, niirs := niirs
    elevAngle := elev, giqe34 := none, giqe5 := some (rer0, rer90, gsdW, rer) }

/-- The call of `common_OTFs`, `metrics/functional.py`:393-402, 555-564, when both reads of the kernel give `kernel`. -/
def niirsGrid (env : Env) (s : Sensor) (sc : Scenario) (m : NiirsMid) (kernel : Kernel) : Except PyErr (List OTFRow) :=
  gridOTFs env 101 { s with filterKernel := kernel } sc m.cutoff m.mtfWavelengths m.mtfWeights (niirsSlantRange sc) m.snr.intTime

/-- A call in progress: about to make the named access. `five` tells `niirs5` from `niirs`. -/
inductive NiirsThread where
  /-- the call, up to the OTFs; no access to the kernel. `metrics/functional.py`:296-391, 457-552 -/
  | start (five : Bool) (sc : Scenario) (interp : Bool)
  /-- `sensor.filter_kernel = np.array([1])`, `metrics/functional.py`:554 -/
  | reset (sc : Scenario) (atm : Atm) (m : NiirsMid)
  /-- `if sensor.filter_kernel.shape[0] > 1`, `otf/functional.py`:1402 -/
  | check (five : Bool) (sc : Scenario) (atm : Atm) (m : NiirsMid)
  /-- `filter_OTF(uu, vv, sensor.filter_kernel, ...)`, `otf/functional.py`:1404 -/
  | use (five : Bool) (sc : Scenario) (atm : Atm) (m : NiirsMid)
  /-- `noise.noise_gain(sensor.filter_kernel)`, `metrics/functional.py`:412 -/
  | gain (sc : Scenario) (atm : Atm) (m : NiirsMid) (otf : List OTFRow)
  /-- the call has returned or raised -/
  | done (r : Except PyErr Metrics)

/-- After the OTFs: `niirs` goes on to read the kernel once more, `niirs5` does not.
(`metrics/functional.py`:403-412, 566-583) -/
def NiirsThread.afterOTFs (s : Sensor) (five : Bool) (sc : Scenario) (atm : Atm) (m : NiirsMid) :
    Except PyErr (List OTFRow) → NiirsThread
  | .error e => .done (.error e)
  | .ok otf => if five then .done (niirs5Finish s sc atm m otf) else .gain sc atm m otf

/-- One access by a call to the kernel of the shared sensor `s`, whose present value is `kernel`. The 2-D transform of the
1-D array that `niirs5` assigns fails with `numpy.AxisError`, a subclass of `IndexError`: this is reached only when the kernel
has been reset between the two reads in `common_OTFs`, after the other component OTFs and `sensor.p_x / sensor.f` have been
computed. (`metrics/functional.py`:278-583, `otf/functional.py`:522, 1401-1406) -/
def NiirsThread.step (env : Env) (s : Sensor) (kernel : Kernel) : NiirsThread → Kernel × NiirsThread
  | .start five sc interp =>
    (kernel, match niirsAtm env s sc interp with
      | .error e => .done (.error e)
      | .ok atm =>
        match niirsMid s atm with
        | .error e => .done (.error e)
        | .ok m => if five then .reset sc atm m else .check five sc atm m)
  | .reset sc atm m => ([[1]], .check true sc atm m)
  | .check five sc atm m =>
    (kernel, if 1 < kernel.length then .use five sc atm m
      else NiirsThread.afterOTFs s five sc atm m (niirsGrid env s sc m kernel))
  | .use five sc atm m =>
    (kernel, if 1 < kernel.length then NiirsThread.afterOTFs s five sc atm m (niirsGrid env s sc m kernel)
      else .done (do
        let _ ← niirsGrid env s sc m kernel
        let _ ← Scal.div (.py s.pX) (.py s.f)
        .error .indexError))
  | .gain sc atm m otf => (kernel, .done (niirsFinish s sc atm m otf kernel))
  | .done r => (kernel, .done r)

/-- The kernel of the shared sensor and the calls in progress, numbered by the naturals. (clients of
`metrics/functional.py`:278-583) -/
structure SharedKernel where
  kernel : Kernel
  threads : ℕ → NiirsThread

/-- Thread `i` makes one access. (clients of `metrics/functional.py`:278-583) -/
def SharedKernel.step (env : Env) (s : Sensor) (σ : SharedKernel) (i : ℕ) : SharedKernel where
  kernel := ((σ.threads i).step env s σ.kernel).1
  threads := Function.update σ.threads i ((σ.threads i).step env s σ.kernel).2

/-- Run a schedule: the list says which thread moves next. (clients of `metrics/functional.py`:278-583) -/
def SharedKernel.run (env : Env) (s : Sensor) (σ : SharedKernel) : List ℕ → SharedKernel
  | [] => σ
  | i :: is => (σ.step env s i).run env s is

end PyBSM
