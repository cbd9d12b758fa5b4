import Verif.Model.OtfImage

/-!
# Model of `src/pybsm/metrics/functional.py`
-/

noncomputable section

open Classical

namespace PyBSM

/-- `giqe3`, `metrics/functional.py`:49-75 (line 72).  Scalar divisions in the order of the code. -/
def giqe3 (rer gsd eho ng snr : Scal) : Except PyErr XR := do
  let g ← gsd.div (.py 0.0254)
  let q ← rer.div g
  let n ← ng.div snr
  .ok (11.81 + 3.32 * q.val.log10 - 1.48 * eho.val - n.val)

/-- `giqe4`, `metrics/functional.py`:78-122: `(niirs, gsd_gp)`.  `np.sin(..) ** 0.5` is a numpy
scalar. -/
def giqe4 (rer gsd eho ng snr : Scal) (elevAngle : XR) : Except PyErr (XR × XR) := do
  let (c1, c2) : XR × XR := if XR.le 0.9 rer.val then (3.32, 1.559) else (3.16, 2.817)
  let gsdGp := gsd.val / elevAngle.sin.rpow 0.5
  let n ← (Scal.py 0.334 * ng).div snr
  .ok (10.251 - c1 * (gsdGp / 0.0254).log10 + c2 * rer.val.log10 - 0.656 * eho.val - n.val,
    gsdGp)

/-- `giqe5`, `metrics/functional.py`:125-176: `(niirs, gsd_w, rer)`. -/
def giqe5 (rer1 rer2 gsd : XR) (snr : Scal) (elevAngle : XR) : Except PyErr (XR × XR × XR) := do
  let gsdW := gsd / elevAngle.sin.rpow 0.25
  let rer := (XR.max rer1 rer2 * XR.min rer1 rer2 ^ 2).rpow (1 / 3)
  let a ← (Scal.py (-(1.9 : XR))).div snr
  let b ← (Scal.py 1.8).div snr
  .ok (9.57 - 3.32 * (gsdW / 0.0254).log10 + 3.32 * (1 - a.val.exp) * rer.log10
    - 2 * rer.log10 ^ 4 - b.val, gsdW, rer)

/-- `edge_response`, `metrics/functional.py`:646-673. -/
def edgeResponse (pixelPos : XR) (mtf : List XR) (df ifov : XR) : Except PyErr XR := do
  let w := (List.range mtf.length).map fun (i : ℕ) => df * .fin i + 1e-6
  let y := List.zipWith (fun m w => (m / w) * (2 * .fin Real.pi * w * ifov * pixelPos).sin) mtf w
  let t ← trapz y w
  .ok (0.5 + (1 / .fin Real.pi) * t)

/-- `relative_edge_response`, `metrics/functional.py`:586-605. -/
def relativeEdgeResponse (mtf : List XR) (df ifov : XR) : Except PyErr XR := do
  let a ← edgeResponse 0.5 mtf df ifov
  let b ← edgeResponse (-(0.5 : XR)) mtf df ifov
  .ok (a - b)

/-- `edge_height_overshoot`, `metrics/functional.py`:608-643; `np.arange(1.0, 3.25, 0.25)` has the
nine values 1, 1.25, ..., 3. -/
def edgeHeightOvershoot (mtf : List XR) (df ifov : XR) : Except PyErr XR := do
  let rng : List XR := (List.range 9).map fun (i : ℕ) => .fin (1 + i * 0.25)
  let er ← rng.mapM fun d => edgeResponse d mtf df ifov
  if ∀ d ∈ diff er, XR.lt 0 d then
    match er[1]? with
    | some e => .ok e
    | none => .error .indexError
  else amax er

/-- `giqe5_RER`, `metrics/functional.py`:179-207: `(rer_0, rer_90)`. -/
def giqe5RER (mtf : List (List XR)) (df ifovX ifovY : XR) : Except PyErr (XR × XR) := do
  let u ← sliceOtf mtf 0
  let v ← sliceOtf mtf (Real.pi / 2)
  let a ← relativeEdgeResponse u df ifovX
  let b ← relativeEdgeResponse v df ifovY
  .ok (a, b)

/-- `giqe_edge_terms`, `metrics/functional.py`:210-242: `(rer, eho)`. -/
def giqeEdgeTerms (mtf : List (List XR)) (df ifovX ifovY : XR) : Except PyErr (XR × XR) := do
  let u ← sliceOtf mtf 0
  let v ← sliceOtf mtf (Real.pi / 2)
  let uRer ← relativeEdgeResponse u df ifovX
  let vRer ← relativeEdgeResponse v df ifovY
  let uEho ← edgeHeightOvershoot u df ifovX
  let vEho ← edgeHeightOvershoot v df ifovY
  .ok (XR.sqrt (uRer * vRer), XR.sqrt (uEho * vEho))

/-- `ground_resolved_distance`, `metrics/functional.py`:245-275; `np.interp` without `left`/`right`
clamps to the end values and expects an increasing table, i.e. a decreasing MTF slice. -/
def groundResolvedDistance (mtf : List XR) (df : XR) (snr : Scal) (ifov slantRange : XR) :
    Except PyErr XR := do
  let w := (List.range mtf.length).map fun (i : ℕ) => df * .fin i
  let q ← (Scal.py 3).div snr
  let fp := w.reverse
  let u ← npInterp [q.val] mtf.reverse fp (fp.headD .nan) (fp.getLastD .nan)
  let uR := u.headD .nan + 1e-12
  amax [slantRange * (1 / uR), slantRange * (2 * ifov)]

/-- The attributes of a `Metrics` object filled in by `niirs` / `niirs5`, `metrics/metrics.py`:1-63. -/
structure Metrics where
  slantRange : XR
  atm : Atm
  tgtRadiance : List XR
  bkgRadiance : List XR
  radianceWavelengths : List XR
  snr : SNRMetrics
  pathNoise : XR
  sceneNoise : XR
  mtfWavelengths : List XR
  mtfWeights : List XR
  cutoffFrequency : XR
  df : XR
  otf : List OTFRow
  ifovX : XR
  ifovY : XR
  gsdX : XR
  /-- `niirs` of `niirs()` (GIQE 3) or of `niirs5()` (GIQE 5) -/
  niirs : XR
  elevAngle : XR
  /-- only `niirs()`: `gsd_y`, `gsd_gm`, `rer_gm`, `eho_gm`, `ng`, `niirs_4`, `gsd_gp` -/
  giqe34 : Option (XR × XR × XR × XR × XR × XR × XR)
  /-- only `niirs5()`: `rer_0`, `rer_90`, `gsd_w`, `rer` -/
  giqe5 : Option (XR × XR × XR × XR)

/-- What the code cannot see of the outside world: the data files and the diagonal choices of the
triangulation inside `scipy.interpolate.griddata`. (`utils.py`:94-100, `otf/functional.py`:541-547) -/
structure Env where
  files : Files
  diag : ℕ → ℕ → Bool

/-- Loading and cropping the atmosphere, the slant range, `metrics/functional.py`:302-308 and
463-469: the cropped atmosphere. -/
def niirsAtm (env : Env) (s : Sensor) (sc : Scenario) (interp : Bool) : Except PyErr Atm := do
  let atm ← if interp then loadInterp env.files sc.altitude sc.groundRange sc.ihaze
    else loadNoInterp env.files sc.altitude sc.groundRange sc.ihaze
  bandCrop s atm

/-- `sensor.opt_trans_wavelengths[0] >= 2.9e-6`, `metrics/functional.py`:310, 471. -/
def isEmissiveBand (s : Sensor) : Prop :=
  match s.optTransWavelengths with
  | [] => False
  | l :: _ => XR.le 2.9e-6 l

/-- The bookkeeping assignments on the caller's scenario, `metrics/functional.py`:310-323 and
471-484 (note the double assignment of `target_temperature`). -/
def niirsBookkeeping (s : Sensor) (sc : Scenario) : Scenario :=
  if isEmissiveBand s then
    { sc with targetReflectance := 0, backgroundReflectance := 0,
              targetTemperature := 280 }
  else { sc with targetReflectance := 0.15, backgroundReflectance := 0.07 }

/-- What is computed between the bookkeeping and the OTFs, `metrics/functional.py`:325-384 and
486-545. -/
structure NiirsMid where
  tgtRadiance : List XR
  bkgRadiance : List XR
  wl : List XR
  snr : SNRMetrics
  pathNoise : XR
  sceneNoise : XR
  mtfWavelengths : List XR
  mtfWeights : List XR
  cutoff : XR

/-- Photon noise of one radiance, `metrics/functional.py`:336-363: square root of the integrated
detection rate of `irradiance - other_irradiance`. -/
def photonNoise (s : Sensor) (snr : SNRMetrics) (wl irr : List XR) : Except PyErr XR := do
  let e ← bc2 (· - ·) irr snr.otherIrradiance
  let r ← photonDetectionRate e s.wX s.wY wl snr.qe
  let t ← trapz r wl
  .ok (XR.sqrt (t * snr.intTime * s.nTdi))

/-- SNR and noise break-out, `metrics/functional.py`:325-384 and 486-545. -/
def niirsMid (s : Sensor) (atm : Atm) : Except PyErr NiirsMid := do
  let (tgt, bkg) := giqeRadiance atm (isEmissiveBand s)
  let wl := atm.map (· 0)
  let snr ← photonDetectorSNR s wl tgt bkg
  let tgtNoise ← photonNoise s snr wl snr.tgtFPAIrradiance
  let bkgNoise ← photonNoise s snr wl snr.bkgFPAIrradiance
  let scenePath := XR.max tgtNoise bkgNoise
  let (scatter, _, _) ← signalRate wl (atm.map fun r => r 2 + r 4) snr.optTrans (.py s.D) (.py s.f)
    s.wX s.wY snr.qe [0] 0
  let pathNoise := XR.sqrt (scatter * snr.intTime * s.nTdi)
  let sceneNoise := XR.sqrt (scenePath ^ 2 - pathNoise ^ 2)
  let keep := (wl.zip snr.weights).filter (fun p => XR.lt 0 p.2)
  let mtfWl := keep.map (·.1)
  let mn ← amin mtfWl
  .ok { tgtRadiance := tgt, bkgRadiance := bkg, wl := wl, snr := snr, pathNoise := pathNoise
        sceneNoise := sceneNoise, mtfWavelengths := mtfWl, mtfWeights := keep.map (·.2)
        cutoff := s.D / mn }

/-- The frequency axis `np.linspace(-1, 1, n) * cutoff`, `metrics/functional.py`:388,
`simulation/functional.py`:210. -/
def freqAxis (n : ℕ) (cutoff : XR) : List XR := (linspace (-1) 1 n).map (· * cutoff)

/-- `common_OTFs` on the meshgrid of `freqAxis n` (columns) and its negation (rows, since
`np.linspace(1, -1, n)`), `metrics/functional.py`:387-402, `simulation/functional.py`:208-225. -/
def gridOTFs (env : Env) (n : ℕ) (s : Sensor) (sc : Scenario) (cutoff : XR) (wl weights : List XR)
    (slantRange intTime : XR) : Except PyErr (List OTFRow) :=
  ((linspace 1 (-1) n).map (· * cutoff)).mapM fun v =>
    commonOTFs env.diag s sc (freqAxis n cutoff) (List.replicate n v) wl weights (.np slantRange) intTime

/-- `u_rng[1] - u_rng[0]`, `metrics/functional.py`:391. -/
def axisStep (axis : List XR) : XR := axis.getD 1 .nan - axis.getD 0 .nan

/-- `nm.slant_range`, `metrics/functional.py`:298, 459. -/
def niirsSlantRange (sc : Scenario) : XR := curvedEarthSlantRange 0 sc.altitude sc.groundRange

/-- The GIQE 3/4 part of `niirs` after the SNR calculation, `metrics/functional.py`:386-435. -/
def niirsTail (env : Env) (s : Sensor) (sc : Scenario) (atm : Atm) (m : NiirsMid) :
    Except PyErr Metrics := do
  let slant := niirsSlantRange sc
  let df := axisStep (freqAxis 101 m.cutoff)
  let otf ← gridOTFs env 101 s sc m.cutoff m.mtfWavelengths m.mtfWeights slant m.snr.intTime
  let ifovX ← Scal.div (.py s.pX) (.py s.f)
  let ifovY ← Scal.div (.py s.pY) (.py s.f)
  let gsdX := ifovX.val * slant
  let gsdY := ifovY.val * slant
  let gsdGm := XR.sqrt (gsdX * gsdY)
  let (rer, eho) ← giqeEdgeTerms (otf.map fun r => r.system.map XR.abs) df ifovX.val ifovY.val
  let ng ← noiseGain s.filterKernel
  let snr := XR.sqrt s.frameStacks * m.snr.snr
  let niirs3 ← giqe3 (.np rer) (.np gsdGm) (.np eho) (.np ng) (.np snr)
  let nadir ← nadirAngle (.py 0) (.py sc.altitude) (.np slant)
  let elev := .fin (Real.pi / 2) - nadir
  let (niirs4, gsdGp) ← giqe4 (.np rer) (.np gsdGm) (.np eho) (.np ng) (.np snr) elev
  .ok {
    slantRange := slant, atm := atm, tgtRadiance := m.tgtRadiance, bkgRadiance := m.bkgRadiance
    radianceWavelengths := m.wl, snr := m.snr, pathNoise := m.pathNoise, sceneNoise := m.sceneNoise
    mtfWavelengths := m.mtfWavelengths, mtfWeights := m.mtfWeights, cutoffFrequency := m.cutoff
    df := df, otf := otf, ifovX := ifovX.val, ifovY := ifovY.val, gsdX := gsdX, niirs := niirs3
    elevAngle := elev, giqe34 := some (gsdY, gsdGm, rer, eho, ng, niirs4, gsdGp), giqe5 := none }

/-- The GIQE 5 part of `niirs5` after the SNR calculation, `metrics/functional.py`:547-583 (the
sensor passed in already has its kernel reset). -/
def niirs5Tail (env : Env) (s : Sensor) (sc : Scenario) (atm : Atm) (m : NiirsMid) :
    Except PyErr Metrics := do
  let slant := niirsSlantRange sc
  let df := axisStep (freqAxis 101 m.cutoff)
  let otf ← gridOTFs env 101 s sc m.cutoff m.mtfWavelengths m.mtfWeights slant m.snr.intTime
  let ifovX ← Scal.div (.py s.pX) (.py s.f)
  let ifovY ← Scal.div (.py s.pY) (.py s.f)
  let gsdX := ifovX.val * slant
  let (rer0, rer90) ← giqe5RER (otf.map fun r => r.system.map XR.abs) df ifovX.val ifovY.val
  let nadir ← nadirAngle (.py 0) (.py sc.altitude) (.np slant)
  let elev := .fin (Real.pi / 2) - nadir
  let snr := XR.sqrt s.frameStacks * m.snr.snr
  let (niirs, gsdW, rer) ← giqe5 rer0 rer90 gsdX (.np snr) elev
  .ok {
    slantRange := slant, atm := atm, tgtRadiance := m.tgtRadiance, bkgRadiance := m.bkgRadiance
    radianceWavelengths := m.wl, snr := m.snr, pathNoise := m.pathNoise, sceneNoise := m.sceneNoise
    mtfWavelengths := m.mtfWavelengths, mtfWeights := m.mtfWeights, cutoffFrequency := m.cutoff
    df := df, otf := otf, ifovX := ifovX.val, ifovY := ifovY.val, gsdX := gsdX, niirs := niirs
    elevAngle := elev, giqe34 := none, giqe5 := some (rer0, rer90, gsdW, rer) }

/-- `niirs`, `metrics/functional.py`:278-435: result, and the caller's sensor and scenario
afterwards (also when an exception is raised part-way). -/
def niirs (env : Env) (s : Sensor) (sc : Scenario) (interp : Bool) :
    Except PyErr Metrics × Sensor × Scenario :=
  match niirsAtm env s sc interp with
  | .error e => (.error e, s, sc)
  | .ok atm =>
    let sc := niirsBookkeeping s sc
    match niirsMid s atm with
    | .error e => (.error e, s, sc)
    | .ok m => (niirsTail env s sc atm m, s, sc)

/-- `niirs5`, `metrics/functional.py`:438-583: as `niirs`, but resets `sensor.filter_kernel`
(line 554) after the SNR calculation. -/
def niirs5 (env : Env) (s : Sensor) (sc : Scenario) (interp : Bool) :
    Except PyErr Metrics × Sensor × Scenario :=
  match niirsAtm env s sc interp with
  | .error e => (.error e, s, sc)
  | .ok atm =>
    let sc := niirsBookkeeping s sc
    match niirsMid s atm with
    | .error e => (.error e, s, sc)
    | .ok m =>
      let s := { s with filterKernel := [[1]] }
      (niirs5Tail env s sc atm m, s, sc)

end PyBSM
