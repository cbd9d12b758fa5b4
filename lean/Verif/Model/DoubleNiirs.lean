import Verif.Model.DoubleRating

/-!
# A rating with GIQE 3 and GIQE 4 in double precision

The part of `niirs` that follows the signal-to-noise ratio, with a rounding `fl` after every operation, for a sensor without a
sharpening filter (a kernel with one row leaves the OTF alone, `otf/functional.py`:1402). Parameters and simplifications are those
of `Model/DoubleRating.lean`.
-/

noncomputable section

open Classical

namespace PyBSM

/-- Entry `i` of `er` of `edge_height_overshoot`, `metrics/functional.py`:628-635. The entries of `np.arange(1.0, 3.25, 0.25)` are
multiples of a quarter, computed without error. -/
def overshootEntryD (fl sinD : ℝ → ℝ) (order : SumTree) (m : ℕ → ℝ) (df ifov : ℝ) (i : ℕ) : ℝ :=
  edgeResponseD fl sinD order (1 + i / 4) m df ifov

/-- `edge_height_overshoot`, `metrics/functional.py`:637-642: nine responses, the second of them if the rounded differences of
neighbours are all positive, else the largest. -/
def overshootD (fl sinD : ℝ → ℝ) (order : SumTree) (m : ℕ → ℝ) (df ifov : ℝ) : ℝ :=
  let er := overshootEntryD fl sinD order m df ifov
  if ∀ i < 8, 0 < fl (er (i + 1) - er i) then er 1 else ((List.range 8).map fun i => er (i + 1)).foldl max (er 0)

/-- `giqe_edge_terms` of a 101 x 101 MTF, `metrics/functional.py`:232-242. -/
def giqeEdgeTermsD (fl cosD sinD : ℝ → ℝ) (order : SumTree) (interp : (ℕ → ℕ → ℝ) → ℝ → ℝ → ℝ) (G : ℕ → ℕ → ℝ)
    (df ifovX ifovY : ℝ) : ℝ × ℝ :=
  let u := sliceD fl cosD sinD interp G 0
  let v := sliceD fl cosD sinD interp G (fl (fl Real.pi / 2))
  (fl (Real.sqrt (fl (relativeEdgeResponseD fl sinD order u df ifovX * relativeEdgeResponseD fl sinD order v df ifovY))),
    fl (Real.sqrt (fl (overshootD fl sinD order u df ifovX * overshootD fl sinD order v df ifovY))))

/-- `niirs` and `niirs_4` of `niirs`, `metrics/functional.py`:385-435, for the wavelengths and weights `pairs`, the exposure time `t` and
the signal-to-noise ratio `snr` of a frame; `order''` is the order in which the terms of an edge response are added, `orderK` that of
the taps of the kernel. -/
def niirsD (fl lgD cosD acosD : ℝ → ℝ) (L : MathLib) (interp : (ℕ → ℕ → ℝ) → ℝ → ℝ → ℝ) (order order' order'' orderK : SumTree)
    (s : Spec.RealSensor) (g : Spec.RealScene) (pairs : List (ℝ × ℝ)) (t snr : ℝ) : Except PyErr (XR × XR) :=
  let c := fl (s.D / minD (pairs.map (·.1)))
  let ifovX := fl (s.pX / s.f)
  let ifovY := fl (s.pY / s.f)
  let terms := giqeEdgeTermsD fl cosD L.sin order'' interp (mtfGridD fl cosD acosD L order order' s g pairs t c) (stepD fl c) ifovX ifovY
  match noiseGainD fl orderK s.filterKernel with
  | .error e => .error e
  | .ok ng =>
    match slantRangeD fl cosD 0 g.altitude g.groundRange with
    | .fin b =>
      let gsd := fl (Real.sqrt (fl (fl (ifovX * b) * fl (ifovY * b))))
      let snr' := fl (fl (Real.sqrt s.frameStacks) * snr)
      .ok (.fin (giqe3D fl lgD terms.1 gsd terms.2 ng snr'),
        match elevationD fl (nadirAngleD fl acosD 0 g.altitude (.fin b)) with
        | .fin e => .fin (giqe4D fl lgD L.sin L.pow terms.1 gsd terms.2 ng snr' e)
        | _ => .nan)
    | _ => .ok (.nan, .nan)

end PyBSM
