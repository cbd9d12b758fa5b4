import Verif.Spec.DoubleMtf
import Verif.Spec.Imaging
import Verif.Spec.Rounded

/-!
# Specification of two-dimensional interpolation (C120) and of ordinary ratings (C121), and
vocabulary for ratings computed from their inputs (C122)
-/

noncomputable section

open Classical

namespace PyBSM.Spec

/-- `interp` interpolates the values `G i j` on a 101 x 101 grid linearly in both directions, to twelve digits of the largest
value: column `j` is at `-1 + j/50`, row `i` at `1 - i/50`, and the point is the fraction `s` of a cell to the right of
column `j` and the fraction `t` of a cell below row `i`. -/
def Interpolates (interp : (ℕ → ℕ → ℝ) → ℝ → ℝ → ℝ) : Prop :=
  ∀ (G : ℕ → ℕ → ℝ) (M : ℝ), (∀ i j : ℕ, i ≤ 100 → j ≤ 100 → |G i j| ≤ M) →
    ∀ i j : ℕ, i < 100 → j < 100 → ∀ s t : ℝ, 0 ≤ s → s ≤ 1 → 0 ≤ t → t ≤ 1 →
      |interp G (-1 + (j + s) / 50) (1 - (i + t) / 50)
        - ((1 - t) * ((1 - s) * G i j + s * G i (j + 1)) + t * ((1 - s) * G (i + 1) j + s * G (i + 1) (j + 1)))| ≤ 1e-12 * M

/-- An ordinary rating with the wavelengths and weights `pairs`, the exposure time `t` and the cutoff frequency `c`, which is
that of the shortest wavelength: a band of at most 2000 wavelengths and at most an octave, added up by a procedure that needs
at most 2000 rounds; no obscuration, or one between 0.001 and 0.9 that is not misjudged at a frequency of a slice (C117); a
phase variance of at most 100; a line of sight off nadir; wind, turbulence and coherence diameters of ordinary sizes. -/
structure OrdinaryRating (s : RealSensor) (g : RealScene) (order : SumTree) (pairs : List (ℝ × ℝ)) (t c : ℝ) : Prop where
  band : Band pairs
  few : pairs.length ≤ 2000
  adds : order.leaves.Perm (List.range pairs.length)
  rounds : order.depth ≤ 2000
  aperture : 0 < s.D
  focal : 0 < s.f
  shortest : ∃ p ∈ pairs, c = s.D / p.1
  octave : ∀ p ∈ pairs, s.D ≤ c * p.1 ∧ c * p.1 ≤ 2 * s.D
  large : 1e-3 ≤ c
  obscuration : s.eta = 0 ∨ 1e-3 ≤ s.eta ∧ s.eta ≤ 0.9
    ∧ ∀ p ∈ pairs, ∀ k : ℕ, k < 50 → 1e-10 < |(k : ℝ) * (c / 50) / (s.D / p.1) - (1 - s.eta) / 2|
  phase : 0 ≤ s.pv ∧ ∀ p ∈ pairs, s.pv * (s.pvWavelength / p.1) ^ 2 ≤ 100
  exposed : 0 < t
  altitude : 4 ≤ g.altitude ∧ g.altitude ≤ 1000000
  range : 1 ≤ g.groundRange ∧ g.groundRange ≤ 1000000
  wind : 0 ≤ g.windSpeed ∧ g.windSpeed ≤ 1000
  ground : g.cn2 ≤ 1
  turbulence : 0 < g.cn2 → 0 ≤ g.aircraftSpeed ∧ 0 ≤ s.nTdi ∧ ∀ p ∈ pairs, Ordinary p.1
    ∧ 1e-20 ≤ s.D / fried g.altitude g.groundRange g.windSpeed g.cn2 p.1
    ∧ s.D / fried g.altitude g.groundRange g.windSpeed g.cn2 p.1 ≤ 1e20

/-- The computation of the weight of wavelength `i` for the scene radiance `L` from the spectra `S` of the camera
(`metrics/functional.py`:544-546 uses `snr.weights`, the detection rates of `radiance/functional.py`:727-736). -/
def RealSensor.weightExpr (s : RealSensor) (S : Spectra) (wl : ℕ → ℝ) (L : ℕ → Expr) (i : ℕ) : Expr :=
  detectionExpr s.wX s.wY (wl i) (S.efficiency i) (fpaExpr s.D s.f (L i) (S.transmission i) (S.emission i))

/-- The computation of the radiance of the standard target in row `a` of the atmosphere. -/
def RealSensor.targetRadianceExpr (s : RealSensor) (a : Fin 6 → ℝ) : Expr :=
  if s.Thermal then giqeRadianceExpr a 0 282 else giqeRadianceExpr a 0.15 282

/-- The computation of the radiance of the standard background in row `a` of the atmosphere. -/
def RealSensor.backgroundRadianceExpr (s : RealSensor) (a : Fin 6 → ℝ) : Expr :=
  if s.Thermal then giqeRadianceExpr a 0 280 else giqeRadianceExpr a 0.07 280

/-- `w`, `t` and `snr` are weights of the wavelengths, an exposure time and a signal-to-noise ratio that arithmetic with
relative rounding errors up to `u` may give for the camera `s` and the rows `B` of the atmosphere within its band, if the
integrals are added up in the order `order` and the other noise contributions in the order `order'`. -/
structure RadiometryComputed (u : ℝ) (order order' : SumTree) (s : RealSensor) (B : List (Fin 6 → ℝ)) (w : ℕ → ℝ) (t snr : ℝ) :
    Prop where
  weights : ∀ i < B.length, (s.weightExpr (s.computed fun i => B.getD i 0 0) (fun i => B.getD i 0 0)
    (fun i => s.targetRadianceExpr (B.getD i 0)) i).Computed u (w i)
  exposure : (s.exposureExpr order (s.computed fun i => B.getD i 0 0) (fun i => B.getD i 0 0)
    (fun i => s.targetRadianceExpr (B.getD i 0)) fun i => s.backgroundRadianceExpr (B.getD i 0)).Computed u t
  contrast : SnrComputed u
    (s.targetExpr order (s.computed fun i => B.getD i 0 0) (fun i => B.getD i 0 0)
      (fun i => s.targetRadianceExpr (B.getD i 0)) fun i => s.backgroundRadianceExpr (B.getD i 0))
    (s.backgroundExpr order (s.computed fun i => B.getD i 0 0) (fun i => B.getD i 0 0)
      (fun i => s.targetRadianceExpr (B.getD i 0)) fun i => s.backgroundRadianceExpr (B.getD i 0))
    (s.noiseExpr order order' (s.computed fun i => B.getD i 0 0) (fun i => B.getD i 0 0)
      (fun i => s.targetRadianceExpr (B.getD i 0)) fun i => s.backgroundRadianceExpr (B.getD i 0)) snr

end PyBSM.Spec
