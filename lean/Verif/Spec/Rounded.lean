import Verif.Spec.Imaging
import Verif.Model.Rounded

/-!
# Vocabulary for C93: the computations of a camera in floating-point arithmetic
-/

noncomputable section

namespace PyBSM.Spec

/-- Nonnegative optics, detector and spectra, and wavelengths in order: what every real camera has. -/
structure RealSensor.Regular (s : RealSensor) (n : ℕ) (wl : ℕ → ℝ) : Prop where
  usable : s.Usable
  aperture : 0 < s.D
  focal : 0 ≤ s.f
  width : 0 ≤ s.wX
  height : 0 ≤ s.wY
  dark : 0 ≤ s.darkCurrent
  time : 0 ≤ s.intTime
  stages : 0 ≤ s.nTdi
  well : 0 < s.maxN
  fill : 0 ≤ s.maxWellFill
  bits : 0 < s.bitDepth
  positive : ∀ i < n, 0 < wl i
  increasing : ∀ i, i + 1 < n → wl i ≤ wl (i + 1)
  transmission : ∀ i < n, 0 ≤ s.transAt (wl i)
  efficiency : ∀ i < n, 0 ≤ tableAt s.qe (wl i)
  emission : ∀ i < n, 0 ≤ s.selfAt (wl i)

/-- The computations that give the spectra of the camera: transmission, quantum efficiency and self-emission at each
wavelength. -/
structure Spectra where
  transmission : ℕ → Expr
  efficiency : ℕ → Expr
  emission : ℕ → Expr

/-- Spectra known up to `j` roundings, however they were computed. -/
def RealSensor.given (s : RealSensor) (j : ℕ) (wl : ℕ → ℝ) : Spectra where
  transmission i := .approx (s.transAt (wl i)) j
  efficiency i := .approx (tableAt s.qe (wl i)) j
  emission i := .approx (s.selfAt (wl i)) j

/-- The detection rate for the scene radiance `L`. -/
def RealSensor.rateExpr (s : RealSensor) (order : SumTree) (S : Spectra) (wl : ℕ → ℝ) (L : ℕ → Expr) : Expr :=
  signalRateExpr order s.D s.f s.wX s.wY s.darkCurrent wl L S.transmission S.efficiency S.emission

/-- The count of the scene `L` in the nominal exposure. -/
def RealSensor.nominalExpr (s : RealSensor) (order : SumTree) (S : Spectra) (wl : ℕ → ℝ) (L : ℕ → Expr) : Expr :=
  countExpr s.intTime s.nTdi (s.rateExpr order S wl L)

/-- The factor by which the exposure is cut for the scenes `L` and `M`. -/
def RealSensor.scaleExpr (s : RealSensor) (order : SumTree) (S : Spectra) (wl : ℕ → ℝ) (L M : ℕ → Expr) : Expr :=
  PyBSM.scaleExpr s.maxWellFill s.maxN (s.nominalExpr order S wl L) (s.nominalExpr order S wl M)

/-- The exposure used. -/
def RealSensor.exposureExpr (s : RealSensor) (order : SumTree) (S : Spectra) (wl : ℕ → ℝ) (L M : ℕ → Expr) : Expr :=
  .mul (s.scaleExpr order S wl L M) (.val s.intTime)

/-- The count of the target `L` in the exposure used, against the background `M`. -/
def RealSensor.targetExpr (s : RealSensor) (order : SumTree) (S : Spectra) (wl : ℕ → ℝ) (L M : ℕ → Expr) : Expr :=
  .mul (s.scaleExpr order S wl L M) (s.nominalExpr order S wl L)

/-- The count of the background `M` in the exposure used, with the target `L`. -/
def RealSensor.backgroundExpr (s : RealSensor) (order : SumTree) (S : Spectra) (wl : ℕ → ℝ) (L M : ℕ → Expr) : Expr :=
  .mul (s.scaleExpr order S wl L M) (s.nominalExpr order S wl M)

/-- The total noise; the other noise contributions are added in the order `order'`. -/
def RealSensor.noiseExpr (s : RealSensor) (order order' : SumTree) (S : Spectra) (wl : ℕ → ℝ) (L M : ℕ → Expr) : Expr :=
  PyBSM.noiseExpr order' s.maxN s.bitDepth s.readNoise (fun i => s.otherNoise.getD i 0)
    (s.targetExpr order S wl L M) (s.backgroundExpr order S wl L M)

/-- What `photon_detector_SNR` computes in floating-point arithmetic (`S`, `L`, `M`: its spectra) is within the fraction
`ε` of what it computes in exact arithmetic for the spectra `l` and `m`: exposure, counts and noise relative to themselves,
the signal-to-noise ratio relative to that of both counts together. -/
def RealSensor.AccurateTo (s : RealSensor) (u ε : ℝ) (n : ℕ) (wl : ℕ → ℝ) (order order' : SumTree) (S : Spectra)
    (L M : ℕ → Expr) (l m : ℕ → ℝ) : Prop :=
  ∃ (R : SNRMetrics) (τ T B N : ℝ), photonDetectorSNR s.toSensor (vec n wl) (vec n l) (vec n m) = .ok R
    ∧ R.intTime = .fin τ ∧ R.tgtN = .fin T ∧ R.bkgN = .fin B ∧ R.totalNoise = .fin N ∧ R.snr = .fin ((T - B) / N)
    ∧ 0 ≤ T ∧ 0 ≤ B ∧ 0 < N
    ∧ (∀ r, (s.exposureExpr order S wl L M).Computed u r → |r - τ| ≤ ε * τ)
    ∧ (∀ r, (s.targetExpr order S wl L M).Computed u r → |r - T| ≤ ε * T)
    ∧ (∀ r, (s.backgroundExpr order S wl L M).Computed u r → |r - B| ≤ ε * B)
    ∧ (∀ r, (s.noiseExpr order order' S wl L M).Computed u r → |r - N| ≤ ε * N)
    ∧ ∀ r, SnrComputed u (s.targetExpr order S wl L M) (s.backgroundExpr order S wl L M)
          (s.noiseExpr order order' S wl L M) r →
        |r - (T - B) / N| ≤ ε * ((T + B) / N)

/-- The spectra as `photon_detector_SNR` computes them from the tables and temperatures of the sensor. -/
def RealSensor.computed (s : RealSensor) (wl : ℕ → ℝ) : Spectra where
  transmission i := transExpr s.coldFilterTransmission s.eta s.transmission (wl i)
  efficiency i := interpExpr (wl i) s.qe
  emission i := .add (.add (shieldExpr (wl i) s.coldShieldTemperature s.D s.f)
      (opticsExpr (wl i) s.opticsTemperature s.opticsEmissivity s.coldFilterTransmission s.D s.f))
    (stopExpr (wl i) s.coldFilterTemperature s.coldFilterEmissivity s.D s.f)

/-- The exponent of Planck's law. -/
def planckArg (lam T : ℝ) : ℝ := planckH * lightC / (lam * boltzmannK * T)

/-- Rounding errors in the Planck function at this wavelength and temperature: at most `k` (many at short wavelengths and
low temperatures, where the exponential is huge, and in the Rayleigh-Jeans limit, where it is hardly above one). -/
def PlanckWithin (k : ℕ) (lam T : ℝ) : Prop := 56 * planckArg lam T + 132 + 16 / planckArg lam T ≤ k

/-- A table of positive values whose neighbours do not differ much compared to the smaller of them. -/
def GentleTable (c : ℕ) (tbl : List (ℝ × ℝ)) : Prop :=
  (∀ p ∈ tbl, 0 < p.2) ∧ tbl.IsChain fun p q => 20 * (|q.2 - p.2| / min p.2 q.2) ≤ (c : ℝ)

end PyBSM.Spec
