import Verif.Spec.Rounded
import Verif.Model.Ieee

/-!
# Vocabulary for C105: cameras and scenes within the range of double precision
-/

noncomputable section

namespace PyBSM.Spec

/-- Between two powers of two. -/
def PowerRange (a b : ℤ) (x : ℝ) : Prop := (2 : ℝ) ^ a ≤ x ∧ x ≤ (2 : ℝ) ^ b

/-- Zero, or between two powers of two. -/
def ZeroOr (a b : ℤ) (x : ℝ) : Prop := x = 0 ∨ PowerRange a b x

/-- Equal, or at least `2^a` apart. Doubles from `2^(a+53)` on are that far apart (`spaced_of_binary64`). -/
def Spaced (a : ℤ) (x y : ℝ) : Prop := x = y ∨ (2 : ℝ) ^ a ≤ |x - y|

/-- A temperature from 1 K to 16384 K whose Planck exponent `h c / (λ k T)` is at most 515: the exponential is far from
overflow (at 0.4 µm: from 69.9 K on). -/
def Warm (lam T : ℝ) : Prop := 1 ≤ T ∧ T ≤ 16384 ∧ planckArg lam T ≤ 515

/-- A table with arguments from 1e-12 to 1 and values from 1e-9 to 1, spaced as doubles are. -/
def PlainTable (tbl : List (ℝ × ℝ)) : Prop :=
  ∀ p ∈ tbl, PowerRange (-40) 0 p.1 ∧ PowerRange (-30) 0 p.2 ∧ ∀ q ∈ tbl, Spaced (-100) p.1 q.1 ∧ Spaced (-100) p.2 q.2

/-- A camera whose numbers are not absurd. -/
structure RealSensor.Ordinary (s : RealSensor) (n : ℕ) (wl : ℕ → ℝ) : Prop where
  /-- 1 µm to 1 km -/
  aperture : PowerRange (-20) 10 s.D
  /-- an f-number up to 128 -/
  focal : s.f ≤ 128 * s.D
  /-- 1 nm to 1.5 cm -/
  width : PowerRange (-30) (-6) s.wX
  height : PowerRange (-30) (-6) s.wY
  dark : ZeroOr (-100) 100 s.darkCurrent
  /-- 1 ns to 1024 s -/
  time : PowerRange (-30) 10 s.intTime
  stages : PowerRange 0 10 s.nTdi
  /-- up to 1e18 electrons -/
  well : PowerRange 0 60 s.maxN
  fill : PowerRange (-20) 0 s.maxWellFill
  bits : 1 ≤ s.bitDepth ∧ s.bitDepth ≤ 64
  read : ZeroOr (-100) 50 |s.readNoise|
  other : s.otherNoise.length ≤ 2 ^ 11 ∧ ∀ i, ZeroOr (-100) 50 |s.otherNoise.getD i 0|
  obscuration : ZeroOr (-100) 0 |s.eta| ∧ (2 : ℝ) ^ (-10 : ℤ) ≤ 1 - s.eta ^ 2
  coldFilter : ZeroOr (-20) 0 s.coldFilterTransmission
  opticsEmissivity : ZeroOr (-30) 0 s.opticsEmissivity
  filterEmissivity : ZeroOr (-30) 0 s.coldFilterEmissivity
  samples : n ≤ 2 ^ 11
  /-- 0.24 µm to 15 µm -/
  wavelengths : ∀ i < n, PowerRange (-22) (-16) (wl i)
  steps : ∀ i, i + 1 < n → Spaced (-75) (wl (i + 1)) (wl i)
  offTable : ∀ i < n, ∀ p ∈ s.transmission ++ s.qe, Spaced (-100) (wl i) p.1
  temperatures : ∀ i < n, Warm (wl i) s.coldShieldTemperature ∧ Warm (wl i) s.opticsTemperature
    ∧ Warm (wl i) s.coldFilterTemperature
  transmission : PlainTable s.transmission
  efficiency : PlainTable s.qe

/-- An atmosphere row whose numbers are zero or between 1e-45 and 1e12. -/
def PlainRow (a : Fin 6 → ℝ) : Prop :=
  ZeroOr (-149) 0 (a 1) ∧ ZeroOr (-149) 40 (a 2) ∧ ZeroOr (-149) 40 (a 4) ∧ ZeroOr (-149) 40 (a 5)

/-- A reflectance `ρ` such that `ρ` and `1 - ρ` are zero or at least 1e-18. -/
def PlainReflectance (ρ : ℝ) : Prop := ZeroOr (-60) 0 ρ ∧ ZeroOr (-60) 0 (1 - ρ)

/-- What `photon_detector_SNR` computes in double precision with the rounding `fl` (`S`, `L`, `M`: its spectra): every result
is finite and within the fraction `ε` of what it computes in exact arithmetic for the spectra `l` and `m`; the
signal-to-noise ratio relative to that of both counts together, up to half of the smallest double. -/
def RealSensor.AccurateIeee (s : RealSensor) (fl : ℝ → XR) (ε : ℝ) (n : ℕ) (wl : ℕ → ℝ) (order order' : SumTree) (S : Spectra)
    (L M : ℕ → Expr) (l m : ℕ → ℝ) : Prop :=
  ∃ (R : SNRMetrics) (τ T B N : ℝ), photonDetectorSNR s.toSensor (vec n wl) (vec n l) (vec n m) = .ok R
    ∧ R.intTime = .fin τ ∧ R.tgtN = .fin T ∧ R.bkgN = .fin B ∧ R.totalNoise = .fin N ∧ R.snr = .fin ((T - B) / N)
    ∧ 0 ≤ T ∧ 0 ≤ B ∧ 0 < N
    ∧ (∃ r, (s.exposureExpr order S wl L M).ieee fl = .fin r ∧ |r - τ| ≤ ε * τ)
    ∧ (∃ r, (s.targetExpr order S wl L M).ieee fl = .fin r ∧ |r - T| ≤ ε * T)
    ∧ (∃ r, (s.backgroundExpr order S wl L M).ieee fl = .fin r ∧ |r - B| ≤ ε * B)
    ∧ (∃ r, (s.noiseExpr order order' S wl L M).ieee fl = .fin r ∧ |r - N| ≤ ε * N)
    ∧ ∃ r, snrIeee fl (s.targetExpr order S wl L M) (s.backgroundExpr order S wl L M)
          (s.noiseExpr order order' S wl L M) = .fin r
        ∧ |r - (T - B) / N| ≤ ε * ((T + B) / N) + (2 : ℝ) ^ (-1075 : ℤ)

end PyBSM.Spec
