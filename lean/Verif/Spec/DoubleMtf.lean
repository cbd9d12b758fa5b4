import Verif.Model.DoubleMtf
import Verif.Spec.DoubleOtf
import Verif.Spec.Turbulence

/-!
# Specification of the mathematical library and of ordinary systems (C118)
-/

noncomputable section

namespace PyBSM.Spec

/-- A mathematical library whose results have a relative error of at most `10^-15` (four units in the last place). -/
structure MathLibrary (L : MathLib) : Prop where
  trig : TrigLibrary L.sq L.acos L.sin L.tan L.atan
  exp : ∀ x, |L.exp x - Real.exp x| ≤ 1e-15 * Real.exp x
  pow : ∀ x y, 0 ≤ x → |L.pow x y - x ^ y| ≤ 1e-15 * x ^ y

/-- A number of an ordinary size: between `10^-30` and `10^30`. -/
def Ordinary (x : ℝ) : Prop := 1e-30 ≤ x ∧ x ≤ 1e30

/-- The turbulence of a scene at wavelength `l` and a radial frequency `rho`, for an aperture `D` and a coherence diameter `r`:
the frequency is zero, or of an ordinary size in units of `r / l` and at most three times the cutoff `D / l`. -/
def OrdinaryTurbulence (l D r rho : ℝ) : Prop :=
  0 < l ∧ 0 < D ∧ 0 < r ∧ (rho = 0 ∨ Ordinary (l * rho / r) ∧ Ordinary (l * rho / D) ∧ l * rho / D ≤ 3)

/-- The MTF of wavefront errors at wavelength `l`. -/
def wavefrontMtf (s : RealSensor) (l u v : ℝ) : ℝ :=
  Real.exp (-(s.pv * (s.pvWavelength / l) ^ 2 * (1 - Real.exp (-(l ^ 2 * ((u / s.lX) ^ 2 + (v / s.lY) ^ 2))))))

/-- The system MTF at the frequencies `(u, v)` for exposure time `t`, aircraft speed `vel`, ground turbulence `cn2` and a
coherence diameter `r` at each wavelength. -/
def systemAt (s : RealSensor) (pairs : List (ℝ × ℝ)) (cn2 vel t : ℝ) (r : ℝ → ℝ) (u v : ℝ) : ℝ :=
  apertureAt s pairs u v * (open Classical in if 0 < cn2 then wmean pairs fun l => turbMix l s.D (r l) (t * s.nTdi) vel u v else 1)
    * detectorAt s u v * jitterAt s u v * driftAt s t u v * wavefrontAt s pairs u v

/-- An ordinary system at the frequencies `(u, v)`: a band of at most 2000 wavelengths, added up by a procedure that needs
at most 2000 rounds, no obscuration or one between 0.001 and 0.9, a phase variance of at most 100, turbulence of an ordinary
size. The frequency is not the one at which the program misjudges the obscuration (C117). -/
structure OrdinarySystem (s : RealSensor) (order : SumTree) (pairs : List (ℝ × ℝ)) (cn2 vel t : ℝ) (r : ℝ → ℝ) (u v : ℝ) : Prop where
  band : Band pairs
  few : pairs.length ≤ 2000
  adds : order.leaves.Perm (List.range pairs.length)
  rounds : order.depth ≤ 2000
  aperture : 0 < s.D
  focal : s.f ≠ 0
  obscuration : s.eta = 0 ∨ 1e-3 ≤ s.eta ∧ s.eta ≤ 0.9
    ∧ ∀ p ∈ pairs, 1e-11 < |Real.sqrt (u ^ 2 + v ^ 2) / (s.D / p.1) - (1 - s.eta) / 2|
  phase : 0 ≤ s.pv ∧ ∀ p ∈ pairs, s.pv * (s.pvWavelength / p.1) ^ 2 ≤ 100
  turbulence : 0 < cn2 → 0 ≤ vel ∧ 0 ≤ t * s.nTdi
    ∧ ∀ p ∈ pairs, OrdinaryTurbulence p.1 s.D (r p.1) (Real.sqrt (u ^ 2 + v ^ 2))

end PyBSM.Spec
