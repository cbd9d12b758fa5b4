import Verif.Num.XR
import Verif.Spec.Numeric

/-!
# Specification: radiometry over the reals
-/

noncomputable section

namespace PyBSM.Spec

/-- Planck's constant (J s), speed of light (m/s), Boltzmann's constant (J/K), CODATA 2014. -/
def planckH : ℝ := 6.62607004e-34
@[inherit_doc planckH] def lightC : ℝ := 299792458
@[inherit_doc planckH] def boltzmannK : ℝ := 1.38064852e-23

/-- Planck's law: spectral radiance of a black body at wavelength `lam` (m) and temperature `T` (K). -/
def planck (lam T : ℝ) : ℝ :=
  2 * planckH * lightC ^ 2 / lam ^ 5 / (Real.exp (planckH * lightC / (lam * boltzmannK * T)) - 1)

/-- Irradiance behind a circular aperture of diameter `d` at distance `f` per unit radiance. -/
def apertureFactor (d f : ℝ) : ℝ := Real.pi / (1 + 4 * (f / d) ^ 2)

/-- A finite atmosphere array: entry `j` of row `i` is `A i j`. -/
def vecAtm (n : ℕ) (A : ℕ → Fin 6 → ℝ) : List (Fin 6 → XR) :=
  (List.range n).map fun (i : ℕ) (j : Fin 6) => .fin (A i j)

/-- Radiance reaching the sensor from a grey body: path thermal + transmitted emission + scattered
sunlight + reflected sunlight (tabulated for reflectance 0.15). -/
def greyRadiance (a : Fin 6 → ℝ) (reflectance T : ℝ) : ℝ :=
  a 2 + (1 - reflectance) * a 1 * planck (a 0) T + a 4 + a 5 * reflectance / 0.15

/-- Detected photoelectrons per second and per metre of wavelength, from radiance `l` at wavelength
`lam`, transmission `t`, other irradiance `o`, detector `wx` by `wy`, quantum efficiency `q`. -/
def spectralRate (d f wx wy lam l t q o : ℝ) : ℝ :=
  lam / (planckH * lightC) * q * (wx * wy) * (t * (apertureFactor d f * l) + o)

end PyBSM.Spec
