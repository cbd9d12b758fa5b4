import Verif.Spec.Sensor

/-!
# Specification: the sensor's band and the atmosphere inside it
-/

noncomputable section

open Classical

namespace PyBSM.Spec

/-- The row's wavelength lies between the first and the last of the band's wavelengths. -/
def InBand (band : List XR) (row : Fin 6 → XR) : Prop :=
  ∃ lo hi, band.head? = some lo ∧ band.getLast? = some hi ∧ XR.le lo (row 0) ∧ XR.le (row 0) hi

/-- Row by row, two atmospheres are equal or both outside the band. -/
def SameInBand (band : List XR) (a b : List (Fin 6 → XR)) : Prop :=
  List.Forall₂ (fun r r' => r = r' ∨ ¬ InBand band r ∧ ¬ InBand band r') a b

/-- An atmosphere with finite entries. -/
def realAtm (rows : List (Fin 6 → ℝ)) : List (Fin 6 → XR) := rows.map fun r j => .fin (r j)

/-- The rows of a finite atmosphere that lie in a sensor's band. -/
def RealSensor.rowsInBand (s : RealSensor) (rows : List (Fin 6 → ℝ)) : List (Fin 6 → ℝ) :=
  rows.filter fun r => ∃ lo hi, s.transmission.head? = some lo ∧ s.transmission.getLast? = some hi
    ∧ lo.1 ≤ r 0 ∧ r 0 ≤ hi.1

end PyBSM.Spec
