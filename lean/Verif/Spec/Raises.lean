import Verif.Spec.Band
import Verif.Model.Metrics

/-!
# Which exception a rating raises

The verdicts read only what the user passed in: the sensor's tables and numbers, what the database returned, and
(for the one case that depends on the physics) the weights that `photon_detector_SNR` reports.
-/

noncomputable section

open Classical

namespace PyBSM.Spec

/-- A call ends as announced: with the named exception, or with a result if none is named. -/
def EndsAs {α : Type} (r : Except PyErr α) : Option PyErr → Prop
  | some e => r = .error e
  | none => ∃ a, r = .ok a

/-- A pair of columns that `np.interp` accepts: at least one sample, as many values as abscissae. -/
def TableOk (xs ys : List XR) : Prop := xs ≠ [] ∧ xs.length = ys.length

/-- What `photon_detector_SNR` does for a sensor: both tables are looked at first, then `f / D` is formed. -/
def snrVerdict (s : Sensor) : Option PyErr :=
  if ¬ TableOk s.optTransWavelengths s.opticsTransmission then some .valueError
  else if ¬ TableOk s.qeWavelengths s.qe then some .valueError
  else if XR.eq s.D 0 then some .zeroDivisionError
  else none

/-- The rows of the database inside the sensor's band. -/
def inBandRows (s : Sensor) (atm : Atm) : Atm := atm.filter fun r => InBand s.optTransWavelengths r

/-- What `reflectance_to_photoelectrons` does with an atmosphere. -/
def photoelectronsVerdict (s : Sensor) (atm : Atm) : Option PyErr :=
  if s.optTransWavelengths = [] then some .indexError
  else match snrVerdict s with
    | some e => some e
    | none => if inBandRows s atm = [] then some .valueError else none

/-- At some wavelength in the band the standard target produces signal: one of the weights that
`photon_detector_SNR` reports is positive. -/
def Lit (s : Sensor) (atm : Atm) : Prop :=
  ∃ m, photonDetectorSNR s ((inBandRows s atm).map (· 0))
      (giqeRadiance (inBandRows s atm) (isEmissiveBand s)).1
      (giqeRadiance (inBandRows s atm) (isEmissiveBand s)).2 = .ok m
    ∧ ∃ w ∈ m.weights, XR.lt 0 w

/-- What the database answers to a scenario, interpolated or not. -/
def loaded (env : Env) (sc : Scenario) (interp : Bool) : Except PyErr Atm :=
  if interp then loadInterp env.files sc.altitude sc.groundRange sc.ihaze
  else loadNoInterp env.files sc.altitude sc.groundRange sc.ihaze

/-- What `niirs5` does, given what the database returned. -/
def niirs5Verdict (s : Sensor) : Except PyErr Atm → Option PyErr
  | .error e => some e
  | .ok atm =>
    if s.optTransWavelengths = [] then some .indexError
    else match snrVerdict s with
      | some e => some e
      | none =>
        if ¬ Lit s atm then some .valueError
        else if XR.eq s.f 0 then some .zeroDivisionError
        else none

/-- What `niirs` does: as `niirs5`, and a kernel of more than one row needs a non-zero pixel field of view, and
every kernel must add up to one. -/
def niirsVerdict (s : Sensor) (loaded : Except PyErr Atm) : Option PyErr :=
  match niirs5Verdict s loaded with
  | some e => some e
  | none =>
    if 1 < s.filterKernel.length ∧ XR.eq (s.pX / s.f) 0 then some .zeroDivisionError
    else if s.filterKernel.flatten.sum ≠ 1 then some .valueError
    else none

end PyBSM.Spec
