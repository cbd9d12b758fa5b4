import Verif.Spec.Database
import Verif.Num.Rounding

/-!
# Specification of loaded atmospheres up to rounding (C99, C100)
-/

noncomputable section

namespace PyBSM.Spec

/-- `fs` has the accuracy of single precision. -/
def SingleAccuracy (fs : ℝ → ℝ) : Prop := ∀ x, |fs x - x| ≤ 6e-8 * |x|

/-- What an atmosphere array must contain, up to rounding, when the data file contains the numbers `raw`: the
transmissions themselves, the radiances to 2 parts in ten million, the wavelengths to 2 parts in `10^15`. -/
structure IsRecordNearly (raw : List XR) (a : Atm) : Prop where
  rows : a.length = 1371
  wavelength : ∀ i < 1371, ∃ w, atmAt a i 0 = .fin w
    ∧ |w - (0.30 + 0.01 * i) * 1e-6| ≤ 2e-15 * ((0.30 + 0.01 * i) * 1e-6)
  transmission : ∀ i < 1371, atmAt a i 1 = raw.getD i .nan
  radiance : ∀ i < 1371, ∀ (c : Fin 4) (v : ℝ), raw.getD ((c + 1) * 1371 + i) .nan = .fin v →
    ∃ x, atmAt a i ⟨c + 2, by omega⟩ = .fin x ∧ |x - v * 1e10| ≤ 2e-7 * (|v| * 1e10)

end PyBSM.Spec
