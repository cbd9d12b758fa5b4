import Verif.Lemmas.Decoder

/-!
# A row of the decoder table used in examples
-/

namespace PyBSM

open Spec

/-- The database has an atmosphere for 9 km altitude, 60 km ground range, haze code 1. -/
theorem row_9000_60000 : ∃ r, IsRow r 9000 60000 1 := by
  have : ∃ r ∈ decoderTable, r.haze = 1 ∧ r.altDm = 90000 ∧ r.rangeM = 60000 := by decide +kernel
  obtain ⟨r, h1, h2, h3, h4⟩ := this
  exact ⟨r, h1, by rw [h2]; norm_num, by rw [h3]; norm_num, by rw [h4]; norm_num⟩

end PyBSM
