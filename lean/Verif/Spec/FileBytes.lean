import Verif.Model.FileBytes

/-!
# Specification: single-precision numbers and their place in a file (C103)
-/

noncomputable section

namespace PyBSM.Spec

/-- `x` is a (finite) number of single precision: an integer of at most 24 bits times a power of two between `2^-149` and
`2^104`. -/
def IsSingle (x : ℝ) : Prop := ∃ m e : ℤ, |m| < 16777216 ∧ -149 ≤ e ∧ e ≤ 104 ∧ x = m * (2 : ℝ) ^ e

/-- The 32-bit number in the four bytes that begin at byte `4 k`. -/
def word (bytes : List UInt8) (k : ℕ) : ℕ :=
  (bytes.getD (4 * k) 0).toNat + 256 * (bytes.getD (4 * k + 1) 0).toNat + 65536 * (bytes.getD (4 * k + 2) 0).toNat
    + 16777216 * (bytes.getD (4 * k + 3) 0).toNat

end PyBSM.Spec
