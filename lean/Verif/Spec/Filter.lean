import Verif.Model.Noise
import Mathlib.Analysis.SpecialFunctions.Complex.Circle

/-!
# Specification vocabulary: the spectrum of a sharpening kernel
-/

noncomputable section

namespace PyBSM.Spec

/-- Entry in row `r` and column `c` of a kernel, 0 outside it. -/
def entry (k : Kernel) (r c : ℕ) : ℝ := (k.getD r []).getD c 0

/-- Modulus of the kernel's Fourier transform at `fx` cycles per column and `fy` cycles per row. -/
def kernelSpectrum (k : Kernel) (fx fy : ℝ) : ℝ :=
  ‖∑ r ∈ Finset.range k.length, ∑ c ∈ Finset.range (k.getD r []).length,
    (entry k r c : ℂ) * Complex.exp (-2 * Real.pi * Complex.I * (fy * r + fx * c))‖

/-- Sum of the absolute values of the kernel's entries. -/
def absSum (k : Kernel) : ℝ := (k.flatten.map fun x => |x|).sum

/-- The kernel has at most 100 rows of at most 100 columns. -/
def Fits (k : Kernel) : Prop := k.length ≤ 100 ∧ ∀ row ∈ k, row.length ≤ 100

end PyBSM.Spec
