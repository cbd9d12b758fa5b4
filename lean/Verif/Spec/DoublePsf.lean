import Verif.Spec.DoubleBlur
import Verif.Model.Rounded

/-!
# Specification of computed point spread functions (C145)
-/

noncomputable section

namespace PyBSM.Spec

/-- The entries add up to a positive number, and their sizes to at most `κ` times that. (`κ = 1` if no entry is negative.) -/
def Conditioned (q : Img) (κ : ℝ) : Prop := 0 < q.sum ∧ grossSum q ≤ κ * q.sum

/-- For arrays no larger than `q`, `ord h w` adds each of `h * w` entries once, sending none through more than `d` additions. -/
def AddsEach (ord : ℕ → ℕ → SumTree) (q : Img) (d : ℕ) : Prop :=
  ∀ h ≤ q.h, ∀ w ≤ q.w, (ord h w).leaves.Perm (List.range (h * w)) ∧ (ord h w).depth ≤ d

/-- The relative error of a sum of positive numbers sent through up to `d` additions, and one more operation. -/
def sumError (d : ℕ) : ℝ := (d + 1) * 1.5e-16

end PyBSM.Spec
