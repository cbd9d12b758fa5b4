import Verif.Props.Database
import Verif.Model.Scenario

/-!
# The expectations of `tests/scenario`, checked against the model

As in `Props/Conformance.lean`, literals of the repository's tests.  The stored expected arrays
(`.npy` files) are not replayed.
-/

noncomputable section

namespace PyBSM

open Spec

theorem conforms_table : ∀ r ∈ decoderTable, (r.haze = 1 ∨ r.haze = 2) ∧ r.altDm ≠ 10 ∧ r.altDm ≠ 3000
    ∧ r.rangeM ≠ 300 ∧ r.rangeM ≠ 1 := by decide +kernel

/-- `tests/scenario/test_utils.py` lines 9-21: haze codes -1 and 0, altitudes 1 m and 300 m and the ground range 300 m
are not in the database -/
theorem conforms_no_interp (files : Files) :
    loadNoInterp files (.fin 1000) (.fin 0) (-1) = .error .indexError
    ∧ loadNoInterp files (.fin 1000) (.fin 0) 0 = .error .indexError
    ∧ loadNoInterp files (.fin 1) (.fin 0) 1 = .error .indexError
    ∧ loadNoInterp files (.fin 300) (.fin 0) 1 = .error .indexError
    ∧ loadNoInterp files (.fin 1000) (.fin 300) 1 = .error .indexError := by
  refine ⟨?_, ?_, ?_, ?_, ?_⟩ <;> refine C03_not_found ?_ <;> rintro a g r ha hg ⟨h1, h2, h3, h4⟩ <;> exfalso <;>
    obtain ⟨t1, t2, t3, t4, t5⟩ := conforms_table r h1 <;> rw [XR.fin_inj] at ha hg <;> subst ha <;> subst hg
  · omega
  · omega
  · have : (r.altDm : ℝ) = (10 : ℕ) := by push_cast; linarith
    exact t2 (by exact_mod_cast this)
  · have : (r.altDm : ℝ) = (3000 : ℕ) := by push_cast; linarith
    exact t3 (by exact_mod_cast this)
  · exact t4 (by exact_mod_cast h4)

/-- `tests/scenario/test_utils.py` lines 42-53 and `test_scenario.py` lines 139-157: altitudes and ground ranges outside
the interpolation grid -/
theorem conforms_interp (files : Files) (haze : ℤ) :
    loadInterp files (.fin 1) (.fin 0) haze = .error .indexError
    ∧ loadInterp files (.fin 30000) (.fin 0) haze = .error .indexError
    ∧ loadInterp files (.fin 2) (.fin (-1)) haze = .error .indexError
    ∧ loadInterp files (.fin 2) (.fin 400000) haze = .error .indexError := by
  refine ⟨?_, ?_, ?_, ?_⟩ <;> refine C05_outside _ _ _ _ ?_ <;> rintro ⟨a, g, ha, hg, h1, h2, h3, h4⟩ <;>
    rw [XR.fin_inj] at ha hg <;> subst ha <;> subst hg <;> linarith

end PyBSM
