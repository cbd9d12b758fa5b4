import Verif.Model.Double

/-!
# Frequencies beyond Nyquist in double precision
-/

noncomputable section

open Classical

namespace PyBSM

/-- numpy's `a % b` for `b > 0` (used at `otf/functional.py`:538): the remainder of C's `fmod`, which is exact, has the sign of `a`; if it is
negative, `b` is added with a rounding. -/
def remainderD (fl : ℝ → ℝ) (a b : ℝ) : ℝ :=
  let m := a - b * (if 0 ≤ a / b then ⌊a / b⌋ else ⌈a / b⌉ : ℤ)
  if m < 0 then fl (m + b) else m

/-- `nyquist`, `otf/functional.py`:524. -/
def nyquistD (fl : ℝ → ℝ) (ifov : ℝ) : ℝ := fl (0.5 / ifov)

/-- The inner `wrap_val` of `filter_OTF`, `otf/functional.py`:537-538, with a rounding `fl` after every operation. -/
def wrapD (fl : ℝ → ℝ) (nyquist value : ℝ) : ℝ := fl (remainderD fl (fl (value + nyquist)) (fl (2 * nyquist)) - nyquist)

/-- Entries of `u_rng` and `v_rng` of `filter_OTF`, whose table has 100 rows and columns, `otf/functional.py`:527-528. -/
def tableUD (fl : ℝ → ℝ) (nyquist : ℝ) (i : ℕ) : ℝ := linspaceD fl (-nyquist) nyquist 100 i

/-- Entries of `v_rng`, `otf/functional.py`:528. -/
def tableVD (fl : ℝ → ℝ) (nyquist : ℝ) (i : ℕ) : ℝ := linspaceD fl nyquist (-nyquist) 100 i

end PyBSM
