import Verif.Model.DoubleOther

/-!
# Time delay and integration in double precision

`tdi_OTF` with a rounding `fl` after every operation, for whole numbers of stages and phases. Simplifications: nothing overflows or
underflows; the exponents are imaginary, so `np.exp` of one is its cosine and sine; dividing complex numbers by a real one multiplies by
its reciprocal, as numpy does.
-/

noncomputable section

open Classical

namespace PyBSM

/-- `xx`, `otf/functional.py`:724-726. -/
def tdiXD (fl : ℝ → ℝ) (x w beta f : ℝ) : ℝ := fl (fl (w * x) / fl (f * beta))

/-- The imaginary part of `-2.0j * np.pi * xx * (beta - 1.0) * ii`, `otf/functional.py`:732. -/
def tdiPhaseD (fl : ℝ → ℝ) (x w beta f : ℝ) (i : ℕ) : ℝ :=
  fl (fl (fl (fl (-2 * fl Real.pi) * tdiXD fl x w beta f) * fl (beta - 1)) * i)

/-- The loop over the stages and phases, the division by their number and the factor `np.sinc(xx)`, `otf/functional.py`:729-733, for the
real part (`g` the cosine) or the imaginary part (`g` the sine). -/
def tdiPartD (fl : ℝ → ℝ) (L : MathLib) (g : ℝ → ℝ) (nTdi phasesN : ℕ) (x w beta f : ℝ) : ℝ :=
  fl (fl (sincD fl L (tdiXD fl x w beta f) * (List.range (nTdi * phasesN)).foldl (fun s i => fl (s + g (tdiPhaseD fl x w beta f i))) 0)
    * fl (1 / (nTdi * phasesN : ℕ)))

end PyBSM
