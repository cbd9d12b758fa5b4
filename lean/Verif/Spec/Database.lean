import Verif.Model.Utils

/-!
# Specification of the atmosphere database (C03 - C09)
-/

noncomputable section

namespace PyBSM.Spec

/-- `r` is a row of the decoder file for this altitude (m), ground range (m) and haze code. -/
def IsRow (r : DecRow) (alt rng : ℝ) (haze : ℤ) : Prop :=
  r ∈ decoderTable ∧ (r.haze : ℤ) = haze ∧ (r.altDm : ℝ) / 10 = alt ∧ (r.rangeM : ℝ) = rng

/-- Element `(i, j)` of an atmosphere array. -/
def atmAt (a : Atm) (i : ℕ) (j : Fin 6) : XR := a.getD i (fun _ => .nan) j

/-- What an atmosphere array must contain when the data file contains the numbers `raw`
(column-major, five columns of 1371 numbers). -/
structure IsRecord (raw : List XR) (a : Atm) : Prop where
  rows : a.length = 1371
  wavelength : ∀ i < 1371, atmAt a i 0 = .fin ((0.30 + 0.01 * i) * 1e-6)
  transmission : ∀ i < 1371, atmAt a i 1 = raw.getD i .nan
  radiance : ∀ i < 1371, ∀ c : Fin 4,
    atmAt a i ⟨c + 2, by omega⟩ = raw.getD ((c + 1) * 1371 + i) .nan * .fin 1e10

/-- The altitudes of the interpolation grid (m), as documented in `utils.py`. -/
def gridAltitudes : List ℝ :=
  [2, 32.55, 75, 150, 225, 500, 1000, 2000, 3000, 4000, 5000, 6000, 7000, 8000, 9000, 10000,
   11000, 12000, 14000, 16000, 18000, 20000]

/-- The ground ranges of the grid (m): 0, 100, 500, 1000 to 20000 in steps of 1000, 22000 to 80000 in
steps of 2000, 85000 to 300000 in steps of 5000. -/
def gridRangesNat : List ℕ :=
  [0, 100, 500] ++ (List.range 20).map (fun i => 1000 + 1000 * i)
    ++ (List.range 30).map (fun i => 22000 + 2000 * i)
    ++ (List.range 44).map (fun i => 85000 + 5000 * i)

/-- The same as real numbers. -/
def gridRanges : List ℝ := gridRangesNat.map (fun n : ℕ => (n : ℝ))

/-- `lo` and `hi` are grid values around `q` with no grid value strictly between them. -/
structure Brackets (grid : List ℝ) (q lo hi : ℝ) : Prop where
  lo_mem : lo ∈ grid
  hi_mem : hi ∈ grid
  lo_le : lo ≤ q
  le_hi : q ≤ hi
  adjacent : ∀ x ∈ grid, x ≤ lo ∨ hi ≤ x

/-- Linear interpolation between the values `x` at `lo` and `y` at `hi`. -/
def lerp (lo hi x y q : ℝ) : ℝ := if lo = hi then x else x + (q - lo) / (hi - lo) * (y - x)

/-- Every file the decoder mentions exists and holds `1371 * 5` finite numbers. -/
def Complete (files : Files) : Prop :=
  ∀ r ∈ decoderTable, ∃ raw : List ℝ, files r.idx = some (raw.map .fin) ∧ raw.length = 1371 * 5

/-- Every file that exists holds finite numbers. -/
def FiniteFiles (files : Files) : Prop :=
  ∀ n raw, files n = some raw → ∃ r : List ℝ, raw = r.map .fin

/-- The largest ground range (m) the database has at a grid altitude; altitudes in 0.1 m. -/
def maxRangeAt : List (ℕ × ℕ) :=
  [(20, 5000), (750, 30000), (1500, 42000), (2250, 52000), (5000, 78000), (10000, 110000),
   (20000, 155000), (30000, 195000), (40000, 225000), (50000, 250000), (60000, 275000),
   (70000, 295000), (80000, 300000), (90000, 300000), (100000, 300000), (110000, 300000),
   (120000, 300000), (140000, 300000), (160000, 300000), (180000, 300000), (200000, 300000)]

end PyBSM.Spec
