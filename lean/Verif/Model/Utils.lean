import Verif.Num.Arr
import Verif.Model.DecoderTable

/-!
# Model of `src/pybsm/utils.py` (atmosphere database)
-/

noncomputable section

open Classical

namespace PyBSM

/-- One row of an atmosphere array: wavelength, transmission, path thermal, surface emission, solar
scatter, ground reflected. (`utils.py`:37-112) -/
abbrev AtmRow := Fin 6 → XR

/-- A loaded atmosphere: a 2-D array with six columns, as the list of its rows. (`utils.py`:108-112) -/
abbrev Atm := List AtmRow

/-- The contents of the data directory: `files n` are the numbers in `atms/<n>.bin`, `none` if that
file does not exist.  The contents of the 3430 binary files are a parameter of the model. (`utils.py`:94-107) -/
abbrev Files := ℕ → Option (List XR)

/-- The wavelength column `1e-6 * np.linspace(0.3, 14.0, 1371)`, `utils.py`:108. -/
def wavelengthCol : List XR := (linspace 0.3 14 1371).map ((1e-6 : XR) * ·)

/-- `utils.load_database_atmosphere_no_interp`, `utils.py`:37-112.  The three successive filters on
the decoder (86-92), `decoder[0, 0]` on an empty selection and the explicit check for the file
(94-95, both `IndexError`), the column-major reshape to `(1371, 5)` (102, `ValueError` for another
size), the unit conversion of raw columns 1..4 (103-105) and the wavelength column (108-110).
Simplification: float32 storage of the raw data is exact. -/
def loadNoInterp (files : Files) (altitude groundRange : XR) (ihaze : ℤ) : Except PyErr Atm :=
  let d := decoderTable.filter (fun r => (r.haze : ℤ) = ihaze)
  let d := d.filter (fun r => XR.eq (.fin (r.altDm / 10000)) (altitude / 1000))
  let d := d.filter (fun r => XR.eq (.fin (r.rangeM / 1000)) (groundRange / 1000))
  match d with
  | [] => .error .indexError
  | r :: _ =>
    match files r.idx with
    | none => .error .indexError
    | some raw =>
      if raw.length ≠ 1371 * 5 then .error .valueError
      else
        let col (c i : ℕ) : XR := raw.getD (c * 1371 + i) .nan
        .ok ((List.range 1371).map fun (i : ℕ) =>
          ![wavelengthCol.getD i .nan, col 0 i, col 1 i / 1e-10, col 2 i / 1e-10,
            col 3 i / 1e-10, col 4 i / 1e-10])

/-- The grid altitudes, `altitude_array`, `utils.py`:197-222. -/
def altitudeArray : List ℝ :=
  [2, 32.55, 75, 150, 225, 500, 1000, 2000, 3000, 4000, 5000, 6000, 7000, 8000, 9000, 10000,
   11000, 12000, 14000, 16000, 18000, 20000]

/-- `np.arange(start, stop, step)` for a positive step: `ceil((stop - start)/step)` values.
(used at `utils.py`:171-173) -/
def arangeR (start stop step : ℝ) : List ℝ :=
  (List.range ⌈(stop - start) / step⌉₊).map fun (i : ℕ) => start + i * step

/-- `get_ground_range_array`, `utils.py`:160-175. -/
def groundRangeArray (maxRange : ℝ) : List ℝ :=
  ([0, 100, 500] ++ arangeR 1000 20000.01 1000 ++ arangeR 22000 80000.01 2000
    ++ arangeR 85000 300000.01 5000).filter (· ≤ maxRange)

/-- `w0 * a + w1 * b` on whole atmosphere arrays (all arrays have the same shape), `utils.py`:191,
243. -/
def atmBlend (w0 w1 : XR) (a b : Atm) : Atm :=
  List.zipWith (fun r s => fun j => w0 * r j + w1 * s j) a b

/-- `alt_atm_interp`, `utils.py`:177-194.  The bracketing altitudes are numpy scalars. -/
def altAtmInterp (files : Files) (lowAlt highAlt : ℝ) (altitude : XR) (groundRange : ℝ)
    (ihaze : ℤ) : Except PyErr Atm := do
  let lowAtm ← loadNoInterp files (.fin lowAlt) (.fin groundRange) ihaze
  if lowAlt ≠ highAlt then
    let highAtm ← loadNoInterp files (.fin highAlt) (.fin groundRange) ihaze
    let w := (altitude - .fin lowAlt) / (.fin highAlt - .fin lowAlt)
    .ok (atmBlend (1 - w) w lowAtm highAtm)
  else .ok lowAtm

/-- `xs[xs <= q][-1]` (`IndexError` if the selection is empty), `utils.py`:231, 233. -/
def lastLe (xs : List ℝ) (q : XR) : Except PyErr ℝ :=
  match (xs.filter (fun x => XR.le (.fin x) q)).getLast? with
  | some x => .ok x
  | none => .error .indexError

/-- `xs[xs >= q][0]` (`IndexError` if the selection is empty), `utils.py`:232, 234. -/
def firstGe (xs : List ℝ) (q : XR) : Except PyErr ℝ :=
  match (xs.filter (fun x => XR.le q (.fin x))).head? with
  | some x => .ok x
  | none => .error .indexError

/-- `utils.load_database_atmosphere`, `utils.py`:115-247.  `min`/`max` of the (constant, sorted)
grids are their first and last elements: 2 and 20000 m, 0 and 300000 m. -/
def loadInterp (files : Files) (altitude groundRange : XR) (ihaze : ℤ) : Except PyErr Atm := do
  let ranges := groundRangeArray 301000
  if XR.lt altitude (.fin (altitudeArray.foldl min (altitudeArray.headD 0)))
      ∨ XR.lt (.fin (altitudeArray.foldl max (altitudeArray.headD 0))) altitude then
    .error .indexError
  else if XR.lt groundRange (.fin (ranges.foldl min (ranges.headD 0)))
      ∨ XR.lt (.fin (ranges.foldl max (ranges.headD 0))) groundRange then
    .error .indexError
  else
    let lowAlt ← lastLe altitudeArray altitude
    let highAlt ← firstGe altitudeArray altitude
    let lowRange ← lastLe ranges groundRange
    let highRange ← firstGe ranges groundRange
    let atmLow ← altAtmInterp files lowAlt highAlt altitude lowRange ihaze
    if lowRange ≠ highRange then
      let atmHigh ← altAtmInterp files lowAlt highAlt altitude highRange ihaze
      let w := (groundRange - .fin lowRange) / (.fin highRange - .fin lowRange)
      .ok (atmBlend (1 - w) w atmLow atmHigh)
    else .ok atmLow

end PyBSM
