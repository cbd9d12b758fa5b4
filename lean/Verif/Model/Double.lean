import Verif.Num.Rounding
import Verif.Model.Utils

/-!
# Decisions in double precision

Parts of the program whose outcome is discrete: which file is loaded, how many samples an array has, which rows a
comparison keeps. Here every arithmetic operation is followed by a rounding `fl` (to doubles) or `fs` (to single
precision, for the raw data, which are `float32` arrays); a decimal constant or a number read from a text file is the
rounding of its decimal value. Not modelled: overflow and underflow.
-/

noncomputable section

open Classical

namespace PyBSM

/-- Rounding of a number that may be infinite or no number. Models the result of one operation, e.g. `utils.py`:104. -/
def XR.rnd (fl : ℝ → ℝ) : XR → XR
  | .fin x => .fin (fl x)
  | .pinf => .pinf
  | .ninf => .ninf
  | .nan => .nan

/-- Entry `i` of `np.linspace(start, stop, num)` for two or more samples: `arange(num) * step + start`, the last one set
to `stop`. (used at `utils.py`:108, `otf/functional.py`:1174) -/
def linspaceD (fl : ℝ → ℝ) (start stop : ℝ) (num i : ℕ) : ℝ :=
  if i + 1 = num then stop else fl (fl (i * fl (fl (stop - start) / ((num : ℝ) - 1))) + start)

/-- Entry `i` of the wavelength column `1e-6 * np.linspace(0.3, 14.0, 1371)`, `utils.py`:108. -/
def wavelengthD (fl : ℝ → ℝ) (i : ℕ) : ℝ := fl (fl 1e-6 * linspaceD fl (fl 0.3) 14 1371 i)

/-- `utils.load_database_atmosphere_no_interp` in double precision, `utils.py`:37-112. The table holds the roundings of
the decimal numbers in `fileDecoder.csv` (84); the conditions are compared after a division (88, 91); the radiances are
divided by `1e-10` in single precision (103-105). -/
def loadNoInterpD (fl fs : ℝ → ℝ) (files : Files) (altitude groundRange : ℝ) (ihaze : ℤ) : Except PyErr Atm :=
  let d := decoderTable.filter (fun r => (r.haze : ℤ) = ihaze)
  let d := d.filter (fun r => fl (r.altDm / 10000) = fl (altitude / 1000))
  let d := d.filter (fun r => fl (r.rangeM / 1000) = fl (groundRange / 1000))
  match d with
  | [] => .error .indexError
  | r :: _ =>
    match files r.idx with
    | none => .error .indexError
    | some raw =>
      if raw.length ≠ 1371 * 5 then .error .valueError
      else
        let col (c i : ℕ) : XR := raw.getD (c * 1371 + i) .nan
        let scaled (c i : ℕ) : XR := XR.rnd fs (col c i / .fin (fs 1e-10))
        .ok ((List.range 1371).map fun (i : ℕ) =>
          ![.fin (wavelengthD fl i), col 0 i, scaled 1 i, scaled 2 i, scaled 3 i, scaled 4 i])

/-- `altitude_array` in double precision, `utils.py`:197-222. -/
def altitudeArrayD (fl : ℝ → ℝ) : List ℝ := altitudeArray.map fl

/-- `np.arange(start, stop, step)` for a positive step: `ceil((stop - start) / step)` values, the `i`-th of which is
`start + i * ((start + step) - start)`. (used at `utils.py`:171-173, `otf/functional.py`:1176) -/
def arangeD (fl : ℝ → ℝ) (start stop step : ℝ) : List ℝ :=
  (List.range ⌈fl (fl (stop - start) / step)⌉₊).map fun (i : ℕ) => fl (start + fl (i * fl (fl (start + step) - start)))

/-- `get_ground_range_array` in double precision, `utils.py`:160-175. -/
def groundRangeArrayD (fl : ℝ → ℝ) (maxRange : ℝ) : List ℝ :=
  ([0, 100, 500] ++ arangeD fl 1000 (fl 20000.01) 1000 ++ arangeD fl 22000 (fl 80000.01) 2000
    ++ arangeD fl 85000 (fl 300000.01) 5000).filter (· ≤ maxRange)

/-- `w0 * a + w1 * b` on whole atmosphere arrays in double precision, `utils.py`:191, 243. -/
def atmBlendD (fl : ℝ → ℝ) (w0 w1 : ℝ) (a b : Atm) : Atm :=
  List.zipWith (fun r s => fun j => XR.rnd fl (XR.rnd fl (.fin w0 * r j) + XR.rnd fl (.fin w1 * s j))) a b

/-- The weight of the upper neighbour, `utils.py`:189, 241. -/
def weightD (fl : ℝ → ℝ) (low high x : ℝ) : ℝ := fl (fl (x - low) / fl (high - low))

/-- `alt_atm_interp` in double precision, `utils.py`:177-194. -/
def altAtmInterpD (fl fs : ℝ → ℝ) (files : Files) (lowAlt highAlt altitude groundRange : ℝ) (ihaze : ℤ) :
    Except PyErr Atm := do
  let lowAtm ← loadNoInterpD fl fs files lowAlt groundRange ihaze
  if lowAlt ≠ highAlt then
    let highAtm ← loadNoInterpD fl fs files highAlt groundRange ihaze
    let w := weightD fl lowAlt highAlt altitude
    .ok (atmBlendD fl (fl (1 - w)) w lowAtm highAtm)
  else .ok lowAtm

/-- `utils.load_database_atmosphere` in double precision, `utils.py`:115-247, for finite conditions. -/
def loadInterpD (fl fs : ℝ → ℝ) (files : Files) (altitude groundRange : ℝ) (ihaze : ℤ) : Except PyErr Atm := do
  let alts := altitudeArrayD fl
  let ranges := groundRangeArrayD fl 301000
  if altitude < alts.foldl min (alts.headD 0) ∨ alts.foldl max (alts.headD 0) < altitude then
    .error .indexError
  else if groundRange < ranges.foldl min (ranges.headD 0) ∨ ranges.foldl max (ranges.headD 0) < groundRange then
    .error .indexError
  else
    let lowAlt ← lastLe alts (.fin altitude)
    let highAlt ← firstGe alts (.fin altitude)
    let lowRange ← lastLe ranges (.fin groundRange)
    let highRange ← firstGe ranges (.fin groundRange)
    let atmLow ← altAtmInterpD fl fs files lowAlt highAlt altitude lowRange ihaze
    if lowRange ≠ highRange then
      let atmHigh ← altAtmInterpD fl fs files lowAlt highAlt altitude highRange ihaze
      let w := weightD fl lowRange highRange groundRange
      .ok (atmBlendD fl (fl (1 - w)) w atmLow atmHigh)
    else .ok atmLow

end PyBSM
