# Formal model of pyBSM: design

## Layout

* `lean/Verif/Num` – numbers and 1-D arrays as numpy sees them (`XR`, `Scal`, `bc2`, `trapz`, `np.interp`, …).
* `lean/Verif/Model` – the model of the code, function by function; each definition cites file and lines of `/repo`.
* `lean/Verif/Spec` – small independent specifications in plain real analysis (no model helpers).
* `lean/Verif/Lemmas` – helper lemmas.
* `lean/Verif/Props` – the property theorems (`Cnn_…`), each with an `example` showing that its hypotheses can be met.
* `properties.jsonl`, `MANIFEST.json` – English properties and the theorems that settle them.
* `seeded/LOG.jsonl` – mutation testing of the theorems.

## Trusted base

* Lean 4.33.0 kernel. Each theorem named in `MANIFEST.json` depends on `propext`, `Classical.choice` and `Quot.sound` and on
  no other axiom (they come with Mathlib's real numbers); `axioms.tsv` lists them theorem by theorem, printed by
  `tools/axioms.txt`. No `sorry`, no own axioms, no `native_decide`/`bv_decide`.
* That the Lean definitions in `Verif/Model` describe the Python code. In particular:
  * A double is an exact real or one of `+inf`, `-inf`, `nan` (`XR`). Special-value arithmetic follows numpy
    (division by zero, `0*inf`, `nan` propagation and comparisons, domain errors of `sqrt`, `arccos`, `log10`, `**`).
    Not modelled: the sign of zero. Rounding is modelled where a property is about it: from the tables to the SNR
    (`Model/Rounded.lean`, C93, C94, C98: every operation may have a relative error `u`; powers and `exp` count as one
    operation, `exp` of libm is taken to be accurate to `u`), the loaders (`Model/Double.lean`, C99, C100), discrete
    decisions (`Model/Decisions.lean`, C101), geometry (`Model/DoubleGeometry.lean`, C106), the image quality equations
    (`Model/DoubleGiqe.lean`, C108), edge responses (`Model/DoubleEdge.lean`, C109), the OTFs of the report
    (`Model/DoubleOtf.lean`, `Model/DoubleMtf.lean`, `Model/DoubleTurbulence.lean`, C117 - C119), the other OTFs
    (`Model/DoubleOther.lean`, C141), contrast stretching (`Model/DoubleStretch.lean`, C142), the true
    image (`Model/DoubleTrueImage.lean`, C143), blurring and resampling (`Model/DoubleBlur.lean`, C144), blur kernels
    (`Model/DoublePsf.lean`, C145), the four stages together (C146), the scalars of `simulate_image`
    (`Model/DoubleSimulate.lean`, C147), the Wiener filter, defocus radii and dark current (`Model/DoubleScalars.lean`, C148), the ground-resolved distance (`Model/DoubleGrd.lean`, C149), time delay and integration (`Model/DoubleTdi.lean`, C150), the aperture without defocus (`Model/DoubleFocused.lean`, C151), frequencies beyond Nyquist in `filter_OTF` (`Model/DoubleWrap.lean`, C152), the coherence diameter of a band (`Model/DoubleBand.lean`, C153), a whole rating with
    GIQE 5 (`Model/DoubleRating.lean`, C120 - C122) or GIQE 3 and 4 (`Model/DoubleNiirs.lean`, C124) and the noise terms of a
    rating (`Model/RoundedNoise.lean`, C123). Overflow and underflow: `Model/Ieee.lean` (C105: the chain from the
    tables to the SNR) only.
  * Python scalars and numpy scalars are told apart (`Scal`) because only the former raise `ZeroDivisionError`.
  * Exceptions are values of `Except PyErr`. The order of possible exceptions follows the code.
  * Library semantics are written from their documentation: `np.interp`, `np.trapz`, `np.linspace`, `np.percentile`,
    `np.round`, FFTs as exact DFT sums, `scipy.interpolate.interp1d` / `interp2d` / `griddata` (linear), `cv2.resize`
    (bilinear), `cv2.filter2D` (`BORDER_REFLECT_101`), Bessel functions as Bessel's integral.
  * The decoder table (`atms/ihaze…` index, 3430 rows) is generated from the repository's file into
    `Model/DecoderTable.lean`. The contents of the 3430 binary files are a parameter (`Files`), so theorems hold for
    every content.
  * Random draws of `simulate_image` are a parameter (`Rng`; C127 threads the state of numpy's generator through), the triangulation diagonals chosen by `griddata` are a
    parameter (`Env.diag`), and whether OpenCV is importable is a parameter (`usable`).

## Modelled / not modelled

| file | modelled | not modelled |
|---|---|---|
| `utils.py` | both loaders, the ground-range grid, the decoding of the binary files byte by byte (little-endian machine; C103) | – |
| `geospatial.py` | everything | – |
| `noise.py` | everything | – |
| `simulation/scenario.py` | everything, as an object with histories (values in `Model/Scenario.lean`, array objects in `Model/Aliasing.lean`) | – |
| `simulation/sensor.py` | constructor and attributes | – |
| `simulation/ref_image.py` | constructor, `estimate_capture_parameters`, the extent computed by `show` | rendering (matplotlib) |
| `simulation/functional.py` | everything; `wiener_filter` per frequency | formatting of log messages (their values: C129) |
| `radiance/functional.py` | everything | "input array is empty" warnings |
| `radiance/snr_metrics.py`, `metrics/metrics.py`, `otf/otf.py` | records | – |
| `otf/functional.py` | everything; element/row-wise where the code is element-wise | – |
| `metrics/functional.py` | everything; of `plot_common_MTFs` and `plot_noise_terms` the numbers handed to matplotlib | rendering, labels, styles (matplotlib) |

2-D frequency grids are lists of rows; numpy broadcasting acts on the trailing axis, so rows are independent.

## Checks of the model against the repository's tests

`Props/Conformance.lean` and `Props/ConformanceData.lean` replay literals of `/repo/tests` on the model and prove that the
model returns what the tests expect of the code: the exceptions (`ZeroDivisionError`, `IndexError`, `ValueError`,
`cv2.error`), the `nan` and `inf` cases and the values with a closed form. They validate the model; they are tests, not
properties, and appear in no claim. Not replayed: expectations stored as `.npy` arrays or snapshots, and the values that are
rounded evaluations of transcendental expressions.

Places where rounding in the code could change a discrete outcome that the exact model fixes: the `==` with which the
loaders compare floats (it does not: C99, C100), the number of samples of `np.arange` in `slice_otf`, `int(...)` and
`np.round` of image sizes, the band filters and the `== 1` test of `noise_gain` (C101: when it does and when not). The `==`
of `weighted_by_wavelength` compares entries of one array with themselves.

## Properties: what is modelled and how it is proved

| id | model | proof |
|---|---|---|
| C01, C02 | `Scenario.step/run/readAtm` | cache-coherence invariant by induction over client histories; refinement to a cache-free spec |
| C03, C04 | `loadNoInterp`, `decoderTable` | kernel-checked facts about the whole table (key uniqueness), lifted to all requests |
| C05–C09 | `loadInterp`, `altAtmInterp` | bracketing lemmas for sorted lists; refinement to a bilinear spec; table facts by chunked `decide`; continuity by cell analysis |
| C10–C14 | `Geospatial` | law of cosines in the plane, monotonicity of `cos`, triangle geometry in `ℝ²` |
| C15, C16 | `blackbody`, `atFocalPlaneIrradiance`, self emission | real analysis |
| C17–C20 | `checkWellFill`, `photonDetectorSNR` | unfolding the `Except` pipeline once into a real-valued characterisation, then algebra |
| C21 | `resampleByWavelength` (`np.interp`) | induction on the table |
| C22–C24 | `signalRate`, `totalRadiance`, `giqeRadiance` | trapezoid sums of finite lists as `List` sums; algebra, monotonicity |
| C25–C27 | `reflectanceToPhotoelectrons`, `bandCrop` | pipeline characterisation; congruence |
| C28–C30 | aperture OTFs | calculus on the chord function; annulus autocorrelation; Bessel integral bounds |
| C31–C39 | element-wise OTF components | real analysis (`sinc`, `exp`, `rpow`) |
| C40 | `weightedByWavelength` | fold characterised as a weighted sum; permutation invariance |
| C41, C42, C38 | `coherenceDiameter`, `hvProfile`, `polychromaticTurbulenceOTF` | scaling of `rpow`; trapezoid monotonicity |
| C43 | `commonOTFs` | pipeline characterisation, composition of component theorems |
| C44 | `filterElt` | triangle inequality for the DFT, periodicity of the wrap |
| C45–C47 | `otfToPsf`, `resample2D`, `filter2D`, `applyOtfToImage` | finite sums, convexity of bilinear weights, roots of unity |
| C48 | `sliceOtf` | index arithmetic on the sampling grid |
| C49, C50 | defocus radii, dark current | algebra |
| C51, C52, C59 | `edgeResponse` and friends | oddness of `sin`, linearity of `trapz` |
| C53–C56 | GIQE 3/4/5, GRD | monotonicity of `logb`, `exp`, `rpow` |
| C57, C58 | `niirs`, `niirs5` as state transformers | non-interference |
| C60, C61, C63 | `imgToReflectance`, `stretchContrast`, `trueImage` | sorted tables, order statistics |
| C62, C64 | `RefImage`, `Sensor.new` | case analysis |
| C65–C68 | `wienerFilter`, `noiseGain`, `quantizationNoise`, `instantaneousFOV` | algebra, Cauchy–Schwarz |
| C69 | `commonOTFs` in full | composition of the component values into one closed form (`Spec/Turbulence.lean`); bounds component by component |
| C70, C71 | `niirs`, `niirs5` in full | values of every stage composed (`Spec/Imaging.lean` states the report over the reals); positivity of the edge terms from the sign of the sine below the sampling limit |
| C72 | noise terms of `niirs`, `niirs5` | linearity and monotonicity of the trapezoid rule |
| C73–C76 | `simulateImage` in full | values of every stage composed into one equation; scale invariance of weighted means; factoring the random draws out of the pipeline; a 1x1 kernel for coarse images |
| C77–C79 | two calls of `niirs5` (and `niirs`) | the closed forms of C69–C71 compared: sinc decreasing on [0, π], Hufnagel–Valley integral and Fried radius monotone, weighted means and edge response monotone, `x/√(ax+q)` monotone; for a full well the two runs are shown to compute the same intermediate results |
| C80 | client sessions: any number of sensor and scenario objects, any sequence of assignments, reads and calls (`Model/Session.lean`) | induction over the sequence; the program's objects track cache-free reference objects (`Spec/Session.lean`): same attributes, and any cached atmosphere is the one a fresh load would give; the four scenario attributes the metrics overwrite are shown irrelevant |
| C81 | scenarios whose cache is a reference to an array object, client writes into arrays (`Model/Aliasing.lean`) | invariants over histories: references are injective and in bounds; every referenced array is a fresh load followed by the client's writes to it |
| C82 | the whole `simulate_image` path with `apply_otf_to_image` and `resample_2D` | inversion of a successful call down to the resampling step; then the ratio computed for the estimated capture parameters |
| C83 | `otf_to_psf` completely: transform, resampling, support search, crop with Python slice semantics, rescaling | inversion of a successful call; induction over the candidate sizes; crops shown to be the middle part (small size) or the whole (three times the side) |
| C84 | `otf_to_psf`; the transfer function of a kernel as an explicit Fourier sum (`Spec/Psf.lean`) | orthogonality of characters; crop arithmetic |
| C85 | `apply_otf_to_image` at matching sampling | C84 and the definition of `cv2.filter2D` (a correlation); re-indexing of sums; witness for the orientation |
| C86 | `apply_otf_to_image`, `resample_2D` | bilinearity of the correlation and of bilinear interpolation |
| C87 | the component OTFs above, as Fourier integrals of probability measures (`Spec/Kernels`) | characteristic functions of uniform, normal and Poisson measures; averages of translates; `charFun_conv` |
| C88 | `circular_aperture_OTF_with_defocus` against the autocorrelation of the defocused pupil field (`Spec/Wavefront`) | the true loss is bounded through `cos x >= 1 - x^2/2` under the integral; the formula is expanded to third order from Bessel's integrals |
| C89 | `blackbody` as a function of wavelength, against the classical radiation laws (`Spec.stefanBoltzmann`) | the Bose integral from `zeta(4)` term by term and the change of variables `x = hc/(lambda k T)`; Wien's root isolated by the sign of `5(e^x - 1) - x e^x` |
| C90 | `simulateImage` with the random generator as a random variable (`Spec/Noise`: `FairDraws`) | moments of the Poisson law from its series, variance of independent sums, the strong law of large numbers; fair draws are constructed as an infinite product measure |
| C91 | `edgeResponse`, `relativeEdgeResponse`, `edgeHeightOvershoot` against the blurred step edge (`Spec/EdgeSpread`) | Fourier inversion and Fubini turn the edge into an integral over the MTF; Lipschitz bounds give the error of the trapezoid rule with the 1e-6 shift; a triangular MTF (squared-sinc line spread) is the worked example |
| C92 | `plotCommonMTFs`, `plotNoiseTerms`, `RefImage.extent`: every number the plotting functions hand to matplotlib (`Model/Plot.lean`); matplotlib itself is not modelled | values of the report (`niirs_value`, `niirs5_value`) sliced along the axes (C48); bounds of the components for the window; C20 and C72 for the bars |
| C93 | `Expr`, `Computed`, `SumTree` (`Model/Rounded.lean`): the operations of the signal chain in code order, each with an arbitrary relative error; `RoundsToNearest` for doubles | error calculus for computations without cancellation by induction over expressions (`Computed.near`); trees for arbitrary summation orders; existence and relative error of rounding to nearest |
| C94 | `sub`, `exp`, `lerp` added to `Expr`; `blackbodyExpr`, `interpExpr`, `transExpr`, `shieldExpr`, `opticsExpr`, `stopExpr`, `radianceExpr` in code order | conditioning of subtraction, exponential and interpolation (`Near.sub`, `Near.exp`, `lerp_near`) feeding the weights of `Computed.near`; induction over the table; composition with C93 |
| C95 | `Model/Threads.lean`: the property `atm` and the three setters cut at every access to an attribute of the shared object (`Thread.step`), a scenario with any number of threads (`Shared`), schedules as lists of thread numbers | invariants preserved by every step of every thread (`readers_step`, `mixed_step`), induction over the schedule, a measure for termination; the two races as concrete schedules; refinement of the atomic model for non-overlapping operations |
| C96 | the same small-step code, each operation of a history abandoned after a given number of accesses | `CacheFresh` is preserved by every prefix of every operation, because the setters clear the cache before they assign |
| C97 | `focalPlaneIntegratedIrradiance` | closed form through `atFocal_vec` and `blackbodyRadiance_vec`; trapezoid monotonicity for the comparison with the spectral functions |
| C98 | `signalRate` on samples of functions of the wavelength | closed form C22, error of one panel (Lipschitz: direct; smooth: Mathlib's trapezoidal rule), summed over the panels |
| C99 | `loadNoInterpD`: `loadNoInterp` with a rounding after every operation | for each table key a certificate that the keys of the neighbouring doubles differ, checked by the kernel over the whole table; monotone rounding for all other doubles |
| C100 | `loadInterpD` | the same brackets as in exact arithmetic (the only grid altitude that is no double, 32.55 m, is not in the database); error analysis of the two blends |
| C101 | `noiseGainD`, `sliceCountD`, `psfSizeD`, `imageSizeD`, `bandCrop` on `loadNoInterpD`: the comparisons and truncations with a rounding after every operation | exactness of sums of binary fractions; error bounds keep quotients away from the next integer; the counterexamples are evaluated with a lemma that determines a rounded value from strict bounds, so they hold for every treatment of ties |
| C102 | `photonDetectorSNR`, `selfEmission`, `systemTransmission`, `totalRadiance` | closed form of the irradiance; the four contributions add up to `π B`; Planck's law is increasing in temperature |
| C103 | `fromFile`, `float32`, `Disk.files`, `loadNoInterp` | bytes in groups of four, IEEE 754 single precision decoded bit by bit; induction on the byte list |
| C104 | `NiirsThread.step`, `SharedKernel.run`, `niirsFinish`, `niirs5Finish`, `niirsGrid` | small steps cut at each access to `filter_kernel`; invariant over all schedules; the anomalies by explicit schedules and the concrete sensor `demoSharp` |
| C105 | `Expr.ieee`, `snrIeee`, `RoundsIeee` | every operation followed by rounding into binary64 with infinities and subnormal numbers; bounds 2^a ≤ x ≤ 2^b carried through each expression show that all exact intermediate results are zero or in the normal range, so that the rounded run is one of those of C94; the contrast of two doubles is exact below the normal range |
| C106 | `slantRangeD`, `nadirAngleD`, `flatSlantRangeD`, `pathHeightD` | every operation followed by a rounding; whole numbers of eighths of a metre make all intermediate results exact; for n + 1/32 m the square of the distance from the earth's centre rounds down, which makes the root short by 2e-8 m and the quotient larger than one; off nadir the error of what is under the root is bounded by 0.17 m² and the quotient's numerator stays below its denominator |
| C107 | `niirs`, `niirs5` through the values of C70 and C71; `RealSensor.turned` exchanges the axes | each factor of the transfer function of the turned camera at (u, v) is that of the original at (v, u); cutoff frequency, elevation angle and overshoot are unique, so the values of both reports can be compared term by term |
| C108 | `giqe3D`, `giqe4D`, `giqe5D`, `rer5D`, `projectedGsdD` | arguments of logarithms are followed by the logarithm of the factor by which they are off (products add, powers scale, the sine does not magnify it on the first quadrant by concavity), the sums by an absolute error in units of 1e-15 times a bound of the size |
| C109 | `edgeResponse`, `relativeEdgeResponse`, `edgeHeightOvershoot`; `edgeResponseD`, `relativeEdgeResponseD`, `SumTree.sumD` | the edge response is affine in the slice and each term is bounded by `2π·ifov·|x|` times the sample; error calculus of C108 and induction over the summation tree; the jump is found at the smallest sharpening for which one of the eight differences vanishes (infimum of a closed set) |
| C110 | `niirs`, `niirs5`, `giqe3`, `giqe4`, `giqe5` on the values of C70 and C71 | the report of the noisier camera has the same geometry, cutoff, MTF and hence edge metrics, so the ratings are affine in the reciprocal of the SNR; order, strictness and unboundedness from the noise formula; the dark target is exhibited with optics from 2.8 µm, a detector from 8 µm and an atmosphere without sunlight |
| C111 | `niirs5` on the values of C71; `relativeEdgeResponse` | every component of the MTF is at most 1 below the cutoff (C92), and |sin x| ≤ |x| in each term of the trapezoid sum bounds the response by 2·ifov·c; with two samples per cycle the logarithm of the combined response is not positive, which discharges the side condition of C77, C78 and C110 |
| C112 | `otfToPsf`, `applyOtfToImage`, `simulateImage` | the raw transform is invariant under the point reflection of both indices; linear interpolation at mirrored positions, the crop and the mirror border commute with the reflection; the first moments of a symmetric kernel of sum 1 lie at its centre, which differs from the anchor `k / 2` by half a pixel for even `k`; linear interpolation of a ramp is the ramp at the position read |
| C113 | `applyOtfToImage`, `simulateImage` | the mirror border never brings two positions further apart (induction on their distance), so the filter reads at most half a kernel away; linear interpolation reads less than one pixel away or with weight 0; the true image is a map over the pixels, and two runs with the same sensor and scenario use the same OTF |
| C114 | `loadInterp`, `loadNoInterp`, `altitudeAlongSlantPath`, `flatSlantRange`, `niirs`, `simulateImage` | the squared distance from the Earth's centre along the line of sight is a quadratic whose slope at the target decides; one kernel evaluation over the whole decoder table with `cos x ≥ 1 - x²/2` for the rows present and `cos x ≤ 1 - x²/2 + 5x⁴/96` for those absent; interpolation needs the row at the lower altitude and the longer range, which is the hardest to see |
| C115 | `photonDetectorSNR`, `reflectanceToPhotoelectrons`, `commonOTFs`, `niirs`, `niirs5`, `simulateImage` | two-run statements: the listed attributes are made equal, the others are left free; for the scenario of `simulate_image` step by step through the monad, because its result also contains the scenario |
| C116 | `World`, `Scenario.step`, `niirs` | invariants over histories in which the files change: the cache holds the result of the first successful read, or nothing if all reads raised |
| C117 | `apertureD` | Lipschitz bounds in the half angle for each term of the MTF, relative error bounds for each operation, and a case split on the two tests that decide the inner region; two witnesses with exact mantissas |
| C118 | `systemD` and its components | relative error bounds for each argument; bounds for `x * exp(-x)` and for the sinc quotient turn them into absolute errors; induction over the weighted sum; products of factors in [-1, 1] |
| C119 | `hvD`, `coherenceD`, `r0D`, `friedD` | absolute errors of the slant range, nadir angle and law of cosines; logarithmic errors (`WithinFactor`) of the profile, the weights, the steps, the sum and the powers; bounds for the integral from bounds for the profile; Lipschitz bound of the turbulence MTF in the logarithm of the diameter |
| C120 | `gridUD`, `gridVD`, `stepD`, `sliceRadiusD`, `slicePointD`, `sliceD`, `giqe5RerD` | exact value of the rounded step of `linspace`; descending grid as the mirror image of the ascending one; bilinear interpolation next to a node; edge response as a sum of sinc terms, each Lipschitz in the logarithms of the step and field of view |
| C121 | `mtfGridD`, `giqe5RerD`, `niirs5D` | composition of C118 - C120 (MTF, slices, edges), C106 (geometry) and C108 (equation); error of the MTF carried through the edge response by the sensitivity lemma of C120; the relative edge response of a well sampled sensor bounded below by the first trapezoid |
| C122 | `giqeRadianceExpr`, `weightExpr`, `RadiometryComputed`, `keptPairs`, `niirs5D` | composition of C94 (spectra to signal-to-noise ratio) and C121; weights are sums of products without cancellation, so they vanish together with the exact ones and the same wavelengths are kept; the cancellation in the contrast is measured by the ratio of sum to difference of the counts. Simplification: the wavelengths and the atmosphere are taken as loaded (no rounding in the loader) |
| C123 | `Model/RoundedNoise` writes the operations of `metrics/functional.py`:337-379 as expressions; the specification in `Spec/RoundedNoise` says when scene outshines the air and what double precision reports. | (a): condition numbers of the two cancelling subtractions (`netExpr`, `sceneSquareExpr`) multiply; combined with C72 for the exact values. (b): both sides of the last subtraction go through the same chain of operations, so their ratio is known up to (1-u)^122, which a loss of a part in 2^46 exceeds; a radiance below 2^-55 of the camera's own is absorbed entirely. |
| C124 | `Model/DoubleNiirs` rounds every operation of `edge_height_overshoot`, `giqe_edge_terms` and of the two equations in `niirs`; `Spec/DoubleNiirs` says what a clear shape is. | (a): computed differences have the sign of the exact ones where these exceed the errors, so both take the same branch; maxima of nearby numbers are near. (b): the increments of an edge response are trapezoid sums of positive terms, the first of which (the MTF is 1 at frequency 0) is large enough. (c): C121 for slices and relative edge responses, C122 for the radiometry, C108 for the equations. |
| C125 | The model of `niirs5` (as for C76-C79); `Spec/Efficiency` gives the two changed cameras. | The interpolated efficiency scales with k, so the rates of electrons do up to the dark current and the weights of the wavelengths all scale alike, which leaves weighted means as they are; the exposure is the longest that respects the well, and x / sqrt(x a + Q) grows with x; the MTF falls with the exposure (C77). |
| C126 | `Model/References`: a heap of array objects with identities, sensor objects whose array attributes are references, report objects that refer to their sensor; programs over it. `Spec/References`: the same programs with copied arrays. The atmosphere arrays of scenarios are in C81; writing into the arrays of a report is not modelled. | Refinement: the contents of the heap are the copies as long as nothing is written (induction over the program); existing arrays are a prefix of later ones; ownership of an array as an invariant; the plots read only the focal length and the read noise of the sensor (C92 for the values). |
| C127 | `Model/Generator`: numpy's global generator as an arbitrary machine with a state, array draws as loops in row-major order, `simulate_image` with the state threaded through, sessions that also seed the generator or draw from it. The generator's own algorithm is outside the model. | The draws by induction over the pixels; sessions refine a reference without caches (the invariant of C80); replay and insertion from the reference; the wavelength, OTF and image stages do not read the read noise or the bit depth. |
| C128 | The models of `photon_detector_SNR`, `reflectance_to_photoelectrons`, `common_OTFs`, `niirs`, `niirs5` and `simulate_image`. | Positive scaling in the extended numbers commutes with the sums, maxima and roots that occur; each stage of a call is followed in turn, exceptions included; (d) from the closed form of the SNR (C70). |
| C129 | `Model/Logs`: `reflectance_to_photoelectrons` and `simulate_image` with the list of records they log. Number formatting and logging configuration are outside the model. | The logged versions return what C25 and C73 are about; the counts are proportional to the integration time, so the scaled table is the table of the announced time; sizes from C82. |
| C130 | The model of C60, C61 and C73; `Spec/Encoding` has the image with gain and offset. | Insertion sort, segment search and the line through two points commute with increasing affine maps; a decreasing one reverses the sorted table, and the broken line through a table is unique; percentiles of the negative are those of the complementary rank. |
| C131 | The model of C43, C18 and C85; `Spec/Angles` has the enlarged and the widened camera. | A positive factor cancels in quotients and moves through products and sums, infinities and NaN included; the selection of weights by wavelength is invariant; linearity of the rate in the radiance (C22). |
| C132 | The model of C75, C28 and C08. | The MTF of a clear aperture is a decreasing function of frequency over cut-off; the exponent of the short-exposure OTF falls as the aperture widens, and `exp (-z) < 1/z` gives the threshold; the aperture factor is `pi D^2/(D^2 + 4 f^2)`. |
| C133 | The model of C21, C22, C25 and C27. | The part tables agree with the whole table on their side of the cut; the in-band rows of the parts overlap in the row of the cut or not at all; trapezoid sums split at a shared sample. |
| C134 | The models of C01 - C27, C43 and C70 - C72 (exact arithmetic; overflow of Python floats is outside). Specification: `Spec/Raises.lean`, a verdict computed from the sensor and the loader's answer. | Every step returns an array of the right length or the announced exception; the loader's wavelengths are finite and distinct, so that the weighted average always selects one weight. |
| C135 | The models of C45 - C47 and C73. Specification: `Spec/ImageRaises.lean`. The value `outsideModel` stands for images with non-finite pixels (a point spread function that adds up to zero). | Case distinction; rounding half to even gives at most 0 exactly for numbers up to one half; bounds on the sides of the cropped point spread function. |
| C136 | The models of C29, C43 and C18. | The aperture OTF is the autocorrelation of the annular pupil (C29); inclusion and disjointness of discs; averages over wavelengths keep inequalities. |
| C137 | The models of C45 to C47 and C73. | The transform of C45 with its phase factor for odd sizes, orthogonality of characters (C84), resize and filter commute with left-right reflection; refuted for symmetric OTFs with the witness of a bright point. |
| C138 | The models of C45 to C47. | C85 for even and C137 for odd sizes; a finite double convolution sum; reflection at the border commutes with symmetric blurs; refuted for odd sizes with the witness of a bright point. |
| C139 | The models of C51, C65 and C73. | Counts are affine in the light of the air and of the scene; the signal-to-noise ratio is a difference times a factor which falls with the light of the air and rises with k, through the exposure cut; the spec `Hazier` compares two atmospheres row by row. |
| C140 | The models of C10, C11, C70 and C71. | The triangle of sensor, target and centre of the Earth: the drop below the sensor and the offset to its side; the size of a pixel on the ground to the power 4 is a power of the distance over the drop, compared by polynomial inequalities. |
| C141 | `gaussianD`, `defocusD`, `wavefront2D`, `cteD`, `aggregationD`, `diffusionD` | relative error bounds for each argument carried through reciprocals, roots and squares; the bound for `exp(-x)` of C118; the cosine is 1-Lipschitz; induction over the aggregation loop |
| C142 | `percentileD` (numpy's interpolation from the nearer neighbour), `stretchContrastD` | the percentile is a rising broken line in the position, hence Lipschitz even where rounding moves the position into the next cell; sorting commutes with rising curves, which carries the errors of the shifted pixels to the second percentile; monotone rounding for the order |
| C143 | `segmentD`, `interp1dSegD`, `imgToReflectanceD`, `interpFromD`, `trueImageD` | error of one segment relative to its size; truncation to [0, 1] absorbs the errors of extrapolated values; both models select the same segment (induction over the table); convex combination of table entries close to a straight line |
| C144 | `resizePositionD`, `resizeCoordD`, `mixD`, `cvResizeD`, `filter2DD`, `blurResampleD` | interpolation in one direction is a broken line, which is Lipschitz, so positions rounded across a pixel boundary do no harm; rows then columns; induction over the order of additions for the blur; kernels of 50 and more entries (Fourier transforms in OpenCV) enter with an assumed error |
| C145 | `finishPsf`, `imgSumD`, `normalizeD`, `supportSizeD`, `finishPsfD` | error of a signed sum by induction over the order of additions (C144), conditioned by the ratio of gross to net sum; quotients with relative errors; both searches take the same branch because no share is near the threshold; composition with C144 for flat images. The Fourier transform and the resampling come before (C144 for the latter) |
| C146 | composition of `trueImageD` (C143), `finishPsfD` (C145) and `blurResampleD` (C144) | the blur of a perturbed image with a perturbed kernel differs from the blur of the exact ones by a product of 1-norm and maximum; then the rounding bounds of C144; pixels of the true image lie between black and white because the table is affine; nonnegativity stage by stage. The noise draws and the Fourier transform are not in it |
| C147 | `simFreqUD`, `simFreqVD`, `simStepD`, `simIfovD`, `quantizationNoiseD`, `simNoiseD`, `simSizeD`, `simPsfSizeD` | the double next to 2/1500 written out, its 750-fold rounds to one; absolute errors for the grid; relative errors of squares, sums and roots; quotients by factors (`WithinFactor`), arctan by concavity; sizes by C101 with a margin for the errors of the operands. `2.0**bit_depth` is exact |
| C148 | `wienerD`, `objectRadiiD`, `imageRadiiD`, `darkCurrentD` | the error calculus of C108 (`Apx`); signs by monotonicity of rounding; the lost defocus by writing out the doubles next to two reciprocals. `np.abs` of a complex number is a parameter |
| C149 | `grdNodeD`, `grdFreqD`, `grdCrossD`, `grdD` | induction over the slice for the resolved frequency with the error of one interpolation step (C143); the rounded threshold is taken as that of another SNR; relative errors through the reciprocal and the maximum |
| C150 | `tdiXD`, `tdiPhaseD`, `tdiPartD` | relative error bounds for the phases (`Apx`), Lipschitz bounds for cosine and sine, induction over the accumulated sum (as for the aggregated detectors of C141), then the product with the sinc. Real and imaginary parts are separate |
| C151 | `focusedD` | the difference of angle and sine is Lipschitz in the cosine of the angle (C117), so that errors of the arccosine's argument are harmless although the arccosine itself is not; relative errors of the other operations. `w20` and `alpha`, unused without defocus, are left out |
| C152 | `remainderD`, `nyquistD`, `wrapD`, `tableUD`, `tableVD` | case split on the sign of the quotient; monotone rounding keeps the remainder between zero and the divisor, which is a double because twice a double is one. The lookup itself is in exact arithmetic only (C44) |
| C153 | `bandD`, `weightedD`, `friedD` | relative errors of running sums of numbers that are not negative, by induction over the list; the coherence diameter at each wavelength by C119 |

All properties can be expressed in the model. Where the English property is false of the code, the theorem states the
negation with a witness (see "Findings").

## Findings (places where the code disagrees with its documentation or a reader's expectation)

1. The interpolation grid says 32.55 m, the decoder 32.5 m: every interpolated request with altitude in (2, 75) m raises `IndexError` (C08).
2. `Sensor`'s default `w_y` uses the inverted fill factor (C64).
3. `reflectance_to_photoelectrons` ignores its `target_temp` argument (C26).
4. `niirs`/`niirs5` overwrite the caller's scenario; the emissive target temperature ends at 280 instead of 282 K (C57).
5. `niirs5` resets the caller's `sensor.filter_kernel` (C58).
6. The elevation angle of `niirs` is too large by the earth-centre angle (C13).
7. `filter_OTF`'s lookup grid puts the DC sample at `nyquist/99`, not 0 (C44).
8. `otf_to_psf` raises `UnboundLocalError` for OTFs with a side of at most 10 samples, and uses `fftshift` where `ifftshift` is needed for odd sizes (C45).
9. `giqe3` rewards negative SNR (C53); `giqe4` is discontinuous at RER 0.9 (C54).
10. `slice_otf` at angles with negative cosine is reversed because `interp2d` sorts its arguments (C48).
11. `img_to_reflectance` with one calibration point returns `nan` instead of raising (C60).
12. `estimate_capture_parameters` with its default altitude yields a scenario whose atmosphere cannot be loaded (C62).
13. `circular_aperture_OTF_with_defocus` puts the Bessel differences inside the sines (`sin(2*beta*(J1-J3))`) and uses the factor `2/(pi*alpha)`; Hopkins' formula has them outside with `4/(pi*alpha)`. The zero-defocus limit is nevertheless right (C30). C88 proves the consequence: at half the cutoff the returned contrast loss is, for small defocus, more than twice that of the defocused aperture.
14. `circular_aperture_OTF` with `eta = 1` returns `+inf` at zero frequency and NaN elsewhere, although the constructor admits such a sensor (C29).
15. The short-exposure turbulence OTF exceeds 1 far beyond the diffraction cutoff (C37).
16. `weighted_by_wavelength` with a single wavelength accepts surplus weights (which silently dilute the result); a wavelength listed twice raises `ValueError` for grids of three or more columns (C40).
17. `giqe_edge_terms` takes the geometric mean of two edge responses: two negative ones are reported as positive, one negative one as NaN (C59).
18. `ground_resolved_distance` rewards a negative SNR like a positive one (C56).
19. `niirs` rewrites the scenario even when it fails after the atmosphere has been loaded (C57), and a kernel that does not sum to 1 raises `ValueError` only after all calculations (C70).
20. `get_middle` of a point spread function smaller than the crop takes a negative slice and drops rows (C45).
21. Duplicate pixel values in a calibration give black, white or NaN pixels depending on the order (C60).
22. `stretch_contrast_convert_8bit` of a constant image divides zero by zero (C61).
23. `simulate_image` uses the flat-Earth distance where `niirs` uses the curved-Earth one, and always the full integration time (C73). Its 1501 x 1501 grid is odd, so finding 8 applies: the point spread function is multiplied by a cosine (C76).
24. `simulate_image` documents a `ValueError` for decreasing frequencies; it cannot occur for a positive aperture (C73). A negative lobe of the point spread function can instead make `np.random.poisson` raise (C73, C74).
25. For coarse reference images `simulate_image` silently omits the blur (C76).
26. `Scenario.atm` hands out its cached array itself: a client that modifies the array changes later simulations with that scenario until one of the three parameters is assigned (C81).
27. `otf_to_psf` uses the row spacing `1 / (M df)` for the columns too: for a non-square OTF the PSF is not resampled to the requested spacing along the columns (C83).  A PSF of 4 to 9 pixels a side is cropped to a corner for some candidate sizes because negative slice starts count from the end; the search only recovers because it goes on to sizes three times the side (C83, C45).
28. `apply_otf_to_image` correlates with the point spread function (`cv2.filter2D`) instead of convolving: for an asymmetric PSF (a complex OTF) the image is blurred with the mirrored PSF (C85).
29. `plot_common_MTFs` calls `plt.annotate` with the keywords `xy_text`, `arrow_props` and `face_color`; matplotlib's names are `xytext`, `arrowprops` and `facecolor`, so with the real library the call is expected to raise after the curves are drawn. This rests on knowledge of matplotlib, not on the model, which stops at the numbers handed over (C92). `plot_noise_terms` has no bar for the sensor's `other_noise`: its bars add up to the total only if there is none (C92_noise_niirs).
30. `Scenario` is not safe for a thread that assigns `altitude`, `ground_range` or `ihaze` while another one reads `atm` (C95): the read can return `None` (the cache is looked at twice, `scenario.py`:154, 165), and it can put the atmosphere of the old value into the cache of the scenario with the new value (the setters clear the cache before they assign, `scenario.py`:115-116), where it stays. Proved as `C95_reader_can_get_none` and `C95_stale_after_race`. The order of the two statements of the setters is right for interrupts (C96).
31. `noise_gain` compares a floating-point sum with 1.0 (`noise.py`:57): the kernel `[[0.7, 0.1, 0.1, 0.1]]` sums to one but its floating-point sum is 1 - 2^-53, so `niirs` raises `ValueError` for a sensor with it (C101_decimal_kernel).
32. `slice_otf` uses `np.arange(0.0, 1.0, step)` with a computed step (`otf/functional.py`:1176): for some odd sizes, e.g. 21, the slice has one sample more than for others (C101_slice_sizes). The size 101 used by `niirs` and `plot_common_MTFs` is not affected.
33. `otf_to_psf` truncates a quotient that is an integer in exact arithmetic when both spacings agree (`otf/functional.py`:940-941): 43 samples at spacing 0.1 become 42 (C101_psf_shrinks). `resample_2D` rounds and is not affected.
34. The band filters compare computed table wavelengths with the ends of the sensor's band (`metrics/functional.py`:307-308, `radiance/functional.py`:580-581): a band that begins at 2.24 µm or ends at 1.38 µm loses the row at that wavelength, which exact arithmetic keeps (C101_band_edge).
35. The central obscuration reduces the transmitted scene light but emits nothing: in thermal equilibrium an obscured camera receives less than the black body's irradiance, by the obscured part of the aperture (C102_obscuration). `total_radiance` of a reflecting target does not contain the reflected thermal radiation of its surroundings, so in equilibrium it is darker than a black body by the fraction `reflectance` (C102_scene).
36. `np.fromfile` ignores one to three surplus bytes at the end of a database file, so a file of 27421 to 27423 bytes is accepted without notice (C103_accepted); four surplus bytes are an error.
37. `niirs` is not safe next to `niirs5` on the same sensor: `niirs5` replaces `filter_kernel` while `niirs` reads it three times, so the report can combine the sharpened OTFs with the noise gain 1, describing no sensor, or `np.fft.fft2` can raise `AxisError` on the 1-D kernel (C104_overtaken, C104_index_error, C104_witness). A kernel whose sum is not 1 can also escape the check in `noise_gain` that way.
38. `blackbody_radiance` of a cold body at a short wavelength (`h c / (λ k T) ≥ 711`, e.g. 67 K at 0.3 µm) overflows in `np.exp` and returns 0 with a `RuntimeWarning`; the exact value is positive but below 1e-280 (C105_cold).
39. Looking straight down (`ground_range = 0`) from an altitude that is not a multiple of 1/8 m, `nadir_angle` often returns NaN, because the quotient whose arc cosine it takes exceeds one in the last place (C106_nadir_nan, C106_flat_nan; about half of all altitudes when tried in plain floating point). The elevation angle, `niirs_4`, the GIQE 5 score and, as the turbulence profile is NaN too, every OTF with `cn2_at_1m > 0` are then NaN. The altitudes of the database escape, except 32.55 m, where the nadir angle comes out 0.0035 instead of 0. A clip of the quotient to [-1, 1] would cure it.
40. `niirs5` takes the ground sample distance from the x pitch alone, while the relative edge response is the geometric mean of both directions. With detectors that are not square the score therefore depends on which axis is called x: by 3.32 log10(p_x/p_y), one whole NIIRS for a ratio of two (C107_pitch). A comment in the code says GIQE 5 assumes square detectors, but nothing checks it; `niirs` uses the geometric mean and is symmetric.
41. A sharpening kernel of one row is not applied to the transfer function (only kernels with more than one row are), but its noise gain is charged to the score, so it can only lower the GIQE 3 result (C107_row_kernel).
42. `edge_height_overshoot` is discontinuous in the MTF (C109): as soon as one of the eight differences between 1 and 3 pixels stops being positive the result changes from the response at 1.25 pixels to the largest response. Two slices that differ by an arbitrarily small amount can differ by more than 0.1 in the overshoot, hence by more than 0.14 in the GIQE 3 score. The definition is that of the cited paper; the edge response itself is continuous.
43. The standard target of the ratings can be darker than the standard background (C110). `giqe_radiance` chooses the reflective pair (0.15 at 282 K, 0.07 at 280 K) from the first wavelength of the optics table alone; if that is below 2.9 µm but the detector only answers to thermal infrared, the background emits more and the contrast SNR is negative. `niirs` and `niirs5` then subtract a negative noise term, so that noise improves the rating without bound. No check or warning.
44. The simulated image can be displaced by half a reference pixel (C112). `otf_to_psf` crops the resampled point spread function to a size with the parity of `int(1 / (df * dx_out))` (`otf/functional.py`:940-967). If that is even, the centre of a symmetric point spread function lies between two pixels, but `cv2.filter2D` (`otf/functional.py`:1288) anchors the kernel at `k / 2`; the blurred image is moved by half a reference pixel down and right. Whether it happens depends only on the parity of a number that changes with the GSD, the distance, the aperture and the shortest wavelength; perfect optics with 11 samples return the image for 11 pixels and the displaced image for 12 (C112_displaced).
45. The decoder table has 24.5 km (documented) and 550 km (undocumented, ground range 0 only); the interpolating loader rejects both with `IndexError`, because its altitude list ends at 20 km (C114).
46. `curved_earth_slant_range`, `nadir_angle` and `altitude_along_slant_path` do not check the horizon: called directly, they return a path through the Earth (C114). The database does not contain such a request.
47. `Sensor.other_irradiance`, documented as "particularly useful for self emission in infrared cameras and may also represent stray light", is read by no function: the SNR calculation uses only the self emission it computes itself (C115).
48. `simulate_image` ignores `max_well_fill` and `other_noise`, which `niirs` honours, so its images are less noisy than the SNR of `niirs` says whenever `other_noise` is set (C115).
49. In a process that outlives an upgrade of the data files, `simulate_image` goes on with the atmosphere the scenario holds while `niirs` reads the new one, for the same scenario object (C116).
50. `circular_aperture_OTF` decides twice whether a frequency is in the inner region, by `rho < (1 - eta) * r0 / 2` and by whether `arccos` returns NaN, and in double precision the two can differ. The obscured MTF then jumps by `2 eta^2 / (1 - eta^2)` at `rho = (1 - eta) * r0 / 2`: below -0.38 for an obscuration of 0.64, 0.12 too large for 0.24, both at samples of the 101-point grid of `niirs` for the wavelength that sets the cutoff. The MTF of an obscured aperture is thus not confined to [0, 1] (C117; C29 is about real arithmetic).
51. `niirs`/`niirs5`, `scene_noise` (`metrics/functional.py`:379, 540): the irradiance of the camera is added to that of the scene and subtracted again (:339), which in double precision can leave less than was there. In opaque air (or where the atmosphere's transmission underflows to 0) target, background and path have the same photoelectrons, so the number under the root is then negative: `scene_noise` is NaN (with a RuntimeWarning) although its exact value is 0 (C72). C123_nan, C123_warm; `lost_example` shows that the path may be brighter than 1/256 of the camera's own light.
52. `Sensor.__init__` makes `qe_wavelengths` the same array object as `opt_trans_wavelengths` and as the caller's array (`sensor.py`:176, 208): converting units in place through one attribute converts the other, and every sensor made from that array (C126).
53. `plot_common_MTFs` and `plot_noise_terms` read `f` and `read_noise` from the sensor object the report refers to, not from the report (`metrics/functional.py`:695, 742, 778): plotting an old report after the sensor was changed draws old curves against a rescaled axis with a misplaced Nyquist marker, or bars that do not add up to the total (C126).
54. The message "Reducing integration time from ... to ..." is true of the photoelectron table only: `simulate_image` keeps the full time for motion blur and turbulence (C129_images, C129_drift).
55. The oversampling warning of `simulate_image` compares rows only, so a wide image with few rows can be oversampled silently (C129_columns).
56. Cutting a band between two wavelengths of the atmosphere table loses light: neither camera integrates over the panel that contains the cut (C133_gap). The code crops to the samples inside the band and does not interpolate at the band's edges. The same holds for a single camera whose band does not start and end on the 0.01 µm grid.
57. A band that contains none of the database's wavelengths (for example one given in micrometres), or a sensor that detects nothing in its band, is not diagnosed: both ratings stop with numpy's `ValueError` for the minimum of an empty array (C134_out_of_band).
58. `apply_otf_to_image` (and with it `simulate_image`) also resamples the point spread function it returns (`otf/functional.py`:1291-1294); if this leaves no pixel the call stops with `cv2.error`, although the image itself, of whatever size, could be resampled. With perfect optics this happens as soon as the camera's pixels are 22 times as wide as the image's (C135_large_image).
59. With an odd number of OTF samples (the simulator always uses 1501) `otf_to_psf` multiplies the point spread function by `cos(2 pi (a + b) / M)` (`np.fft.ifft2(np.fft.fftshift(...))` where `ifftshift` was needed, then the real part): mirror-symmetric optics get a point spread function without mirror symmetry (C137_psf, C137_bright, C137_simulator). At 1501 samples the error of a compact point spread function is below 0.1 % (C137_close).
60. With an odd number of OTF samples blurring in two steps is not blurring with the product of the OTFs (C138_odd), a consequence of the cosine factor of finding 59; with an even number it is (C138_steps, C138_everywhere).
61. A higher camera is not a worse camera: above a point beside the target, the GIQE 5 rating of niirs5 rises with altitude while the target is seen more than 63.4 degrees away from straight down (C140_climb); at the same altitude it always falls with the distance along the ground (C140_further).
62. `cv2.resize` keeps source positions in single precision: in an image of 10 000 pixels a side they may be off by 0.0007 pixels, and the bound on a resampled pixel grows with the size of the image (C144_resample), unlike every other double-precision bound here.
