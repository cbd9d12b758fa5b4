{"id": "C01", "title": "Scenario.atm never serves a stale atmosphere", "statement": "After any sequence of assignments to ihaze / altitude / ground_range (and to the unrelated public attributes) interleaved with reads of .atm, including reads that raised, a read of .atm returns (or raises) exactly what loading the database afresh for the current three parameter values returns (or raises), in interpolating and non-interpolating scenarios alike.", "quantifier": "every finite history of attribute writes and atm reads on a Scenario, every database content", "why_tests_cant": "histories are unbounded; a test only visits a few interleavings of writes, reads and failing reads", "anchors": ["src/pybsm/simulation/scenario.py:Scenario.atm", "src/pybsm/simulation/scenario.py:Scenario.ihaze", "src/pybsm/simulation/scenario.py:Scenario.altitude", "src/pybsm/simulation/scenario.py:Scenario.ground_range"]}
{"id": "C02", "title": "Scenario.atm loads at most once between parameter changes and never caches a failure", "statement": "Between two parameter assignments the database is consulted again only while every previous consultation has failed; once a read has succeeded all further reads perform no load, and a failed read leaves the scenario exactly as it was.", "quantifier": "every history of writes and reads", "why_tests_cant": "counts loads over unbounded histories", "anchors": ["src/pybsm/simulation/scenario.py:Scenario.atm"]}
{"id": "C03", "title": "No-interpolation lookup returns the one database record with the requested key", "statement": "load_database_atmosphere_no_interp(alt, rng, ihaze) returns the record whose decoder row has exactly that altitude, ground range and haze code; keys are unique in the decoder, and if there is no such row, or its file is missing, IndexError is raised and nothing else.", "quantifier": "every real altitude and range, every haze code, every contents of the .bin files", "why_tests_cant": "the key space is infinite and uniqueness concerns all pairs of the 3430 decoder rows", "anchors": ["src/pybsm/utils.py:load_database_atmosphere_no_interp", "src/pybsm/atms/fileDecoder.csv"]}
{"id": "C04", "title": "Layout and units of a loaded atmosphere", "statement": "A loaded atmosphere has 1371 rows and 6 columns; column 0 is the uniform grid 0.30e-6 .. 14.0e-6 m in 0.01e-6 m steps, column 1 is the transmission read from the file unchanged, columns 2..5 are the file's radiance columns multiplied by 1e10; a file of the wrong size is rejected with ValueError.", "quantifier": "every file content and every (row, column)", "why_tests_cant": "holds for every row and every byte content", "anchors": ["src/pybsm/utils.py:load_database_atmosphere_no_interp"]}
{"id": "C05", "title": "Interpolated lookup rejects what is outside the database and brackets what is inside", "statement": "load_database_atmosphere raises IndexError for an altitude outside [2, 20000] m or a ground range that is negative or beyond the 300 km grid; otherwise the grid altitudes and ranges it uses bracket the request and are adjacent grid values.", "quantifier": "every real altitude, ground range and haze code", "why_tests_cant": "infinitely many queries between grid values", "anchors": ["src/pybsm/utils.py:load_database_atmosphere"]}
{"id": "C06", "title": "Interpolated lookup is exact at grid points", "statement": "If altitude and ground range are both grid values, load_database_atmosphere returns exactly the record returned by load_database_atmosphere_no_interp (or raises exactly when that does).", "quantifier": "every grid altitude, grid range, haze code, database content", "why_tests_cant": "ranges over the whole grid and all contents", "anchors": ["src/pybsm/utils.py:load_database_atmosphere", "src/pybsm/utils.py:load_database_atmosphere_no_interp"]}
{"id": "C07", "title": "Interpolated atmosphere is the bilinear blend of the four corner records", "statement": "Every column of an interpolated atmosphere is the bilinear blend, with weights in [0,1] summing to one, of the corner records; hence it lies between the smallest and largest corner value, transmission stays in [0,1], radiances stay non-negative and the wavelength column is unchanged.", "quantifier": "every in-range request, every row and column", "why_tests_cant": "continuum of requests", "anchors": ["src/pybsm/utils.py:load_database_atmosphere"]}
{"id": "C08", "title": "Which interpolated requests succeed (and the low-altitude gap)", "statement": "With a complete database every request with altitude in [8000, 20000] m and ground range in [0, 300000] m succeeds; on the other hand every request with altitude strictly between 2 m and 75 m fails with IndexError, because the interpolation grid says 32.55 m while the decoder file says 32.5 m.", "quantifier": "every real altitude and ground range in those intervals, both haze codes", "why_tests_cant": "continuum of requests over a 3430-row table", "anchors": ["src/pybsm/utils.py:load_database_atmosphere", "src/pybsm/atms/fileDecoder.csv"]}
{"id": "C09", "title": "Interpolated lookup is consistent across cell borders", "statement": "Two requests that approach the same grid altitude (or range) from either side agree in the limit: the interpolated atmosphere is a continuous function of altitude and of ground range wherever it is defined.", "quantifier": "every cell border", "why_tests_cant": "limits are not testable by sampling", "anchors": ["src/pybsm/utils.py:load_database_atmosphere"]}
{"id": "C10", "title": "Curved-earth slant range is a distance", "statement": "curved_earth_slant_range(h_target,h_sensor,g) is symmetric in the two heights, at least |h_sensor-h_target| with equality at g=0, agrees with the law of cosines, is never NaN, and is strictly increasing in ground range up to half way round the earth.", "quantifier": "every pair of heights >= 0 and every ground range", "why_tests_cant": "monotonicity and bounds over reals", "anchors": ["src/pybsm/geospatial.py:curved_earth_slant_range"]}
{"id": "C11", "title": "nadir_angle is the geometric nadir angle", "statement": "For every triangle (earth centre, target, sensor) nadir_angle applied to the slant range computed by curved_earth_slant_range is the angle of that triangle at the sensor; it is 0 when the target is directly below, never NaN and at most pi; it raises ZeroDivisionError exactly when slant range is a Python float equal to zero (for a sensor above the earth's centre).", "quantifier": "all heights, ranges", "why_tests_cant": "continuum of geometries", "anchors": ["src/pybsm/geospatial.py:nadir_angle", "src/pybsm/geospatial.py:curved_earth_slant_range"]}
{"id": "C12", "title": "altitude_along_slant_path samples the straight line of sight", "statement": "altitude_along_slant_path returns 10000 path positions equally spaced from 0 to the slant range together with 10000 altitudes; for the slant range of curved_earth_slant_range the altitudes begin at the target height and end at the sensor height, and the k-th altitude is the height above the sphere of the point of the straight target-sensor segment at distance z_path[k] from the target.", "quantifier": "every geometry and every sample index", "why_tests_cant": "10000 samples for every geometry", "anchors": ["src/pybsm/geospatial.py:altitude_along_slant_path"]}
{"id": "C13", "title": "niirs elevation angle versus true elevation at the target", "statement": "pi/2 - nadir_angle (the elevation angle niirs and niirs5 use) exceeds the true elevation angle of the sensor seen from the target by exactly the earth-centre angle ground_range/R, so it is exact only for a target directly below.", "quantifier": "every geometry with the sensor above the target's horizon", "why_tests_cant": "geometric identity over all inputs", "anchors": ["src/pybsm/metrics/functional.py:niirs", "src/pybsm/metrics/functional.py:niirs5", "src/pybsm/geospatial.py:nadir_angle"]}
{"id": "C14", "title": "Ground sample distance is the small-angle footprint", "statement": "ground_sample_distance is the small-angle footprint slant_range*ifov: proportional to each argument, monotone, zero only at zero; it never exceeds the exact flat footprint 2*slant_range*tan(ifov/2) for 0<=ifov<pi.", "quantifier": "every slant range and ifov", "why_tests_cant": "continuum", "anchors": ["src/pybsm/geospatial.py:ground_sample_distance", "src/pybsm/simulation/ref_image.py:RefImage.estimate_capture_parameters"]}
{"id": "C15", "title": "Blackbody radiance is positive and increasing in temperature", "statement": "For every positive wavelength and temperature blackbody_radiance equals Planck's law, is positive and strictly increasing in temperature, and satisfies Wien scaling B(a*lam,T/a)=B(lam,T)/a^5; a zero temperature yields exactly 0, and a zero wavelength with finite temperature yields NaN.", "quantifier": "every wavelength and temperature >= 0", "why_tests_cant": "continuum", "anchors": ["src/pybsm/radiance/functional.py:blackbody_radiance"]}
{"id": "C16", "title": "Focal plane irradiance is linear in radiance and physically bounded", "statement": "at_focal_plane_irradiance multiplies the radiance by pi/(1+4(f/D)^2): linear in the radiance, between 0 and pi*L for L>=0, strictly decreasing with focal length and increasing with aperture; it raises ZeroDivisionError exactly for a zero Python-float aperture; cold-shield emission plus cold-stop emission account for exactly the hemispherical blackbody emission pi*B when shield and stop have equal temperatures and unit emissivity.", "quantifier": "every D, f, radiance, temperature", "why_tests_cant": "continuum", "anchors": ["src/pybsm/radiance/functional.py:at_focal_plane_irradiance", "src/pybsm/radiance/functional.py:cold_shield_self_emission", "src/pybsm/radiance/functional.py:cold_stop_self_emission"]}
{"id": "C17", "title": "check_well_fill keeps counts within the well", "statement": "check_well_fill returns 1 when the count is at or below the limit and limit/count otherwise; scale*count equals min(count, limit) whenever the count is positive and 0<=scale<=1 whenever the limit is nonnegative. A zero count over a negative limit raises ZeroDivisionError (Python numbers) or gives minus infinity; an infinite count gives 0; a NaN is not scaled.", "quantifier": "every count and limit", "why_tests_cant": "continuum", "anchors": ["src/pybsm/radiance/functional.py:check_well_fill"]}
{"id": "C18", "title": "SNR calculation never overfills the well and shortens integration time consistently", "statement": "Whenever photon_detector_SNR succeeds on a sensor with positive max_n and nonnegative max_well_fill and finite counts, the reported well_fraction is at most max_well_fill, the reported integration time is at most sensor.int_time, and the target and background counts are their detection rates times the reported integration time times n_tdi.", "quantifier": "every sensor, radiance spectrum", "why_tests_cant": "continuum", "anchors": ["src/pybsm/radiance/functional.py:photon_detector_SNR"]}
{"id": "C19", "title": "Swapping target and background flips only the sign of the contrast", "statement": "Exchanging target and background spectra in photon_detector_SNR negates contrast_signal and snr and leaves the integration time, well fraction and every noise term unchanged; identical spectra give zero contrast.", "quantifier": "every sensor and pair of spectra", "why_tests_cant": "continuum", "anchors": ["src/pybsm/radiance/functional.py:photon_detector_SNR"]}
{"id": "C20", "title": "Noise budget is the root-sum-square of its parts", "statement": "photon_detector_SNR's total_noise^2 = signal_noise^2 + quantization_noise^2 + read_noise^2 + sum of other_noise^2 with signal_noise^2 = max(tgt_n, bkg_n), hence total noise is at least each of those terms and snr = contrast/total_noise satisfies snr^2 <= max(tgt_n,bkg_n) for nonnegative counts (the photon-noise limit).", "quantifier": "every sensor and spectra for which the counts are finite and nonnegative", "why_tests_cant": "continuum", "anchors": ["src/pybsm/radiance/functional.py:photon_detector_SNR"]}
{"id": "C21", "title": "resample_by_wavelength fills gaps with zero and reproduces knots", "statement": "resample_by_wavelength returns one value per new wavelength, reproduces tabulated values, interpolates linearly between neighbours (so never leaves the table's range), and is 0 outside the table.", "quantifier": "every table and every list of new wavelengths", "why_tests_cant": "continuum and unbounded length", "anchors": ["src/pybsm/radiance/functional.py:resample_by_wavelength"]}
{"id": "C22", "title": "Signal rate is linear in radiance", "statement": "signal_rate equals, at every spectrum length, dark_current plus the trapezoid integral of (lambda/hc)*qe*w_x*w_y*(transmission*pi/(1+4(f/D)^2)*radiance + other irradiance): it is affine and monotone in the radiance and non-negative for non-negative spectra on increasing wavelengths; mismatched spectrum lengths raise ValueError.", "quantifier": "every spectrum of every length", "why_tests_cant": "unbounded spectra", "anchors": ["src/pybsm/radiance/functional.py:signal_rate", "src/pybsm/radiance/functional.py:photon_detection_rate", "src/pybsm/radiance/functional.py:focal_plane_integrated_irradiance"]}
{"id": "C23", "title": "total_radiance is affine in reflectance", "statement": "total_radiance at each wavelength is path thermal + (1-reflectance)*transmission*blackbody + solar scatter + ground-reflected*reflectance/0.15: affine in reflectance, strictly increasing in reflectance exactly where ground-reflected/0.15 exceeds transmission*blackbody, increasing in temperature for reflectance<=1, and nonnegative for reflectance in [0,1] on nonnegative atmospheres; it reproduces the database's own sum at reflectance 0.15.", "quantifier": "every atmosphere, reflectance, temperature", "why_tests_cant": "continuum", "anchors": ["src/pybsm/radiance/functional.py:total_radiance"]}
{"id": "C24", "title": "giqe_radiance picks the documented spectral regime", "statement": "giqe_radiance returns, for the reflective setting, the total radiances of a 0.15-reflectance 282 K target and a 0.07-reflectance 280 K background, and for the emissive setting those of black 282 K and 280 K bodies; in the emissive setting the target is never dimmer than the background at any wavelength of a nonnegative atmosphere.", "quantifier": "every atmosphere", "why_tests_cant": "all spectra", "anchors": ["src/pybsm/radiance/functional.py:giqe_radiance"]}
{"id": "C25", "title": "Reflectance to photoelectrons fits the well", "statement": "reflectance_to_photoelectrons returns 100 reflectances equally spaced on [0,1] and matching photoelectron counts that never exceed a positive max_n and are an affine function of reflectance (also after rescaling for saturation), and spectral weights that are nonnegative with maximum exactly 1.", "quantifier": "every finite atmosphere and sensor with positive spectral weights", "why_tests_cant": "continuum", "anchors": ["src/pybsm/radiance/functional.py:reflectance_to_photoelectrons"]}
{"id": "C26", "title": "reflectance_to_photoelectrons and its target_temp argument", "statement": "The documented target_temp argument of reflectance_to_photoelectrons has no effect: results are identical for every two target temperatures.", "quantifier": "every two target temperatures", "why_tests_cant": "independence of an argument is universally quantified", "anchors": ["src/pybsm/radiance/functional.py:reflectance_to_photoelectrons"]}
{"id": "C27", "title": "Only the sensor's band is used", "statement": "Atmosphere rows whose wavelength is outside [opt_trans_wavelengths[0], opt_trans_wavelengths[-1]] have no influence on reflectance_to_photoelectrons or on the atmosphere niirs and niirs5 use.", "quantifier": "every two atmospheres agreeing inside the band", "why_tests_cant": "non-interference", "anchors": ["src/pybsm/radiance/functional.py:reflectance_to_photoelectrons", "src/pybsm/metrics/functional.py:niirs"]}
{"id": "C28", "title": "Unobscured circular-aperture OTF is a valid diffraction MTF", "statement": "With eta=0, for every frequency the OTF is the Hopkins chord formula: 1 at zero frequency, strictly between 0 and 1 inside the cutoff D/lambda, exactly 0 at and beyond it, decreasing in radial frequency, radially symmetric and never NaN; D/lambda raises ZeroDivisionError for a zero Python-float wavelength.", "quantifier": "every frequency pair, every D>0, lambda>0", "why_tests_cant": "continuum; NaN masking cases", "anchors": ["src/pybsm/otf/functional.py:circular_aperture_OTF"]}
{"id": "C29", "title": "Obscured circular-aperture OTF vanishes beyond cutoff and is 1 at DC", "statement": "For 0<eta<1 the OTF is 1 at zero frequency, 0 at and beyond the cutoff, radially symmetric, never NaN, lies in [0,1], and equals the normalised annulus autocorrelation; for eta=1 there is no OTF: the value is infinite at zero frequency and NaN elsewhere.", "quantifier": "every frequency, 0<eta<1", "why_tests_cant": "continuum; NaN masking", "anchors": ["src/pybsm/otf/functional.py:circular_aperture_OTF"]}
{"id": "C30", "title": "Defocused-aperture OTF support and symmetry", "statement": "circular_aperture_OTF_with_defocus is 1 at zero frequency, 0 beyond the cutoff, depends on the frequencies only through the radial frequency, is never NaN; with zero defocus it equals circular_aperture_OTF without obscuration, and it tends to that value as the defocus tends to zero.", "quantifier": "every frequency, D, lambda, f, defocus", "why_tests_cant": "continuum", "anchors": ["src/pybsm/otf/functional.py:circular_aperture_OTF_with_defocus"]}
{"id": "C31", "title": "Charge-transfer-efficiency OTF", "statement": "cte_OTF is 1 at zero frequency, in (0,1] everywhere for 0<=efficiency<=1, equal to 1 for perfect transfer, decreasing in the number of transfers, periodic in frequency with the sampling frequency.", "quantifier": "every frequency, pitch, transfer count, efficiency", "why_tests_cant": "continuum", "anchors": ["src/pybsm/otf/functional.py:cte_OTF"]}
{"id": "C32", "title": "Detector OTF", "statement": "detector_OTF is even in both frequencies, 1 at zero, at most 1 in magnitude, zero at multiples of f/w, and separable.", "quantifier": "every frequency, detector size, focal length", "why_tests_cant": "continuum", "anchors": ["src/pybsm/otf/functional.py:detector_OTF"]}
{"id": "C33", "title": "Detector aggregation behaves like one big detector", "statement": "detector_OTF_with_aggregation with n=1 equals detector_OTF; with fill factor one, n aggregated detectors equal one detector n times as large; |H|<=1 and H(0)=1 for every n>=1.", "quantifier": "every n, frequency", "why_tests_cant": "induction on n", "anchors": ["src/pybsm/otf/functional.py:detector_OTF_with_aggregation", "src/pybsm/otf/functional.py:detector_OTF"]}
{"id": "C34", "title": "Diffusion OTF", "statement": "For positive absorption, diffusion_OTF is 1 at zero frequency, in (0,1] everywhere, depends only on radial frequency and is decreasing in it; a zero Python-float diffusion length raises ZeroDivisionError. It is the share of light collected as charge for the fringe relative to uniform light, with the diffusion length shortened to L, 1/L^2 = 1/l^2 + (2 pi rho/f)^2.", "quantifier": "every frequency and material parameter", "why_tests_cant": "continuum", "anchors": ["src/pybsm/otf/functional.py:diffusion_OTF"]}
{"id": "C35", "title": "Jitter, gaussian and defocus OTFs are Gaussian blurs that compose", "statement": "jitter_OTF, gaussian_OTF and defocus_OTF lie in (0,1], are 1 at zero frequency, even and non-increasing in each |frequency|; two jitters compose to the root-sum-square jitter; gaussian_OTF equals exp(-pi) at frequency 1/blur; defocus_OTF(w) equals jitter_OTF with s = w/(2*sqrt 2).", "quantifier": "every frequency and blur", "why_tests_cant": "continuum", "anchors": ["src/pybsm/otf/functional.py:jitter_OTF", "src/pybsm/otf/functional.py:gaussian_OTF", "src/pybsm/otf/functional.py:defocus_OTF"]}
{"id": "C36", "title": "Drift and TDI OTFs", "statement": "drift_OTF is even, 1 at zero frequency and without drift, at most 1 in magnitude; tdi_OTF for a positive whole number of stages times phases is 1 at zero frequency, at most 1 in magnitude, and for one stage and one phase is the plain detector sinc.", "quantifier": "every frequency, stage count, phase count", "why_tests_cant": "continuum; sums of unbounded length", "anchors": ["src/pybsm/otf/functional.py:drift_OTF", "src/pybsm/otf/functional.py:tdi_OTF"]}
{"id": "C37", "title": "Turbulence OTFs are ordered by exposure time", "statement": "The short-exposure turbulence OTF is at least the long-exposure OTF; wind_speed_turbulence_OTF is a convex mixture of the two with weight exp(-vel*t/r0); long exposure in (0,1], 1 at zero frequency, decreasing in frequency, increasing in r0; for infinite r0 everything is 1. The long-exposure OTF is the contrast left by normally distributed phase differences with structure function 6.88 (r/r0)^(5/3); for short exposures the structure function is multiplied by 1-(r/D)^(1/3)/2.", "quantifier": "every frequency, wavelength, aperture, coherence diameter, wind speed, time", "why_tests_cant": "continuum", "anchors": ["src/pybsm/otf/functional.py:turbulence_OTF", "src/pybsm/otf/functional.py:wind_speed_turbulence_OTF"]}
{"id": "C38", "title": "Polychromatic turbulence uses the right coherence diameter at every wavelength", "statement": "In polychromatic_turbulence_OTF the coherence diameter used at each wavelength equals coherence_diameter evaluated directly at that wavelength along the same path; the result at zero frequency is 1; with cn2_at_1m<=0 turbulence is switched off (OTF 1, r0 huge).", "quantifier": "every wavelength set, weights, geometry", "why_tests_cant": "unbounded lists", "anchors": ["src/pybsm/otf/functional.py:polychromatic_turbulence_OTF", "src/pybsm/otf/functional.py:coherence_diameter"]}
{"id": "C39", "title": "Wavefront OTFs", "statement": "wavefront_OTF lies in (0,1] for nonnegative phase variance, is 1 at zero frequency and for zero variance, is even, non-increasing in the variance and never below exp(-pv); wavefront_OTF_2 is 1 at zero frequency and at the cutoff, at most 1 inside the cutoff, smallest at half the cutoff where it equals 1-(w_rms/0.18)^2. wavefront_OTF is the contrast left by normally distributed phase errors of variance pv with Gaussian correlation over L_x, L_y.", "quantifier": "every frequency and error", "why_tests_cant": "continuum", "anchors": ["src/pybsm/otf/functional.py:wavefront_OTF", "src/pybsm/otf/functional.py:wavefront_OTF_2"]}
{"id": "C40", "title": "weighted_by_wavelength is a weighted average", "statement": "For distinct wavelengths with matching weights weighted_by_wavelength returns the weighted mean of the per-wavelength OTFs: invariant to scaling all weights, to permuting the wavelength/weight pairs, between the min and max of the monochromatic values, and equal to the common value if all agree; empty or too-short inputs raise IndexError.", "quantifier": "every list of wavelengths and weights, every per-wavelength function", "why_tests_cant": "unbounded lists and arbitrary functions", "anchors": ["src/pybsm/otf/functional.py:weighted_by_wavelength"]}
{"id": "C41", "title": "Coherence diameter laws", "statement": "coherence_diameter scales as lambda^(6/5), decreases when cn2 increases anywhere on the path, is infinite for a vanishing profile and raises exactly for an empty path or zero Python wavelength.", "quantifier": "every path and profile of every length", "why_tests_cant": "unbounded path lists", "anchors": ["src/pybsm/otf/functional.py:coherence_diameter"]}
{"id": "C42", "title": "Hufnagel-Valley profile", "statement": "hufnagel_valley_turbulence_profile is positive for nonnegative ground cn2, increasing in wind speed (strictly above ground) and ground cn2, and at ground level exceeds the ground cn2 by exactly 2.7e-16. It is the Hufnagel-Valley model 0.00594 (v/27)^2 (1e-5 h)^10 exp(-h/1000) + 2.7e-16 exp(-h/1500) + cn2 exp(-h/100).", "quantifier": "every height, wind speed >= 0 and ground cn2 >= 0", "why_tests_cant": "continuum", "anchors": ["src/pybsm/otf/functional.py:hufnagel_valley_turbulence_profile"]}
{"id": "C43", "title": "System OTF is the product of its components", "statement": "Whenever common_OTFs succeeds, system_OTF is the pointwise product of the aperture, turbulence, detector, jitter, drift, wavefront and filter OTFs it reports; without a sharpening kernel the filter OTF is 1; at zero frequency every component and the system OTF are 1.", "quantifier": "every frequency grid, sensor, scenario", "why_tests_cant": "continuum of sensors", "anchors": ["src/pybsm/otf/functional.py:common_OTFs"]}
{"id": "C44", "title": "filter_OTF is the wrapped transform of the kernel", "statement": "filter_OTF is periodic in the sampling frequency in each axis, bounded by the kernel's absolute sum, 1 everywhere for the identity kernel; its value at zero frequency is not exactly the kernel's sum because the DC sample sits half a bin away from zero on the lookup grid.", "quantifier": "every kernel and frequency", "why_tests_cant": "continuum", "anchors": ["src/pybsm/otf/functional.py:filter_OTF"]}
{"id": "C45", "title": "otf_to_psf normalisation and cropping", "statement": "When otf_to_psf returns, the PSF sums to one; the transform of an all-ones OTF is a unit impulse at the centre pixel; an OTF whose smaller side is at most 10 never yields a PSF (UnboundLocalError); for odd-sized OTFs the sample moved to the transform's origin is not the centre (DC) sample but its successor.", "quantifier": "every OTF array, sampling", "why_tests_cant": "all array sizes", "anchors": ["src/pybsm/otf/functional.py:otf_to_psf"]}
{"id": "C46", "title": "resample_2D output geometry", "statement": "resample_2D produces an image of round-half-even(size*dx_in/dx_out) rows and columns, reproduces constant images, never leaves the range of the input, is the identity for dx_in=dx_out, raises a cv2 error when a side rounds to zero and reports a missing OpenCV as ImportError.", "quantifier": "every image size and scale", "why_tests_cant": "all sizes", "anchors": ["src/pybsm/otf/functional.py:resample_2D"]}
{"id": "C47", "title": "Image blurring preserves constants and range", "statement": "apply_otf_to_image maps a constant image to the same constant (in the resampled size) whatever the OTF, and, when the PSF is nonnegative, never leaves the input's min..max.", "quantifier": "every image, PSF", "why_tests_cant": "all images", "anchors": ["src/pybsm/otf/functional.py:apply_otf_to_image"]}
{"id": "C48", "title": "slice_otf reads the grid along an axis", "statement": "slice_otf at angle 0 returns the samples on the positive u axis and at angle pi/2 those on the positive v axis, in order of increasing frequency starting at DC, for every square OTF array of odd size; non-square arrays raise ValueError; at angle pi the order is reversed, so the result does not start at DC.", "quantifier": "every OTF array of odd size", "why_tests_cant": "all arrays", "anchors": ["src/pybsm/otf/functional.py:slice_otf"]}
{"id": "C49", "title": "object and image domain defocus radii", "statement": "image_domain_defocus_radii and object_domain_defocus_radii are linear in the aperture, zero exactly when in focus, antisymmetric in the sense of focusing nearer/farther, and agree when the image displacement is f^2*(1/R-1/R0). Their values are 0.62 (D/R - D/R0) and 0.62 D dz / f^2.", "quantifier": "every D, f, range", "why_tests_cant": "continuum", "anchors": ["src/pybsm/otf/functional.py:object_domain_defocus_radii", "src/pybsm/otf/functional.py:image_domain_defocus_radii"]}
{"id": "C50", "title": "dark current from density", "statement": "dark_current_from_density is linear in current density and detector area, and non-negative for non-negative input.", "quantifier": "all inputs", "why_tests_cant": "continuum", "anchors": ["src/pybsm/otf/functional.py:dark_current_from_density"]}
{"id": "C51", "title": "Edge response is a centred antisymmetric edge", "statement": "edge_response(OTF slice)(x) + edge_response(-x) = 1 and the response at zero is 1/2, for every real OTF slice.", "quantifier": "every slice length and value", "why_tests_cant": "unbounded slices", "anchors": ["src/pybsm/metrics/functional.py:edge_response"]}
{"id": "C52", "title": "Relative edge response and overshoot", "statement": "relative_edge_response is ER(0.5)-ER(-0.5) = 2*ER(0.5)-1 and linear in the OTF; edge_height_overshoot is the response at 1.25 pixels when the nine sampled responses from 1 to 3 pixels strictly increase and otherwise their maximum, so it always is one of the nine samples and never below the response at 1.25 pixels.", "quantifier": "every OTF slice", "why_tests_cant": "unbounded slices", "anchors": ["src/pybsm/metrics/functional.py:relative_edge_response", "src/pybsm/metrics/functional.py:edge_height_overshoot"]}
{"id": "C53", "title": "giqe3 monotonicity", "statement": "giqe3 predicts strictly better NIIRS for smaller GSD, larger RER, larger positive SNR, smaller overshoot; for negative SNR the noise term is rewarded rather than penalised.", "quantifier": "all positive inputs", "why_tests_cant": "continuum", "anchors": ["src/pybsm/metrics/functional.py:giqe3"]}
{"id": "C54", "title": "giqe4 monotonicity and the break at RER 0.9", "statement": "giqe4 is monotone in GSD, RER within each branch, SNR and elevation angle; at RER=0.9 the two coefficient branches do not join, so the predicted NIIRS jumps depending on GSD.", "quantifier": "all positive inputs", "why_tests_cant": "continuum", "anchors": ["src/pybsm/metrics/functional.py:giqe4"]}
{"id": "C55", "title": "giqe5 monotonicity", "statement": "For RER in (0,1], positive GSD and SNR and elevation in (0,pi/2], giqe5 improves strictly with smaller GSD, larger SNR, larger RER on either axis and larger elevation; the combined RER is between the two axis values and symmetric in them.", "quantifier": "all positive inputs", "why_tests_cant": "continuum", "anchors": ["src/pybsm/metrics/functional.py:giqe5", "src/pybsm/metrics/functional.py:giqe5_RER"]}
{"id": "C56", "title": "Ground-resolved distance", "statement": "Whatever the slice, the frequency step and the SNR, a ground_resolved_distance that is a number is never below two ground sample distances 2*ifov*slant_range. For every MTF slice that never rises (it may end in zeros beyond the cutoff) and every SNR other than zero the call succeeds with the larger of that and slant_range/(u+1e-12), u being the frequency where the slice crosses the threshold 3/snr: the first sample at the threshold, else linear between the two samples around it, zero if the threshold is above the first sample, the last frequency if it is below the last one. A shorter slant range, a smaller field of view or a larger positive SNR never makes it larger. A negative SNR counts as a perfect one, and the Python number 0 raises ZeroDivisionError.", "quantifier": "every MTF slice, frequency step, SNR, field of view and slant range", "why_tests_cant": "the slice is an arbitrary array; crossings can fall anywhere between its samples", "anchors": ["src/pybsm/metrics/functional.py:ground_resolved_distance"]}
{"id": "C57", "title": "niirs is repeatable and independent of overridden scenario fields", "statement": "niirs returns the same result when called again on the same objects and whatever the scenario's target/background reflectance and temperature were before; it rewrites the caller's scenario: reflectances 0.15/0.07 in the reflective band, 0/0 and target temperature 280 (not 282) in the emissive band, never background_temperature.", "quantifier": "every sensor, scenario and call history", "why_tests_cant": "histories", "anchors": ["src/pybsm/metrics/functional.py:niirs"]}
{"id": "C58", "title": "niirs5 changes the caller's sensor", "statement": "A successful niirs5 sets the caller's sensor.filter_kernel to [1]; a later niirs therefore equals niirs of the sensor with kernel [1], whatever the kernel was; niirs5 itself is repeatable and independent of the kernel.", "quantifier": "every history of niirs/niirs5 calls", "why_tests_cant": "histories", "anchors": ["src/pybsm/metrics/functional.py:niirs5", "src/pybsm/metrics/functional.py:niirs"]}
{"id": "C59", "title": "Geometric-mean bookkeeping in giqe_edge_terms", "statement": "rer_gm and eho_gm returned by giqe_edge_terms are geometric means of the x and y terms: symmetric in axes, between the two, and equal to the common value for an isotropic OTF.", "quantifier": "every OTF", "why_tests_cant": "continuum", "anchors": ["src/pybsm/metrics/functional.py:giqe_edge_terms"]}
{"id": "C60", "title": "img_to_reflectance is a clipped monotone map", "statement": "img_to_reflectance with at least two calibration points of distinct pixel value returns values in [0,1] for every finite pixel, is independent of the order in which the calibration pairs are given, reproduces calibration points with reflectances in [0,1] exactly and is monotone for monotone calibrations; an empty calibration or one of unequal lengths raises ValueError, but a single point yields NaN everywhere although the documentation promises ValueError.", "quantifier": "every image and calibration table", "why_tests_cant": "continuum; extrapolation", "anchors": ["src/pybsm/simulation/functional.py:img_to_reflectance"]}
{"id": "C61", "title": "stretch_contrast_convert_8bit is a monotone 8-bit map", "statement": "Every output pixel of stretch_contrast_convert_8bit is an integer in 0..255 or the undefined cast of NaN; brighter input pixels never become darker; the output is invariant to adding a constant and to scaling the image by a positive factor; constant images produce only the undefined 0/0.", "quantifier": "every image", "why_tests_cant": "all images", "anchors": ["src/pybsm/simulation/functional.py:stretch_contrast_convert_8bit"]}
{"id": "C62", "title": "RefImage construction and capture-parameter estimation", "statement": "RefImage rejects pix_values without refl_values with ValueError and defaults to the 0.2/99.8 percentiles mapped to 0.05/0.95; estimate_capture_parameters produces a sensor whose ground sample distance p_x/f*altitude is the image's gsd and raises ZeroDivisionError for gsd 0; with the default altitude the returned scenario's atmosphere can never be loaded.", "quantifier": "every image and gsd", "why_tests_cant": "continuum", "anchors": ["src/pybsm/simulation/ref_image.py:RefImage"]}
{"id": "C63", "title": "simulate_image true image stays in the well and interpolation never rejects", "statement": "For every reference image with valid calibration the interpolation of reflectance to photoelectrons is always in range (no ValueError) and the true image of simulate_image lies between the smallest and largest photoelectron count of the table, hence in [0, max_n]; it is monotone in pixel value when calibration and table are increasing.", "quantifier": "every image, sensor, atmosphere", "why_tests_cant": "continuum", "anchors": ["src/pybsm/simulation/functional.py:simulate_image"]}
{"id": "C64", "title": "Constructor defaults", "statement": "Sensor defaults: p_y=p_x, w_x=p_x; with an explicit w_x the default w_y is p_x*p_y/w_x, which gives the same fill factor in y only when the x fill factor is one; a zero detector width raises ZeroDivisionError; explicit arguments are stored unchanged. Every other optional argument of Sensor and of Scenario that is left out takes its documented value, and a new scenario has no loaded atmosphere.", "quantifier": "every argument combination", "why_tests_cant": "continuum", "anchors": ["src/pybsm/simulation/sensor.py:Sensor", "src/pybsm/simulation/scenario.py:Scenario"]}
{"id": "C65", "title": "Wiener filter", "statement": "wiener_filter times the OTF is real and in [0,1) for positive noise-to-signal ratio, inverts the OTF exactly when the ratio is zero and OTF nonzero, and (1+nsr)*WF=1 where the OTF is 1; its magnitude never exceeds 1/(2 sqrt(nsr)).", "quantifier": "every complex OTF and ratio", "why_tests_cant": "continuum", "anchors": ["src/pybsm/simulation/functional.py:wiener_filter"]}
{"id": "C66", "title": "noise_gain", "statement": "noise_gain raises ValueError iff the kernel does not sum to one, is the Euclidean norm of the kernel, equals one for the identity kernel, at least 1/sqrt(number of taps) always with equality for the box average.", "quantifier": "every kernel size", "why_tests_cant": "unbounded sizes", "anchors": ["src/pybsm/noise.py:noise_gain"]}
{"id": "C67", "title": "quantization_noise", "statement": "quantization_noise is range/(sqrt(12)(2^bits-1)): linear in range, strictly decreasing in bit depth, infinite for zero bits and positive range.", "quantifier": "every range and depth", "why_tests_cant": "continuum", "anchors": ["src/pybsm/noise.py:quantization_noise"]}
{"id": "C68", "title": "instantaneous_FOV", "statement": "instantaneous_FOV is w/f, homogeneous of degree zero, and raises ZeroDivisionError exactly for zero Python focal length.", "quantifier": "all inputs", "why_tests_cant": "continuum", "anchors": ["src/pybsm/simulation/functional.py:instantaneous_FOV"]}
{"id": "C69", "title": "system OTF: closed form, diffraction limit, cutoff, symmetry", "statement": "For every finite sensor, viewing scenario, spectral band and exposure, common_OTFs succeeds and each component equals its textbook expression in the sensor and scenario attributes; the system OTF is their product. Without a sharpening kernel its modulus never exceeds the diffraction MTF; it is exactly zero beyond D/lambda_min; and it is even in each frequency.", "quantifier": "every optical sensor, viewing scenario, band, exposure and frequency grid", "why_tests_cant": "continuum of sensors, scenes and frequencies", "anchors": ["src/pybsm/otf/functional.py:common_OTFs"]}
{"id": "C70", "title": "niirs end to end", "statement": "For every usable sensor, viewing scene and finite atmosphere with an in-band signal, niirs succeeds for every kernel summing to one and reports: standard target and background radiances, exposure cut to the well capacity, the noise budget, the SNR, the spectral weights, cutoff D/lambda_min, 101x101 samples of each OTF component, and GIQE 3 / GIQE 4 of the geometric-mean edge terms and GSD, noise gain, SNR times sqrt(frames) and elevation angle. A kernel not summing to one makes the whole call raise ValueError. With a sensor that samples the cutoff at least 2.5 times per cycle the NIIRS is a finite number.", "quantifier": "every sensor, scenario and database meeting the stated numeric conditions", "why_tests_cant": "continuum of sensors, scenes and atmospheres; the composition of some thirty functions", "anchors": ["src/pybsm/metrics/functional.py:niirs"]}
{"id": "C71", "title": "niirs5 end to end", "statement": "For the same inputs niirs5 succeeds whatever the sensor's kernel and reports the same radiometry, the OTF without any sharpening kernel, and GIQE 5 of the two relative edge responses, the x ground sample distance, SNR times sqrt(frames) and elevation angle; finite when both axes sample the cutoff at least once per cycle.", "quantifier": "every sensor, scenario and database meeting the stated numeric conditions", "why_tests_cant": "continuum of sensors, scenes and atmospheres", "anchors": ["src/pybsm/metrics/functional.py:niirs5"]}
{"id": "C72", "title": "noise breakout adds up", "statement": "In what niirs and niirs5 report, path noise is the shot noise of path light alone, path and scene noise together are the shot noise of the brighter of target and background, and their squares plus those of the dark current and self emission noise sum exactly to the squared signal noise.", "quantifier": "every physical sensor and nonnegative atmosphere", "why_tests_cant": "continuum of sensors and atmospheres", "anchors": ["src/pybsm/metrics/functional.py:niirs", "src/pybsm/metrics/functional.py:niirs5", "src/pybsm/radiance/functional.py:photon_detector_SNR"]}
{"id": "C73", "title": "simulate_image end to end", "statement": "For a usable sensor, an atmosphere with a positive signal and a calibrated reference image, simulate_image is exactly: true image = photoelectrons (full integration time, scaled to the well) of each pixel's reflectance; apply_otf_to_image of it with the image's GSD, the flat-Earth distance, the system OTF on 1501x1501 frequencies up to the diffraction cutoff of a white scene, their spacing, and mean pixel pitch over focal length; Poisson noise with the blurred image as mean (ValueError if a mean is negative); Gaussian noise with the root sum square of quantization and read noise.", "quantifier": "every sensor, scenario, atmosphere, reference image, random state and OpenCV availability meeting the stated numeric conditions", "why_tests_cant": "continuum of images, sensors and atmospheres, and all random states", "anchors": ["src/pybsm/simulation/functional.py:simulate_image"]}
{"id": "C74", "title": "simulate_image: noise, flat scenes, range", "statement": "Success, error, true image and blurred image do not depend on the random draws; Poisson means are nonnegative whenever a result is returned; the noisy image is a Poisson draw plus scaled normal draw per pixel; a uniform reference image stays uniform with the photoelectrons of its reflectance; a physical sensor keeps the true image within [0, full well], and also the blurred image if the point spread function is nonnegative.", "quantifier": "every input and every pair of random generator states", "why_tests_cant": "continuum of images, sensors and atmospheres, and all random states", "anchors": ["src/pybsm/simulation/functional.py:simulate_image"]}
{"id": "C75", "title": "simulate_image: history", "statement": "A successful simulation changes the scenario only by caching the atmosphere; simulating again with that scenario gives the same images whatever happened to the data files in between.", "quantifier": "every input, every later content of the data files", "why_tests_cant": "continuum of images, sensors and atmospheres, and all random states", "anchors": ["src/pybsm/simulation/functional.py:simulate_image", "src/pybsm/simulation/scenario.py:Scenario.atm"]}
{"id": "C76", "title": "simulate_image: point spread function and coarse images", "statement": "The point spread function derived from the simulator's odd grid is the centred one times a cosine; if a reference pixel is wider than the whole point spread array, the simulation succeeds without any blur and returns the true image resampled to the sensor's pixels.", "quantifier": "every sensor, scene, band and reference image meeting the stated conditions", "why_tests_cant": "continuum of images, sensors and atmospheres, and all random states", "anchors": ["src/pybsm/simulation/functional.py:simulate_image", "src/pybsm/otf/functional.py:otf_to_psf", "src/pybsm/otf/functional.py:apply_otf_to_image"]}
{"id": "C77", "title": "niirs5: more blur never helps", "statement": "More line-of-sight jitter or drift, larger or less correlated wavefront errors, stronger turbulence, wind or platform speed never improve what niirs5 reports: the SNR part is unchanged, the relative edge responses do not grow, and with responses of at most 1 the rating does not rise.", "quantifier": "every pair of sensors and scenes differing only in these parameters, with detectors that sample the optical cutoff, drift below one cycle and a band of at most 8:1", "why_tests_cant": "comparison of two calls over a continuum of sensors, scenes and atmospheres", "anchors": ["src/pybsm/metrics/functional.py:niirs5", "src/pybsm/otf/functional.py:common_OTFs", "src/pybsm/radiance/functional.py:photon_detector_SNR"]}
{"id": "C78", "title": "niirs5: more noise never helps", "statement": "More read noise, more other noise, fewer bits or fewer stacked frames never improve the niirs5 rating; the reported noise does not fall, the exposure and the edge responses are the same.", "quantifier": "every pair of sensors differing only in these parameters, every scene and atmosphere meeting the stated conditions", "why_tests_cant": "comparison of two calls over a continuum of sensors, scenes and atmospheres", "anchors": ["src/pybsm/metrics/functional.py:niirs5", "src/pybsm/otf/functional.py:common_OTFs", "src/pybsm/radiance/functional.py:photon_detector_SNR"]}
{"id": "C79", "title": "niirs5 and exposure time", "statement": "Only the product of integration time and TDI stages matters for the rating; a longer integration time never lowers the reported SNR when the target is the brighter one; once the well is full, lengthening it changes nothing at all in the reports of niirs and niirs5.", "quantifier": "every sensor, scene, atmosphere and pair of integration times meeting the stated conditions", "why_tests_cant": "comparison of two calls over a continuum of sensors, scenes and atmospheres", "anchors": ["src/pybsm/metrics/functional.py:niirs5", "src/pybsm/otf/functional.py:common_OTFs", "src/pybsm/radiance/functional.py:photon_detector_SNR", "src/pybsm/metrics/functional.py:niirs"]}
{"id": "C80", "title": "Any session on shared sensor and scenario objects", "statement": "In every sequence of attribute assignments, attribute and atmosphere reads, niirs, niirs5 and simulate_image calls on any number of shared sensor and scenario objects, each read and call has the outcome (value or exception) determined by what the client has assigned so far: reads, niirs and simulate_image calls can be inserted anywhere without changing any other outcome, calls can be repeated with the same outcome, and the only lasting effect of a niirs5 call on later outcomes is that it assigns the identity sharpening kernel to its sensor (and nothing if it fails before the SNR).", "quantifier": "every finite sequence of these operations, any number of objects, every initial sensor and scenario, every content of the atmosphere database", "why_tests_cant": "unbounded histories over shared mutable objects with a hidden cache", "anchors": ["src/pybsm/simulation/scenario.py:Scenario", "src/pybsm/simulation/sensor.py:Sensor", "src/pybsm/metrics/functional.py:niirs", "src/pybsm/metrics/functional.py:niirs5", "src/pybsm/simulation/functional.py:simulate_image"]}
{"id": "C81", "title": "Arrays returned by Scenario.atm: sharing and client writes", "statement": "Reads of different scenarios never return the same array object; a scenario returns the same array object until its altitude, ground range or haze is assigned and never any of its old ones afterwards; a returned array holds what a fresh load for the present parameters gives, changed only by what the client itself has written into that very array; the library never changes an array it has handed out; simulate_image uses exactly the array a read would return, so a client's write is visible in later simulations until a parameter is assigned.", "quantifier": "every sequence of attribute assignments, reads, in-place writes to returned arrays and simulate_image calls on any number of scenarios, every database content", "why_tests_cant": "unbounded histories with aliasing between the client's arrays and a hidden cache", "anchors": ["src/pybsm/simulation/scenario.py:Scenario.atm", "src/pybsm/utils.py:load_database_atmosphere", "src/pybsm/utils.py:load_database_atmosphere_no_interp", "src/pybsm/simulation/functional.py:simulate_image"]}
{"id": "C82", "title": "Size of simulated images; capture parameters never resample", "statement": "Whenever simulate_image succeeds, the true image has the size of the reference image, and the blurred and noisy images both have that size times the ratio of the angle of a reference pixel (gsd over slant range) to the angle of a detector pixel (mean pitch over focal length), rounded to the nearest integer, half to even. With the sensor and scenario that RefImage.estimate_capture_parameters returns for the same image, that ratio is 1: all three images have the size of the reference image at every altitude.", "quantifier": "every reference image, sensor, scenario, atmosphere database and noise realisation for which the call succeeds; every positive gsd and altitude", "why_tests_cant": "all image sizes, distances, pitches and focal lengths; a test sees one resampling ratio", "anchors": ["src/pybsm/simulation/functional.py:simulate_image", "src/pybsm/simulation/ref_image.py:RefImage.estimate_capture_parameters", "src/pybsm/otf/functional.py:apply_otf_to_image", "src/pybsm/otf/functional.py:resample_2D"]}
{"id": "C83", "title": "Which part of the transformed OTF otf_to_psf keeps", "statement": "The PSF returned by otf_to_psf is, rescaled to sum 1, a rectangular part of the transform of the OTF resampled to the requested spacing. If that resampled function is at least as large as the OTF array, the part is the middle one of the first size among 10, 15, 20, ... (below the smaller OTF side) that holds more than 95 % of the total, otherwise of the last size. If it has at most 3 pixels a side, all of it is returned. Whenever a candidate size is at least three times its side, the part returned holds more than 95 % of the total. At the OTF's own spacing nothing is resampled (for a non-square OTF the columns then keep a spacing other than the requested one).", "quantifier": "every OTF array of any size, every positive frequency and output spacing, every call that succeeds", "why_tests_cant": "all OTF values, shapes and spacings; the search over support sizes is data dependent", "anchors": ["src/pybsm/otf/functional.py:otf_to_psf"]}
{"id": "C84", "title": "otf_to_psf inverts the Fourier transform", "statement": "For every even size above 10 and every point spread function that fits into 10 x 10 pixels and sums to 1, otf_to_psf applied to its transfer function (its Fourier transform with the zero frequency at the centre sample) at the OTF's own spacing returns exactly that point spread function, centred at pixel (5, 5).", "quantifier": "every even array size above 10, every such point spread function, every frequency spacing", "why_tests_cant": "all sizes and all real-valued kernels; index conventions of three FFT shifts interact", "anchors": ["src/pybsm/otf/functional.py:otf_to_psf"]}
{"id": "C85", "title": "apply_otf_to_image correlates the image with the point spread function", "statement": "With the transfer function of a point spread function and matching sampling, every pixel of the result of apply_otf_to_image is the sum of h(a, b) times the pixel a rows below and b columns to the right (the image being continued by reflection at its outermost pixels), and the returned PSF is h. For symmetric h this is the image blurred by h. For asymmetric h it is the image blurred by the mirrored h: an OTF that displaces every point one pixel to the right moves the picture one pixel to the left.", "quantifier": "every image of at least 6 x 6 pixels, every even OTF size above 10, every point spread function within 10 x 10 pixels, every geometry with matching sampling", "why_tests_cant": "all images and kernels; tests with symmetric kernels cannot see the orientation", "anchors": ["src/pybsm/otf/functional.py:apply_otf_to_image", "src/pybsm/otf/functional.py:otf_to_psf", "src/pybsm/otf/functional.py:resample_2D"]}
{"id": "C86", "title": "apply_otf_to_image is linear", "statement": "For a fixed OTF and geometry, apply_otf_to_image of a linear combination of two images is the same combination of the two results, with the same PSF; whether the call succeeds, the size of the result and the returned PSF depend only on the size of the image.", "quantifier": "every pair of images of one size, all coefficients, every OTF and geometry", "why_tests_cant": "a superposition law over all images and coefficients", "anchors": ["src/pybsm/otf/functional.py:apply_otf_to_image", "src/pybsm/otf/functional.py:resample_2D"]}
{"id": "C87", "title": "Component OTFs are the Fourier transforms of the blurs they stand for", "statement": "detector_OTF is the Fourier transform of the uniform distribution of light over the detector; detector_OTF_with_aggregation of n such detectors side by side at the pixel pitch; drift_OTF of a uniform motion; jitter_OTF, gaussian_OTF and defocus_OTF of normal distributions with standard deviation s, b/sqrt(2 pi) and w/(2 sqrt 2); tdi_OTF of equally weighted exposures displaced by the clocking mismatch; cte_OTF is the magnitude of the transform of a Poisson trail of deferred charge. Each of these blurs has total 1, so its OTF is 1 at zero frequency and at most 1 in magnitude; the product of two OTFs is the OTF of the two blurs one after the other.", "quantifier": "all spatial frequencies, detector sizes, pitches, blur sizes, drift and jitter amplitudes, focal lengths other than zero, numbers of detectors, numbers of TDI stages and phases with a whole product, charge transfer efficiencies", "why_tests_cant": "an identity between a closed formula and an integral transform at every frequency", "anchors": ["src/pybsm/otf/functional.py:detector_OTF", "src/pybsm/otf/functional.py:detector_OTF_with_aggregation", "src/pybsm/otf/functional.py:drift_OTF", "src/pybsm/otf/functional.py:jitter_OTF", "src/pybsm/otf/functional.py:gaussian_OTF", "src/pybsm/otf/functional.py:defocus_OTF", "src/pybsm/otf/functional.py:tdi_OTF", "src/pybsm/otf/functional.py:cte_OTF"]}
{"id": "C88", "title": "circular_aperture_OTF_with_defocus is not the OTF of a defocused aperture", "statement": "The contrast of a circular aperture with a quadratic optical path difference W at its rim never exceeds the diffraction limit and falls below it by at most the fraction (2 pi W / lambda)^2 / 2. circular_aperture_OTF_with_defocus does not return that contrast: at half the cutoff frequency, for every small enough nonzero defocus, it returns less, and its loss of contrast is more than twice the true one.", "quantifier": "every wavelength, aperture diameter and focal length, every direction of the spatial frequency, every sufficiently small nonzero defocus of either sign; the bounds on the physics hold for every path difference and frequency", "why_tests_cant": "compares a formula with the autocorrelation integral of a complex pupil; the repository's tests record the formula's own values", "anchors": ["src/pybsm/otf/functional.py:circular_aperture_OTF_with_defocus"]}
{"id": "C89", "title": "Blackbody radiance obeys the Stefan-Boltzmann and Wien displacement laws", "statement": "At every positive temperature T the spectral radiance of blackbody_radiance is integrable over all wavelengths and, multiplied by pi (a Lambertian hemisphere), its total is sigma T^4 with sigma = 2 pi^5 k^4 / (15 h^3 c^2), which is 5.6703e-8 to 5.6704e-8 for the code's constants. There is one constant b, between 2.8970e-3 and 2.8984e-3 m K, such that at every temperature the radiance strictly increases with the wavelength up to b / T and strictly decreases beyond it.", "quantifier": "every positive temperature and every positive wavelength", "why_tests_cant": "an integral over all wavelengths and a statement about the shape of the whole spectrum at every temperature", "anchors": ["src/pybsm/radiance/functional.py:blackbody_radiance"]}
{"id": "C90", "title": "simulate_image's noise is unbiased, has the documented variance and averages out", "statement": "If the draws of numpy's generator are fair (Poisson counts with the requested mean, standard normal variates, independent), then for every call of simulate_image that succeeds: every pixel of the noisy image has the blurred pixel as its expectation; its variance is the blurred pixel (shot noise) plus the squared quantization noise (max_n / (sqrt(12) (2^bit_depth - 1))) plus the squared read noise; the noise at different pixels and in different runs is independent; and the mean of the noisy images of repeated runs converges almost surely to the blurred image at every pixel.", "quantifier": "every sensor with a positive bit depth, scenario, reference image and environment for which simulate_image succeeds, every probability space with fair draws, every pixel and any number of runs", "why_tests_cant": "statements about a distribution and a limit over infinitely many runs; a test sees one seed", "anchors": ["src/pybsm/simulation/functional.py:simulate_image", "src/pybsm/noise.py:quantization_noise"]}
{"id": "C91", "title": "Edge response metrics describe the image of a blurred step edge", "statement": "Let the MTF samples given to the edge metrics come from a physical line spread function (continuous, non-negative, symmetric, of total 1) whose MTF has slope at most K and vanishes beyond the last sampled frequency W. Then edge_response at x pixels is the image of a step edge blurred by that line spread at the angle X = ifov * x, relative_edge_response is the share of a line's light falling within one pixel centred on it, and edge_height_overshoot does not exceed 1, all up to the explicit sampling error W |X| (K df + pi |X| (df + 2e-6)) (twice that, at X = ifov/2, for the relative edge response).", "quantifier": "every line spread function, every number and spacing of samples reaching the cutoff, every pixel size and position", "why_tests_cant": "relates a trapezoid sum to an integral over an arbitrary line spread function through Fourier inversion", "anchors": ["src/pybsm/metrics/functional.py:edge_response", "src/pybsm/metrics/functional.py:relative_edge_response", "src/pybsm/metrics/functional.py:edge_height_overshoot"]}
{"id": "C92", "title": "What the plots show", "statement": "For every usable sensor and scene, plot_common_MTFs of a niirs or niirs5 report draws, at angles 0 and pi/2, the moduli of the component MTFs along the u and v axis against spatial frequency in cycles/mm; the system curve is the product of the other curves and the marker is at 1/(2 pitch). For niirs5 the top of the plot is 1 and no curve is cut off. plot_noise_terms draws bars whose first is the root-sum-square of the others and of the sensor's other_noise terms (which have no bar); its title gives the target's photoelectrons, the contrast and a well fill never above max_well_fill. RefImage.show draws the image centred on the origin, gsd metres per pixel.", "quantifier": "every usable sensor, viewing scene, finite atmosphere with an in-band signal, kernel summing to one; for the noise also nonnegative radiances; every reference image", "why_tests_cant": "A test compares pictures or calls with mocked matplotlib for one sensor; the identity of the system curve with the product, and that nothing is cut off, must hold at every sample of every report.", "anchors": ["src/pybsm/metrics/functional.py: plot_common_MTFs, plot_noise_terms", "src/pybsm/simulation/ref_image.py: RefImage.show"]}
{"id": "C93", "title": "Floating-point rounding does not spoil photon counts and SNR", "statement": "When every arithmetic operation of signal_rate and photon_detector_SNR is off by a relative error of at most u (2^-53 for IEEE doubles rounding to nearest, absent overflow and underflow) and numpy adds sums in whatever order, the computed detection rate, exposure, counts and total noise differ from exact arithmetic by a relative error of at most K u/(1-K u), where K is a small explicit number growing with the depth of the summation; this holds although rounding may flip the well-fill comparison. The computed snr is off by at most that fraction of (tgt_n + bkg_n)/total_noise. For spectra of up to 1000 samples given as doubles the detection rate is correct to a relative error of 1.2e-13.", "quantifier": "every camera with nonnegative parameters, nonnegative spectra of any length at increasing wavelengths, every order and bracketing of the sums, every combination of rounding errors", "why_tests_cant": "a test sees one rounding of one input on one platform; the claim is about all inputs, all summation orders and all rounding errors", "anchors": ["src/pybsm/radiance/functional.py:signal_rate", "src/pybsm/radiance/functional.py:photon_detector_SNR", "src/pybsm/radiance/functional.py:check_well_fill", "src/pybsm/noise.py:quantization_noise"]}
{"id": "C94", "title": "Floating-point rounding in the Planck function, the tables and the scene radiance stays small", "statement": "When every operation of blackbody_radiance is off by a relative error of at most u, its result is off by at most K u/(1-K u) for every K from 56 X + 132 + 16/X on, X = h c/(lambda k T): 1e-13 at 10 micrometres and 300 K in double precision. resample_by_wavelength on a table of positive values has relative error at most (c+1) u/(1-(c+1) u), where c is at least 10 and 20 times the largest step between neighbouring values compared to the smaller of them. From the database rows, the temperatures and reflectances of target and background and the tables of the sensor up to exposure, counts, total noise and snr of photon_detector_SNR, nothing given rounded, the relative error is at most K u/(1-K u) with K = 1752 + 18 k + 36 c + the depths of the sums, k bounding the Planck errors at all temperatures involved.", "quantifier": "every wavelength and temperature; every increasing table of positive values; every camera with nonnegative parameters, aperture obscuration below one and f-number of at least 1/2; every nonnegative atmosphere; every reflectance between 0 and 1; every order of summation and combination of rounding errors", "why_tests_cant": "a test sees one rounding of one input; exp(X) - 1 magnifies errors at short and at long wavelengths, so that no sample of inputs settles the bound", "anchors": ["src/pybsm/radiance/functional.py:blackbody_radiance", "src/pybsm/radiance/functional.py:resample_by_wavelength", "src/pybsm/radiance/functional.py:total_radiance", "src/pybsm/radiance/functional.py:cold_shield_self_emission", "src/pybsm/radiance/functional.py:photon_detector_SNR"]}
{"id": "C95", "title": "A scenario shared by threads: readers are safe, writers need a lock", "statement": "Any number of threads may read Scenario.atm of one scenario at the same time: under every schedule each read that ends returns the atmosphere of the scenario's parameters (or raises the load's exception), and every thread given eight turns has ended. With threads that assign ihaze, altitude or ground_range at the same time, an array returned by a read is still one the database gives for initial or assigned values of each parameter; if operations do not overlap, every read gives what a fresh load gives for the values assigned so far. If they do overlap, a read can return None, and a read that runs between the two halves of an assignment leaves the scenario with the new altitude and the old atmosphere for all later reads.", "quantifier": "every number of threads, every schedule of their accesses to the shared object, every mixture of reads and assignments, every contents of the database files", "why_tests_cant": "the number of interleavings is unbounded, and the harmful ones need a switch between two neighbouring bytecodes that a test cannot force", "anchors": ["src/pybsm/simulation/scenario.py:Scenario.atm", "src/pybsm/simulation/scenario.py:Scenario.altitude", "src/pybsm/simulation/scenario.py:Scenario.ground_range", "src/pybsm/simulation/scenario.py:Scenario.ihaze"]}
{"id": "C96", "title": "An interrupted read or assignment never leaves a stale atmosphere", "statement": "If reads of Scenario.atm and assignments of ihaze, altitude and ground_range are abandoned between any two accesses to the object (KeyboardInterrupt, a signal handler that raises), the next complete read still gives what a fresh load gives for the parameters the scenario then has. An interrupted assignment has either happened or not; an interrupted read changes no parameter.", "quantifier": "every history of reads and assignments, every point at which each of them is abandoned, every contents of the database files", "why_tests_cant": "the interrupt can come between any two accesses of any operation of a history of any length", "anchors": ["src/pybsm/simulation/scenario.py:Scenario.atm", "src/pybsm/simulation/scenario.py:Scenario.altitude", "src/pybsm/simulation/scenario.py:Scenario.ground_range", "src/pybsm/simulation/scenario.py:Scenario.ihaze"]}
{"id": "C97", "title": "focal_plane_integrated_irradiance adds transmitted, emitted and stray light", "statement": "focal_plane_integrated_irradiance returns pi/(1+4(f/D)^2) (t_opt L + e_opt B(lambda0, T) d_lambda + L_s) for every list of band radiances. It grows with scene radiance, stray radiance and optics temperature; with e_opt = 1 - t_opt it lies between the values of the scene alone and of a black body at the temperature of the optics, and does not depend on t_opt if scene and optics have the same temperature; for constant spectra it differs from the integrated spectral functions by at most the variation of the Planck function over the band. A zero aperture raises ZeroDivisionError, lengths that do not match raise ValueError.", "quantifier": "every list of radiances, wavelength, bandwidth, temperature, transmission, emissivity, aperture and focal length", "why_tests_cant": "the function has no test in the repository; samples cannot settle bounds and monotonicity in nine arguments", "anchors": ["src/pybsm/radiance/functional.py:focal_plane_integrated_irradiance", "src/pybsm/radiance/functional.py:at_focal_plane_irradiance", "src/pybsm/radiance/functional.py:optics_self_emission"]}
{"id": "C98", "title": "Spectral sums approach the integrals they stand for", "statement": "If radiance, transmission, quantum efficiency and other irradiance are functions of wavelength sampled on an increasing grid with steps of at most h over a band from a to b, signal_rate is within K h (b-a)/2 of the dark current plus the integral of the spectral detection rate when that rate changes by at most K per unit of wavelength, and within M h^2 (b-a)/12 when its second derivative is at most M; on grids with steps shrinking to zero the rates converge to that value.", "quantifier": "every band, every grid, even or uneven, every spectrum with the stated bounds", "why_tests_cant": "the statement is about limits and about all spectra, not about tabulated ones", "anchors": ["src/pybsm/radiance/functional.py:signal_rate", "src/pybsm/radiance/functional.py:photon_detection_rate"]}
{"id": "C99", "title": "The database lookup is exact in floating-point arithmetic", "statement": "load_database_atmosphere_no_interp compares rounded quotients for equality. In double precision, rounding to nearest, it loads for every altitude and ground range in the decoder file the file of that row, and for every other pair of doubles, however near to a row, it raises IndexError; it raises an exception exactly when exact arithmetic does, and the same one. In the record the transmissions are unchanged, the radiances are correct to 2 parts in ten million (single precision) and the wavelengths to 2 parts in 10^15.", "quantifier": "every pair of doubles, every haze code, every database contents, every rounding to nearest", "why_tests_cant": "2^64 values per argument; a comparison of rounded quotients could hold for neighbours of a grid value", "anchors": ["src/pybsm/utils.py:load_database_atmosphere_no_interp"]}
{"id": "C100", "title": "Interpolated lookups succeed or fail as in exact arithmetic", "statement": "In double precision load_database_atmosphere succeeds exactly for the altitudes and ground ranges for which exact arithmetic does, whatever the database contains; with a complete database every failure is an IndexError; the grid of 97 ground ranges is computed without error; every entry of the result differs from that of exact arithmetic by at most 3 parts in ten million of the largest of the four corner entries.", "quantifier": "every altitude and ground range, every haze code, every database with finite numbers, every rounding to nearest", "why_tests_cant": "all cells of the grid and all values inside them", "anchors": ["src/pybsm/utils.py:load_database_atmosphere"]}
{"id": "C101", "title": "Discrete decisions in floating-point arithmetic", "statement": "In double precision, for every rounding to nearest: noise_gain accepts a kernel of binary fractions exactly when it sums to one, in whatever order it is summed, but rejects some decimal kernels that sum to one; slice_otf of an n x n OTF returns n/2 samples for even n and (n-1)/2 or one more for odd n (50 for the 101 x 101 OTF of niirs, 11 for 21 x 21); the PSF size of otf_to_psf is that of exact arithmetic unless the exact quotient is within a millionth of an integer, when it may be off by one (a PSF of 43 samples resized to its own spacing can lose one); resample_2D to the same spacing keeps the size; the band filter on a loaded atmosphere keeps the rows that exact arithmetic keeps, unless an end of the band coincides with a tabulated wavelength, when that row may be dropped.", "quantifier": "every rounding to nearest; every kernel of binary fractions and every order of summation; every OTF size below a million; every pair of spacings; every band and every database contents", "why_tests_cant": "whether a comparison of rounded values can flip depends on every input; tests use sizes and values for which it does not", "anchors": ["src/pybsm/noise.py:noise_gain", "src/pybsm/otf/functional.py:slice_otf", "src/pybsm/otf/functional.py:otf_to_psf", "src/pybsm/otf/functional.py:resample_2D", "src/pybsm/metrics/functional.py:niirs5"]}
{"id": "C102", "title": "Thermal equilibrium and the second law", "statement": "If all parts of the camera have the temperature of a black enclosure, photon_detector_SNR reports on the detector exactly the irradiance pi*B of a black body at every wavelength, provided the optics obey Kirchhoff's law (emissivity = 1 - transmission) and there is no central obscuration; in general the deficit is the part of the aperture cone that transmissions and emissivities do not account for. If nothing is hotter than T and the camera is passive, the irradiance is between 0 and pi*B(T). total_radiance of a black target in an isothermal atmosphere without sun is B. A hotter target never lowers the detection rate.", "quantifier": "every usable sensor, every band, every temperature, every spectrum", "why_tests_cant": "an identity between four separately coded emission terms for all parameters", "anchors": ["src/pybsm/radiance/functional.py:photon_detector_SNR", "src/pybsm/radiance/functional.py:cold_shield_self_emission", "src/pybsm/radiance/functional.py:optics_self_emission", "src/pybsm/radiance/functional.py:cold_stop_self_emission", "src/pybsm/radiance/functional.py:total_radiance"]}
{"id": "C103", "title": "Database files byte by byte", "statement": "load_database_atmosphere_no_interp accepts a database file exactly when it has 27420 bytes or one to three more, and raises ValueError otherwise; in particular a file cut off at any byte (an interrupted copy) is rejected, never read as a shorter spectrum. Each entry of the atmosphere is decoded from its own four bytes, so damage to a file stays in the entries whose bytes are damaged. The finite numbers a file can hold are exactly the single-precision numbers.", "quantifier": "every content of the database directory, every crash point of a copy, every row of the decoder", "why_tests_cant": "there are 27420 crash points per file and 256^27420 contents", "anchors": ["src/pybsm/utils.py:load_database_atmosphere_no_interp"]}
{"id": "C104", "title": "niirs and niirs5 on a sensor shared by threads", "statement": "A niirs5 call ends as if it had the sensor to itself, whatever other niirs and niirs5 calls run on the same sensor. So does a niirs call if no niirs5 call runs, or if the sensor has the identity kernel. A niirs call that runs next to a niirs5 call ends in one of four ways: as alone, as alone on the sensor without sharpening, with the OTFs of the first and the noise gain of the second, or (kernel of two rows or more) with IndexError; the last two are reached by some schedule whenever the calls succeed alone. Every call ends after at most five accesses to the kernel.", "quantifier": "every sensor, every assignment of calls to any number of threads, every schedule", "why_tests_cant": "the bad schedules need a switch of threads between two particular reads of an attribute", "anchors": ["src/pybsm/metrics/functional.py:niirs", "src/pybsm/metrics/functional.py:niirs5", "src/pybsm/otf/functional.py:common_OTFs"]}
{"id": "C105", "title": "Double precision neither overflows nor underflows for ordinary cameras and scenes", "statement": "In IEEE 754 double precision with rounding to nearest, gradual underflow and overflow to infinity, the whole computation from the camera's tables and temperatures and the atmosphere to exposure, photon counts, noise and SNR gives finite numbers that are as close to exact arithmetic as the error bounds of C93 and C94 say, for every camera and scene within stated (very wide) ranges and every order of summation. blackbody_radiance is accurate for Planck exponents up to 690; from 711 on it returns zero although the radiance is positive.", "quantifier": "every rounding to nearest, every camera, atmosphere, material and order of summation within the ranges", "why_tests_cant": "overflow and underflow depend on combinations of extreme values of some thirty parameters", "anchors": ["src/pybsm/radiance/functional.py:blackbody_radiance", "src/pybsm/radiance/functional.py:photon_detector_SNR", "src/pybsm/radiance/functional.py:signal_rate", "src/pybsm/radiance/functional.py:total_radiance"]}
{"id": "C106", "title": "Viewing geometry in double precision", "statement": "In double precision, for every altitude from 2 m to 1000 km and ground range from 1 m to 1000 km, curved_earth_slant_range and nadir_angle return numbers, the slant range within 0.1/d metres and the nadir angle within 0.4/(g d) of the exact ones (d slant range, g ground range). Looking straight down from a height that is a multiple of 1/8 m both are exact. Looking straight down from other heights the nadir angle may be NaN, and is for n + 1/32 m, every whole n from 2 to 20000, and likewise in simulate_image for n + 5/64 m; then the elevation angle, the GIQE 4 and GIQE 5 scores and the turbulence along the path are NaN.", "quantifier": "every altitude and ground range in the ranges, every rounding to nearest, every cosine and arc cosine accurate to four units in the last place", "why_tests_cant": "whether the quotient whose arc cosine is taken exceeds one depends on the last bits of the altitude", "anchors": ["src/pybsm/geospatial.py:curved_earth_slant_range", "src/pybsm/geospatial.py:nadir_angle", "src/pybsm/geospatial.py:altitude_along_slant_path", "src/pybsm/metrics/functional.py:niirs5", "src/pybsm/simulation/functional.py:simulate_image"]}
{"id": "C107", "title": "Quarter turn of the camera", "statement": "Turning the camera by a quarter (exchanging everything it has along x with everything it has along y) exchanges the two relative edge responses of niirs5 and keeps the exposure, the contrast SNR, the elevation angle and the mean relative edge response. With equal detector pitches the GIQE 5 score and ground sample distance stay too; with unequal pitches the score moves by exactly 3.32 log10(p_x/p_y), although the camera sees the same scene equally well. The GIQE 3 score, the mean ground sample distance, relative edge response, overshoot and GIQE 4 score of niirs do not change for any pitches, for kernels of one row. A kernel of one row leaves the system transfer function as if there were none, yet lowers the GIQE 3 score by (noise gain - 1)/SNR.", "quantifier": "every camera, scene and atmosphere that niirs and niirs5 accept, every kernel after the turn for niirs5, every one-row kernel summing to one for niirs", "why_tests_cant": "a symmetry between all pairs of cameras", "anchors": ["src/pybsm/metrics/functional.py:niirs5", "src/pybsm/metrics/functional.py:niirs", "src/pybsm/otf/functional.py:common_OTFs", "src/pybsm/otf/functional.py:filter_OTF"]}
{"id": "C108", "title": "Image quality equations in double precision and with uncertain inputs", "statement": "For all positive relative edge responses, ground sample distances and elevation angles up to the zenith, the scores that giqe3, giqe4 and giqe5 compute in double precision differ from the exact scores by at most 2e-14 times the sum of the sizes of their terms (below 1e-12 for the example of the GIQE 5 paper); giqe4 takes the exact branch for every double. If all inputs are known only up to a factor e^d with d at most 0.01 (and the overshoot up to h), the exact scores are known up to (2.9 + 2.1 ng/snr) d + 1.48 h for GIQE 3, (3.4 + 0.7 ng/snr) d + 0.656 h for GIQE 4 on one side of its break, and (3.3 + 1.4 l + 3.6 l^3 + 1.9/snr) d with l = |log10(rer)| for GIQE 5.", "quantifier": "every rounding to nearest, every mathematical library accurate to four units in the last place, all inputs in the ranges", "why_tests_cant": "an error bound over all inputs", "anchors": ["src/pybsm/metrics/functional.py:giqe3", "src/pybsm/metrics/functional.py:giqe4", "src/pybsm/metrics/functional.py:giqe5"]}
{"id": "C109", "title": "Edge metrics under rounding and under small changes of the MTF", "statement": "Two MTF slices that differ by at most e at every sample have edge responses that differ by at most 2 ifov |x| f e at x pixels and relative edge responses that differ by at most 2 ifov f e, f the highest frequency; computed in double precision with any order of the sum, both are within 1e-12 of the exact value relative to the largest size they can have. The edge height overshoot is as stable (6 ifov f e) when the response rises between 1 and 3 pixels for both slices or for neither, but not otherwise: for every e > 0 there are two slices within e of each other whose overshoots differ by more than 0.1.", "quantifier": "every length, slice, frequency step, field of view, error bound, rounding to nearest, accurate sine and summation order", "why_tests_cant": "an error bound over all slices; the jump occurs between arbitrarily close slices", "anchors": ["src/pybsm/metrics/functional.py:edge_response", "src/pybsm/metrics/functional.py:relative_edge_response", "src/pybsm/metrics/functional.py:edge_height_overshoot"]}
{"id": "C110", "title": "What noise does to the ratings", "statement": "If the target is seen brighter than the background and the sharpening kernel sums to 1, a noisier camera (more read-out or other noise, fewer bits, fewer frames) never gets a better GIQE 3 or GIQE 4 rating from niirs. If the background is brighter, the opposite holds: more noise never lowers either rating, more read-out noise raises both, and with enough read-out noise both exceed every number; for niirs5 the same holds where the relative edge responses are at most 1. The second case occurs for a camera with plausible optics and detector.", "quantifier": "every sensor, scene and atmosphere that gives a report, every pair of noise levels", "why_tests_cant": "a comparison of all pairs of noise levels, and an unbounded rating", "anchors": ["src/pybsm/metrics/functional.py:niirs", "src/pybsm/metrics/functional.py:niirs5", "src/pybsm/metrics/functional.py:giqe3", "src/pybsm/metrics/functional.py:giqe4", "src/pybsm/metrics/functional.py:giqe_radiance"]}
{"id": "C111", "title": "Edges no sharper than the optics, ratings no better than the sampling", "statement": "Both relative edge responses that niirs5 reports are at most twice the number of cycles of the cutoff frequency per pixel. If the detectors sample the cutoff at least twice per cycle and the target is brighter than the background, the rating is below 9.57 - 3.32 log10(GSD/inch), whatever the blur and noise, and more blur or more noise never improves it. If the background is brighter, more noise never lowers it and enough noise raises it above every number.", "quantifier": "every sensor with nonnegative wavefront error, scene and atmosphere that gives a report, with no wavelength of the band more than eight times another", "why_tests_cant": "a bound over all cameras and all pairs of cameras", "anchors": ["src/pybsm/metrics/functional.py:niirs5", "src/pybsm/metrics/functional.py:giqe5", "src/pybsm/metrics/functional.py:relative_edge_response", "src/pybsm/otf/functional.py:common_OTFs"]}
{"id": "C112", "title": "Where things appear in a simulated image", "statement": "An OTF that is real and the same at opposite frequencies gives a point spread function that looks the same upside down, and applying it to an image whose brightness is a ramp gives the same ramp away from the border: every output pixel shows the brightness of the place of the reference image that it covers. This holds exactly along a side on which the point spread function has an odd number of pixels; along an even one the whole image is displaced by half a reference pixel, even for perfect optics. With odd sides, simulating the image upside down gives the simulated image upside down. The OTF that simulate_image uses for a sensor without sharpening kernel is of this kind.", "quantifier": "every image, OTF with an odd number of samples a side and geometry for which apply_otf_to_image or simulate_image succeeds and the point spread function is cropped around its centre", "why_tests_cant": "a statement about every position in images of every size, and about every OTF and sampling ratio", "anchors": ["src/pybsm/otf/functional.py:otf_to_psf", "src/pybsm/otf/functional.py:apply_otf_to_image", "src/pybsm/otf/functional.py:resample_2D", "src/pybsm/simulation/functional.py:simulate_image"]}
{"id": "C113", "title": "What a simulated pixel can see", "statement": "A pixel of the image that apply_otf_to_image returns, and a pixel of the blurred image of simulate_image, depends only on the reference pixels around its place: less than half the point spread function plus one reference pixel away along each axis, also next to the border. So changing one part of the reference image leaves the simulation of the rest exactly as it was.", "quantifier": "every pair of reference images of the same size, ground sample distance and calibration, every OTF or sensor and scenario, every pixel", "why_tests_cant": "a statement about every pair of images that agree on a neighbourhood, for every neighbourhood", "anchors": ["src/pybsm/otf/functional.py:apply_otf_to_image", "src/pybsm/otf/functional.py:resample_2D", "src/pybsm/simulation/functional.py:simulate_image"]}
{"id": "C114", "title": "The database ends at the horizon", "statement": "Whenever a loader returns an atmosphere, or niirs, niirs5 or simulate_image a result, the straight line between sensor and target stays above the ground; the altitudes along the path that the turbulence integrals use are then positive everywhere but at the target, for the curved-Earth slant range of niirs and for the flat-Earth one of simulate_image. The two distances differ by less than 0.16 percent up to 20 km altitude, and the elevation angle niirs uses exceeds the true one by at most 2.7 degrees. At every documented altitude the ground ranges in the database are exactly the documented ones within the horizon; 24.5 km and 550 km can only be loaded without interpolation. The geometry functions themselves do not check the horizon.", "quantifier": "every database content, every request (altitude, ground range, haze, interpolating or not), every point of the line of sight", "why_tests_cant": "ranges over a continuum of altitudes, ground ranges and points of the line of sight, and over all contents of the data files", "anchors": ["src/pybsm/utils.py:load_database_atmosphere", "src/pybsm/utils.py:load_database_atmosphere_no_interp", "src/pybsm/geospatial.py:altitude_along_slant_path", "src/pybsm/geospatial.py:curved_earth_slant_range", "src/pybsm/geospatial.py:nadir_angle", "src/pybsm/simulation/functional.py:simulate_image", "src/pybsm/metrics/functional.py:niirs"]}
{"id": "C115", "title": "Attributes without effect", "statement": "Ratings (niirs, niirs5) do not depend on the sensor's name and other_irradiance nor on the target and background attributes of the scenario; simulated images do not depend on those and on max_well_fill, other_noise and frame_stacks; photoelectron tables depend only on optics, detector and well; the SNR not on pitches, kernel, frame stack and blur; the OTFs not on radiometric attributes, haze, target, background and ground range. In particular other_irradiance, documented as self emission and stray light, can be set to anything without effect.", "quantifier": "every pair of sensors and scenarios that agree in the remaining attributes, every database, random stream and reference image", "why_tests_cant": "non-interference: a statement about all pairs of runs", "anchors": ["src/pybsm/radiance/functional.py:photon_detector_SNR", "src/pybsm/radiance/functional.py:reflectance_to_photoelectrons", "src/pybsm/otf/functional.py:common_OTFs", "src/pybsm/metrics/functional.py:niirs", "src/pybsm/metrics/functional.py:niirs5", "src/pybsm/simulation/functional.py:simulate_image", "src/pybsm/simulation/sensor.py:Sensor"]}
{"id": "C116", "title": "Data files replaced while a scenario is in use", "statement": "Once a read of Scenario.atm has succeeded, further reads return the same atmosphere until ihaze, altitude or ground_range is assigned, even if the data files are replaced, damaged or deleted; as long as every read since the last such assignment (or construction) has raised, a read uses the files as they are at that moment, so a failed read can be repeated after a repair. niirs and niirs5 always use the files as they are. The two can therefore disagree about the same scenario object.", "quantifier": "every history of client steps interleaved with arbitrary replacements of the data files", "why_tests_cant": "ranges over all interleavings and all file contents", "anchors": ["src/pybsm/simulation/scenario.py:Scenario.atm", "src/pybsm/utils.py:load_database_atmosphere", "src/pybsm/utils.py:load_database_atmosphere_no_interp", "src/pybsm/metrics/functional.py:niirs"]}
{"id": "C117", "title": "The diffraction MTF in double precision", "statement": "Computed in double precision, the diffraction MTF of an aperture without an obscuration is within 1e-7 of the physical one at every frequency. With an obscuration between 0.001 and 0.9 it is within 1e-6, except at radial frequencies within 1e-11 of (1 - eta)/2 of the cutoff, where it may be off by 2*eta^2/(1 - eta^2) in either direction. This does happen on the grid with which images are rated: below -0.38 for an obscuration of 0.64, where the MTF is between 0 and 1, and 0.12 too large for an obscuration of 0.24.", "quantifier": "every wavelength, aperture, obscuration in the range and frequency, every rounding to nearest and every mathematical library accurate to 1e-15", "why_tests_cant": "a jump confined to a band of relative width 1e-11 is not found by sampling, and the bound ranges over all doubles", "anchors": ["src/pybsm/otf/functional.py:circular_aperture_OTF", "src/pybsm/metrics/functional.py:niirs"]}
{"id": "C118", "title": "The system MTF in double precision", "statement": "Computed in double precision, the detector, drift and jitter MTFs are within 1e-13 of the exact ones at every frequency, the wavefront MTF (phase variance up to 100) and the turbulence MTF (for the coherence diameter the program uses) within 1e-11, and the system MTF of common_OTFs without a sharpening kernel within 1.1e-6, for bands of up to 2000 wavelengths added in any order, at every frequency at which the obscuration is not misjudged (C117). The relative edge response computed from such samples is then within 1e-12 + 2.3e-6 * f * ifov of the exact one, f being the highest frequency.", "quantifier": "every sensor, band, exposure, frequency in the stated ranges, every rounding to nearest, every mathematical library accurate to 1e-15 and every order of summation", "why_tests_cant": "ranges over all doubles and all conforming libraries", "anchors": ["src/pybsm/otf/functional.py:common_OTFs", "src/pybsm/otf/functional.py:detector_OTF", "src/pybsm/otf/functional.py:drift_OTF", "src/pybsm/otf/functional.py:jitter_OTF", "src/pybsm/otf/functional.py:wavefront_OTF", "src/pybsm/otf/functional.py:wind_speed_turbulence_OTF", "src/pybsm/otf/functional.py:weighted_by_wavelength"]}
{"id": "C119", "title": "The turbulence of a scene in double precision", "statement": "Computed in double precision, the heights along the line of sight are within 5e-8 m of the exact ones, the turbulence profile at them within a factor exp(1.2e-8), and Fried's coherence diameter is a number within a factor exp(1e-8 + 0.11/d^2) of the exact one, d being the slant range in metres, whatever the order in which np.trapz adds. A coherence diameter off by a factor exp(delta) changes the turbulence MTF and the system MTF by at most 1.1 delta, so that the system MTF the program computes for a scene is within 1.2e-6 + 0.125/d^2 of the exact one.", "quantifier": "every altitude from 2 m (4 m for the system MTF) to 1000 km, ground range from 1 m to 1000 km, wind up to 1000 m/s, positive ground turbulence up to 1, wavelength of an ordinary size; every rounding to nearest, every cosine, arccosine and mathematical library accurate to a few units in the last place and every order of summation of at most 2000 rounds", "why_tests_cant": "ranges over all doubles and all conforming libraries", "anchors": ["src/pybsm/otf/functional.py:polychromatic_turbulence_OTF", "src/pybsm/otf/functional.py:coherence_diameter", "src/pybsm/otf/functional.py:hufnagel_valley_turbulence_profile", "src/pybsm/geospatial.py:altitude_along_slant_path", "src/pybsm/otf/functional.py:common_OTFs"]}
{"id": "C120", "title": "The frequencies, slices and edge responses of a rating in double precision", "statement": "In double precision, the middle row and column of the 101 x 101 grid of frequencies of a rating are exactly at the frequency zero, the other frequencies are within 6e-16 of the cutoff of what they should be and the frequency step within a factor exp(1.4e-13). The slices of the MTF along the axes have 50 samples, each within 2e-12 of the largest value of the entry of the middle row or column it is meant to be, although the slicing angle pi/2 and the radii are rounded. A frequency step and a field of view off by factors exp(d) and exp(d') change an edge response at x pixels by at most 11 M ifov |x| f (d + d'). Hence the relative edge responses computed in double precision from an MTF within eps of the samples mu and mv are within 2.1 eps q + 1e-11 (1 + M q) of the exact ones, q being the number of cycles of the cutoff frequency per pixel.", "quantifier": "every cutoff frequency (from 1e-4 for the edges), MTF array, field of view; every rounding to nearest, every cosine and sine accurate to a few units in the last place, every two-dimensional linear interpolation accurate to 1e-12 and every order of summation of at most 600 rounds", "why_tests_cant": "ranges over all doubles and all conforming libraries", "anchors": ["src/pybsm/metrics/functional.py:niirs5", "src/pybsm/metrics/functional.py:giqe5_RER", "src/pybsm/otf/functional.py:slice_otf", "src/pybsm/metrics/functional.py:relative_edge_response"]}
{"id": "C121", "title": "Ratings with GIQE 5 in double precision", "statement": "Given the weights, the exposure time and the signal-to-noise ratio of a frame to within small relative errors dw, dt and ds, everything niirs5 computes from them in double precision stays close to the result of exact arithmetic: the samples of the MTF along the axes are within 1.4e-6 + 0.125/d^2 + 11 dt + 7 dw (d the slant range in metres), the relative edge responses within 2.1 q times that plus 2e-10 (1 + q) (q the number of cycles of the cutoff frequency per pixel), the slant range within a factor exp(0.2/d^2), the elevation angle within a factor exp(0.8/(g h) + 2e-9) (ground range g, altitude h), and the score is a finite number within (3.3 + 1.4 |lg r| + 3.6 |lg r|^3 + 1.9/snr) times the largest of the relative errors of these inputs of the equation, plus 2.1e-14 of its terms. For a well sampled sensor (at most one cycle of the cutoff frequency per pixel) at least a kilometre away, with 0.1 <= r <= 10 and a signal-to-noise ratio of at least 1.9, the score is within 0.006 of the exact one.", "quantifier": "every sensor, scene and database meeting the conditions of C70 and C71 with a band of at most an octave and 2000 wavelengths, an obscuration not misjudged at a frequency of a slice (C117), altitude from 4 to 1e6 m and ground range from 1 to 1e6 m; every rounding to nearest, every conforming mathematical library, interpolation and order of summation", "why_tests_cant": "ranges over all doubles, sensors and scenes and all conforming libraries", "anchors": ["src/pybsm/metrics/functional.py:niirs5", "src/pybsm/metrics/functional.py:giqe5", "src/pybsm/metrics/functional.py:giqe5_RER", "src/pybsm/otf/functional.py:common_OTFs", "src/pybsm/geospatial.py:slant_range"]}
{"id": "C122", "title": "A whole rating in floating-point arithmetic", "statement": "From the tables and parameters of the sensor and the rows of the atmosphere to the score, everything computed in floating-point arithmetic. With relative rounding errors up to u in every operation and any order of summation, the weights of the wavelengths and the exposure time are within the fraction e = K u / (1 - K u) of those of exact arithmetic, and the signal-to-noise ratio within that fraction of the ratio that both counts together would have; a wavelength counts in the one computation exactly if it does in the other. K = 1752 + 18 k + 36 c + 6 depth + depth', where k measures how much the Planck function magnifies rounding errors and c how much interpolation does. If K u <= 4e-9, the sum of the counts of target and background is at most kappa times their difference with K u kappa <= 2.4e-4, and the scene is ordinary and well sampled (C121), then a score with 0.1 <= r <= 10 and a signal-to-noise ratio of at least 1.9 is within 0.006 of the score niirs5 reports in exact arithmetic.", "quantifier": "every sensor, scene and database meeting the conditions of C70, C94 and C121; all rounding errors up to u before the signal-to-noise ratio, every rounding to nearest after it; every conforming mathematical library, interpolation and order of summation", "why_tests_cant": "ranges over all rounding errors, sensors, scenes and conforming libraries", "anchors": ["src/pybsm/metrics/functional.py:niirs5", "src/pybsm/radiance/functional.py:giqe_radiance", "src/pybsm/radiance/functional.py:photon_detector_SNR", "src/pybsm/radiance/functional.py:signal_rate", "src/pybsm/radiance/functional.py:total_radiance"]}
{"id": "C123", "title": "The break-out of a rating's noise into scene and path survives rounding where the scene outshines the air, and is lost in fog", "statement": "niirs and niirs5 report path_noise and scene_noise, the latter as the root of a difference of squares. (a) If the scene outshines the air (the camera's own irradiance at most kappa times that of the scene at each wavelength, and the photoelectrons of scene and path together at most kappa' times their difference), then in floating-point arithmetic with unit roundoff u, for any order of the additions, the number under the root is positive, and both noises are within the fraction K u / (1 - K u) of their exact values, K = (15080 + 160 k + 320 c + 16 depth)(1 + kappa) kappa', with k and c the condition of the Planck functions and of the tables. (b) In opaque air, where the exact scene noise is 0, double precision reports a positive path_noise but NaN as scene_noise whenever adding the camera's own irradiance to that of the path and subtracting it again loses at least a part in 2^46 at each wavelength; this happens for every camera that emits light, as soon as the air is dim enough.", "quantifier": "every nearest rounding (or every computation with relative errors at most u), every sensor, atmosphere and order of additions meeting the stated conditions", "why_tests_cant": "rounding errors depend on all inputs and on the order numpy adds in; a test sees one atmosphere on one machine, and the shipped atmospheres are not opaque", "anchors": ["src/pybsm/metrics/functional.py:niirs", "src/pybsm/metrics/functional.py:niirs5", "src/pybsm/radiance/functional.py:photon_detection_rate", "src/pybsm/radiance/functional.py:signal_rate"]}
{"id": "C124", "title": "GIQE 3 and GIQE 4 ratings of finely sampled scenes in double precision are accurate", "statement": "niirs in floating-point arithmetic, from the inputs to the two scores. (a) Where the edge responses beyond the edge rise or fall clearly (by more than twice the error of a response), the overshoot computed in double precision is within the error of a response of the exact one. (b) With twelve or more samples per cycle of the cutoff frequency the responses of every system with a non-negative MTF rise clearly. (c) So for a finely sampled scene (0.01 <= pitch / f * cutoff <= 1/12), a slant range of at least a kilometre and an unsharpened image, the GIQE 3 score of an ordinary rating in double precision is within 0.004 of the score of the report in exact arithmetic; the GIQE 4 score has a bound of the same size unless the relative edge response is between 0.898 and 0.902, where that equation has a jump. The radiometry may have any relative rounding errors u in every operation with K u <= 4e-9, K explicit.", "quantifier": "every nearest rounding, every accurate library of elementary functions, every order of the additions, every sensor, scene and atmosphere meeting the stated conditions", "why_tests_cant": "the overshoot is discontinuous in the MTF, so that a rounding error could in principle move a score by more than 0.1; whether it does depends on all inputs and on the order numpy adds in", "anchors": ["src/pybsm/metrics/functional.py:niirs", "src/pybsm/metrics/functional.py:giqe3", "src/pybsm/metrics/functional.py:giqe4", "src/pybsm/metrics/functional.py:giqe_edge_terms", "src/pybsm/metrics/functional.py:edge_height_overshoot"]}
{"id": "C125", "title": "Less sensitive or warmer detectors never make a GIQE 5 rating better", "statement": "(a) If the quantum efficiency of the detectors is reduced to a fraction k (0 < k <= 1) at every wavelength, the scenario niirs5 rates still gets a rating; the exposure is at least as long as before but at most 1/k times as long, the signal-to-noise ratio in the report is no larger, and neither are the relative edge responses nor the rating. (b) With more dark current the exposure is no longer and the signal-to-noise ratio no larger than before; as long as the brighter of target and background does not fill the well beyond its limit, the exposure and the relative edge responses are the same and the rating is no better.", "quantifier": "every sensor and scene that niirs5 can rate, with a target brighter than its background, at least two samples per cycle of the cutoff frequency, wavelengths in the band within a factor of eight of each other and slow drift; every fraction k and every dark current", "why_tests_cant": "the quantum efficiency enters the exposure time (through the well), the weights of the wavelengths, the noise, and through the exposure drift and turbulence; the directions partly oppose each other, and tests sample a few values", "anchors": ["src/pybsm/metrics/functional.py:niirs5", "src/pybsm/radiance/functional.py:photon_detector_SNR", "src/pybsm/simulation/sensor.py:Sensor"]}
{"id": "C126", "title": "What sensors, arrays and reports share, and what later changes do to old reports", "statement": "(a) A program that never writes into an array sees exactly what it would see if every variable and every sensor had its own copy of its arrays. (b) No constructor, rating, simulation, plot or attribute assignment changes the contents of an array that already exists. (c) The array of wavelengths a sensor is made from stays its opt_trans_wavelengths and its qe_wavelengths until the client assigns them: writing into either attribute writes into the client's array, the other attribute and every other sensor made from it. (d) The transmission, quantum efficiency, other noise and kernel a sensor has not been given by the client belong to it alone: writing into one changes no other sensor, attribute or variable. (e) A client that keeps the kernel array, calls niirs5 and assigns the array back has the sensor as it was, whether or not the call succeeded. (f) The results in a report never change afterwards. (g) The MTF plot of an old report is the same as long as the sensor's focal length is, and its noise plot as long as the read noise is; after the sensor was given another focal length f' the curves are drawn against frequencies scaled by f / f' and the Nyquist marker is misplaced, and after another read noise was assigned the bars no longer add up to the total.", "quantifier": "every program of any length that creates arrays, sensors and reports, assigns and shares arrays, writes into them, rates, simulates and plots; (d) programs that do not take arrays out of sensors; (g) scenes niirs5 can rate, any new focal length and read noise", "why_tests_cant": "which objects share an array depends on the whole history of the program; tests look at single calls on fresh objects", "anchors": ["src/pybsm/simulation/sensor.py:Sensor", "src/pybsm/metrics/functional.py:niirs", "src/pybsm/metrics/functional.py:niirs5", "src/pybsm/metrics/functional.py:plot_common_MTFs", "src/pybsm/metrics/functional.py:plot_noise_terms"]}
{"id": "C127", "title": "Which random numbers a simulation uses, and repeating a session with the same seed", "statement": "(a) A simulate_image call that raises draws nothing from numpy's global generator. A call that succeeds draws one Poisson count per pixel of the blurred image, row by row, with that pixel as its mean, then one standard normal variate per pixel in the same order, and nothing else; each noisy pixel is its count plus the standard deviation of quantization and read noise times its variate. (b) Success, error, true and blurred image do not depend on the generator. (c) In every session only np.random.seed, the client's own draws and successful simulations change the generator. (d) What follows np.random.seed(n) does not depend on what was drawn before. (e) A seeded series of simulations, niirs reports and reads returns the same outcomes, noisy images included, whenever it is repeated in the session. (f) Inserting a niirs report, a read or a failing simulation changes no other outcome. (g) Changing only read noise and bit depth keeps the counts, the variates and the state of the generator, so the noisy images differ by the scale of the Gaussian noise only. (h) Without seeding, two equal calls in a row may return different noisy images.", "quantifier": "every generator (any state machine with seeding, Poisson and normal draws), every state of it, every input of simulate_image, every session of any length on shared objects", "why_tests_cant": "the noisy image depends on the state of a process-wide generator, hence on everything the program did before; tests fix one seed and one order of calls", "anchors": ["src/pybsm/simulation/functional.py:simulate_image"]}
{"id": "C128", "title": "Settings of a sensor that stand for each other", "statement": "(a) Integration time and TDI stages matter only through their product: with k times the integration time and the stages divided by k, photon_detector_SNR, niirs and niirs5 return the same report or raise the same exception, but for the reported integration time, which is k times as long, and simulate_image returns the same images, noise included. A camera with n stages of t seconds is rated and simulated like one with a single stage of n*t seconds. (b) The ratings depend on read noise and other noise through the sum of their squares only. (c) The wavefront error stated for k times the wavelength and divided by k^2 gives the same transfer functions, reports and images. (d) Where the target is at least as bright as the background and the well is not overfilled, one exposure k times as long raises the SNR by a factor between the root of k and k.", "quantifier": "every sensor (arrays of any length, infinite and NaN values included for (a)-(c)), every scenario, environment and image, every real k > 0 (k >= 1 for (d))", "why_tests_cant": "an equality between two calls for all pairs of sensors that stand for each other; a term that uses one of the settings without the other shows only where it is not negligible", "anchors": ["src/pybsm/radiance/functional.py:photon_detector_SNR", "src/pybsm/radiance/functional.py:reflectance_to_photoelectrons", "src/pybsm/otf/functional.py:common_OTFs", "src/pybsm/metrics/functional.py:niirs", "src/pybsm/metrics/functional.py:niirs5", "src/pybsm/simulation/functional.py:simulate_image"]}
{"id": "C129", "title": "What the log messages of a simulation are worth", "statement": "(a) reflectance_to_photoelectrons logs a reduction of the integration time exactly if some reflectance of its table overfills the well. The announced time is shorter, and the returned table is that of a call with the announced time, which logs nothing and fills the well exactly. (b) simulate_image logs at most that record and then the oversampling warning; nothing if the atmosphere cannot be read, no warning if it raises. (c) Without drift and turbulence the images are those of a camera with the announced time. (d) With drift they are not: the OTF used is that of the full time. (e) The warning is logged exactly if the result has more rows than the reference image, which is if rows times (angle of a reference pixel / angle of a detector pixel) rounds to more than rows. (f) The columns are not looked at, so an image with few rows can be oversampled without a warning. (g) A reference image that meets the documented sampling guide causes no warning if a detector pixel covers at least a fourth of the diffraction blur.", "quantifier": "every usable sensor with a positive well, finite atmosphere, integration time and image size; (b) every input", "why_tests_cant": "a message is right only if it agrees with the computation for all inputs; tests do not look at the log", "anchors": ["src/pybsm/radiance/functional.py:reflectance_to_photoelectrons", "src/pybsm/simulation/functional.py:simulate_image"]}
{"id": "C130", "title": "A reference image may be re-encoded", "statement": "Let the pixel values of an image be replaced by a*x + b. (a) If the pixel values of the calibration are converted along and a > 0, img_to_reflectance returns what it returned, for every calibration, duplicate pixel values and unusable reflectances included. (b) If the calibration has two or more points, all at different pixel values, a negative factor is as good. (c) simulate_image of a reference image converted in this way returns the same images, noise included, or raises the same exception; the name of the reference image does not matter. (d) With the default calibration and a > 0 the simulation is the same too. (e) With the default calibration and a < 0 every reflectance y becomes 1 - y: the default calibration takes larger pixel values to be brighter.", "quantifier": "every image with finite pixel values, every calibration, factor and offset; (c), (d) every sensor, scenario, sampling distance and random generator; (e) images whose 0.2th and 99.8th percentile differ", "why_tests_cant": "an identity of two computations for all images, calibrations, factors and offsets; it relies on exact arithmetic, so a test would only see it approximately", "anchors": ["src/pybsm/simulation/functional.py:img_to_reflectance", "src/pybsm/simulation/functional.py:simulate_image", "src/pybsm/simulation/ref_image.py:RefImage.__init__"]}
{"id": "C131", "title": "Only angles matter to sharpness", "statement": "(a) Multiplying focal length, detector pitches and detector widths by the same positive number leaves every OTF of common_OTFs and the field of view of a detector unchanged. (b) Without turbulence, so does multiplying the aperture, every wavelength, the correlation lengths of the wavefront error and the wavelength it is stated for. (c) apply_otf_to_image returns the same images if the ground sample distance and the distance of the reference image are multiplied by the same positive number. In all three cases exceptions stay the same, and the claims cover zero, infinite and NaN values. (d) The light does change: in a camera enlarged as in (a) by k >= 1 the difference between the photoelectron rates of target and background is multiplied by k^2 (1 + 4 F^2) / (1 + 4 k^2 F^2), F the f-number, which is at least 1, at most k^2 and at most 1 + 1/(4 F^2).", "quantifier": "every sensor, scenario, frequency, list of wavelengths and weights, image, OTF and positive factor; (d) every usable sensor with finite attributes and a focal length, all finite radiances", "why_tests_cant": "an identity of two computations for all cameras, frequencies and factors, exceptional values included", "anchors": ["src/pybsm/otf/functional.py:common_OTFs", "src/pybsm/otf/functional.py:apply_otf_to_image", "src/pybsm/radiance/functional.py:photon_detector_SNR", "src/pybsm/simulation/functional.py:instantaneous_FOV"]}
{"id": "C132", "title": "What a wider aperture does", "statement": "Let D be replaced by a larger D' in the sensor, all else equal. (a) Without turbulence and central obscuration, the system MTF of common_OTFs is at least as large at every frequency, and the OTF keeps its sign. (b) The turbulence OTF of common_OTFs is at most what it was at every frequency, whatever the obscuration. (c) The loss of (b) can exceed the gain of (a): for any two clear apertures and any non-zero frequency the narrower one resolves, once the correlation diameter is small enough the product of circular_aperture_OTF and the short-exposure turbulence_OTF is strictly smaller for the wider aperture, although its circular_aperture_OTF is strictly larger. (d) In photon_detector_SNR the difference of the electron rates of target and background is multiplied by a number between 1 and (D'/D)^2.", "quantifier": "all sensors with a valid aperture, scenarios in the viewing geometry of C75, weighted wavelengths, exposure times, frequency arrays of any length and D' >= D; (c) all wavelengths, diameters D < D', alpha > 0 and resolved frequencies; (d) all spectra", "why_tests_cant": "inequalities over all frequencies, wavelengths and pairs of apertures; (c) is the existence of a threshold with a claim about everything below it", "anchors": ["src/pybsm/otf/functional.py:common_OTFs", "src/pybsm/otf/functional.py:circular_aperture_OTF", "src/pybsm/otf/functional.py:turbulence_OTF", "src/pybsm/radiance/functional.py:photon_detector_SNR"]}
{"id": "C133", "title": "Cameras with adjacent bands", "statement": "Cut the band of a camera in two at one of the wavelengths of its optics transmission table: one camera keeps the table up to there, the other from there on. (a) If the atmosphere has a sample at that wavelength, the electron rates photon_detector_SNR gives for the two cameras, each on the rows in its band, add up to the rate of the undivided camera plus one dark current (each camera has its own), for target and background. (b) If the cut falls strictly between two samples of the atmosphere, the two cameras together miss the panel between them: the sum is short by its area. (c) The counts of reflectance_to_photoelectrons add up as in (a) at every reflectance as long as no well is full.", "quantifier": "every camera with finite attributes, table of any length and cut; every atmosphere with increasing wavelengths; (a), (b) every pair of spectra", "why_tests_cant": "an identity for all tables, cuts and spectra; the exception (b) shows only for cuts off the grid", "anchors": ["src/pybsm/radiance/functional.py:photon_detector_SNR", "src/pybsm/radiance/functional.py:reflectance_to_photoelectrons", "src/pybsm/radiance/functional.py:resample_by_wavelength", "src/pybsm/metrics/functional.py:niirs"]}
{"id": "C134", "title": "Exactly when a rating raises, and what", "statement": "For every sensor, scenario and database content, with any numbers in them (nan and infinities included): photon_detector_SNR raises ValueError if the transmission or quantum efficiency table is empty or its columns differ in length, else ZeroDivisionError if the aperture is zero, else it returns. reflectance_to_photoelectrons raises IndexError for an empty band, else as photon_detector_SNR, else ValueError if no sample of the atmosphere is in the band, else it returns. niirs5 hands on the exception of the database loader, raises IndexError for an empty band, else as photon_detector_SNR, else ValueError if no wavelength in the band gives signal, else ZeroDivisionError for zero focal length, else it returns a report. niirs does the same and in addition raises ZeroDivisionError if the kernel has several rows and the pixel field of view is zero, and ValueError if the kernel does not add up to one. No other exception is possible.", "quantifier": "every sensor, scenario, environment and interpolation flag; spectra of any length equal to that of the wavelengths; niirs with a kernel of several rows: finite pitch and focal length", "why_tests_cant": "a complete case distinction over all inputs: tests show that an exception occurs, not that no other one does or that the rest returns", "anchors": ["src/pybsm/radiance/functional.py:photon_detector_SNR", "src/pybsm/radiance/functional.py:reflectance_to_photoelectrons", "src/pybsm/metrics/functional.py:niirs", "src/pybsm/metrics/functional.py:niirs5", "src/pybsm/otf/functional.py:weighted_by_wavelength"]}
{"id": "C135", "title": "Exactly when the image functions raise, and what", "statement": "resample_2D: for every image and every two spacings (Python or numpy numbers, finite or not) ImportError without OpenCV, else ZeroDivisionError if both spacings are Python numbers and the second is zero, else ValueError or OverflowError if a side comes out as nan or infinite, else cv2.error if the image is empty or a side is at most half a pixel after resampling, else it returns. otf_to_psf with positive spacings raises nothing but the UnboundLocalError for OTFs with at most 10 samples along a side. apply_otf_to_image hands on what otf_to_psf raises; apart from that it raises cv2.error exactly when the image is empty or the image or the point spread function has no row or column left at the camera's sampling: never if the camera's pixels are less than twice as wide as the image's, always if they are 2 min(M, N) times as wide, for perfect optics always from 22 times on, however large the image. simulate_image with a physical camera whose pixels are less than twice as wide as the reference image's raises nothing but the ValueError of the Poisson generator.", "quantifier": "every image, OTF of any size, spacing, range, ground sample distance and field of view; every camera, scenario, atmosphere and calibrated reference image meeting the physical preconditions of C73, every generator state", "why_tests_cant": "a complete case distinction over all inputs, including the sizes of arrays that depend on the values of the OTF", "anchors": ["src/pybsm/otf/functional.py:resample_2D", "src/pybsm/otf/functional.py:otf_to_psf", "src/pybsm/otf/functional.py:apply_otf_to_image", "src/pybsm/simulation/functional.py:simulate_image"]}
{"id": "C136", "title": "What a central obscuration does", "statement": "Let eta be replaced by a larger eta' < 1 in the sensor, all else equal. (a) In photon_detector_SNR the difference of the electron rates of target and background is multiplied by exactly (1 - eta'^2)/(1 - eta^2), whatever the spectra. (b) At every frequency and in every weather the system MTF of common_OTFs times (1 - eta^2) never rises and the OTF keeps its sign: the amplitude of a pattern in photoelectrons never gains. (c) Above (1 + eta')/2 of the diffraction cutoff at every wavelength this product does not change: the MTF rises by exactly the factor by which the light falls. (d) Up to (1 - eta')/2 of the cutoff the MTF is no higher than that of the clear aperture.", "quantifier": "every physical camera, scene, band, exposure, frequency grid and spectrum; every pair of obscurations 0 <= eta <= eta' < 1 ((d): eta = 0)", "why_tests_cant": "an inequality between two branches of a four-branch formula with inverse trigonometric functions at every frequency and obscuration", "anchors": ["src/pybsm/otf/functional.py:circular_aperture_OTF", "src/pybsm/otf/functional.py:common_OTFs", "src/pybsm/radiance/functional.py:photon_detector_SNR"]}
{"id": "C137", "title": "An odd number of OTF samples distorts the point spread function; mirror images", "statement": "(a) For every odd number M > 10 of samples a side, otf_to_psf of the transfer function of a point spread function h (its exact Fourier transform, at its own spacing) returns h(a, b) cos(2 pi (a + b) / M), rescaled to sum 1, instead of h (for even M it returns h, C84). (b) apply_otf_to_image then replaces every pixel by the mean with these weights, up to the border. (c) For h >= 0 the weights are right within the factor 1 - 2000/M^2, that is 0.1 % at the simulator's 1501 samples. (d) If the point spread function in use is its own mirror image and has an odd number of columns, the simulated mirror image is exactly the mirror image of the simulated image. (e) But for every odd M > 10 a bright point blurred evenly over 3 x 3 pixels, an OTF and an image that are both mirror symmetric, comes out asymmetric: the lower right neighbour of the point is darker than the lower left one by the factor cos(4 pi / M). (f) In simulate_image the transform and its mirror image differ by 2 p sin sin, p the intended value, at every pixel off the middle lines.", "quantifier": "(a)-(c) every odd size above 10 ((c): above 44), every point spread function within 10 x 10 pixels with a nonzero rescaling sum, every image of 6 x 6 pixels or more; (d) every image, OTF and geometry for which the call succeeds; (e) every odd size; (f) every physical sensor, scene and band", "why_tests_cant": "ranges over all point spread functions, images and odd sizes; the deviation at 1501 samples is below usual test tolerances", "anchors": ["src/pybsm/otf/functional.py:otf_to_psf", "src/pybsm/otf/functional.py:apply_otf_to_image", "src/pybsm/otf/functional.py:resample_2D", "src/pybsm/simulation/functional.py:simulate_image"]}
{"id": "C138", "title": "Blurring in two steps", "statement": "Let two point spread functions be given by their transfer functions. (a) The transfer function of the two blurs in succession is the product of the two. (b) With an even number of samples, calling apply_otf_to_image with the first OTF and then, on its result, with the second gives the image that one call with the product gives, at every pixel at least 10 pixels from the border. (c) If the first blur is symmetric along each axis this holds at every pixel of the image. (d) With an odd number of samples, such as the simulator's 1501, it does not hold: a bright point blurred evenly over 3 x 3 pixels twice is not what the product of the OTFs gives.", "quantifier": "every pair of point spread functions which together stay within 10 x 10 pixels; every even size above 10 and every image of 6 x 6 ((c): 11 x 11) pixels or more, with camera pixels of the image's size; (d) every odd size above 16", "why_tests_cant": "an identity between two pipelines for all images, sizes and pairs of point spread functions", "anchors": ["src/pybsm/otf/functional.py:apply_otf_to_image", "src/pybsm/otf/functional.py:otf_to_psf"]}
{"id": "C139", "title": "What hazier air does to signal-to-noise ratio and image contrast", "statement": "Let one sensor look at a scene through two atmospheres, the second of which passes on k <= 1 times the light of the scene at every wavelength and adds at least as much light of its own. (a) niirs and niirs5 report for the second a signal-to-noise ratio of the same sign that is at most as large in magnitude, including the shortening of the exposure which keeps the wells from overfilling. (b) If only the light of the air grows, the difference of the target and background electron rates stays the same, the total noise is no smaller and the integration time no longer. (c) In the true image of simulate_image no two pixels differ by more electrons, none have a larger contrast (difference over sum), and no two pixels trade places.", "quantifier": "every usable sensor, scene, pair of atmosphere tables and factor k in (0, 1]; (c) every reference image and pair of pixels", "why_tests_cant": "a monotonicity statement over all sensors and all pairs of atmospheres, where haze acts on signal, noise and exposure at once", "anchors": ["src/pybsm/radiance/functional.py:total_radiance", "src/pybsm/radiance/functional.py:giqe_radiance", "src/pybsm/radiance/functional.py:check_well_fill", "src/pybsm/radiance/functional.py:photon_detector_SNR", "src/pybsm/radiance/functional.py:reflectance_to_photoelectrons", "src/pybsm/metrics/functional.py:niirs", "src/pybsm/metrics/functional.py:niirs5", "src/pybsm/simulation/functional.py:simulate_image"]}
{"id": "C140", "title": "What the distance to the target does to a rating", "statement": "Let one sensor look at the same scene from two places, through the same air in its band and without turbulence. (a) The signal, noise and edge responses niirs5 reports are the same, and its ratings differ by -3.32 log10 of the ratio of the distances times the fourth root of the ratio of the sines of the elevation angles. (b) From one altitude, a target further away along the ground always gets a lower rating, up to half way round the Earth. (c) From straight above, altitude costs 3.32 times the decimal logarithm of its factor: just under one level each time it doubles. (d) Above a point beside the target, climbing makes the rating better as long as the reported elevation angle has a sine of at most 1/sqrt 5 (26.6 degrees), and worse from there on. (e) In niirs the GIQE 3 ratings differ by the ratio of the distances alone and the GIQE 4 ratings also by the square root of the ratio of the sines.", "quantifier": "every usable sensor whose pixels sample the band, every pair of places above the ground, every atmosphere table that serves both", "why_tests_cant": "monotonicity and exact differences over all pairs of places; the rating is not monotone in altitude and tests at a few altitudes show either sign", "anchors": ["src/pybsm/metrics/functional.py:niirs", "src/pybsm/metrics/functional.py:niirs5", "src/pybsm/metrics/functional.py:giqe5", "src/pybsm/metrics/functional.py:giqe4", "src/pybsm/metrics/functional.py:giqe3", "src/pybsm/geospatial.py:curved_earth_slant_range", "src/pybsm/geospatial.py:nadir_angle"]}
{"id": "C141", "title": "The other component OTFs in double precision", "statement": "Computed in double precision, gaussian_OTF and defocus_OTF are within 1e-13 of their exact values at every frequency and for all blur sizes (of either sign, not zero for gaussian_OTF). wavefront_OTF_2 is within 5e-14 times the size of its terms. cte_OTF is within 1e-8 if the phases times transfers times inefficiency are at most 100 and the frequency is at most 1000 radians per pixel. detector_OTF_with_aggregation is within 1e-10 for up to 1000 pixels and 100 cycles across them. diffusion_OTF is within 2e-13 divided by the share of carriers collected at frequency zero, when that share is at least 1e-6.", "quantifier": "every argument and frequency in the stated ranges, every rounding to nearest, every mathematical library accurate to 1e-15", "why_tests_cant": "ranges over all doubles and all libraries; a test compares a few frequencies with a tolerance and cannot see how the error grows with the frequency or near cancellation", "anchors": ["src/pybsm/otf/functional.py:gaussian_OTF", "src/pybsm/otf/functional.py:defocus_OTF", "src/pybsm/otf/functional.py:wavefront_OTF_2", "src/pybsm/otf/functional.py:cte_OTF", "src/pybsm/otf/functional.py:detector_OTF_with_aggregation", "src/pybsm/otf/functional.py:diffusion_OTF"]}
{"id": "C142", "title": "Contrast stretching in double precision", "statement": "Let every pixel of an image have magnitude at most M, let n be the number of pixels, and let lo < hi be the exact percentiles with hi - lo >= 1e-12 n M. Computed in double precision, (a) each percentile is within 3e-15 n M of the exact one, (b) stretch_contrast_convert_8bit gives every pixel an integer from 0 to 255 that differs from its exact position between lo and hi on the scale from 0 to 255 by at most 1/2 + 4e-12 n M / (hi - lo), so no pixel is undefined and a pixel is off by one at most when it lies next to a tie, (c) a brighter pixel never becomes darker than a less bright one.", "quantifier": "every non-empty image, every pair of percentiles, every rounding to nearest", "why_tests_cant": "ranges over all images and all doubles; the outcome is discrete, so one rounding error in a percentile could flip pixels, swap their order or turn them into the cast of NaN", "anchors": ["src/pybsm/simulation/functional.py:stretch_contrast_convert_8bit"]}
{"id": "C143", "title": "Reflectances and photoelectrons of an image in double precision", "statement": "Let the reflectances of a calibration lie between -1 and 1 and its pixel values be distinct. Computed in double precision, (a) img_to_reflectance gives every pixel a reflectance between 0 and 1 within 3e-14 of the exact one, however close the calibration points are and however far the pixel lies outside them, (b) with two calibration points, as RefImage chooses by default, a brighter pixel never gets a smaller reflectance, and with more points at most 6e-14 less, (c) the true image of simulate_image is computed without a ValueError from the photoelectron table, and if the entries of that table are within delta P of their exact values, where P bounds the exact pixel values, every pixel is within (delta + 2e-13) P of its exact value.", "quantifier": "every image, every calibration with at least two distinct pixel values and reflectances between -1 and 1, every photoelectron table, every rounding to nearest", "why_tests_cant": "ranges over all images, calibrations and doubles; extrapolated values are unbounded, and one rounding beyond 1.0 would make interp1d raise", "anchors": ["src/pybsm/simulation/functional.py:img_to_reflectance", "src/pybsm/simulation/functional.py:simulate_image", "src/pybsm/radiance/functional.py:reflectance_to_photoelectrons"]}
{"id": "C144", "title": "Blurred and resampled images in double precision", "statement": "Let no pixel of an h x w image exceed M in size. (a) resample_2D as OpenCV computes it - source positions and weights in single precision, pixels in double - succeeds when the exact one does, gives the same number of pixels, and every pixel is within (1.4e-7 (h + w) + 5e-7) M of the exact one; an error already present in the image is not amplified. (b) Resampling to the same number of pixels (up to 2^24 a side) returns the same doubles. (c) cv2.filter2D with a kernel whose entries have sizes adding up to G, adding the products in any order, is within (depth + 1) 1.5e-16 G M of the exact blur, and apply_otf_to_image's two steps together are within the sum of both bounds. (d) If neither the kernel nor the image has a negative entry, no computed pixel is negative, so the Poisson draw of simulate_image does not fail because of rounding.", "quantifier": "every image, kernel, number of output pixels, order of additions, every rounding to nearest double and every rounding to single precision", "why_tests_cant": "ranges over all images, kernels, sizes and orders of additions; a rounded position can fall on the other side of a pixel boundary", "anchors": ["src/pybsm/otf/functional.py:resample_2D", "src/pybsm/otf/functional.py:apply_otf_to_image", "src/pybsm/simulation/functional.py:simulate_image"]}
{"id": "C145", "title": "Blur kernels in double precision", "statement": "Let the entries of the resampled point spread function add up to a positive number and their sizes to at most kappa times it (kappa = 1 if none is negative), and let numpy send no entry through more than d additions; write E = (d + 1) 1.5e-16. If no candidate crop of otf_to_psf holds within 5 kappa^2 E of 95 % of the total, the kernel computed in double precision has the size of the exact one, each entry has a relative error of at most 13 kappa^2 E, the entries add up to 1 within 26 kappa^3 E, and an image of one value v blurred with it in double precision stays v within 30 kappa^3 E |v|. If no entry of the resampled point spread function is negative, no entry of the kernel is.", "quantifier": "every point spread function with kappa^2 E <= 1e-4 whose chosen crop holds at least half of it, every list of candidate sizes, every order of additions, every rounding to nearest", "why_tests_cant": "ranges over all arrays and orders of additions; the crop is a discrete decision on a rounded sum", "anchors": ["src/pybsm/otf/functional.py:otf_to_psf", "src/pybsm/otf/functional.py:apply_otf_to_image"]}
{"id": "C146", "title": "Simulated images in double precision", "statement": "Take the true image, the blur kernel, the blurred image and the resampled image of simulate_image together, each computed in double precision from the rounded result of the one before (true image by interpolation in a 100-point table whose entries are wrong by at most delta P, kernel from the resampled point spread function under the conditions of C145, OpenCV filtering and single precision resampling weights as in C144). If a black and a white pixel give at most P photoelectrons, every pixel of the result is within 2 kappa (delta + 16 kappa^2 E + 1.4e-7 (height + width) + 6e-7) P of the pixel exact arithmetic gives. The same bound with the error of the input image in place of the table's holds for any image. If the table is nonnegative and does not fall and no entry of the point spread function is negative, no pixel handed to the Poisson generator is negative.", "quantifier": "every reference image of the documented kind, every camera and table, every point spread function meeting the conditions of C145, every output size, every order of additions, every rounding to nearest and every single precision rounding", "why_tests_cant": "ranges over all images, kernels and orders of additions; errors of four stages have to be shown not to amplify", "anchors": ["src/pybsm/simulation/functional.py:simulate_image", "src/pybsm/simulation/functional.py:img_to_reflectance", "src/pybsm/otf/functional.py:otf_to_psf", "src/pybsm/otf/functional.py:apply_otf_to_image", "src/pybsm/otf/functional.py:resample_2D"]}
{"id": "C147", "title": "Grid, noise and sizes of a simulation in double precision", "statement": "In double precision, for every rounding to nearest: the 1501 x 1501 frequencies at which simulate_image evaluates the system OTF are within 6.1e-16 of the cutoff frequency from those of exact arithmetic and exactly zero in the middle; for a positive cutoff frequency the error 'Cutoff frequency values must be increasing' is never raised and the frequency spacing has a relative error below 1e-12; the standard deviation of the Gaussian noise is never negative, has a relative error below 2e-14, and is zero only for a camera with neither read noise nor a charge range; the simulated image and the resampled point spread function have the sizes of exact arithmetic, unless the exact quotient is within 2e-6 of the point where the size changes.", "quantifier": "every camera with a positive aperture and positive pitches and a whole number of bits, every altitude above zero, ground range and reference image with quotients up to a million (image) or 100000 (point spread function), every rounding to nearest", "why_tests_cant": "whether a rounded comparison or a rounded size can flip depends on every input; the exact zero in the middle of the grid holds for 1501 points, not for every number of points", "anchors": ["src/pybsm/simulation/functional.py:simulate_image", "src/pybsm/noise.py:quantization_noise", "src/pybsm/otf/functional.py:otf_to_psf", "src/pybsm/otf/functional.py:resample_2D", "src/pybsm/otf/functional.py:apply_otf_to_image"]}
{"id": "C148", "title": "Wiener filter, defocus radii and dark current in double precision", "statement": "In double precision, for every rounding to nearest: wiener_filter with a noise-to-signal ratio of at least zero has a value where exact arithmetic has one and only there, with relative errors of at most 7e-15 in its real and imaginary parts; it never raises the contrast of a pattern above the original by more than 7e-15, and for a ratio of zero it restores it within 7e-15. object_domain_defocus_radii errs by at most 7e-15 of the sum of the radii for a focus at infinity and never has the wrong sign, but its relative error has no bound: it is zero for some pairs of different distances. image_domain_defocus_radii and dark_current_from_density have relative errors of at most 8e-15.", "quantifier": "every complex OTF value, noise-to-signal ratio, aperture, distance, focal length, current density and detector size, every rounding to nearest, every absolute value function accurate to 1e-15", "why_tests_cant": "ranges over all real arguments and all values of the OTF; cancellation shows only for special pairs", "anchors": ["src/pybsm/simulation/functional.py:wiener_filter", "src/pybsm/otf/functional.py:object_domain_defocus_radii", "src/pybsm/otf/functional.py:image_domain_defocus_radii", "src/pybsm/otf/functional.py:dark_current_from_density"]}
{"id": "C149", "title": "Ground-resolved distance in double precision", "statement": "In double precision, for every rounding to nearest, every MTF slice that never rises and every positive SNR, ground_resolved_distance returns what exact arithmetic gives for an SNR that differs by at most 2e-16 of itself, with a relative error of at most 4e-14 times the last frequency of the slice over the resolved frequency (plus the 1e-12 the code adds), plus 2e-15, as long as the resolved frequency is at least 1e-13 of the last. Whatever the slice and the SNR, the result is never below two ground sample distances by more than 3e-16 of them.", "quantifier": "every length and values of the slice, frequency step, SNR, field of view and slant range, every rounding to nearest", "why_tests_cant": "the slice is an arbitrary array of any length; the error depends on where the threshold crosses it", "anchors": ["src/pybsm/metrics/functional.py:ground_resolved_distance"]}
{"id": "C150", "title": "Time delay and integration in double precision", "statement": "In double precision, for every rounding to nearest and every cosine, sine and exponential accurate to 1e-15: the real and the imaginary part of tdi_OTF are within 2e-11 of the exact ones at every frequency, for whole numbers of stages and phases with a product of at most 1000, a positive focal length times velocity ratio, and a total drift (number of exposures times their displacement in cycles) of at most 100; so its magnitude exceeds 1 by at most 5e-11.", "quantifier": "every frequency, detector width, velocity ratio, focal length and number of stages and phases in these ranges, every rounding to nearest, every accurate mathematical library", "why_tests_cant": "ranges over all real arguments; the rounding errors of up to 1000 accumulated complex exponentials depend on all of them", "anchors": ["src/pybsm/otf/functional.py:tdi_OTF"]}
{"id": "C151", "title": "Aperture without defocus in double precision", "statement": "In double precision, for every rounding to nearest and every arccosine and sine accurate to 1e-15, circular_aperture_OTF_with_defocus without defocus returns a number within 3e-14 of the diffraction MTF of the clear aperture (the normalised overlap of the pupil with its shifted copy) at every frequency, also at the cutoff; it is exactly zero from 2e-14 of the cutoff beyond it, and within 1.1e-7 of what circular_aperture_OTF computes without obscuration.", "quantifier": "every pair of frequencies, positive wavelength and aperture diameter, every rounding to nearest, every accurate mathematical library", "why_tests_cant": "the arccosine is ill-conditioned at the cutoff, where rounding decides whether it is a number at all; tests see only a few frequencies", "anchors": ["src/pybsm/otf/functional.py:circular_aperture_OTF_with_defocus"]}
{"id": "C152", "title": "Frequencies beyond Nyquist in double precision", "statement": "In double precision, for every rounding to nearest, every positive field of view and every frequency, the frequency at which filter_OTF looks up its table lies between the first and the last frequency of the table in both directions (never outside, where the OTF would be filled with zero), and differs from the given frequency by a whole number of sampling frequencies 1/ifov up to 4e-16 of the given frequency and of the sampling frequency.", "quantifier": "every frequency of any size and sign, every positive field of view, every rounding to nearest", "why_tests_cant": "rounding can carry the remainder onto the divisor or past the table's edge only at special frequencies", "anchors": ["src/pybsm/otf/functional.py:filter_OTF"]}
{"id": "C153", "title": "Coherence diameter of a band in double precision", "statement": "In double precision, for every rounding to nearest and every order in which numpy adds: for a function without negative values that is computed with a relative error of at most 0.07, weighted_by_wavelength adds at most 1e-12 to that relative error, for up to 2000 wavelengths and any weights that are not negative. The coherence diameter over the band that polychromatic_turbulence_OTF returns for a scene therefore has a relative error of at most 1.1e-8 plus 0.113 over the square of the slant range in metres.", "quantifier": "every list of up to 2000 wavelengths and weights, every scene from 4 m to 1000 km, every rounding to nearest, every order of adding, every accurate mathematical library", "why_tests_cant": "the rounding errors of thousands of operations depend on the spectrum, the scene and the order in which numpy adds", "anchors": ["src/pybsm/otf/functional.py:weighted_by_wavelength", "src/pybsm/otf/functional.py:polychromatic_turbulence_OTF"]}
