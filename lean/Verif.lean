import Verif.Num.XR
import Verif.Num.Arr
import Verif.Model.DecoderTable
import Verif.Model.Utils
import Verif.Model.Scenario
import Verif.Model.Geospatial
import Verif.Model.Noise
import Verif.Model.Sensor
import Verif.Model.Radiance
import Verif.Model.Otf
import Verif.Model.OtfImage
import Verif.Model.Metrics
import Verif.Model.Simulation
import Verif.Spec.Scenario
import Verif.Spec.Database
import Verif.Lemmas.Decoder
import Verif.Lemmas.Database
import Verif.Lemmas.Interp
import Verif.Props.Scenario
import Verif.Props.Database
import Verif.Spec.Geometry
import Verif.Spec.Numeric
import Verif.Spec.Radiance
import Verif.Lemmas.Scal
import Verif.Lemmas.Geometry
import Verif.Lemmas.Arr
import Verif.Lemmas.Table
import Verif.Lemmas.Radiance
import Verif.Props.Geometry
import Verif.Props.Radiance
import Verif.Spec.Sensor
import Verif.Spec.Band
import Verif.Lemmas.Sensor
import Verif.Lemmas.Band
import Verif.Props.SNR
import Verif.Props.Photoelectrons
import Verif.Lemmas.OtfElt
import Verif.Props.Blur
import Verif.Props.Turbulence
import Verif.Spec.Weighted
import Verif.Lemmas.Weighted
import Verif.Lemmas.Coherence
import Verif.Props.Spectral
import Verif.Spec.Pupil
import Verif.Lemmas.Lens
import Verif.Lemmas.Pupil
import Verif.Lemmas.Triangle
import Verif.Lemmas.Aperture
import Verif.Lemmas.Diffraction
import Verif.Lemmas.Bessel
import Verif.Lemmas.Defocus
import Verif.Props.Aperture
import Verif.Props.Scalars
import Verif.Spec.Edge
import Verif.Lemmas.Edge
import Verif.Props.Edge
import Verif.Spec.Giqe
import Verif.Lemmas.Giqe
import Verif.Props.Giqe
import Verif.Spec.Grid
import Verif.Lemmas.Slice
import Verif.Props.Slice
import Verif.Lemmas.Grd
import Verif.Props.Grd
import Verif.Spec.Niirs
import Verif.Lemmas.Niirs
import Verif.Props.Niirs
import Verif.Spec.System
import Verif.Spec.Turbulence
import Verif.Spec.Filter
import Verif.Lemmas.Filter
import Verif.Props.System
import Verif.Props.Filter
import Verif.Props.SystemValue
import Verif.Spec.Image
import Verif.Lemmas.Image
import Verif.Lemmas.Fourier
import Verif.Props.Image
import Verif.Spec.Calibration
import Verif.Lemmas.Calibration
import Verif.Lemmas.Percentile
import Verif.Props.Calibration
import Verif.Props.RefImage
import Verif.Spec.Imaging
import Verif.Lemmas.Imaging
import Verif.Lemmas.ImagingOtf
import Verif.Lemmas.DemoRow
import Verif.Props.NiirsValue
import Verif.Props.NoiseBreakout
import Verif.Props.NiirsDemo
import Verif.Spec.Simulation
import Verif.Lemmas.Simulate
import Verif.Props.Simulate
import Verif.Props.SimulateResults
import Verif.Props.Coarse
import Verif.Props.SimulateDemo
import Verif.Spec.Compare
import Verif.Lemmas.Compare
import Verif.Props.Compare
import Verif.Props.CompareDemo
import Verif.Model.Session
import Verif.Spec.Session
import Verif.Props.Session
import Verif.Model.Aliasing
import Verif.Spec.Aliasing
import Verif.Props.Aliasing
import Verif.Props.Capture
import Verif.Props.PsfSupport
import Verif.Props.PsfBlur
import Verif.Props.Conformance
import Verif.Props.ConformanceData
import Verif.Spec.Kernels
import Verif.Lemmas.Kernels
import Verif.Props.Kernels
import Verif.Lemmas.BesselTaylor
import Verif.Spec.Wavefront
import Verif.Lemmas.Wavefront
import Verif.Props.Wavefront
import Verif.Spec.Physics
import Verif.Props.Physics
import Verif.Props.Blackbody
import Verif.Spec.Noise
import Verif.Props.NoiseStatistics
import Verif.Spec.EdgeSpread
import Verif.Lemmas.EdgeSpread
import Verif.Props.EdgeSpread
import Verif.Model.Plot
import Verif.Props.Plot
import Verif.Num.Rounding
import Verif.Model.Rounded
import Verif.Spec.Rounded
import Verif.Lemmas.Rounded
import Verif.Props.Rounded
import Verif.Props.RoundedSpectra
import Verif.Props.Threads
import Verif.Props.BandIrradiance
import Verif.Props.SpectralIntegral
import Verif.Props.DoubleLookup
import Verif.Props.DoubleInterp
import Verif.Props.DoubleDecisions
import Verif.Props.Defaults
import Verif.Spec.Equilibrium
import Verif.Props.Equilibrium
import Verif.Model.FileBytes
import Verif.Spec.FileBytes
import Verif.Props.FileBytes
import Verif.Model.NiirsThreads
import Verif.Spec.NiirsThreads
import Verif.Props.NiirsThreads
import Verif.Num.Ieee
import Verif.Model.Ieee
import Verif.Lemmas.Ieee
import Verif.Spec.Ieee
import Verif.Props.Ieee
import Verif.Model.DoubleGeometry
import Verif.Lemmas.DoubleGeometry
import Verif.Spec.DoubleGeometry
import Verif.Props.DoubleGeometry
import Verif.Spec.Turned
import Verif.Props.Turned
import Verif.Props.TurnedDemo
import Verif.Model.DoubleGiqe
import Verif.Spec.DoubleGiqe
import Verif.Lemmas.DoubleGiqe
import Verif.Props.DoubleGiqe
import Verif.Model.DoubleEdge
import Verif.Props.DoubleEdge
import Verif.Spec.Noisier
import Verif.Props.Noisier
import Verif.Props.NoisierDemo
import Verif.Spec.Ceiling
import Verif.Props.Ceiling
import Verif.Spec.Registration
import Verif.Props.Registration
import Verif.Props.RegistrationDemo
import Verif.Spec.Local
import Verif.Props.Local
import Verif.Props.LocalDemo
import Verif.Spec.Horizon
import Verif.Props.Horizon
import Verif.Spec.Unused
import Verif.Props.Unused
import Verif.Model.World
import Verif.Spec.World
import Verif.Props.World
import Verif.Model.DoubleOtf
import Verif.Spec.DoubleOtf
import Verif.Lemmas.DoubleOtf
import Verif.Lemmas.DoubleOtfRound
import Verif.Lemmas.DoubleOtfCross
import Verif.Props.DoubleOtf
import Verif.Props.DoubleOtfClaims
import Verif.Model.DoubleMtf
import Verif.Spec.DoubleMtf
import Verif.Lemmas.DoubleMtf
import Verif.Props.DoubleMtf
import Verif.Model.DoubleTurbulence
import Verif.Spec.DoubleTurbulence
import Verif.Lemmas.DoublePath
import Verif.Lemmas.DoubleTurbulence
import Verif.Lemmas.DoubleFried
import Verif.Props.DoubleTurbulence
import Verif.Lemmas.Sensitivity
import Verif.Model.DoubleRating
import Verif.Spec.DoubleRating
import Verif.Lemmas.DoubleSlices
import Verif.Props.DoubleSlices
import Verif.Lemmas.DoubleRating
import Verif.Props.DoubleRating
import Verif.Props.DoubleRatingDemo
import Verif.Props.DoubleChain
import Verif.Props.DoubleChainDemo
import Verif.Model.RoundedNoise
import Verif.Spec.RoundedNoise
import Verif.Props.RoundedNoise
import Verif.Props.DoubleNoise
import Verif.Props.RoundedNoiseDemo
import Verif.Model.DoubleNiirs
import Verif.Spec.DoubleNiirs
import Verif.Props.DoubleNiirs
import Verif.Props.DoubleNiirsFine
import Verif.Props.DoubleNiirsDemo
import Verif.Spec.Efficiency
import Verif.Props.Efficiency
import Verif.Props.EfficiencyDemo
import Verif.Model.References
import Verif.Spec.References
import Verif.Props.References
import Verif.Props.ReferencesDemo
import Verif.Model.Generator
import Verif.Spec.Generator
import Verif.Props.Generator
import Verif.Spec.Exchange
import Verif.Props.Exchange
import Verif.Model.Logs
import Verif.Props.Logs
import Verif.Spec.Encoding
import Verif.Props.Encoding
import Verif.Spec.Angles
import Verif.Props.Angles
import Verif.Props.Wider
import Verif.Props.Split
import Verif.Spec.Raises
import Verif.Props.Raises
import Verif.Spec.ImageRaises
import Verif.Props.ImageRaises
import Verif.Props.Obscured
import Verif.Spec.OddPsf
import Verif.Props.OddPsf
import Verif.Spec.TwoSteps
import Verif.Props.TwoSteps
import Verif.Spec.Haze
import Verif.Props.Haze
import Verif.Props.HazeDemo
import Verif.Props.AirlightDemo
import Verif.Props.SmallDemos
import Verif.Spec.Distance
import Verif.Props.Distance
import Verif.Props.DistanceDemo
import Verif.Model.DoubleOther
import Verif.Spec.DoubleOther
import Verif.Props.DoubleOther
import Verif.Model.DoubleStretch
import Verif.Props.DoubleStretch
import Verif.Model.DoubleTrueImage
import Verif.Props.DoubleTrueImage
import Verif.Props.DoubleTrueImageDemo
import Verif.Model.DoubleBlur
import Verif.Spec.DoubleBlur
import Verif.Props.DoubleBlur
import Verif.Props.DoubleBlurDemo
import Verif.Model.DoublePsf
import Verif.Spec.DoublePsf
import Verif.Props.DoublePsf
import Verif.Props.DoublePsfDemo
import Verif.Props.DoubleSimulated
import Verif.Props.DoubleSimulatedDemo
import Verif.Model.DoubleSimulate
import Verif.Props.DoubleSimulate
import Verif.Props.DoubleSimulateDemo
import Verif.Model.DoubleScalars
import Verif.Props.DoubleScalars
import Verif.Model.DoubleGrd
import Verif.Props.DoubleGrd
import Verif.Model.DoubleTdi
import Verif.Props.DoubleTdi
import Verif.Model.DoubleFocused
import Verif.Props.DoubleFocused
import Verif.Model.DoubleWrap
import Verif.Props.DoubleWrap
import Verif.Model.DoubleBand
import Verif.Props.DoubleBand
