import Verif.Spec.Imaging

/-!
# Specification vocabulary: comparing two cameras and scenes
-/

noncomputable section

open Classical

namespace PyBSM.Spec

/-- Camera `s'` in scene `g'` is camera `s` in scene `g` with more blur: more jitter, drift or wavefront error, a
shorter correlation of the wavefront errors, stronger turbulence or wind.  Nothing else differs. -/
structure MoreBlur (s s' : RealSensor) (g g' : RealScene) : Prop where
  sameSensor : s' = { s with sX := s'.sX, sY := s'.sY, daX := s'.daX, daY := s'.daY, pv := s'.pv, lX := s'.lX, lY := s'.lY }
  sameScene : g' = { g with aircraftSpeed := g'.aircraftSpeed, windSpeed := g'.windSpeed, cn2 := g'.cn2 }
  jitterX : |s.sX| ≤ |s'.sX|
  jitterY : |s.sY| ≤ |s'.sY|
  driftX : |s.daX| ≤ |s'.daX|
  driftY : |s.daY| ≤ |s'.daY|
  wavefront0 : 0 ≤ s.pv
  wavefront : s.pv ≤ s'.pv
  corrX0 : s'.lX ≠ 0
  corrY0 : s'.lY ≠ 0
  corrX : |s'.lX| ≤ |s.lX|
  corrY : |s'.lY| ≤ |s.lY|
  speed0 : 0 ≤ g.aircraftSpeed
  speed : g.aircraftSpeed ≤ g'.aircraftSpeed
  wind : |g.windSpeed| ≤ |g'.windSpeed|
  cn2 : g.cn2 ≤ g'.cn2

/-- During the exposure actually used the line of sight drifts by less than one cycle of the cutoff frequency. -/
def RealSensor.SlowDrift (s : RealSensor) (B : List (Fin 6 → ℝ)) : Prop :=
  ∀ c, s.Cutoff B c → |s.daX| * s.exposure B * s.nTdi * c ≤ 1 ∧ |s.daY| * s.exposure B * s.nTdi * c ≤ 1

/-- Camera `s'` is camera `s` with more noise: more read-out noise, more other noise, fewer bits or fewer stacked
frames.  Nothing else differs. -/
structure MoreNoise (s s' : RealSensor) : Prop where
  same : s' = { s with readNoise := s'.readNoise, otherNoise := s'.otherNoise, bitDepth := s'.bitDepth, frameStacks := s'.frameStacks }
  readNoise : |s.readNoise| ≤ |s'.readNoise|
  otherNoise : (s.otherNoise.map (· ^ 2)).sum ≤ (s'.otherNoise.map (· ^ 2)).sum
  bits0 : 0 < s'.bitDepth
  bits : s'.bitDepth ≤ s.bitDepth
  frames0 : 0 < s'.frameStacks
  frames : s'.frameStacks ≤ s.frameStacks

/-- Two `niirs5` reports for the same ground sample distance: the relative edge responses of the second are positive
and at most those of the first, and so is its combined response; if both responses of the first are at most 1, the
second rating is at most the first. -/
def NoBetter (m m' : Metrics) : Prop :=
  ∃ r1 r2 gw r r1' r2' r' x x' : ℝ,
    m.giqe5 = some (.fin r1, .fin r2, .fin gw, .fin r) ∧ m'.giqe5 = some (.fin r1', .fin r2', .fin gw, .fin r')
    ∧ m.niirs = .fin x ∧ m'.niirs = .fin x'
    ∧ 0 < r1' ∧ r1' ≤ r1 ∧ 0 < r2' ∧ r2' ≤ r2 ∧ r' ≤ r
    ∧ (r1 ≤ 1 → r2 ≤ 1 → x' ≤ x)

/-- The detectors sample the cutoff frequency at least once per cycle in both directions. -/
def RealSensor.Sampled (s : RealSensor) (B : List (Fin 6 → ℝ)) : Prop :=
  ∀ c, s.Cutoff B c → s.pX / s.f * (c + 1e-6) ≤ 1 ∧ s.pY / s.f * (c + 1e-6) ≤ 1

/-- The target is seen brighter than the background, in at least part of a frame, from above the ground. -/
structure Contrast (s : RealSensor) (g : RealScene) (B : List (Fin 6 → ℝ)) : Prop where
  altitude : 0 < g.altitude
  frames : 0 < s.frameStacks
  cut : 0 < s.cut B
  brighter : s.electrons B s.backgroundAt < s.electrons B s.targetAt

end PyBSM.Spec
