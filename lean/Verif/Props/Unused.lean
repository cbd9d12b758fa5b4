import Verif.Spec.Unused
import Verif.Spec.Niirs
import Verif.Props.Niirs

/-!
# C115: attributes without effect
-/

noncomputable section

open Classical

namespace PyBSM

open Spec

/-! ## Helpers -/

/-- The scenario with the atmosphere it ends up with after an attempt to read it. -/
theorem readAtm_same {files : Files} {a b : Scenario} (h1 : a.altitude = b.altitude) (h2 : a.groundRange = b.groundRange)
    (h3 : a.ihaze = b.ihaze) (h4 : a.interp = b.interp) (h5 : a.atmCache = b.atmCache) :
    (a.readAtm files).1 = (b.readAtm files).1 := by
  unfold Scenario.readAtm
  rw [h1, h2, h3, h4, h5]
  cases b.atmCache with
  | some A => rfl
  | none =>
    dsimp only
    cases dbLoad files ⟨b.interp, b.altitude, b.groundRange, b.ihaze⟩ <;> rfl

/-! ## C115 -/

/-- **C115** (photoelectrons). `reflectance_to_photoelectrons` depends on the attributes of the sensor that describe
optics, detector and well, and on nothing else: not on its integration time (which is an argument), its noise, its
`max_well_fill`, its `other_irradiance`. -/
theorem C115_photoelectrons {s t : Sensor} (h : SameRadiometry s t) (atm : Atm) (intTime temp : XR) :
    reflectanceToPhotoelectrons atm s intTime temp = reflectanceToPhotoelectrons atm t intTime temp := by
  obtain ⟨⟩ := s
  obtain ⟨⟩ := t
  obtain ⟨h1, h2, h3, h4, h5, h6, h7, h8, h9, h10, h11, h12, h13, h14, h15, h16, h17, h18⟩ := h
  dsimp only at h1 h2 h3 h4 h5 h6 h7 h8 h9 h10 h11 h12 h13 h14 h15 h16 h17 h18
  subst h1 h2 h3 h4 h5 h6 h7 h8 h9 h10 h11 h12 h13 h14 h15 h16 h17 h18
  rfl

/-- **C115** (SNR). `photon_detector_SNR` does not depend on the name, `other_irradiance`, the pitches, the frame stack,
the kernel, or any attribute of the blur. -/
theorem C115_snr {s t : Sensor} (h : SameDetection s t) (wl tgt bkg : List XR) :
    photonDetectorSNR s wl tgt bkg = photonDetectorSNR t wl tgt bkg := by
  obtain ⟨⟩ := s
  obtain ⟨⟩ := t
  obtain ⟨⟨h1, h2, h3, h4, h5, h6, h7, h8, h9, h10, h11, h12, h13, h14, h15, h16, h17, h18⟩, h19, h20, h21, h22, h23⟩ := h
  dsimp only at h1 h2 h3 h4 h5 h6 h7 h8 h9 h10 h11 h12 h13 h14 h15 h16 h17 h18 h19 h20 h21 h22 h23
  subst h1 h2 h3 h4 h5 h6 h7 h8 h9 h10 h11 h12 h13 h14 h15 h16 h17 h18 h19 h20 h21 h22 h23
  rfl

/-- **C115** (blur). `common_OTFs` does not depend on the transmission, quantum efficiency, temperatures, noise, well or
integration time attributes of the sensor, nor on the vertical pitch, nor on what the scenario says about target,
background, haze and ground range. -/
theorem C115_blur {s t : Sensor} {a b : Scenario} (h : SameBlur s t) (ha : SameAir a b) (diag : ℕ → ℕ → Bool)
    (us vs wl weights : List XR) (slant : Scal) (intTime : XR) :
    commonOTFs diag s a us vs wl weights slant intTime = commonOTFs diag t b us vs wl weights slant intTime := by
  obtain ⟨⟩ := s
  obtain ⟨⟩ := t
  obtain ⟨⟩ := a
  obtain ⟨⟩ := b
  obtain ⟨h1, h2, h3, h4, h5, h6, h7, h8, h9, h10, h11, h12, h13, h14, h15, h16⟩ := h
  obtain ⟨k1, k2, k3, k4⟩ := ha
  dsimp only at h1 h2 h3 h4 h5 h6 h7 h8 h9 h10 h11 h12 h13 h14 h15 h16 k1 k2 k3 k4
  subst h1 h2 h3 h4 h5 h6 h7 h8 h9 h10 h11 h12 h13 h14 h15 h16 k1 k2 k3 k4
  rfl

/-- **C115** (ratings). `niirs` and `niirs5` do not depend on the name and the `other_irradiance` of the sensor, nor
on what the scenario says about target and background: no entry of the result changes. -/
theorem C115_ratings {s t : Sensor} (h : SameRating s t) {a b : Scenario} (hs : SameScene a b) (env : Env) (interp : Bool) :
    (niirs env s a interp).1 = (niirs env t b interp).1 ∧ (niirs5 env s a interp).1 = (niirs5 env t b interp).1 := by
  rw [niirs_result_same hs env s interp,
    show (niirs5 env s a interp).1 = (niirs5 env s b interp).1 from niirs5_result_same hs env s s.filterKernel interp]
  obtain ⟨⟩ := s
  obtain ⟨⟩ := t
  obtain ⟨⟨⟨h1, h2, h3, h4, h5, h6, h7, h8, h9, h10, h11, h12, h13, h14, h15, h16, h17, h18⟩, h19, h20, h21, h22, h23⟩,
    ⟨-, -, g3, -, -, -, -, g8, g9, g10, g11, g12, g13, g14, g15, g16⟩, f1, f2⟩ := h
  dsimp only at h1 h2 h3 h4 h5 h6 h7 h8 h9 h10 h11 h12 h13 h14 h15 h16 h17 h18 h19 h20 h21 h22 h23 g3 g8 g9 g10 g11 g12 g13 g14 g15 g16 f1 f2
  subst h1 h2 h3 h4 h5 h6 h7 h8 h9 h10 h11 h12 h13 h14 h15 h16 h17 h18 h19 h20 h21 h22 h23 g3 g8 g9 g10 g11 g12 g13 g14 g15 g16 f1 f2
  constructor
  · rw [niirs_result, niirs_result]; rfl
  · rw [niirs5_result, niirs5_result]; rfl

/-- The images of a simulation. -/
def images (x : Except PyErr SimResult) : Except PyErr (Img × Img × Img) := x.map fun R => (R.trueImg, R.blurImg, R.noisyImg)

theorem images_step {α : Type} (x : Except PyErr α) {g g' : α → Except PyErr SimResult}
    (h : ∀ a, images (g a) = images (g' a)) : images (x >>= g) = images (x >>= g') := by
  cases x with
  | error e => rfl
  | ok a => exact h a

theorem simulate_scene {a b : Scenario} (ha : SameAir a b) (h2 : a.groundRange = b.groundRange) (h3 : a.ihaze = b.ihaze)
    (h4 : a.interp = b.interp) (h5 : a.atmCache = b.atmCache) (env : Env) (usable : Bool) (rng : Rng) (r : RefImage)
    (s : Sensor) : images (simulateImage env usable rng r s a) = images (simulateImage env usable rng r s b) := by
  have e1 := readAtm_same (files := env.files) ha.altitude h2 h3 h4 h5
  have e2 : SameAir (a.readAtm env.files).2.1 (b.readAtm env.files).2.1
      ∧ (a.readAtm env.files).2.1.groundRange = (b.readAtm env.files).2.1.groundRange := by
    have keep : ∀ c : Scenario, SameAir (c.readAtm env.files).2.1 c ∧ (c.readAtm env.files).2.1.groundRange = c.groundRange := by
      intro c
      unfold Scenario.readAtm
      cases c.atmCache with
      | some A => exact ⟨⟨rfl, rfl, rfl, rfl⟩, rfl⟩
      | none =>
        dsimp only
        cases dbLoad env.files ⟨c.interp, c.altitude, c.groundRange, c.ihaze⟩ <;> exact ⟨⟨rfl, rfl, rfl, rfl⟩, rfl⟩
    obtain ⟨⟨p1, p2, p3, p4⟩, p5⟩ := keep a
    obtain ⟨⟨q1, q2, q3, q4⟩, q5⟩ := keep b
    exact ⟨⟨by rw [p1, q1, ha.altitude], by rw [p2, q2, ha.aircraftSpeed], by rw [p3, q3, ha.haWindSpeed],
      by rw [p4, q4, ha.cn2At1m]⟩, by rw [p5, q5, h2]⟩
  unfold simulateImage
  dsimp only
  rw [e1]
  generalize (a.readAtm env.files).2.1 = sa at *
  generalize (b.readAtm env.files).2.1 = sb at *
  refine images_step _ fun A => images_step _ fun p => ?_
  have e3 : flatSlantRange sa = flatSlantRange sb := by
    unfold flatSlantRange
    rw [e2.1.altitude, e2.2]
  rw [e3]
  refine images_step _ fun mn => ?_
  have e4 : ∀ c w q, gridOTFs env 1501 s sa c w q (flatSlantRange sb) s.intTime
      = gridOTFs env 1501 s sb c w q (flatSlantRange sb) s.intTime := by
    intro c w q
    unfold gridOTFs
    congr 1
    funext v
    exact C115_blur ⟨rfl, rfl, rfl, rfl, rfl, rfl, rfl, rfl, rfl, rfl, rfl, rfl, rfl, rfl, rfl, rfl⟩ e2.1 _ _ _ _ _ _ _
  rw [e4]
  refine images_step _ fun otf => ?_
  split_ifs
  · rfl
  refine images_step _ fun ifov => images_step _ fun t => images_step _ fun tr => images_step _ fun rows =>
    images_step _ fun bl => ?_
  split_ifs
  · rfl
  split <;> rfl

/-- **C115** (simulation). The three images of `simulate_image`, or the exception, do not depend on the sensor's name,
`other_irradiance`, `max_well_fill`, `other_noise` and `frame_stacks`, nor on what the scenario says about target and
background. -/
theorem C115_simulation {s t : Sensor} (h : SameImaging s t) {a b : Scenario} (ha : SameAir a b)
    (h2 : a.groundRange = b.groundRange) (h3 : a.ihaze = b.ihaze) (h4 : a.interp = b.interp) (h5 : a.atmCache = b.atmCache)
    (env : Env) (usable : Bool) (rng : Rng) (r : RefImage) :
    (simulateImage env usable rng r s a).map (fun R => (R.trueImg, R.blurImg, R.noisyImg))
      = (simulateImage env usable rng r t b).map fun R => (R.trueImg, R.blurImg, R.noisyImg) := by
  refine (simulate_scene ha h2 h3 h4 h5 env usable rng r s).trans ?_
  obtain ⟨⟩ := s
  obtain ⟨⟩ := t
  obtain ⟨⟨h1, h2, h3, h4, h5, h6, h7, h8, h9, h10, h11, h12, h13, h14, h15, h16, h17, h18⟩,
    ⟨-, -, g3, -, -, -, -, g8, g9, g10, g11, g12, g13, g14, g15, g16⟩, f1, f2, f3, f4⟩ := h
  dsimp only at h1 h2 h3 h4 h5 h6 h7 h8 h9 h10 h11 h12 h13 h14 h15 h16 h17 h18 g3 g8 g9 g10 g11 g12 g13 g14 g15 g16 f1 f2 f3 f4
  subst h1 h2 h3 h4 h5 h6 h7 h8 h9 h10 h11 h12 h13 h14 h15 h16 h17 h18 g3 g8 g9 g10 g11 g12 g13 g14 g15 g16 f1 f2 f3 f4
  rfl

/-- **C115** (stray light is lost). The attribute that is documented to represent self emission and stray light can be set
to any value, even NaN, without any effect on ratings, photon counts or simulated images. -/
theorem C115_other_irradiance (s : Sensor) (x : XR) (sc : Scenario) (env : Env) :
    (∀ i, (niirs env { s with otherIrradiance := x } sc i).1 = (niirs env s sc i).1)
    ∧ (∀ i, (niirs5 env { s with otherIrradiance := x } sc i).1 = (niirs5 env s sc i).1)
    ∧ (∀ wl t b, photonDetectorSNR { s with otherIrradiance := x } wl t b = photonDetectorSNR s wl t b)
    ∧ (∀ usable rng r, simulateImage env usable rng r { s with otherIrradiance := x } sc
        = simulateImage env usable rng r s sc) := by
  refine ⟨fun i => ?_, fun i => ?_, fun _ _ _ => rfl, fun _ _ _ => rfl⟩
  · rw [niirs_result, niirs_result]; rfl
  · rw [niirs5_result, niirs5_result]; rfl

/-- Non-trivial instances: sensors that differ in `other_irradiance`; sensors that differ in their noise. -/
example (s : Sensor) : SameRating { s with name := "a", otherIrradiance := 7 } s
    ∧ SameImaging { s with otherNoise := [.fin 100], maxWellFill := 0.5, frameStacks := 4 } s
    ∧ SameRadiometry { s with readNoise := 7 } s :=
  ⟨⟨⟨⟨rfl, rfl, rfl, rfl, rfl, rfl, rfl, rfl, rfl, rfl, rfl, rfl, rfl, rfl, rfl, rfl, rfl, rfl⟩, rfl, rfl, rfl, rfl, rfl⟩,
    ⟨rfl, rfl, rfl, rfl, rfl, rfl, rfl, rfl, rfl, rfl, rfl, rfl, rfl, rfl, rfl, rfl⟩, rfl, rfl⟩,
   ⟨⟨rfl, rfl, rfl, rfl, rfl, rfl, rfl, rfl, rfl, rfl, rfl, rfl, rfl, rfl, rfl, rfl, rfl, rfl⟩,
    ⟨rfl, rfl, rfl, rfl, rfl, rfl, rfl, rfl, rfl, rfl, rfl, rfl, rfl, rfl, rfl, rfl⟩, rfl, rfl, rfl, rfl⟩,
   ⟨rfl, rfl, rfl, rfl, rfl, rfl, rfl, rfl, rfl, rfl, rfl, rfl, rfl, rfl, rfl, rfl, rfl, rfl⟩⟩

end PyBSM
