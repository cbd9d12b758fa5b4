import Verif.Props.Simulate
import Verif.Props.NoiseBreakout
import Verif.Props.SystemValue

/-!
# C74, C75: noise, flat scenes, range and history of `simulate_image`
-/

noncomputable section

open Classical

namespace PyBSM

open Spec

theorem simulate_ok {env : Env} {usable : Bool} {rng : Rng} {r : RefImage} {s : Sensor} {sc : Scenario} {R : SimResult}
    (h : simulateImage env usable rng r s sc = .ok R) :
    ∃ g : ℝ, XR.sqrt (quantizationNoise s.maxN s.bitDepth ^ 2 + s.readNoise ^ 2) = .fin g
      ∧ (¬ ∃ i < R.blurImg.h, ∃ j < R.blurImg.w, R.blurImg.px i j < 0)
      ∧ (∃ atm, (sc.readAtm env.files).1 = .ok atm) ∧ R.scenario = (sc.readAtm env.files).2.1
      ∧ ∀ rng' : Rng, simulateImage env usable rng' r s sc = .ok { R with
          noisyImg := { R.blurImg with
            px := fun i j => (rng'.poisson i j (R.blurImg.px i j) : ℝ) + g * rng'.normal i j } } := by
  unfold simulateImage at h ⊢
  simp only [bind_ok] at h
  obtain ⟨atm, e1, ⟨ref, pe, wl, w⟩, e2, mn, e3, otf, e4, h⟩ := h
  split_ifs at h with hdf
  simp only [bind_ok] at h
  obtain ⟨ifov, e5, t, e6, tr, e7, rows, e8, ⟨blur, sp⟩, e9, h⟩ := h
  split_ifs at h with hneg
  split at h
  · next g hg =>
    rw [Except.ok.injEq] at h
    subst h
    refine ⟨g, hg, hneg, ⟨atm, e1⟩, rfl, fun rng' => ?_⟩
    simp only [e1, ok_bind, e2, e3, e4, if_neg hdf, e5, e6, e7, e8, e9, if_neg hneg, hg]
  · cases h

/-- **C74** (draws): whatever the inputs, if a simulation succeeds for one state of the random generator, then it
succeeds for every other state, with the same true image, the same blurred image and the same scenario; the means of
the Poisson draws are never negative and the noisy image has the size of the blurred image, each pixel being a Poisson
draw with the blurred pixel as mean plus a normal draw whose standard deviation is the root sum of squares of
quantization and read noise. -/
theorem C74_draws {env : Env} {usable : Bool} {rng : Rng} {r : RefImage} {s : Sensor} {sc : Scenario} {R : SimResult}
    (h : simulateImage env usable rng r s sc = .ok R) :
    ∃ g : ℝ, XR.sqrt (quantizationNoise s.maxN s.bitDepth ^ 2 + s.readNoise ^ 2) = .fin g
      ∧ (∀ i < R.blurImg.h, ∀ j < R.blurImg.w, 0 ≤ R.blurImg.px i j)
      ∧ ∀ rng' : Rng, ∃ R', simulateImage env usable rng' r s sc = .ok R'
          ∧ R'.trueImg = R.trueImg ∧ R'.blurImg = R.blurImg ∧ R'.scenario = R.scenario
          ∧ R'.noisyImg.h = R.blurImg.h ∧ R'.noisyImg.w = R.blurImg.w
          ∧ ∀ i j, R'.noisyImg.px i j = rng'.poisson i j (R.blurImg.px i j) + g * rng'.normal i j := by
  obtain ⟨g, h1, h2, -, -, h3⟩ := simulate_ok h
  refine ⟨g, h1, fun i hi j hj => ?_, fun rng' => ⟨_, h3 rng', rfl, rfl, rfl, rfl, rfl, fun _ _ => rfl⟩⟩
  by_contra hlt
  exact h2 ⟨i, hi, j, hj, not_le.mp hlt⟩

/-- A step that does not use the draws. -/
theorem draws_step {α β γ : Type} {x : Except PyErr α} {k : α → Rng → Except PyErr γ} {F : Rng → β → γ}
    (h : ∀ a, ∃ f : Except PyErr β, ∀ rng, k a rng = f.map (F rng)) :
    ∃ f : Except PyErr β, ∀ rng, (x >>= fun a => k a rng) = f.map (F rng) := by
  cases x with
  | error e => exact ⟨.error e, fun _ => rfl⟩
  | ok a => exact h a

/-- The draws are used only once everything else has succeeded. -/
theorem simulate_factor (env : Env) (usable : Bool) (r : RefImage) (s : Sensor) (sc : Scenario) :
    ∃ f : Except PyErr (Img × Img × ℝ × Scenario), ∀ rng, simulateImage env usable rng r s sc = f.map fun p =>
      { trueImg := p.1, blurImg := p.2.1, scenario := p.2.2.2
        noisyImg := { p.2.1 with px := fun i j => (rng.poisson i j (p.2.1.px i j) : ℝ) + p.2.2.1 * rng.normal i j } } := by
  unfold simulateImage
  refine draws_step fun atm => draws_step fun p => draws_step fun mn => draws_step fun otf => ?_
  dsimp only
  split_ifs with hdf
  · exact ⟨.error .valueError, fun _ => rfl⟩
  refine draws_step fun ifov => draws_step fun t => draws_step fun tr => draws_step fun rows => draws_step fun p => ?_
  split_ifs with hneg
  · exact ⟨.error .valueError, fun _ => rfl⟩
  cases XR.sqrt (quantizationNoise s.maxN s.bitDepth ^ 2 + s.readNoise ^ 2) with
  | fin g => exact ⟨.ok (_, _, g, _), fun _ => rfl⟩
  | pinf => exact ⟨.error .outsideModel, fun _ => rfl⟩
  | ninf => exact ⟨.error .outsideModel, fun _ => rfl⟩
  | nan => exact ⟨.error .outsideModel, fun _ => rfl⟩

/-- **C74** (errors): nor does the error, if there is one, depend on the draws. -/
theorem C74_errors {env : Env} {usable : Bool} {rng : Rng} {r : RefImage} {s : Sensor} {sc : Scenario} {e : PyErr}
    (h : simulateImage env usable rng r s sc = .error e) (rng' : Rng) : simulateImage env usable rng' r s sc = .error e := by
  obtain ⟨f, hf⟩ := simulate_factor env usable r s sc
  rw [hf] at h ⊢
  cases f with
  | error x => exact h
  | ok p => cases h

/-- **C74** (flat scenes): an image all of whose pixels have the same value is neither blurred nor rescaled: every
pixel of the true and of the blurred image holds the photoelectrons of that reflectance. -/
theorem C74_flat {env : Env} {s : RealSensor} {sc : Scenario} {r : RefImage} {cal : List (ℝ × ℝ)}
    {B : List (Fin 6 → ℝ)} (h : Simulation env s sc r cal B) {g : RealScene} (hv : FlatView g sc) {x : ℝ}
    (hx : ∀ i < r.img.h, ∀ j < r.img.w, r.img.px i j = x) :
    ∃ srt ρ, srt.Perm cal ∧ Increasing srt ∧ OnExtended srt x ρ
      ∧ ∀ (usable : Bool) (rng : Rng) (R : SimResult), simulateImage env usable rng r s.toSensor sc = .ok R →
        Within R.trueImg (s.pixel B (unit ρ)) (s.pixel B (unit ρ)) ∧ Within R.blurImg (s.pixel B (unit ρ)) (s.pixel B (unit ρ)) := by
  obtain ⟨T, srt, ρ, c, F, otf, atm, h1, h2, h3, h4, h5, h6, -, -, -, -, -, h7⟩ := C73_simulation h hv
  refine ⟨srt, ρ x, h1, h2, h3 x, fun usable rng R hR => ?_⟩
  rw [h7] at hR
  have hT : ∀ i < T.h, ∀ j < T.w, T.px i j = s.pixel B (unit (ρ x)) := by
    intro i hi j hj
    rw [h4] at hi
    rw [h5] at hj
    rw [h6 i hi j hj, hx i hi j hj]
  split at hR
  · cases hR
  · next blur sp e =>
    split_ifs at hR with hneg
    rw [Except.ok.injEq] at hR
    subst hR
    exact ⟨fun i hi j hj => by rw [hT i hi j hj]; exact ⟨le_rfl, le_rfl⟩,
      fun i hi j hj => by rw [C47_constant e hT i hi j hj]; exact ⟨le_rfl, le_rfl⟩⟩

theorem pixel_range {s : RealSensor} {B : List (Fin 6 → ℝ)} (hu : s.Usable) (hM : 0 < s.maxN) (hB : ∀ a ∈ B, 0 < a 0)
    (hc : Counting s B) {x : ℝ} (h0 : 0 ≤ x) (h1 : x ≤ 1) : 0 ≤ s.pixel B x ∧ s.pixel B x ≤ s.maxN := by
  have hn : 0 ≤ s.collected B x := by
    refine counts_nonneg (A := fun i => B.getD i 0) hu hc.physical (fun i hi => (counting_step hc.increasing hi).le)
      (fun i hi => ?_) hc.exposure hc.tdi h0 h1
    have hm := getD_mem hi
    exact ⟨hB _ hm, hc.transmission _ hm, hc.path _ hm, hc.scattered _ hm, hc.reflected _ hm⟩
  have hle := collected_le s B h0 h1
  unfold RealSensor.pixel
  have h1' : (1 : ℝ) ≤ max 1 (max (s.collected B 0) (s.collected B 1) / s.maxN) := le_max_left _ _
  refine ⟨by positivity, ?_⟩
  rw [div_le_iff₀ (by linarith)]
  have h2 := le_max_right 1 (max (s.collected B 0) (s.collected B 1) / s.maxN)
  rw [div_le_iff₀ hM] at h2
  linarith

/-- **C74** (range): for a physical sensor and atmosphere the true image lies between an empty and a full well; if
moreover the point spread function has no negative pixel, so does the blurred image, and the only way a simulation can
fail is that `apply_otf_to_image` fails. -/
theorem C74_range {env : Env} {s : RealSensor} {sc : Scenario} {r : RefImage} {cal : List (ℝ × ℝ)}
    {B : List (Fin 6 → ℝ)} (h : Simulation env s sc r cal B) (hc : Counting s B) {g : RealScene} (hv : FlatView g sc) :
    (∀ (usable : Bool) (rng : Rng) (R : SimResult), simulateImage env usable rng r s.toSensor sc = .ok R →
      Within R.trueImg 0 s.maxN)
    ∧ ∃ (T : Img) (c : ℝ) (otf : ℕ → ℕ → ℂ), Within T 0 s.maxN
      ∧ ((∀ half q p, Scal.div (.py r.gsd) (.py 2) = .ok half → Scal.div half (.np (.fin g.slant)) = .ok q →
          otfToPsf true 1501 1501 otf (.np (.fin (c / 750))) (.np (2 * q.val.arctan)) = .ok p →
          ∀ i < p.h, ∀ j < p.w, 0 ≤ p.px i j) →
        ∀ (usable : Bool) (rng : Rng),
          (∀ R, simulateImage env usable rng r s.toSensor sc = .ok R → R.trueImg = T ∧ Within R.blurImg 0 s.maxN)
          ∧ ∀ e, simulateImage env usable rng r s.toSensor sc = .error e →
              applyOtfToImage usable T (.py r.gsd) (.np (.fin g.slant)) 1501 1501 otf (.np (.fin (c / 750)))
                (.py (.fin ((s.pX + s.pY) / 2 / s.f))) = .error e) := by
  obtain ⟨T, srt, ρ, c, F, otf, atm, h1, h2, h3, h4, h5, h6, -, -, -, -, -, h7⟩ := C73_simulation h hv
  have hT : Within T 0 s.maxN := by
    intro i hi j hj
    rw [h4] at hi
    rw [h5] at hj
    rw [h6 i hi j hj]
    have := unit_mem (ρ (r.img.px i j))
    exact pixel_range h.usable h.well h.wavelengths hc this.1 this.2
  constructor
  · intro usable rng R hR
    rw [h7] at hR
    split at hR
    · cases hR
    · split_ifs at hR with hneg
      rw [Except.ok.injEq] at hR
      subst hR
      exact hT
  · refine ⟨T, c, otf, hT, fun hpsf usable rng => ⟨fun R hR => ?_, fun e he => ?_⟩⟩
    · rw [h7] at hR
      split at hR
      · cases hR
      · next blur sp e =>
        split_ifs at hR with hneg
        rw [Except.ok.injEq] at hR
        subst hR
        exact ⟨rfl, C47_range e hpsf hT⟩
    · rw [h7] at he
      split at he
      · next e' e'' =>
        cases he
        exact e''
      · next blur sp e =>
        split_ifs at he with hneg
        obtain ⟨i, hi, j, hj, hlt⟩ := hneg
        exact absurd (C47_range e hpsf hT i hi j hj).1 (not_le.mpr hlt)

/-- **C75** (history): a successful simulation leaves the atmosphere cached in the scenario and changes nothing else
about it; simulating again with the scenario it leaves gives the same result, even if the data files have changed or
gone meanwhile. -/
theorem C75_again {env : Env} {usable : Bool} {rng : Rng} {r : RefImage} {s : Sensor} {sc : Scenario} {R : SimResult}
    (h : simulateImage env usable rng r s sc = .ok R) :
    (∃ atm, (sc.readAtm env.files).1 = .ok atm ∧ R.scenario = { sc with atmCache := some atm })
    ∧ ∀ files' : Files, simulateImage { env with files := files' } usable rng r s R.scenario = .ok R := by
  obtain ⟨g, h1, h2, ⟨atm, ha⟩, hsc, h3⟩ := simulate_ok h
  have hca := readAtm_cached ha
  refine ⟨⟨atm, ha, hsc.trans hca⟩, fun files' => ?_⟩
  rw [hsc]
  rw [← h]
  unfold simulateImage
  have e1 : (Scenario.readAtm files' (sc.readAtm env.files).2.1).1 = .ok atm := by rw [hca]; rfl
  have e2 : (Scenario.readAtm files' (sc.readAtm env.files).2.1).2.1 = (sc.readAtm env.files).2.1 := by rw [hca]; rfl
  simp only [e1, e2, ha]
  rfl

end PyBSM
