import Verif.Spec.Noise
import Verif.Props.SimulateDemo
import Verif.Props.SimulateResults
import Mathlib.Probability.Independence.InfinitePi
import Mathlib.Probability.StrongLaw

/-!
# C90: statistics of the simulated noise
-/

noncomputable section

open MeasureTheory ProbabilityTheory Filter Topology
open scoped NNReal ENNReal

namespace PyBSM

open Spec

/-! ## Moments of the Poisson distribution -/

theorem poisson_shift (r : ℝ≥0) (n : ℕ) :
    Real.exp (-r) * (r : ℝ) ^ (n + 1) / ((n + 1).factorial : ℝ) * ((n + 1 : ℕ) : ℝ)
      = r * (Real.exp (-r) * (r : ℝ) ^ n / (n.factorial : ℝ)) := by
  rw [Nat.factorial_succ]
  push_cast
  have : (n.factorial : ℝ) ≠ 0 := by positivity
  have : (n : ℝ) + 1 ≠ 0 := by positivity
  field_simp
  ring

theorem poisson_first (r : ℝ≥0) :
    HasSum (fun n : ℕ => Real.exp (-r) * (r : ℝ) ^ n / (n.factorial : ℝ) * (n : ℝ)) r := by
  rw [← hasSum_nat_add_iff' 1]
  simp only [Finset.range_one, Finset.sum_singleton, Nat.cast_zero, mul_zero, sub_zero, poisson_shift]
  simpa using (hasSum_one_poissonMeasure r).mul_left (r : ℝ)

theorem poisson_second (r : ℝ≥0) :
    HasSum (fun n : ℕ => Real.exp (-r) * (r : ℝ) ^ n / (n.factorial : ℝ) * (n : ℝ) ^ 2) ((r : ℝ) ^ 2 + r) := by
  rw [← hasSum_nat_add_iff' 1]
  have e : ∀ n : ℕ, Real.exp (-r) * (r : ℝ) ^ (n + 1) / ((n + 1).factorial : ℝ) * ((n + 1 : ℕ) : ℝ) ^ 2
      = r * (Real.exp (-r) * (r : ℝ) ^ n / (n.factorial : ℝ) * (n : ℝ))
        + r * (Real.exp (-r) * (r : ℝ) ^ n / (n.factorial : ℝ)) := by
    intro n
    rw [pow_two, ← mul_assoc, poisson_shift]
    push_cast
    ring
  simp only [Finset.range_one, Finset.sum_singleton, Nat.cast_zero, e]
  have := ((poisson_first r).mul_left (r : ℝ)).add ((hasSum_one_poissonMeasure r).mul_left (r : ℝ))
  convert! this using 1
  norm_num
  ring

theorem poisson_memLp (r : ℝ≥0) : MemLp (fun n : ℕ => (n : ℝ)) 2 (poissonMeasure r) := by
  rw [memLp_two_iff_integrable_sq (by fun_prop), integrable_poissonMeasure_iff]
  have := (poisson_second r).summable
  refine this.congr fun n => ?_
  rw [Real.norm_of_nonneg (by positivity)]

theorem poisson_mean (r : ℝ≥0) : ∫ n : ℕ, (n : ℝ) ∂(poissonMeasure r) = r := by
  rw [integral_poissonMeasure]
  exact (poisson_first r).tsum_eq

theorem poisson_variance (r : ℝ≥0) : Var[fun n : ℕ => (n : ℝ); poissonMeasure r] = r := by
  rw [variance_eq_sub (poisson_memLp r), poisson_mean]
  have : ∫ n : ℕ, ((fun n : ℕ => (n : ℝ)) ^ 2) n ∂(poissonMeasure r) = (r : ℝ) ^ 2 + r := by
    rw [integral_poissonMeasure]
    exact (poisson_second r).tsum_eq
  rw [this]; ring

/-! ## A Poisson count plus Gaussian noise -/

section pixel
variable {Ω : Type*} [MeasurableSpace Ω] {μ : Measure Ω} [IsProbabilityMeasure μ]
  {N : Ω → ℕ} {Z : Ω → ℝ} {m : ℝ}

theorem count_memLp (hN : HasLaw N (poissonMeasure m.toNNReal) μ) : MemLp (fun ω => (N ω : ℝ)) 2 μ := by
  have h := poisson_memLp m.toNNReal
  rw [← hN.map_eq, memLp_map_measure_iff (by fun_prop) hN.aemeasurable] at h
  exact h

theorem normal_memLp (hZ : HasLaw Z (gaussianReal 0 1) μ) : MemLp Z 2 μ := by
  have h : MemLp id 2 (gaussianReal 0 1) := memLp_id_gaussianReal' 2 (by simp)
  rw [← hZ.map_eq, memLp_map_measure_iff (by fun_prop) hZ.aemeasurable] at h
  exact h

theorem pixel_memLp (hN : HasLaw N (poissonMeasure m.toNNReal) μ) (hZ : HasLaw Z (gaussianReal 0 1) μ) (g : ℝ) :
    MemLp (fun ω => (N ω : ℝ) + g * Z ω) 2 μ :=
  (count_memLp hN).add ((normal_memLp hZ).const_mul g)

theorem pixel_mean (hm : 0 ≤ m) (hN : HasLaw N (poissonMeasure m.toNNReal) μ) (hZ : HasLaw Z (gaussianReal 0 1) μ)
    (g : ℝ) : ∫ ω, ((N ω : ℝ) + g * Z ω) ∂μ = m := by
  have i1 : Integrable (fun ω => (N ω : ℝ)) μ := (count_memLp hN).integrable (by norm_num)
  have i2 : Integrable Z μ := (normal_memLp hZ).integrable (by norm_num)
  rw [integral_add i1 (i2.const_mul g), integral_const_mul]
  have h1 : ∫ ω, (N ω : ℝ) ∂μ = m := by
    rw [← integral_map (φ := N) (f := fun n : ℕ => (n : ℝ)) hN.aemeasurable (by fun_prop), hN.map_eq, poisson_mean,
      Real.coe_toNNReal m hm]
  have h2 : ∫ ω, Z ω ∂μ = 0 := by
    rw [← integral_map (φ := Z) (f := fun x => x) hZ.aemeasurable (by fun_prop), hZ.map_eq, integral_id_gaussianReal]
  rw [h1, h2]; ring

theorem pixel_variance (hm : 0 ≤ m) (hN : HasLaw N (poissonMeasure m.toNNReal) μ) (hZ : HasLaw Z (gaussianReal 0 1) μ)
    (hi : IndepFun N Z μ) (g : ℝ) : Var[fun ω => (N ω : ℝ) + g * Z ω; μ] = m + g ^ 2 := by
  have hi' : IndepFun (fun ω => (N ω : ℝ)) (fun ω => g * Z ω) μ :=
    hi.comp (φ := fun n : ℕ => (n : ℝ)) (ψ := fun x : ℝ => g * x) (by fun_prop) (by fun_prop)
  rw [IndepFun.variance_fun_add (count_memLp hN) ((normal_memLp hZ).const_mul g) hi', variance_const_mul]
  have h1 : Var[fun ω => (N ω : ℝ); μ] = m := by
    have := variance_map (X := fun n : ℕ => (n : ℝ)) (Y := N) (μ := μ) (by fun_prop) hN.aemeasurable
    rw [hN.map_eq, poisson_variance, Real.coe_toNNReal m hm] at this
    exact this.symm
  have h2 : Var[Z; μ] = 1 := by
    have := variance_map (X := id) (Y := Z) (μ := μ) (by fun_prop) hZ.aemeasurable
    rw [hZ.map_eq, variance_id_gaussianReal] at this
    simpa using this.symm
  rw [h1, h2]; ring

theorem pixel_law (hN : HasLaw N (poissonMeasure m.toNNReal) μ) (hZ : HasLaw Z (gaussianReal 0 1) μ)
    (hi : IndepFun N Z μ) (g : ℝ) : HasLaw (fun ω => (N ω : ℝ) + g * Z ω)
      (((poissonMeasure m.toNNReal).prod (gaussianReal 0 1)).map (fun p => (p.1 : ℝ) + g * p.2)) μ := by
  have hm := hN.aemeasurable.prodMk hZ.aemeasurable
  refine ⟨?_, ?_⟩
  · exact (show Measurable (fun p : ℕ × ℝ => (p.1 : ℝ) + g * p.2) by fun_prop).comp_aemeasurable hm
  · rw [← hN.map_eq, ← hZ.map_eq, ← hi.map_prod_eq_prod_map_map hN.aemeasurable hZ.aemeasurable]
    rw [AEMeasurable.map_map_of_aemeasurable (by fun_prop) hm]
    rfl

end pixel

theorem gaussian_sq (s : RealSensor) : s.gaussian ^ 2
    = (s.maxN / (Real.sqrt 12 * ((2 : ℝ) ^ s.bitDepth - 1))) ^ 2 + s.readNoise ^ 2 :=
  Real.sq_sqrt (by positivity)

theorem draws_results {env : Env} {usable : Bool} {rng₀ : Rng} {r : RefImage} {s : RealSensor} (hb : 0 < s.bitDepth)
    {sc : Scenario} {R : SimResult} (h : simulateImage env usable rng₀ r s.toSensor sc = .ok R) :
    (∀ i < R.blurImg.h, ∀ j < R.blurImg.w, 0 ≤ R.blurImg.px i j)
      ∧ ∀ rng : Rng, ∃ R', simulateImage env usable rng r s.toSensor sc = .ok R'
          ∧ R'.trueImg = R.trueImg ∧ R'.blurImg = R.blurImg
          ∧ R'.noisyImg.h = R.blurImg.h ∧ R'.noisyImg.w = R.blurImg.w
          ∧ ∀ i j, R'.noisyImg.px i j = rng.poisson i j (R.blurImg.px i j) + s.gaussian * rng.normal i j := by
  obtain ⟨g, hg, h0, hr⟩ := C74_draws h
  rw [gaussian_value hb, XR.fin_inj] at hg
  subst hg
  refine ⟨h0, fun rng => ?_⟩
  obtain ⟨R', a, b, c, -, d, e, f⟩ := hr rng
  exact ⟨R', a, b, c, d, e, f⟩

/-- **C90** (noise): whenever `simulate_image` succeeds at all, and the draws of the random generator are fair, every run
returns the same true and blurred images, and in the noisy image every pixel has the blurred pixel as expectation and the
sum of the shot noise (the blurred pixel), the quantization noise and the read noise as variance; noise at different
pixels and in different runs is independent. -/
theorem C90_noise {env : Env} {usable : Bool} {rng₀ : Rng} {r : RefImage} {s : RealSensor} (hb : 0 < s.bitDepth)
    {sc : Scenario} {R : SimResult} (h : simulateImage env usable rng₀ r s.toSensor sc = .ok R)
    {Ω κ : Type*} [MeasurableSpace Ω] {μ : Measure Ω} [IsProbabilityMeasure μ] {rng : κ → Ω → Rng}
    (hd : FairDraws μ rng) :
    ∃ X : κ → Ω → SimResult, (∀ k ω, simulateImage env usable (rng k ω) r s.toSensor sc = .ok (X k ω)
        ∧ (X k ω).trueImg = R.trueImg ∧ (X k ω).blurImg = R.blurImg
        ∧ (X k ω).noisyImg.h = R.blurImg.h ∧ (X k ω).noisyImg.w = R.blurImg.w)
      ∧ (∀ k, ∀ i < R.blurImg.h, ∀ j < R.blurImg.w,
          MemLp (fun ω => (X k ω).noisyImg.px i j) 2 μ
          ∧ ∫ ω, (X k ω).noisyImg.px i j ∂μ = R.blurImg.px i j
          ∧ Var[fun ω => (X k ω).noisyImg.px i j; μ] = R.blurImg.px i j
              + (s.maxN / (Real.sqrt 12 * ((2 : ℝ) ^ s.bitDepth - 1))) ^ 2 + s.readNoise ^ 2)
      ∧ iIndepFun (fun (p : κ × ℕ × ℕ) ω => (X p.1 ω).noisyImg.px p.2.1 p.2.2) μ := by
  obtain ⟨h0, hr⟩ := draws_results hb h
  choose F hF using hr
  have e : ∀ k ω i j, (F (rng k ω)).noisyImg.px i j
      = (rng k ω).poisson i j (R.blurImg.px i j) + s.gaussian * (rng k ω).normal i j :=
    fun k ω => (hF (rng k ω)).2.2.2.2.2
  refine ⟨fun k ω => F (rng k ω), fun k ω => ⟨(hF _).1, (hF _).2.1, (hF _).2.2.1, (hF _).2.2.2.1, (hF _).2.2.2.2.1⟩,
    fun k i hi j hj => ?_, ?_⟩
  · have hm := h0 i hi j hj
    simp only [e]
    refine ⟨pixel_memLp (hd.counts k i j _ hm) (hd.normals k i j) _, pixel_mean hm (hd.counts k i j _ hm) (hd.normals k i j) _,
      ?_⟩
    rw [pixel_variance hm (hd.counts k i j _ hm) (hd.normals k i j) (hd.within k i j _), gaussian_sq]
    ring
  · have := (hd.across fun _ i j => R.blurImg.px i j).comp (fun _ p => (p.1 : ℝ) + s.gaussian * p.2)
      (fun _ => by fun_prop)
    simp only [e]
    exact this

/-- **C90** (averaging): the mean of the noisy images of repeated runs converges to the blurred image, almost surely, at
every pixel. -/
theorem C90_average {env : Env} {usable : Bool} {rng₀ : Rng} {r : RefImage} {s : RealSensor} (hb : 0 < s.bitDepth)
    {sc : Scenario} {R : SimResult} (h : simulateImage env usable rng₀ r s.toSensor sc = .ok R)
    {Ω : Type*} [MeasurableSpace Ω] {μ : Measure Ω} [IsProbabilityMeasure μ] {rng : ℕ → Ω → Rng}
    (hd : FairDraws μ rng) {X : ℕ → Ω → SimResult}
    (hX : ∀ k ω, simulateImage env usable (rng k ω) r s.toSensor sc = .ok (X k ω)) :
    ∀ᵐ ω ∂μ, ∀ i < R.blurImg.h, ∀ j < R.blurImg.w,
      Tendsto (fun n : ℕ => (∑ k ∈ Finset.range n, (X k ω).noisyImg.px i j) / n) atTop (𝓝 (R.blurImg.px i j)) := by
  obtain ⟨h0, hr⟩ := draws_results hb h
  obtain ⟨X', hX', hs, hi⟩ := C90_noise hb h hd
  have hXX : X' = X := by
    funext k ω
    have := (hX' k ω).1
    rw [hX k ω, Except.ok.injEq] at this
    exact this.symm
  subst hXX
  have e : ∀ k ω i j, (X' k ω).noisyImg.px i j
      = (rng k ω).poisson i j (R.blurImg.px i j) + s.gaussian * (rng k ω).normal i j := by
    intro k ω i j
    obtain ⟨R', a, -, -, -, -, f⟩ := hr (rng k ω)
    rw [hX k ω, Except.ok.injEq] at a
    rw [a]; exact f i j
  rw [ae_all_iff]; intro i
  by_cases hih : i < R.blurImg.h
  swap
  · exact ae_of_all _ fun ω h' => absurd h' hih
  simp only [hih, true_imp_iff]
  rw [ae_all_iff]; intro j
  by_cases hjw : j < R.blurImg.w
  swap
  · exact ae_of_all _ fun ω h' => absurd h' hjw
  simp only [hjw, true_imp_iff]
  have hm := h0 i hih j hjw
  have key := strong_law_ae_real (fun k ω => (X' k ω).noisyImg.px i j) ((hs 0 i hih j hjw).1.integrable (by norm_num))
    (fun k l hkl => hi.indepFun (i := (k, i, j)) (j := (l, i, j)) (by simp [hkl]))
    (fun k => by
      have l1 := pixel_law (hd.counts k i j _ hm) (hd.normals k i j) (hd.within k i j _) s.gaussian
      have l2 := pixel_law (hd.counts 0 i j _ hm) (hd.normals 0 i j) (hd.within 0 i j _) s.gaussian
      simp only [e]
      exact ⟨l1.aemeasurable, l2.aemeasurable, l1.map_eq.trans l2.map_eq.symm⟩)
  rw [(hs 0 i hih j hjw).2.1] at key
  exact key

/-- Fair draws exist: the product of a Poisson variable for every run, pixel and mean and a normal variable for every run
and pixel. -/
theorem fair_draws_exist (κ : Type) : ∃ (Ω : Type) (_ : MeasurableSpace Ω) (μ : Measure Ω) (rng : κ → Ω → Rng),
    IsProbabilityMeasure μ ∧ FairDraws μ rng := by
  let P : Measure ((ℝ → ℕ) × ℝ) := (Measure.infinitePi fun m : ℝ => poissonMeasure m.toNNReal).prod (gaussianReal 0 1)
  have hP : IsProbabilityMeasure P := inferInstance
  let μ : Measure (κ × ℕ × ℕ → (ℝ → ℕ) × ℝ) := Measure.infinitePi fun _ => P
  let rng : κ → (κ × ℕ × ℕ → (ℝ → ℕ) × ℝ) → Rng := fun k ω =>
    { poisson := fun i j m => (ω (k, i, j)).1 m, normal := fun i j => (ω (k, i, j)).2 }
  have heval : ∀ p : κ × ℕ × ℕ, μ.map (fun ω => ω p) = P := fun p => Measure.infinitePi_map_eval _ p
  have hcount : ∀ m : ℝ, P.map (fun q => q.1 m) = poissonMeasure m.toNNReal := by
    intro m
    have h1 : P.map Prod.fst = Measure.infinitePi fun m : ℝ => poissonMeasure m.toNNReal := by
      simp only [P, Measure.map_fst_prod, measure_univ, one_smul]
    have : P.map (fun q => q.1 m) = (P.map Prod.fst).map (fun f => f m) := by
      rw [Measure.map_map (by fun_prop) measurable_fst]; rfl
    rw [this, h1]
    exact Measure.infinitePi_map_eval _ m
  have hnorm : P.map (fun q => q.2) = gaussianReal 0 1 := by
    change P.map Prod.snd = _
    simp only [P, Measure.map_snd_prod, measure_univ, one_smul]
  have m1 : ∀ k i j m, Measurable (fun ω => (rng k ω).poisson i j m) := fun k i j m =>
    show Measurable (fun ω : κ × ℕ × ℕ → (ℝ → ℕ) × ℝ => (ω (k, i, j)).1 m) by fun_prop
  have m2 : ∀ k i j, Measurable (fun ω => (rng k ω).normal i j) := fun k i j =>
    show Measurable (fun ω : κ × ℕ × ℕ → (ℝ → ℕ) × ℝ => (ω (k, i, j)).2) by fun_prop
  refine ⟨_, inferInstance, μ, rng, inferInstance, ?_, ?_, ?_, ?_⟩
  · intro k i j m _
    refine ⟨(m1 k i j m).aemeasurable, ?_⟩
    have : μ.map (fun ω => (ω (k, i, j)).1 m) = (μ.map (fun ω => ω (k, i, j))).map (fun q => q.1 m) := by
      rw [Measure.map_map (by fun_prop) (by fun_prop)]; rfl
    exact this.trans (by rw [heval, hcount])
  · intro k i j
    refine ⟨(m2 k i j).aemeasurable, ?_⟩
    have : μ.map (fun ω => (ω (k, i, j)).2) = (μ.map (fun ω => ω (k, i, j))).map (fun q => q.2) := by
      rw [Measure.map_map (by fun_prop) (by fun_prop)]; rfl
    exact this.trans (by rw [heval, hnorm])
  · intro k i j m
    have hi : IndepFun (fun q : (ℝ → ℕ) × ℝ => q.1 m) (fun q => q.2) P :=
      indepFun_prod (X := fun f : ℝ → ℕ => f m) (Y := fun x : ℝ => x) (by fun_prop) (by fun_prop)
    rw [← heval (k, i, j)] at hi
    rw [indepFun_iff_map_prod_eq_prod_map_map (by fun_prop) (by fun_prop)] at hi
    rw [indepFun_iff_map_prod_eq_prod_map_map (m1 k i j m).aemeasurable (m2 k i j).aemeasurable]
    rw [Measure.map_map (by fun_prop) (by fun_prop), Measure.map_map (by fun_prop) (by fun_prop),
      Measure.map_map (by fun_prop) (by fun_prop)] at hi
    exact hi
  · intro m
    exact iIndepFun_infinitePi (P := fun _ : κ × ℕ × ℕ => P)
      (X := fun p (q : (ℝ → ℕ) × ℝ) => (q.1 (m p.1 p.2.1 p.2.2), q.2)) (fun p => by fun_prop)

/-- The demonstration image with fair draws: repeated runs succeed and their mean tends to the blurred image. -/
example : ∃ (R : SimResult) (Ω : Type) (_ : MeasurableSpace Ω) (μ : Measure Ω) (rng : ℕ → Ω → Rng) (X : ℕ → Ω → SimResult),
    FairDraws μ rng ∧ (∀ k ω, simulateImage demoEnv true (rng k ω) demoRef demoSensor.toSensor demoScenario = .ok (X k ω))
    ∧ ∀ᵐ ω ∂μ, ∀ i < R.blurImg.h, ∀ j < R.blurImg.w,
      Tendsto (fun n : ℕ => (∑ k ∈ Finset.range n, (X k ω).noisyImg.px i j) / n) atTop (𝓝 (R.blurImg.px i j)) := by
  obtain ⟨R, h, -⟩ := demo_succeeds ⟨fun _ _ _ => 0, fun _ _ => 0⟩
  obtain ⟨Ω, mΩ, μ, rng, hμ, hd⟩ := fair_draws_exist ℕ
  have hb : 0 < demoSensor.bitDepth := demo_simulation.bits
  obtain ⟨X, hX, -⟩ := C90_noise hb h hd
  exact ⟨R, Ω, mΩ, μ, rng, X, hd, fun k ω => (hX k ω).1, C90_average hb h hd fun k ω => (hX k ω).1⟩

end PyBSM
