import Verif.Spec.Exchange
import Verif.Props.Unused
import Verif.Props.Generator
import Verif.Props.Compare
import Verif.Props.NiirsDemo

/-!
# C128: settings that stand for each other

Integration time and TDI stages, read noise and other noise, the wavefront error and the wavelength it is given for:
only certain combinations of them matter.
-/

noncomputable section

open Classical

namespace PyBSM

open Spec

theorem XR.mulInf_scale {k : ℝ} (hk : 0 < k) (x : ℝ) : XR.mulInf (k * x) = XR.mulInf x := by
  unfold XR.mulInf
  rcases lt_trichotomy x 0 with h | h | h
  · have := mul_neg_of_pos_of_neg hk h
    simp [h, h.not_gt, this, this.not_gt]
  · simp [h]
  · have := mul_pos hk h
    simp [h, this]

theorem XR.pos_mul_pinf {k : ℝ} (hk : 0 < k) : XR.fin k * .pinf = .pinf := by
  show XR.mulInf k = _
  simp [XR.mulInf, hk]

theorem XR.pos_mul_ninf {k : ℝ} (hk : 0 < k) : XR.fin k * .ninf = .ninf := by
  show XR.neg (XR.mulInf k) = _
  simp [XR.mulInf, hk, XR.neg]

theorem XR.pos_mulInf {k : ℝ} (hk : 0 < k) (x : ℝ) : XR.fin k * XR.mulInf x = XR.mulInf x := by
  unfold XR.mulInf
  split_ifs
  · exact XR.pos_mul_pinf hk
  · exact XR.pos_mul_ninf hk
  · rfl

theorem XR.pos_neg_mulInf {k : ℝ} (hk : 0 < k) (x : ℝ) : XR.fin k * XR.neg (XR.mulInf x) = XR.neg (XR.mulInf x) := by
  unfold XR.mulInf
  split_ifs
  · exact XR.pos_mul_ninf hk
  · exact XR.pos_mul_pinf hk
  · rfl

/-- Scaling by a positive number commutes with products, infinities and NaN included. -/
theorem XR.pos_mul_assoc {k : ℝ} (hk : 0 < k) (a b : XR) : .fin k * a * b = .fin k * (a * b) := by
  cases a with
  | fin x =>
    cases b with
    | fin y => exact congrArg XR.fin (_root_.mul_assoc _ _ _)
    | pinf =>
      show XR.mulInf (k * x) = XR.fin k * XR.mulInf x
      rw [XR.mulInf_scale hk, XR.pos_mulInf hk]
    | ninf =>
      show XR.neg (XR.mulInf (k * x)) = XR.fin k * XR.neg (XR.mulInf x)
      rw [XR.mulInf_scale hk, XR.pos_neg_mulInf hk]
    | nan => rfl
  | pinf =>
    rw [XR.pos_mul_pinf hk]
    cases b with
    | fin y => exact (XR.pos_mulInf hk y).symm
    | pinf => exact (XR.pos_mul_pinf hk).symm
    | ninf => exact (XR.pos_mul_ninf hk).symm
    | nan => rfl
  | ninf =>
    rw [XR.pos_mul_ninf hk]
    cases b with
    | fin y => exact (XR.pos_neg_mulInf hk y).symm
    | pinf => exact (XR.pos_mul_ninf hk).symm
    | ninf => exact (XR.pos_mul_pinf hk).symm
    | nan => rfl
  | nan => cases b <;> rfl

theorem XR.mul_pos_left {k : ℝ} (hk : 0 < k) (a b : XR) : a * (.fin k * b) = .fin k * (a * b) := by
  rw [XR.mul_comm, XR.pos_mul_assoc hk, XR.mul_comm b]

theorem XR.scale_cancel {k : ℝ} (hk : 0 < k) (a : XR) : .fin k * (.fin k⁻¹ * a) = a := by
  rw [← XR.pos_mul_assoc hk, XR.fin_mul, mul_inv_cancel₀ hk.ne']
  exact XR.one_mul a

theorem XR.trade {k : ℝ} (hk : 0 < k) (t n : XR) : .fin k * t * (.fin k⁻¹ * n) = t * n := by
  rw [XR.pos_mul_assoc hk, XR.mul_pos_left (inv_pos.mpr hk), XR.scale_cancel hk]

theorem XR.trade' {k : ℝ} (hk : 0 < k) (r t n : XR) : r * (.fin k * t) * (.fin k⁻¹ * n) = r * t * n := by
  rw [XR.mul_pos_left hk, XR.trade hk]

theorem XR.trade'' {k : ℝ} (hk : 0 < k) (t n d : XR) : .fin k⁻¹ * n * d * (.fin k * t) = n * d * t := by
  rw [XR.pos_mul_assoc (inv_pos.mpr hk), XR.mul_comm, XR.trade hk, XR.mul_comm]

theorem map_bind_step {α β γ : Type} (x : Except PyErr α) {f : α → Except PyErr γ} {g : α → Except PyErr β} {F : β → γ}
    (h : ∀ t, f t = (g t).map F) : (x >>= f) = (x >>= g).map F := by
  cases x with
  | error e => rfl
  | ok t => exact h t

theorem trade_otfs {k : ℝ} (hk : 0 < k) (diag : ℕ → ℕ → Bool) (s : Sensor) (sc : Scenario) (us vs wl weights : List XR)
    (slant : Scal) (T : XR) :
    commonOTFs diag (traded k s) sc us vs wl weights slant (.fin k * T) = commonOTFs diag s sc us vs wl weights slant T := by
  have e1 : commonTurbulence (traded k s) sc us vs wl weights slant (.fin k * T)
      = commonTurbulence s sc us vs wl weights slant T := by
    unfold commonTurbulence
    simp only [traded, XR.trade hk]
  have e2 : commonFilter diag (traded k s) us vs = commonFilter diag s us vs := rfl
  unfold commonOTFs
  rw [e1, e2]
  simp only [traded, XR.trade' hk]

theorem trade_grid {k : ℝ} (hk : 0 < k) (env : Env) (n : ℕ) (s : Sensor) (sc : Scenario) (c : XR) (wl weights : List XR)
    (slant T : XR) :
    gridOTFs env n (traded k s) sc c wl weights slant (.fin k * T) = gridOTFs env n s sc c wl weights slant T := by
  unfold gridOTFs
  simp only [trade_otfs hk]

/-- **C128** (SNR): with `k` times the integration time and the TDI stages divided by `k`, `photon_detector_SNR` returns
the same entries, but for the integration time, which is `k` times as long. -/
theorem C128_snr {k : ℝ} (hk : 0 < k) (s : Sensor) (wl tgt bkg : List XR) :
    photonDetectorSNR (traded k s) wl tgt bkg
      = (photonDetectorSNR s wl tgt bkg).map fun m => { m with intTime := .fin k * m.intTime } := by
  unfold photonDetectorSNR
  refine map_bind_step _ fun optTrans => map_bind_step _ fun qe => map_bind_step _ fun other => map_bind_step _ fun p => ?_
  obtain ⟨tgtRate, tgtIrr, weights⟩ := p
  refine map_bind_step _ fun q => ?_
  obtain ⟨bkgRate, bkgIrr, _⟩ := q
  dsimp only
  simp only [traded, XR.trade' hk]
  refine map_bind_step _ fun c => map_bind_step _ fun rate => map_bind_step _ fun n => ?_
  simp only [XR.mul_pos_left hk c.val, XR.trade'' hk, XR.trade' hk]
  rfl

theorem trade_mid {k : ℝ} (hk : 0 < k) (s : Sensor) (atm : Atm) :
    niirsMid (traded k s) atm
      = (niirsMid s atm).map fun m => { m with snr := { m.snr with intTime := .fin k * m.snr.intTime } } := by
  unfold niirsMid
  dsimp only
  have e : isEmissiveBand (traded k s) = isEmissiveBand s := rfl
  have p : ∀ (m : SNRMetrics) (wl irr : List XR),
      photonNoise (traded k s) { m with intTime := .fin k * m.intTime } wl irr = photonNoise s m wl irr := by
    intro m wl irr
    unfold photonNoise
    simp only [traded, XR.trade' hk]
  rw [C128_snr hk, e]
  cases photonDetectorSNR s (atm.map (· 0)) (giqeRadiance atm (isEmissiveBand s)).1
    (giqeRadiance atm (isEmissiveBand s)).2 with
  | error x => rfl
  | ok m =>
    show (photonNoise (traded k s) { m with intTime := .fin k * m.intTime } _ _ >>= _) = _
    rw [p]
    refine map_bind_step _ fun a => ?_
    rw [p]
    refine map_bind_step _ fun b => map_bind_step _ fun q => ?_
    obtain ⟨scatter, _, _⟩ := q
    refine map_bind_step _ fun mn => ?_
    simp only [traded, XR.trade' hk]
    rfl

/-- **C128** (exposure and stages): the ratings depend on integration time and TDI stages through their product only:
with `k` times the integration time and the stages divided by `k`, `niirs` and `niirs5` return the same report or raise
the same exception, but for the integration time in the report, which is `k` times as long. -/
theorem C128_ratings {k : ℝ} (hk : 0 < k) (env : Env) (s : Sensor) (sc : Scenario) (interp : Bool) :
    (niirs env (traded k s) sc interp).1 = (niirs env s sc interp).1.map (longer k)
    ∧ (niirs5 env (traded k s) sc interp).1 = (niirs5 env s sc interp).1.map (longer k) := by
  constructor
  · rw [niirs_result, niirs_result]
    have e : niirsAtm env (traded k s) sc interp = niirsAtm env s sc interp := rfl
    rw [e]
    refine map_bind_step _ fun atm => ?_
    rw [trade_mid hk]
    cases niirsMid s atm with
    | error x => rfl
    | ok m =>
      show niirsTail env (traded k s) sc atm { m with snr := { m.snr with intTime := .fin k * m.snr.intTime } }
        = (niirsTail env s sc atm m).map (longer k)
      unfold niirsTail
      dsimp only
      rw [trade_grid hk]
      refine map_bind_step _ fun otf => map_bind_step _ fun ix => map_bind_step _ fun iy => map_bind_step _ fun q => ?_
      refine map_bind_step _ fun ng => map_bind_step _ fun n3 => map_bind_step _ fun na => map_bind_step _ fun n4 => rfl
  · rw [niirs5_result, niirs5_result]
    have e : niirsAtm env (traded k s) sc interp = niirsAtm env s sc interp := rfl
    rw [e]
    refine map_bind_step _ fun atm => ?_
    rw [trade_mid hk]
    cases niirsMid s atm with
    | error x => rfl
    | ok m =>
      show niirs5Tail env (traded k (withKernel s [[1]])) sc atm { m with snr := { m.snr with intTime := .fin k * m.snr.intTime } }
        = (niirs5Tail env (withKernel s [[1]]) sc atm m).map (longer k)
      unfold niirs5Tail
      dsimp only
      rw [trade_grid hk]
      refine map_bind_step _ fun otf => map_bind_step _ fun ix => map_bind_step _ fun iy => map_bind_step _ fun q => ?_
      refine map_bind_step _ fun na => map_bind_step _ fun n4 => rfl

theorem trade_pe {k : ℝ} (hk : 0 < k) (atm : Atm) (s : Sensor) (T : XR) :
    reflectanceToPhotoelectrons atm (traded k s) (.fin k * T) = reflectanceToPhotoelectrons atm s T := by
  unfold reflectanceToPhotoelectrons
  have e1 : ∀ wl, systemTransmission (traded k s) wl = systemTransmission s wl := fun _ => rfl
  have e2 : ∀ wl, selfEmission (traded k s) wl = selfEmission s wl := fun _ => rfl
  have e3 : bandCrop (traded k s) atm = bandCrop s atm := rfl
  simp only [e1, e2, e3]
  simp only [traded, XR.trade' hk]
  rfl

/-- **C128** (images): nor does a simulated image change, noise included. -/
theorem C128_images {k : ℝ} (hk : 0 < k) (env : Env) (usable : Bool) (rng : Rng) (r : RefImage) (s : Sensor) (sc : Scenario) :
    simulateImage env usable rng r (traded k s) sc = simulateImage env usable rng r s sc := by
  unfold simulateImage
  have e : (traded k s).intTime = .fin k * s.intTime := rfl
  rw [e]
  simp only [trade_pe hk, trade_grid hk]
  rfl

/-- **C128** (stages): a camera with `n` TDI stages of `t` seconds is rated and simulated like one with a single stage
of `n * t` seconds. -/
theorem C128_stages {n t : ℝ} (hn : 0 < n) (env : Env) (s : Sensor) (sc : Scenario) (h1 : s.nTdi = .fin n)
    (h2 : s.intTime = .fin t) :
    let one : Sensor := { s with nTdi := 1, intTime := .fin (n * t) }
    (∀ interp, (niirs env one sc interp).1 = (niirs env s sc interp).1.map (longer n))
    ∧ (∀ interp, (niirs5 env one sc interp).1 = (niirs5 env s sc interp).1.map (longer n))
    ∧ ∀ usable rng r, simulateImage env usable rng r one sc = simulateImage env usable rng r s sc := by
  intro one
  have e : one = traded n s := by
    unfold one traded
    rw [h1, h2, XR.fin_mul, XR.fin_mul, inv_mul_cancel₀ hn.ne']
    rfl
  rw [e]
  exact ⟨fun i => (C128_ratings hn env s sc i).1, fun i => (C128_ratings hn env s sc i).2,
    fun usable rng r => C128_images hn env usable rng r s sc⟩

theorem power_snr {s t : Sensor} (h : SameNoisePower s t) (wl tgt bkg : List XR) :
    photonDetectorSNR t wl tgt bkg = photonDetectorSNR s wl tgt bkg := by
  obtain ⟨h, hp⟩ := h
  generalize t.readNoise = r at h hp
  generalize t.otherNoise = o at h hp
  subst h
  unfold photonDetectorSNR
  simp only [XR.add_assoc _ (r ^ 2), XR.add_assoc _ (s.readNoise ^ 2), hp]
  rfl

/-- **C128** (read noise and other noise): the ratings depend on read noise and other noise through the sum of their
squares only: they can be merged, split or reordered without any effect on the reports of `niirs` and `niirs5`. -/
theorem C128_noise {s t : Sensor} (h : SameNoisePower s t) (env : Env) (sc : Scenario) (interp : Bool) :
    (niirs env t sc interp).1 = (niirs env s sc interp).1 ∧ (niirs5 env t sc interp).1 = (niirs5 env s sc interp).1 := by
  have e : ∀ atm, niirsMid t atm = niirsMid s atm := by
    intro atm
    unfold niirsMid
    rw [h.others]
    dsimp only
    have := power_snr h
    rw [h.others] at this
    simp only [this]
    rfl
  rw [niirs_result, niirs_result, niirs5_result, niirs5_result]
  simp only [e]
  rw [h.others]
  exact ⟨rfl, rfl⟩

theorem XR.pos_mul_div {k : ℝ} (hk : 0 < k) (a b : XR) : .fin k * a / b = .fin k * (a / b) := by
  cases a with
  | fin x =>
    cases b with
    | fin y =>
      by_cases hy : y = 0
      · subst hy
        rw [XR.fin_mul, XR.fin_div_zero, XR.fin_div_zero, XR.mulInf_scale hk, XR.pos_mulInf hk]
      · rw [XR.fin_mul, XR.fin_div _ hy, XR.fin_div _ hy, XR.fin_mul, mul_div_assoc]
    | pinf => exact congrArg XR.fin (mul_zero k).symm
    | ninf => exact congrArg XR.fin (mul_zero k).symm
    | nan => rfl
  | pinf =>
    rw [XR.pos_mul_pinf hk]
    cases b with
    | fin y =>
      show (if y < 0 then XR.ninf else .pinf) = .fin k * (if y < 0 then XR.ninf else .pinf)
      split_ifs
      · exact (XR.pos_mul_ninf hk).symm
      · exact (XR.pos_mul_pinf hk).symm
    | pinf => rfl
    | ninf => rfl
    | nan => rfl
  | ninf =>
    rw [XR.pos_mul_ninf hk]
    cases b with
    | fin y =>
      show (if y < 0 then XR.pinf else .ninf) = .fin k * (if y < 0 then XR.pinf else .ninf)
      split_ifs
      · exact (XR.pos_mul_pinf hk).symm
      · exact (XR.pos_mul_ninf hk).symm
    | pinf => rfl
    | ninf => rfl
    | nan => rfl
  | nan => cases b <;> rfl

theorem XR.pos_mul_sq {k : ℝ} (hk : 0 < k) (a : XR) : (.fin k * a) ^ 2 = .fin (k ^ 2) * a ^ 2 := by
  have h2 : 0 < k ^ 2 := by positivity
  cases a with
  | fin x => exact congrArg XR.fin (mul_pow k x 2)
  | pinf => rw [XR.pos_mul_pinf hk]; exact (XR.pos_mul_pinf h2).symm
  | ninf => rw [XR.pos_mul_ninf hk]; exact (XR.pos_mul_pinf h2).symm
  | nan => rfl

theorem restate_pv {k : ℝ} (hk : 0 < k) (p l w : XR) :
    .fin (k ^ 2)⁻¹ * p * (.fin k * l / w) ^ 2 = p * (l / w) ^ 2 := by
  have h2 : 0 < k ^ 2 := by positivity
  rw [XR.pos_mul_div hk, XR.pos_mul_sq hk, XR.mul_comm, XR.trade h2, XR.mul_comm]

theorem restate_otfs {k : ℝ} (hk : 0 < k) (diag : ℕ → ℕ → Bool) (s : Sensor) (sc : Scenario) (us vs wl weights : List XR)
    (slant : Scal) (T : XR) :
    commonOTFs diag (restated k s) sc us vs wl weights slant T = commonOTFs diag s sc us vs wl weights slant T := by
  have e1 : commonTurbulence (restated k s) sc us vs wl weights slant T
      = commonTurbulence s sc us vs wl weights slant T := rfl
  have e2 : commonFilter diag (restated k s) us vs = commonFilter diag s us vs := rfl
  unfold commonOTFs
  rw [e1, e2]
  simp only [restated, restate_pv hk]

/-- **C128** (wavefront error): the wavefront error matters only in combination with the wavelength it is given for:
stated for `k` times the wavelength and divided by the square of `k` it gives the same transfer functions, reports and
images. -/
theorem C128_wavefront {k : ℝ} (hk : 0 < k) (env : Env) (s : Sensor) (sc : Scenario) :
    (∀ us vs wl weights slant T, commonOTFs env.diag (restated k s) sc us vs wl weights slant T
      = commonOTFs env.diag s sc us vs wl weights slant T)
    ∧ (∀ interp, (niirs env (restated k s) sc interp).1 = (niirs env s sc interp).1)
    ∧ (∀ interp, (niirs5 env (restated k s) sc interp).1 = (niirs5 env s sc interp).1)
    ∧ ∀ usable rng r, simulateImage env usable rng r (restated k s) sc = simulateImage env usable rng r s sc := by
  have g : ∀ n s c wl w sl T sc, gridOTFs env n (restated k s) sc c wl w sl T = gridOTFs env n s sc c wl w sl T := by
    intro n s c wl w sl T sc
    unfold gridOTFs
    simp only [restate_otfs hk]
  refine ⟨fun us vs wl weights slant T => restate_otfs hk _ _ _ _ _ _ _ _ _, fun interp => ?_, fun interp => ?_,
    fun usable rng r => ?_⟩
  · rw [niirs_result, niirs_result]
    unfold niirsTail
    simp only [g]
    rfl
  · rw [niirs5_result, niirs5_result]
    have e : withKernel (restated k s) [[1]] = restated k (withKernel s [[1]]) := rfl
    rw [e]
    unfold niirs5Tail
    simp only [g]
    rfl
  · unfold simulateImage
    simp only [g]
    rfl

/-- One exposure of `k` times the length collects `k` times the signal against less than `k` times the noise power. -/
theorem frames_ratio {E a Q k : ℝ} (hE : 0 ≤ E) (ha : 0 ≤ a) (hQ : 0 < Q) (hk : 1 ≤ k) :
    Real.sqrt k * (E / Real.sqrt (E * a + Q)) ≤ k * E / Real.sqrt (k * E * a + Q)
    ∧ k * E / Real.sqrt (k * E * a + Q) ≤ k * (E / Real.sqrt (E * a + Q)) := by
  have k0 : 0 < k := by linarith
  have hEa : 0 ≤ E * a := mul_nonneg hE ha
  have h1 : 0 < E * a + Q := by positivity
  have h2 : 0 < k * E * a + Q := by positivity
  have h3 : E * a ≤ k * E * a := by nlinarith
  have hs1 := Real.sqrt_pos.mpr h1
  have hs2 := Real.sqrt_pos.mpr h2
  constructor
  · have h4 : Real.sqrt (k * E * a + Q) ≤ Real.sqrt k * Real.sqrt (E * a + Q) := by
      rw [← Real.sqrt_mul k0.le]
      apply Real.sqrt_le_sqrt
      nlinarith
    rw [← mul_div_assoc, div_le_div_iff₀ hs1 hs2]
    calc Real.sqrt k * E * Real.sqrt (k * E * a + Q)
        ≤ Real.sqrt k * E * (Real.sqrt k * Real.sqrt (E * a + Q)) := mul_le_mul_of_nonneg_left h4 (by positivity)
      _ = Real.sqrt k * Real.sqrt k * E * Real.sqrt (E * a + Q) := by ring
      _ = k * E * Real.sqrt (E * a + Q) := by rw [Real.mul_self_sqrt k0.le]
  · rw [← mul_div_assoc]
    exact div_le_div_of_nonneg_left (by positivity) hs1 (Real.sqrt_le_sqrt (by linarith))

/-- **C128** (frames): one exposure of `k` times the length raises the SNR by a factor between the root of `k`, which is
what the ratings give for `k` stacked frames, and `k`, as long as it does not overfill the well. -/
theorem C128_frames {env : Env} {s : RealSensor} {g : RealScene} {sc : Scenario} {interp : Bool}
    {B : List (Fin 6 → ℝ)} (h : Imaging env s g sc interp B) (hi : 0 < s.intTime) (hn : 0 < s.nTdi)
    (hb : s.electrons B s.backgroundAt ≤ s.electrons B s.targetAt) {k : ℝ} (hk : 1 ≤ k)
    (hw : k * s.brightest B ≤ s.maxWellFill * s.maxN) :
    ∃ (m m' : Metrics) (x x' : ℝ), (niirs5 env s.toSensor sc interp).1 = .ok m
      ∧ (niirs5 env { s with intTime := k * s.intTime }.toSensor sc interp).1 = .ok m'
      ∧ m.snr.snr = .fin x ∧ m'.snr.snr = .fin x'
      ∧ Real.sqrt k * x ≤ x' ∧ x' ≤ k * x := by
  set a := s.rate B.length (fun i => B.getD i 0 0) (fun i => s.targetAt (B.getD i 0)) with ha
  set b := s.rate B.length (fun i => B.getD i 0 0) (fun i => s.backgroundAt (B.getD i 0)) with hbb
  have k0 : 0 < k := by linarith
  have t0 : 0 < k * s.intTime := mul_pos k0 hi
  have hp : 0 < s.intTime * s.nTdi := mul_pos hi hn
  have hab : b ≤ a := by
    have : b * (s.intTime * s.nTdi) ≤ a * (s.intTime * s.nTdi) := by
      rw [← mul_assoc, ← mul_assoc]; exact hb
    exact le_of_mul_le_mul_right this hp
  have hb' : { s with intTime := k * s.intTime }.electrons B { s with intTime := k * s.intTime }.backgroundAt
      ≤ { s with intTime := k * s.intTime }.electrons B { s with intTime := k * s.intTime }.targetAt := by
    change b * (k * s.intTime) * s.nTdi ≤ a * (k * s.intTime) * s.nTdi
    exact mul_le_mul_of_nonneg_right (mul_le_mul_of_nonneg_right hab t0.le) hn.le
  have eb : s.brightest B = a * s.intTime * s.nTdi := max_eq_left hb
  have eb' : { s with intTime := k * s.intTime }.brightest B = k * s.brightest B := by
    rw [eb]
    refine (max_eq_left hb').trans ?_
    change a * (k * s.intTime) * s.nTdi = _
    ring
  have ha0 : 0 ≤ a := by
    have h1 := h.counts
    rw [eb, mul_assoc] at h1
    exact nonneg_of_mul_nonneg_left h1 hp
  have hbr := h.counts
  have h' : Imaging env { s with intTime := k * s.intTime } g sc interp B :=
    h.exposed (t := k * s.intTime) (n := s.nTdi) (eb' ▸ mul_nonneg k0.le hbr)
  obtain ⟨m, c, φ, gw, rer, e1, e2, -⟩ := niirs5_value h
  obtain ⟨m', c', φ', gw', rer', f1, f2, -⟩ := niirs5_value h'
  refine ⟨m, m', _, _, e1, f1, e2.contrast, f2.contrast, ?_⟩
  have x1 : s.exposure B = s.intTime := by
    unfold RealSensor.exposure RealSensor.cut
    rw [if_pos (by nlinarith), one_mul]
  have x2 : { s with intTime := k * s.intTime }.exposure B = k * s.intTime := by
    unfold RealSensor.exposure RealSensor.cut
    rw [if_pos (eb' ▸ hw), one_mul]
  rw [snr_exposure hb, snr_exposure (s := { s with intTime := k * s.intTime }) hb', x1, x2]
  have hQ : 0 < (s.maxN / (Real.sqrt 12 * ((2 : ℝ) ^ s.bitDepth - 1))) ^ 2 + s.readNoise ^ 2
      + (s.otherNoise.map (· ^ 2)).sum := by
    have h12 : (0 : ℝ) < Real.sqrt 12 := Real.sqrt_pos.mpr (by norm_num)
    have h1 := twelve_bits h.bits
    have hM := h.well
    have h2 : 0 < (s.maxN / (Real.sqrt 12 * ((2 : ℝ) ^ s.bitDepth - 1))) ^ 2 := by positivity
    have h4 : 0 ≤ (s.otherNoise.map (· ^ 2)).sum := by
      apply List.sum_nonneg
      intro x hx
      obtain ⟨y, -, rfl⟩ := List.mem_map.mp hx
      positivity
    positivity
  have hr := frames_ratio hp.le ha0 hQ hk
  change Real.sqrt k * ((a - b) * _) ≤ (a - b) * (k * s.intTime * s.nTdi / Real.sqrt (k * s.intTime * s.nTdi * a + _))
    ∧ (a - b) * (k * s.intTime * s.nTdi / Real.sqrt (k * s.intTime * s.nTdi * a + _)) ≤ k * ((a - b) * _)
  rw [mul_assoc k, mul_left_comm (Real.sqrt k), mul_left_comm k (a - b)]
  exact ⟨mul_le_mul_of_nonneg_left hr.1 (sub_nonneg.mpr hab), mul_le_mul_of_nonneg_left hr.2 (sub_nonneg.mpr hab)⟩

/-- The demonstration camera with its one stage traded for two of half the time: both are rated. -/
example : ∃ m, (niirs demoEnv demoSensor.toSensor demoScenario false).1 = .ok m
    ∧ (niirs demoEnv { demoSensor.toSensor with intTime := .fin (2⁻¹ * demoSensor.intTime), nTdi := .fin (2⁻¹⁻¹ * demoSensor.nTdi) }
        demoScenario false).1 = .ok (longer 2⁻¹ m) := by
  obtain ⟨m, -, -, -, -, -, -, h1, -⟩ := C70_well_sampled demo_imaging rfl demo_sampled
    (by norm_num [demoScene]) (by norm_num [demoSensor]) demo_brighter.ne' demo_cut
  refine ⟨m, h1, ?_⟩
  have h := (C128_ratings (k := 2⁻¹) (by norm_num) demoEnv demoSensor.toSensor demoScenario false).1
  rw [h1] at h
  exact h

/-- Read noise 5 can be booked as other noise 3 and 4. -/
example (s : Sensor) : SameNoisePower { s with readNoise := .fin 5, otherNoise := [.fin 0] }
    { s with readNoise := .fin 0, otherNoise := [.fin 3, .fin 4] } := by
  refine ⟨rfl, ?_⟩
  show XR.fin 0 ^ 2 + (XR.fin 3 ^ 2 + (XR.fin 4 ^ 2 + 0)) = XR.fin 5 ^ 2 + (XR.fin 0 ^ 2 + 0)
  simp only [XR.fin_pow, XR.add_zero, XR.fin_add]
  norm_num

/-- The demonstration camera exposed so briefly that twice the exposure just fills the well meets the hypotheses of
`C128_frames` with `k = 2`. -/
example : ∃ t : ℝ, 0 < t ∧ Imaging demoEnv { demoSensor with intTime := t } demoScene demoScenario false demoInBand
    ∧ 0 < { demoSensor with intTime := t }.nTdi
    ∧ { demoSensor with intTime := t }.electrons demoInBand { demoSensor with intTime := t }.backgroundAt
      ≤ { demoSensor with intTime := t }.electrons demoInBand { demoSensor with intTime := t }.targetAt
    ∧ 2 * { demoSensor with intTime := t }.brightest demoInBand
      ≤ { demoSensor with intTime := t }.maxWellFill * { demoSensor with intTime := t }.maxN := by
  obtain ⟨a, ha⟩ : ∃ a, a = demoSensor.rate demoInBand.length (fun i => demoInBand.getD i 0 0)
    (fun i => demoSensor.targetAt (demoInBand.getD i 0)) := ⟨_, rfl⟩
  obtain ⟨b, hb⟩ : ∃ b, b = demoSensor.rate demoInBand.length (fun i => demoInBand.getD i 0 0)
    (fun i => demoSensor.backgroundAt (demoInBand.getD i 0)) := ⟨_, rfl⟩
  have hi : 0 < demoSensor.intTime := by norm_num [demoSensor]
  have hn : 0 < demoSensor.nTdi := by norm_num [demoSensor]
  have hw : 0 < demoSensor.maxWellFill * demoSensor.maxN := by norm_num [demoSensor]
  have hlt : b * demoSensor.intTime * demoSensor.nTdi < a * demoSensor.intTime * demoSensor.nTdi := by
    rw [ha, hb]; exact demo_brighter
  have hab : b < a := by
    rw [mul_assoc, mul_assoc] at hlt
    exact lt_of_mul_lt_mul_right hlt (mul_pos hi hn).le
  have ha0 : 0 < a := by
    have h1 : 0 < max (a * demoSensor.intTime * demoSensor.nTdi) (b * demoSensor.intTime * demoSensor.nTdi) := by
      rw [ha, hb]; exact demo_counts
    rw [max_eq_left hlt.le, mul_assoc] at h1
    exact (mul_pos_iff_of_pos_right (mul_pos hi hn)).mp h1
  have t0 : 0 < demoSensor.maxWellFill * demoSensor.maxN / (2 * a * demoSensor.nTdi) := by positivity
  obtain ⟨t, ht⟩ : ∃ t, t = demoSensor.maxWellFill * demoSensor.maxN / (2 * a * demoSensor.nTdi) := ⟨_, rfl⟩
  rw [← ht] at t0
  have hle : { demoSensor with intTime := t }.electrons demoInBand { demoSensor with intTime := t }.backgroundAt
      ≤ { demoSensor with intTime := t }.electrons demoInBand { demoSensor with intTime := t }.targetAt := by
    have h1 : b * t * demoSensor.nTdi ≤ a * t * demoSensor.nTdi :=
      mul_le_mul_of_nonneg_right (mul_le_mul_of_nonneg_right hab.le t0.le) hn.le
    rw [ha, hb] at h1
    exact h1
  have hbr : { demoSensor with intTime := t }.brightest demoInBand = a * t * demoSensor.nTdi := by
    rw [ha]
    exact max_eq_left hle
  refine ⟨t, t0, demo_imaging.exposed (t := t) (n := demoSensor.nTdi) ?_, hn, hle, ?_⟩
  · exact hbr ▸ (by positivity)
  · rw [hbr, ht]
    apply le_of_eq
    change _ = demoSensor.maxWellFill * demoSensor.maxN
    field_simp

end PyBSM
