import Verif.Model.Logs
import Verif.Props.Photoelectrons
import Verif.Props.Capture
import Verif.Props.SimulateDemo

/-!
# C129: what the log messages are worth
-/

noncomputable section

open Classical

namespace PyBSM

open Spec

theorem photoelectrons_table (atm : Atm) (s : Sensor) (t T : XR) :
    reflectanceToPhotoelectrons atm s t T = (do
      let x ← photoelectronTable atm s t
      let sat := x.2.2 / s.maxN
      let pe := x.2.1.map (·.1)
      let pe := if XR.lt 1 sat then pe.map (· / sat) else pe
      let pe := pe.map fun p => if XR.lt s.maxN p then s.maxN else p
      let weights := (x.2.1.map (·.2)).getLastD []
      let wMax ← pyMax weights
      .ok (linspace 0 1 100, pe, x.1, weights.map (· / wMax))) := by
  unfold reflectanceToPhotoelectrons photoelectronTable
  simp only [bind_assoc, ok_bind]

/-- The function with its log records computes what the function computes. -/
theorem logged_result (atm : Atm) (s : Sensor) (t T : XR) :
    (reflectanceLogged atm s t).2 = reflectanceToPhotoelectrons atm s t T := by
  rw [photoelectrons_table]
  unfold reflectanceLogged
  cases photoelectronTable atm s t with
  | error e => rfl
  | ok x => rfl

/-- The stage before the log message for a usable sensor and a finite atmosphere. -/
theorem table_val {s : RealSensor} (hs : s.Usable) {rows : List (Fin 6 → ℝ)} {t : ℝ}
    {n : ℕ} {A : ℕ → Fin 6 → ℝ} (hB : realAtm (s.rowsInBand rows) = vecAtm n A) (hpos : ∀ i < n, 0 < A i 0) :
    ∃ (peak : ℝ) (tab : List (XR × List XR)),
      photoelectronTable (realAtm rows) s.toSensor (.fin t) = .ok (vec n (fun i => A i 0), tab, .fin peak)
      ∧ (∃ i < 100, s.counts n A t ((i : ℕ) / 99) = peak)
      ∧ ∀ i < 100, s.counts n A t ((i : ℕ) / 99) ≤ peak := by
  obtain ⟨peak, hp1, hp2, hp3⟩ := amax_vec (n := 100) (by norm_num)
    (fun i => s.counts n A t ((i : ℕ) / 99))
  refine ⟨peak, List.map (fun r : XR => ((XR.fin (s.counts n A t r.toReal),
      vec n fun i => s.spectral (A i 0) (greyRadiance (A i) r.toReal 300)) : XR × List XR))
        (vec 100 fun i => (i : ℕ) / 99), ?_, hp2, hp3⟩
  unfold photoelectronTable
  have hlin : linspace 0 1 100 = vec 100 fun i => (i : ℕ) / 99 := by
    rw [XR.zero_def, XR.one_def, linspace_fin, ← vec_eq_map]
    apply vec_congr
    intro i _
    push_cast
    ring
  rw [bandCrop_real hs.transmission_ne, ok_bind, hlin, hB, vecAtm_wl]
  have hrow : ∀ r ∈ vec 100 (fun i => (i : ℕ) / 99), (do
      let optTrans ← systemTransmission s.toSensor (vec n fun i => A i 0)
      let qe ← resampleByWavelength s.toSensor.qeWavelengths s.toSensor.qe (vec n fun i => A i 0)
      let other ← selfEmission s.toSensor (vec n fun i => A i 0)
      let (rate, _, dN) ← signalRate (vec n fun i => A i 0) (totalRadiance (vecAtm n A) r 300) optTrans
        (.py s.toSensor.D) (.py s.toSensor.f) s.toSensor.wX s.toSensor.wY qe other s.toSensor.darkCurrent
      Except.ok (ε := PyErr) (rate * XR.fin t * s.toSensor.nTdi, dN))
      = .ok (.fin (s.counts n A t r.toReal),
          vec n fun i => s.spectral (A i 0) (greyRadiance (A i) r.toReal 300)) := by
    intro r hr
    obtain ⟨i, -, rfl⟩ := List.mem_map.mp hr
    rw [systemTransmission_vec hs, ok_bind, qe_vec hs, ok_bind, selfEmission_vec hs hpos, ok_bind,
      XR.ofNat_def, totalRadiance_vec hpos _ (by norm_num), sensorRate_vec hs, ok_bind]
    rfl
  dsimp only
  rw [mapM_ok hrow, ok_bind]
  have hpe : (List.map (fun r : XR => ((XR.fin (s.counts n A t r.toReal),
      vec n fun i => s.spectral (A i 0) (greyRadiance (A i) r.toReal 300)) : XR × List XR))
        (vec 100 fun i => (i : ℕ) / 99)).map (·.1) = vec 100 fun i => s.counts n A t ((i : ℕ) / 99) := by
    rw [List.map_map]
    unfold vec
    rw [List.map_map]
    rfl
  rw [hpe, hp1, ok_bind]

theorem counts_time (s : RealSensor) (n : ℕ) (A : ℕ → Fin 6 → ℝ) (t r k : ℝ) :
    s.counts n A (t / k) r = s.counts n A t r / k := by
  unfold RealSensor.counts
  ring

/-- **C129** (reduced integration time): `reflectance_to_photoelectrons` announces a reduction of the integration time
exactly if some reflectance overfills the well. The announced time is shorter; the table returned is the one of a call
with that time, which announces nothing and fills the well exactly. -/
theorem C129_reduced {s : RealSensor} (hs : s.Usable) (hM : 0 < s.maxN) {rows : List (Fin 6 → ℝ)} {t : ℝ} (ht : 0 < t)
    (hpos : ∀ r ∈ s.rowsInBand rows, 0 < r 0)
    (hw : ∃ r ∈ s.rowsInBand rows, 0 < s.spectral (r 0) (greyRadiance r 1 300)) :
    let full (t : ℝ) (i : ℕ) := s.counts (s.rowsInBand rows).length (fun i => (s.rowsInBand rows).getD i 0) t (i / 99)
    (reflectanceLogged (realAtm rows) s.toSensor (.fin t)).2 = reflectanceToPhotoelectrons (realAtm rows) s.toSensor (.fin t)
    ∧ ((∀ i < 100, full t i ≤ s.maxN) → (reflectanceLogged (realAtm rows) s.toSensor (.fin t)).1 = [])
    ∧ ((∃ i < 100, s.maxN < full t i) → ∃ t', 0 < t' ∧ t' < t
      ∧ (reflectanceLogged (realAtm rows) s.toSensor (.fin t)).1 = [.reducing (.fin t) (.fin t')]
      ∧ reflectanceToPhotoelectrons (realAtm rows) s.toSensor (.fin t)
        = reflectanceToPhotoelectrons (realAtm rows) s.toSensor (.fin t')
      ∧ (reflectanceLogged (realAtm rows) s.toSensor (.fin t')).1 = []
      ∧ (∀ i < 100, full t' i ≤ s.maxN) ∧ ∃ i < 100, full t' i = s.maxN) := by
  intro full
  set B := s.rowsInBand rows with hBdef
  set A : ℕ → Fin 6 → ℝ := fun i => B.getD i 0 with hA
  have hmem : ∀ i < B.length, A i ∈ B := by
    intro i hi
    rw [hA]
    simp only [List.getD_eq_getElem?_getD, List.getElem?_eq_getElem hi, Option.getD_some]
    exact List.getElem_mem hi
  have hidx : ∀ r ∈ B, ∃ i < B.length, A i = r := by
    intro r hr
    obtain ⟨i, hi, e⟩ := List.mem_iff_getElem.mp hr
    exact ⟨i, hi, by rw [hA]; simp [List.getElem?_eq_getElem hi, e]⟩
  have hn : B.length ≠ 0 := by
    obtain ⟨r, hr, -⟩ := hw
    intro h
    rw [List.length_eq_zero_iff] at h
    rw [h] at hr
    exact List.not_mem_nil hr
  have hw' : ∃ i < B.length, 0 < s.spectral (A i 0) (greyRadiance (A i) 1 300) := by
    obtain ⟨r, hr, h⟩ := hw
    obtain ⟨i, hi, e⟩ := hidx r hr
    exact ⟨i, hi, by rw [e]; exact h⟩
  have hp : ∀ i < B.length, 0 < A i 0 := fun i hi => hpos _ (hmem i hi)
  have quiet : ∀ t : ℝ, (∀ i < 100, full t i ≤ s.maxN)
      → (reflectanceLogged (realAtm rows) s.toSensor (.fin t)).1 = [] := by
    intro t hle
    obtain ⟨peak, tab, e1, ⟨i, hi, e2⟩, -⟩ := table_val hs (t := t) (realAtm_vec B) hp
    unfold reflectanceLogged
    rw [e1]
    have h1 : peak / s.maxN ≤ 1 := (div_le_one hM).mpr (e2 ▸ hle i hi)
    have e : (.fin peak : XR) / s.toSensor.maxN = .fin (peak / s.maxN) := XR.fin_div _ hM.ne'
    simp only [e]
    rw [if_neg]
    exact not_lt.mpr h1
  refine ⟨logged_result _ _ _ _, quiet t, ?_⟩
  rintro ⟨j, hj, hover⟩
  obtain ⟨peak, tab, e1, ⟨i, hi, e2⟩, e3⟩ := table_val hs (t := t) (realAtm_vec B) hp
  have hpk : s.maxN < peak := hover.trans_le (e3 j hj)
  have hp0 : 0 < peak := hM.trans hpk
  have h1 : 1 < peak / s.maxN := (one_lt_div hM).mpr hpk
  have hc : ∀ i, full (t / (peak / s.maxN)) i = full t i / (peak / s.maxN) := fun i => counts_time s _ _ _ _ _
  have hle : ∀ i < 100, full (t / (peak / s.maxN)) i ≤ s.maxN := by
    intro i hi
    rw [hc, div_le_iff₀ (by linarith), mul_div_cancel₀ _ hM.ne']
    exact e3 i hi
  refine ⟨t / (peak / s.maxN), by positivity, div_lt_self ht h1, ?_, ?_, quiet _ hle, hle, i, hi, ?_⟩
  · unfold reflectanceLogged
    rw [e1]
    have e : (.fin peak : XR) / s.toSensor.maxN = .fin (peak / s.maxN) := XR.fin_div _ hM.ne'
    simp only [e]
    rw [if_pos (show XR.lt 1 (.fin (peak / s.maxN)) from h1), XR.fin_div _ (by positivity)]
  · obtain ⟨p1, w1, f1, ⟨i1, hi1, f2⟩, f3, f4, ⟨k1, hk1, f5⟩, f6⟩ :=
      r2pe_val (A := A) hs hM (t := t) 300 (realAtm_vec B) hn hp hw'
    obtain ⟨p2, w2, g1, ⟨i2, hi2, g2⟩, g3, g4, ⟨k2, hk2, g5⟩, g6⟩ :=
      r2pe_val (A := A) hs hM (t := t / (peak / s.maxN)) 300 (realAtm_vec B) hn hp hw'
    have ep : p1 = peak := le_antisymm (f2 ▸ e3 _ hi1) (e2 ▸ f3 _ hi)
    have ew : w2 = w1 := le_antisymm (g5 ▸ f6 _ hk2) (f5 ▸ g6 _ hk1)
    have ep2 : p2 ≤ s.maxN := g2 ▸ hle _ hi2
    rw [f1, g1, ep, ew, max_eq_right h1.le, max_eq_left ((div_le_one hM).mpr ep2)]
    simp only [counts_time, div_one]
  · rw [hc]
    change s.counts _ _ t _ / _ = _
    rw [e2]
    field_simp

/-- **C129** (order and failures): a simulation logs at most the reduction of the integration time and then the warning
about the size of the image. It logs nothing if the atmosphere cannot be read, and no warning if it raises. Its result
is that of `simulate_image`. -/
theorem C129_simulation (env : Env) (usable : Bool) (rng : Rng) (r : RefImage) (s : Sensor) (sc : Scenario) :
    (simulateLogged env usable rng r s sc).2 = simulateImage env usable rng r s sc
    ∧ (∀ e, (sc.readAtm env.files).1 = .error e → (simulateLogged env usable rng r s sc).1 = [])
    ∧ (∀ atm, (sc.readAtm env.files).1 = .ok atm →
      (∀ e, simulateImage env usable rng r s sc = .error e →
        (simulateLogged env usable rng r s sc).1 = (reflectanceLogged atm s s.intTime).1)
      ∧ ∀ R, simulateImage env usable rng r s sc = .ok R →
        (simulateLogged env usable rng r s sc).1 = (reflectanceLogged atm s s.intTime).1
          ∨ (simulateLogged env usable rng r s sc).1 = (reflectanceLogged atm s s.intTime).1 ++ [.oversampled])
    ∧ ∀ atm t, (reflectanceLogged atm s t).1 = [] ∨ ∃ t', (reflectanceLogged atm s t).1 = [.reducing t t'] := by
  refine ⟨?_, fun e h => ?_, fun atm h => ⟨fun e h' => ?_, fun R h' => ?_⟩, fun atm t => ?_⟩
  · unfold simulateLogged
    split
    · rename_i e h
      unfold simulateImage
      dsimp only
      rw [h]
      rfl
    · dsimp only
      cases simulateImage env usable rng r s sc <;> rfl
  · unfold simulateLogged
    rw [h]
  · unfold simulateLogged
    rw [h]
    dsimp only
    rw [h']
  · unfold simulateLogged
    rw [h]
    dsimp only
    rw [h']
    dsimp only
    split_ifs
    · exact Or.inr rfl
    · exact Or.inl (List.append_nil _)
  · unfold reflectanceLogged
    split
    · exact Or.inl rfl
    · dsimp only
      split_ifs
      · exact Or.inr ⟨_, rfl⟩
      · exact Or.inl rfl

theorem still_otfs {diag : ℕ → ℕ → Bool} {s : Sensor} {sc : Scenario} (hx : s.daX = 0) (hy : s.daY = 0)
    (hc : ¬ XR.lt 0 sc.cn2At1m) {n t t' : ℝ} (hn : s.nTdi = .fin n) (τ : XR) (us vs wl weights : List XR) (slant : Scal) :
    commonOTFs diag { s with intTime := τ } sc us vs wl weights slant (.fin t')
      = commonOTFs diag s sc us vs wl weights slant (.fin t) := by
  have e1 : commonTurbulence { s with intTime := τ } sc us vs wl weights slant (.fin t')
      = commonTurbulence s sc us vs wl weights slant (.fin t) := by
    unfold commonTurbulence
    rw [if_neg hc, if_neg hc]
  have e2 : commonFilter diag { s with intTime := τ } us vs = commonFilter diag s us vs := rfl
  have e3 : ∀ t : ℝ, (0 : XR) * .fin t * .fin n = 0 := by
    intro t
    rw [XR.zero_def, XR.fin_mul, XR.fin_mul, zero_mul, zero_mul]
  unfold commonOTFs
  rw [e1, e2]
  simp only [hx, hy, hn, e3]

/-- **C129** (images): without drift and turbulence the announced reduction holds for the whole simulation: the images
are those of a camera with the announced time, whose simulation announces nothing. -/
theorem C129_images {env : Env} {usable : Bool} {rng : Rng} {r : RefImage} {s : RealSensor} {sc : Scenario}
    (hs : s.Usable) (hM : 0 < s.maxN) {rows : List (Fin 6 → ℝ)} (ht : 0 < s.intTime)
    (hatm : (sc.readAtm env.files).1 = .ok (realAtm rows)) (hpos : ∀ r ∈ s.rowsInBand rows, 0 < r 0)
    (hw : ∃ r ∈ s.rowsInBand rows, 0 < s.spectral (r 0) (greyRadiance r 1 300))
    (hx : s.daX = 0) (hy : s.daY = 0) (hc : ¬ XR.lt 0 sc.cn2At1m) {old new : XR}
    (hlog : .reducing old new ∈ (simulateLogged env usable rng r s.toSensor sc).1) :
    ∃ t', old = .fin s.intTime ∧ new = .fin t' ∧ 0 < t' ∧ t' < s.intTime
      ∧ simulateImage env usable rng r s.toSensor sc = simulateImage env usable rng r { s with intTime := t' }.toSensor sc
      ∧ ∀ a b, .reducing a b ∉ (simulateLogged env usable rng r { s with intTime := t' }.toSensor sc).1 := by
  have hmem : .reducing old new ∈ (reflectanceLogged (realAtm rows) s.toSensor (.fin s.intTime)).1 := by
    unfold simulateLogged at hlog
    rw [hatm] at hlog
    dsimp only at hlog
    revert hlog
    split
    · exact id
    · split_ifs
      · intro h
        rcases List.mem_append.mp h with h | h
        · exact h
        · cases List.mem_singleton.mp h
      · intro h
        rwa [List.append_nil] at h
  obtain ⟨-, h1, h2⟩ := C129_reduced hs hM ht hpos hw
  have hover : ∃ i < 100, s.maxN < s.counts (s.rowsInBand rows).length (fun i => (s.rowsInBand rows).getD i 0) s.intTime ((i : ℕ) / 99) := by
    by_contra hno
    push Not at hno
    rw [h1 hno] at hmem
    exact List.not_mem_nil hmem
  obtain ⟨t', t0, tlt, e1, e2, e3, -⟩ := h2 hover
  rw [e1] at hmem
  have hm := List.mem_singleton.mp hmem
  rw [LogRecord.reducing.injEq] at hm
  refine ⟨t', hm.1, hm.2, t0, tlt, ?_, fun a b hab => ?_⟩
  · unfold simulateImage
    dsimp only
    rw [hatm, ok_bind, ok_bind]
    have f1 : reflectanceToPhotoelectrons (realAtm rows) s.toSensor s.toSensor.intTime
        = reflectanceToPhotoelectrons (realAtm rows) { s with intTime := t' }.toSensor { s with intTime := t' }.toSensor.intTime := e2
    have hc' : ¬ XR.lt 0 (sc.readAtm env.files).2.1.cn2At1m := by
      have : (sc.readAtm env.files).2.1.cn2At1m = sc.cn2At1m := by
        unfold Scenario.readAtm
        split
        · rfl
        · dsimp only
          split <;> rfl
      rwa [this]
    have f2 : ∀ c wl w sl, gridOTFs env 1501 { s with intTime := t' }.toSensor (sc.readAtm env.files).2.1 c wl w sl
          { s with intTime := t' }.toSensor.intTime
        = gridOTFs env 1501 s.toSensor (sc.readAtm env.files).2.1 c wl w sl s.toSensor.intTime := by
      intro c wl w sl
      unfold gridOTFs
      have f3 : ∀ us vs, commonOTFs env.diag { s with intTime := t' }.toSensor (sc.readAtm env.files).2.1 us vs wl w (.np sl)
            { s with intTime := t' }.toSensor.intTime
          = commonOTFs env.diag s.toSensor (sc.readAtm env.files).2.1 us vs wl w (.np sl) s.toSensor.intTime := fun us vs =>
        still_otfs (s := s.toSensor) (congrArg XR.fin hx) (congrArg XR.fin hy) hc' rfl (.fin t') us vs wl w (.np sl)
      simp only [f3]
    rw [f1]
    simp only [f2]
    rfl
  · have hab' : .reducing a b ∈ (reflectanceLogged (realAtm rows) s.toSensor (.fin t')).1 := by
      unfold simulateLogged at hab
      rw [hatm] at hab
      dsimp only at hab
      revert hab
      split
      · exact id
      · split_ifs
        · intro h
          rcases List.mem_append.mp h with h | h
          · exact h
          · cases List.mem_singleton.mp h
        · intro h
          rwa [List.append_nil] at h
    rw [e3] at hab'
    exact List.not_mem_nil hab'

/-- **C129** (drift): the motion blur is not reduced. At the frequency whose period the line of sight drifts through in
the full integration time, the OTF that `simulate_image` uses (C73) is zero; the drift during any shorter time would
not make it so. -/
theorem C129_drift {s : RealSensor} (hx : s.daX ≠ 0) (hn : s.nTdi ≠ 0) (ht : 0 < s.intTime) (g : RealScene)
    (pairs : List (ℝ × ℝ)) :
    (∀ v, opticsAt s g pairs s.intTime (1 / (s.daX * s.intTime * s.nTdi)) v = 0)
    ∧ ∀ t', 0 < t' → t' < s.intTime → driftAt s t' (1 / (s.daX * s.intTime * s.nTdi)) 0 ≠ 0 := by
  constructor
  · intro v
    unfold opticsAt driftAt
    rw [mul_one_div_cancel (by positivity), mul_one, Real.sinc_of_ne_zero Real.pi_ne_zero, Real.sin_pi]
    ring
  · intro t' t0 tlt
    unfold driftAt
    have e : s.daX * t' * s.nTdi * (1 / (s.daX * s.intTime * s.nTdi)) = t' / s.intTime := by field_simp
    have h1 : 0 < t' / s.intTime := by positivity
    have h2 : t' / s.intTime < 1 := (div_lt_one ht).mpr tlt
    have hp := Real.pi_pos
    rw [e, mul_zero, mul_zero, Real.sinc_zero, mul_one, Real.sinc_of_ne_zero (by positivity)]
    have h3 : 0 < Real.sin (Real.pi * (t' / s.intTime)) := Real.sin_pos_of_pos_of_lt_pi (by positivity) (by nlinarith)
    positivity

/-- **C129** (warning): a simulation that succeeds warns exactly if its images have more rows than the reference image:
if the number of rows times the ratio of the angle of a reference pixel to that of a detector pixel exceeds the number of
rows by more than one half, or by one half and is rounded up. -/
theorem C129_warning {env : Env} {usable : Bool} {rng : Rng} {r : RefImage} {s : Sensor} {sc : Scenario} {R : SimResult}
    (h : simulateImage env usable rng r s sc = .ok R) {γ a rg px py f : ℝ} (hγ : r.gsd = .fin γ)
    (ha : sc.altitude = .fin a) (hr : sc.groundRange = .fin rg) (hpx : s.pX = .fin px) (hpy : s.pY = .fin py)
    (hf : s.f = .fin f) (hd : a ≠ 0 ∨ rg ≠ 0) (hf0 : f ≠ 0) (hp : px + py ≠ 0) :
    let q := γ / Real.sqrt (a ^ 2 + rg ^ 2) / ((px + py) / 2 / f)
    (LogRecord.oversampled ∈ (simulateLogged env usable rng r s sc).1 ↔ r.img.h < R.noisyImg.h)
    ∧ (LogRecord.oversampled ∈ (simulateLogged env usable rng r s sc).1
        ↔ (r.img.h : ℝ) + 1 / 2 < r.img.h * q ∨ (r.img.h : ℝ) + 1 / 2 = r.img.h * q ∧ Odd r.img.h) := by
  intro q
  obtain ⟨-, -, h3, -, h5, -⟩ := C82_size h hγ ha hr hpx hpy hf hd hf0 hp
  have hat : ∃ atm, (sc.readAtm env.files).1 = .ok atm := by
    unfold simulateImage at h
    simp only [bind_ok] at h
    obtain ⟨atm, e1, -⟩ := h
    exact ⟨atm, e1⟩
  obtain ⟨atm, hat⟩ := hat
  have key : LogRecord.oversampled ∈ (simulateLogged env usable rng r s sc).1 ↔ r.img.h < R.noisyImg.h := by
    have hno : LogRecord.oversampled ∉ (reflectanceLogged atm s s.intTime).1 := by
      rcases (C129_simulation env usable rng r s sc).2.2.2 atm s.intTime with e | ⟨t', e⟩
      · rw [e]; exact List.not_mem_nil
      · rw [e]; simp
    unfold simulateLogged
    rw [hat]
    dsimp only
    rw [h]
    dsimp only
    split_ifs with hlt
    · simp [hlt]
    · simp [hlt, hno]
  refine ⟨key, key.trans ?_⟩
  rw [h5]
  have e : (r.img.h : ℝ) * (γ / Real.sqrt (a ^ 2 + rg ^ 2)) / ((px + py) / 2 / f) = r.img.h * q := mul_div_assoc _ _ _
  rw [e] at h3
  obtain ⟨k1, k2⟩ := h3
  obtain ⟨k3, k4⟩ := abs_le.mp k1
  push_cast at k2 k3 k4
  constructor
  · intro hlt
    have h6 : (r.img.h : ℝ) + 1 ≤ R.blurImg.h := by exact_mod_cast hlt
    rcases lt_or_eq_of_le (show (r.img.h : ℝ) + 1 / 2 ≤ r.img.h * q by linarith) with h7 | h7
    · exact Or.inl h7
    · refine Or.inr ⟨h7, ?_⟩
      have h8 : (R.blurImg.h : ℝ) = r.img.h + 1 := by linarith
      have h9 : R.blurImg.h = r.img.h + 1 := by exact_mod_cast h8
      have h10 := k2 (by rw [← h7, h8, abs_of_nonpos] <;> linarith)
      rw [h9] at h10
      have h11 : Even (r.img.h + 1) := by exact_mod_cast h10
      rcases Nat.even_or_odd r.img.h with h12 | h12
      · exact absurd (h12.add_one) (Nat.not_odd_iff_even.mpr h11)
      · exact h12
  · rintro (h7 | ⟨h7, h8⟩)
    · have h9 : (r.img.h : ℝ) < R.blurImg.h := by linarith
      exact_mod_cast h9
    · by_contra hle
      have h9 : R.blurImg.h ≤ r.img.h := not_lt.mp hle
      have h10 : (R.blurImg.h : ℝ) ≤ r.img.h := by exact_mod_cast h9
      have h11 : (R.blurImg.h : ℝ) = r.img.h := by linarith
      have h12 := k2 (by rw [← h7, h11, abs_of_nonneg] <;> linarith)
      have h13 : R.blurImg.h = r.img.h := by exact_mod_cast h11
      rw [h13] at h12
      have h14 : Even r.img.h := by exact_mod_cast h12
      exact absurd h8 (Nat.not_odd_iff_even.mpr h14)

/-- **C129** (columns): the columns are not looked at: an image with few rows can be oversampled along its rows without a
warning. -/
theorem C129_columns {env : Env} {usable : Bool} {rng : Rng} {r : RefImage} {s : Sensor} {sc : Scenario} {R : SimResult}
    (h : simulateImage env usable rng r s sc = .ok R) {γ a rg px py f : ℝ} (hγ : r.gsd = .fin γ)
    (ha : sc.altitude = .fin a) (hr : sc.groundRange = .fin rg) (hpx : s.pX = .fin px) (hpy : s.pY = .fin py)
    (hf : s.f = .fin f) (hd : a ≠ 0 ∨ rg ≠ 0) (hf0 : f ≠ 0) (hp : px + py ≠ 0)
    (hfew : r.img.h * (γ / Real.sqrt (a ^ 2 + rg ^ 2) / ((px + py) / 2 / f)) < (r.img.h : ℝ) + 1 / 2)
    (hmany : (r.img.w : ℝ) + 1 / 2 < r.img.w * (γ / Real.sqrt (a ^ 2 + rg ^ 2) / ((px + py) / 2 / f))) :
    r.img.w < R.noisyImg.w ∧ LogRecord.oversampled ∉ (simulateLogged env usable rng r s sc).1 := by
  obtain ⟨-, -, -, h4, -, h6⟩ := C82_size h hγ ha hr hpx hpy hf hd hf0 hp
  constructor
  · rw [h6]
    rw [mul_div_assoc] at h4
    obtain ⟨k3, k4⟩ := abs_le.mp h4.1
    push_cast at k3 k4
    have h9 : (r.img.w : ℝ) < R.blurImg.w := by linarith
    exact_mod_cast h9
  · rw [(C129_warning h hγ ha hr hpx hpy hf hd hf0 hp).2]
    rintro (h7 | ⟨h7, -⟩) <;> linarith

/-- **C129** (sampling guide): a reference image that is as fine as the documentation of `simulate_image` asks for, one
fourth of the distance over the cutoff frequency `D / l`, never causes the warning if a detector pixel covers at least a
fourth of the diffraction blur `l * f / D`. -/
theorem C129_guide {env : Env} {usable : Bool} {rng : Rng} {r : RefImage} {s : Sensor} {sc : Scenario} {R : SimResult}
    (h : simulateImage env usable rng r s sc = .ok R) {γ a rg px py f D l : ℝ} (hγ : r.gsd = .fin γ)
    (ha : sc.altitude = .fin a) (hr : sc.groundRange = .fin rg) (hpx : s.pX = .fin px) (hpy : s.pY = .fin py)
    (hf : s.f = .fin f) (hd : a ≠ 0 ∨ rg ≠ 0) (hf0 : 0 < f) (hp : 0 < px + py) (hD : 0 < D)
    (hguide : γ ≤ Real.sqrt (a ^ 2 + rg ^ 2) / (4 * (D / l)))
    (hpix : l * f / D ≤ 4 * ((px + py) / 2)) :
    LogRecord.oversampled ∉ (simulateLogged env usable rng r s sc).1 := by
  rw [(C129_warning h hγ ha hr hpx hpy hf hd hf0.ne' hp.ne').2]
  have hR : 0 < Real.sqrt (a ^ 2 + rg ^ 2) := by
    apply Real.sqrt_pos.mpr
    rcases hd with hd | hd <;> positivity
  have hq : γ / Real.sqrt (a ^ 2 + rg ^ 2) / ((px + py) / 2 / f) ≤ 1 := by
    have hp' : 0 < (px + py) / 2 / f := by positivity
    rw [div_le_one hp', div_le_iff₀ hR]
    refine hguide.trans ?_
    have e : Real.sqrt (a ^ 2 + rg ^ 2) / (4 * (D / l)) = l / (4 * D) * Real.sqrt (a ^ 2 + rg ^ 2) := by
      rw [← mul_div_assoc, div_div_eq_mul_div]
      ring
    rw [e]
    refine mul_le_mul_of_nonneg_right ?_ hR.le
    rw [le_div_iff₀ hf0, div_mul_eq_mul_div, div_le_iff₀ (by positivity)]
    rw [div_le_iff₀ hD] at hpix
    linarith
  have h1 : (r.img.h : ℝ) * (γ / Real.sqrt (a ^ 2 + rg ^ 2) / ((px + py) / 2 / f)) ≤ r.img.h :=
    mul_le_of_le_one_right (Nat.cast_nonneg _) hq
  rintro (h7 | ⟨h7, -⟩) <;> linarith

/-- The demonstration camera without drift and with a long exposure. -/
def staring (t : ℝ) : RealSensor := { demoSensor with daX := 0, daY := 0, intTime := t }

theorem staring_usable (t : ℝ) : (staring t).Usable := by
  obtain ⟨h1, h2, h3, h4, h5, h6, h7, h8⟩ := demoSensor_usable
  exact ⟨h1, h2, h3, h4, h5, h6, h7, h8⟩

/-- Exposed long enough it overfills its well. -/
theorem staring_overfull : ∃ t : ℝ, 0 < t ∧ (staring t).maxN < (staring t).counts ((staring t).rowsInBand demoAtm).length
    (fun i => ((staring t).rowsInBand demoAtm).getD i 0) t (((99 : ℕ) : ℝ) / 99) := by
  obtain ⟨a, ha⟩ : ∃ a, a = demoSensor.rate demoInBand.length (fun i => demoInBand.getD i 0 0)
    (fun i => greyRadiance (demoInBand.getD i 0) (((99 : ℕ) : ℝ) / 99) 300) := ⟨_, rfl⟩
  have ha0 : 0 < a := by
    rw [ha]
    unfold RealSensor.rate
    have : 0 ≤ trap demoInBand.length (fun i => demoInBand.getD i 0 0) (fun i =>
        demoSensor.spectral (demoInBand.getD i 0 0) (greyRadiance (demoInBand.getD i 0) (((99 : ℕ) : ℝ) / 99) 300)) :=
      trap_nonneg (fun i hi => (counting_step demoInBand_sorted hi).le) fun i hi => by
        have e : (((99 : ℕ) : ℝ) / 99) = 1 := by norm_num
        rw [e]
        exact (demo_white (getD_mem hi)).le
    have hd : 0 < demoSensor.darkCurrent := by norm_num [demoSensor]
    exact add_pos_of_nonneg_of_pos this hd
  refine ⟨200000 / a, by positivity, ?_⟩
  change (100000 : ℝ) < demoSensor.rate demoInBand.length (fun i => demoInBand.getD i 0 0)
    (fun i => greyRadiance (demoInBand.getD i 0) (((99 : ℕ) : ℝ) / 99) 300) * (200000 / a) * 1
  rw [← ha, mul_div_cancel₀ _ ha0.ne']
  norm_num

/-- Every hypothesis of `C129_reduced` and `C129_images` holds for it in still air, the announcement included. -/
example (usable : Bool) (rng : Rng) (r : RefImage) : ∃ (t : ℝ) (sc : Scenario) (old new : XR), (staring t).Usable ∧ 0 < (staring t).maxN
    ∧ 0 < (staring t).intTime ∧ (sc.readAtm demoEnv.files).1 = .ok (realAtm demoAtm)
    ∧ (∀ r ∈ (staring t).rowsInBand demoAtm, 0 < r 0)
    ∧ (∃ r ∈ (staring t).rowsInBand demoAtm, 0 < (staring t).spectral (r 0) (greyRadiance r 1 300))
    ∧ (staring t).daX = 0 ∧ (staring t).daY = 0 ∧ ¬ XR.lt 0 sc.cn2At1m
    ∧ .reducing old new ∈ (simulateLogged demoEnv usable rng r (staring t).toSensor sc).1 := by
  obtain ⟨t, t0, h⟩ := staring_overfull
  have hpos : ∀ r ∈ (staring t).rowsInBand demoAtm, 0 < r 0 := fun r hr =>
    lt_of_lt_of_le (by norm_num) (demoInBand_mem hr).1
  have hw : ∃ r ∈ (staring t).rowsInBand demoAtm, 0 < (staring t).spectral (r 0) (greyRadiance r 1 300) := by
    obtain ⟨a, ha, -⟩ := demo_imaging.signal
    exact ⟨a, ha, demo_white ha⟩
  have hM : 0 < (staring t).maxN := by norm_num [staring, demoSensor]
  obtain ⟨t', -, -, e1, -⟩ := (C129_reduced (staring_usable t) hM t0 hpos hw).2.2 ⟨99, by norm_num, h⟩
  have hatm : (({ demoScenario with cn2At1m := 0 } : Scenario).readAtm demoEnv.files).1 = .ok (realAtm demoAtm) := by
    unfold Scenario.readAtm
    have e : ({ demoScenario with cn2At1m := 0 } : Scenario).atmCache = none := rfl
    have e2 : dbLoad demoEnv.files ⟨({ demoScenario with cn2At1m := 0 } : Scenario).interp,
        ({ demoScenario with cn2At1m := 0 } : Scenario).altitude, ({ demoScenario with cn2At1m := 0 } : Scenario).groundRange,
        ({ demoScenario with cn2At1m := 0 } : Scenario).ihaze⟩ = .ok (realAtm demoAtm) := demoAtm_load
    rw [e]
    dsimp only at e2 ⊢
    rw [e2]
  refine ⟨t, { demoScenario with cn2At1m := 0 }, .fin t, .fin t', staring_usable t, hM, t0, hatm, hpos, hw, rfl, rfl, ?_, ?_⟩
  · show ¬ XR.lt 0 0
    exact lt_irrefl (0 : ℝ)
  · have h2 := (C129_simulation demoEnv usable rng r (staring t).toSensor { demoScenario with cn2At1m := 0 }).2.2.1 _ hatm
    have e1' : (reflectanceLogged (realAtm demoAtm) (staring t).toSensor (staring t).toSensor.intTime).1
        = [.reducing (.fin t) (.fin t')] := e1
    rw [e1'] at h2
    cases hs : simulateImage demoEnv usable rng r (staring t).toSensor { demoScenario with cn2At1m := 0 } with
    | error e => rw [h2.1 e hs]; simp
    | ok R => rcases h2.2 R hs with h3 | h3 <;> rw [h3] <;> simp

/-- The demonstration simulation is warned about. -/
example (rng : Rng) : LogRecord.oversampled ∈ (simulateLogged demoEnv true rng demoRef demoSensor.toSensor demoScenario).1 := by
  obtain ⟨R, h, h1, -⟩ := demo_succeeds rng
  obtain ⟨-, -, h3, -⟩ := simulate_apply h
  rw [(C129_warning h (γ := 2 * demoSlant) (a := 9000) (rg := 60000) rfl rfl rfl rfl rfl rfl (Or.inl (by norm_num))
    (by norm_num [demoSensor]) (by norm_num [demoSensor])).1, h3, h1]
  norm_num [demoRef]

end PyBSM
