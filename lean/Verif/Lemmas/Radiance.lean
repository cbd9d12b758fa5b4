import Verif.Model.Radiance
import Verif.Spec.Radiance
import Verif.Lemmas.Scal
import Verif.Lemmas.Table

noncomputable section

open Classical

namespace PyBSM

open Spec

theorem hC_eq : hC = planckH := rfl
theorem cC_eq : cC = lightC := by norm_num [cC, lightC]
theorem kC_eq : kC = boltzmannK := rfl
theorem planckH_pos : 0 < planckH := by norm_num [planckH]
theorem lightC_pos : 0 < lightC := by norm_num [lightC]
theorem boltzmannK_pos : 0 < boltzmannK := by norm_num [boltzmannK]

theorem exp_sub_one_pos {lam T : ℝ} (hl : 0 < lam) (hT : 0 < T) :
    0 < Real.exp (planckH * lightC / (lam * boltzmannK * T)) - 1 := by
  have : 0 < planckH * lightC / (lam * boltzmannK * T) := by
    have := planckH_pos; have := lightC_pos; have := boltzmannK_pos; positivity
  linarith [Real.add_one_lt_exp this.ne']

theorem blackbody_fin {lam T : ℝ} (hl : 0 < lam) (hT : 0 < T) :
    blackbody (.fin lam) (.fin T) = .fin (planck lam T) := by
  unfold blackbody
  rw [hC_eq, cC_eq, kC_eq]
  xr_simp
  rw [XR.fin_div _ (by positivity), XR.fin_div _ (by have := boltzmannK_pos; positivity)]
  xr_simp
  rw [XR.fin_div _ (exp_sub_one_pos hl hT).ne']
  xr_simp
  unfold planck
  rw [XR.fin_inj]; ring

theorem blackbody_zero_temp {lam : ℝ} (hl : 0 < lam) : blackbody (.fin lam) (.fin 0) = .fin 0 := by
  unfold blackbody
  rw [hC_eq, cC_eq, kC_eq]
  xr_simp
  rw [XR.fin_div _ (by positivity), mul_zero, XR.fin_div_zero]
  have h : XR.mulInf (planckH * lightC) = .pinf := by
    have := mul_pos planckH_pos lightC_pos
    simp [XR.mulInf, this]
  rw [h]
  show XR.fin _ * (XR.fin 1 / (XR.pinf - XR.fin 1)) = _
  rw [show XR.pinf - XR.fin 1 = XR.pinf from rfl, show XR.fin 1 / XR.pinf = XR.fin 0 from rfl,
    XR.fin_mul, mul_zero]

theorem blackbody_fin' {lam T : ℝ} (hl : 0 < lam) (hT : 0 ≤ T) :
    ∃ b, blackbody (.fin lam) (.fin T) = .fin b ∧ 0 ≤ b ∧ (0 < T → b = planck lam T) := by
  rcases hT.eq_or_lt with rfl | hT
  · exact ⟨0, blackbody_zero_temp hl, le_rfl, fun h => absurd h (lt_irrefl _)⟩
  · refine ⟨_, blackbody_fin hl hT, ?_, fun _ => rfl⟩
    have := exp_sub_one_pos hl hT
    have := planckH_pos; have := lightC_pos
    unfold planck; positivity

theorem planck_pos {lam T : ℝ} (hl : 0 < lam) (hT : 0 < T) : 0 < planck lam T := by
  have := exp_sub_one_pos hl hT
  have := planckH_pos; have := lightC_pos
  unfold planck; positivity

theorem planck_lt {lam T T' : ℝ} (hl : 0 < lam) (hT : 0 < T) (h : T < T') :
    planck lam T < planck lam T' := by
  have p1 := planckH_pos; have p2 := lightC_pos; have p3 := boltzmannK_pos
  have hT' := hT.trans h
  have e : planckH * lightC / (lam * boltzmannK * T') < planckH * lightC / (lam * boltzmannK * T) := by
    apply div_lt_div_of_pos_left (by positivity) (by positivity)
    exact mul_lt_mul_of_pos_left h (by positivity)
  unfold planck
  apply div_lt_div_of_pos_left (by positivity) (exp_sub_one_pos hl hT')
  linarith [Real.exp_lt_exp.mpr e]

/-! ## Irradiance on the focal plane -/

theorem one_add_pos (q : ℝ) : 0 < 1 + 4 * q ^ 2 := by positivity

theorem atFocal_vec {D f : Scal} {d fl : ℝ} (hD : D.val = .fin d) (hf : f.val = .fin fl) (hd : d ≠ 0)
    (n : ℕ) (L : ℕ → ℝ) :
    atFocalPlaneIrradiance D f (vec n L) = .ok (vec n fun i => apertureFactor d fl * L i) := by
  unfold atFocalPlaneIrradiance
  obtain ⟨c, h1, h2⟩ := Scal.div_fin hf hD hd
  simp only [h1, bind, Except.bind, h2]
  rw [vec_map (g := fun l => apertureFactor d fl * l)]
  intro l
  xr_simp
  rw [XR.fin_div _ (one_add_pos _).ne']
  unfold apertureFactor
  rw [XR.fin_inj]; ring

theorem atFocal_error {D f : Scal} {L : List XR} {e : PyErr}
    (h : atFocalPlaneIrradiance D f L = .error e) : f.div D = .error e := by
  unfold atFocalPlaneIrradiance at h
  cases hq : f.div D with
  | ok c => simp [hq, bind, Except.bind] at h
  | error e' => simp [hq, bind, Except.bind] at h; rw [h]

theorem blackbodyRadiance_vec {n : ℕ} {lam : ℕ → ℝ} (hl : ∀ i < n, 0 < lam i) {T : ℝ} (hT : 0 < T) :
    blackbodyRadiance (vec n lam) (.fin T) = vec n fun i => planck (lam i) T := by
  unfold blackbodyRadiance vec
  rw [List.map_map]
  apply List.map_congr_left
  intro i hi
  exact blackbody_fin (hl i (List.mem_range.mp hi)) hT

/-- The value of the code's black body at nonnegative temperature. -/
def bb (lam T : ℝ) : ℝ := if T = 0 then 0 else planck lam T

theorem bb_nonneg {lam T : ℝ} (hl : 0 < lam) (hT : 0 ≤ T) : 0 ≤ bb lam T := by
  unfold bb; split_ifs with h
  · exact le_rfl
  · exact (planck_pos hl (lt_of_le_of_ne hT (Ne.symm h))).le

theorem blackbodyRadiance_vec' {n : ℕ} {lam : ℕ → ℝ} (hl : ∀ i < n, 0 < lam i) {T : ℝ} (hT : 0 ≤ T) :
    blackbodyRadiance (vec n lam) (.fin T) = vec n fun i => bb (lam i) T := by
  rcases hT.eq_or_lt with rfl | hT
  · unfold blackbodyRadiance vec
    rw [List.map_map]
    apply List.map_congr_left
    intro i hi
    simp only [Function.comp, bb, if_true]
    exact blackbody_zero_temp (hl i (List.mem_range.mp hi))
  · rw [blackbodyRadiance_vec hl hT]
    simp [bb, hT.ne']

/-! ## Detection rates -/

theorem photonDetectionRate_vec (n : ℕ) (E wl qe : ℕ → ℝ) (wx wy : ℝ) :
    photonDetectionRate (vec n E) (.fin wx) (.fin wy) (vec n wl) (vec n qe)
      = .ok (vec n fun i => wl i / (planckH * lightC) * qe i * (wx * wy) * E i) := by
  unfold photonDetectionRate
  have hne : planckH * lightC ≠ 0 := (mul_pos planckH_pos lightC_pos).ne'
  have h1 : (vec n wl).map (· / (XR.fin hC * .fin cC)) = vec n fun i => wl i / (planckH * lightC) := by
    apply vec_map (f := (· / (XR.fin hC * .fin cC))) (g := fun x => x / (planckH * lightC))
    intro x
    rw [hC_eq, cC_eq, XR.fin_mul, XR.fin_div _ hne]
  rw [h1, bc2_vec_mul]
  simp only [bind, Except.bind]
  rw [vec_map (f := fun x => x * XR.fin wx * XR.fin wy) (g := fun x => x * wx * wy)
    (fun x => by xr_simp), bc2_vec_mul]
  congr 1
  apply vec_congr
  intro i _; ring

theorem signalRate_vec {D f : Scal} {d fl : ℝ} (hD : D.val = .fin d) (hf : f.val = .fin fl) (hd : d ≠ 0)
    (n : ℕ) (wl L t qe o : ℕ → ℝ) (wx wy dark : ℝ) :
    signalRate (vec n wl) (vec n L) (vec n t) D f (.fin wx) (.fin wy) (vec n qe) (vec n o) (.fin dark)
      = .ok (.fin (trap n wl (fun i => spectralRate d fl wx wy (wl i) (L i) (t i) (qe i) (o i)) + dark),
          vec n (fun i => t i * (apertureFactor d fl * L i) + o i),
          vec n fun i => spectralRate d fl wx wy (wl i) (L i) (t i) (qe i) (o i)) := by
  unfold signalRate
  rw [atFocal_vec hD hf hd]
  simp only [bind, Except.bind]
  rw [bc2_vec_mul]
  simp only
  rw [bc2_vec_add]
  simp only
  rw [photonDetectionRate_vec]
  simp only
  rw [trapz_vec]
  simp only
  rfl

/-! ## Total radiance -/

theorem totalRadiance_vec {n : ℕ} {A : ℕ → Fin 6 → ℝ} (hl : ∀ i < n, 0 < A i 0) (r : ℝ) {T : ℝ}
    (hT : 0 < T) :
    totalRadiance (vecAtm n A) (.fin r) (.fin T) = vec n fun i => greyRadiance (A i) r T := by
  unfold totalRadiance vecAtm vec
  rw [List.map_map]
  apply List.map_congr_left
  intro i hi
  simp only [Function.comp]
  rw [blackbody_fin (hl i (List.mem_range.mp hi)) hT, XR.sci_def, XR.fin_div _ (by norm_num)]
  xr_simp
  rw [XR.fin_inj]
  unfold greyRadiance
  ring

end PyBSM
