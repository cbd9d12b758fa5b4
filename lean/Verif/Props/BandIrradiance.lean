import Verif.Props.Radiance

/-!
# C97: the band-integrated irradiance at the focal plane
-/

noncomputable section

open Classical

namespace PyBSM

open Spec

/-- The function with the list of band radiances written out. -/
theorem focalPlane_eq {D f : Scal} {d fl : ℝ} (hD : D.val = .fin d) (hf : f.val = .fin fl)
    (hd : d ≠ 0) {lam T : ℝ} (hl : 0 < lam) (hT : 0 < T) (n : ℕ) (L : ℕ → ℝ) (Ls t e dl : ℝ) :
    focalPlaneIntegratedIrradiance (vec n L) (.fin Ls) (.fin t) (.fin e) [.fin lam] (.fin dl) (.fin T) D f
      = .ok (vec n fun i => apertureFactor d fl * (t * L i + e * planck lam T * dl + Ls)) := by
  have hb : blackbodyRadiance [.fin lam] (.fin T) = [.fin (planck lam T)] :=
    blackbodyRadiance_vec (n := 1) (lam := fun _ => lam) (fun _ _ => hl) hT
  unfold focalPlaneIntegratedIrradiance
  rw [vec_map (g := fun x => t * x) (fun x => by xr_simp), hb, List.map_singleton, bc2_single, ok_bind,
    vec_map (g := fun x => x + e * planck lam T * dl) (fun x => by xr_simp),
    vec_map (g := fun x => x + Ls) (fun x => by xr_simp), atFocal_vec hD hf hd]

/-- **C97** (value). The scene radiance is transmitted, the emission of the optics at the centre of the
band times the bandwidth and the stray radiance are added, and the sum is multiplied by the aperture
factor `pi / (1 + 4 (f/D)^2)`. -/
theorem C97_value {D f : Scal} {d fl : ℝ} (hD : D.val = .fin d) (hf : f.val = .fin fl)
    (hd : d ≠ 0) {lam T : ℝ} (hl : 0 < lam) (hT : 0 < T) (n : ℕ) (L : ℕ → ℝ) (Ls t e dl : ℝ) :
    focalPlaneIntegratedIrradiance (vec n L) (.fin Ls) (.fin t) (.fin e) [.fin lam] (.fin dl) (.fin T) D f
      = .ok (vec n fun i => Real.pi / (1 + 4 * (fl / d) ^ 2)
          * (t * L i + e * planck lam T * dl + Ls)) :=
  focalPlane_eq hD hf hd hl hT n L Ls t e dl

/-- **C97** (isothermal). A scene that fills the band like a black body of the temperature of the
optics, seen through optics that emit what they do not transmit, gives the same irradiance whatever
the transmission. -/
theorem C97_isothermal {D f : Scal} {d fl : ℝ} (hD : D.val = .fin d) (hf : f.val = .fin fl)
    (hd : d ≠ 0) {lam T : ℝ} (hl : 0 < lam) (hT : 0 < T) (t dl : ℝ) :
    focalPlaneIntegratedIrradiance [.fin (planck lam T * dl)] (.fin 0) (.fin t) (.fin (1 - t)) [.fin lam]
        (.fin dl) (.fin T) D f
      = .ok [.fin (Real.pi / (1 + 4 * (fl / d) ^ 2) * (planck lam T * dl))] := by
  have h := C97_value hD hf hd hl hT 1 (fun _ => planck lam T * dl) 0 t (1 - t) dl
  have e : ∀ x, vec 1 (fun _ => x) = [.fin x] := fun x => rfl
  rw [e, e] at h
  rw [h]
  congr 3
  ring

/-- **C97** (between). With optics that emit what they do not transmit and no stray light the irradiance
lies between that of the scene and that of a black body at the temperature of the optics. -/
theorem C97_between {D f : Scal} {d fl : ℝ} (hD : D.val = .fin d) (hf : f.val = .fin fl)
    (hd : d ≠ 0) {lam T : ℝ} (hl : 0 < lam) (hT : 0 < T) (L : ℝ) {t : ℝ} (h0 : 0 ≤ t) (h1 : t ≤ 1)
    (dl : ℝ) :
    ∃ E, focalPlaneIntegratedIrradiance [.fin L] (.fin 0) (.fin t) (.fin (1 - t)) [.fin lam] (.fin dl)
        (.fin T) D f = .ok [.fin E]
      ∧ Real.pi / (1 + 4 * (fl / d) ^ 2) * min L (planck lam T * dl) ≤ E
      ∧ E ≤ Real.pi / (1 + 4 * (fl / d) ^ 2) * max L (planck lam T * dl) := by
  have h := C97_value hD hf hd hl hT 1 (fun _ => L) 0 t (1 - t) dl
  have e : ∀ x, vec 1 (fun _ => x) = [.fin x] := fun x => rfl
  rw [e, e] at h
  have hA : 0 < Real.pi / (1 + 4 * (fl / d) ^ 2) := div_pos Real.pi_pos (one_add_pos _)
  have a1 := min_le_left L (planck lam T * dl)
  have a2 := min_le_right L (planck lam T * dl)
  have b1 := le_max_left L (planck lam T * dl)
  have b2 := le_max_right L (planck lam T * dl)
  refine ⟨_, h, ?_, ?_⟩
  · apply mul_le_mul_of_nonneg_left _ hA.le
    nlinarith
  · apply mul_le_mul_of_nonneg_left _ hA.le
    nlinarith

/-- **C97** (monotone). More scene radiance, more stray light, warmer optics: more irradiance. -/
theorem C97_monotone {D f : Scal} {d fl : ℝ} (hD : D.val = .fin d) (hf : f.val = .fin fl)
    (hd : d ≠ 0) {lam T T' : ℝ} (hl : 0 < lam) (hT : 0 < T) (hTT : T ≤ T') {L L' Ls Ls' t e dl : ℝ}
    (hL : L ≤ L') (hs : Ls ≤ Ls') (ht : 0 ≤ t) (he : 0 ≤ e) (hdl : 0 ≤ dl) :
    ∃ E E', focalPlaneIntegratedIrradiance [.fin L] (.fin Ls) (.fin t) (.fin e) [.fin lam] (.fin dl)
        (.fin T) D f = .ok [.fin E]
      ∧ focalPlaneIntegratedIrradiance [.fin L'] (.fin Ls') (.fin t) (.fin e) [.fin lam] (.fin dl)
        (.fin T') D f = .ok [.fin E'] ∧ E ≤ E' := by
  have h := C97_value hD hf hd hl hT 1 (fun _ => L) Ls t e dl
  have h' := C97_value hD hf hd hl (hT.trans_le hTT) 1 (fun _ => L') Ls' t e dl
  have ev : ∀ x, vec 1 (fun _ => x) = [.fin x] := fun x => rfl
  rw [ev, ev] at h h'
  have hA : 0 < Real.pi / (1 + 4 * (fl / d) ^ 2) := div_pos Real.pi_pos (one_add_pos _)
  have hp : planck lam T ≤ planck lam T' := by
    rcases hTT.eq_or_lt with rfl | hlt
    · exact le_rfl
    · obtain ⟨b, b', e1, e2, -, e3⟩ := C15_increasing hl hT hlt
      rw [C15_planck hl hT, XR.fin.injEq] at e1
      rw [C15_planck hl (hT.trans hlt), XR.fin.injEq] at e2
      rw [e1, e2]; exact e3.le
  refine ⟨_, _, h, h', mul_le_mul_of_nonneg_left ?_ hA.le⟩
  have m1 := mul_le_mul_of_nonneg_left hL ht
  have m2 := mul_le_mul_of_nonneg_right (mul_le_mul_of_nonneg_left hp he) hdl
  linarith

theorem trap_const (n : ℕ) (x : ℕ → ℝ) (c : ℝ) : trap n x (fun _ => c) = (x (n - 1) - x 0) * c := by
  unfold trap
  have : ∀ m, ∑ i ∈ Finset.range m, (x (i + 1) - x i) * ((c + c) / 2) = (x m - x 0) * c := by
    intro m
    rw [← Finset.sum_mul, Finset.sum_range_sub]
    ring
  exact this (n - 1)

/-- **C97** (against the spectral calculation). Take a scene of constant spectral radiance `l`, optics of
constant transmission and emissivity, and any increasing wavelengths that span the band.  The spectral
functions (`at_focal_plane_irradiance` and `optics_self_emission`, integrated with the trapezoid rule)
and the band-integrated function differ by at most the variation of the Planck function over the band
times `pi / (1 + 4 (f/D)^2)`, the emissivity and the bandwidth. -/
theorem C97_spectral {D f : Scal} {d fl : ℝ} (hD : D.val = .fin d) (hf : f.val = .fin fl)
    (hd : d ≠ 0) {n : ℕ} {wl : ℕ → ℝ} (hpos : ∀ i < n, 0 < wl i)
    (hwl : ∀ i, i + 1 < n → wl i ≤ wl (i + 1)) {lam T : ℝ} (hl : 0 < lam) (hT : 0 < T) (l t : ℝ)
    {e ε : ℝ} (he : 0 ≤ e) (hε : ∀ i < n, |planck (wl i) T - planck lam T| ≤ ε) :
    ∃ (E : ℝ) (S O : ℕ → ℝ),
      focalPlaneIntegratedIrradiance [.fin (l * (wl (n - 1) - wl 0))] (.fin 0) (.fin t) (.fin e)
        [.fin lam] (.fin (wl (n - 1) - wl 0)) (.fin T) D f = .ok [.fin E]
      ∧ atFocalPlaneIrradiance D f (vec n fun _ => t * l) = .ok (vec n S)
      ∧ opticsSelfEmission (vec n wl) (.fin T) (.fin e) (.fin 1) D f = .ok (vec n O)
      ∧ |trap n wl (fun i => S i + O i) - E|
        ≤ Real.pi / (1 + 4 * (fl / d) ^ 2) * e * (wl (n - 1) - wl 0) * ε := by
  have h := C97_value hD hf hd hl hT 1 (fun _ => l * (wl (n - 1) - wl 0)) 0 t e (wl (n - 1) - wl 0)
  have ev : ∀ x, vec 1 (fun _ => x) = [.fin x] := fun x => rfl
  rw [ev, ev] at h
  refine ⟨_, _, _, h, atFocal_vec hD hf hd n _, opticsSelf_vec hD hf hd hpos hT e 1, ?_⟩
  have hA : 0 < apertureFactor d fl := div_pos Real.pi_pos (one_add_pos _)
  have hA' : Real.pi / (1 + 4 * (fl / d) ^ 2) = apertureFactor d fl := rfl
  rw [hA']
  have hbnd : ∀ i < n, apertureFactor d fl * (t * l) + apertureFactor d fl * (1 * e * planck (wl i) T)
      ≤ apertureFactor d fl * (t * l + e * planck lam T) + apertureFactor d fl * e * ε
      ∧ apertureFactor d fl * (t * l + e * planck lam T) - apertureFactor d fl * e * ε
      ≤ apertureFactor d fl * (t * l) + apertureFactor d fl * (1 * e * planck (wl i) T) := by
    intro i hi
    have := abs_le.mp (hε i hi)
    have hAe : 0 ≤ apertureFactor d fl * e := by positivity
    have u1 := mul_le_mul_of_nonneg_left this.1 hAe
    have u2 := mul_le_mul_of_nonneg_left this.2 hAe
    constructor <;> nlinarith
  have up := trap_mono (n := n) (x := wl) hwl fun i hi => (hbnd i hi).1
  have lo := trap_mono (n := n) (x := wl) hwl fun i hi => (hbnd i hi).2
  rw [trap_const] at up lo
  rw [abs_le]
  constructor <;> nlinarith

/-- **C97** (errors). A zero aperture given as a Python number raises `ZeroDivisionError`; radiances and
band centres whose numbers do not match raise `ValueError`. -/
theorem C97_errors (L lams : List XR) (Ls t e dl T : XR) (D f : Scal) :
    (L.length ≠ lams.length → L.length ≠ 1 → lams.length ≠ 1 →
      focalPlaneIntegratedIrradiance L Ls t e lams dl T D f = .error .valueError)
    ∧ (∀ x, L.length = lams.length ∨ lams.length = 1 →
      (focalPlaneIntegratedIrradiance L Ls t e lams dl T D f = .error x ↔
        x = .zeroDivisionError ∧ f.IsPy ∧ D.IsPy ∧ XR.eq D.val 0)) := by
  unfold focalPlaneIntegratedIrradiance
  constructor
  · intro h1 h2 h3
    rw [bc2_mismatch (by simpa [blackbodyRadiance] using h1) (by simpa using h2)
      (by simpa [blackbodyRadiance] using h3)]
    rfl
  · intro x h
    have : ∃ zs, bc2 (· + ·) (L.map (t * ·)) ((blackbodyRadiance lams T).map fun b => e * b * dl)
        = .ok zs := by
      rcases h with h | h
      · exact ⟨_, bc2_eq (by simpa [blackbodyRadiance] using h)⟩
      · match lams, h with
        | [lam], _ => exact ⟨_, bc2_single⟩
    obtain ⟨zs, hz⟩ := this
    rw [hz, ok_bind, C16_zero_aperture]

/-- A thermal imager: f/3, 8 to 12 micrometres, optics at 300 K that transmit 80 percent. -/
example : ∃ E E', focalPlaneIntegratedIrradiance [.fin 10] (.fin 0) (.fin 0.8) (.fin 0.2) [.fin 10e-6]
      (.fin 4e-6) (.fin 300) (.py (.fin 0.1)) (.py (.fin 0.3)) = .ok [.fin E]
    ∧ focalPlaneIntegratedIrradiance [.fin 12] (.fin 0.1) (.fin 0.8) (.fin 0.2) [.fin 10e-6]
      (.fin 4e-6) (.fin 310) (.py (.fin 0.1)) (.py (.fin 0.3)) = .ok [.fin E'] ∧ E ≤ E' :=
  C97_monotone (D := .py (.fin 0.1)) (f := .py (.fin 0.3)) rfl rfl (by norm_num) (by norm_num)
    (by norm_num) (by norm_num) (by norm_num) (by norm_num) (by norm_num) (by norm_num) (by norm_num)

end PyBSM
