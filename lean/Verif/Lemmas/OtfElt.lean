import Verif.Model.Otf
import Verif.Lemmas.Scal
import Verif.Lemmas.Arr
import Verif.Lemmas.Sensor
import Mathlib.Analysis.SpecialFunctions.Trigonometric.Bounds

noncomputable section

open Classical

namespace PyBSM

open Spec

theorem radial_fin (u v : ℝ) : radial (.fin u) (.fin v) = .fin (Real.sqrt (u ^ 2 + v ^ 2)) := by
  unfold radial
  xr_simp
  rw [XR.fin_sqrt (by positivity)]

theorem cteXY_fin (n pu ph e : ℝ) {f : ℝ} (hf : f ≠ 0) :
    cteXY (.fin n) (.fin pu) (.fin ph) (.fin e) (.fin f)
      = .fin (Real.exp (-(ph * n * (1 - e) * (1 - Real.cos (2 * Real.pi * pu / f))))) := by
  unfold cteXY
  xr_simp
  rw [XR.fin_div _ hf]
  xr_simp
  rw [XR.fin_inj]
  congr 1; ring

theorem cteOTF_fin (u v px py nx ny ph e : ℝ) {f : ℝ} (hf : f ≠ 0) :
    cteOTF (.fin u) (.fin v) (.fin px) (.fin py) (.fin nx) (.fin ny) (.fin ph) (.fin e) (.fin f)
      = .fin (Real.exp (-(ph * (1 - e) * (nx * (1 - Real.cos (2 * Real.pi * (px * u / f)))
          + ny * (1 - Real.cos (2 * Real.pi * (py * v / f))))))) := by
  unfold cteOTF
  simp only [XR.fin_mul, cteXY_fin _ _ _ _ hf]
  rw [← Real.exp_add, XR.fin_inj]
  congr 1
  rw [show 2 * Real.pi * (px * u) / f = 2 * Real.pi * (px * u / f) by ring,
    show 2 * Real.pi * (py * v) / f = 2 * Real.pi * (py * v / f) by ring]
  ring

theorem defocusOTF_fin (u v wx wy : ℝ) :
    defocusOTF (.fin u) (.fin v) (.fin wx) (.fin wy)
      = .fin (Real.exp (-(Real.pi ^ 2 / 4 * ((wx * u) ^ 2 + (wy * v) ^ 2)))) := by
  unfold defocusOTF
  xr_simp
  rw [XR.fin_div _ (by norm_num)]
  xr_simp
  rw [XR.fin_inj]
  congr 1; ring

theorem jitterOTF_fin (u v sx sy : ℝ) :
    jitterOTF (.fin u) (.fin v) (.fin sx) (.fin sy)
      = .fin (Real.exp (-(2 * Real.pi ^ 2 * ((sx * u) ^ 2 + (sy * v) ^ 2)))) := by
  unfold jitterOTF
  xr_simp
  rw [XR.fin_inj]
  congr 1; ring

theorem gaussianOTF_fin (u v : ℝ) {bx bY : Scal} {x y : ℝ} (hx : bx.val = .fin x) (hy : bY.val = .fin y)
    (hx0 : x ≠ 0) (hy0 : y ≠ 0) :
    gaussianOTF (.fin u) (.fin v) bx bY
      = .ok (.fin (Real.exp (-(Real.pi * ((x * u) ^ 2 + (y * v) ^ 2))))) := by
  unfold gaussianOTF
  obtain ⟨a, h1, h2⟩ := Scal.div_fin (a := .py 1) (x := 1) rfl hx hx0
  obtain ⟨b, h3, h4⟩ := Scal.div_fin (a := .py 1) (x := 1) rfl hy hy0
  rw [h1, ok_bind, h3, ok_bind, h2, h4, XR.fin_div _ (by positivity), XR.fin_div _ (by positivity)]
  xr_simp
  congr 3
  field_simp

theorem detectorOTF_fin (u v wx wy : ℝ) {f : ℝ} (hf : f ≠ 0) :
    detectorOTF (.fin u) (.fin v) (.fin wx) (.fin wy) (.fin f)
      = .fin (Real.sinc (Real.pi * (wx * u / f)) * Real.sinc (Real.pi * (wy * v / f))) := by
  unfold detectorOTF
  xr_simp
  rw [XR.fin_div _ hf, XR.fin_div _ hf]
  xr_simp

theorem driftOTF_fin (u v ax ay : ℝ) :
    driftOTF (.fin u) (.fin v) (.fin ax) (.fin ay)
      = .fin (Real.sinc (Real.pi * (ax * u)) * Real.sinc (Real.pi * (ay * v))) := by
  unfold driftOTF
  xr_simp

theorem foldl_add_sum {M : Type} [AddCommMonoid M] (g : ℕ → M) (n : ℕ) :
    (List.range n).foldl (fun acc (i : ℕ) => acc + g i) 0 = ∑ i ∈ Finset.range n, g i := by
  induction n with
  | zero => simp
  | succ n ih => rw [List.range_succ, List.foldl_append, ih, Finset.sum_range_succ]; rfl

theorem foldl_add_fin (g : ℕ → ℝ) (n : ℕ) :
    (List.range n).foldl (fun acc (i : ℕ) => acc + XR.fin (g i)) 0
      = .fin (∑ i ∈ Finset.range n, g i) := by
  induction n with
  | zero => simp [XR.zero_def]
  | succ n ih =>
    rw [List.range_succ, List.foldl_append, ih, Finset.sum_range_succ]
    show XR.fin _ + XR.fin _ = _
    rw [XR.fin_add]

theorem aggSum_fin (n : ℕ) (p u : ℝ) {f : ℝ} (hf : f ≠ 0) :
    aggSum n (.fin p) (.fin u) (.fin f)
      = .fin (∑ i ∈ Finset.range n, Real.cos ((2 * i - (n - 1)) * (Real.pi * (p * u / f)))) := by
  unfold aggSum
  rw [← foldl_add_fin]
  congr 1
  funext acc i
  congr 1
  xr_simp
  rw [XR.fin_div _ hf, XR.fin_div _ (by norm_num), XR.fin_div _ hf]
  xr_simp
  rw [XR.fin_inj]
  congr 1; ring

/-- Dirichlet kernel. -/
theorem sin_mul_sum_cos (n : ℕ) (x : ℝ) :
    Real.sin x * ∑ i ∈ Finset.range n, Real.cos ((2 * i - (n - 1)) * x) = Real.sin (n * x) := by
  have key : ∀ i : ℕ, 2 * (Real.sin x * Real.cos ((2 * i - ((n : ℝ) - 1)) * x))
      = Real.sin ((2 * ((i + 1 : ℕ) : ℝ) - n) * x) - Real.sin ((2 * (i : ℝ) - n) * x) := by
    intro i
    rw [Real.sin_sub_sin]
    push_cast
    rw [show ((2 * ((i : ℝ) + 1) - n) * x - (2 * i - n) * x) / 2 = x by ring,
      show ((2 * ((i : ℝ) + 1) - n) * x + (2 * i - n) * x) / 2 = (2 * i - ((n : ℝ) - 1)) * x by ring]
    ring
  have h2 : 2 * (Real.sin x * ∑ i ∈ Finset.range n, Real.cos ((2 * i - (n - 1)) * x))
      = 2 * Real.sin (n * x) := by
    rw [Finset.mul_sum, Finset.mul_sum, Finset.sum_congr rfl fun i _ => key i,
      Finset.sum_range_sub (fun i : ℕ => Real.sin ((2 * (i : ℝ) - n) * x))]
    rw [show (2 * (n : ℝ) - n) * x = n * x by ring,
      show (2 * ((0 : ℕ) : ℝ) - n) * x = -(n * x) by push_cast; ring, Real.sin_neg]
    ring
  linarith

theorem sinc_even (x : ℝ) : Real.sinc (-x) = Real.sinc x := Real.sinc_neg x

theorem abs_sinc_le_one (x : ℝ) : |Real.sinc x| ≤ 1 := by
  exact Real.abs_sinc_le_one x

theorem turbulence_long_fin (u v lam : ℝ) {D r0 : ℝ} (hD : 0 < D) (hr : 0 < r0) (hl : 0 ≤ lam) :
    turbulenceOTF (.fin u) (.fin v) (.fin lam) (.fin D) (.fin r0) 0
      = .fin (Real.exp (-(3.44 * (lam * Real.sqrt (u ^ 2 + v ^ 2) / r0) ^ ((5 : ℝ) / 3)))) := by
  unfold turbulenceOTF
  rw [radial_fin]
  xr_simp
  rw [XR.fin_div _ hr.ne', XR.fin_div _ hD.ne', XR.fin_rpow_nonneg (by positivity) (by norm_num),
    XR.fin_rpow_nonneg (by positivity) (by norm_num)]
  xr_simp
  rw [XR.fin_inj]
  congr 1; ring

theorem turbulence_fin (u v lam a : ℝ) {D r0 : ℝ} (hD : 0 < D) (hr : 0 < r0) (hl : 0 ≤ lam) :
    turbulenceOTF (.fin u) (.fin v) (.fin lam) (.fin D) (.fin r0) (.fin a)
      = .fin (Real.exp (-(3.44 * (lam * Real.sqrt (u ^ 2 + v ^ 2) / r0) ^ ((5 : ℝ) / 3)
          * (1 - a * (lam * Real.sqrt (u ^ 2 + v ^ 2) / D) ^ ((1 : ℝ) / 3))))) := by
  unfold turbulenceOTF
  rw [radial_fin]
  xr_simp
  rw [XR.fin_div _ hr.ne', XR.fin_div _ hD.ne', XR.fin_rpow_nonneg (by positivity) (by norm_num),
    XR.fin_rpow_nonneg (by positivity) (by norm_num)]
  xr_simp
  rw [XR.fin_inj]
  congr 1; ring

theorem wavefrontOTF_fin (u v lam pv : ℝ) {lx ly : ℝ} (hx : lx ≠ 0) (hy : ly ≠ 0) :
    wavefrontOTF (.fin u) (.fin v) (.fin lam) (.fin pv) (.fin lx) (.fin ly)
      = .fin (Real.exp (-(pv * (1 - Real.exp (-(lam ^ 2 * ((u / lx) ^ 2 + (v / ly) ^ 2))))))) := by
  unfold wavefrontOTF
  rw [XR.fin_div _ hx, XR.fin_div _ hy]
  xr_simp
  rw [XR.fin_inj]
  congr 1
  rw [neg_mul, neg_mul]

theorem wavefrontOTF2_fin (u v w : ℝ) {c : ℝ} (hc : c ≠ 0) :
    wavefrontOTF2 (.fin u) (.fin v) (.fin c) (.fin w)
      = .fin (1 - (w / 0.18) ^ 2 * (1 - 4 * (Real.sqrt (u ^ 2 + v ^ 2) / c - 0.5) ^ 2)) := by
  unfold wavefrontOTF2
  xr_simp
  rw [XR.fin_sqrt (by positivity), XR.fin_div _ hc, XR.fin_div _ (by norm_num)]
  xr_simp

theorem hvProfile_fin (w c h : ℝ) :
    hvProfile (.fin w) (.fin c) (.fin h)
      = .fin (5.94e-53 * (w / 27) ^ 2 * h ^ 10 * Real.exp (-h / 1000)
          + 2.7e-16 * Real.exp (-h / 1500) + c * Real.exp (-h / 100)) := by
  unfold hvProfile
  xr_simp
  rw [XR.fin_div _ (by norm_num), XR.fin_div _ (by norm_num), XR.fin_div _ (by norm_num),
    XR.fin_div _ (by norm_num)]
  xr_simp

theorem diffusionParams_fin (al alpha ald : ℝ) (h : 1 + alpha * al ≠ 0) :
    diffusionParams (.fin al) (.fin alpha) (.fin ald)
      = .fin (1 - Real.exp (-(alpha * ald)) / (1 + alpha * al)) := by
  unfold diffusionParams
  xr_simp
  rw [XR.fin_div _ h]
  xr_simp
  rw [neg_mul]

end PyBSM
