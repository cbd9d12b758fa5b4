import Verif.Model.Geospatial
import Verif.Spec.Geometry
import Verif.Lemmas.Scal

noncomputable section

open Classical

namespace PyBSM

open Spec

theorem R_pos : 0 < R := by norm_num [R]
theorem rEarth_eq : rEarth = R := by norm_num [rEarth, R]

/-- squared slant range by the law of cosines -/
def sq2 (ht hs g : ℝ) : ℝ :=
  (R + ht) ^ 2 + (R + hs) ^ 2 - 2 * (R + hs) * (R + ht) * Real.cos (g / R)

theorem sq2_nonneg (ht hs g : ℝ) : 0 ≤ sq2 ht hs g := by
  have := Real.sin_sq_add_cos_sq (g / R)
  have e : sq2 ht hs g = ((R + ht) * Real.sin (g / R)) ^ 2
      + ((R + ht) * Real.cos (g / R) - (R + hs)) ^ 2 := by
    unfold sq2
    linear_combination -(R + ht) ^ 2 * this
  rw [e]; positivity

theorem pdist_pointAt (ht hs g : ℝ) :
    pdist (pointAt hs 0) (pointAt ht g) = Real.sqrt (sq2 ht hs g) := by
  unfold pdist pointAt sq2
  congr 1
  have := Real.sin_sq_add_cos_sq (g / R)
  simp only [zero_div, Real.sin_zero, Real.cos_zero]
  linear_combination (R + ht) ^ 2 * this

theorem pdist_symm (p q : Pt) : pdist p q = pdist q p := by
  unfold pdist; congr 1; ring

theorem pdist_nonneg (p q : Pt) : 0 ≤ pdist p q := Real.sqrt_nonneg _

theorem pdist_sq (p q : Pt) : pdist p q ^ 2 = (p.1 - q.1) ^ 2 + (p.2 - q.2) ^ 2 :=
  Real.sq_sqrt (by positivity)

theorem slant_fin (ht hs g : ℝ) :
    curvedEarthSlantRange (.fin ht) (.fin hs) (.fin g) = .fin (Real.sqrt (sq2 ht hs g)) := by
  have hR : R ≠ 0 := R_pos.ne'
  simp only [curvedEarthSlantRange, rEarth_eq]
  rw [XR.fin_div _ hR]
  xr_simp
  rw [XR.fin_sqrt]
  · rfl
  · exact sq2_nonneg ht hs g

theorem pdist_origin_pointAt {h : ℝ} (hh : 0 ≤ R + h) (g : ℝ) : pdist 0 (pointAt h g) = R + h := by
  unfold pdist pointAt
  have := Real.sin_sq_add_cos_sq (g / R)
  have e : ((0 : Pt).1 - (R + h) * Real.sin (g / R)) ^ 2
      + ((0 : Pt).2 - (R + h) * Real.cos (g / R)) ^ 2 = (R + h) ^ 2 := by
    simp only [Prod.fst_zero, Prod.snd_zero]
    linear_combination (R + h) ^ 2 * this
  rw [e, Real.sqrt_sq hh]

/-- The cosine of the nadir angle. -/
def cosNadir (ht hs b : ℝ) : ℝ :=
  -1 * ((R + ht) ^ 2 - (R + hs) ^ 2 - b ^ 2) / (2 * (R + hs) * b)

theorem cosNadir_eq {ht hs g : ℝ} (ha : 0 < R + hs) (hd : 0 < sq2 ht hs g) :
    cosNadir ht hs (Real.sqrt (sq2 ht hs g))
      = ((R + hs) - (R + ht) * Real.cos (g / R)) / Real.sqrt (sq2 ht hs g) := by
  have hs' : Real.sqrt (sq2 ht hs g) ≠ 0 := (Real.sqrt_pos.mpr hd).ne'
  unfold cosNadir
  rw [Real.sq_sqrt hd.le]
  rw [div_eq_div_iff (by positivity) hs']
  unfold sq2
  ring

theorem cosNadir_bounds {ht hs g : ℝ} (ha : 0 < R + hs) (hd : 0 < sq2 ht hs g) :
    -1 ≤ cosNadir ht hs (Real.sqrt (sq2 ht hs g)) ∧ cosNadir ht hs (Real.sqrt (sq2 ht hs g)) ≤ 1 := by
  rw [cosNadir_eq ha hd]
  have hs' : 0 < Real.sqrt (sq2 ht hs g) := Real.sqrt_pos.mpr hd
  rw [← abs_le, abs_div, abs_of_pos hs', div_le_one hs']
  apply Real.abs_le_sqrt
  have := Real.sin_sq_add_cos_sq (g / R)
  have e : sq2 ht hs g = ((R + ht) * Real.sin (g / R)) ^ 2
      + ((R + hs) - (R + ht) * Real.cos (g / R)) ^ 2 := by
    unfold sq2
    linear_combination -(R + ht) ^ 2 * this
  rw [e]
  nlinarith [sq_nonneg ((R + ht) * Real.sin (g / R))]

theorem nadir_val {ht hs b : ℝ} {sH sS sB : Scal} (h1 : sH.val = .fin ht) (h2 : sS.val = .fin hs)
    (h3 : sB.val = .fin b) (hn : 2 * (R + hs) * b ≠ 0) :
    nadirAngle sH sS sB = .ok (XR.arccos (.fin (cosNadir ht hs b))) := by
  unfold nadirAngle
  simp only [rEarth_eq]
  obtain ⟨c, e1, e2⟩ := Scal.div_fin
    (a := Scal.py (-1) * ((Scal.py (.fin R) + sH) ^ 2 - (Scal.py (.fin R) + sS) ^ 2 - sB ^ 2))
    (b := Scal.py 2 * (Scal.py (.fin R) + sS) * sB)
    (x := -1 * ((R + ht) ^ 2 - (R + hs) ^ 2 - b ^ 2)) (y := 2 * (R + hs) * b)
    (by simp only [Scal.val_mul, Scal.val_sub, Scal.val_add, Scal.val_pow, Scal.val_py, h1, h2, h3]
        xr_simp)
    (by simp only [Scal.val_mul, Scal.val_add, Scal.val_py, h2, h3]; xr_simp) hn
  simp only [e1, bind, Except.bind, e2]
  rfl

/-- Every corner with two different legs has exactly one angle. -/
theorem exists_angle {p q r : Pt} (h1 : pdist q p ≠ 0) (h2 : pdist q r ≠ 0) :
    ∃ φ, IsAngle p q r φ ∧ ∀ φ', IsAngle p q r φ' → φ' = φ := by
  have p1 : 0 < pdist q p := lt_of_le_of_ne (pdist_nonneg _ _) (Ne.symm h1)
  have p2 : 0 < pdist q r := lt_of_le_of_ne (pdist_nonneg _ _) (Ne.symm h2)
  have hp : 0 < pdist q p * pdist q r := mul_pos p1 p2
  have hcs : |dot (p - q) (r - q)| ≤ pdist q p * pdist q r := by
    apply abs_le_of_sq_le_sq _ hp.le
    rw [mul_pow, pdist_sq, pdist_sq]
    simp only [dot, Prod.fst_sub, Prod.snd_sub]
    nlinarith [sq_nonneg ((p.1 - q.1) * (r.2 - q.2) - (p.2 - q.2) * (r.1 - q.1))]
  have hb : |dot (p - q) (r - q) / (pdist q p * pdist q r)| ≤ 1 := by
    rw [abs_div, abs_of_pos hp, div_le_one hp]; exact hcs
  obtain ⟨l, u⟩ := abs_le.mp hb
  have hc : Real.cos (Real.arccos (dot (p - q) (r - q) / (pdist q p * pdist q r)))
      * (pdist q p * pdist q r) = dot (p - q) (r - q) := by
    rw [Real.cos_arccos l u, div_mul_cancel₀ _ hp.ne']
  refine ⟨_, ⟨Real.arccos_nonneg _, Real.arccos_le_pi _, hc⟩, ?_⟩
  rintro φ' ⟨a, b, c⟩
  apply Real.injOn_cos ⟨a, b⟩ ⟨Real.arccos_nonneg _, Real.arccos_le_pi _⟩
  exact mul_right_cancel₀ hp.ne' (c.trans hc.symm)

end PyBSM
