import Verif.Spec.Ieee
import Verif.Lemmas.Ieee
import Verif.Props.RoundedSpectra
import Mathlib.Analysis.Complex.ExponentialBounds

/-!
# C105: ordinary cameras and scenes neither overflow nor underflow

The bounds of C93 and C94 allow every operation a relative error; that is what doubles give between 1e-308 and 1e308. Here:
the computations of ordinary cameras and scenes stay in that range. Outside, the Planck function of a cold body at a short
wavelength overflows and is computed as zero.
-/

noncomputable section

open Classical

namespace PyBSM

open Spec

/-! ## The steps -/

theorem Spec.PowerRange.mag {a b : ℤ} {x : ℝ} (h : PowerRange a b x) : Mag a b x := Mag.of_pos h.1 h.2

theorem Spec.PowerRange.pos {a b : ℤ} {x : ℝ} (h : PowerRange a b x) : 0 < x := lt_of_lt_of_le (two_pow_pos a) h.1

theorem Spec.ZeroOr.mag {a b : ℤ} {x : ℝ} (h : ZeroOr a b x) : Mag a b x := by
  rcases h with h | h
  · exact Or.inl h
  · exact h.mag

theorem Spec.ZeroOr.nonneg {a b : ℤ} {x : ℝ} (h : ZeroOr a b x) : 0 ≤ x := by
  rcases h with h | h
  · exact h.ge
  · exact h.pos.le

theorem Spec.PowerRange.sized {a b : ℤ} {x : ℝ} (h : PowerRange a b x) : (Expr.val x).Sized a b := .val h.mag h.pos.le

theorem Spec.ZeroOr.sized {a b : ℤ} {x : ℝ} (h : ZeroOr a b x) : (Expr.val x).Sized a b := .val h.mag h.nonneg

theorem Spec.ZeroOr.sized_lit {a b : ℤ} {x : ℝ} (h : ZeroOr a b x) (ho : -1021 ≤ a ∧ b ≤ 1022 := by norm_num) :
    (Expr.lit x).Sized a b := .lit h.mag h.nonneg ho

theorem sized_sq {a b : ℤ} {x : ℝ} (h : ZeroOr a b |x|) {l m : ℤ}
    (ho : l ≤ a + a ∧ b + b ≤ m ∧ -1021 ≤ l ∧ m ≤ 1022 := by norm_num) : (Expr.lit (x ^ 2)).Sized l m := by
  have h1 := (h.mag.mul h.mag).mono ho.1 ho.2.1
  rw [abs_mul_abs_self, ← pow_two] at h1
  exact .lit h1 (sq_nonneg _) ⟨ho.2.2.1, ho.2.2.2⟩

theorem sized_pi : (Expr.lit Real.pi).Sized 1 2 := by
  have h1 := Real.pi_gt_three
  have h2 := Real.pi_lt_four
  exact .lit (Mag.of_pos (by norm_num; linarith) (by norm_num; linarith)) Real.pi_pos.le

theorem sized_hC : (Expr.lit hC).Sized (-111) (-110) := by
  have h : (0 : ℝ) < hC := by unfold hC; norm_num
  refine .lit (Mag.of_pos ?_ ?_) h.le
  · unfold hC; norm_num
  · unfold hC; norm_num

theorem sized_cC : (Expr.lit cC).Sized 28 29 := by
  have h : (0 : ℝ) < cC := by unfold cC; norm_num
  refine .lit (Mag.of_pos ?_ ?_) h.le
  · unfold cC; norm_num
  · unfold cC; norm_num

theorem sized_kC : (Expr.lit kC).Sized (-76) (-75) := by
  have h : (0 : ℝ) < kC := by unfold kC; norm_num
  refine .lit (Mag.of_pos ?_ ?_) h.le
  · unfold kC; norm_num
  · unfold kC; norm_num

theorem planckArgExpr_exact (lam T : ℝ) : (planckArgExpr lam T).exact = planckArg lam T := by
  simp only [planckArgExpr, Expr.exact, planckArg, hC_eq, cC_eq, kC_eq]

theorem sized_planckArg {lam T : ℝ} (hl : PowerRange (-22) (-16) lam) (h1 : 1 ≤ T) (h2 : T ≤ 16384) :
    (planckArgExpr lam T).Sized (-6) 17 := by
  have hT : (Expr.val T).Sized 0 14 := .val (Mag.of_pos (by rw [zpow_zero]; exact h1) (by norm_num; exact h2)) (by linarith)
  refine .div (a := -83) (b := -81) (c := -98) (d := -77) (.mul sized_hC sized_cC) (.mul (a := -98) (b := -91) ?_ hT)
  exact .mul hl.sized sized_kC

/-- `exp X ≤ 2^m`. -/
theorem exp_le_two_pow {x : ℝ} {m : ℕ} (h : x ≤ 0.6931471803 * m) : Real.exp x ≤ (2 : ℝ) ^ (m : ℤ) := by
  rw [zpow_natCast, ← Real.exp_log (by norm_num : (0 : ℝ) < 2), ← Real.exp_nat_mul]
  apply Real.exp_le_exp.mpr
  have := Real.log_two_gt_d9
  have hm : (0 : ℝ) ≤ m := Nat.cast_nonneg m
  nlinarith

theorem sized_five {lam : ℝ} (hl : PowerRange (-22) (-16) lam) : (Expr.lit (lam ^ 5)).Sized (-110) (-80) := by
  have e : ∀ k : ℤ, ((2 : ℝ) ^ k) ^ 5 = (2 : ℝ) ^ (k * 5) := fun k => by rw [← zpow_natCast, ← zpow_mul]; norm_num
  refine .lit (Mag.of_pos ?_ ?_) (pow_nonneg hl.pos.le _)
  · have := pow_le_pow_left₀ (two_pow_pos _).le hl.1 5
    rw [e] at this
    exact this
  · have := pow_le_pow_left₀ hl.pos.le hl.2 5
    rw [e] at this
    exact this

theorem sized_blackbody' {lam T : ℝ} (hl : PowerRange (-22) (-16) lam) (h1 : 1 ≤ T) (h2 : T ≤ 16384) {m : ℕ} (hm : m ≤ 1000)
    (hx : planckArg lam T ≤ 0.6931471803 * m) (hm17 : 17 ≤ m) : (blackbodyExpr lam T).Sized (26 - m) 65 := by
  have hX := sized_planckArg hl h1 h2
  have hpos := planckArg_pos hl.pos (by linarith : 0 < T)
  have hE : (Expr.exp (planckArgExpr lam T)).Sized 0 m := by
    refine .exp hX ?_ ?_ (by omega)
    · simp only [planckArgExpr, Expr.weight]; norm_num
    · rw [planckArgExpr_exact]; exact exp_le_two_pow hx
  have hS : (Expr.sub (.exp (planckArgExpr lam T)) (.val 1)).Sized (-6) m := by
    refine .sub hE (c := 0) (d := 0) (.val (Mag.of_pos (by norm_num) (by norm_num)) zero_le_one) ?_ ⟨le_rfl, by norm_num, by omega⟩
    have h3 := (hX.2.1.pos (by rw [planckArgExpr_exact]; exact hpos)).1
    have h4 := Real.add_one_le_exp (planckArgExpr lam T).exact
    show _ ≤ Real.exp (planckArgExpr lam T).exact - 1
    linarith
  have one : (Expr.val 1).Sized 0 0 := .val (Mag.of_pos (by norm_num) (by norm_num)) zero_le_one
  have two : (Expr.val 2).Sized 1 1 := .val (Mag.of_pos (by norm_num) (by norm_num)) zero_le_two
  have five := sized_five hl
  have hnum : (Expr.mul (.mul (.val 2) (.lit hC)) (.sq (.lit cC))).Sized (-54) (-51) :=
    .mul (a := -110) (b := -109) (c := 56) (d := 58) (.mul two sized_hC) (.mul sized_cC sized_cC)
  refine .mul (a := 26) (b := 59) (c := -m) (d := 6) (.div hnum five) ?_ ⟨by omega, by norm_num, by omega, by norm_num⟩
  exact .div one hS ⟨by omega, by norm_num, by omega, by norm_num⟩

theorem sized_blackbody {lam T : ℝ} (hl : PowerRange (-22) (-16) lam) (h : Warm lam T) : (blackbodyExpr lam T).Sized (-718) 65 :=
  (sized_blackbody' (m := 744) hl h.1 h.2.1 (by norm_num) (h.2.2.trans (by norm_num)) (by norm_num)).mono

theorem blackbody_pos {lam T : ℝ} (hl : PowerRange (-22) (-16) lam) (hT : 1 ≤ T) : 0 < (blackbodyExpr lam T).exact := by
  have e : (blackbodyExpr lam T).exact = planck lam T := by
    simp only [blackbodyExpr, Expr.sq, Expr.exact, planckArgExpr_exact, planck, hC_eq, cC_eq, planckArg]
    ring
  have := exp_sub_one_pos hl.pos (by linarith : 0 < T)
  have := planckH_pos; have := lightC_pos
  have := hl.pos
  rw [e]
  unfold planck
  positivity

theorem sized_aperture {D f : ℝ} (hD : PowerRange (-20) 10 D) (h1 : D ≤ 2 * f) (h2 : f ≤ 128 * D) :
    (Expr.mul (.val 4) (.sq (.div (.val f) (.val D)))).Sized 0 16 := by
  have hp := hD.pos
  have four : (Expr.val 4).Sized 2 2 := .val (Mag.of_pos (by norm_num) (by norm_num)) (by norm_num)
  have hf : (Expr.val f).Sized (-21) 17 := by
    obtain ⟨a, b⟩ := hD
    norm_num at a b
    refine .val (Mag.of_pos ?_ ?_) (by linarith)
    · norm_num; linarith
    · norm_num; linarith
  have hq : (Expr.div (.val f) (.val D)).Sized (-1) 7 := by
    have h0 := Expr.Sized.div (l := -31) (m := 37) hf hD.sized
    have k1 : (2 : ℝ) ^ (-1 : ℤ) ≤ f / D := by
      rw [le_div_iff₀ hp]; norm_num; linarith
    have k2 : f / D ≤ (2 : ℝ) ^ (7 : ℤ) := by
      rw [div_le_iff₀ hp]; norm_num; linarith
    exact ⟨h0.1, Mag.of_pos k1 k2, h0.2.2⟩
  exact .mul four (c := -2) (d := 14) (.mul hq hq)

theorem sized_irradiance {D f : ℝ} (hD : PowerRange (-20) 10 D) (h1 : D ≤ 2 * f) (h2 : f ≤ 128 * D) {L : Expr} {a b l m : ℤ}
    (hL : L.Sized a b) (ho : l ≤ a - 16 ∧ b + 2 ≤ m ∧ -1021 ≤ l ∧ m ≤ 1022 := by norm_num) : (irradianceExpr D f L).Sized l m := by
  have one : (Expr.val 1).Sized 0 0 := .val (Mag.of_pos (by norm_num) (by norm_num)) zero_le_one
  have hden : (Expr.add (.val 1) (.mul (.val 4) (.sq (.div (.val f) (.val D))))).Sized 0 17 :=
    .add one (sized_aperture hD h1 h2) (by simp [Expr.exact])
  exact .div (a := a + 1) (b := b + 2) (.mul hL sized_pi ⟨le_rfl, le_rfl, by omega, by omega⟩) hden
    ⟨by omega, by omega, by omega, by omega⟩

theorem sized_shield {lam T D f : ℝ} (hl : PowerRange (-22) (-16) lam) (hT : Warm lam T) (hD : PowerRange (-20) 10 D) (h1 : D ≤ 2 * f)
    (h2 : f ≤ 128 * D) : (shieldExpr lam T D f).Sized (-718) 67 := by
  have one : (Expr.val 1).Sized 0 0 := .val (Mag.of_pos (by norm_num) (by norm_num)) zero_le_one
  have hA := sized_aperture hD h1 h2
  have hA1 : (1 : ℝ) ≤ (Expr.mul (.val 4) (.sq (.div (.val f) (.val D)))).exact := by
    have hp := hD.pos
    have : (1 : ℝ) / 2 ≤ f / D := by rw [le_div_iff₀ hp]; linarith
    simp only [Expr.sq, Expr.exact]
    nlinarith
  have hden : (Expr.add (.mul (.val 4) (.sq (.div (.val f) (.val D)))) (.val 1)).Sized 0 17 :=
    .add hA one (by linarith)
  have hq : (Expr.div (.lit Real.pi) (.add (.mul (.val 4) (.sq (.div (.val f) (.val D)))) (.val 1))).Sized (-16) 2 :=
    .div sized_pi hden
  refine .mul (a := 0) (b := 2) ?_ (sized_blackbody hl hT)
  refine .sub sized_pi hq ?_
  show _ ≤ Real.pi - Real.pi / ((Expr.mul (.val 4) (.sq (.div (.val f) (.val D)))).exact + 1)
  have hpi := Real.pi_gt_three
  generalize (Expr.mul (.val 4) (.sq (.div (.val f) (.val D)))).exact = z at hA1
  have : Real.pi / (z + 1) ≤ Real.pi / 2 := div_le_div_of_nonneg_left Real.pi_pos.le (by norm_num) (by linarith)
  rw [zpow_zero]
  linarith

theorem shield_pos {lam T D f : ℝ} (hl : PowerRange (-22) (-16) lam) (hT : Warm lam T) (hD : PowerRange (-20) 10 D) (h1 : D ≤ 2 * f) :
    0 < (shieldExpr lam T D f).exact := by
  have hp := hD.pos
  have hb := blackbody_pos hl hT.1
  have : 0 < f / D := div_pos (by linarith) hp
  have hpi := Real.pi_pos
  simp only [shieldExpr, Expr.sq, Expr.exact]
  apply mul_pos _ hb
  rw [sub_pos]
  apply div_lt_self hpi
  nlinarith

theorem sized_interp {tbl : List (ℝ × ℝ)} (h : PlainTable tbl) {x : ℝ} (hx : PowerRange (-22) (-16) x) (hs : ∀ p ∈ tbl, Spaced (-100) x p.1) :
    (interpExpr x tbl).Sized (-30) 0 := by
  have zero : (Expr.val 0).Sized (-30) 0 := .val (Or.inl rfl) le_rfl
  have mag : ∀ {x y : ℝ}, Spaced (-100) x y → 0 ≤ x → x ≤ 1 → 0 ≤ y → y ≤ 1 → Mag (-200) 200 (x - y) := by
    intro x y h h1 h2 h3 h4
    rcases h with h | h
    · left; linarith
    · refine Mag.mono (a := -100) (b := 0) (Or.inr ⟨h, ?_⟩) (by norm_num) (by norm_num)
      rw [zpow_zero, abs_le]
      constructor <;> linarith
  have le1 : ∀ {a : ℤ} {x : ℝ}, PowerRange a 0 x → x ≤ 1 := fun h => by simpa using h.2
  have hx1 : x ≤ 1 := hx.2.trans (by norm_num)
  induction tbl with
  | nil => exact zero
  | cons p t ih =>
    obtain ⟨a, ya⟩ := p
    obtain ⟨ha, hya, hrest⟩ := h (a, ya) (by simp)
    cases t with
    | nil =>
      unfold interpExpr
      split_ifs
      · exact hya.sized
      · exact zero
    | cons q t =>
      obtain ⟨b, yb⟩ := q
      obtain ⟨hb, hyb, hrest'⟩ := h (b, yb) (by simp)
      unfold interpExpr
      split_ifs with h1 h2 h3
      · exact zero
      · exact hya.sized
      · have hax : a < x := lt_of_le_of_ne (not_lt.mp h1) (Ne.symm h2)
        have hw : 0 < b - a := by linarith
        obtain ⟨y1, y2⟩ := hya
        obtain ⟨z1, z2⟩ := hyb
        simp only at y1 y2 z1 z2
        have p30 := two_pow_pos (-30)
        have e : (yb - ya) / (b - a) * (x - a) + ya = ya + (yb - ya) * ((x - a) / (b - a)) := by field_simp; ring
        have t0 : 0 ≤ (x - a) / (b - a) := div_nonneg (by linarith) hw.le
        have t1 : (x - a) / (b - a) ≤ 1 := by rw [div_le_one hw]; linarith
        have k1 : (2 : ℝ) ^ (-30 : ℤ) ≤ (yb - ya) / (b - a) * (x - a) + ya := by
          rw [e]; generalize (x - a) / (b - a) = w at *; generalize (2 : ℝ) ^ (-30 : ℤ) = c at *; nlinarith
        have k2 : (yb - ya) / (b - a) * (x - a) + ya ≤ (2 : ℝ) ^ (0 : ℤ) := by
          rw [e]; generalize (x - a) / (b - a) = w at *; generalize (2 : ℝ) ^ (0 : ℤ) = c at *; nlinarith
        have hm : Mag (-30) 0 ((yb - ya) / (b - a) * (x - a) + ya) := Mag.of_pos k1 k2
        refine ⟨⟨?_, ?_, ?_, hm.mono (by norm_num) (by norm_num)⟩, hm, by show 0 ≤ (yb - ya) / (b - a) * (x - a) + ya; linarith⟩
        · exact mag (hrest' (a, ya) (by simp)).2 (by linarith) (by simpa using z2) (by linarith) (by simpa using y2)
        · exact mag (hrest' (a, ya) (by simp)).1 hb.pos.le (le1 hb) ha.pos.le (le1 ha)
        · exact mag (hs (a, ya) (by simp)) hx.pos.le hx1 ha.pos.le (le1 ha)
      · refine ih (fun p hp => ?_) fun p hp => hs p (List.mem_cons_of_mem _ hp)
        obtain ⟨c1, c2, c3⟩ := h p (List.mem_cons_of_mem _ hp)
        exact ⟨c1, c2, fun q hq => c3 q (List.mem_cons_of_mem _ hq)⟩

theorem sized_radiance {a : Fin 6 → ℝ} (h0 : PowerRange (-22) (-16) (a 0)) (ha : PlainRow a) {ρ T : ℝ} (hρ : PlainReflectance ρ)
    (hT : Warm (a 0) T) : (radianceExpr a ρ T).Sized (-927) 68 := by
  have hb := sized_blackbody h0 hT
  obtain ⟨a1, a2, a4, a5⟩ := ha
  have h15 : (Expr.lit 0.15).Sized (-3) (-2) := .lit (Mag.of_pos (by norm_num) (by norm_num)) (by norm_num)
  refine .add' (a := -927) (b := 67) (c := -209) (d := 43) ?_ (.mul a5.sized (c := -60) (d := 3) (.div hρ.1.sized h15))
  refine .add' (a := -927) (b := 66) ?_ a4.sized
  refine .add' a2.sized (c := -927) (d := 65) ?_
  exact .mul (a := -778) (b := 65) (.mul hρ.2.sized_lit hb) a1.sized

/-! ## The camera -/

section

variable {s : RealSensor} {n : ℕ} {wl : ℕ → ℝ} (hs : s.Ordinary n wl) (hf : s.D ≤ 2 * s.f)
include hs

theorem sized_trans {i : ℕ} (hi : i < n) : ((s.computed wl).transmission i).Sized (-60) 0 := by
  have one : (Expr.val 1).Sized 0 0 := .val (Mag.of_pos (by norm_num) (by norm_num)) zero_le_one
  refine .mul (a := -30) (b := 0) (c := -30) (d := 0) ?_
    (sized_interp hs.transmission (hs.wavelengths i hi) fun p hp => hs.offTable i hi p (List.mem_append_left _ hp))
  refine .mul hs.coldFilter.sized (c := -10) (d := 0) ?_
  exact .sub one (sized_sq (l := -200) (m := 0) hs.obscuration.1) hs.obscuration.2

theorem sized_efficiency {i : ℕ} (hi : i < n) : ((s.computed wl).efficiency i).Sized (-30) 0 :=
  sized_interp hs.efficiency (hs.wavelengths i hi) fun p hp => hs.offTable i hi p (List.mem_append_right _ hp)

include hf

theorem sized_emission {i : ℕ} (hi : i < n) : ((s.computed wl).emission i).Sized (-718) 69
    ∧ 0 < ((s.computed wl).emission i).exact := by
  obtain ⟨t1, t2, t3⟩ := hs.temperatures i hi
  have hw := hs.wavelengths i hi
  have p := shield_pos hw t1 hs.aperture hf
  have h2 : (opticsExpr (wl i) s.opticsTemperature s.opticsEmissivity s.coldFilterTransmission s.D s.f).Sized (-784) 67 :=
    sized_irradiance hs.aperture hf hs.focal (a := -768) (b := 65)
      (.mul (a := -50) (b := 0) (.mul hs.coldFilter.sized hs.opticsEmissivity.sized) (sized_blackbody hw t2))
  have h3 : (stopExpr (wl i) s.coldFilterTemperature s.coldFilterEmissivity s.D s.f).Sized (-764) 67 :=
    sized_irradiance hs.aperture hf hs.focal (a := -748) (b := 65) (.mul hs.filterEmissivity.sized (sized_blackbody hw t3))
  have p' : 0 < (Expr.add (shieldExpr (wl i) s.coldShieldTemperature s.D s.f)
      (opticsExpr (wl i) s.opticsTemperature s.opticsEmissivity s.coldFilterTransmission s.D s.f)).exact :=
    add_pos_of_pos_of_nonneg p h2.2.2
  exact ⟨.add (a := -718) (b := 68) (.add (sized_shield hw t1 hs.aperture hf hs.focal) h2 p) h3 p',
    add_pos_of_pos_of_nonneg p' h3.2.2⟩

theorem sized_nominal (hinc : ∀ i, i + 1 < n → wl i ≤ wl (i + 1)) {L : ℕ → Expr} (hL : ∀ i < n, (L i).Sized (-927) 68) {order : SumTree}
    (ho : order.leaves.Perm (List.range (n - 1))) : (s.nominalExpr order (s.computed wl) wl L).Sized (-855) 142 := by
  have hE : ∀ i < n, (fpaExpr s.D s.f (L i) ((s.computed wl).transmission i) ((s.computed wl).emission i)).Sized (-718) 71 := by
    intro i hi
    obtain ⟨h1, h2⟩ := sized_emission hs hf hi
    refine .add₂ (a := -1003) (b := 70) (.mul (sized_trans hs hi) (c := -943) (d := 70) ?_) h1 h2
    exact sized_irradiance hs.aperture hf hs.focal (hL i hi)
  have hD : ∀ i < n, (detectionExpr s.wX s.wY (wl i) ((s.computed wl).efficiency i)
      (fpaExpr s.D s.f (L i) ((s.computed wl).transmission i) ((s.computed wl).emission i))).Sized (-749) 126 := by
    intro i hi
    refine .mul (a := -31) (b := 55) ?_ (hE i hi)
    refine .mul (a := -1) (b := 61) ?_ hs.height.sized
    refine .mul (a := 29) (b := 67) ?_ hs.width.sized
    refine .mul (a := 59) (b := 67) ?_ (sized_efficiency hs hi)
    exact .div (hs.wavelengths i hi).sized (c := -83) (d := -81) (.mul sized_hC sized_cC)
  have hsum : (order.expr (trapTermExpr wl fun i => detectionExpr s.wX s.wY (wl i) ((s.computed wl).efficiency i)
      (fpaExpr s.D s.f (L i) ((s.computed wl).transmission i) ((s.computed wl).emission i)))).Sized (-825) 121 := by
    have two : (Expr.val 2).Sized 1 1 := .val (Mag.of_pos (by norm_num) (by norm_num)) zero_le_two
    refine sized_sum order (a := -825) (b := 110) (fun i hi => ?_) ?_
    · have hi' : i < n - 1 := List.mem_range.mp ((ho.mem_iff).mp hi)
      refine .div (a := -824) (b := 111) (.mul (a := -75) (b := -16) (c := -749) (d := 127) ?_ ?_) two
      · have h1 := hinc i (by omega)
        have h2 := hs.wavelengths (i + 1) (by omega)
        have h3 := hs.wavelengths i (by omega)
        have h4 := h3.pos
        refine .lit ?_ (sub_nonneg.mpr h1)
        rcases hs.steps i (by omega) with h | h
        · left; linarith
        · refine Or.inr ⟨h, ?_⟩
          rw [abs_of_nonneg (sub_nonneg.mpr h1)]
          exact (sub_le_self _ h4.le).trans h2.2
      · exact .add' (hD (i + 1) (by omega)) (hD i (by omega))
    · rw [ho.length_eq, List.length_range]
      have := hs.samples
      omega
  refine .mul (a := -855) (b := 132) (.mul (a := -825) (b := 122) ?_ hs.time.sized) hs.stages.sized
  exact .add' hsum hs.dark.sized

end

theorem sized_levels {b : ℝ} (h : 1 ≤ b ∧ b ≤ 64) : (Expr.val ((2 : ℝ) ^ b - 1)).Sized 0 64 := by
  have h1 : (2 : ℝ) ^ (1 : ℝ) ≤ (2 : ℝ) ^ b := Real.rpow_le_rpow_of_exponent_le (by norm_num) h.1
  have h2 : (2 : ℝ) ^ b ≤ (2 : ℝ) ^ (64 : ℝ) := Real.rpow_le_rpow_of_exponent_le (by norm_num) h.2
  rw [Real.rpow_one] at h1
  have e : (2 : ℝ) ^ (64 : ℝ) = (2 : ℝ) ^ (64 : ℤ) := by
    rw [show (64 : ℝ) = ((64 : ℤ) : ℝ) by norm_num, Real.rpow_intCast]
  rw [e] at h2
  refine .val (Mag.of_pos ?_ ?_) (by linarith)
  · rw [zpow_zero]; linarith
  · linarith

/-- Below the normal range the error is at most half of the smallest double. -/
theorem RoundsIeee.subnormal {fl : ℝ → XR} (hfl : RoundsIeee fl) {x : ℝ} (h : |x| < (2 : ℝ) ^ (-1022 : ℤ)) :
    ∃ y, fl x = .fin y ∧ |y - x| ≤ (2 : ℝ) ^ (-1075 : ℤ) := by
  have hp := two_pow_pos (-1074)
  have e52 := pow_split 52 (by norm_num : (-1022 : ℤ) = (52 : ℕ) + -1074)
  have e1 := pow_split 1 (by norm_num : (-1074 : ℤ) = (1 : ℕ) + -1075)
  have hx : |x| < overflowAt := by
    have h1 : IsBinary64 ((2 : ℝ) ^ (-1022 : ℤ)) := ⟨1, -1022, by norm_num, by norm_num, by norm_num, by simp⟩
    have := h1.lt_overflow
    rw [abs_of_pos (two_pow_pos _)] at this
    exact h.trans this
  obtain ⟨y, h1, -, h3⟩ := hfl.finite x hx
  refine ⟨y, h1, ?_⟩
  generalize (2 : ℝ) ^ (-1022 : ℤ) = A at *
  generalize hB : (2 : ℝ) ^ (-1074 : ℤ) = B at *
  generalize (2 : ℝ) ^ (-1075 : ℤ) = C at *
  have hr : |x / B - round (x / B)| ≤ 1 / 2 := abs_sub_round _
  have ht : |x / B| ≤ 2 ^ 52 := by
    rw [abs_div, abs_of_pos hp, div_le_iff₀ hp]
    linarith
  have hk : |round (x / B)| < 2 ^ 53 := by
    have h4 : |((round (x / B) : ℤ) : ℝ)| ≤ 2 ^ 52 + 1 / 2 := by
      have := abs_sub_abs_le_abs_sub ((round (x / B) : ℤ) : ℝ) (x / B)
      rw [abs_sub_comm] at this
      linarith
    have h5 : |((round (x / B) : ℤ) : ℝ)| < 2 ^ 53 := lt_of_le_of_lt h4 (by norm_num)
    exact_mod_cast h5
  refine (h3 (round (x / B) * B) ⟨round (x / B), -1074, hk, le_rfl, by norm_num, by rw [hB]⟩).trans ?_
  have e : (round (x / B) : ℝ) * B - x = -((x / B - round (x / B)) * B) := by field_simp; ring
  rw [e, abs_neg, abs_mul, abs_of_pos hp]
  have := mul_le_mul_of_nonneg_right hr hp.le
  linarith

theorem eval_near (fl : ℝ → XR) {e : Expr} (hp : e.Pos ulp) : Near ulp e.weight (e.eval (flat fl)) e.exact :=
  (Expr.eval_computed ulp_nonneg ulp_lt_one (flat_rnd fl) hp).near ulp_nonneg ulp_lt_one hp

/-- A product within the range is a double. -/
theorem mul_binary64 {fl : ℝ → XR} (hfl : RoundsIeee fl) {e f : Expr} (hp : (Expr.mul e f).Pos ulp)
    (hw : (Expr.mul e f).weight * ulp ≤ 1 / 2) (hr : (Expr.mul e f).InRange) : IsBinary64 ((Expr.mul e f).eval (flat fl)) := by
  have u0 := ulp_nonneg
  have u1 := ulp_lt_one
  have hz : (Expr.mul e f).Computed ulp (e.eval (flat fl) * f.eval (flat fl)) :=
    .mul (Expr.eval_computed u0 u1 (flat_rnd fl) hp.1) (Expr.eval_computed u0 u1 (flat_rnd fl) hp.2) (rnd_self _ _ u0)
  exact flat_binary64 hfl (near_mag (hz.near u0 u1 hp) hp.nonneg hw hr.2.2)

/-- The last two operations, contrast and ratio. -/
theorem snr_ieee {fl : ℝ → XR} (hfl : RoundsIeee fl) {a b noise : Expr} (pa : a.Pos ulp) (pb : b.Pos ulp) (pn : noise.Pos ulp)
    (wa : a.weight * ulp ≤ 1 / 2) (wb : b.weight * ulp ≤ 1 / 2) (wn : noise.weight * ulp ≤ 1 / 2) {l m : ℤ}
    (ra : a.Sized l 142) (rb : b.Sized l 142) (rn : noise.Sized (-66) m) (hN : 0 < noise.exact)
    (ba : IsBinary64 (a.eval (flat fl))) (bb : IsBinary64 (b.eval (flat fl))) :
    ∃ r r', snrIeee fl a b noise = .fin r ∧ SnrComputed ulp a b noise r' ∧ |r - r'| ≤ (2 : ℝ) ^ (-1075 : ℤ) := by
  have u0 := ulp_nonneg
  have u1 := ulp_lt_one
  have cx := Expr.eval_computed u0 u1 (flat_rnd fl) pa
  have cy := Expr.eval_computed u0 u1 (flat_rnd fl) pb
  have cn := Expr.eval_computed u0 u1 (flat_rnd fl) pn
  have mx := (near_mag (eval_near fl pa) pa.nonneg wa ra.2.1).le
  have my := (near_mag (eval_near fl pb) pb.nonneg wb rb.2.1).le
  have mn := near_mag (eval_near fl pn) pn.nonneg wn rn.2.1
  have hn : 0 < noise.eval (flat fl) := by
    have h1 := (eval_near fl pn).1
    have h2 : 0 < (1 - ulp) ^ noise.weight := pow_pos (by linarith) _
    exact lt_of_lt_of_le (mul_pos hN h2) h1
  have hn' := (mn.pos hn).1
  unfold snrIeee
  rw [Expr.ieee_eval hfl pa wa ra.1, Expr.ieee_eval hfl pb wb rb.1, Expr.ieee_eval hfl pn wn rn.1, XR.fin_sub]
  generalize a.eval (flat fl) = x at *
  generalize b.eval (flat fl) = y at *
  generalize noise.eval (flat fl) = k at *
  have hxy : |x - y| ≤ (2 : ℝ) ^ (144 : ℤ) := by
    have e := pow_split 1 (by norm_num : (144 : ℤ) = (1 : ℕ) + 143)
    norm_num only at mx my
    have := abs_sub x y
    rw [e]
    linarith
  obtain ⟨c, hc, hrc, hcm⟩ : ∃ c, fl (x - y) = .fin c ∧ Rnd ulp (x - y) c ∧ |c| ≤ (2 : ℝ) ^ (145 : ℤ) := by
    rcases le_or_gt ((2 : ℝ) ^ (-1022 : ℤ)) |x - y| with h | h
    · obtain ⟨c, h1, -, h3⟩ := hfl.rnd h (hxy.trans (two_pow_le (by norm_num)))
      exact ⟨c, h1, h3, (Mag.rnd (Or.inr ⟨h, hxy⟩) h3).le⟩
    · exact ⟨x - y, hfl.exact (ba.sub bb h.le), rnd_self _ _ u0, hxy.trans (two_pow_le (by norm_num))⟩
  rw [show (XR.fin (x - y)).through fl = fl (x - y) from rfl, hc, XR.fin_div _ hn.ne']
  show ∃ r r', fl (c / k) = .fin r ∧ _
  have hq : |c / k| ≤ (2 : ℝ) ^ (1023 : ℤ) := by
    have h1 : |c / k| ≤ (2 : ℝ) ^ (145 : ℤ) / (2 : ℝ) ^ (-66 - 1 : ℤ) := by
      rw [abs_div, abs_of_pos hn]
      exact div_le_div₀ (two_pow_pos _).le hcm (two_pow_pos _) hn'
    rw [← zpow_sub₀ two_ne_zero] at h1
    exact h1.trans (two_pow_le (by norm_num))
  rcases le_or_gt ((2 : ℝ) ^ (-1022 : ℤ)) |c / k| with h | h
  · obtain ⟨r, h1, -, h3⟩ := hfl.rnd h hq
    exact ⟨r, r, h1, ⟨x, y, k, c, cx, cy, cn, hrc, h3⟩, by rw [sub_self, abs_zero]; exact (two_pow_pos _).le⟩
  · obtain ⟨r, h1, h3⟩ := hfl.subnormal h
    exact ⟨r, c / k, h1, ⟨x, y, k, c, cx, cy, cn, hrc, rnd_self _ _ u0⟩, h3⟩

/-! ## The property -/

/-- **C105** (`blackbody_radiance`). From 0.24 µm to 15 µm, from 1 K to 16384 K and for Planck exponents `X = h c / (λ k T)` up
to 690 the radiance computed in double precision is finite and has a relative error of at most `K u / (1 - K u)`,
`u = 2^-53`, `K` at least `56 X + 132 + 16 / X`. -/
theorem C105_blackbody {fl : ℝ → XR} (hfl : RoundsIeee fl) {lam T : ℝ} (hl : PowerRange (-22) (-16) lam) (hT1 : 1 ≤ T)
    (hT2 : T ≤ 16384) (hX : planckArg lam T ≤ 690) {K : ℕ} (hK : PlanckWithin K lam T) (hKu : K ≤ 2 ^ 52) :
    ∃ r b, (blackbodyExpr lam T).ieee fl = .fin r ∧ blackbody (.fin lam) (.fin T) = .fin b ∧ 0 < b
      ∧ |r - b| ≤ K * (2 : ℝ) ^ (-53 : ℤ) / (1 - K * (2 : ℝ) ^ (-53 : ℤ)) * b := by
  have hK' : (K : ℝ) * ulp ≤ 1 / 2 := by
    have : (K : ℝ) ≤ 2 ^ 52 := by exact_mod_cast hKu
    rw [ulp_eq]
    linarith
  have hT : 0 < T := by linarith
  obtain ⟨p, w, -⟩ := blackbodyExpr_spec ulp_nonneg hl.pos hT hK (by linarith)
  have hr := (sized_blackbody' (m := 996) hl hT1 hT2 (by norm_num) (hX.trans (by norm_num)) (by norm_num)).1
  have hw := Expr.half w hK'
  obtain ⟨b, h1, h2, h3⟩ := C94_blackbody ulp_nonneg hl.pos hT hK (by linarith)
    (Expr.eval_computed ulp_nonneg ulp_lt_one (flat_rnd fl) p)
  exact ⟨_, b, Expr.ieee_eval hfl p hw hr, h1, h2, h3⟩

/-- **C105** (cold bodies). For Planck exponents from 711 on the exponential overflows and the radiance is computed as zero,
though it is positive. -/
theorem C105_cold {fl : ℝ → XR} (hfl : RoundsIeee fl) {lam T : ℝ} (hl : PowerRange (-22) (-16) lam) (hT1 : 1 ≤ T) (hT2 : T ≤ 16384)
    (hX : 711 ≤ planckArg lam T) :
    (blackbodyExpr lam T).ieee fl = .fin 0 ∧ ∃ b, blackbody (.fin lam) (.fin T) = .fin b ∧ 0 < b := by
  have hT : 0 < T := by linarith
  have u0 := ulp_nonneg
  have u1 := ulp_lt_one
  refine ⟨?_, planck lam T, blackbody_fin hl.pos hT, ?_⟩
  swap
  · have := exp_sub_one_pos hl.pos hT
    have := planckH_pos; have := lightC_pos
    have := hl.pos
    unfold planck; positivity
  have hh : 0 < hC := by rw [hC_eq]; exact planckH_pos
  have hc : 0 < cC := by rw [cC_eq]; exact lightC_pos
  have hb : 0 < kC := by rw [kC_eq]; exact boltzmannK_pos
  have hX' := sized_planckArg hl hT1 hT2
  have pX : (planckArgExpr lam T).Pos ulp :=
    ⟨⟨hh.le, hc.le⟩, ⟨⟨hl.pos.le, hb.le⟩, hT.le⟩, mul_pos (mul_pos hl.pos hb) hT⟩
  have wX : (planckArgExpr lam T).weight ≤ 8 := by simp only [planckArgExpr, Expr.weight]; norm_num
  have eX := Expr.ieee_eval hfl pX (by
    have : ((planckArgExpr lam T).weight : ℝ) ≤ 8 := by exact_mod_cast wX
    rw [ulp_eq]; linarith) hX'.1
  have nX := ((eval_near fl pX).mono u0 u1 pX.nonneg wX).1
  rw [planckArgExpr_exact] at nX
  have hbig : 710 ≤ (planckArgExpr lam T).eval (flat fl) := by
    have h1 := one_add_mul_le_pow (a := -ulp) (by linarith) 8
    rw [← sub_eq_add_neg, ulp_eq] at h1
    rw [ulp_eq] at nX
    generalize ((1 : ℝ) - 1 / 9007199254740992) ^ 8 = z at *
    norm_num at h1
    nlinarith
  have hover : overflowAt ≤ Real.exp ((planckArgExpr lam T).eval (flat fl)) := by
    have h1 : (2 : ℝ) ^ (1024 : ℤ) ≤ Real.exp 710 := by
      rw [show (1024 : ℤ) = ((1024 : ℕ) : ℤ) by norm_num, zpow_natCast, ← Real.exp_log (by norm_num : (0 : ℝ) < 2),
        ← Real.exp_nat_mul]
      apply Real.exp_le_exp.mpr
      have := Real.log_two_lt_d9
      push_cast
      linarith
    have h2 := Real.exp_le_exp.mpr hbig
    have h3 := two_pow_pos 970
    unfold overflowAt
    exact (sub_le_self _ h3.le).trans (h1.trans h2)
  have two : (Expr.val 2).Sized 1 1 := .val (Mag.of_pos (by norm_num) (by norm_num)) zero_le_two
  have five : (Expr.lit (lam ^ 5)).Sized (-110) (-80) := sized_five hl
  have hq : (Expr.div (.mul (.mul (.val 2) (.lit hC)) (.sq (.lit cC))) (.lit (lam ^ 5))).Sized 26 59 :=
    .div (a := -54) (b := -51) (.mul (a := -110) (b := -109) (c := 56) (d := 58) (.mul two sized_hC) (.mul sized_cC sized_cC)) five
  have pq : (Expr.div (.mul (.mul (.val 2) (.lit hC)) (.sq (.lit cC))) (.lit (lam ^ 5))).Pos ulp :=
    ⟨⟨⟨zero_le_two, hh.le⟩, hc.le, hc.le⟩, (pow_pos hl.pos 5).le, pow_pos hl.pos 5⟩
  have eq := Expr.ieee_eval hfl pq (by simp only [Expr.sq, Expr.weight]; rw [ulp_eq]; norm_num) hq.1
  have ee : (Expr.exp (planckArgExpr lam T)).ieee fl = .pinf := by
    show ((planckArgExpr lam T).ieee fl).exp.through fl = _
    rw [eX]
    exact hfl.over _ hover
  have ed : (Expr.div (.val 1) (.sub (.exp (planckArgExpr lam T)) (.val 1))).ieee fl = .fin 0 := by
    show ((XR.fin 1) / (((Expr.exp (planckArgExpr lam T)).ieee fl - .fin 1).through fl)).through fl = _
    rw [ee]
    have : (XR.pinf - XR.fin 1).through fl = .pinf := rfl
    rw [this]
    have : (XR.fin 1 / XR.pinf) = .fin 0 := rfl
    rw [this]
    exact hfl.exact zero_binary64
  show ((Expr.div _ _).ieee fl * (Expr.div _ _).ieee fl).through fl = _
  rw [eq, ed, XR.fin_mul, mul_zero]
  exact hfl.exact zero_binary64

/-- **C105** (from tables and atmosphere to the signal-to-noise ratio). For ordinary cameras, atmospheres and materials (ranges
in `Spec/Ieee.lean`) nothing in the chain from the tables to the signal-to-noise ratio overflows, underflows or becomes no
number in double precision: exposure, counts, noise and ratio are finite and as accurate as C94 says with `u = 2^-53`, for
every rounding to nearest and every order of summation. -/
theorem C105_snr {fl : ℝ → XR} (hfl : RoundsIeee fl) {s : RealSensor} {k c n : ℕ} {A : ℕ → Fin 6 → ℝ}
    (hs : s.WellConditioned k c n fun i => A i 0) (hord : s.Ordinary n fun i => A i 0) (hA : ∀ i < n, ∀ b, 0 ≤ A i b)
    (hrow : ∀ i < n, PlainRow (A i)) {ρ T ρ' T' : ℝ} (hρ : PlainReflectance ρ) (hT : ∀ i < n, Warm (A i 0) T) (hT1 : 0 < T)
    (hρ' : PlainReflectance ρ') (hT' : ∀ i < n, Warm (A i 0) T') (hT1' : 0 < T') (hk : ∀ i < n, PlanckWithin k (A i 0) T)
    (hk' : ∀ i < n, PlanckWithin k (A i 0) T') {order order' : SumTree}
    (ho : order.leaves.Perm (List.range (n - 1))) (ho' : order'.leaves.Perm (List.range s.otherNoise.length))
    {K : ℕ} (hK : K = 1752 + 18 * k + 36 * c + 6 * order.depth + order'.depth) (hKu : K ≤ 2 ^ 52) :
    ∃ l m : ℕ → ℝ, totalRadiance (vecAtm n A) (.fin ρ) (.fin T) = vec n l
      ∧ totalRadiance (vecAtm n A) (.fin ρ') (.fin T') = vec n m
      ∧ s.AccurateIeee fl (K * (2 : ℝ) ^ (-53 : ℤ) / (1 - K * (2 : ℝ) ^ (-53 : ℤ))) n (fun i => A i 0) order order'
          (s.computed fun i => A i 0) (fun i => radianceExpr (A i) ρ T) (fun i => radianceExpr (A i) ρ' T') l m := by
  have u0 := ulp_nonneg
  have u1 := ulp_lt_one
  have hK' : (K : ℝ) * ulp ≤ 1 / 2 := by
    have : (K : ℝ) ≤ 2 ^ 52 := by exact_mod_cast hKu
    rw [ulp_eq]
    linarith
  have r0 := hρ.1.nonneg
  have r1 := hρ.2.nonneg
  have r0' := hρ'.1.nonneg
  have r1' := hρ'.2.nonneg
  have hl := hs.regular.positive
  have hju : ((k + 2 * c + 88 : ℕ) : ℝ) * ulp ≤ 1 := (Expr.half (by omega) hK').trans (by norm_num)
  have hku : (k : ℝ) * ulp ≤ 1 := (Expr.half (by omega) hK').trans (by norm_num)
  have hS := known_computed u0 hs le_rfl hju
  have hL : Known ulp (k + 2 * c + 88) n (fun i => radianceExpr (A i) ρ T) (fun i => greyRadiance (A i) ρ T) := by
    intro i hi
    obtain ⟨p, w, e⟩ := radianceExpr_spec u0 (hA i hi) (hl i hi) r0 (by linarith) hT1 (hk i hi) hku
    exact ⟨p, w.trans (by omega), e⟩
  have hM : Known ulp (k + 2 * c + 88) n (fun i => radianceExpr (A i) ρ' T') (fun i => greyRadiance (A i) ρ' T') := by
    intro i hi
    obtain ⟨p, w, e⟩ := radianceExpr_spec u0 (hA i hi) (hl i hi) r0' (by linarith) hT1' (hk' i hi) hku
    exact ⟨p, w.trans (by omega), e⟩
  obtain ⟨pL, wL, -⟩ := nominalExpr_spec hs.regular hS hL ho
  obtain ⟨pS, wS⟩ := scaleExpr_spec hs.regular hS hL hM ho
  obtain ⟨⟨pT, wT⟩, pB, wB⟩ := countExpr_spec hs.regular hS hL hM ho
  obtain ⟨pN, wN, -⟩ := noiseExpr_spec hs.regular hS hL hM ho ho'
  obtain ⟨R, τ, T₀, B₀, N₀, h, h1, h2, h3, h4, h5, h6, h7, h8, a1, a2, a3, a4, a5⟩ :=
    snr_rounded u0 hs.regular hS hL hM ho ho' (K := K) (by rw [hK]; ring) (by linarith)
  refine ⟨_, _, totalRadiance_vec hl ρ hT1, totalRadiance_vec hl ρ' hT1', R, τ, T₀, B₀, N₀, h, h1, h2, h3, h4, h5, h6, h7, h8, ?_⟩
  have zL := sized_nominal hord hs.fNumber hs.regular.increasing
    (fun i hi => sized_radiance (hord.wavelengths i hi) (hrow i hi) hρ (hT i hi)) ho
  have zM := sized_nominal hord hs.fNumber hs.regular.increasing
    (fun i hi => sized_radiance (hord.wavelengths i hi) (hrow i hi) hρ' (hT' i hi)) ho
  have zC : (Expr.mul (.val s.maxWellFill) (.val s.maxN)).Sized (-20) 60 := .mul hord.fill.sized hord.well.sized
  have zS : (s.scaleExpr order (s.computed fun i => A i 0) (fun i => A i 0) (fun i => radianceExpr (A i) ρ T)
      (fun i => radianceExpr (A i) ρ' T')).Sized (-162) 0 :=
    .fill (a := -855) (b := 142) (.max zL zM) zC (mul_pos hord.fill.pos hord.well.pos)
  have zE : (s.exposureExpr order (s.computed fun i => A i 0) (fun i => A i 0) (fun i => radianceExpr (A i) ρ T)
      (fun i => radianceExpr (A i) ρ' T')).Sized (-192) 10 := .mul zS hord.time.sized
  have zT : (s.targetExpr order (s.computed fun i => A i 0) (fun i => A i 0) (fun i => radianceExpr (A i) ρ T)
      (fun i => radianceExpr (A i) ρ' T')).Sized (-1017) 142 := .mul zS zL
  have zB : (s.backgroundExpr order (s.computed fun i => A i 0) (fun i => A i 0) (fun i => radianceExpr (A i) ρ T)
      (fun i => radianceExpr (A i) ρ' T')).Sized (-1017) 142 := .mul zS zM
  have zQ : (quantExpr s.maxN s.bitDepth).Sized (-66) 59 := by
    have h12 : (Expr.lit (Real.sqrt 12)).Sized 1 2 := by
      refine .lit (Mag.sqrt (a := 3) (b := 4) (Mag.of_pos (by norm_num) (by norm_num)) (by norm_num) (by norm_num) (by norm_num))
        (Real.sqrt_nonneg _)
    exact .div hord.well.sized (c := 1) (d := 66) (.mul h12 (sized_levels hord.bits))
  have qpos : 0 < (quantExpr s.maxN s.bitDepth).exact :=
    div_pos hord.well.pos (mul_pos (Real.sqrt_pos.mpr (by norm_num)) (levels_pos hs.regular.bits))
  obtain ⟨zN, hN⟩ : (s.noiseExpr order order' (s.computed fun i => A i 0) (fun i => A i 0) (fun i => radianceExpr (A i) ρ T)
      (fun i => radianceExpr (A i) ρ' T')).Sized (-66) 73
      ∧ 0 < (s.noiseExpr order order' (s.computed fun i => A i 0) (fun i => A i 0) (fun i => radianceExpr (A i) ρ T)
      (fun i => radianceExpr (A i) ρ' T')).exact := by
    have s1 : (Expr.sq (.sqrt (.max
        (s.targetExpr order (s.computed fun i => A i 0) (fun i => A i 0) (fun i => radianceExpr (A i) ρ T)
          (fun i => radianceExpr (A i) ρ' T'))
        (s.backgroundExpr order (s.computed fun i => A i 0) (fun i => A i 0) (fun i => radianceExpr (A i) ρ T)
          (fun i => radianceExpr (A i) ρ' T'))))).Sized (-1018) 142 := by
      have s0 := Expr.Sized.sqrt (l := -509) (m := 71) (.max (l := -1017) (m := 142) zT zB)
      exact .mul s0 s0
    have s2 : (Expr.sq (quantExpr s.maxN s.bitDepth)).Sized (-132) 118 := .mul zQ zQ
    have p2 : 0 < (Expr.sq (quantExpr s.maxN s.bitDepth)).exact := mul_pos qpos qpos
    have s3 := Expr.Sized.add₂ (l := -132) (m := 143) s1 s2 p2
    have p3 := add_pos_of_nonneg_of_pos s1.2.2 p2
    have s4 := Expr.Sized.add (l := -132) (m := 144) s3 (sized_sq (l := -200) (m := 100) hord.read) p3
    have p4 := add_pos_of_pos_of_nonneg p3 (sq_nonneg s.readNoise)
    have s5 : (order'.expr fun i => .lit (s.otherNoise.getD i 0 ^ 2)).Sized (-200) 111 :=
      sized_sum order' (a := -200) (b := 100) (fun i _ => sized_sq (hord.other.2 i))
        (by rw [ho'.length_eq, List.length_range]; exact hord.other.1)
    exact ⟨.sqrt (.add (l := -132) (m := 145) s4 s5 p4), Real.sqrt_pos.mpr (add_pos_of_pos_of_nonneg p4 s5.2.2)⟩
  have pE : (s.exposureExpr order (s.computed fun i => A i 0) (fun i => A i 0) (fun i => radianceExpr (A i) ρ T)
      (fun i => radianceExpr (A i) ρ' T')).Pos ulp := ⟨pS, hs.regular.time⟩
  have hw : ∀ {w : ℕ}, w ≤ K → (w : ℝ) * ulp ≤ 1 / 2 := fun h => Expr.half h hK'
  have ev : ∀ {e : Expr}, e.Pos ulp → e.Computed ulp (e.eval (flat fl)) := fun h => Expr.eval_computed u0 u1 (flat_rnd fl) h
  have wT' := hw (wT.trans (by omega))
  have wB' := hw (wB.trans (by omega))
  have wN' := hw (wN.trans (by omega))
  refine ⟨⟨_, Expr.ieee_eval hfl pE (hw ?_) zE.1, a1 _ (ev pE)⟩, ⟨_, Expr.ieee_eval hfl pT wT' zT.1, a2 _ (ev pT)⟩,
    ⟨_, Expr.ieee_eval hfl pB wB' zB.1, a3 _ (ev pB)⟩, ⟨_, Expr.ieee_eval hfl pN wN' zN.1, a4 _ (ev pN)⟩, ?_⟩
  · simp only [RealSensor.exposureExpr, Expr.weight]
    omega
  obtain ⟨r, r', e1, e2, e3⟩ := snr_ieee hfl pT pB pN wT' wB' wN' zT zB zN hN (mul_binary64 hfl pT wT' zT.1)
    (mul_binary64 hfl pB wB' zB.1)
  refine ⟨r, e1, ?_⟩
  have e4 := a5 r' e2
  have e5 : r - (T₀ - B₀) / N₀ = (r' - (T₀ - B₀) / N₀) + (r - r') := by ring
  rw [e5]
  exact (abs_add_le _ _).trans (add_le_add e4 e3)

/-- Doubles are spaced as `Ordinary` and `PlainTable` ask: wavelengths from 0.24 µm on by `2^-75`, table entries from 1e-12 on
by `2^-93`. -/
theorem spaced_of_binary64 {a b : ℤ} {x y : ℝ} (hx : IsBinary64 x) (hy : IsBinary64 y) (h1 : PowerRange a b x) (h2 : PowerRange a b y) :
    Spaced (a - 53) x y := by
  rcases mag_diff hx hy h1 h2 with h | ⟨h, -⟩
  · exact Or.inl (sub_eq_zero.mp h)
  · exact Or.inr h

/-! ## Examples -/

/-- Rounding to nearest exists. -/
example : RoundsIeee roundIeee := roundIeee_rounds

/-- At 10 µm and 300 K: finite and right to 13 digits. -/
example {fl : ℝ → XR} (hfl : RoundsIeee fl) : ∃ r b, (blackbodyExpr 1e-5 300).ieee fl = .fin r
    ∧ blackbody (.fin 1e-5) (.fin 300) = .fin b ∧ 0 < b ∧ |r - b| ≤ 1e-13 * b := by
  obtain ⟨r, b, h1, h2, h3, h4⟩ := C105_blackbody hfl (lam := 1e-5) (T := 300) (K := 410) ⟨by norm_num, by norm_num⟩ (by norm_num)
    (by norm_num) (by rw [planckArg_eq (by norm_num) (by norm_num)]; norm_num)
    (planckWithin_of (a := 0.003) (b := 0.003) (by norm_num) (by norm_num) (by norm_num) (by norm_num) (by norm_num)
      (by norm_num)) (by norm_num)
  refine ⟨r, b, h1, h2, h3, h4.trans (mul_le_mul_of_nonneg_right (by norm_num) h3.le)⟩

/-- At 0.3 µm and 67 K: zero. -/
example {fl : ℝ → XR} (hfl : RoundsIeee fl) : (blackbodyExpr 3e-7 67).ieee fl = .fin 0
    ∧ ∃ b, blackbody (.fin 3e-7) (.fin 67) = .fin b ∧ 0 < b :=
  C105_cold hfl ⟨by norm_num, by norm_num⟩ (by norm_num) (by norm_num)
    (by rw [planckArg_eq (by norm_num) (by norm_num)]; norm_num)

theorem demo_warm {T : ℝ} (h1 : 70 ≤ T) (h2 : T ≤ 400) {i : ℕ} (hi : i < 5) : Warm (demoWl i) T := by
  obtain ⟨h3, h4⟩ := demoWl_range hi
  refine ⟨by linarith, by linarith, ?_⟩
  have h5 : 0 < T := by linarith
  rw [planckArg_eq (demoWl_pos i) h5, div_le_iff₀ (mul_pos (demoWl_pos i) h5)]
  have : (2.1e-4 : ℝ) ≤ demoWl i * T := by
    calc (2.1e-4 : ℝ) = 3e-6 * 70 := by norm_num
      _ ≤ _ := by gcongr
  norm_num at this ⊢
  linarith

theorem demo_spaced {a : ℤ} (ha : a ≤ -75) {x y : ℝ} (h : x = y ∨ 1e-8 ≤ |x - y|) : Spaced a x y := by
  rcases h with h | h
  · exact Or.inl h
  · exact Or.inr (le_trans ((two_pow_le ha).trans (by norm_num)) h)

theorem demo_ordinary : demoSensor.Ordinary 5 demoWl where
  aperture := by constructor <;> norm_num [demoSensor]
  focal := by norm_num [demoSensor]
  width := by constructor <;> norm_num [demoSensor]
  height := by constructor <;> norm_num [demoSensor]
  dark := by right; constructor <;> norm_num [demoSensor]
  time := by constructor <;> norm_num [demoSensor]
  stages := by constructor <;> norm_num [demoSensor]
  well := by constructor <;> norm_num [demoSensor]
  fill := by constructor <;> norm_num [demoSensor]
  bits := by norm_num [demoSensor]
  read := by right; constructor <;> norm_num [demoSensor]
  other := by
    refine ⟨by norm_num [demoSensor], fun i => ?_⟩
    rcases i with _ | _ | i
    · left; simp [demoSensor]
    · right; constructor <;> norm_num [demoSensor]
    · left; simp [demoSensor]
  obscuration := by
    refine ⟨?_, by norm_num [demoSensor]⟩
    right
    have : |demoSensor.eta| = 0.2 := by norm_num [demoSensor]
    rw [this]
    constructor <;> norm_num
  coldFilter := by right; constructor <;> norm_num [demoSensor]
  opticsEmissivity := by right; constructor <;> norm_num [demoSensor]
  filterEmissivity := by right; constructor <;> norm_num [demoSensor]
  samples := by norm_num
  wavelengths i hi := by
    obtain ⟨h1, h2⟩ := demoWl_range hi
    exact ⟨le_trans (by norm_num) h1, h2.trans (by norm_num)⟩
  steps i _ := by
    apply demo_spaced (by norm_num)
    right
    have : demoWl (i + 1) - demoWl i = 5e-7 := by unfold demoWl; push_cast; ring
    rw [this]
    norm_num
  offTable i hi p hp := by
    apply demo_spaced (by norm_num)
    simp only [demoSensor, List.mem_append, List.mem_cons, List.not_mem_nil, or_false] at hp
    unfold demoWl
    interval_cases i <;> rcases hp with (rfl | rfl | rfl) | (rfl | rfl) <;> norm_num [abs_of_pos, abs_of_neg]
  temperatures i hi := ⟨demo_warm (by norm_num [demoSensor]) (by norm_num [demoSensor]) hi,
    demo_warm (by norm_num [demoSensor]) (by norm_num [demoSensor]) hi,
    demo_warm (by norm_num [demoSensor]) (by norm_num [demoSensor]) hi⟩
  transmission := by
    intro p hp
    simp only [demoSensor, List.mem_cons, List.not_mem_nil, or_false] at hp
    refine ⟨?_, ?_, fun q hq => ⟨demo_spaced (by norm_num) ?_, demo_spaced (by norm_num) ?_⟩⟩
    · rcases hp with rfl | rfl | rfl <;> constructor <;> norm_num
    · rcases hp with rfl | rfl | rfl <;> constructor <;> norm_num
    · simp only [demoSensor, List.mem_cons, List.not_mem_nil, or_false] at hq
      rcases hp with rfl | rfl | rfl <;> rcases hq with rfl | rfl | rfl <;> norm_num [abs_of_pos, abs_of_neg]
    · simp only [demoSensor, List.mem_cons, List.not_mem_nil, or_false] at hq
      rcases hp with rfl | rfl | rfl <;> rcases hq with rfl | rfl | rfl <;> norm_num [abs_of_pos, abs_of_neg]
  efficiency := by
    intro p hp
    simp only [demoSensor, List.mem_cons, List.not_mem_nil, or_false] at hp
    refine ⟨?_, ?_, fun q hq => ⟨demo_spaced (by norm_num) ?_, demo_spaced (by norm_num) ?_⟩⟩
    · rcases hp with rfl | rfl <;> constructor <;> norm_num
    · rcases hp with rfl | rfl <;> constructor <;> norm_num
    · simp only [demoSensor, List.mem_cons, List.not_mem_nil, or_false] at hq
      rcases hp with rfl | rfl <;> rcases hq with rfl | rfl <;> norm_num [abs_of_pos, abs_of_neg]
    · simp only [demoSensor, List.mem_cons, List.not_mem_nil, or_false] at hq
      rcases hp with rfl | rfl <;> rcases hq with rfl | rfl <;> norm_num [abs_of_pos, abs_of_neg]

/-- The demo camera in double precision, a target of 310 K before a background of 290 K: the counts are finite and right to a
relative error of 1e-11. -/
example {fl : ℝ → XR} (hfl : RoundsIeee fl) {A : ℕ → Fin 6 → ℝ} (hA : ∀ i < 5, ∀ b, 0 ≤ A i b)
    (hrow : ∀ i < 5, PlainRow (A i)) (hwl' : (fun i => A i 0) = demoWl) :
    ∃ l m : ℕ → ℝ, totalRadiance (vecAtm 5 A) (.fin 0.15) (.fin 310) = vec 5 l
      ∧ totalRadiance (vecAtm 5 A) (.fin 0.1) (.fin 290) = vec 5 m
      ∧ ∃ (R : SNRMetrics) (T r : ℝ), photonDetectorSNR demoSensor.toSensor (vec 5 demoWl) (vec 5 l) (vec 5 m) = .ok R
        ∧ R.tgtN = .fin T
        ∧ (demoSensor.targetExpr (SumTree.sequential 4) (demoSensor.computed demoWl) demoWl
            (fun i => radianceExpr (A i) 0.15 310) (fun i => radianceExpr (A i) 0.1 290)).ieee fl = .fin r
        ∧ |r - T| ≤ 1e-11 * T := by
  obtain ⟨l, m, h1, h2, R, τ, T, B, N, h, -, hT, -, -, -, hT0, -, -, -, ⟨r, e, ht⟩, -⟩ :=
    C105_snr hfl (s := demoSensor) (k := 4000) (c := 10) (n := 5) (A := A) (ρ := 0.15) (T := 310)
      (ρ' := 0.1) (T' := 290) (order := SumTree.sequential 4) (order' := SumTree.sequential 2)
      (by rw [hwl']; exact demo_conditioned) (by rw [hwl']; exact demo_ordinary) hA hrow
      ⟨by right; constructor <;> norm_num, by right; constructor <;> norm_num⟩
      (fun i hi => by rw [congrFun hwl' i]; exact demo_warm (by norm_num) (by norm_num) hi) (by norm_num)
      ⟨by right; constructor <;> norm_num, by right; constructor <;> norm_num⟩
      (fun i hi => by rw [congrFun hwl' i]; exact demo_warm (by norm_num) (by norm_num) hi) (by norm_num)
      (fun i hi => by rw [congrFun hwl' i]; exact demo_planck (by norm_num) (by norm_num) i hi)
      (fun i hi => by rw [congrFun hwl' i]; exact demo_planck (by norm_num) (by norm_num) i hi)
      (by rw [SumTree.sequential_leaves]) (by rw [SumTree.sequential_leaves]; rfl) rfl
      (by rw [SumTree.sequential_depth, SumTree.sequential_depth]; norm_num)
  rw [hwl'] at h e
  refine ⟨l, m, h1, h2, R, T, r, h, hT, e, ht.trans (mul_le_mul_of_nonneg_right ?_ hT0)⟩
  rw [SumTree.sequential_depth, SumTree.sequential_depth]
  norm_num

/-- A row of the atmosphere that meets the hypotheses. -/
example : PlainRow ![3e-6, 0.7, 1e3, 0.5, 1e4, 2e4] := by
  have h : ∀ {x : ℝ}, 0.7 ≤ x → x ≤ 2e4 → ZeroOr (-149) 40 x := fun h1 h2 =>
    Or.inr ⟨le_trans (by norm_num) h1, h2.trans (by norm_num)⟩
  refine ⟨?_, ?_, ?_, ?_⟩
  · show ZeroOr (-149) 0 0.7
    right; constructor <;> norm_num
  · show ZeroOr (-149) 40 1e3
    exact h (by norm_num) (by norm_num)
  · show ZeroOr (-149) 40 1e4
    exact h (by norm_num) (by norm_num)
  · show ZeroOr (-149) 40 2e4
    exact h (by norm_num) (by norm_num)

end PyBSM
