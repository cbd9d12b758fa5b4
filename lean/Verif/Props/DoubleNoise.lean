import Verif.Props.RoundedNoise
import Verif.Lemmas.Double

/-!
# C123: the scene noise can be lost in double precision
-/

noncomputable section

open Classical

namespace PyBSM

open Spec

section lost

variable {fl : ℝ → ℝ}

/-- A double with 53 significant bits. -/
theorem IsDouble.normal {x : ℝ} (h : IsDouble x) (hx : 0 < x) : ∃ m e : ℤ, 2 ^ 52 ≤ m ∧ m < 2 ^ 53 ∧ x = m * (2 : ℝ) ^ e := by
  obtain ⟨k, j, hk, rfl⟩ := h
  obtain ⟨h1, h2⟩ := log_bounds hx.ne'
  rw [abs_of_pos hx] at h1 h2
  have hj : (0 : ℝ) < (2 : ℝ) ^ j := by positivity
  generalize Int.log 2 ((k : ℝ) * (2 : ℝ) ^ j) = l at *
  have hk0 : (0 : ℝ) < k := pos_of_mul_pos_left hx hj.le
  have hl : l < 53 + j := by
    have hk' : (k : ℝ) < 2 ^ 53 := by
      have : k < 2 ^ 53 := (le_abs_self k).trans_lt hk
      exact_mod_cast this
    have h3 : (2 : ℝ) ^ l < (2 : ℝ) ^ (53 + j) := by
      refine h1.trans_lt ?_
      rw [zpow_add₀ two_ne_zero]
      exact mul_lt_mul_of_pos_right (by exact_mod_cast hk') hj
    exact (zpow_lt_zpow_iff_right₀ (by norm_num)).mp h3
  obtain ⟨d, hd⟩ := Int.eq_ofNat_of_zero_le (show 0 ≤ j - (l - 52) by omega)
  have he : (0 : ℝ) < (2 : ℝ) ^ (l - 52) := by positivity
  have e1 : (k : ℝ) * (2 : ℝ) ^ j = ((k * 2 ^ d : ℤ) : ℝ) * (2 : ℝ) ^ (l - 52) := by
    push_cast
    rw [mul_assoc, ← zpow_natCast, ← zpow_add₀ two_ne_zero]
    congr 2
    omega
  rw [e1] at h1 h2 ⊢
  refine ⟨k * 2 ^ d, l - 52, ?_, ?_, rfl⟩
  · rw [two_zpow_split l] at h1
    have := le_of_mul_le_mul_right h1 he
    exact_mod_cast this
  · rw [zpow_add₀ two_ne_zero, two_zpow_split l] at h2
    have : ((k * 2 ^ d : ℤ) : ℝ) < 2 ^ 53 := by
      refine lt_of_mul_lt_mul_right (lt_of_lt_of_eq h2 ?_) he.le
      norm_num
      ring
    exact_mod_cast this

/-- What is too faint is absorbed. -/
theorem RoundsToNearest.absorb (hfl : RoundsToNearest fl) {a o : ℝ} (ho : IsDouble o) (h0 : 0 < o) (ha : 0 ≤ a)
    (h : a ≤ o * (2 : ℝ) ^ (-55 : ℤ)) : fl (a + o) = o := by
  refine le_antisymm ?_ ?_
  · obtain ⟨m, e, h1, h2, rfl⟩ := ho.normal h0
    refine hfl.le_of_lt h1 h2 e ?_
    have he : (0 : ℝ) < (2 : ℝ) ^ e := by positivity
    have hm : (m : ℝ) ≤ 2 ^ 53 := by exact_mod_cast h2.le
    have : (m : ℝ) * (2 : ℝ) ^ (-55 : ℤ) ≤ 1 / 4 := by
      calc (m : ℝ) * (2 : ℝ) ^ (-55 : ℤ) ≤ 2 ^ 53 * (2 : ℝ) ^ (-55 : ℤ) := by gcongr
        _ = 1 / 4 := by norm_num
    have h3 : (m : ℝ) * (2 : ℝ) ^ e * (2 : ℝ) ^ (-55 : ℤ) ≤ 1 / 4 * (2 : ℝ) ^ e := by nlinarith
    have h4 := h.trans h3
    clear h h3 this ho h0
    generalize (2 : ℝ) ^ e = z at *
    linarith
  · have := hfl.mono (show o ≤ a + o by linarith)
    rwa [hfl.self ho] at this

theorem SumTree.eval_congr {f g : ℕ → Expr} (t : SumTree) (h : ∀ i ∈ t.leaves, (f i).eval fl = (g i).eval fl) :
    (t.expr f).eval fl = (t.expr g).eval fl := by
  induction t with
  | zero => rfl
  | leaf i => exact h i (by simp [leaves])
  | node a b iha ihb =>
    simp only [expr, Expr.eval]
    rw [iha fun i hi => h i (by simp [leaves, hi]), ihb fun i hi => h i (by simp [leaves, hi])]

theorem trapTerm_congr {x : ℕ → ℝ} {y z : ℕ → Expr} {i : ℕ} (h : (y i).eval fl = (z i).eval fl)
    (h' : (y (i + 1)).eval fl = (z (i + 1)).eval fl) : (trapTermExpr x y i).eval fl = (trapTermExpr x z i).eval fl := by
  simp only [trapTermExpr, Expr.eval]
  rw [h, h']

/-- If at every wavelength a part in `2^46` of the light is lost, the integral shows it in spite of its own rounding errors. -/
theorem chain_neg (hfl : RoundsToNearest fl) {n : ℕ} {order : SumTree} (ho : order.leaves.Perm (List.range (n - 1)))
    (hd : order.depth ≤ 50) {wl : ℕ → ℝ} (hinc : ∀ i, i + 1 < n → wl i ≤ wl (i + 1)) {g c a : ℕ → ℝ} {t k T P : ℝ}
    (hg : ∀ i < n, 0 ≤ g i) (hc0 : ∀ i < n, 0 ≤ c i) (ha0 : ∀ i < n, 0 ≤ a i)
    (hlost : ∀ i < n, c i ≤ (1 - (2 : ℝ) ^ (-46 : ℤ)) * a i) (ht : 0 ≤ t) (hk : 0 ≤ k)
    (hT : T = (Expr.mul (.mul (order.expr (trapTermExpr wl fun i => .mul (.val (g i)) (.val (c i)))) (.val t)) (.val k)).eval fl)
    (hP : P = (Expr.mul (.mul (.add (order.expr (trapTermExpr wl fun i => .mul (.val (g i)) (.add (.val (a i)) (.val 0)))) (.val 0))
      (.val t)) (.val k)).eval fl) (hpos : 0 < P) :
    (sceneSquareExpr (.val T) (.val T) (.val P)).eval fl < 0 := by
  set u := (2 : ℝ) ^ (-53 : ℤ) with hu
  have h0 : 0 ≤ u := by positivity
  have h1 : u < 1 := by rw [hu]; norm_num
  have hr := nearest_rnd hfl
  -- the two integrals
  have pT : (Expr.mul (.mul (order.expr (trapTermExpr wl fun i => .mul (.val (g i)) (.val (c i)))) (.val t)) (.val k)).Pos u
      ∧ (Expr.mul (.mul (order.expr (trapTermExpr wl fun i => .mul (.val (g i)) (.val (c i)))) (.val t)) (.val k)).weight ≤ 57
      ∧ (Expr.mul (.mul (order.expr (trapTermExpr wl fun i => .mul (.val (g i)) (.val (c i)))) (.val t)) (.val k)).exact
        = (∑ i ∈ Finset.range (n - 1), (wl (i + 1) - wl i) * ((g i * c i + g (i + 1) * c (i + 1)) / 2)) * t * k := by
    have point : ∀ i ∈ order.leaves, i + 1 < n := fun i hi => by have := SumTree.mem_of_perm ho hi; omega
    refine ⟨⟨⟨SumTree.expr_pos _ fun i hi => ?_, ht⟩, hk⟩, ?_, ?_⟩
    · exact ⟨⟨sub_nonneg.mpr (hinc i (point i hi)), ⟨hg _ (point i hi), hc0 _ (point i hi)⟩,
        ⟨hg _ (by have := point i hi; omega), hc0 _ (by have := point i hi; omega)⟩⟩, (by norm_num : (0 : ℝ) ≤ 2), (by norm_num : (0 : ℝ) < 2)⟩
    · have := SumTree.expr_weight (f := trapTermExpr wl fun i => .mul (.val (g i)) (.val (c i))) (w := 5) order
        fun i _ => by simp [trapTermExpr, Expr.weight]
      simp only [Expr.weight]
      omega
    · simp only [Expr.exact]
      rw [SumTree.expr_sum ho]
      congr 2
      apply Finset.sum_congr rfl
      intro i _
      simp only [trapTermExpr, Expr.exact]
      ring
  have pP : (Expr.mul (.mul (.add (order.expr (trapTermExpr wl fun i => .mul (.val (g i)) (.add (.val (a i)) (.val 0)))) (.val 0))
      (.val t)) (.val k)).Pos u
      ∧ (Expr.mul (.mul (.add (order.expr (trapTermExpr wl fun i => .mul (.val (g i)) (.add (.val (a i)) (.val 0)))) (.val 0))
      (.val t)) (.val k)).weight ≤ 59
      ∧ (Expr.mul (.mul (.add (order.expr (trapTermExpr wl fun i => .mul (.val (g i)) (.add (.val (a i)) (.val 0)))) (.val 0))
      (.val t)) (.val k)).exact
        = (∑ i ∈ Finset.range (n - 1), (wl (i + 1) - wl i) * ((g i * a i + g (i + 1) * a (i + 1)) / 2)) * t * k := by
    have point : ∀ i ∈ order.leaves, i + 1 < n := fun i hi => by have := SumTree.mem_of_perm ho hi; omega
    refine ⟨⟨⟨⟨SumTree.expr_pos _ fun i hi => ?_, le_refl (0 : ℝ)⟩, ht⟩, hk⟩, ?_, ?_⟩
    · exact ⟨⟨sub_nonneg.mpr (hinc i (point i hi)), ⟨hg _ (point i hi), ha0 _ (point i hi), le_refl (0 : ℝ)⟩,
        ⟨hg _ (by have := point i hi; omega), ha0 _ (by have := point i hi; omega), le_refl (0 : ℝ)⟩⟩, (by norm_num : (0 : ℝ) ≤ 2),
          (by norm_num : (0 : ℝ) < 2)⟩
    · have := SumTree.expr_weight (f := trapTermExpr wl fun i => .mul (.val (g i)) (.add (.val (a i)) (.val 0))) (w := 6) order
        fun i _ => by simp [trapTermExpr, Expr.weight]
      simp only [Expr.weight]
      omega
    · simp only [Expr.exact]
      rw [SumTree.expr_sum ho, add_zero]
      congr 2
      apply Finset.sum_congr rfl
      intro i _
      simp only [trapTermExpr, Expr.exact]
      ring
  set q := (2 : ℝ) ^ (-46 : ℤ) with hq
  have hsum : (∑ i ∈ Finset.range (n - 1), (wl (i + 1) - wl i) * ((g i * c i + g (i + 1) * c (i + 1)) / 2)) * t * k
      ≤ (1 - q) * ((∑ i ∈ Finset.range (n - 1), (wl (i + 1) - wl i) * ((g i * a i + g (i + 1) * a (i + 1)) / 2)) * t * k) := by
    rw [← mul_assoc, ← mul_assoc]
    refine mul_le_mul_of_nonneg_right (mul_le_mul_of_nonneg_right ?_ ht) hk
    rw [Finset.mul_sum]
    apply Finset.sum_le_sum
    intro i hi
    have hi' := Finset.mem_range.mp hi
    have w0 := sub_nonneg.mpr (hinc i (by omega))
    have b1 := mul_le_mul_of_nonneg_left (hlost i (by omega)) (hg i (by omega))
    have b2 := mul_le_mul_of_nonneg_left (hlost (i + 1) (by omega)) (hg (i + 1) (by omega))
    calc _ ≤ (wl (i + 1) - wl i) * ((g i * ((1 - q) * a i) + g (i + 1) * ((1 - q) * a (i + 1))) / 2) :=
          mul_le_mul_of_nonneg_left (div_le_div_of_nonneg_right (add_le_add b1 b2) zero_le_two) w0
      _ = _ := by ring
  have nT := ((Expr.eval_computed h0 h1 hr pT.1).near h0 h1 pT.1).mono h0 h1 pT.1.nonneg pT.2.1
  have nP := ((Expr.eval_computed h0 h1 hr pP.1).near h0 h1 pP.1).mono h0 h1 pP.1.nonneg pP.2.1
  have hT0 := nT.nonneg h0 h1 pT.1.nonneg
  rw [← hT, pT.2.2] at nT
  rw [← hT] at hT0
  rw [← hP, pP.2.2] at nP
  -- the squares of the roots
  have sq : ∀ x : ℝ, 0 ≤ x → Near u 3 ((Expr.sq (.sqrt (.val x))).eval fl) x := by
    intro x hx
    have p : (Expr.sq (.sqrt (.val x))).Pos u := ⟨hx, hx⟩
    have := (Expr.eval_computed h0 h1 hr p).near h0 h1 p
    have e : (Expr.sq (.sqrt (.val x))).exact = x := by
      simp only [Expr.sq, Expr.exact]
      exact Real.mul_self_sqrt hx
    rw [e] at this
    exact this
  have sT := sq T hT0
  have sP := sq P hpos.le
  have hT3 := sT.nonneg h0 h1 hT0
  have hmax : (Expr.sq (.max (.sqrt (.val T)) (.sqrt (.val T)))).eval fl = (Expr.sq (.sqrt (.val T))).eval fl := by
    simp only [Expr.sq, Expr.eval, max_self]
  have key : (Expr.sq (.sqrt (.val T))).eval fl < (Expr.sq (.sqrt (.val P))).eval fl := by
    generalize (Expr.sq (.sqrt (.val T))).eval fl = x at *
    generalize (Expr.sq (.sqrt (.val P))).eval fl = y at *
    have b : (1 - 122 * u) ≤ (1 - u) ^ 122 := by
      have := one_add_mul_le_pow (a := -u) (by linarith) 122
      push_cast at this
      linarith
    have hqu : 122 * u < q := by rw [hu, hq]; norm_num
    have hq1 : q < 1 := by rw [hq]; norm_num
    have p60 := (pow_bounds h0 h1 60).1
    have p62 := (pow_bounds h0 h1 62).1
    have p3 := (pow_bounds h0 h1 3).1
    have p57 := (pow_bounds h0 h1 57).1
    have p59 := (pow_bounds h0 h1 59).1
    generalize (∑ i ∈ Finset.range (n - 1), (wl (i + 1) - wl i) * ((g i * c i + g (i + 1) * c (i + 1)) / 2)) * t * k = X at *
    generalize (∑ i ∈ Finset.range (n - 1), (wl (i + 1) - wl i) * ((g i * a i + g (i + 1) * a (i + 1)) / 2)) * t * k = Y at *
    have hY : 0 < Y := lt_of_lt_of_le (mul_pos hpos p59) nP.2
    have f1 : x * (1 - u) ^ 60 ≤ X := by
      calc x * (1 - u) ^ 60 = x * (1 - u) ^ 3 * (1 - u) ^ 57 := by ring
        _ ≤ T * (1 - u) ^ 57 := mul_le_mul_of_nonneg_right sT.2 p57.le
        _ ≤ X := nT.2
    have f2 : Y * (1 - u) ^ 62 ≤ y := by
      calc Y * (1 - u) ^ 62 = Y * (1 - u) ^ 59 * (1 - u) ^ 3 := by ring
        _ ≤ P * (1 - u) ^ 3 := mul_le_mul_of_nonneg_right nP.1 p3.le
        _ ≤ y := sP.1
    have f3 : x * (1 - u) ^ 60 < y * (1 - u) ^ 60 := by
      calc x * (1 - u) ^ 60 ≤ (1 - q) * Y := f1.trans hsum
        _ < (1 - u) ^ 122 * Y := mul_lt_mul_of_pos_right (by linarith) hY
        _ = Y * (1 - u) ^ 62 * (1 - u) ^ 60 := by ring
        _ ≤ _ := mul_le_mul_of_nonneg_right f2 p60.le
    exact lt_of_mul_lt_mul_right f3 p60.le
  show fl ((Expr.sq (.max (.sqrt (.val T)) (.sqrt (.val T)))).eval fl - (Expr.sq (.sqrt (.val P))).eval fl) < 0
  rw [hmax]
  have hneg : (Expr.sq (.sqrt (.val T))).eval fl - (Expr.sq (.sqrt (.val P))).eval fl < 0 := by linarith
  refine lt_of_le_of_ne ?_ fun h => hneg.ne (hfl.eq_zero h)
  have := hfl.mono hneg.le
  rwa [hfl.zero] at this

/-- In opaque air the radiance of any surface is computed to be that of the path. -/
theorem opaque_radiance (hfl : RoundsToNearest fl) {a : Fin 6 → ℝ} (h1 : a 1 = 0) (h5 : a 5 = 0) (h2 : IsDouble (a 2)) (r T : ℝ) :
    (giqeRadianceExpr a r T).eval fl = (pathRadianceExpr a).eval fl := by
  simp only [giqeRadianceExpr, pathRadianceExpr, Expr.eval, h1, h5, mul_zero, zero_mul, hfl.zero, add_zero]
  rw [hfl.self h2, hfl.self (hfl _).1]

theorem fl_nonneg (hfl : RoundsToNearest fl) {x : ℝ} (hx : 0 ≤ x) : 0 ≤ fl x := by
  have := hfl.mono hx
  rwa [hfl.zero] at this

theorem fl_pos (hfl : RoundsToNearest fl) {x : ℝ} (hx : 0 < x) : 0 < fl x :=
  lt_of_le_of_ne (fl_nonneg hfl hx.le) fun h => hx.ne' (hfl.eq_zero h.symm)

theorem fl_nonpos (hfl : RoundsToNearest fl) {x : ℝ} (hx : x ≤ 0) : fl x ≤ 0 := by
  have := hfl.mono hx
  rwa [hfl.zero] at this

/-- **C123 (what fails).** Opaque air, where scene noise and its exact value are zero (C72). If, at each wavelength of the band,
adding the camera's own irradiance to that of the path and subtracting it again loses at least a part in `2^46` of the latter,
then double precision reports no number for the scene noise. -/
theorem C123_nan (hfl : RoundsToNearest fl) {s : RealSensor} {B : List (Fin 6 → ℝ)} (hop : Opaque B)
    (hdouble : ∀ a ∈ B, IsDouble (a 2)) (hwl : ∀ a ∈ B, 0 ≤ a 0) (hinc : ∀ i, i + 1 < B.length → B.getD i 0 0 ≤ B.getD (i + 1) 0 0)
    {order : SumTree} (ho : order.leaves.Perm (List.range (B.length - 1))) (hd : order.depth ≤ 50)
    (hq : ∀ i < B.length, 0 ≤ ((s.computed fun i => B.getD i 0 0).efficiency i).eval fl)
    (hwx : 0 ≤ s.wX) (hwy : 0 ≤ s.wY) (hk : 0 ≤ s.nTdi) (hpos : 0 < (s.pathPhotonsExpr order B).eval fl)
    (hlost : ∀ i < B.length, ∃ a o, (s.pathIrradianceExpr B i).eval fl = a ∧ (s.ownIrradianceExpr B i).eval fl = o ∧ 0 ≤ a ∧ 0 ≤ o
      ∧ fl (fl (a + o) - o) ≤ (1 - (2 : ℝ) ^ (-46 : ℤ)) * a) :
    (∃ p, s.pathNoiseD fl order B = .fin p ∧ 0 < p) ∧ s.sceneNoiseD fl order B = .nan := by
  constructor
  · refine ⟨_, ?_, fl_pos hfl (Real.sqrt_pos.mpr hpos)⟩
    rw [RealSensor.pathNoiseD, XR.sqrt, if_neg (not_lt.mpr hpos.le)]
  have point : ∀ i ∈ order.leaves, i + 1 < B.length := fun i hi => by have := SumTree.mem_of_perm ho hi; omega
  set S := s.computed fun i => B.getD i 0 0 with hS
  set t := (s.exposureUsedExpr order B).eval fl with ht
  let G : ℕ → Expr := fun i => .mul (.mul (.mul (.div (.val (B.getD i 0 0)) (.mul (.lit hC) (.lit cC))) (S.efficiency i)) (.val s.wX))
    (.val s.wY)
  let g : ℕ → ℝ := fun i => (G i).eval fl
  let a : ℕ → ℝ := fun i => (s.pathIrradianceExpr B i).eval fl
  let c : ℕ → ℝ := fun i => fl (fl (a i + (s.ownIrradianceExpr B i).eval fl) - (s.ownIrradianceExpr B i).eval fl)
  have hh : 0 ≤ fl hC := fl_nonneg hfl (by norm_num [hC])
  have hcc : 0 ≤ fl cC := fl_nonneg hfl (by norm_num [cC])
  have hg : ∀ i < B.length, 0 ≤ g i := by
    intro i hi
    exact fl_nonneg hfl (mul_nonneg (fl_nonneg hfl (mul_nonneg (fl_nonneg hfl (mul_nonneg (fl_nonneg hfl (div_nonneg
      (hwl _ (getD_mem hi)) (fl_nonneg hfl (mul_nonneg hh hcc)))) (hq i hi))) hwx)) hwy)
  have ha : ∀ i < B.length, 0 ≤ a i := by
    intro i hi
    obtain ⟨x, o, h1, h2, h3, h4, h5⟩ := hlost i hi
    show 0 ≤ (s.pathIrradianceExpr B i).eval fl
    rw [h1]
    exact h3
  have hc : ∀ i < B.length, c i ≤ (1 - (2 : ℝ) ^ (-46 : ℤ)) * a i := by
    intro i hi
    obtain ⟨x, o, h1, h2, h3, h4, h5⟩ := hlost i hi
    show fl (fl ((s.pathIrradianceExpr B i).eval fl + (s.ownIrradianceExpr B i).eval fl) - (s.ownIrradianceExpr B i).eval fl) ≤ _
    show _ ≤ _ * (s.pathIrradianceExpr B i).eval fl
    rw [h1, h2]
    exact h5
  have hc0 : ∀ i < B.length, 0 ≤ c i := by
    intro i hi
    apply fl_nonneg hfl
    have hd : IsDouble ((s.ownIrradianceExpr B i).eval fl) := (hfl _).1
    have := hfl.mono (show (s.ownIrradianceExpr B i).eval fl ≤ a i + (s.ownIrradianceExpr B i).eval fl by linarith [ha i hi])
    rw [hfl.self hd] at this
    linarith
  have photon : ∀ (L : (Fin 6 → ℝ) → Expr), (∀ b ∈ B, (L b).eval fl = (pathRadianceExpr b).eval fl) →
      (s.photonsExpr order B L).eval fl = (Expr.mul (.mul (order.expr (trapTermExpr (fun i => B.getD i 0 0) fun i =>
        .mul (.val (g i)) (.val (c i)))) (.val t)) (.val s.nTdi)).eval fl := by
    intro L hL
    have step : ∀ i < B.length, (detectionExpr s.wX s.wY (B.getD i 0 0) (S.efficiency i)
        (netExpr s.D s.f (L (B.getD i 0)) (S.transmission i) (S.emission i))).eval fl = (Expr.mul (.val (g i)) (.val (c i))).eval fl := by
      intro i hi
      have e := hL _ (getD_mem hi)
      show fl (g i * fl (fl (fl ((S.transmission i).eval fl * (irradianceExpr s.D s.f (L (B.getD i 0))).eval fl) + (S.emission i).eval fl)
        - (S.emission i).eval fl)) = fl (g i * c i)
      have e' : (irradianceExpr s.D s.f (L (B.getD i 0))).eval fl = (irradianceExpr s.D s.f (pathRadianceExpr (B.getD i 0))).eval fl := by
        simp only [irradianceExpr, Expr.eval]
        rw [e]
      rw [e']
      rfl
    show fl (fl ((order.expr _).eval fl * t) * s.nTdi) = fl (fl ((order.expr _).eval fl * t) * s.nTdi)
    rw [SumTree.eval_congr order fun i hi => trapTerm_congr (fl := fl)
      (z := fun i => .mul (.val (g i)) (.val (c i))) (step i (by have := point i hi; omega)) (step (i + 1) (point i hi))]
  have hT : (s.photonsExpr order B s.targetRadianceExpr).eval fl = _ := photon _ fun b hb => by
    unfold RealSensor.targetRadianceExpr
    split_ifs <;> exact opaque_radiance hfl (hop b hb).1 (hop b hb).2 (hdouble b hb) _ _
  have hM : (s.photonsExpr order B s.backgroundRadianceExpr).eval fl = _ := photon _ fun b hb => by
    unfold RealSensor.backgroundRadianceExpr
    split_ifs <;> exact opaque_radiance hfl (hop b hb).1 (hop b hb).2 (hdouble b hb) _ _
  have hP : (s.pathPhotonsExpr order B).eval fl = (Expr.mul (.mul (.add (order.expr (trapTermExpr (fun i => B.getD i 0 0) fun i =>
      .mul (.val (g i)) (.add (.val (a i)) (.val 0)))) (.val 0)) (.val t)) (.val s.nTdi)).eval fl := by
    show fl (fl (fl ((order.expr _).eval fl + 0) * t) * s.nTdi) = fl (fl (fl ((order.expr _).eval fl + 0) * t) * s.nTdi)
    rw [SumTree.eval_congr order fun i hi => trapTerm_congr (fl := fl)
      (z := fun i => .mul (.val (g i)) (.add (.val (a i)) (.val 0))) rfl rfl]
  have ht0 : 0 ≤ t := by
    by_contra hneg
    have hneg := (not_le.mp hneg).le
    have hr := nearest_rnd hfl
    have h0 : (0 : ℝ) ≤ (2 : ℝ) ^ (-53 : ℤ) := by positivity
    have h1 : (2 : ℝ) ^ (-53 : ℤ) < 1 := by norm_num
    have pS : (order.expr (trapTermExpr (fun i => B.getD i 0 0) fun i =>
      .mul (.val (g i)) (.add (.val (a i)) (.val 0)))).Pos ((2 : ℝ) ^ (-53 : ℤ)) := by
      refine SumTree.expr_pos _ fun i hi => ?_
      exact ⟨⟨sub_nonneg.mpr (hinc i (point i hi)), ⟨hg _ (point i hi), ha _ (point i hi), le_refl (0 : ℝ)⟩,
        ⟨hg _ (by have := point i hi; omega), ha _ (by have := point i hi; omega), le_refl (0 : ℝ)⟩⟩, (by norm_num : (0 : ℝ) ≤ 2),
          (by norm_num : (0 : ℝ) < 2)⟩
    have nS := ((Expr.eval_computed h0 h1 hr pS).near h0 h1 pS).nonneg h0 h1 pS.nonneg
    rw [hP] at hpos
    refine absurd hpos (not_lt.mpr ?_)
    exact fl_nonpos hfl (mul_nonpos_of_nonpos_of_nonneg (fl_nonpos hfl (mul_nonpos_of_nonneg_of_nonpos
      (fl_nonneg hfl (add_nonneg nS le_rfl)) hneg)) hk)
  have neg := chain_neg hfl ho hd (wl := fun i => B.getD i 0 0) hinc hg hc0 ha hc ht0 hk rfl hP hpos
  rw [← hT] at neg
  have : (s.sceneSquareExpr order B).eval fl < 0 := by
    refine lt_of_eq_of_lt ?_ neg
    simp only [RealSensor.sceneSquareExpr, PyBSM.sceneSquareExpr, Expr.sq, Expr.eval]
    rw [hM, ← hT]
  rw [RealSensor.sceneNoiseD, XR.sqrt, if_pos this]

theorem fl_le_two (hfl : RoundsToNearest fl) {x : ℝ} (hx : 0 ≤ x) : fl x ≤ 2 * x := by
  have := (abs_le.mp (nearest_rnd hfl x)).2
  rw [abs_of_nonneg hx] at this
  have h : (2 : ℝ) ^ (-53 : ℤ) ≤ 1 := by norm_num
  nlinarith

theorem SumTree.eval_pos (hfl : RoundsToNearest fl) {f : ℕ → Expr} (t : SumTree) (h : ∀ i ∈ t.leaves, 0 < (f i).eval fl) :
    0 ≤ (t.expr f).eval fl ∧ (t.leaves ≠ [] → 0 < (t.expr f).eval fl) := by
  induction t with
  | zero => exact ⟨le_refl (0 : ℝ), fun h => absurd rfl h⟩
  | leaf i =>
    have := h i (by simp [leaves])
    exact ⟨this.le, fun _ => this⟩
  | node a b iha ihb =>
    obtain ⟨a1, a2⟩ := iha fun i hi => h i (by simp [leaves, hi])
    obtain ⟨b1, b2⟩ := ihb fun i hi => h i (by simp [leaves, hi])
    refine ⟨fl_nonneg hfl (add_nonneg a1 b1), fun hne => fl_pos hfl ?_⟩
    by_cases ha : a.leaves = []
    · have hb : b.leaves ≠ [] := fun hb => hne (by simp [leaves, ha, hb])
      exact add_pos_of_nonneg_of_pos a1 (b2 hb)
    · exact add_pos_of_pos_of_nonneg (a2 ha) b1

theorem exists_below (n : ℕ) {b : ℕ → ℝ} (h : ∀ i < n, 0 < b i) : ∃ x, 0 < x ∧ ∀ i < n, x ≤ b i := by
  induction n with
  | zero => exact ⟨1, one_pos, fun i hi => absurd hi (Nat.not_lt_zero i)⟩
  | succ n ih =>
    obtain ⟨x, hx, hb⟩ := ih fun i hi => h i (by omega)
    refine ⟨min x (b n), lt_min hx (h n (by omega)), fun i hi => ?_⟩
    rcases Nat.lt_succ_iff_lt_or_eq.mp hi with h' | rfl
    · exact (min_le_left _ _).trans (hb i h')
    · exact min_le_right _ _

/-- Opaque air at the wavelengths `wl`, glowing with the radiance `p`. -/
def Spec.fog (wl : List ℝ) (p : ℝ) : List (Fin 6 → ℝ) := wl.map fun x => ![x, 0, p, 0, 0, 0]

theorem Spec.fog.wavelength (wl : List ℝ) (p : ℝ) : (fun i => (fog wl p).getD i 0 0) = fun i => wl.getD i 0 := by
  funext i
  unfold fog
  by_cases h : i < wl.length
  · simp [List.getD_eq_getElem?_getD, h]
  · simp [List.getD_eq_getElem?_getD, not_lt.mp h]

theorem Spec.fog.row {wl : List ℝ} {p : ℝ} {i : ℕ} (h : i < wl.length) : (fog wl p).getD i 0 = ![wl.getD i 0, 0, p, 0, 0, 0] := by
  unfold fog
  simp [List.getD_eq_getElem?_getD, h]

/-- **C123 (what fails).** Every camera that emits light of its own reports a path noise and no number for the scene noise in any
opaque air that is dim enough. -/
theorem C123_warm (hfl : RoundsToNearest fl) {s : RealSensor} {wl : List ℝ} (hn : 2 ≤ wl.length) (hwl : ∀ x ∈ wl, 0 < x)
    (hinc : wl.Pairwise (· < ·)) (_hD : s.D ≠ 0)
    (hS : ∀ i < wl.length, 0 < ((s.computed fun i => wl.getD i 0).transmission i).eval fl
      ∧ 0 < ((s.computed fun i => wl.getD i 0).efficiency i).eval fl ∧ 0 < ((s.computed fun i => wl.getD i 0).emission i).eval fl)
    (hwx : 0 < s.wX) (hwy : 0 < s.wY) (hk : 0 < s.nTdi) (htime : 0 < s.intTime) (hwell : 0 < s.maxN) (hfill : 0 < s.maxWellFill)
    {order : SumTree} (ho : order.leaves.Perm (List.range (wl.length - 1))) (hd : order.depth ≤ 50) :
    ∃ p0, 0 < p0 ∧ ∀ p, IsDouble p → 0 < p → p ≤ p0 → Opaque (fog wl p)
      ∧ (∃ x, s.pathNoiseD fl order (fog wl p) = .fin x ∧ 0 < x) ∧ s.sceneNoiseD fl order (fog wl p) = .nan := by
  set S := s.computed fun i => wl.getD i 0 with hSdef
  let den : ℝ := (Expr.add (.val 1) (.mul (.val 4) (.sq (.div (.val s.f) (.val s.D))))).eval fl
  have hden : 0 < den := fl_pos hfl (add_pos_of_pos_of_nonneg one_pos (fl_nonneg hfl (mul_nonneg (by norm_num : (0 : ℝ) ≤ 4)
    (fl_nonneg hfl (mul_self_nonneg _)))))
  have hpi : 0 < fl Real.pi := fl_pos hfl Real.pi_pos
  obtain ⟨p0, hp0, hb⟩ := exists_below wl.length (b := fun i => (S.emission i).eval fl * (2 : ℝ) ^ (-55 : ℤ)
      / (8 * (S.transmission i).eval fl * fl Real.pi / den))
    fun i hi => div_pos (mul_pos (hS i hi).2.2 (by positivity)) (div_pos (mul_pos (mul_pos (by norm_num) (hS i hi).1) hpi) hden)
  refine ⟨p0, hp0, fun p hpd hp hle => ?_⟩
  have hlen : (fog wl p).length = wl.length := by simp [fog]
  have hrow : ∀ b ∈ fog wl p, ∃ x ∈ wl, b = ![x, 0, p, 0, 0, 0] := by
    intro b hb
    obtain ⟨x, hx, rfl⟩ := List.mem_map.mp hb
    exact ⟨x, hx, rfl⟩
  have hop : Opaque (fog wl p) := by
    intro b hb
    obtain ⟨x, -, rfl⟩ := hrow b hb
    exact ⟨rfl, rfl⟩
  have hmem : ∀ i < wl.length, wl.getD i 0 ∈ wl := fun i hi => by
    rw [List.getD_eq_getElem _ _ hi]; exact List.getElem_mem hi
  have hstep : ∀ i, i + 1 < wl.length → wl.getD i 0 < wl.getD (i + 1) 0 := by
    intro i hi
    rw [List.getD_eq_getElem _ _ hi, List.getD_eq_getElem _ _ (by omega : i < wl.length)]
    exact List.pairwise_iff_getElem.mp hinc i (i + 1) (by omega) hi (by omega)
  have point : ∀ i ∈ order.leaves, i + 1 < wl.length := fun i hi => by have := SumTree.mem_of_perm ho hi; omega
  -- the irradiance of the path
  have irr : ∀ i < wl.length, (s.pathIrradianceExpr (fog wl p) i).eval fl
      = fl ((S.transmission i).eval fl * fl (fl (p * fl Real.pi) / den)) := by
    intro i hi
    unfold RealSensor.pathIrradianceExpr
    rw [fog.wavelength, fog.row hi]
    show fl ((S.transmission i).eval fl * fl (fl (fl (p + 0) * fl Real.pi) / den)) = _
    rw [add_zero, hfl.self hpd]
  have irr_pos : ∀ i < wl.length, 0 < (s.pathIrradianceExpr (fog wl p) i).eval fl := by
    intro i hi
    rw [irr i hi]
    exact fl_pos hfl (mul_pos (hS i hi).1 (fl_pos hfl (div_pos (fl_pos hfl (mul_pos hp hpi)) hden)))
  have own : ∀ i, s.ownIrradianceExpr (fog wl p) i = S.emission i := by
    intro i
    unfold RealSensor.ownIrradianceExpr
    rw [fog.wavelength]
  have irr_le : ∀ i < wl.length, (s.pathIrradianceExpr (fog wl p) i).eval fl ≤ (S.emission i).eval fl * (2 : ℝ) ^ (-55 : ℤ) := by
    intro i hi
    rw [irr i hi]
    have t0 := (hS i hi).1
    have a1 : fl (p * fl Real.pi) ≤ 2 * (p * fl Real.pi) := fl_le_two hfl (mul_pos hp hpi).le
    have a0 : 0 ≤ fl (p * fl Real.pi) := fl_nonneg hfl (mul_pos hp hpi).le
    have a2 : fl (fl (p * fl Real.pi) / den) ≤ 2 * (2 * (p * fl Real.pi) / den) :=
      (fl_le_two hfl (div_nonneg a0 hden.le)).trans (by gcongr)
    have a3 : 0 ≤ fl (fl (p * fl Real.pi) / den) := fl_nonneg hfl (div_nonneg a0 hden.le)
    have hC : 0 < 8 * (S.transmission i).eval fl * fl Real.pi / den := div_pos (mul_pos (mul_pos (by norm_num) t0) hpi) hden
    calc _ ≤ 2 * ((S.transmission i).eval fl * fl (fl (p * fl Real.pi) / den)) := fl_le_two hfl (mul_nonneg t0.le a3)
      _ ≤ 2 * ((S.transmission i).eval fl * (2 * (2 * (p * fl Real.pi) / den))) := by gcongr
      _ = p * (8 * (S.transmission i).eval fl * fl Real.pi / den) := by ring
      _ ≤ _ := (le_div_iff₀ hC).mp (hle.trans (hb i hi))
  refine ⟨hop, C123_nan hfl hop ?_ ?_ ?_ ?_ hd ?_ hwx.le hwy.le hk.le ?_ ?_⟩
  · intro b hb
    obtain ⟨x, -, rfl⟩ := hrow b hb
    exact hpd
  · intro b hb
    obtain ⟨x, hx, rfl⟩ := hrow b hb
    exact (hwl x hx).le
  · intro i hi
    rw [hlen] at hi
    have := congrFun (fog.wavelength wl p)
    rw [this, this]
    exact (hstep i hi).le
  · rw [hlen]; exact ho
  · intro i hi
    rw [hlen] at hi
    rw [fog.wavelength]
    exact (hS i hi).2.1.le
  · -- the path noise
    have hscale : 0 < (s.exposureUsedExpr order (fog wl p)).eval fl := by
      refine fl_pos hfl (mul_pos ?_ htime)
      show 0 < if fl (s.maxWellFill * s.maxN) < _ then fl (fl (s.maxWellFill * s.maxN) / _) else (1 : ℝ)
      have hcap : 0 < fl (s.maxWellFill * s.maxN) := fl_pos hfl (mul_pos hfill hwell)
      split_ifs with h
      · exact fl_pos hfl (div_pos hcap (hcap.trans h))
      · exact one_pos
    have hh : 0 < fl hC := fl_pos hfl (by norm_num [hC])
    have hcc : 0 < fl cC := fl_pos hfl (by norm_num [cC])
    refine fl_pos hfl (mul_pos (fl_pos hfl (mul_pos (fl_pos hfl (add_pos_of_pos_of_nonneg ?_ (le_refl (0 : ℝ)))) hscale)) hk)
    have rate : ∀ i < wl.length, 0 < (detectionExpr s.wX s.wY ((fog wl p).getD i 0 0)
        ((s.computed fun i => (fog wl p).getD i 0 0).efficiency i) (fpaExpr s.D s.f (pathRadianceExpr ((fog wl p).getD i 0))
          ((s.computed fun i => (fog wl p).getD i 0 0).transmission i) (.val 0))).eval fl := by
      intro i hi
      have e := congrFun (fog.wavelength wl p) i
      have q0 := (hS i hi).2.1
      rw [e]
      have q1 : 0 < ((s.computed fun i => (fog wl p).getD i 0 0).efficiency i).eval fl := by rw [fog.wavelength]; exact q0
      exact fl_pos hfl (mul_pos (fl_pos hfl (mul_pos (fl_pos hfl (mul_pos (fl_pos hfl (mul_pos (fl_pos hfl (div_pos
        (hwl _ (hmem i hi)) (fl_pos hfl (mul_pos hh hcc)))) q1)) hwx)) hwy))
        (fl_pos hfl (add_pos_of_pos_of_nonneg (irr_pos i hi) (le_refl (0 : ℝ)))))
    refine (SumTree.eval_pos hfl order fun i hi => ?_).2 ?_
    · have hi' := point i hi
      have e := congrFun (fog.wavelength wl p)
      refine fl_pos hfl (div_pos (fl_pos hfl (mul_pos (fl_pos hfl ?_) (fl_pos hfl (add_pos (rate (i + 1) hi') (rate i (by omega)))))) two_pos)
      show 0 < (fog wl p).getD (i + 1) 0 0 - (fog wl p).getD i 0 0
      rw [e, e]
      exact sub_pos.mpr (hstep i hi')
    · intro h
      rw [h] at ho
      have := ho.length_eq
      simp at this
      omega
  · intro i hi
    rw [hlen] at hi
    refine ⟨_, _, rfl, rfl, (irr_pos i hi).le, ?_, ?_⟩
    · rw [own]; exact (hS i hi).2.2.le
    · rw [own, hfl.absorb (show IsDouble ((S.emission i).eval fl) from (hfl _).1) (hS i hi).2.2 (irr_pos i hi).le (irr_le i hi), sub_self, hfl.zero]
      have : (0 : ℝ) ≤ 1 - (2 : ℝ) ^ (-46 : ℤ) := by norm_num
      exact mul_nonneg this (irr_pos i hi).le

/-- The light of the path need not be faint for so much to be lost: it can be more than 1/256 of the camera's own. -/
theorem lost_example (hfl : RoundsToNearest fl) {a : ℝ} (ha : a = (2 : ℝ) ^ (-8 : ℤ) + 3 * (2 : ℝ) ^ (-55 : ℤ)) :
    IsDouble a ∧ 1 / 256 < a ∧ fl (fl (a + 1) - 1) ≤ (1 - (2 : ℝ) ^ (-46 : ℤ)) * a := by
  have h1 : IsDouble a := ⟨2 ^ 47 + 3, -55, by norm_num, by rw [ha]; norm_num⟩
  have h2 : fl (a + 1) ≤ 1 + (2 : ℝ) ^ (-8 : ℤ) := by
    have := hfl.le_of_lt (m := 2 ^ 52 + 2 ^ 44) (by norm_num) (by norm_num) (-52) (x := a + 1) (by rw [ha]; norm_num)
    refine this.trans (le_of_eq ?_)
    norm_num
  have h3 : fl (fl (a + 1) - 1) ≤ (2 : ℝ) ^ (-8 : ℤ) := by
    have e : fl ((2 : ℝ) ^ (-8 : ℤ)) = (2 : ℝ) ^ (-8 : ℤ) := hfl.self ⟨1, -8, by norm_num, by norm_num⟩
    have := hfl.mono (show fl (a + 1) - 1 ≤ (2 : ℝ) ^ (-8 : ℤ) by linarith)
    rwa [e] at this
  refine ⟨h1, by rw [ha]; norm_num, h3.trans ?_⟩
  rw [ha]
  norm_num

end lost

end PyBSM
