import Verif.Props.SimulateResults

/-!
# C76: the point spread function inside `simulate_image`; coarse reference images are not blurred
-/

noncomputable section

open Classical

namespace PyBSM

open Spec

theorem resizeCoord_centre {n : ℕ} (hn : Odd n) : resizeCoord n 1 0 = (n / 2, 0) := by
  obtain ⟨m, rfl⟩ := hn
  have e2 : (2 * m + 1) / 2 = m := by omega
  unfold resizeCoord
  have e : (((0 : ℕ) : ℝ) + 0.5) * (((2 * m + 1 : ℕ) : ℝ) / ((1 : ℕ) : ℝ)) - 0.5 = m := by push_cast; ring
  have f : ⌊((m : ℝ))⌋ = (m : ℤ) := Int.floor_natCast m
  simp only [e, f, e2]
  rw [if_neg (by omega)]
  split_ifs with h
  · rw [Prod.mk.injEq]; exact ⟨by push_cast at h; omega, rfl⟩
  · simp

/-- The centre pixel of the point spread function is the mean of the OTF. -/
theorem rawPsf_centre {M N : ℕ} (hM : 0 < M) (hN : 0 < N) (otf : ℕ → ℕ → ℂ) :
    (rawPsf M N otf).px (M / 2) (N / 2) = (∑ k ∈ Finset.range M, ∑ l ∈ Finset.range N, (otf k l).re) / (M * N) := by
  rw [C45_transform hM hN, sub_self, sub_self]
  unfold centredPsf
  simp only [sub_self, mul_zero, zero_div, add_zero, Complex.exp_zero, mul_one]
  have : (1 / ((M : ℂ) * N)) = ((1 / ((M : ℝ) * N) : ℝ) : ℂ) := by push_cast; ring
  rw [this, Complex.re_ofReal_mul, Complex.re_sum]
  simp only [Complex.re_sum]
  ring

/-- A point spread function narrower than a pixel of the reference image becomes a single pixel 1. -/
theorem otfToPsf_tiny {M : ℕ} (hM : 10 < M) (oM : Odd M) {otf : ℕ → ℕ → ℂ} {df dxOut : Scal} {d o : ℝ}
    (hd : df.val = .fin d) (hd0 : 0 < d) (ho : dxOut.val = .fin o) (hlt : 1 / d < o)
    (hsum : ∑ k ∈ Finset.range M, ∑ l ∈ Finset.range M, (otf k l).re ≠ 0) :
    ∃ p, otfToPsf true M M otf df dxOut = .ok p ∧ SameImg p (impulse 1 1 0 0) := by
  have hM0 : (0 : ℝ) < M := by
    have : 0 < M := by omega
    positivity
  have ho0 : 0 < o := lt_trans (by positivity) hlt
  have hx : (Scal.py (.fin (M : ℝ)) * df).val = .fin (M * d) := by
    rw [Scal.val_mul, hd]; exact XR.fin_mul _ _
  obtain ⟨q, e1, e2⟩ := Scal.div_fin (a := .py 1) (x := 1) rfl hx (mul_ne_zero hM0.ne' hd0.ne')
  have hy : (Scal.py (.fin (M : ℝ)) * q).val = .fin (M * (1 / (M * d))) := by
    rw [Scal.val_mul, e2]; exact XR.fin_mul _ _
  obtain ⟨sx, e3, e4⟩ := Scal.div_fin hy ho ho0.ne'
  have e5 : (M : ℝ) * (1 / (M * d)) / o = 1 / d / o := by field_simp
  rw [e5] at e4
  have e6 : pyInt sx.val = .ok 0 := by
    rw [e4]
    unfold pyInt
    dsimp only
    rw [if_pos (by positivity), Except.ok.injEq, Int.floor_eq_zero_iff]
    exact ⟨by positivity, (div_lt_one ho0).mpr hlt⟩
  set x : Img := rawPsf M M otf with hxdef
  have hxh : x.h = M := rfl
  have hxw : x.w = M := rfl
  set mean := (∑ k ∈ Finset.range M, ∑ l ∈ Finset.range M, (otf k l).re) / ((M : ℝ) * M) with hmean
  have hmean0 : mean ≠ 0 := div_ne_zero hsum (by positivity)
  obtain ⟨z, e7, z1, z2, z3⟩ : ∃ z, cvResize x 1 1 = .ok z ∧ z.h = 1 ∧ z.w = 1 ∧ z.px 0 0 = mean := by
    unfold cvResize
    rw [if_neg (by rw [hxh, hxw]; omega)]
    refine ⟨_, rfl, rfl, rfl, ?_⟩
    dsimp only
    rw [hxh, hxw, resizeCoord_centre oM]
    dsimp only
    rw [hxdef, rawPsf_centre (by omega) (by omega)]
    ring
  have zsum : z.sum = mean := by
    unfold Img.sum
    rw [z1, z2]
    simp [z3]
  obtain ⟨y, e8⟩ : ∃ y, normalize z = .ok y := by
    unfold normalize
    rw [if_neg (by rw [zsum]; exact hmean0)]
    exact ⟨_, rfl⟩
  obtain ⟨-, y1, y2, ysum, y3⟩ := normalize_ok e8
  have hy : SameImg y (impulse 1 1 0 0) := by
    refine ⟨y1.trans z1, y2.trans z2, fun i hi j hj => ?_⟩
    rw [y1, z1] at hi
    rw [y2, z2] at hj
    have hi : i = 0 := by omega
    have hj : j = 0 := by omega
    subst hi hj
    rw [y3, z3, zsum, div_self hmean0]
    simp [impulse]
  have hmid : SameImg (getMiddle y 10) (impulse 1 1 0 0) := by
    have h1 : y.h = 1 := hy.h
    have h2 : y.w = 1 := hy.w
    have lo : pySliceBound 1 (((1 : ℕ) : ℤ) - (10 : ℕ)) = 0 := by decide
    refine ⟨?_, ?_, fun i hi j hj => ?_⟩
    · unfold getMiddle; dsimp only; rw [h1]; decide
    · unfold getMiddle; dsimp only; rw [h2]; decide
    · have hh : (getMiddle y 10).h = 1 := by unfold getMiddle; dsimp only; rw [h1]; decide
      have hw : (getMiddle y 10).w = 1 := by unfold getMiddle; dsimp only; rw [h2]; decide
      rw [hh] at hi
      rw [hw] at hj
      have hi : i = 0 := by omega
      have hj : j = 0 := by omega
      subst hi hj
      have hp : (getMiddle y 10).px 0 0 = y.px 0 0 := by
        unfold getMiddle; dsimp only; rw [h1, h2]; congr 1
      rw [hp]
      exact hy.px 0 (by rw [h1]; norm_num) 0 (by rw [h2]; norm_num)
  have hsum1 : (impulse 1 1 0 0).sum = 1 := impulse_sum (by norm_num) (by norm_num)
  obtain ⟨p, e10, hp⟩ := normalize_same hmid hsum1
  refine ⟨p, ?_, hp⟩
  unfold otfToPsf
  have hmx : max 1 (0 : ℤ).toNat = 1 := rfl
  simp only [Bool.not_true, Bool.false_eq_true, if_false, e1, ok_bind, e3, e6, hmx, ← hxdef, e7, e8, min_self]
  rw [supportSize_head hM (by rw [sum_congr hmid, hsum1]; norm_num), ok_bind, e10]

/-- **C76** (PSF): without a sharpening kernel, the point spread function that the simulator derives from its
1501 x 1501 samples of the system OTF is, before resampling, the properly centred one multiplied by a cosine, which
is negative where the row and column offsets from the centre add up to between a quarter and three quarters of the
array: the simulated blur is not the system's blur. -/
theorem C76_psf {s : RealSensor} (hs : s.Optical) (g : RealScene) {pairs : List (ℝ × ℝ)} (hb : Band pairs) (t c : ℝ)
    {otf : ℕ → ℕ → ℂ} (ho : ∀ i < 1501, ∀ j < 1501,
      otf i j = ((opticsAt s g pairs t (colFreq 1501 c j) (rowFreq 1501 c i) : ℝ) : ℂ)) (i j : ℕ) :
    (rawPsf 1501 1501 otf).px i j = (centredPsf 1501 1501 otf i j).re
      * Real.cos (2 * Real.pi * (((i : ℝ) - 750) / 1501 + ((j : ℝ) - 750) / 1501)) := by
  have h := C45_odd (M := 1501) (N := 1501) (by decide) (by decide) (otf := otf) ?_ i j
  · rw [h]
    norm_num
  · intro k hk l hl
    rw [ho k hk l hl, ho _ (by omega) _ (by omega), Complex.conj_ofReal]
    congr 1
    apply opticsAt_even hs g hb
    · right
      unfold colFreq
      rw [Nat.cast_sub (by omega)]
      push_cast
      ring
    · right
      unfold rowFreq
      rw [Nat.cast_sub (by omega)]
      push_cast
      ring

theorem applyOtf_tiny {x : Img} (hxh : x.h ≠ 0) (hxw : x.w ≠ 0) {M : ℕ} (hM : 10 < M) (oM : Odd M) {otf : ℕ → ℕ → ℂ}
    {gsd range df ifov : Scal} {g r d e : ℝ} (hg : gsd.val = .fin g) (hr : range.val = .fin r) (hr0 : 0 < r)
    (hd : df.val = .fin d) (hd0 : 0 < d) (hi : ifov.val = .fin e) (he : e ≠ 0) (hlt : 1 / d < 2 * Real.arctan (g / 2 / r))
    (hsum : ∑ k ∈ Finset.range M, ∑ l ∈ Finset.range M, (otf k l).re ≠ 0) {nh nw np : ℤ}
    (hh : IsRoundHalfEven (x.h * (g / r) / e) nh) (hw : IsRoundHalfEven (x.w * (g / r) / e) nw)
    (hp : IsRoundHalfEven ((1 : ℕ) * (g / r) / e) np) (ph : 0 < nh) (pw : 0 < nw) (pp : 0 < np) :
    ∃ sim sp, applyOtfToImage true x gsd range M M otf df ifov = .ok (sim, sp) ∧ (sim.h : ℤ) = nh ∧ (sim.w : ℤ) = nw
      ∧ (∀ lo hi, Within x lo hi → Within sim lo hi) ∧ (g / r = e → SameImg sim x) := by
  obtain ⟨half, a1, a2⟩ := Scal.div_fin hg (b := .py 2) (y := 2) rfl two_ne_zero
  obtain ⟨q, a3, a4⟩ := Scal.div_fin a2 hr hr0.ne'
  obtain ⟨dxIn, a5, a6⟩ := Scal.div_fin hg hr hr0.ne'
  have hq : (2 * q.val.arctan : XR) = .fin (2 * Real.arctan (g / 2 / r)) := by
    rw [a4]
    show (2 : XR) * .fin (Real.arctan (g / 2 / r)) = _
    exact XR.fin_mul _ _
  obtain ⟨psf, b1, b2⟩ := otfToPsf_tiny hM oM (otf := otf) hd hd0 (dxOut := .np (2 * q.val.arctan)) hq hlt hsum
  have p1 : psf.h = 1 := b2.h
  have p2 : psf.w = 1 := b2.w
  obtain ⟨blur, c1, c2, c3, -, -, c4⟩ := filter2D_ok (x := x) (k := psf) hxh hxw (by omega) (by omega)
  have c5 := c4 0 0 (by omega) (by omega) (by rw [p1, p2]; exact b2)
  have bh : blur.h ≠ 0 := by rw [c2]; exact hxh
  have bw : blur.w ≠ 0 := by rw [c3]; exact hxw
  obtain ⟨sim, d1, d2, d3, d4⟩ := C46_resample blur bh bw a6 hi he (nw := nw) (nh := nh) (by rw [c3]; exact hw)
    (by rw [c2]; exact hh) pw ph
  obtain ⟨sp, f1, -⟩ := C46_resample psf (by omega) (by omega) a6 hi he (nw := np) (nh := np) (by rw [p2]; exact hp)
    (by rw [p1]; exact hp) pp pp
  refine ⟨sim, sp, ?_, d2, d3, fun lo hi h => d4 lo hi ?_, fun heq => ?_⟩
  · unfold applyOtfToImage
    simp only [Bool.not_true, Bool.false_eq_true, if_false, a1, a3, a5, b1, c1, d1, f1, ok_bind]
  · intro i hi' j hj
    rw [c5.px i hi' j hj]
    exact h i (by rw [← c2]; exact hi') j (by rw [← c3]; exact hj)
  · obtain ⟨y, y1, y2⟩ := C46_identity blur bh bw a6 (by rw [hi, heq]) (by rw [heq]; exact he)
    rw [d1, Except.ok.injEq] at y1
    subst y1
    refine ⟨y2.h.trans c5.h, y2.w.trans c5.w, fun i hi' j hj => ?_⟩
    rw [y2.px i hi' j hj]
    exact c5.px i (by rw [← y2.h]; exact hi') j (by rw [← y2.w]; exact hj)

/-- **C76** (coarse images): if a pixel of the reference image, seen from the flat-Earth distance, is wider than the
whole array of the point spread function, the simulation succeeds without blurring: the blurred image is the true
image resampled to the sensor's pixels, and the true image itself where the two pixel sizes agree. -/
theorem C76_coarse {env : Env} {s : RealSensor} {sc : Scenario} {r : RefImage} {cal : List (ℝ × ℝ)}
    {B : List (Fin 6 → ℝ)} (h : Simulation env s sc r cal B) (hc : Counting s B) (hk : s.filterKernel.length ≤ 1)
    {g : RealScene} (hv : FlatView g sc) {γ : ℝ} (hγ : r.gsd = .fin γ) (hh : r.img.h ≠ 0) (hw : r.img.w ≠ 0)
    (hcoarse : ∀ c, IsCutoff s.D (s.whiteBand B) c → 750 / c < 2 * Real.arctan (γ / 2 / g.slant))
    (hotf : ∀ c, IsCutoff s.D (s.whiteBand B) c → ∑ k ∈ Finset.range 1501, ∑ l ∈ Finset.range 1501,
      opticsAt s g (s.whiteBand B) s.intTime (colFreq 1501 c l) (rowFreq 1501 c k) ≠ 0)
    {e : ℝ} (he : e = (s.pX + s.pY) / 2 / s.f) (he0 : e ≠ 0) {nh nw np : ℤ}
    (rh : IsRoundHalfEven (r.img.h * (γ / g.slant) / e) nh) (rw' : IsRoundHalfEven (r.img.w * (γ / g.slant) / e) nw)
    (rp : IsRoundHalfEven ((1 : ℕ) * (γ / g.slant) / e) np) (ph : 0 < nh) (pw : 0 < nw) (pp : 0 < np) (rng : Rng) :
    ∃ R, simulateImage env true rng r s.toSensor sc = .ok R ∧ (R.blurImg.h : ℤ) = nh ∧ (R.blurImg.w : ℤ) = nw
      ∧ (∀ lo hi, Within R.trueImg lo hi → Within R.blurImg lo hi) ∧ Within R.trueImg 0 s.maxN
      ∧ (γ / g.slant = e → SameImg R.blurImg R.trueImg) := by
  obtain ⟨T, srt, ρ, c, F, otf, atm, -, -, -, h4, h5, h6, hcut, hc0, hF, hO, -, h7⟩ := C73_simulation h hv
  have hT : Within T 0 s.maxN := by
    intro i hi j hj
    rw [h4] at hi
    rw [h5] at hj
    rw [h6 i hi j hj]
    have := unit_mem (ρ (r.img.px i j))
    exact pixel_range h.usable h.well h.wavelengths hc this.1 this.2
  have hsl := slant_pos_of hv.viewing
  have hsum : ∑ k ∈ Finset.range 1501, ∑ l ∈ Finset.range 1501, (otf k l).re ≠ 0 := by
    have e : ∑ k ∈ Finset.range 1501, ∑ l ∈ Finset.range 1501, (otf k l).re
        = ∑ k ∈ Finset.range 1501, ∑ l ∈ Finset.range 1501,
          opticsAt s g (s.whiteBand B) s.intTime (colFreq 1501 c l) (rowFreq 1501 c k) := by
      refine Finset.sum_congr rfl fun k hk' => Finset.sum_congr rfl fun l hl => ?_
      rw [hO k (Finset.mem_range.mp hk') l (Finset.mem_range.mp hl), Complex.ofReal_re, hF.1 hk, mul_one]
    rw [e]
    exact hotf c hcut
  obtain ⟨sim, sp, e1, e2, e3, e4, e5⟩ := applyOtf_tiny (x := T) (by rw [h4]; exact hh) (by rw [h5]; exact hw) (M := 1501)
    (by norm_num) (by decide) (otf := otf) (gsd := .py r.gsd) (range := .np (.fin g.slant))
    (df := .np (.fin (c / 750))) (ifov := .py (.fin ((s.pX + s.pY) / 2 / s.f))) (g := γ) (r := g.slant) hγ rfl hsl rfl
    (by positivity) (e := e) (by rw [he]; rfl) he0 (by rw [one_div_div]; exact hcoarse c hcut) hsum (nh := nh) (nw := nw)
    (by rw [h4]; exact rh) (by rw [h5]; exact rw') rp ph pw pp
  rw [h7, e1]
  dsimp only
  rw [if_neg]
  · exact ⟨_, rfl, e2, e3, e4, hT, e5⟩
  · rintro ⟨i, hi, j, hj, hlt⟩
    exact absurd (e4 _ _ hT i hi j hj).1 (not_le.mpr hlt)

end PyBSM
