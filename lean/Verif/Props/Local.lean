import Verif.Spec.Local
import Verif.Props.Registration

/-!
# C113: what a simulated pixel can see
-/

noncomputable section

open Classical

namespace PyBSM

open Spec

theorem reflect101_step {n : ℕ} (p : ℤ) : |(reflect101 n (p + 1) : ℤ) - reflect101 n p| ≤ 1 := by
  unfold reflect101
  split_ifs with h
  · simp
  · obtain ⟨m, hm⟩ : ∃ m : ℤ, m = (n : ℤ) - 1 := ⟨_, rfl⟩
    have hm0 : 0 < 2 * m := by omega
    rw [← hm]
    have h0 := Int.emod_nonneg p (b := 2 * m) (by omega)
    have h1 := Int.emod_lt_of_pos p (b := 2 * m) hm0
    have e : (p + 1) % (2 * m) = if p % (2 * m) + 1 = 2 * m then 0 else p % (2 * m) + 1 := by
      rw [← Int.emod_add_emod]
      split_ifs with hc
      · rw [hc, Int.emod_self]
      · exact Int.emod_eq_of_lt (by omega) (by omega)
    rw [e]
    generalize p % (2 * m) = r at *
    dsimp only
    rw [abs_le]
    split_ifs <;> constructor <;> omega

/-- Mirroring at the border brings no two positions further apart. -/
theorem reflect101_near {n : ℕ} (p : ℤ) (k : ℕ) : |(reflect101 n (p + k) : ℤ) - reflect101 n p| ≤ k := by
  induction k with
  | zero => simp
  | succ k ih =>
    have h := reflect101_step (n := n) (p + k)
    have e : p + ((k + 1 : ℕ) : ℤ) = p + k + 1 := by push_cast; ring
    rw [e]
    rw [abs_le] at *
    push_cast
    constructor <;> omega

theorem reflect101_dist {n : ℕ} (p q : ℤ) {k : ℕ} (h : |p - q| ≤ k) : |(reflect101 n p : ℤ) - reflect101 n q| ≤ k := by
  rcases le_total q p with hq | hq
  · obtain ⟨m, hm⟩ := Int.eq_ofNat_of_zero_le (sub_nonneg.mpr hq)
    have e : p = q + m := by omega
    rw [e]
    refine (reflect101_near q m).trans ?_
    rw [hm] at h
    simpa using h
  · obtain ⟨m, hm⟩ := Int.eq_ofNat_of_zero_le (sub_nonneg.mpr hq)
    have e : q = p + m := by omega
    rw [e, abs_sub_comm]
    refine (reflect101_near p m).trans ?_
    rw [abs_sub_comm, hm] at h
    simpa using h

/-- A filtered pixel depends on the pixels at most half the kernel away. -/
theorem filter2D_local {x x' k y y' : Img} (h : filter2D x k = .ok y) (h' : filter2D x' k = .ok y') (hh : x.h = x'.h)
    (hw : x.w = x'.w) {r c : ℕ} (hr : r < x.h) (hc : c < x.w)
    (hx : ∀ i < x.h, ∀ j < x.w, |(i : ℝ) - r| ≤ (k.h / 2 : ℕ) → |(j : ℝ) - c| ≤ (k.w / 2 : ℕ) → x.px i j = x'.px i j) :
    y.px r c = y'.px r c := by
  obtain ⟨p1, p2, -, -, e⟩ := filter2D_px h
  obtain ⟨-, -, -, -, e'⟩ := filter2D_px h'
  have near : ∀ {n m q t : ℕ}, q < n → t < m → |((reflect101 n ((q : ℤ) + t - (m / 2 : ℕ)) : ℕ) : ℝ) - q| ≤ (m / 2 : ℕ) := by
    intro n m q t hq ht
    have h1 := reflect101_dist (n := n) ((q : ℤ) + t - (m / 2 : ℕ)) q (k := m / 2) (by rw [abs_le]; constructor <;> omega)
    rw [reflect101_self hq] at h1
    generalize reflect101 n ((q : ℤ) + t - (m / 2 : ℕ)) = z at *
    have h2 : ((|(z : ℤ) - q| : ℤ) : ℝ) ≤ (((m / 2 : ℕ) : ℤ) : ℝ) := Int.cast_le.mpr h1
    push_cast [Int.cast_abs] at h2 ⊢
    exact h2
  rw [e, e', ← hh, ← hw]
  refine Finset.sum_congr rfl fun i hi => Finset.sum_congr rfl fun j hj => ?_
  rw [Finset.mem_range] at hi hj
  congr 1
  exact hx _ (reflect101_lt p1 _) _ (reflect101_lt p2 _) (near hr hi) (near hc hj)

/-- A resized pixel depends on the pixels less than one away from the position it reads. -/
theorem readAt_local {src dst d : ℕ} (hs : 0 < src) (hd : d < dst) {f g : ℕ → ℝ}
    (h : ∀ i < src, |(i : ℝ) - positionOf src dst d| < 1 → f i = g i) : readAt src dst d f = readAt src dst d g := by
  have hp : ((d : ℝ) + 0.5) * ((src : ℝ) / dst) - 0.5 = positionOf src dst d := by
    unfold positionOf; norm_num
  have hdst : (0 : ℝ) < dst := by
    have : 0 < dst := by omega
    positivity
  have hsrc : (0 : ℝ) < src := by positivity
  have lo : -(1 / 2) < positionOf src dst d := by
    unfold positionOf
    have : 0 < ((d : ℝ) + 1 / 2) * (src / dst) := by positivity
    linarith
  have hi : positionOf src dst d < src - 1 / 2 := by
    unfold positionOf
    have h1 : (d : ℝ) + 1 / 2 < dst := by
      have : (d : ℝ) + 1 ≤ dst := by exact_mod_cast hd
      linarith
    have : ((d : ℝ) + 1 / 2) * (src / dst) < dst * (src / dst) := mul_lt_mul_of_pos_right h1 (by positivity)
    rw [mul_div_cancel₀ _ hdst.ne'] at this
    linarith
  unfold readAt resizeCoord
  dsimp only
  rw [hp]
  generalize positionOf src dst d = t at *
  have u1 := Int.floor_le t
  have u2 := Int.lt_floor_add_one t
  by_cases c1 : ⌊t⌋ < 0
  · rw [if_pos c1]
    dsimp only
    have : t < 0 := by
      have : (⌊t⌋ : ℝ) + 1 ≤ 0 := by exact_mod_cast c1
      linarith
    rw [h 0 hs (by rw [abs_lt]; push_cast; constructor <;> linarith)]
    ring
  · rw [if_neg c1]
    obtain ⟨s, hs'⟩ := Int.eq_ofNat_of_zero_le (not_lt.mp c1)
    rw [hs'] at u1 u2 ⊢
    push_cast at u1 u2
    by_cases c2 : (src : ℤ) - 1 ≤ s
    · have hss : (src : ℝ) ≤ s + 1 := by exact_mod_cast (by omega : (src : ℤ) ≤ s + 1)
      rw [if_pos c2]
      dsimp only
      have e : ((src - 1 : ℕ) : ℝ) = src - 1 := by rw [Nat.cast_sub (by omega)]; simp
      rw [h (src - 1) (by omega) (by rw [abs_lt, e]; constructor <;> linarith)]
      ring
    · rw [if_neg c2]
      dsimp only
      rw [Int.toNat_natCast, h s (by omega) (by rw [abs_lt]; constructor <;> linarith), min_eq_left (by omega)]
      by_cases c3 : t = s
      · rw [c3]
        push_cast
        ring
      · have : (s : ℝ) < t := lt_of_le_of_ne u1 (Ne.symm c3)
        rw [h (s + 1) (by omega) (by rw [abs_lt]; push_cast; constructor <;> linarith)]

/-- **C113** (local): a pixel of the image that `apply_otf_to_image` returns depends only on the reference pixels around
its place: less than half the point spread function plus one away, also at the border. -/
theorem C113_local {x x' : Img} {gsd range df ifov : Scal} {M N : ℕ} {otf : ℕ → ℕ → ℂ} {sim sp sim' sp' p : Img}
    (h : applyOtfToImage true x gsd range M N otf df ifov = .ok (sim, sp))
    (h' : applyOtfToImage true x' gsd range M N otf df ifov = .ok (sim', sp')) {g r : ℝ} (hg : gsd.val = .fin g)
    (hr : range.val = .fin r) (hr0 : 0 < r) (hp : otfToPsf true M N otf df (.np (.fin (pixelAngle g r))) = .ok p)
    {i j : ℕ} (hi : i < sim.h) (hj : j < sim.w)
    (hx : SameAround x x' (positionOf x.h sim.h i) (positionOf x.w sim.w j) ((p.h / 2 : ℕ) + 1) ((p.w / 2 : ℕ) + 1)) :
    sim.px i j = sim'.px i j := by
  obtain ⟨half, q, psf, blur, dxIn, a1, a2, ho, h3, h4, h5, h6, h7⟩ := apply_parts h hg hr hr0
  obtain ⟨half', q', psf', blur', dxIn', b1, b2, ho', k3, k4, k5, k6, k7⟩ := apply_parts h' hg hr hr0
  rw [Scal.val_np] at ho ho'
  rw [ho, hp, Except.ok.injEq] at h3
  rw [ho', hp, Except.ok.injEq] at k3
  subst h3 k3
  rw [h5, Except.ok.injEq] at k5
  subst k5
  obtain ⟨p1, p2, s1, s2, -⟩ := filter2D_px h4
  obtain ⟨-, -, s1', s2', -⟩ := filter2D_px k4
  obtain ⟨r1, r2⟩ := resample_resize h6
  have e := r2 blur' (by rw [s1', s1, hx.h]) (by rw [s2', s2, hx.w])
  rw [k6] at e
  have e := e.symm
  have tri : ∀ {a b t : ℝ} {m : ℕ}, |a - b| ≤ m → |b - t| < 1 → |a - t| < m + 1 := by
    intro a b t m h1 h2
    have : |a - t| ≤ |a - b| + |b - t| := abs_sub_le a b t
    linarith
  rw [cvResize_px r1, cvResize_px e, s1, s2, s1', s2', ← hx.h, ← hx.w]
  refine readAt_local p1 hi fun a ha h1 => readAt_local p2 hj fun b hb h2 => ?_
  exact filter2D_local h4 k4 hx.h hx.w ha hb fun a' ha' b' hb' n1 n2 => hx.px a' ha' b' hb' (tri n1 h1) (tri n2 h2)

/-! ## `simulate_image` -/

/-- The value of a computation that succeeds. -/
def valueOr {α : Type} (d : α) : Except PyErr α → α
  | .ok y => y
  | .error _ => d

theorem mapM_values {α β : Type} {f : α → Except PyErr β} (d : β) : ∀ {xs : List α} {ys : List β}, xs.mapM f = .ok ys →
    ys = xs.map fun x => valueOr d (f x) := by
  intro xs
  induction xs with
  | nil =>
    intro ys h
    rw [List.mapM_nil] at h
    cases h
    rfl
  | cons x xs ih =>
    intro ys h
    rw [List.mapM_cons] at h
    simp only [bind_ok] at h
    obtain ⟨y, h1, zs, h2, h3⟩ := h
    cases h3
    rw [ih h2, List.map_cons, h1]
    rfl

theorem allReal_values {xs : List XR} {ys : List ℝ} (h : allReal xs = .ok ys) : ys = xs.map fun x => x.real?.getD 0 := by
  unfold allReal at h
  split at h
  · rename_i r hr
    cases h
    clear * - hr
    induction xs generalizing ys with
    | nil =>
      rw [List.mapM_nil] at hr
      cases hr
      rfl
    | cons x xs ih =>
      rw [List.mapM_cons] at hr
      cases hx : x.real? with
      | none => rw [hx] at hr; cases hr
      | some a =>
        cases hy : xs.mapM XR.real? with
        | none => rw [hx, hy] at hr; cases hr
        | some as =>
          rw [hx, hy] at hr
          cases hr
          rw [List.map_cons, hx, ← ih hy]
          rfl
  · cases h

/-- What a pixel value of the reference image becomes in the true image, for a photoelectron table and a calibration. -/
def pixelMap (ref pe pix refl : List XR) (x : ℝ) : ℝ :=
  (valueOr .nan (interp1dStrict ref pe (clip01 (interp1dSeg (.fin x) (sortKey (pix.zip refl)))))).real?.getD 0

theorem trueImage_map {r : RefImage} {ref pe t : List XR} {tr : List ℝ} (h1 : trueImage r ref pe = .ok t)
    (h2 : allReal t = .ok tr) : tr = r.img.ravel.map (pixelMap ref pe r.pixValues r.reflValues) := by
  unfold trueImage at h1
  simp only [bind_ok] at h1
  obtain ⟨fl, h3, h4⟩ := h1
  unfold imgToReflectance at h3
  split_ifs at h3
  rw [Except.ok.injEq] at h3
  subst h3
  rw [allReal_values h2, mapM_values .nan h4, List.map_map, List.map_map, List.map_map]
  rfl

/-- Two simulations with the same sensor and scenario map pixel values in the same way and apply the same OTF. -/
theorem simulate_pair {env : Env} {rng rng' : Rng} {r r' : RefImage} {s : Sensor} {sc : Scenario} {R R' : SimResult}
    (h : simulateImage env true rng r s sc = .ok R) (h' : simulateImage env true rng' r' s sc = .ok R')
    (hp : r'.pixValues = r.pixValues) (hq : r'.reflValues = r.reflValues) :
    R.trueImg.h = r.img.h ∧ R.trueImg.w = r.img.w ∧ R'.trueImg.h = r'.img.h ∧ R'.trueImg.w = r'.img.w
      ∧ ∃ (P : ℝ → ℝ) (otf : ℕ → ℕ → ℂ) (df ifov : Scal) (sp sp' : Img),
        (∀ i < r.img.h, ∀ j < r.img.w, R.trueImg.px i j = P (r.img.px i j))
        ∧ (∀ i < r'.img.h, ∀ j < r'.img.w, R'.trueImg.px i j = P (r'.img.px i j))
        ∧ applyOtfToImage true R.trueImg (.py r.gsd) (.np (flatSlantRange (sc.readAtm env.files).2.1)) 1501 1501 otf df ifov
          = .ok (R.blurImg, sp)
        ∧ applyOtfToImage true R'.trueImg (.py r'.gsd) (.np (flatSlantRange (sc.readAtm env.files).2.1)) 1501 1501 otf df
          ifov = .ok (R'.blurImg, sp') := by
  unfold simulateImage at h h'
  simp only [bind_ok] at h h'
  obtain ⟨atm, e1, ⟨ref, pe, wl, w⟩, e2, mn, e3, otf, e4, h⟩ := h
  obtain ⟨atm', f1, ⟨ref', pe', wl', w'⟩, f2, mn', f3, otf', f4, h'⟩ := h'
  rw [e1, Except.ok.injEq] at f1
  subst f1
  rw [e2, Except.ok.injEq] at f2
  simp only [Prod.mk.injEq] at f2
  obtain ⟨rfl, rfl, rfl, rfl⟩ := f2
  rw [e3, Except.ok.injEq] at f3
  subst f3
  rw [e4, Except.ok.injEq] at f4
  subst f4
  split_ifs at h h' with hdf
  simp only [bind_ok] at h h'
  obtain ⟨ifov, e5, t, e6, tr, e7, rows, e8, ⟨blur, sp⟩, e9, h⟩ := h
  obtain ⟨ifov', f5, t', f6, tr', f7, rows', f8, ⟨blur', sp'⟩, f9, h'⟩ := h'
  rw [e5, Except.ok.injEq] at f5
  subst f5
  rw [e8, Except.ok.injEq] at f8
  subst f8
  have m := trueImage_map e6 e7
  have m' := trueImage_map f6 f7
  rw [hp, hq] at m'
  split_ifs at h h'
  split at h
  · rename_i g hg
    rw [hg] at h'
    rw [Except.ok.injEq] at h
    rw [Except.ok.injEq] at h'
    subst h h'
    subst m m'
    exact ⟨rfl, rfl, rfl, rfl, pixelMap ref pe r.pixValues r.reflValues, _, _, ifov, sp, sp',
      fun i hi j hj => imgOfPixels_map _ _ hi hj, fun i hi j hj => imgOfPixels_map _ _ hi hj, e9, f9⟩
  · cases h

/-- Only the samples of the OTF matter. -/
theorem rawPsf_congr {M N : ℕ} (hM : 0 < M) (hN : 0 < N) {otf otf' : ℕ → ℕ → ℂ}
    (h : ∀ i < M, ∀ j < N, otf i j = otf' i j) : rawPsf M N otf = rawPsf M N otf' := by
  unfold rawPsf ifft2
  congr 1
  funext i j
  congr 2
  refine Finset.sum_congr rfl fun k _ => Finset.sum_congr rfl fun l _ => ?_
  have e : otf (fftshiftIdx M k) (fftshiftIdx N l) = otf' (fftshiftIdx M k) (fftshiftIdx N l) :=
    h _ (Nat.mod_lt _ hM) _ (Nat.mod_lt _ hN)
  dsimp only
  rw [e]

theorem otfToPsf_congr {u : Bool} {M N : ℕ} (hM : 0 < M) (hN : 0 < N) {otf otf' : ℕ → ℕ → ℂ}
    (h : ∀ i < M, ∀ j < N, otf i j = otf' i j) (df dx : Scal) : otfToPsf u M N otf df dx = otfToPsf u M N otf' df dx := by
  unfold otfToPsf
  rw [rawPsf_congr hM hN h]

theorem apply_congr {u : Bool} {x : Img} {gsd range df ifov : Scal} {M N : ℕ} (hM : 0 < M) (hN : 0 < N)
    {otf otf' : ℕ → ℕ → ℂ} (h : ∀ i < M, ∀ j < N, otf i j = otf' i j) :
    applyOtfToImage u x gsd range M N otf df ifov = applyOtfToImage u x gsd range M N otf' df ifov := by
  unfold applyOtfToImage
  simp only [otfToPsf_congr hM hN h]

theorem sharpening_unique {s : RealSensor} {diag : ℕ → ℕ → Bool} {F F' : ℝ → ℝ → ℝ} (h : s.Sharpening diag F)
    (h' : s.Sharpening diag F') (u v : ℝ) : F u v = F' u v := by
  by_cases hk : s.filterKernel.length ≤ 1
  · rw [h.1 hk, h'.1 hk]
  · have e := h.2 (by omega) 1 (fun _ => u) fun _ => v
    rw [h'.2 (by omega) 1 (fun _ => u) fun _ => v, Except.ok.injEq] at e
    have := congrArg (fun l => l.getD 0 .nan) e
    simp only [vec, List.range_one, List.map_cons, List.map_nil, List.getD_cons_zero, XR.fin_inj] at this
    exact this.symm

/-- **C113** (`simulate_image`): take two reference images of the same size, ground sample distance and calibration, and
simulate them with the same sensor and scenario. The blurred images are the same at every pixel around whose place, that is
within half the point spread function of the system plus one pixel, the two reference images are the same. -/
theorem C113_simulated {env : Env} {s : RealSensor} {sc : Scenario} {r r' : RefImage} {cal : List (ℝ × ℝ)}
    {B : List (Fin 6 → ℝ)} (h : Simulation env s sc r cal B) (h' : Simulation env s sc r' cal B) {g : RealScene}
    (hv : FlatView g sc) {γ : ℝ} (hγ : r.gsd = .fin γ) (hγ' : r'.gsd = .fin γ) {rng rng' : Rng} {R R' : SimResult}
    (hR : simulateImage env true rng r s.toSensor sc = .ok R)
    (hR' : simulateImage env true rng' r' s.toSensor sc = .ok R') :
    ∃ (c : ℝ) (F : ℝ → ℝ → ℝ) (otf : ℕ → ℕ → ℂ) (p : Img), IsCutoff s.D (s.whiteBand B) c ∧ s.Sharpening env.diag F
      ∧ (∀ i < 1501, ∀ j < 1501, otf i j
          = ((opticsAt s g (s.whiteBand B) s.intTime (colFreq 1501 c j) (rowFreq 1501 c i)
              * F (colFreq 1501 c j) (rowFreq 1501 c i) : ℝ) : ℂ))
      ∧ otfToPsf true 1501 1501 otf (.np (.fin (c / 750))) (.np (.fin (pixelAngle γ g.slant))) = .ok p
      ∧ ∀ i < R.blurImg.h, ∀ j < R.blurImg.w,
        SameAround r.img r'.img (positionOf r.img.h R.blurImg.h i) (positionOf r.img.w R.blurImg.w j) ((p.h / 2 : ℕ) + 1)
          ((p.w / 2 : ℕ) + 1) → R.blurImg.px i j = R'.blurImg.px i j := by
  obtain ⟨t1, t2, t3, t4, P, -, -, -, -, -, q1, q2, -⟩ := simulate_pair hR hR'
    (by rw [h.image.pix, h'.image.pix]) (by rw [h.image.refl, h'.image.refl])
  have part : ∀ {r : RefImage} {rng : Rng} {R : SimResult}, Simulation env s sc r cal B →
      simulateImage env true rng r s.toSensor sc = .ok R → ∃ (c : ℝ) (F : ℝ → ℝ → ℝ) (otf : ℕ → ℕ → ℂ) (sp : Img),
        IsCutoff s.D (s.whiteBand B) c ∧ s.Sharpening env.diag F ∧ (∀ i < 1501, ∀ j < 1501, otf i j
          = ((opticsAt s g (s.whiteBand B) s.intTime (colFreq 1501 c j) (rowFreq 1501 c i)
              * F (colFreq 1501 c j) (rowFreq 1501 c i) : ℝ) : ℂ))
        ∧ applyOtfToImage true R.trueImg (.py r.gsd) (.np (.fin g.slant)) 1501 1501 otf (.np (.fin (c / 750)))
              (.py (.fin ((s.pX + s.pY) / 2 / s.f))) = .ok (R.blurImg, sp) := by
    intro r rng R h hR
    obtain ⟨T, srt, ρ, c, F, otf, atm, -, -, -, -, -, -, h7, -, h9, h10, -, h11⟩ := C73_simulation h hv
    rw [h11] at hR
    split at hR
    · cases hR
    rename_i blur sp happ
    split_ifs at hR
    rw [Except.ok.injEq] at hR
    subst hR
    exact ⟨c, F, otf, sp, h7, h9, h10, happ⟩
  obtain ⟨c, F, otf, sp, a1, a2, a3, a4⟩ := part h hR
  obtain ⟨c', F', otf', sp', b1, b2, b3, b4⟩ := part h' hR'
  have hc : c' = c := by
    obtain ⟨l, ⟨p, hp, rfl⟩, l2, rfl⟩ := a1
    obtain ⟨l', ⟨p', hp', rfl⟩, l2', rfl⟩ := b1
    rw [le_antisymm (l2 p' hp') (l2' p hp)]
  subst hc
  have ho : ∀ i < 1501, ∀ j < 1501, otf' i j = otf i j := fun i hi j hj => by
    rw [a3 i hi j hj, b3 i hi j hj, sharpening_unique a2 b2]
  rw [apply_congr (by norm_num) (by norm_num) ho, hγ'] at b4
  rw [hγ] at a4
  have hsl : 0 < g.slant := lt_of_le_of_ne (Real.sqrt_nonneg _) (Ne.symm hv.viewing.away)
  obtain ⟨half, q, p, blur, dxIn, -, -, ho, h3, -⟩ := apply_parts a4 (g := γ) rfl (r := g.slant) rfl hsl
  rw [Scal.val_np] at ho
  rw [ho] at h3
  refine ⟨c', F, otf, p, a1, a2, a3, h3, fun i hi j hj hx => ?_⟩
  refine C113_local a4 b4 (g := γ) rfl (r := g.slant) rfl hsl h3 (by omega) (by omega)
    ⟨by rw [t1, t3, hx.h], by rw [t2, t4, hx.w], fun k hk l hl n1 n2 => ?_⟩
  rw [t1] at hk n1
  rw [t2] at hl n2
  rw [q1 k hk l hl, q2 k (hx.h ▸ hk) l (hx.w ▸ hl), hx.px k hk l hl n1 n2]

end PyBSM
