import Verif.Spec.ImageRaises
import Verif.Props.PsfSupport
import Verif.Props.SimulateDemo

/-!
# C135: exactly when the image functions raise, and what
-/

noncomputable section

open Classical

namespace PyBSM

open Spec

theorem roundHalfEven_nonpos (x : ℝ) : roundHalfEven x ≤ 0 ↔ x ≤ 1 / 2 := by
  have h0 := Int.floor_le x
  have h1 := Int.lt_floor_add_one x
  unfold roundHalfEven
  split_ifs with a b c
  · constructor
    · intro h
      have : ((⌊x⌋ : ℤ) : ℝ) ≤ 0 := by exact_mod_cast h
      linarith
    · intro h
      by_contra hc
      have : (1 : ℤ) ≤ ⌊x⌋ := by omega
      have : (1 : ℝ) ≤ ⌊x⌋ := by exact_mod_cast this
      linarith
  · constructor
    · intro h
      have : ((⌊x⌋ : ℤ) : ℝ) + 1 ≤ 0 := by exact_mod_cast h
      linarith
    · intro h
      by_contra hc
      have : (0 : ℤ) ≤ ⌊x⌋ := by omega
      have : (0 : ℝ) ≤ ⌊x⌋ := by exact_mod_cast this
      linarith
  · have e : x = ⌊x⌋ + 1 / 2 := by linarith [not_lt.mp a, not_lt.mp b]
    constructor
    · intro h
      have : ((⌊x⌋ : ℤ) : ℝ) ≤ 0 := by exact_mod_cast h
      linarith
    · intro h
      have : ((⌊x⌋ : ℤ) : ℝ) ≤ 0 := by linarith
      exact_mod_cast this
  · have e : x = ⌊x⌋ + 1 / 2 := by linarith [not_lt.mp a, not_lt.mp b]
    constructor
    · intro h
      have : ((⌊x⌋ : ℤ) : ℝ) + 1 ≤ 0 := by exact_mod_cast h
      linarith
    · intro h
      have : ((⌊x⌋ : ℤ) : ℝ) ≤ 0 := by linarith
      have : ⌊x⌋ ≤ 0 := by exact_mod_cast this
      omega

/-- The quotient that `resample_2D` forms. -/
theorem quotient_ends (n : ℕ) (a b : Scal) :
    (a.IsPy ∧ b.IsPy ∧ XR.eq b.val 0 → Scal.div (Scal.py (.fin n) * a) b = .error .zeroDivisionError)
    ∧ (¬ (a.IsPy ∧ b.IsPy ∧ XR.eq b.val 0) →
        ∃ q, Scal.div (Scal.py (.fin n) * a) b = .ok q ∧ q.val = .fin n * a.val / b.val) := by
  cases a with
  | np x =>
    refine ⟨fun h => absurd h.1 id, fun _ => ?_⟩
    cases b <;> exact ⟨_, rfl, rfl⟩
  | py x =>
    cases b with
    | np y => exact ⟨fun h => absurd h.2.1 id, fun _ => ⟨_, rfl, rfl⟩⟩
    | py y =>
      have e : Scal.div (Scal.py (.fin n) * Scal.py x) (.py y)
          = if XR.eq y 0 then .error .zeroDivisionError else .ok (.py (.fin n * x / y)) := rfl
      refine ⟨fun h => ?_, fun h => ?_⟩
      · have hy : XR.eq y 0 := h.2.2
        rw [e, if_pos hy]
      · have hy : ¬ XR.eq y 0 := fun h' => h ⟨trivial, trivial, h'⟩
        rw [e, if_neg hy]
        exact ⟨_, rfl, rfl⟩

/-- **C135** (resampling): for every image and every pair of spacings, Python or numpy numbers, finite or not, the
verdict names the exception of `resample_2D`, or its absence. -/
theorem C135_resample (usable : Bool) (x : Img) (a b : Scal) :
    EndsAs (resample2D usable x a b) (resampleVerdict usable x a b) := by
  cases usable with
  | false => rfl
  | true =>
    unfold resampleVerdict resample2D resampledSize
    simp only [Bool.not_true, Bool.false_eq_true, if_false, Bool.true_eq_false]
    by_cases hz : a.IsPy ∧ b.IsPy ∧ XR.eq b.val 0
    · rw [if_pos hz, (quotient_ends x.w a b).1 hz]
      rfl
    · rw [if_neg hz]
      obtain ⟨q, e1, e2⟩ := (quotient_ends x.w a b).2 hz
      obtain ⟨p, f1, f2⟩ := (quotient_ends x.h a b).2 hz
      simp only [e1, f1, ok_bind, e2, f2]
      generalize (.fin x.w * a.val / b.val : XR) = u
      generalize (.fin x.h * a.val / b.val : XR) = v
      cases u with
      | nan => rfl
      | pinf => rfl
      | ninf => rfl
      | fin u =>
        simp only [sideVerdict, ok_bind]
        cases v with
        | nan => rfl
        | pinf => rfl
        | ninf => rfl
        | fin v =>
          simp only [ok_bind]
          have hV : ∀ t : ℝ, Vanishes (.fin t) ↔ (roundHalfEven t).toNat = 0 := by
            intro t
            rw [Int.toNat_eq_zero, roundHalfEven_nonpos]
            constructor
            · rintro ⟨w, h1, h2⟩
              rw [XR.fin_inj] at h1
              rw [h1]; exact h2
            · exact fun h => ⟨t, rfl, h⟩
          rw [hV, hV]
          unfold cvResize
          by_cases hc : x.h = 0 ∨ x.w = 0 ∨ (roundHalfEven u).toNat = 0 ∨ (roundHalfEven v).toNat = 0
          · rw [if_pos hc, if_pos hc]; rfl
          · rw [if_neg hc, if_neg hc]; exact ⟨_, rfl⟩

/-- With finite spacings and a non-zero divisor: by the factor. -/
theorem resample_ends (x : Img) {a b : Scal} {u v : ℝ} (ha : a.val = .fin u) (hb : b.val = .fin v) (hv : v ≠ 0) :
    EndsAs (resample2D true x a b) (if Survives x (u / v) then none else some .cv2Error) := by
  have h := C135_resample true x a b
  unfold resampleVerdict at h
  have q : ∀ n : ℕ, (.fin n * a.val / b.val : XR) = .fin (n * (u / v)) := by
    intro n
    rw [ha, hb, XR.fin_mul, XR.fin_div _ hv, mul_div_assoc]
  have hz : ¬ (a.IsPy ∧ b.IsPy ∧ XR.eq b.val 0) := by
    rintro ⟨-, -, h⟩
    rw [hb] at h
    exact hv h
  simp only [Bool.true_eq_false, if_false, if_neg hz, q, sideVerdict] at h
  have hV : ∀ t : ℝ, Vanishes (.fin t) ↔ t ≤ 1 / 2 := by
    intro t
    constructor
    · rintro ⟨w, h1, h2⟩
      rw [XR.fin_inj] at h1
      rw [h1]; exact h2
    · exact fun h => ⟨t, rfl, h⟩
  rw [hV, hV] at h
  by_cases hs : Survives x (u / v)
  · rw [if_pos hs]
    rwa [if_neg] at h
    obtain ⟨s1, s2, s3, s4⟩ := hs
    push Not
    exact ⟨s1, s2, s4, s3⟩
  · rw [if_neg hs]
    rwa [if_pos] at h
    by_contra hc
    push Not at hc
    exact hs ⟨hc.1, hc.2.1, hc.2.2.2, hc.2.2.1⟩

/-- **C135** (point spread function): with OpenCV, a non-empty OTF and positive spacings, the only exception that
`otf_to_psf` raises is the UnboundLocalError for OTFs of at most 10 samples along one side; apart from it a call can
only fail to give finite pixels, when the light that is to be normalised adds up to zero. -/
theorem C135_psf {M N : ℕ} (hM : 0 < M) (hN : 0 < N) (otf : ℕ → ℕ → ℂ) {df dxOut : Scal} {d o : ℝ}
    (hd : df.val = .fin d) (hd0 : 0 < d) (ho : dxOut.val = .fin o) (ho0 : 0 < o) :
    ∃ q, cvResize (rawPsf M N otf) (max 1 ⌊N / M / (d * o)⌋₊) (max 1 ⌊1 / (d * o)⌋₊) = .ok q
      ∧ (q.sum ≠ 0 → min M N ≤ 10 → otfToPsf true M N otf df dxOut = .error .unboundLocalError)
      ∧ (q.sum ≠ 0 → 10 < min M N → (∃ p, otfToPsf true M N otf df dxOut = .ok p)
          ∨ ∃ k, Candidate (min M N) k ∧ (∀ m, Candidate (min M N) m → share q (getMiddle q m) ≤ 0.95 ∧ m ≤ k)
            ∧ (getMiddle q k).sum = 0)
      ∧ (q.sum = 0 → ∀ p, otfToPsf true M N otf df dxOut ≠ .ok p)
      ∧ ∀ e, otfToPsf true M N otf df dxOut = .error e → e = .unboundLocalError ∧ min M N ≤ 10 ∨ e = .outsideModel := by
  have hM0 : (M : ℝ) ≠ 0 := by positivity
  have hx : (Scal.py (.fin (M : ℝ)) * df).val = .fin (M * d) := by
    rw [Scal.val_mul, hd]; exact XR.fin_mul _ _
  obtain ⟨dxIn, e1, e2⟩ := Scal.div_fin (a := .py 1) (x := 1) rfl hx (mul_ne_zero hM0 hd0.ne')
  have size : ∀ n : ℕ, ∃ (s : Scal) (m : ℤ), Scal.div (Scal.py (.fin (n : ℝ)) * dxIn) dxOut = .ok s
      ∧ pyInt s.val = .ok m ∧ m.toNat = ⌊(n : ℝ) / M / (d * o)⌋₊ := by
    intro n
    have hy : (Scal.py (.fin (n : ℝ)) * dxIn).val = .fin (n * (1 / (M * d))) := by
      rw [Scal.val_mul, e2]; exact XR.fin_mul _ _
    obtain ⟨c, f1, f2⟩ := Scal.div_fin hy ho ho0.ne'
    have e : (n : ℝ) * (1 / (M * d)) / o = n / M / (d * o) := by field_simp
    rw [e] at f2
    refine ⟨c, ⌊(n : ℝ) / M / (d * o)⌋, f1, ?_, rfl⟩
    rw [f2]
    unfold pyInt
    dsimp only
    rw [if_pos (by positivity)]
  obtain ⟨sx, nx, a1, a2, a3⟩ := size N
  obtain ⟨sy, ny, b1, b2, b3⟩ := size M
  rw [div_self hM0] at b3
  obtain ⟨q, c1, -⟩ := cvResize_ok (x := rawPsf M N otf) (nw := max 1 ⌊(N : ℝ) / M / (d * o)⌋₊)
    (nh := max 1 ⌊1 / (d * o)⌋₊) (by show M ≠ 0; omega) (by show N ≠ 0; omega) (by omega) (by omega)
  have E : otfToPsf true M N otf df dxOut = (normalize q).bind fun r =>
      (supportSize r (arange10 (min M N))).bind fun k => normalize (getMiddle r k) := by
    unfold otfToPsf
    simp only [Bool.not_true, Bool.false_eq_true, if_false, e1, ok_bind, a1, a2, b1, b2, a3, b3, c1]
    rfl
  have small : min M N ≤ 10 → arange10 (min M N) = [] := by
    intro h
    unfold arange10
    have : (min M N - 10 + 4) / 5 = 0 := by omega
    rw [this]; rfl
  have found : ∀ r : Img, 10 < min M N → ∃ k, supportSize r (arange10 (min M N)) = .ok k := by
    intro r h
    have hne : arange10 (min M N) ≠ [] := by
      intro h0
      have : (10 : ℕ) ∈ arange10 (min M N) := mem_arange10.mpr ⟨h, 0, rfl⟩
      rw [h0] at this
      cases this
    generalize arange10 (min M N) = l at hne ⊢
    clear E small
    induction l with
    | nil => exact absurd rfl hne
    | cons k t ih =>
      cases t with
      | nil => exact ⟨k, rfl⟩
      | cons m t =>
        rw [show supportSize r (k :: m :: t)
          = if 0.95 < (getMiddle r k).sum then .ok k else supportSize r (m :: t) from rfl]
        by_cases hk : 0.95 < (getMiddle r k).sum
        · rw [if_pos hk]; exact ⟨k, rfl⟩
        · rw [if_neg hk]; exact ih (by simp)
  have nz : ∀ y : Img, y.sum = 0 → normalize y = .error .outsideModel := fun y h => by
    unfold normalize; rw [if_pos h]
  have nn : ∀ y : Img, y.sum ≠ 0 → normalize y = .ok { y with px := fun i j => y.px i j / y.sum } := fun y h => by
    unfold normalize; rw [if_neg h]
  refine ⟨q, c1, fun hq hs => ?_, fun hq hs => ?_, fun hq p => ?_, fun e he => ?_⟩
  · rw [E, nn q hq, small hs]
    rfl
  · have sc := fun m => getMiddle_scaled (x := q) (y := { q with px := fun i j => q.px i j / q.sum }) (c := q.sum)
      rfl rfl (fun _ _ => rfl) m
    obtain ⟨k, hk⟩ := found { q with px := fun i j => q.px i j / q.sum } hs
    obtain ⟨s1, s2, s3⟩ := supportSize_spec (arange10_pairwise _) hk
    by_cases h0 : (getMiddle q k).sum = 0
    · right
      have hk0 : ¬ 0.95 < (getMiddle { q with px := fun i j => q.px i j / q.sum } k).sum := by
        rw [(sc k).2.2.2, h0, zero_div]; norm_num
      have hlast := s3.resolve_left hk0
      refine ⟨k, mem_arange10.mp s1, fun m hm => ?_, h0⟩
      have hmk := hlast m (mem_arange10.mpr hm)
      refine ⟨?_, hmk⟩
      unfold share
      rw [← (sc m).2.2.2]
      rcases hmk.lt_or_eq with h | h
      · exact s2 m (mem_arange10.mpr hm) h
      · rw [h]; exact not_lt.mp hk0
    · left
      refine ⟨{ getMiddle { q with px := fun i j => q.px i j / q.sum } k with
          px := fun i j => (getMiddle { q with px := fun i j => q.px i j / q.sum } k).px i j
            / (getMiddle { q with px := fun i j => q.px i j / q.sum } k).sum }, ?_⟩
      rw [E, nn q hq]
      show (supportSize { q with px := fun i j => q.px i j / q.sum } (arange10 (min M N))).bind _ = _
      rw [hk]
      show normalize _ = _
      rw [nn]
      rw [(sc k).2.2.2]
      exact div_ne_zero h0 hq
  · rw [E, nz q hq]
    intro h; cases h
  · by_cases hq : q.sum = 0
    · rw [E, nz q hq] at he
      cases he
      exact Or.inr rfl
    · rw [E, nn q hq] at he
      change (supportSize { q with px := fun i j => q.px i j / q.sum } (arange10 (min M N))).bind _ = _ at he
      by_cases hs : min M N ≤ 10
      · rw [small hs] at he
        cases he
        exact Or.inl ⟨rfl, hs⟩
      · obtain ⟨k, hk⟩ := found { q with px := fun i j => q.px i j / q.sum } (by omega)
        rw [hk] at he
        change normalize _ = _ at he
        right
        by_contra hne
        by_cases h0 : (getMiddle { q with px := fun i j => q.px i j / q.sum } k).sum = 0
        · rw [nz _ h0] at he
          cases he
          exact hne rfl
        · rw [nn _ h0] at he
          cases he

/-- The first steps of `apply_otf_to_image`. -/
theorem apply_head {x : Img} {gsd range df ifov : Scal} {M N : ℕ} {otf : ℕ → ℕ → ℂ} {γ R : ℝ} (hγ : gsd.val = .fin γ)
    (hR : range.val = .fin R) (hR0 : R ≠ 0) :
    ∃ dxIn : Scal, dxIn.val = .fin (γ / R) ∧ applyOtfToImage true x gsd range M N otf df ifov
      = (otfToPsf true M N otf df (.np (.fin (2 * Real.arctan (γ / 2 / R))))).bind fun psf =>
          (filter2D x psf).bind fun blur => (resample2D true blur dxIn ifov).bind fun sim =>
            (resample2D true psf dxIn ifov).bind fun simPsf => .ok (sim, simPsf) := by
  obtain ⟨half, a1, a2⟩ := Scal.div_fin hγ (b := .py 2) (y := 2) rfl two_ne_zero
  obtain ⟨q, a3, a4⟩ := Scal.div_fin a2 hR hR0
  obtain ⟨dxIn, a5, a6⟩ := Scal.div_fin hγ hR hR0
  have hq : (2 * q.val.arctan : XR) = .fin (2 * Real.arctan (γ / 2 / R)) := by
    rw [a4]
    show (2 : XR) * .fin (Real.arctan (γ / 2 / R)) = _
    exact XR.fin_mul _ _
  refine ⟨dxIn, a6, ?_⟩
  unfold applyOtfToImage
  simp only [Bool.not_true, Bool.false_eq_true, if_false, a1, ok_bind, a3, hq, a5]
  rfl

/-- **C135** (images): with OpenCV, finite numbers and a non-zero range and field of view, `apply_otf_to_image` raises
what `otf_to_psf` raises; if that succeeds, it raises `cv2.error` exactly when the image is empty, or the image or the
point spread function, resampled to the camera's pixels, would have no row or no column. -/
theorem C135_apply (x : Img) {gsd range ifov : Scal} (df : Scal) (M N : ℕ) (otf : ℕ → ℕ → ℂ) {γ R e : ℝ}
    (hγ : gsd.val = .fin γ) (hR : range.val = .fin R) (hR0 : R ≠ 0) (he : ifov.val = .fin e) (he0 : e ≠ 0) :
    (∀ err, otfToPsf true M N otf df (.np (.fin (2 * Real.arctan (γ / 2 / R)))) = .error err →
      applyOtfToImage true x gsd range M N otf df ifov = .error err)
    ∧ ∀ p, otfToPsf true M N otf df (.np (.fin (2 * Real.arctan (γ / 2 / R)))) = .ok p →
      EndsAs (applyOtfToImage true x gsd range M N otf df ifov)
        (if Survives x (γ / R / e) ∧ Survives p (γ / R / e) then none else some .cv2Error) := by
  obtain ⟨dxIn, h1, E⟩ := apply_head (x := x) (df := df) (ifov := ifov) (M := M) (N := N) (otf := otf) hγ hR hR0
  refine ⟨fun err h => by rw [E, h]; rfl, fun p h => ?_⟩
  rw [E, h]
  show EndsAs ((filter2D x p).bind _) _
  by_cases hz : x.h = 0 ∨ x.w = 0 ∨ p.h = 0 ∨ p.w = 0
  · have hf : filter2D x p = .error .cv2Error := by unfold filter2D; rw [if_pos hz]
    rw [hf, if_neg]
    · rfl
    · rintro ⟨s, t⟩
      rcases hz with h | h | h | h
      · exact s.1 h
      · exact s.2.1 h
      · exact t.1 h
      · exact t.2.1 h
  · push Not at hz
    obtain ⟨blur, c1, c2, c3, -⟩ := filter2D_ok (x := x) (k := p) hz.1 hz.2.1 hz.2.2.1 hz.2.2.2
    rw [c1]
    show EndsAs ((resample2D true blur dxIn ifov).bind _) _
    have r1 := resample_ends blur h1 he he0
    have r2 := resample_ends p h1 he he0
    have hs : Survives blur (γ / R / e) ↔ Survives x (γ / R / e) := by
      unfold Survives
      rw [c2, c3]
    by_cases s : Survives x (γ / R / e)
    · rw [if_pos (hs.mpr s)] at r1
      obtain ⟨sim, r1⟩ := r1
      rw [r1]
      show EndsAs ((resample2D true p dxIn ifov).bind _) _
      by_cases t : Survives p (γ / R / e)
      · rw [if_pos t] at r2
        obtain ⟨sp, r2⟩ := r2
        rw [r2, if_pos ⟨s, t⟩]
        exact ⟨_, rfl⟩
      · rw [if_neg t] at r2
        change resample2D true p dxIn ifov = _ at r2
        rw [r2, if_neg fun h => t h.2]
        rfl
    · rw [if_neg fun h => s (hs.mp h)] at r1
      change resample2D true blur dxIn ifov = _ at r1
      rw [r1, if_neg fun h => s h.1]
      rfl

/-- The point spread function has at least one row and column, and at most as many as the shorter side of the OTF. -/
theorem psf_sides {M N : ℕ} {otf : ℕ → ℕ → ℂ} {df dxOut : Scal} {p : Img} {d o : ℝ}
    (h : otfToPsf true M N otf df dxOut = .ok p) (hd : df.val = .fin d) (hd0 : 0 < d) (ho : dxOut.val = .fin o) (ho0 : 0 < o) :
    p.h ≠ 0 ∧ p.w ≠ 0 ∧ p.h ≤ min M N ∧ p.w ≤ min M N := by
  obtain ⟨q, k, -, -, h1, -, -, h2, h3⟩ := otfToPsf_stages h hd hd0 ho ho0
  have side : ∀ n : ℕ, pySliceBound n (((n : ℤ) + k + 1) / 2) - pySliceBound n (((n : ℤ) - k) / 2) ≤ k + 1 := by
    intro n
    unfold pySliceBound
    split_ifs <;> omega
  have hk := h1.1
  refine ⟨fun hh => ?_, fun hw => ?_, ?_, ?_⟩
  · have := h3.sum
    unfold Img.sum at this
    rw [hh] at this
    simp at this
  · have := h3.sum
    unfold Img.sum at this
    rw [hw] at this
    simp at this
  · rw [h3.h]
    exact (side q.h).trans hk
  · rw [h3.w]
    exact (side q.w).trans hk

/-- **C135** (coarse cameras): whatever the OTF and however large the image, if a pixel of the camera is at least twice
as wide as `min M N` pixels of the image, the call raises; with OTFs of more than 10 samples a side and pixels that are
finite, it raises `cv2.error`.  If a pixel of the camera is less than twice as wide as a pixel of the image, no non-empty
image causes a `cv2.error`. -/
theorem C135_coarse (x : Img) {gsd range df ifov : Scal} {M N : ℕ} (hM : 0 < M) (hN : 0 < N) (otf : ℕ → ℕ → ℂ)
    {γ R d e : ℝ} (hγ : gsd.val = .fin γ) (hγ0 : 0 < γ) (hR : range.val = .fin R) (hR0 : 0 < R) (hd : df.val = .fin d)
    (hd0 : 0 < d) (he : ifov.val = .fin e) (he0 : 0 < e) :
    (2 * (min M N : ℕ) * (γ / R) ≤ e → 10 < min M N → ∃ err, applyOtfToImage true x gsd range M N otf df ifov = .error err
        ∧ (err = .cv2Error ∨ err = .outsideModel))
    ∧ (e < 2 * (γ / R) → x.h ≠ 0 → x.w ≠ 0 → applyOtfToImage true x gsd range M N otf df ifov ≠ .error .cv2Error) := by
  have hat : 0 < 2 * Real.arctan (γ / 2 / R) := by
    have : 0 < Real.arctan (γ / 2 / R) := by
      rw [← Real.arctan_zero]; exact Real.arctan_strictMono (by positivity)
    linarith
  obtain ⟨a1, a2⟩ := C135_apply x df M N otf hγ hR hR0.ne' he he0.ne'
  obtain ⟨q, -, -, -, -, b⟩ := C135_psf hM hN otf (dxOut := .np (.fin (2 * Real.arctan (γ / 2 / R)))) hd hd0 rfl hat
  refine ⟨fun hc hs => ?_, fun hc h1 h2 => ?_⟩
  · cases hp : otfToPsf true M N otf df (.np (.fin (2 * Real.arctan (γ / 2 / R)))) with
    | error err =>
      refine ⟨err, a1 err hp, ?_⟩
      rcases b err hp with h | h
      · omega
      · exact Or.inr h
    | ok p =>
      have s := psf_sides hp hd hd0 rfl hat
      have h := a2 p hp
      rw [if_neg] at h
      · exact ⟨_, h, Or.inl rfl⟩
      · rintro ⟨-, -, -, t, -⟩
        have hle : (p.h : ℝ) ≤ (min M N : ℕ) := by exact_mod_cast s.2.2.1
        have : (p.h : ℝ) * (γ / R / e) ≤ 1 / 2 := by
          rw [← mul_div_assoc, div_le_iff₀ he0]
          have := mul_le_mul_of_nonneg_right hle (show 0 ≤ γ / R by positivity)
          linarith
        linarith
  · intro hx
    cases hp : otfToPsf true M N otf df (.np (.fin (2 * Real.arctan (γ / 2 / R)))) with
    | error err =>
      rw [a1 err hp] at hx
      cases hx
      rcases b _ hp with h | h
      · cases h.1
      · cases h
    | ok p =>
      have s := psf_sides hp hd hd0 rfl hat
      have h := a2 p hp
      have half : 1 / 2 < γ / R / e := by
        rw [lt_div_iff₀ he0]; linarith
      have big : ∀ n : ℕ, n ≠ 0 → 1 / 2 < (n : ℝ) * (γ / R / e) := by
        intro n hn
        have : (1 : ℝ) ≤ n := by exact_mod_cast Nat.one_le_iff_ne_zero.mpr hn
        have := mul_le_mul_of_nonneg_right this (show 0 ≤ γ / R / e by positivity)
        linarith
      rw [if_pos ⟨⟨h1, h2, big _ h1, big _ h2⟩, s.1, s.2.1, big _ s.1, big _ s.2.1⟩] at h
      obtain ⟨y, h⟩ := h
      rw [h] at hx
      cases hx

/-- **C135** (finding): perfect optics, an image as large as one likes: as soon as a pixel of the camera is as wide as 22
pixels of the image, `apply_otf_to_image` raises `cv2.error`, because the point spread function that it returns besides
the image is resampled too and has no pixel left. -/
theorem C135_large_image (x : Img) {gsd range df ifov : Scal} {M : ℕ} (hM : 10 < M) {γ R e : ℝ} (hγ : gsd.val = .fin γ)
    (hγ0 : 0 < γ) (hR : range.val = .fin R) (hR0 : 0 < R)
    (hd : df.val = .fin (1 / (M * (2 * Real.arctan (γ / 2 / R))))) (he : ifov.val = .fin e) (hc : 22 * (γ / R) ≤ e) :
    applyOtfToImage true x gsd range M M (fun _ _ => 1) df ifov = .error .cv2Error := by
  have hat : 0 < Real.arctan (γ / 2 / R) := by
    rw [← Real.arctan_zero]; exact Real.arctan_strictMono (by positivity)
  have hM0 : (0 : ℝ) < M := by
    have : 0 < M := by omega
    positivity
  have he0 : 0 < e := lt_of_lt_of_le (by positivity) hc
  obtain ⟨p, b1, b2⟩ := C45_perfect hM hd (by positivity)
    (dxOut := .np (.fin (2 * Real.arctan (γ / 2 / R)))) (by
      rw [Scal.val_np, XR.fin_inj]; field_simp)
  have h := (C135_apply x df M M (fun _ _ => 1) hγ hR hR0.ne' he he0.ne').2 p b1
  rw [if_neg] at h
  · exact h
  · rintro ⟨-, -, -, t, -⟩
    have p1 : p.h = 10 + M % 2 := b2.h
    have hle : (p.h : ℝ) ≤ 11 := by
      have : p.h ≤ 11 := by omega
      exact_mod_cast this
    have : (p.h : ℝ) * (γ / R / e) ≤ 1 / 2 := by
      rw [← mul_div_assoc, div_le_iff₀ he0]
      have := mul_le_mul_of_nonneg_right hle (show 0 ≤ γ / R by positivity)
      linarith
    linarith

/-- **C135** (simulations): for every camera, scenario, atmosphere and calibrated non-empty reference image that meet the
physical preconditions, with a GSD above zero: if the camera's pixels are less than twice as wide as the reference
image's, the only exception that `simulate_image` can raise is the ValueError of the Poisson generator. If they are
at least 3002 times as wide, it never returns. -/
theorem C135_simulate {env : Env} {s : RealSensor} {sc : Scenario} {r : RefImage} {cal : List (ℝ × ℝ)}
    {B : List (Fin 6 → ℝ)} (h : Simulation env s sc r cal B) {g : RealScene} (hv : FlatView g sc) {γ e : ℝ}
    (hγ : r.gsd = .fin γ) (hγ0 : 0 < γ) (he : e = (s.pX + s.pY) / 2 / s.f) (he0 : 0 < e) (rng : Rng) :
    (e < 2 * (γ / g.slant) → r.img.h ≠ 0 → r.img.w ≠ 0 → ∀ err, simulateImage env true rng r s.toSensor sc = .error err →
        err = .valueError ∨ err = .outsideModel)
    ∧ (3002 * (γ / g.slant) ≤ e → ∀ R, simulateImage env true rng r s.toSensor sc ≠ .ok R) := by
  obtain ⟨T, srt, ρ, c, F, otf, atm, -, -, -, h4, h5, h6, hcut, hc0, hF, hO, -, h7⟩ := C73_simulation h hv
  have hsl := slant_pos_of hv.viewing
  have hifov : (Scal.py (.fin ((s.pX + s.pY) / 2 / s.f))).val = .fin e := by rw [he]; rfl
  obtain ⟨a, b⟩ := C135_coarse T (gsd := .py r.gsd) (range := .np (.fin g.slant)) (df := .np (.fin (c / 750)))
    (ifov := .py (.fin ((s.pX + s.pY) / 2 / s.f))) (M := 1501) (N := 1501) (by norm_num) (by norm_num) otf hγ hγ0 rfl hsl
    rfl (by positivity) hifov he0
  have hat : 0 < 2 * Real.arctan (γ / 2 / g.slant) := by
    have : 0 < Real.arctan (γ / 2 / g.slant) := by
      rw [← Real.arctan_zero]; exact Real.arctan_strictMono (by positivity)
    linarith
  rw [h7]
  refine ⟨fun hc h1 h2 err hx => ?_, fun hc R hx => ?_⟩
  · have nb := b hc (by rw [h4]; exact h1) (by rw [h5]; exact h2)
    obtain ⟨a1, a2⟩ := C135_apply T (.np (.fin (c / 750))) 1501 1501 otf (gsd := .py r.gsd) (range := .np (.fin g.slant))
      hγ rfl hsl.ne' hifov he0.ne'
    obtain ⟨q, -, -, -, -, bp⟩ := C135_psf (M := 1501) (N := 1501) (by norm_num) (by norm_num) otf
      (df := .np (.fin (c / 750))) (dxOut := .np (.fin (2 * Real.arctan (γ / 2 / g.slant)))) rfl (by positivity) rfl hat
    cases hp : otfToPsf true 1501 1501 otf (.np (.fin (c / 750))) (.np (.fin (2 * Real.arctan (γ / 2 / g.slant)))) with
    | error e' =>
      rw [a1 e' hp] at hx
      change Except.error e' = _ at hx
      cases hx
      rcases bp _ hp with h | h
      · omega
      · exact Or.inr h
    | ok p =>
      have hend := a2 p hp
      by_cases hs : Survives T (γ / g.slant / e) ∧ Survives p (γ / g.slant / e)
      · rw [if_pos hs] at hend
        obtain ⟨⟨y1, y2⟩, hend⟩ := hend
        rw [hend] at hx
        dsimp only at hx
        by_cases hneg : ∃ i < y1.h, ∃ j < y1.w, y1.px i j < 0
        · rw [if_pos hneg] at hx
          cases hx
          exact Or.inl rfl
        · rw [if_neg hneg] at hx
          cases hx
      · rw [if_neg hs] at hend
        exact absurd hend nb
  · obtain ⟨err, hy, -⟩ := a (by norm_num; linarith) (by norm_num)
    rw [hy] at hx
    cases hx

/-- Division by zero: Python's floats raise ZeroDivisionError, numpy's give infinitely many columns (OverflowError), and
an image without columns gives 0 / 0 (ValueError). -/
example (px : ℕ → ℕ → ℝ) : resample2D true ⟨2, 3, px⟩ (.py 1) (.py 0) = .error .zeroDivisionError
    ∧ resample2D true ⟨2, 3, px⟩ (.py 1) (.np 0) = .error .overflowError
    ∧ resample2D true ⟨2, 0, px⟩ (.py 1) (.np 0) = .error .valueError := by
  have h1 := C135_resample true ⟨2, 3, px⟩ (.py 1) (.py 0)
  have h2 := C135_resample true ⟨2, 3, px⟩ (.py 1) (.np 0)
  have h3 := C135_resample true ⟨2, 0, px⟩ (.py 1) (.np 0)
  have z : XR.eq (Scal.py 0).val 0 := rfl
  unfold resampleVerdict at h1 h2 h3
  rw [if_neg (by decide), if_pos ⟨trivial, trivial, z⟩] at h1
  rw [if_neg (by decide), if_neg fun h => h.2.1] at h2 h3
  have q2 : (.fin ((3 : ℕ) : ℝ) * (Scal.py 1).val / (Scal.np 0).val : XR) = .pinf := by
    show (.fin ((3 : ℕ) : ℝ) * .fin 1 / .fin 0 : XR) = .pinf
    rw [XR.fin_mul]
    rw [XR.fin_div_zero, XR.mulInf, if_pos (by norm_num)]
  have q3 : (.fin ((0 : ℕ) : ℝ) * (Scal.py 1).val / (Scal.np 0).val : XR) = .nan := by
    show (.fin ((0 : ℕ) : ℝ) * .fin 1 / .fin 0 : XR) = .nan
    rw [XR.fin_mul, XR.fin_div_zero, XR.mulInf, if_neg (by norm_num), if_neg (by norm_num)]
  rw [q2] at h2
  rw [q3] at h3
  exact ⟨h1, h2, h3⟩

/-- A picture of 100 megapixels, perfect optics, camera pixels 22 times as wide as the picture's: `cv2.error`. -/
example (px : ℕ → ℕ → ℝ) : applyOtfToImage true ⟨10000, 10000, px⟩ (.py (.fin 0.1)) (.py (.fin 1000)) 1501 1501
    (fun _ _ => 1) (.py (.fin (1 / ((1501 : ℕ) * (2 * Real.arctan (0.1 / 2 / 1000)))))) (.py (.fin 0.0022))
      = .error .cv2Error :=
  C135_large_image _ (by norm_num) rfl (by norm_num) rfl (by norm_num) rfl rfl (by norm_num)

/-- The demonstration camera and a reference image of its own pixel size: the ValueError is the only exception. -/
example (rng : Rng) (err : PyErr) (h : simulateImage demoEnv true rng { demoRef with gsd := .fin (1e-5 * demoSlant) }
    demoSensor.toSensor demoScenario = .error err) : err = .valueError ∨ err = .outsideModel := by
  obtain ⟨g, hv, hs, -⟩ := demo_flatView
  have hp := demoSlant_pos
  have hS : Simulation demoEnv demoSensor demoScenario { demoRef with gsd := .fin (1e-5 * demoSlant) }
      [(0, 0.05), (100, 0.95)] demoInBand := { demo_simulation with image := ⟨demo_simulation.image.1, rfl, rfl⟩ }
  refine (C135_simulate hS hv (γ := 1e-5 * demoSlant) (e := 1e-5) rfl (by positivity) (by norm_num [demoSensor])
    (by norm_num) rng).1 ?_ (by norm_num [demoRef]) (by norm_num [demoRef]) err h
  rw [hs, mul_div_assoc, div_self hp.ne']
  norm_num

/-- The same camera and a reference image 5000 times finer. -/
example (rng : Rng) (R : SimResult) : simulateImage demoEnv true rng { demoRef with gsd := .fin (2e-9 * demoSlant) }
    demoSensor.toSensor demoScenario ≠ .ok R := by
  obtain ⟨g, hv, hs, -⟩ := demo_flatView
  have hp := demoSlant_pos
  have hS : Simulation demoEnv demoSensor demoScenario { demoRef with gsd := .fin (2e-9 * demoSlant) }
      [(0, 0.05), (100, 0.95)] demoInBand := { demo_simulation with image := ⟨demo_simulation.image.1, rfl, rfl⟩ }
  refine (C135_simulate hS hv (γ := 2e-9 * demoSlant) (e := 1e-5) rfl (by positivity) (by norm_num [demoSensor])
    (by norm_num) rng).2 ?_ R
  rw [hs, mul_div_assoc, div_self hp.ne']
  norm_num

end PyBSM
