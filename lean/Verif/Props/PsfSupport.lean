import Verif.Props.Image
import Verif.Spec.Psf

/-!
# C83: which part of the transformed OTF `otf_to_psf` returns
-/

noncomputable section

open Classical

namespace PyBSM

open Spec

theorem mem_arange10 {n k : ℕ} : k ∈ arange10 n ↔ Candidate n k := by
  unfold arange10 Candidate
  simp only [List.mem_map, List.mem_range]
  constructor
  · rintro ⟨i, hi, rfl⟩
    exact ⟨by omega, i, rfl⟩
  · rintro ⟨h, i, rfl⟩
    exact ⟨i, by omega, rfl⟩

theorem arange10_pairwise (n : ℕ) : (arange10 n).Pairwise (· < ·) := by
  unfold arange10
  rw [List.pairwise_map]
  exact List.pairwise_lt_range.imp fun h => by omega

theorem supportSize_spec {x : Img} : ∀ {l : List ℕ} {k : ℕ}, l.Pairwise (· < ·) → supportSize x l = .ok k →
    k ∈ l ∧ (∀ m ∈ l, m < k → (getMiddle x m).sum ≤ 0.95)
      ∧ (0.95 < (getMiddle x k).sum ∨ ∀ m ∈ l, m ≤ k)
  | [], _, _, h => by cases h
  | [a], k, _, h => by
    rw [show supportSize x [a] = .ok a from rfl, Except.ok.injEq] at h
    subst h
    refine ⟨by simp, fun m hm h => ?_, Or.inr fun m hm => ?_⟩
    · rw [List.mem_singleton] at hm; omega
    · rw [List.mem_singleton] at hm; omega
  | a :: b :: t, k, hp, h => by
    rw [show supportSize x (a :: b :: t) = if 0.95 < (getMiddle x a).sum then .ok a else supportSize x (b :: t) from rfl] at h
    rw [List.pairwise_cons] at hp
    split_ifs at h with hc
    · rw [Except.ok.injEq] at h
      subst h
      refine ⟨by simp, fun m hm hlt => ?_, Or.inl hc⟩
      rcases List.mem_cons.mp hm with rfl | hm
      · omega
      · have := hp.1 m hm; omega
    · obtain ⟨h1, h2, h3⟩ := supportSize_spec hp.2 h
      refine ⟨List.mem_cons_of_mem _ h1, fun m hm hlt => ?_, ?_⟩
      · rcases List.mem_cons.mp hm with rfl | hm
        · exact not_lt.mp hc
        · exact h2 m hm hlt
      · refine h3.imp id fun h3 m hm => ?_
        rcases List.mem_cons.mp hm with rfl | hm
        · exact (hp.1 k h1).le
        · exact h3 m hm

theorem getMiddle_scaled {x y : Img} {c : ℝ} (h1 : y.h = x.h) (h2 : y.w = x.w) (h3 : ∀ i j, y.px i j = x.px i j / c)
    (k : ℕ) : (getMiddle y k).h = (getMiddle x k).h ∧ (getMiddle y k).w = (getMiddle x k).w
      ∧ (∀ i j, (getMiddle y k).px i j = (getMiddle x k).px i j / c)
      ∧ (getMiddle y k).sum = (getMiddle x k).sum / c := by
  have e : (getMiddle y k).h = (getMiddle x k).h ∧ (getMiddle y k).w = (getMiddle x k).w
      ∧ (∀ i j, (getMiddle y k).px i j = (getMiddle x k).px i j / c) := by
    unfold getMiddle
    dsimp only
    rw [h1, h2]
    exact ⟨rfl, rfl, fun i j => h3 _ _⟩
  refine ⟨e.1, e.2.1, e.2.2, ?_⟩
  unfold Img.sum
  rw [e.1, e.2.1, Finset.sum_div]
  refine Finset.sum_congr rfl fun i _ => ?_
  rw [Finset.sum_div]
  exact Finset.sum_congr rfl fun j _ => e.2.2 i j

/-- The stages of a successful call with a positive frequency spacing `d` and a positive output spacing `o`. -/
theorem otfToPsf_stages {M N : ℕ} {otf : ℕ → ℕ → ℂ} {df dxOut : Scal} {u : Bool} {p : Img} {d o : ℝ}
    (h : otfToPsf u M N otf df dxOut = .ok p) (hd : df.val = .fin d) (hd0 : 0 < d) (ho : dxOut.val = .fin o) (ho0 : 0 < o) :
    ∃ (q : Img) (k : ℕ), cvResize (rawPsf M N otf) (max 1 ⌊N / M / (d * o)⌋₊) (max 1 ⌊1 / (d * o)⌋₊) = .ok q
      ∧ q.sum ≠ 0 ∧ Candidate (min M N) k
      ∧ (∀ m, Candidate (min M N) m → m < k → share q (getMiddle q m) ≤ 0.95)
      ∧ (0.95 < share q (getMiddle q k) ∨ ∀ m, Candidate (min M N) m → m ≤ k)
      ∧ (getMiddle q k).sum ≠ 0 ∧ Rescaled p (getMiddle q k) := by
  have hsmall : ¬ min M N ≤ 10 := fun hs => C45_small hs otf df dxOut u p h
  have hM : 0 < M := by omega
  have hM0 : (M : ℝ) ≠ 0 := by positivity
  cases u with
  | false => cases h
  | true =>
    unfold otfToPsf at h
    simp only [Bool.not_true, Bool.false_eq_true, if_false, bind_ok] at h
    obtain ⟨dxIn, a1, sx, a2, nx, a3, sy, a4, ny, a5, q, h1, r, h2, k, h3, h4⟩ := h
    have hx : (Scal.py (.fin (M : ℝ)) * df).val = .fin (M * d) := by
      rw [Scal.val_mul, hd]; exact XR.fin_mul _ _
    obtain ⟨c, e1, e2⟩ := Scal.div_fin (a := .py 1) (x := 1) rfl hx (mul_ne_zero hM0 hd0.ne')
    rw [a1, Except.ok.injEq] at e1
    subst e1
    have size : ∀ (n : ℕ) (s : Scal) (m : ℤ), Scal.div (Scal.py (.fin (n : ℝ)) * dxIn) dxOut = .ok s →
        pyInt s.val = .ok m → m.toNat = ⌊(n : ℝ) / M / (d * o)⌋₊ := by
      intro n s m b1 b2
      have hy : (Scal.py (.fin (n : ℝ)) * dxIn).val = .fin (n * (1 / (M * d))) := by
        rw [Scal.val_mul, e2]; exact XR.fin_mul _ _
      obtain ⟨c, f1, f2⟩ := Scal.div_fin hy ho ho0.ne'
      rw [b1, Except.ok.injEq] at f1
      subst f1
      have e : (n : ℝ) * (1 / (M * d)) / o = n / M / (d * o) := by field_simp
      rw [f2, e] at b2
      unfold pyInt at b2
      dsimp only at b2
      rw [if_pos (by positivity), Except.ok.injEq] at b2
      rw [← b2]
      rfl
    rw [size N sx nx a2 a3, size M sy ny a4 a5, div_self hM0] at h1
    obtain ⟨b0, b1, b2, b3, b4⟩ := normalize_ok h2
    obtain ⟨s1, s2, s3⟩ := supportSize_spec (arange10_pairwise _) h3
    have sc := fun m => getMiddle_scaled (x := q) (y := r) (c := q.sum) b1 b2 b4 m
    obtain ⟨g1, g2, g3, g4⟩ := sc k
    obtain ⟨n0, n1, n2, n3, n4⟩ := normalize_ok h4
    rw [g4] at n0
    refine ⟨q, k, h1, b0, mem_arange10.mp s1, ?_, ?_, ?_, ?_⟩
    · intro m hm hlt
      have := s2 m (mem_arange10.mpr hm) hlt
      rwa [(sc m).2.2.2] at this
    · rw [g4] at s3
      exact s3.imp id fun h m hm => h m (mem_arange10.mpr hm)
    · intro e
      rw [e, zero_div] at n0
      exact n0 rfl
    · have hne : (getMiddle q k).sum ≠ 0 := by
        intro e
        rw [e, zero_div] at n0
        exact n0 rfl
      refine ⟨n1.trans g1, n2.trans g2, fun i _ j _ => ?_, n3⟩
      rw [n4, g4, g3]
      field_simp

theorem getMiddle_middle {x : Img} {k : ℕ} (h1 : k ≤ x.h) (h2 : k ≤ x.w) : getMiddle x k = middle x k := by
  obtain ⟨c1, c2, c3⟩ := C45_crop x h1 h2
  unfold middle
  have e : getMiddle x k = ⟨(getMiddle x k).h, (getMiddle x k).w, (getMiddle x k).px⟩ := rfl
  rw [e, c1, c2]
  congr 1
  · omega
  · omega
  · funext i j
    exact c3 i j

theorem getMiddle_whole {x : Img} {k : ℕ} (h1 : 3 * x.h ≤ k) (h2 : 3 * x.w ≤ k) : getMiddle x k = x := by
  have lo : ∀ d : ℕ, 3 * d ≤ k → pySliceBound d (((d : ℤ) - k) / 2) = 0 := by
    intro d hd
    unfold pySliceBound
    split_ifs <;> omega
  have hi : ∀ d : ℕ, 3 * d ≤ k → pySliceBound d (((d : ℤ) + k + 1) / 2) = d := by
    intro d hd
    unfold pySliceBound
    rw [if_neg (by omega)]
    omega
  unfold getMiddle
  dsimp only
  rw [lo _ h1, lo _ h2, hi _ h1, hi _ h2]
  simp

theorem cvResize_size {x q : Img} {a b : ℕ} (h : cvResize x a b = .ok q) : q.h = b ∧ q.w = a := by
  unfold cvResize at h
  split_ifs at h
  rw [Except.ok.injEq] at h
  subst h
  exact ⟨rfl, rfl⟩

/-- **C83** (fine sampling): if the OTF's point spread function, resampled to the requested spacing, is at least as large
as the OTF array on both sides, the returned PSF is its middle part of the first of the sizes 10, 15, 20, … (below the
smaller side of the OTF) that holds more than 95 % of the total, or of the last of these sizes if none does, rescaled to
sum 1.  The resampled function has `⌊1 / (d o)⌋` rows and `⌊N / M / (d o)⌋` columns. -/
theorem C83_support {M N : ℕ} {otf : ℕ → ℕ → ℂ} {df dxOut : Scal} {u : Bool} {p : Img} {d o : ℝ}
    (h : otfToPsf u M N otf df dxOut = .ok p) (hd : df.val = .fin d) (hd0 : 0 < d) (ho : dxOut.val = .fin o) (ho0 : 0 < o)
    (hh : min M N ≤ ⌊1 / (d * o)⌋₊) (hw : min M N ≤ ⌊N / M / (d * o)⌋₊) :
    ∃ (q : Img) (k : ℕ), cvResize (rawPsf M N otf) ⌊N / M / (d * o)⌋₊ ⌊1 / (d * o)⌋₊ = .ok q
      ∧ q.h = ⌊1 / (d * o)⌋₊ ∧ q.w = ⌊N / M / (d * o)⌋₊ ∧ Candidate (min M N) k
      ∧ (∀ m, Candidate (min M N) m → m < k → share q (middle q m) ≤ 0.95)
      ∧ (0.95 < share q (middle q k) ∨ ∀ m, Candidate (min M N) m → m ≤ k)
      ∧ Rescaled p (middle q k) := by
  have hsmall : ¬ min M N ≤ 10 := fun hs => C45_small hs otf df dxOut u p h
  obtain ⟨q, k, h1, h2, h3, h4, h5, -, h6⟩ := otfToPsf_stages h hd hd0 ho ho0
  rw [max_eq_right (by omega), max_eq_right (by omega)] at h1
  obtain ⟨z1, z2⟩ := cvResize_size h1
  have e : ∀ m, Candidate (min M N) m → getMiddle q m = middle q m := fun m hm =>
    getMiddle_middle (by rw [z1]; have := hm.1; omega) (by rw [z2]; have := hm.1; omega)
  rw [e k h3] at h5 h6
  exact ⟨q, k, h1, z1, z2, h3, fun m hm hlt => e m hm ▸ h4 m hm hlt, h5, h6⟩

/-- **C83** (coarse sampling): if the resampled function has at most 3 pixels a side, all of it is returned, rescaled to
sum 1. -/
theorem C83_tiny {M N : ℕ} {otf : ℕ → ℕ → ℂ} {df dxOut : Scal} {u : Bool} {p : Img} {d o : ℝ}
    (h : otfToPsf u M N otf df dxOut = .ok p) (hd : df.val = .fin d) (hd0 : 0 < d) (ho : dxOut.val = .fin o) (ho0 : 0 < o)
    (hh : ⌊1 / (d * o)⌋₊ ≤ 3) (hw : ⌊N / M / (d * o)⌋₊ ≤ 3) :
    ∃ q, cvResize (rawPsf M N otf) (max 1 ⌊N / M / (d * o)⌋₊) (max 1 ⌊1 / (d * o)⌋₊) = .ok q ∧ Rescaled p q := by
  obtain ⟨q, k, h1, h2, ⟨h3, i, hk⟩, h4, h5, -, h6⟩ := otfToPsf_stages h hd hd0 ho ho0
  obtain ⟨z1, z2⟩ := cvResize_size h1
  rw [getMiddle_whole (by omega) (by omega)] at h6
  exact ⟨q, h1, h6⟩

/-- **C83** (share): if three times the size of the resampled function leaves a candidate size, the part that is returned
holds more than 95 % of the total, whatever the OTF. -/
theorem C83_share {M N : ℕ} {otf : ℕ → ℕ → ℂ} {df dxOut : Scal} {u : Bool} {p : Img} {d o : ℝ}
    (h : otfToPsf u M N otf df dxOut = .ok p) (hd : df.val = .fin d) (hd0 : 0 < d) (ho : dxOut.val = .fin o) (ho0 : 0 < o)
    {m : ℕ} (hm : Candidate (min M N) m) (hh : 3 * ⌊1 / (d * o)⌋₊ ≤ m) (hw : 3 * ⌊N / M / (d * o)⌋₊ ≤ m) :
    ∃ q part, cvResize (rawPsf M N otf) (max 1 ⌊N / M / (d * o)⌋₊) (max 1 ⌊1 / (d * o)⌋₊) = .ok q
      ∧ part.h ≤ q.h ∧ part.w ≤ q.w ∧ (∃ a b, a + part.h ≤ q.h ∧ b + part.w ≤ q.w
        ∧ ∀ i j, part.px i j = q.px (a + i) (b + j))
      ∧ 0.95 < share q part ∧ Rescaled p part := by
  obtain ⟨q, k, h1, h2, h3, h4, h5, h6, h7⟩ := otfToPsf_stages h hd hd0 ho ho0
  obtain ⟨z1, z2⟩ := cvResize_size h1
  obtain ⟨hm1, i, hm2⟩ := hm
  have whole : ∀ n, m ≤ n → getMiddle q n = q := fun n hn => getMiddle_whole (by omega) (by omega)
  have one : share q q = 1 := div_self h2
  have bounds : ∀ d n : ℕ, pySliceBound d (((d : ℤ) + n + 1) / 2) ≤ d := by
    intro d n
    unfold pySliceBound
    rw [if_neg (by omega)]
    exact min_le_right _ _

  have nonempty : 0 < (getMiddle q k).h ∧ 0 < (getMiddle q k).w := by
    constructor
    · by_contra hz
      apply h6
      unfold Img.sum
      rw [show (getMiddle q k).h = 0 by omega]
      simp
    · by_contra hz
      apply h6
      unfold Img.sum
      rw [show (getMiddle q k).w = 0 by omega]
      simp
  have sub : ∃ a b, a + (getMiddle q k).h ≤ q.h ∧ b + (getMiddle q k).w ≤ q.w
      ∧ ∀ i j, (getMiddle q k).px i j = q.px (a + i) (b + j) := by
    have n1 := nonempty.1
    have n2 := nonempty.2
    refine ⟨pySliceBound q.h (((q.h : ℤ) - k) / 2), pySliceBound q.w (((q.w : ℤ) - k) / 2), ?_, ?_, fun i j => rfl⟩
    · have := bounds q.h k
      unfold getMiddle at n1 ⊢
      dsimp only at n1 ⊢
      omega
    · have := bounds q.w k
      unfold getMiddle at n2 ⊢
      dsimp only at n2 ⊢
      omega
  obtain ⟨a, b, s1, s2, s3⟩ := sub
  refine ⟨q, getMiddle q k, h1, by omega, by omega, ⟨a, b, s1, s2, s3⟩, ?_, h7⟩
  rcases h5 with h5 | h5
  · exact h5
  · rw [whole k (h5 m ⟨hm1, i, hm2⟩), one]
    norm_num

theorem sum_middle_congr {x y : Img} (h : SameImg x y) {k : ℕ} (h1 : k ≤ x.h) (h2 : k ≤ x.w) :
    SameImg (middle x k) (middle y k) := by
  refine ⟨?_, ?_, ?_⟩
  · show _ + (x.h - k) % 2 = _ + (y.h - k) % 2
    rw [h.h]
  · show _ + (x.w - k) % 2 = _ + (y.w - k) % 2
    rw [h.w]
  · intro i hi j hj
    have hi' : i < k + (x.h - k) % 2 := hi
    have hj' : j < k + (x.w - k) % 2 := hj
    show x.px _ _ = y.px _ _
    rw [← h.h, ← h.w]
    exact h.px _ (by omega) _ (by omega)

/-- **C83** (own spacing): at the output spacing `1 / (M d)` nothing is resampled: the returned PSF is the middle part of
the transform of the OTF itself.  For an OTF with `N ≠ M` columns this is a finding: the columns of the transform are
`1 / (N d)` apart, not `1 / (M d)` as requested, but they are taken over unchanged. -/
theorem C83_native {M N : ℕ} {otf : ℕ → ℕ → ℂ} {df dxOut : Scal} {u : Bool} {p : Img} {d : ℝ}
    (h : otfToPsf u M N otf df dxOut = .ok p) (hd : df.val = .fin d) (hd0 : 0 < d) (ho : dxOut.val = .fin (1 / (M * d))) :
    ∃ k, Candidate (min M N) k
      ∧ (∀ m, Candidate (min M N) m → m < k → share (rawPsf M N otf) (middle (rawPsf M N otf) m) ≤ 0.95)
      ∧ (0.95 < share (rawPsf M N otf) (middle (rawPsf M N otf) k) ∨ ∀ m, Candidate (min M N) m → m ≤ k)
      ∧ Rescaled p (middle (rawPsf M N otf) k) := by
  have hsmall : ¬ min M N ≤ 10 := fun hs => C45_small hs otf df dxOut u p h
  have hM0 : (0 : ℝ) < M := by
    have : 0 < M := by omega
    positivity
  have e1 : 1 / (d * (1 / (M * d))) = M := by field_simp
  have e2 : (N : ℝ) / M / (d * (1 / (M * d))) = N := by field_simp
  have f1 : ⌊1 / (d * (1 / (M * d)))⌋₊ = M := by rw [e1, Nat.floor_natCast]
  have f2 : ⌊(N : ℝ) / M / (d * (1 / (M * d)))⌋₊ = N := by rw [e2, Nat.floor_natCast]
  obtain ⟨q, k, h1, z1, z2, h3, h4, h5, h6⟩ := C83_support h hd hd0 ho (by positivity) (by rw [f1]; omega) (by rw [f2]; omega)
  rw [f1] at h1 z1
  rw [f2] at h1 z2
  obtain ⟨y, g1, -, -, -, g2⟩ := cvResize_ok (x := rawPsf M N otf) (nw := N) (nh := M)
    (by show M ≠ 0; omega) (by show N ≠ 0; omega) (by omega) (by omega)
  rw [h1, Except.ok.injEq] at g1
  subst g1
  have same := g2 rfl rfl
  have mid : ∀ m, Candidate (min M N) m → SameImg (middle q m) (middle (rawPsf M N otf) m) := fun m hm =>
    sum_middle_congr same (by have := hm.1; omega) (by have := hm.1; omega)
  have sh : ∀ m, Candidate (min M N) m → share q (middle q m) = share (rawPsf M N otf) (middle (rawPsf M N otf) m) := by
    intro m hm
    unfold share
    rw [sum_congr same, sum_congr (mid m hm)]
  rw [sh k h3] at h5
  refine ⟨k, h3, fun m hm hlt => sh m hm ▸ h4 m hm hlt, h5, ?_⟩
  have mk := mid k h3
  refine ⟨h6.h.trans mk.h, h6.w.trans mk.w, fun i hi j hj => ?_, h6.sum⟩
  rw [← sum_congr mk, h6.px i hi j hj]
  exact mk.px i (by rw [← h6.h]; exact hi) j (by rw [← h6.w]; exact hj)

/-- Non-vacuity of `C83_native` and `C83_support`: the all-ones OTF of any square size above
10 succeeds at its own spacing. -/
example {M : ℕ} (hM : 10 < M) : ∃ p, otfToPsf true M M (fun _ _ => 1) (.py (.fin 2)) (.py (.fin (1 / (M * 2)))) = .ok p
    ∧ M ≤ ⌊1 / ((2 : ℝ) * (1 / (M * 2)))⌋₊ ∧ M ≤ ⌊(M : ℝ) / M / ((2 : ℝ) * (1 / (M * 2)))⌋₊ := by
  obtain ⟨p, h, -⟩ := C45_perfect hM (df := .py (.fin 2)) (dxOut := .py (.fin (1 / (M * 2)))) rfl two_ne_zero rfl
  have hM0 : (0 : ℝ) < M := by positivity
  have e1 : 1 / (2 * (1 / ((M : ℝ) * 2))) = M := by field_simp
  have e2 : (M : ℝ) / M / (2 * (1 / (M * 2))) = M := by field_simp
  refine ⟨p, h, ?_, ?_⟩
  · rw [e1, Nat.floor_natCast]
  · rw [e2, Nat.floor_natCast]

/-- The OTF that passes only the zero frequency has a constant transform. -/
theorem zeroFrequency_raw {M : ℕ} (hM : 0 < M) (eM : Even M) (i j : ℕ) :
    (rawPsf M M fun k l => if k = M / 2 ∧ l = M / 2 then 1 else 0).px i j = 1 / ((M : ℝ) * M) := by
  rw [C45_even hM hM eM eM]
  unfold centredPsf
  rw [Finset.sum_eq_single (M / 2), Finset.sum_eq_single (M / 2)]
  · beta_reduce
    rw [if_pos ⟨rfl, rfl⟩, sub_self, zero_mul, zero_mul, zero_div, add_zero, mul_zero, Complex.exp_zero, mul_one, mul_one]
    rw [← Complex.ofReal_natCast, ← Complex.ofReal_mul, ← Complex.ofReal_one, ← Complex.ofReal_div, Complex.ofReal_re]
  · intro l _ hl
    beta_reduce
    rw [if_neg (by tauto), zero_mul]
  · intro h
    exact absurd (Finset.mem_range.mpr (by omega)) h
  · intro k _ hk
    refine Finset.sum_eq_zero fun l _ => ?_
    beta_reduce
    rw [if_neg (by tauto), zero_mul]
  · intro h
    exact absurd (Finset.mem_range.mpr (by omega)) h

/-- Non-vacuity of `C83_tiny` and `C83_share`: the OTF that passes only the zero frequency, of any even size above 10, at
an output spacing larger than the whole function (one pixel). -/
example {M : ℕ} (hM : 10 < M) (eM : Even M) :
    ∃ p, otfToPsf true M M (fun k l => if k = M / 2 ∧ l = M / 2 then 1 else 0) (.py (.fin 2)) (.py (.fin 1)) = .ok p
      ∧ ⌊1 / ((2 : ℝ) * 1)⌋₊ ≤ 3 ∧ ⌊(M : ℝ) / M / (2 * 1)⌋₊ ≤ 3
      ∧ Candidate (min M M) 10 ∧ 3 * ⌊1 / ((2 : ℝ) * 1)⌋₊ ≤ 10 ∧ 3 * ⌊(M : ℝ) / M / (2 * 1)⌋₊ ≤ 10 := by
  have hM0 : (M : ℝ) ≠ 0 := by positivity
  have f0 : ⌊1 / ((2 : ℝ) * 1)⌋₊ = 0 := by rw [Nat.floor_eq_zero]; norm_num
  refine (exists_and_right).mpr ⟨?_, by rw [f0]; omega, by rw [div_self hM0, f0]; omega, ⟨by omega, 0, rfl⟩,
    by rw [f0]; omega, by rw [div_self hM0, f0]; omega⟩
  have hx : (Scal.py (.fin (M : ℝ)) * .py (.fin 2)).val = .fin (M * 2) := by
    rw [Scal.val_mul]; exact XR.fin_mul _ _
  obtain ⟨q, e1, e2⟩ := Scal.div_fin (a := .py 1) (x := 1) rfl hx (mul_ne_zero hM0 two_ne_zero)
  have hy : (Scal.py (.fin (M : ℝ)) * q).val = .fin (M * (1 / (M * 2))) := by
    rw [Scal.val_mul, e2]; exact XR.fin_mul _ _
  obtain ⟨sx, e3, e4⟩ := Scal.div_fin (b := .py (.fin 1)) hy rfl one_ne_zero
  have e5 : (M : ℝ) * (1 / (M * 2)) / 1 = 1 / 2 := by field_simp
  rw [e5] at e4
  have e6 : pyInt sx.val = .ok 0 := by
    rw [e4]
    unfold pyInt
    dsimp only
    rw [if_pos (by norm_num), Except.ok.injEq, Int.floor_eq_zero_iff]
    norm_num
  obtain ⟨r, e7, r1, r2, r3, -⟩ := cvResize_ok (x := rawPsf M M fun k l => if k = M / 2 ∧ l = M / 2 then 1 else 0)
    (nw := 1) (nh := 1) (by show M ≠ 0; omega) (by show M ≠ 0; omega) one_ne_zero one_ne_zero
  have rc := r3 (1 / ((M : ℝ) * M)) (1 / ((M : ℝ) * M)) fun i _ j _ =>
    ⟨(zeroFrequency_raw (by omega) eM i j).ge, (zeroFrequency_raw (by omega) eM i j).le⟩
  have rs : r.sum = 1 / ((M : ℝ) * M) := by
    unfold Img.sum
    rw [r1, r2, Finset.sum_range_one, Finset.sum_range_one]
    exact le_antisymm (rc 0 0).2 (rc 0 0).1
  have rs0 : r.sum ≠ 0 := by rw [rs]; positivity
  obtain ⟨z, e8⟩ : ∃ z, normalize r = .ok z := ⟨_, if_neg rs0⟩
  obtain ⟨-, z1, z2, z3, -⟩ := normalize_ok e8
  have zw : getMiddle z 10 = z := getMiddle_whole (by omega) (by omega)
  refine ⟨z, ?_⟩
  have hs : supportSize z (arange10 (min M M)) = .ok 10 := supportSize_head (by omega) (by rw [zw, z3]; norm_num)
  unfold otfToPsf
  simp only [Bool.not_true, Bool.false_eq_true, if_false, e1, ok_bind, e3, e6, Int.toNat_zero, max_eq_left zero_le_one, e7, e8,
    hs, zw]
  exact normalize_one z3

end PyBSM
