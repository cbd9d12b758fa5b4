import Verif.Props.DoubleRating
import Verif.Props.DoubleNoise
import Verif.Model.DoubleNiirs
import Verif.Spec.DoubleNiirs

/-!
# C124: ratings with GIQE 3 and GIQE 4 in double precision
-/

noncomputable section

open Classical

namespace PyBSM

open Spec

variable {fl lgD cosD acosD sinD : ℝ → ℝ} {L : MathLib} {interp : (ℕ → ℕ → ℝ) → ℝ → ℝ → ℝ}

/-! ## The responses beyond the edge -/

theorem edge_at_near (hfl : RoundsToNearest fl) (hs : ∀ x, |sinD x - Real.sin x| ≤ 1e-15 * |Real.sin x|) {order : SumTree}
    (ho : order.leaves.Perm (List.range 49)) (hd : order.depth ≤ 600) {sl m : ℕ → ℝ} {M ε c i x : ℝ} (hM : 0 ≤ M) (hc0 : 1e-4 ≤ c) (hi : 0 < i)
    (h1 : ∀ k < 50, |sl k - m k| ≤ ε + 2e-12 * M) (h2 : ∀ k < 50, |sl k| ≤ 1.01 * M) (h3 : ∀ k < 50, |m k| ≤ M + ε) (he : 0 ≤ ε) (hx : 0 ≤ x) :
    |edgeResponseD fl sinD order x sl (stepD fl c) (fl i) - edge 50 m (c / 50) i x| ≤ 1e-11 * (1 + M * (i * c * x)) + 2.1 * ε * (i * c * x) := by
  have hstep := gridStep_within hfl (by linarith : 0 < c)
  have hfi := fl_within hfl hi
  have herr := hstep.error (by norm_num)
  have hferr := hfi.error (by norm_num)
  have d1 : 1e-6 ≤ stepD fl c := by
    have := (abs_le.mp herr).1
    linarith
  have d2 : stepD fl c ≤ 1.0001 * (c / 50) := by
    have := (abs_le.mp herr).2
    linarith
  have d3 : fl i ≤ 1.0001 * i := by
    have := (abs_le.mp hferr).2
    linarith
  obtain ⟨e, e1, e2⟩ := (C109_rounding hfl hs (n := 50) (m := sl) ho d1 hfi.1 h2 (by omega)).1 x
  rw [edge_value 50 sl (by linarith) (fl i) x] at e1
  obtain rfl : edge 50 sl (stepD fl c) (fl i) x = e := by simpa using e1
  have N := edge_near (n := 50) (m := m) (m' := sl) (by linarith : 0 ≤ stepD fl c) hfi.1.le h1 x
  have S := C120_sensitivity (n := 50) (m := m) (M := M + ε) hstep hfi (by norm_num) h3 x
  rw [abs_of_nonneg hx] at S N e2
  simp only [Nat.reduceSub] at S N e2
  have hF : fl i * stepD fl c ≤ 1.001 * (i * (c / 50)) := by
    calc fl i * stepD fl c ≤ 1.0001 * i * (1.0001 * (c / 50)) := mul_le_mul d3 d2 (by linarith) (by positivity)
      _ ≤ 1.001 * (i * (c / 50)) := by have : 0 ≤ i * (c / 50) := by positivity
                                       nlinarith
  have hF0 : 0 ≤ fl i * stepD fl c := mul_nonneg hfi.1.le (by linarith)
  generalize edge 50 sl (stepD fl c) (fl i) x = A at *
  generalize edge 50 m (stepD fl c) (fl i) x = E' at *
  generalize edge 50 m (c / 50) i x = E at *
  generalize edgeResponseD fl sinD order x sl (stepD fl c) (fl i) = R at *
  obtain ⟨q, hq⟩ : ∃ q, q = i * c * x := ⟨_, rfl⟩
  have hq0 : 0 ≤ q := by rw [hq]; have : 0 < c := by linarith
                         positivity
  rw [← hq]
  have hFx : fl i * stepD fl c * x ≤ 1.001 / 50 * q := by
    calc fl i * stepD fl c * x ≤ 1.001 * (i * (c / 50)) * x := mul_le_mul_of_nonneg_right hF hx
      _ = 1.001 / 50 * q := by rw [hq]; ring
  have b1 : |R - A| ≤ 1e-12 * (1 / 2 + 2.1 * (M * q)) := by
    refine e2.trans ?_
    have : 2 * (1.01 * M) * fl i * x * (((49 : ℕ) : ℝ) * stepD fl c) ≤ 2.1 * (M * q) := by
      calc 2 * (1.01 * M) * fl i * x * (((49 : ℕ) : ℝ) * stepD fl c) = 98.98 * M * (fl i * stepD fl c * x) := by push_cast; ring
        _ ≤ 98.98 * M * (1.001 / 50 * q) := mul_le_mul_of_nonneg_left hFx (by positivity)
        _ = 98.98 * 1.001 / 50 * (M * q) := by ring
        _ ≤ 2.1 * (M * q) := mul_le_mul_of_nonneg_right (by norm_num) (by positivity)
    linarith
  have b2 : |A - E'| ≤ 2 * q * (ε + 2e-12 * M) := by
    refine N.trans (mul_le_mul_of_nonneg_right ?_ (by positivity))
    calc 2 * fl i * x * (((49 : ℕ) : ℝ) * stepD fl c) = 98 * (fl i * stepD fl c * x) := by push_cast; ring
      _ ≤ 98 * (1.001 / 50 * q) := by linarith
      _ ≤ 2 * q := by linarith
  have b3 : |E' - E| ≤ 2e-12 * ((M + ε) * q) := by
    refine S.trans ?_
    have w : 0 ≤ (M + ε) * q := by positivity
    have e1 : 11 * (M + ε) * i * x * (((49 : ℕ) : ℝ) * (c / 50)) * (1.4e-13 + 1e-15) = 11 * 49 / 50 * (1.4e-13 + 1e-15) * ((M + ε) * q) := by
      rw [hq]; push_cast; ring
    have e2 : 11 * 49 / 50 * (1.4e-13 + 1e-15) * ((M + ε) * q) ≤ 2e-12 * ((M + ε) * q) := mul_le_mul_of_nonneg_right (by norm_num) w
    exact e1.le.trans e2
  have t1 := abs_sub_le R A E
  have t2 := abs_sub_le A E' E
  have w1 : 0 ≤ M * q := by positivity
  have w2 : 0 ≤ ε * q := by positivity
  nlinarith

/-- The largest of nine numbers is one of them and bounds them all. -/
theorem max_of_nine (er : ℕ → ℝ) :
    (∃ i < 9, ((List.range 8).map fun i => er (i + 1)).foldl max (er 0) = er i)
      ∧ ∀ i < 9, er i ≤ ((List.range 8).map fun i => er (i + 1)).foldl max (er 0) := by
  have key : ∀ (l : List ℝ) (a : ℝ), (l.foldl max a = a ∨ l.foldl max a ∈ l) ∧ a ≤ l.foldl max a ∧ ∀ x ∈ l, x ≤ l.foldl max a := by
    intro l
    induction l with
    | nil => intro a; simp
    | cons b l ih =>
      intro a
      obtain ⟨i1, i2, i3⟩ := ih (max a b)
      simp only [List.foldl_cons]
      refine ⟨?_, (le_max_left _ _).trans i2, ?_⟩
      · rcases i1 with e | m
        · rcases max_choice a b with h | h
          · left; rw [e, h]
          · right; rw [e, h]; exact List.mem_cons_self
        · right; exact List.mem_cons_of_mem _ m
      · intro x hx
        rcases List.mem_cons.mp hx with rfl | hx
        · exact (le_max_right _ _).trans i2
        · exact i3 x hx
  obtain ⟨k1, k2, k3⟩ := key ((List.range 8).map fun i => er (i + 1)) (er 0)
  constructor
  · rcases k1 with e | m
    · exact ⟨0, by norm_num, e⟩
    · obtain ⟨i, hi, e⟩ := List.mem_map.mp m
      exact ⟨i + 1, by have := List.mem_range.mp hi; omega, e.symm⟩
  · intro i hi
    rcases i with _ | i
    · exact k2
    · exact k3 _ (List.mem_map.mpr ⟨i, List.mem_range.mpr (by omega), rfl⟩)

/-- **C124** (overshoot, any errors). If the responses beyond an edge are computed up to `η` and the shape of the edge is clear up to `η`,
the computed overshoot is within `η` of the exact one. -/
theorem C124_overshoot (hfl : RoundsToNearest fl) {order : SumTree} {sl m : ℕ → ℝ} {df' ifov' df ifov η e : ℝ}
    (hη : ∀ i : ℕ, i < 9 → |edgeResponseD fl sinD order (1 + i / 4) sl df' ifov' - edge 50 m df ifov (1 + i / 4)| ≤ η)
    (hs : ClearShape m df ifov η) (he : IsOvershoot m df ifov e) :
    |overshootD fl sinD order sl df' ifov' - e| ≤ η := by
  obtain ⟨p, n⟩ := he
  have h9 : ∀ i : ℕ, i < 9 → |overshootEntryD fl sinD order sl df' ifov' i - edge 50 m df ifov (1 + i / 4)| ≤ η := hη
  unfold ClearShape at hs
  unfold overshootD
  dsimp only at p n ⊢
  obtain ⟨E, hE⟩ : ∃ E : ℕ → ℝ, E = fun i : ℕ => edge 50 m df ifov (1 + i / 4) := ⟨_, rfl⟩
  have hE' : ∀ i : ℕ, edge 50 m df ifov (1 + i / 4) = E i := fun i => by rw [hE]
  simp only [hE'] at p n h9 hs
  generalize overshootEntryD fl sinD order sl df' ifov' = er at *
  have η0 : 0 ≤ η := (abs_nonneg _).trans (h9 0 (by norm_num))
  rcases hs with hr | ⟨j, hj, hf⟩
  · have hup : ∀ i < 8, 0 < fl (er (i + 1) - er i) := by
      intro i hi
      have a := abs_le.mp (h9 i (by omega))
      have b := abs_le.mp (h9 (i + 1) (by omega))
      have := hr i hi
      exact fl_pos hfl (by linarith [a.2, b.1])
    rw [if_pos hup, p fun i hi => by have := hr i hi; linarith]
    exact h9 1 (by norm_num)
  · have hdown : ¬ ∀ i < 8, 0 < fl (er (i + 1) - er i) := by
      intro h
      have a := abs_le.mp (h9 j (by omega))
      have b := abs_le.mp (h9 (j + 1) (by omega))
      exact absurd (h j hj) (not_lt.mpr (fl_nonpos hfl (by linarith [a.1, b.2])))
    have hdown' : ¬ ∀ i < 8, E i < E (i + 1) := by
      intro h
      have := h j hj
      linarith
    rw [if_neg hdown]
    obtain ⟨⟨k, hk, ek⟩, le⟩ := max_of_nine er
    obtain ⟨⟨l, hl, el⟩, le'⟩ := n hdown'
    have a := abs_le.mp (h9 k hk)
    have b := abs_le.mp (h9 l hl)
    have c1 := le l hl
    have c2 := le' k hk
    rw [ek] at c1 ⊢
    rw [el] at c2 ⊢
    rw [abs_le]
    constructor <;> linarith [a.1, a.2, b.1, b.2]

/-! ## The edge terms of a system -/

/-- **C124** (edge terms). Computed in double precision from the sensor and the scene, the overshoots along the two axes are within
`edgeRounding` of the exact ones, if the shapes of the two edges are clear. -/
theorem C124_edges (hfl : RoundsToNearest fl) (hc : IsCosine cosD) (ha : IsArccos acosD) (hL : MathLibrary L) (hT : TenthPower L)
    (hI : Interpolates interp) {s : RealSensor} {g : RealScene} {order order' order'' : SumTree} {pairs pairs' : List (ℝ × ℝ)}
    {t t' c δw δt eu ev : ℝ} (h : OrdinaryRating s g order pairs t c)
    (hw : List.Forall₂ (fun p q : ℝ × ℝ => p.1 = q.1 ∧ WithinFactor δw p.2 q.2) pairs' pairs) (ht : WithinFactor δt t' t)
    (hdw : δw ≤ 0.02) (hdt : δt ≤ 0.0004) (ho : order'.leaves.Perm (List.range 9999)) (hr : order'.depth ≤ 2000)
    (ho' : order''.leaves.Perm (List.range (sliceCountD fl 101 - 1))) (hr' : order''.depth ≤ 600) (hx : 0 < s.pX) (hy : 0 < s.pY)
    (hsu : ClearShape (alongU (fun u v => |opticsAt s g pairs t u v|) (c / 50)) (c / 50) (s.pX / s.f)
      (edgeRounding (mtfError g.slant δw δt) (s.pX / s.f * c)))
    (hsv : ClearShape (alongV (fun u v => |opticsAt s g pairs t u v|) (c / 50)) (c / 50) (s.pY / s.f)
      (edgeRounding (mtfError g.slant δw δt) (s.pY / s.f * c)))
    (heu : IsOvershoot (alongU (fun u v => |opticsAt s g pairs t u v|) (c / 50)) (c / 50) (s.pX / s.f) eu)
    (hev : IsOvershoot (alongV (fun u v => |opticsAt s g pairs t u v|) (c / 50)) (c / 50) (s.pY / s.f) ev) :
    let G := mtfGridD fl cosD acosD L order order' s g pairs' t' (fl c)
    |overshootD fl L.sin order'' (sliceD fl cosD L.sin interp G 0) (stepD fl (fl c)) (fl (s.pX / s.f)) - eu|
        ≤ edgeRounding (mtfError g.slant δw δt) (s.pX / s.f * c)
      ∧ |overshootD fl L.sin order'' (sliceD fl cosD L.sin interp G (fl (fl Real.pi / 2))) (stepD fl (fl c)) (fl (s.pY / s.f)) - ev|
        ≤ edgeRounding (mtfError g.slant δw δt) (s.pY / s.f * c) := by
  intro G
  have hc0 : 0 < c := by linarith [h.large]
  have hf := h.focal
  have hlarge := h.large
  obtain ⟨h1, h2⟩ := C121_mtf hfl hc ha hL hT h hw ht hdw hdt ho hr
  have hcw := fl_within hfl hc0
  have hce := abs_le.mp (hcw.error (by norm_num))
  unfold mtfError at *
  set E := 1.4e-6 + 0.125 / g.slant ^ 2 + 11 * δt + 7 * δw with hE
  have hE0 : 0 ≤ E := (abs_nonneg _).trans (h1 0 (by norm_num)).1
  have hE1 : E ≤ 0.9 := by
    have := scene_slant_small h.altitude.1
    have e : 0.125 / g.slant ^ 2 = 0.125 / 0.11 * (0.11 / g.slant ^ 2) := by ring
    rw [hE, e]
    linarith
  have hlarge' : 1e-4 ≤ fl c := by linarith [hce.1]
  obtain ⟨hcnt, hsl⟩ := C120_slices hfl hc hL.trig.sin hI (G := G) (M := 14) h2
  rw [hcnt] at ho'
  have key : ∀ (sl nd m : ℕ → ℝ) (i : ℝ), 0 < i → (∀ k < 50, |sl k - nd k| ≤ 2e-12 * 14) → (∀ k < 50, |nd k - m k| ≤ E) →
      (∀ k < 50, |nd k| ≤ 14) → ∀ j : ℕ, j < 9 →
      |edgeResponseD fl L.sin order'' (1 + j / 4) sl (stepD fl (fl c)) (fl i) - edge 50 m (c / 50) i (1 + j / 4)| ≤ edgeRounding E (i * c) := by
    intro sl nd m i hi n1 n2 n3 j hj
    have hj' : (j : ℝ) ≤ 8 := by exact_mod_cast (by omega : j ≤ 8)
    have hj0 : (0 : ℝ) ≤ j := j.cast_nonneg
    obtain ⟨x, hxe⟩ : ∃ x : ℝ, x = 1 + j / 4 := ⟨_, rfl⟩
    rw [← hxe]
    have x0 : 0 ≤ x := by rw [hxe]; positivity
    have x3 : x ≤ 3 := by rw [hxe]; linarith
    have hm : ∀ k < 50, |m k| ≤ 14 + E := by
      intro k hk
      have a := n2 k hk
      have b := n3 k hk
      have := abs_sub_abs_le_abs_sub (m k) (nd k)
      rw [abs_sub_comm (m k)] at this
      linarith
    have R := edge_at_near hfl hL.trig.sin ho' hr' (sl := sl) (m := m) (M := 14) (ε := E) (c := fl c) (i := i) (x := x) (by norm_num) hlarge' hi
      (fun k hk => by
        have a := n1 k hk
        have b := n2 k hk
        have := abs_sub_le (sl k) (nd k) (m k)
        linarith)
      (fun k hk => by
        have a := n1 k hk
        have b := n3 k hk
        have := abs_sub_abs_le_abs_sub (sl k) (nd k)
        linarith) hm hE0 x0
    have w : WithinFactor 1e-15 (fl c / 50) (c / 50) := by
      have := hcw.div (WithinFactor.refl (by norm_num : (0:ℝ) < 50))
      rwa [add_zero] at this
    have S := C120_sensitivity (n := 50) (m := m) (M := 15) w (WithinFactor.refl hi) (by norm_num) (fun k hk => (hm k hk).trans (by linarith)) x
    rw [abs_of_nonneg x0] at S
    simp only [Nat.reduceSub, add_zero] at S
    generalize edge 50 m (fl c / 50) i x = e1 at *
    generalize edge 50 m (c / 50) i x = e2 at *
    generalize edgeResponseD fl L.sin order'' x sl (stepD fl (fl c)) (fl i) = r at *
    obtain ⟨q, hq⟩ : ∃ q, q = i * c := ⟨_, rfl⟩
    have q0 : 0 ≤ q := by rw [hq]; positivity
    have hqx : q * x ≤ 3 * q := by nlinarith
    have hqx0 : 0 ≤ q * x := by positivity
    have hq' : i * fl c * x ≤ (1 + 1.1e-15) * (q * x) := by
      have : fl c ≤ (1 + 1.1e-15) * c := by linarith [hce.2]
      have : i * fl c ≤ (1 + 1.1e-15) * q := by rw [hq]; nlinarith
      nlinarith
    have S' : |e1 - e2| ≤ 1e-12 * q := by
      refine S.trans ?_
      have e : 11 * 15 * i * x * (((49 : ℕ) : ℝ) * (c / 50)) * 1e-15 = 11 * 15 * 49 / 50 * 1e-15 * (q * x) := by rw [hq]; push_cast; ring
      rw [e]
      linarith
    have t1 := abs_sub_le r e1 e2
    have t3 : 2.1 * E * (i * fl c * x) ≤ 6.3 * E * q + 1e-14 * q := by
      have a1 : 2.1 * E * (i * fl c * x) ≤ 2.1 * E * ((1 + 1.1e-15) * (q * x)) := mul_le_mul_of_nonneg_left hq' (by positivity)
      have a2 : E * (q * x) ≤ E * (3 * q) := mul_le_mul_of_nonneg_left hqx hE0
      have a3 : E * q ≤ 0.9 * q := mul_le_mul_of_nonneg_right hE1 q0
      linarith
    unfold edgeRounding
    rw [← hq]
    linarith
  have hix : 0 < s.pX / s.f := by positivity
  have hiy : 0 < s.pY / s.f := by positivity
  exact ⟨C124_overshoot hfl (key _ (fun k => G 50 (50 + k)) _ _ hix (fun k hk => (hsl k hk).1) (fun k hk => (h1 k hk).1)
      (fun k hk => h2 _ _ (by norm_num) (by omega))) hsu heu,
    C124_overshoot hfl (key _ (fun k => G (50 - k) 50) _ _ hiy (fun k hk => (hsl k hk).2) (fun k hk => (h1 k hk).2)
      (fun k hk => h2 _ _ (by omega) (by norm_num))) hsv hev⟩

/-! ## The scores -/

theorem Spec.WithinFactor.geo (hfl : RoundsToNearest fl) {δ a' a b' b : ℝ} (ha : WithinFactor δ a' a) (hb : WithinFactor δ b' b) :
    WithinFactor (δ + 2e-15) (fl (Real.sqrt (fl (a' * b')))) (Real.sqrt (a * b)) := by
  have h := (((ha.mul hb).round hfl).rpow (p := 1 / 2) (by norm_num))
  rw [← Real.sqrt_eq_rpow, ← Real.sqrt_eq_rpow] at h
  exact (h.round hfl).mono (by linarith)

theorem score3_near (hfl : RoundsToNearest fl) (hlib : Accurate lgD L.sin L.exp L.pow) {r g e s r' g' e' s' δ : ℝ} (hd : δ ≤ 0.01)
    (hr : WithinFactor δ r' r) (hg : WithinFactor δ g' g) (he : WithinFactor δ e' e) (hs : WithinFactor δ s' s) :
    |giqe3D fl lgD r' g' e' 1 s' - niirs3 r g e 1 s|
      ≤ (2.9 + 1.6 * e + 2.1 / s) * δ + 1.1e-14 * (14 + 3 * |lg (r / (g / 0.0254))| + 1.4 * e + 1 / s) := by
  have h1 := WithinFactor.refl (show (0 : ℝ) < 1 by norm_num)
  have d0 := hr.nonneg
  have hee := he.error (by linarith)
  obtain ⟨y, y', k1, k2, k3⟩ := C108_giqe3_sensitivity hd hr hg hee (h1.mono d0) hs
  obtain ⟨y2, l1, l2⟩ := C108_giqe3_rounding hfl hlib (e := e') (n := 1) hr.1 hg.1 hs.1.ne'
  rw [giqe3_fin rfl rfl rfl rfl rfl hr.2.1 hg.2.1 hs.2.1.ne'] at k1
  rw [k2] at l1
  simp only [Except.ok.injEq, XR.fin.injEq] at k1 l1
  subst k1
  subst l1
  have q := (hr.div (hg.div (WithinFactor.refl (x := 0.0254) (by norm_num)))).lg
  have w := ((h1.div hs).error (by linarith))
  have e0 := he.2.1
  have s0 : 0 < 1 / s := div_pos one_pos hs.2.1
  have e2 : |e'| ≤ 1.02 * e := by
    rw [abs_of_pos he.1]
    have := (abs_le.mp hee).2
    nlinarith
  have s2 : |1 / s'| ≤ 1.02 * (1 / s) := by
    rw [abs_of_pos (div_pos one_pos hs.1)]
    have := (abs_le.mp w).2
    nlinarith
  have q2 : |lg (r' / (g' / 0.0254))| ≤ |lg (r / (g / 0.0254))| + 0.01 := by
    have := abs_sub_abs_le_abs_sub (lg (r' / (g' / 0.0254))) (lg (r / (g / 0.0254)))
    linarith
  have t := abs_sub_le (giqe3D fl lgD r' g' e' 1 s') y' (niirs3 r g e 1 s)
  have a0 := abs_nonneg (lg (r / (g / 0.0254)))
  have es : 2.1 / s = 2.1 * (1 / s) := by ring
  rw [es]
  have de : 0 ≤ e * δ := by positivity
  linarith

theorem score4_near (hfl : RoundsToNearest fl) (hlib : Accurate lgD L.sin L.exp L.pow) {r g e s el r' g' e' s' el' δ : ℝ} (hd : δ ≤ 0.01)
    (hr : WithinFactor δ r' r) (hg : WithinFactor δ g' g) (he : WithinFactor δ e' e) (hs : WithinFactor δ s' s)
    (hel : WithinFactor δ el' el) (h1 : el' ≤ Real.pi / 2) (h2 : el ≤ Real.pi / 2) (hdbl : IsDouble r')
    (hb : r * (1 + 2 * δ) < 0.9 ∨ 0.9 * (1 + 2 * δ) ≤ r) :
    |giqe4D fl lgD L.sin L.pow r' g' e' 1 s' el'
        - (if 0.9 ≤ r then niirs4 3.32 1.559 r g e 1 s el else niirs4 3.16 2.817 r g e 1 s el)|
      ≤ (3.4 + 0.7 * e + 0.7 / s) * δ + 1.2e-14 * (17 + 3.4 * |lg (projectedGsd (1 / 2) g el / 0.0254)| + 3 * |lg r| + e + 1 / s) := by
  have hone := WithinFactor.refl (show (0 : ℝ) < 1 by norm_num)
  have d0 := hr.nonneg
  have hee := he.error (by linarith)
  have hre := abs_le.mp (hr.error (by linarith))
  have r0 := hr.2.1
  have hbr : 0.9 ≤ r' ↔ 0.9 ≤ r := by
    rcases hb with hb | hb
    · have a1 : ¬ 0.9 ≤ r := by intro h; nlinarith
      have a2 : ¬ 0.9 ≤ r' := by intro h; nlinarith
      simp only [a1, a2]
    · have a1 : 0.9 ≤ r := by nlinarith
      have a2 : 0.9 ≤ r' := by nlinarith
      simp only [a1, a2]
  obtain ⟨y, y', gp, gp', k1, k2, k3⟩ := C108_giqe4_sensitivity hd hr hbr hg hee (hone.mono d0) hs hel h1 h2
  obtain ⟨y2, gp2, l1, l2, -⟩ := C108_giqe4_rounding hfl hlib (e := e') (n := 1) hdbl hr.1 hg.1 hs.1.ne' hel.1 h1
  have k2' := k2
  rw [giqe4_fin rfl rfl rfl rfl rfl hr.2.1 hg.2.1 hs.2.1.ne' (sin_pos_elev hel.2.1 h2)] at k1
  rw [giqe4_fin rfl rfl rfl rfl rfl hr.1 hg.1 hs.1.ne' (sin_pos_elev hel.1 h1)] at k2'
  rw [k2] at l1
  simp only [Except.ok.injEq, Prod.mk.injEq, XR.fin.injEq] at k1 k2' l1
  obtain ⟨k1, rfl⟩ := k1
  obtain ⟨-, rfl⟩ := k2'
  obtain ⟨rfl, rfl⟩ := l1
  rw [k1]
  have q := ((projected_within hg hel h1 h2 (p := 1 / 2) (by norm_num)).div (WithinFactor.refl (x := 0.0254) (by norm_num))).lg
  have q' := hr.lg
  have w := ((hone.div hs).error (by linarith))
  have e0 := he.2.1
  have s0 : 0 < 1 / s := div_pos one_pos hs.2.1
  have e2 : |e'| ≤ 1.02 * e := by
    rw [abs_of_pos he.1]
    have := (abs_le.mp hee).2
    nlinarith
  have s2 : |(1 : ℝ)| / |s'| ≤ 1.02 * (1 / s) := by
    rw [abs_one, abs_of_pos hs.1]
    have := (abs_le.mp w).2
    nlinarith
  generalize lg (projectedGsd (1 / 2) g' el' / 0.0254) = A' at *
  generalize lg (projectedGsd (1 / 2) g el / 0.0254) = A at *
  have q2 : |A'| ≤ |A| + 0.01 := by
    have := abs_sub_abs_le_abs_sub A' A
    linarith
  have q3 : |lg r'| ≤ |lg r| + 0.01 := by
    have := abs_sub_abs_le_abs_sub (lg r') (lg r)
    linarith
  have t := abs_sub_le (giqe4D fl lgD L.sin L.pow r' g' e' 1 s' el') y' y
  have a0 := abs_nonneg A
  have a1 := abs_nonneg (lg r)
  have es : 0.7 / s = 0.7 * (1 / s) := by ring
  rw [es]
  have de : 0 ≤ e * δ := by positivity
  linarith

/-- Without a sharpening filter the noise gain is exactly one. -/
theorem noiseGain_unsharpened (hfl : RoundsToNearest fl) {order : SumTree} (ho : order.leaves.Perm (List.range 1)) :
    noiseGainD fl order [[1]] = .ok 1 := by
  have f1 : fl 1 = 1 := by
    have := hfl.self (isDouble_dyadic (m := 1) 0 (by norm_num))
    simpa using this
  have key : ∀ (f : ℕ → ℝ), f 0 = 1 → ∀ o : SumTree, (o.leaves = [] → sumD fl f o = 0) ∧ (o.leaves = [0] → sumD fl f o = 1) := by
    intro f hf o
    induction o with
    | zero => simp [SumTree.leaves, sumD]
    | leaf i =>
      refine ⟨by simp [SumTree.leaves], fun h => ?_⟩
      simp only [SumTree.leaves, List.cons.injEq, and_true] at h
      rw [h]; simpa [sumD] using hf
    | node a b iha ihb =>
      simp only [SumTree.leaves, List.append_eq_nil_iff, List.append_eq_singleton_iff, sumD]
      refine ⟨fun h => by rw [iha.1 h.1, ihb.1 h.2, add_zero, hfl.zero], ?_⟩
      rintro (h | h)
      · rw [iha.1 h.1, ihb.2 h.2, zero_add, f1]
      · rw [iha.2 h.1, ihb.1 h.2, add_zero, f1]
  have hl : order.leaves = [0] := List.perm_singleton.mp (by simpa using ho)
  unfold noiseGainD
  rw [(key _ (by simp) order).2 hl, (key (fun i => fl ([[(1:ℝ)]].flatten.getD i 0 ^ 2)) (by simp [f1]) order).2 hl, Real.sqrt_one, f1]
  simp

/-- **C124** (scores). For a sensor without a sharpening filter, the GIQE 3 score that `niirs` computes in double precision, from weights,
an exposure time and a signal-to-noise ratio within factors `exp δw`, `exp δt` and `exp δs` of the exact ones, is within
`(2.9 + 1.6 eho + 2.1 / snr) δ` of the score that the model computes with real numbers, up to `1.1 · 10^-14` of the terms of the equation,
if the edge responses and overshoots are large enough to be known up to the factor `exp δ` and the shapes of the edges are clear. The
GIQE 4 score is within `(3.4 + 0.7 eho + 0.7 / snr) δ`, up to `1.2 · 10^-14` of its terms, if also the elevation is known up to `exp δ` and
the relative edge response is further than that from 0.9, where the coefficients change. -/
theorem C124_score (hfl : RoundsToNearest fl) (hlib : Accurate lgD L.sin L.exp L.pow) (hc : IsCosine cosD) (ha : IsArccos acosD)
    (hL : MathLibrary L) (hT : TenthPower L) (hI : Interpolates interp) {env : Env} {s : RealSensor} {g : RealScene} {sc : Scenario}
    {near : Bool} {B : List (Fin 6 → ℝ)} (him : Imaging env s g sc near B) (hker : s.filterKernel = [[1]])
    {order order' order'' orderK : SumTree} {pairs : List (ℝ × ℝ)}
    {t snr c δw δt δs δ ru rv eu ev : ℝ} (h : OrdinaryRating s g order (s.band B) (s.exposure B) c) (hframes : 0 < s.frameStacks)
    (hw : List.Forall₂ (fun p q : ℝ × ℝ => p.1 = q.1 ∧ WithinFactor δw p.2 q.2) pairs (s.band B)) (hdw : δw ≤ 0.02)
    (ht : WithinFactor δt t (s.exposure B)) (hdt : δt ≤ 0.0004) (hs : WithinFactor δs snr (s.contrastSNR B))
    (ho : order'.leaves.Perm (List.range 9999)) (hr : order'.depth ≤ 2000)
    (ho' : order''.leaves.Perm (List.range (sliceCountD fl 101 - 1))) (hr' : order''.depth ≤ 600)
    (hoK : orderK.leaves.Perm (List.range 1))
    (hu : ru = rerOf (alongU (s.mtf g B fun _ _ => 1) (c / 50)) (c / 50) (s.pX / s.f))
    (hv : rv = rerOf (alongV (s.mtf g B fun _ _ => 1) (c / 50)) (c / 50) (s.pY / s.f))
    (heu : IsOvershoot (alongU (s.mtf g B fun _ _ => 1) (c / 50)) (c / 50) (s.pX / s.f) eu)
    (hev : IsOvershoot (alongV (s.mtf g B fun _ _ => 1) (c / 50)) (c / 50) (s.pY / s.f) ev)
    (hu0 : 0 < ru) (hv0 : 0 < rv) (heu0 : 0 < eu) (hev0 : 0 < ev) (hd : δ ≤ 0.01)
    (hsu : ClearShape (alongU (s.mtf g B fun _ _ => 1) (c / 50)) (c / 50) (s.pX / s.f)
      (edgeRounding (mtfError g.slant δw δt) (s.pX / s.f * c)))
    (hsv : ClearShape (alongV (s.mtf g B fun _ _ => 1) (c / 50)) (c / 50) (s.pY / s.f)
      (edgeRounding (mtfError g.slant δw δt) (s.pY / s.f * c)))
    (b1 : 4e-10 * (1 + s.pX / s.f * c) + 4.2 * mtfError g.slant δw δt * (s.pX / s.f * c) ≤ (δ - 1e-14) * ru)
    (b2 : 4e-10 * (1 + s.pY / s.f * c) + 4.2 * mtfError g.slant δw δt * (s.pY / s.f * c) ≤ (δ - 1e-14) * rv)
    (b3 : 2 * edgeRounding (mtfError g.slant δw δt) (s.pX / s.f * c) ≤ (δ - 1e-14) * eu)
    (b4 : 2 * edgeRounding (mtfError g.slant δw δt) (s.pY / s.f * c) ≤ (δ - 1e-14) * ev)
    (b5 : 0.2 / g.slant ^ 2 + 1e-14 ≤ δ) (b6 : δs + 1e-14 ≤ δ) :
    ∃ (m : Metrics) (x x4 y y4 gsd gp : ℝ), (niirs env s.toSensor sc near).1 = .ok m ∧ m.niirs = .fin y
      ∧ m.giqe34 = some (.fin (s.pY / s.f * g.slant), .fin gsd, .fin (Real.sqrt (ru * rv)), .fin (Real.sqrt (eu * ev)), .fin 1, .fin y4, .fin gp)
      ∧ niirsD fl lgD cosD acosD L interp order order' order'' orderK s g pairs t snr = .ok (.fin x, .fin x4)
      ∧ |x - y| ≤ (2.9 + 1.6 * Real.sqrt (eu * ev) + 2.1 / (Real.sqrt s.frameStacks * s.contrastSNR B)) * δ
        + 1.1e-14 * (14 + 3 * |lg (Real.sqrt (ru * rv) / (gsd / 0.0254))| + 1.4 * Real.sqrt (eu * ev)
          + 1 / (Real.sqrt s.frameStacks * s.contrastSNR B))
      ∧ (0.8 / (g.groundRange * g.altitude) + 2e-9 ≤ δ →
        (Real.sqrt (ru * rv) * (1 + 2 * δ) < 0.9 ∨ 0.9 * (1 + 2 * δ) ≤ Real.sqrt (ru * rv)) →
        |x4 - y4| ≤ (3.4 + 0.7 * Real.sqrt (eu * ev) + 0.7 / (Real.sqrt s.frameStacks * s.contrastSNR B)) * δ
          + 1.2e-14 * (17 + 3.4 * |lg (gp / 0.0254)| + 3 * |lg (Real.sqrt (ru * rv))| + Real.sqrt (eu * ev)
            + 1 / (Real.sqrt s.frameStacks * s.contrastSNR B))) := by
  obtain ⟨m, c', F, ru', rv', eu', ev', φ, gsd, ng, snr', k1, k2, k3, k4, k5, k6, k7, k8, k9, k10, k11, k12, k13⟩ :=
    C70_value him (by rw [hker]; simp)
  have hcut : s.Cutoff B c := by
    obtain ⟨p, hp, e⟩ := h.shortest
    refine ⟨p.1, ⟨p, hp, rfl⟩, fun q hq => ?_, e⟩
    have hp0 : 0 < p.1 := h.band.positive p hp
    have h1 := (h.octave q hq).1
    have hD := h.aperture
    rw [e, div_mul_eq_mul_div, le_div_iff₀ hp0] at h1
    exact le_of_mul_le_mul_left h1 hD
  obtain rfl : c' = c := cutoff_same hcut k2
  have hF : F = fun _ _ => 1 := by
    funext u v
    exact k3.1 (by rw [hker]; simp) u v
  subst hF
  rw [← hu] at k4
  rw [← hv] at k5
  subst k4
  subst k5
  have same : ∀ {M : ℕ → ℝ} {df i a b : ℝ}, IsOvershoot M df i a → IsOvershoot M df i b → a = b := by
    intro M df i a b h1 h2
    obtain ⟨p1, n1⟩ := h1
    obtain ⟨p2, n2⟩ := h2
    dsimp only at p1 n1 p2 n2
    by_cases hc : ∀ j : ℕ, j < 8 → edge 50 M df i (1 + j / 4) < edge 50 M df i (1 + (j + 1 : ℕ) / 4)
    · rw [p1 hc, p2 hc]
    · obtain ⟨⟨j1, l1, m1⟩, q1⟩ := n1 hc
      obtain ⟨⟨j2, l2, m2⟩, q2⟩ := n2 hc
      refine le_antisymm ?_ ?_
      · rw [m1]; exact q2 _ l1
      · rw [m2]; exact q1 _ l2
  obtain rfl := same k6 heu
  obtain rfl := same k7 hev
  have hng : ng = 1 := by rw [k10, hker]; simp
  subst hng
  have hpx := him.pitchX
  have hpy := him.pitchY
  have hf := h.focal
  have hM : (fun u v => |opticsAt s g (s.band B) (s.exposure B) u v|) = s.mtf g B fun _ _ => 1 := by
    funext u v
    simp [RealSensor.mtf]
  obtain ⟨E1, E2⟩ := C121_edges hfl hc ha hL hT hI h hw ht hdw hdt ho hr ho' hr' hpx hpy
  obtain ⟨O1, O2⟩ := C124_edges (eu := eu') (ev := ev') hfl hc ha hL hT hI h hw ht hdw hdt ho hr ho' hr' hpx hpy (by rw [hM]; exact hsu)
    (by rw [hM]; exact hsv) (by rw [hM]; exact k6) (by rw [hM]; exact k7)
  rw [hM, ← hu] at E1
  rw [hM, ← hv] at E2
  have alt0 : 0 < g.altitude := by linarith [h.altitude.1]
  have W : ∀ {r' r₀ e : ℝ}, 0 < r₀ → |r' - r₀| ≤ e → 2 * e ≤ (δ - 1e-14) * r₀ → WithinFactor (δ - 1e-14) r' r₀ := by
    intro r' r₀ e h0 h1 h2
    exact (within_of_rel (ε := (δ - 1e-14) / 2) h0 (by linarith) (by linarith)).mono (by linarith)
  have b1' := b1
  have b2' := b2
  unfold mtfError at b1' b2'
  have w1 := W hu0 E1 (by linarith)
  have w2 := W hv0 E2 (by linarith)
  have w3 := W heu0 O1 b3
  have w4 := W hev0 O2 b4
  have wr := (w1.geo hfl w2).mono (δ' := δ) (by linarith)
  have we := (w3.geo hfl w4).mono (δ' := δ) (by linarith)
  obtain ⟨b, e, g1, g2, g3, g4, g5⟩ := C121_geometry hfl hc ha h.altitude.1 h.altitude.2 h.range.1 h.range.2 k8
  have wx : WithinFactor (0.2 / g.slant ^ 2 + 2e-15) (fl (fl (s.pX / s.f) * b)) (s.pX / s.f * g.slant) :=
    (((fl_within hfl (div_pos hpx hf)).mul g2).round hfl).mono (by linarith)
  have wy : WithinFactor (0.2 / g.slant ^ 2 + 2e-15) (fl (fl (s.pY / s.f) * b)) (s.pY / s.f * g.slant) :=
    (((fl_within hfl (div_pos hpy hf)).mul g2).round hfl).mono (by linarith)
  have wg := (wx.geo hfl wy).mono (δ' := δ) (by linarith)
  have ws : WithinFactor δ (fl (fl (Real.sqrt s.frameStacks) * snr)) (Real.sqrt s.frameStacks * s.contrastSNR B) :=
    (((fl_within hfl (Real.sqrt_pos.mpr hframes)).mul hs).round hfl).mono (by linarith)
  obtain ⟨v1, v2⟩ := k13 hu0 hv0 heu0.le hev0.le alt0 (by rw [k11]; exact ws.2.1.ne')
  rw [k11] at v1 v2
  rw [← k9] at wg
  have S4 := fun (b7 : 0.8 / (g.groundRange * g.altitude) + 2e-9 ≤ δ) hb =>
    score4_near hfl hlib hd wr wg we ws (g5.mono b7) g4 (elev_range him.viewing alt0 k8).2 (hfl _).1 hb
  refine ⟨m, _, _, _, _, gsd, _, k1, v1, v2, ?_, score3_near hfl hlib hd wr wg we ws, S4⟩
  unfold niirsD giqeEdgeTermsD
  simp only [cutoff_computed h hw, g1, g3, hker, noiseGain_unsharpened hfl hoK]
  rfl

end PyBSM
