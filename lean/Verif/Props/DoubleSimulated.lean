import Verif.Props.DoublePsf
import Verif.Props.DoubleTrueImage

/-!
# C146: the blurred image of a simulation in double precision
-/

noncomputable section

open Classical

namespace PyBSM

open Spec

variable {fl fs : ℝ → ℝ} {ord : ℕ → ℕ → SumTree} {d : ℕ}

/-- Blurring a perturbed image with a perturbed kernel. -/
theorem blur_perturbed {x x' k k' b b' : Img} {M e δ : ℝ} (hM : Bounded x M) (hx : CloseImg x' x e) (hk : NearImg δ k' k) (hδ : 0 ≤ δ)
    (h : filter2D x k = .ok b) (h' : filter2D x' k' = .ok b') :
    CloseImg b' b ((δ * (M + e) + e) * grossSum k) := by
  unfold filter2D at h h'
  split_ifs at h h' with hz hz'
  push Not at hz
  obtain ⟨z1, z2, z3, z4⟩ := hz
  rw [Except.ok.injEq] at h h'
  subst h h'
  refine ⟨hx.h, hx.w, fun r hr c hc => ?_⟩
  dsimp only
  unfold grossSum
  rw [hx.h, hx.w, hk.h, hk.w, ← Finset.sum_sub_distrib, Finset.mul_sum]
  refine (Finset.abs_sum_le_sum_abs _ _).trans (Finset.sum_le_sum fun i _ => ?_)
  rw [← Finset.sum_sub_distrib, Finset.mul_sum]
  refine (Finset.abs_sum_le_sum_abs _ _).trans (Finset.sum_le_sum fun j _ => ?_)
  have l1 := mirror_lt (show 0 < x.h by omega) ((r : ℤ) + i - (k.h / 2 : ℕ))
  have l2 := mirror_lt (show 0 < x.w by omega) ((c : ℤ) + j - (k.w / 2 : ℕ))
  generalize reflect101 x.h ((r : ℤ) + i - (k.h / 2 : ℕ)) = a at *
  generalize reflect101 x.w ((c : ℤ) + j - (k.w / 2 : ℕ)) = b at *
  have p1 := hM a l1 b l2
  have p2 := hx.px a l1 b l2
  have p3 := hk.px i j
  have p4 : |x'.px a b| ≤ M + e := by
    have := abs_sub_abs_le_abs_sub (x'.px a b) (x.px a b)
    linarith
  rw [show k'.px i j * x'.px a b - k.px i j * x.px a b = (k'.px i j - k.px i j) * x'.px a b + k.px i j * (x'.px a b - x.px a b) by ring]
  refine (abs_add_le _ _).trans ?_
  rw [abs_mul, abs_mul]
  have m1 : |k'.px i j - k.px i j| * |x'.px a b| ≤ δ * |k.px i j| * (M + e) :=
    mul_le_mul p3 p4 (abs_nonneg _) (mul_nonneg hδ (abs_nonneg _))
  have m2 : |k.px i j| * |x'.px a b - x.px a b| ≤ |k.px i j| * e := mul_le_mul_of_nonneg_left p2 (abs_nonneg _)
  linarith

theorem blur_size {x k b : Img} {M : ℝ} (hM : Bounded x M) (h : filter2D x k = .ok b) :
    b.h = x.h ∧ b.w = x.w ∧ 0 < x.h ∧ 0 < x.w ∧ 0 < k.h ∧ 0 < k.w ∧ Bounded b (grossSum k * M) := by
  unfold filter2D at h
  split_ifs at h with hz
  push Not at hz
  obtain ⟨z1, z2, z3, z4⟩ := hz
  rw [Except.ok.injEq] at h
  subst h
  refine ⟨rfl, rfl, by omega, by omega, by omega, by omega, ?_⟩
  intro y _ c _
  dsimp only
  unfold grossSum
  rw [Finset.sum_mul]
  refine (Finset.abs_sum_le_sum_abs _ _).trans (Finset.sum_le_sum fun i _ => ?_)
  rw [Finset.sum_mul]
  refine (Finset.abs_sum_le_sum_abs _ _).trans (Finset.sum_le_sum fun j _ => ?_)
  rw [abs_mul]
  exact mul_le_mul_of_nonneg_left (hM _ (mirror_lt (by omega) _) _ (mirror_lt (by omega) _)) (abs_nonneg _)

/-- **C146** (blurred image): an image known up to `e`, blurred with the computed kernel and resampled, all in double precision. -/
theorem C146_blurred (hfl : RoundsToNearest fl) (hfs : SinglePrecision fs) {q : Img} (ho : AddsEach ord q d) (hd : d ≤ 10 ^ 9)
    {psf f : Img} {κ : ℝ} {k : ℕ} {sizes : List ℕ} (hq : Conditioned q κ) (hκ : κ ^ 2 * sumError d ≤ 1e-4) (h1 : normalize q = .ok psf)
    (h2 : supportSize psf sizes = .ok k) (h3 : normalize (getMiddle psf k) = .ok f) (hhalf : 1 / 2 ≤ (getMiddle psf k).sum)
    (hm : ∀ k ∈ sizes, 5 * κ ^ 2 * sumError d < |(getMiddle psf k).sum - 0.95|) {x x' b y : Img} {M e : ℝ} (hM : Bounded x M)
    (hx : CloseImg x' x e) (he0 : 0 ≤ e) (he : e ≤ 0.1 * M) {order : SumTree} (hdep : order.depth ≤ d)
    (hord : order.leaves.Perm (List.range (f.h * f.w))) {nw nh : ℕ} (hb : filter2D x f = .ok b) (hy : cvResize b nw nh = .ok y) :
    ∃ f' y', finishPsfD fl ord q sizes = .ok f' ∧ blurResampleD fl fs order x' f' nw nh = .ok y'
      ∧ CloseImg y' y (2 * κ * (e + (16 * κ ^ 2 * sumError d + 1.4e-7 * (x.h + x.w) + 5e-7) * M)) := by
  obtain ⟨f', g1, g2, g3, g4⟩ := C145_kernel hfl ho hd hq hκ h1 h2 h3 hhalf hm
  obtain ⟨f2, s1, -, g6⟩ := C145_sum hfl ho hd hq hκ h1 h2 h3 hhalf hm
  rw [g1, Except.ok.injEq] at s1
  subst s1
  have k1 := conditioned_one hq
  have e0 := sumError_pos d
  have gf : grossSum f ≤ 2 * κ := by
    have hs : 0 < (getMiddle psf k).sum := by linarith
    have gp : grossSum psf ≤ κ := by
      obtain ⟨a, b⟩ := hq
      unfold normalize at h1
      rw [if_neg a.ne', Except.ok.injEq] at h1
      subst h1
      unfold grossSum
      simp only [abs_div, abs_of_pos a, ← Finset.sum_div]
      rw [div_le_iff₀ a]
      exact b
    have gm := (middle_gross psf k).trans gp
    unfold normalize at h3
    rw [if_neg hs.ne', Except.ok.injEq] at h3
    subst h3
    unfold grossSum
    simp only [abs_div, abs_of_pos hs, ← Finset.sum_div]
    rw [div_le_iff₀ hs]
    refine gm.trans ?_
    nlinarith
  have near : NearImg (13 * κ ^ 2 * sumError d) f' f := ⟨g2, g3, g4⟩
  obtain ⟨b1, b2, x1, x2, f1, f3, bM⟩ := blur_size hM hb
  have M0 : 0 ≤ M := (abs_nonneg _).trans (hM 0 x1 0 x2)
  obtain ⟨c, hc, -⟩ := filter2D_ok (x := x') (k := f') (by rw [hx.h]; omega) (by rw [hx.w]; omega) (by rw [g2]; omega) (by rw [g3]; omega)
  have cl := blur_perturbed hM hx near (by positivity) hb hc
  have hM' : Bounded x' (1.1 * M) := by
    intro i hi j hj
    rw [hx.h] at hi
    rw [hx.w] at hj
    have a := hM i hi j hj
    have b := hx.px i hi j hj
    have := abs_sub_abs_le_abs_sub (x'.px i j) (x.px i j)
    linarith
  obtain ⟨c', hc', dl⟩ := C144_blur hfl (by rw [g2, g3]; exact hord) (hdep.trans hd) hM' hc
  have dd : ((order.depth : ℝ) + 1) * 1.5e-16 ≤ sumError d := by
    unfold sumError
    have : (order.depth : ℝ) ≤ d := by exact_mod_cast hdep
    linarith
  have z : 0 ≤ κ ^ 2 * sumError d := by positivity
  have ke : sumError d ≤ κ ^ 2 * sumError d := le_mul_of_one_le_left (by linarith) (one_le_pow₀ k1)
  have G0 := grossSum_nonneg f
  have r1 : ((order.depth : ℝ) + 1) * 1.5e-16 * (grossSum f' * (1.1 * M)) ≤ κ ^ 2 * sumError d * (2.01 * κ * (1.1 * M)) :=
    mul_le_mul (dd.trans ke) (mul_le_mul_of_nonneg_right g6 (by linarith)) (mul_nonneg (grossSum_nonneg _) (by linarith)) z
  have r2 : (13 * κ ^ 2 * sumError d * (M + e) + e) * grossSum f ≤ (13 * κ ^ 2 * sumError d * (1.1 * M) + e) * (2 * κ) := by
    apply mul_le_mul _ gf G0 (by positivity)
    have : 13 * (κ ^ 2 * sumError d) * (M + e) ≤ 13 * (κ ^ 2 * sumError d) * (1.1 * M) := mul_le_mul_of_nonneg_left (by linarith) (by linarith)
    linarith
  have total : CloseImg c' b (2 * κ * (e + 16 * κ ^ 2 * sumError d * M)) := by
    refine ⟨dl.h.trans cl.h, dl.w.trans cl.w, fun i hi j hj => ?_⟩
    have t1 := dl.px i (by rw [cl.h]; exact hi) j (by rw [cl.w]; exact hj)
    have t2 := cl.px i hi j hj
    have t := abs_sub_le (c'.px i j) (c.px i j) (b.px i j)
    have w : 0 ≤ κ ^ 2 * sumError d * κ * M := by positivity
    nlinarith
  have bM' : Bounded b (2 * κ * M) := fun i hi j hj => (bM i hi j hj).trans (mul_le_mul_of_nonneg_right gf M0)
  have small : 2 * κ * (e + 16 * κ ^ 2 * sumError d * M) ≤ 0.2 * (2 * κ * M) := by
    have : 16 * (κ ^ 2 * sumError d) * M ≤ 16 * 1e-4 * M := mul_le_mul_of_nonneg_right (by linarith) M0
    have : e + 16 * κ ^ 2 * sumError d * M ≤ 0.2 * M := by linarith
    have := mul_le_mul_of_nonneg_left this (by linarith : 0 ≤ 2 * κ)
    linarith
  obtain ⟨y', hy', ce⟩ := C144_after hfl hfs bM' total small hy
  refine ⟨f', y', g1, by unfold blurResampleD; rw [hc']; exact hy', ce.h, ce.w, fun i hi j hj => (ce.px i hi j hj).trans (le_of_eq ?_)⟩
  rw [b1, b2]
  ring

theorem pixels_close {out ys : List ℝ} {e : ℝ} (he : 0 ≤ e) (h : List.Forall₂ (fun y' y => |y' - y| ≤ e) out ys) (m n : ℕ) :
    CloseImg (imgOfPixels m n out) (imgOfPixels m n ys) e := by
  have key : ∀ t, |out.getD t 0 - ys.getD t 0| ≤ e := by
    induction h with
    | nil => intro t; simpa using he
    | cons h _ ih =>
      intro t
      cases t with
      | zero => simpa using h
      | succ t => simpa using ih t
  exact ⟨rfl, rfl, fun i _ j _ => key _⟩

/-- **C146** (simulation): from the pixels of the reference image to the blurred image. If the photoelectrons of the table are
within `δ P` of their exact values, where no exact value exceeds `P`, every pixel of the blurred image computed in double precision
is within `2 κ (δ + 16 κ² (d + 1) 1.5e-16 + 1.4e-7 (h + w) + 6e-7) P` of the exact one. -/
theorem C146_simulated (hfl : RoundsToNearest fl) (hfs : SinglePrecision fs) {r : RefImage} {cal : List (ℝ × ℝ)} (hr : RefOf r cal)
    (hu : ∀ p ∈ cal, |p.2| ≤ 1) {s : RealSensor} {B : List (Fin 6 → ℝ)} {P δ : ℝ} (hp0 : |s.pixel B 0| ≤ P) (hp1 : |s.pixel B 1| ≤ P)
    (hδ : 0 ≤ δ) (hδ1 : δ ≤ 0.09) {pe : ℕ → ℝ} (hpe : ∀ k < 100, |pe k - s.pixel B (k / 99)| ≤ δ * P)
    {ys : List ℝ} (ht : trueImage r (vec 100 fun i => i / 99) (vec 100 fun i => s.pixel B (i / 99)) = .ok (ys.map .fin))
    {q : Img} (ho : AddsEach ord q d) (hd : d ≤ 10 ^ 9)
    {psf f : Img} {κ : ℝ} {k : ℕ} {sizes : List ℕ} (hq : Conditioned q κ) (hκ : κ ^ 2 * sumError d ≤ 1e-4) (h1 : normalize q = .ok psf)
    (h2 : supportSize psf sizes = .ok k) (h3 : normalize (getMiddle psf k) = .ok f) (hhalf : 1 / 2 ≤ (getMiddle psf k).sum)
    (hm : ∀ k ∈ sizes, 5 * κ ^ 2 * sumError d < |(getMiddle psf k).sum - 0.95|)
    {order : SumTree} (hdep : order.depth ≤ d) (hord : order.leaves.Perm (List.range (f.h * f.w))) {nw nh : ℕ} {b y : Img}
    (hb : filter2D (imgOfPixels r.img.h r.img.w ys) f = .ok b) (hy : cvResize b nw nh = .ok y) :
    ∃ out f' y', trueImageD fl r.img.ravel cal pe = .ok out ∧ finishPsfD fl ord q sizes = .ok f'
      ∧ blurResampleD fl fs order (imgOfPixels r.img.h r.img.w out) f' nw nh = .ok y'
      ∧ CloseImg y' y (2 * κ * (δ + 16 * κ ^ 2 * sumError d + 1.4e-7 * (r.img.h + r.img.w) + 6e-7) * P) := by
  have P0 : 0 ≤ P := (abs_nonneg _).trans hp0
  obtain ⟨out, ys', t1, t2, t3⟩ := C143_electrons hfl hr hu hp0 hp1 hδ (by linarith) hpe
  rw [ht, Except.ok.injEq] at t2
  have e : ys = ys' := List.map_injective_iff.mpr (fun a b h => by injection h) t2
  subst e
  have hP : Bounded (imgOfPixels r.img.h r.img.w ys) P := by
    have e := trueImage_pixel hr s B
    rw [ht, Except.ok.injEq] at e
    have e : ys = r.img.ravel.map fun x => s.pixel B (unit (calAt cal x)) := List.map_injective_iff.mpr (fun a b h => by injection h) e
    intro i _ j _
    change |ys.getD (i * r.img.w + j) 0| ≤ P
    rw [List.getD_eq_getElem?_getD]
    rcases g : ys[i * r.img.w + j]? with _ | v
    · simpa using P0
    · have m := List.mem_of_getElem? g
      rw [e, List.mem_map] at m
      obtain ⟨x, -, rfl⟩ := m
      obtain ⟨u0, u1⟩ := unit_mem (calAt cal x)
      have q0 := abs_le.mp hp0
      have q1 := abs_le.mp hp1
      rw [Option.getD_some, pixel_affine, abs_le]
      constructor <;> nlinarith
  have e0 : 0 ≤ (δ + 2e-13) * P := mul_nonneg (by linarith) P0
  have k1 := conditioned_one hq
  obtain ⟨f', y', a1, a2, a3⟩ := C146_blurred hfl hfs ho hd hq hκ h1 h2 h3 hhalf hm hP (pixels_close e0 t3 r.img.h r.img.w) e0
    (mul_le_mul_of_nonneg_right (by linarith) P0) hdep hord hb hy
  refine ⟨out, f', y', t1, a1, a2, a3.h, a3.w, fun i hi j hj => (a3.px i hi j hj).trans ?_⟩
  change 2 * κ * ((δ + 2e-13) * P + (16 * κ ^ 2 * sumError d + 1.4e-7 * ((r.img.h : ℝ) + r.img.w) + 5e-7) * P) ≤ _
  have w : 0 ≤ κ * P := mul_nonneg (by linarith) P0
  nlinarith

/-! ## No negative mean for the Poisson draw -/

theorem segmentD_nonneg (hfl : RoundsToNearest fl) {a ya b yb x : ℝ} (hab : a ≤ b) (h0 : 0 ≤ ya) (hy : ya ≤ yb) (hx : a ≤ x) :
    0 ≤ segmentD fl a ya b yb x :=
  fl_nonneg hfl (add_nonneg (fl_nonneg hfl (mul_nonneg (fl_nonneg hfl (div_nonneg (fl_nonneg hfl (by linarith)) (fl_nonneg hfl (by linarith))))
    (fl_nonneg hfl (by linarith)))) h0)

theorem interpFromD_nonneg (hfl : RoundsToNearest fl) {x : ℝ} : ∀ t : List (ℝ × ℝ), (∀ p ∈ t, 0 ≤ p.2) → t.Pairwise (fun p q => p.2 ≤ q.2) →
    (∀ p ∈ t.head?, p.1 ≤ x) → 0 ≤ interpFromD fl x t
  | [], _, _, _ => le_rfl
  | [(a, ya)], h, _, _ => h (a, ya) (by simp)
  | (a, ya) :: (b, yb) :: t, h, hp, hx => by
    unfold interpFromD
    have ha : a ≤ x := hx (a, ya) (by simp)
    have h0 : 0 ≤ ya := h (a, ya) (by simp)
    have hab : ya ≤ yb := (List.pairwise_cons.mp hp).1 (b, yb) (by simp)
    split_ifs with c c'
    · exact h0
    · exact segmentD_nonneg hfl (by linarith) h0 hab ha
    · exact interpFromD_nonneg hfl ((b, yb) :: t) (fun p hp => h p (List.mem_cons_of_mem _ hp)) (List.pairwise_cons.mp hp).2
        (fun p hp => by
          simp only [List.head?_cons, Option.mem_some_iff] at hp
          subst hp
          exact not_lt.mp c)

/-- **C146** (Poisson): if the photoelectrons of the table are not negative and do not fall with the reflectance, and the resampled
point spread function has no negative entry, the mean handed to the Poisson draw of `simulate_image` is nowhere negative. -/
theorem C146_poisson (hfl : RoundsToNearest fl) (hfs : SinglePrecision fs) {img : List ℝ} {cal : List (ℝ × ℝ)} {pe : ℕ → ℝ}
    (hp0 : ∀ k < 100, 0 ≤ pe k) (hpm : ∀ i j, i ≤ j → j < 100 → pe i ≤ pe j) {out : List ℝ} (ht : trueImageD fl img cal pe = .ok out)
    {q f' y : Img} (ho : AddsEach ord q d) {sizes : List ℕ} (hq : ∀ i < q.h, ∀ j < q.w, 0 ≤ q.px i j)
    (hf : finishPsfD fl ord q sizes = .ok f') {order : SumTree} (hord : order.leaves.Perm (List.range (f'.h * f'.w))) {h w nw nh : ℕ}
    (hy : blurResampleD fl fs order (imgOfPixels h w out) f' nw nh = .ok y) : ∀ i < y.h, ∀ j < y.w, 0 ≤ y.px i j := by
  have one : ∀ x y, interp1dStrictD fl ((List.range 100).map fun k => (linspaceD fl 0 1 100 k, pe k)) x = .ok y → 0 ≤ y := by
    intro x y h
    unfold interp1dStrictD at h
    split at h
    · rename_i lo hi e1 e2
      split_ifs at h with c
      rw [Except.ok.injEq] at h
      subst h
      push Not at c
      apply interpFromD_nonneg hfl
      · intro p hp
        rw [List.mem_map] at hp
        obtain ⟨k, hk, rfl⟩ := hp
        exact hp0 k (List.mem_range.mp hk)
      · rw [List.pairwise_map]
        refine List.pairwise_lt_range.imp_of_mem fun {i j} _ hj hij => ?_
        exact hpm i j hij.le (List.mem_range.mp hj)
      · intro p hp
        rw [e1, Option.mem_some_iff] at hp
        subst hp
        exact c.1
    · cases h
  have all : ∀ l : List ℝ, ∀ out, l.mapM (interp1dStrictD fl ((List.range 100).map fun k => (linspaceD fl 0 1 100 k, pe k))) = .ok out →
      ∀ y ∈ out, 0 ≤ y := by
    intro l
    induction l with
    | nil =>
      intro out h
      simp only [List.mapM_nil, pure, Except.pure, Except.ok.injEq] at h
      subst h
      simp
    | cons a l ih =>
      intro out h
      rw [List.mapM_cons] at h
      simp only [bind, Except.bind] at h
      split at h
      · cases h
      rename_i v hv
      split at h
      · cases h
      rename_i vs hvs
      simp only [pure, Except.pure, Except.ok.injEq] at h
      subst h
      intro y hy
      rcases List.mem_cons.mp hy with rfl | hy
      · exact one _ _ hv
      · exact ih vs hvs y hy
  have hout := all _ _ ht
  refine C144_nonneg hfl hfs hord (C145_nonneg hfl ho hq hf) ?_ hy
  intro i _ j _
  change 0 ≤ out.getD (i * w + j) 0
  rw [List.getD_eq_getElem?_getD]
  rcases e : out[i * w + j]? with _ | v
  · simp
  · exact hout v (List.mem_of_getElem? e)

end PyBSM
