import Verif.Num.Arr
import Verif.Spec.Numeric
import Mathlib.Algebra.BigOperators.Group.List.Basic
import Mathlib.Algebra.Order.BigOperators.Group.List

noncomputable section

open Classical

namespace PyBSM

open Spec

/-! ## Broadcasting of finite arrays -/

theorem bc2_fin {f : XR → XR → XR} {g : ℝ → ℝ → ℝ} (hfg : ∀ a b, f (.fin a) (.fin b) = .fin (g a b))
    {xs ys : List ℝ} (h : xs.length = ys.length) :
    bc2 f (xs.map .fin) (ys.map .fin) = .ok ((List.zipWith g xs ys).map .fin) := by
  unfold bc2
  rw [if_pos (by simp [h])]
  congr 1
  rw [List.zipWith_map, List.map_zipWith]
  congr 1
  funext a b
  exact hfg a b

theorem bc2_eq {f : XR → XR → XR} {xs ys : List XR} (h : xs.length = ys.length) :
    bc2 f xs ys = .ok (List.zipWith f xs ys) := by
  unfold bc2; rw [if_pos h]

theorem bc2_congr_mem {f g : XR → XR → XR} {xs ys : List XR} (h : ∀ a ∈ xs, ∀ b ∈ ys, f a b = g a b) :
    bc2 f xs ys = bc2 g xs ys := by
  have hz : ∀ xs ys : List XR, (∀ a ∈ xs, ∀ b ∈ ys, f a b = g a b) → List.zipWith f xs ys = List.zipWith g xs ys := by
    intro xs
    induction xs with
    | nil => intro ys _; simp
    | cons x xs ih =>
      intro ys h
      cases ys with
      | nil => simp
      | cons y ys =>
        simp only [List.zipWith]
        rw [h x (by simp) y (by simp), ih ys (fun a ha b hb => h a (by simp [ha]) b (by simp [hb]))]
  unfold bc2
  split_ifs with hl
  · rw [hz xs ys h]
  · split
    · congr 1; apply List.map_congr_left; intro b hb; exact h _ (by simp) b hb
    · congr 1; apply List.map_congr_left; intro a ha; exact h a ha _ (by simp)
    · rfl

theorem bc2_single {f : XR → XR → XR} {xs : List XR} {y : XR} :
    bc2 f xs [y] = .ok (xs.map fun x => f x y) := by
  unfold bc2
  split_ifs with h
  · match xs, h with
    | [x], _ => rfl
  · match xs, h with
    | [], _ => rfl
    | x :: x' :: t, _ => rfl

/-- Lengths that do not broadcast are rejected. -/
theorem bc2_mismatch {f : XR → XR → XR} {xs ys : List XR} (h : xs.length ≠ ys.length)
    (hx : xs.length ≠ 1) (hy : ys.length ≠ 1) : bc2 f xs ys = .error .valueError := by
  unfold bc2
  rw [if_neg h]
  match xs, ys, hx, hy with
  | [x], _, hx, _ => simp at hx
  | [], [y], _, hy => simp at hy
  | _ :: _ :: _, [y], _, hy => simp at hy
  | [], [], _, _ => simp at h
  | [], _ :: _ :: _, _, _ => rfl
  | _ :: _ :: _, [], _, _ => rfl
  | _ :: _ :: _, _ :: _ :: _, _, _ => rfl

/-- Broadcasting only ever raises `ValueError`. -/
theorem bc2_error {f : XR → XR → XR} {xs ys : List XR} {e : PyErr} (h : bc2 f xs ys = .error e) :
    e = .valueError := by
  by_cases hl : xs.length = ys.length
  · rw [bc2_eq hl] at h; simp at h
  · by_cases hy : ys.length = 1
    · obtain ⟨y, rfl⟩ := List.length_eq_one_iff.mp hy
      rw [bc2_single] at h; simp at h
    · by_cases hx : xs.length = 1
      · obtain ⟨x, rfl⟩ := List.length_eq_one_iff.mp hx
        unfold bc2 at h
        rw [if_neg hl] at h
        simp at h
      · rw [bc2_mismatch hl hx hy] at h
        exact (Except.error.inj h).symm

/-! ## Sums -/

theorem asum_fin (xs : List ℝ) : asum (xs.map .fin) = .fin xs.sum := by
  induction xs with
  | nil => rfl
  | cons x xs ih =>
    simp only [List.map_cons, asum, List.foldr_cons, List.sum_cons]
    rw [show List.foldr (· + ·) (0 : XR) (xs.map .fin) = asum (xs.map .fin) from rfl, ih]
    rfl

/-! ## Trapezoid rule -/

/-- Trapezoid rule on lists. -/
def trapezoid : List ℝ → List ℝ → ℝ
  | x0 :: x1 :: xs, y0 :: y1 :: ys =>
    (x1 - x0) * ((y0 + y1) / 2) + trapezoid (x1 :: xs) (y1 :: ys)
  | _, _ => 0

theorem diff_fin : ∀ xs : List ℝ, diff (xs.map .fin)
    = (List.zipWith (fun b a => b - a) xs.tail xs).map .fin
  | [] => rfl
  | [x] => rfl
  | x :: y :: t => by
    have := diff_fin (y :: t)
    simp only [List.map_cons, diff, List.tail_cons, List.zipWith_cons_cons] at *
    rw [this, XR.fin_sub]

theorem zipWith_dropLast {g : ℝ → ℝ → ℝ} : ∀ ys : List ℝ,
    List.zipWith g ys.tail ys.dropLast = List.zipWith g ys.tail ys
  | [] => rfl
  | [y] => rfl
  | x :: y :: t => by
    have := zipWith_dropLast (g := g) (y :: t)
    simp only [List.tail_cons, List.dropLast_cons_cons, List.zipWith_cons_cons] at *
    rw [this]

theorem trapezoid_eq_sum : ∀ (xs ys : List ℝ), xs.length = ys.length →
    trapezoid xs ys = ((List.zipWith (fun d s => d * s)
      (List.zipWith (fun b a => b - a) xs.tail xs)
      (List.zipWith (fun b a => b + a) ys.tail ys)).map (· / 2)).sum
  | [], [], _ => by simp [trapezoid]
  | [_], [_], _ => by simp [trapezoid]
  | x0 :: x1 :: xs, y0 :: y1 :: ys, h => by
    have ih := trapezoid_eq_sum (x1 :: xs) (y1 :: ys) (by simpa using h)
    simp only [trapezoid, List.tail_cons, List.zipWith_cons_cons, List.map_cons, List.sum_cons] at *
    rw [ih]; ring

theorem trapz_fin {ys xs : List ℝ} (h : ys.length = xs.length) :
    trapz (ys.map .fin) (xs.map .fin) = .ok (.fin (trapezoid xs ys)) := by
  unfold trapz
  have h1 : bc2 (· + ·) (ys.map XR.fin).tail (ys.map XR.fin).dropLast
      = .ok ((List.zipWith (fun b a => b + a) ys.tail ys).map .fin) := by
    rw [← List.map_tail, ← List.map_dropLast, bc2_fin (g := fun b a => b + a) (fun _ _ => rfl)
      (by simp), zipWith_dropLast]
  rw [h1]
  simp only [bind, Except.bind]
  rw [diff_fin, bc2_fin (g := fun a b => a * b) (fun _ _ => rfl) (by simp [h])]
  simp only
  rw [trapezoid_eq_sum xs ys h.symm, List.map_map]
  have : ∀ l : List ℝ, l.map ((fun x : XR => x / 2) ∘ XR.fin) = (l.map (· / 2)).map .fin := by
    intro l
    rw [List.map_map]
    apply List.map_congr_left
    intro a _
    simp only [Function.comp, XR.ofNat_def]
    rw [XR.fin_div _ (by norm_num)]
  rw [this, asum_fin]

theorem trapz_error {ys xs : List XR} {e : PyErr} (h : trapz ys xs = .error e) :
    e = .valueError := by
  unfold trapz at h
  cases h1 : bc2 (· + ·) ys.tail ys.dropLast with
  | error e' =>
    rw [h1] at h
    have : e' = e := Except.error.inj h
    exact this ▸ bc2_error h1
  | ok s =>
    simp only [h1, bind, Except.bind] at h
    cases h2 : bc2 (· * ·) (diff xs) s with
    | error e' =>
      rw [h2] at h
      have : e' = e := Except.error.inj h
      exact this ▸ bc2_error h2
    | ok t => rw [h2] at h; simp at h

/-! ### Arrays given by an index function -/

theorem vec_eq_map (n : ℕ) (a : ℕ → ℝ) :
    vec n a = ((List.range n).map fun (i : ℕ) => a i).map .fin := by
  unfold vec; rw [List.map_map]; rfl

theorem vec_length (n : ℕ) (a : ℕ → ℝ) : (vec n a).length = n := by simp [vec]

theorem vec_congr {n : ℕ} {a b : ℕ → ℝ} (h : ∀ i < n, a i = b i) : vec n a = vec n b := by
  unfold vec
  apply List.map_congr_left
  intro i hi
  rw [h i (List.mem_range.mp hi)]

theorem vec_inj {n : ℕ} {a b : ℕ → ℝ} (h : vec n a = vec n b) : ∀ i < n, a i = b i := by
  intro i hi
  have : (vec n a)[i]? = (vec n b)[i]? := by rw [h]
  simpa [vec, List.getElem?_range hi] using this

/-- Every array without special values is a `vec`. -/
theorem exists_vec (xs : List ℝ) : xs.map XR.fin = vec xs.length (fun i => xs.getD i 0) := by
  unfold vec
  apply List.ext_getElem
  · simp
  · intro i h1 h2
    simp only [List.getElem_map, List.getElem_range]
    rw [List.getD_eq_getElem]

theorem vec_map {f : XR → XR} {g : ℝ → ℝ} (hfg : ∀ x, f (.fin x) = .fin (g x)) (n : ℕ) (a : ℕ → ℝ) :
    (vec n a).map f = vec n fun i => g (a i) := by
  unfold vec
  rw [List.map_map]
  apply List.map_congr_left
  intro i _
  exact hfg _

theorem zipWith_range {α : Type*} (f : ℕ → ℕ → α) (n : ℕ) :
    List.zipWith f (List.range n) (List.range n) = (List.range n).map fun i => f i i := by
  apply List.ext_getElem <;> simp

theorem vec_zipWith {f : XR → XR → XR} {g : ℝ → ℝ → ℝ}
    (hfg : ∀ a b, f (.fin a) (.fin b) = .fin (g a b)) (n : ℕ) (a b : ℕ → ℝ) :
    List.zipWith f (vec n a) (vec n b) = vec n fun i => g (a i) (b i) := by
  unfold vec
  rw [List.zipWith_map, zipWith_range]
  apply List.map_congr_left
  intro i _
  exact hfg _ _

theorem bc2_vec {f : XR → XR → XR} {g : ℝ → ℝ → ℝ} (hfg : ∀ a b, f (.fin a) (.fin b) = .fin (g a b))
    (n : ℕ) (a b : ℕ → ℝ) :
    bc2 f (vec n a) (vec n b) = .ok (vec n fun i => g (a i) (b i)) := by
  rw [bc2_eq (by simp [vec_length]), vec_zipWith hfg]

theorem bc2_vec_mul (n : ℕ) (a b : ℕ → ℝ) :
    bc2 (· * ·) (vec n a) (vec n b) = .ok (vec n fun i => a i * b i) :=
  bc2_vec (fun _ _ => rfl) n a b

theorem bc2_vec_add (n : ℕ) (a b : ℕ → ℝ) :
    bc2 (· + ·) (vec n a) (vec n b) = .ok (vec n fun i => a i + b i) :=
  bc2_vec (fun _ _ => rfl) n a b

theorem bc2_vec_sub (n : ℕ) (a b : ℕ → ℝ) :
    bc2 (· - ·) (vec n a) (vec n b) = .ok (vec n fun i => a i - b i) :=
  bc2_vec (fun _ _ => XR.fin_sub _ _) n a b

theorem trapezoid_range (n : ℕ) : ∀ (x y : ℕ → ℝ),
    trapezoid ((List.range n).map x) ((List.range n).map y) = trap n x y := by
  induction n with
  | zero => intro x y; simp [trapezoid, trap]
  | succ n ih =>
    intro x y
    match n, ih with
    | 0, _ => simp [trapezoid, trap]
    | m + 1, ih =>
      have := ih (fun i => x (i + 1)) (fun i => y (i + 1))
      rw [List.range_succ_eq_map, List.map_cons, List.map_map, List.map_cons, List.map_map]
      rw [List.range_succ_eq_map] at this ⊢
      simp only [List.map_cons, Function.comp, List.map_map, trapezoid] at this ⊢
      have this' : trapezoid (x (Nat.succ 0) :: List.map ((x ∘ Nat.succ) ∘ Nat.succ) (List.range m))
        (y (Nat.succ 0) :: List.map ((y ∘ Nat.succ) ∘ Nat.succ) (List.range m)) =
          trap (m + 1) (fun i => x (i + 1)) fun i => y (i + 1) := this
      rw [this']
      unfold trap
      rw [show m + 1 + 1 - 1 = m + 1 from rfl, Finset.sum_range_succ']
      rw [show m + 1 - 1 = m from rfl]
      simp only [Nat.succ_eq_add_one, zero_add]
      rw [add_comm]

theorem trapz_vec (n : ℕ) (y x : ℕ → ℝ) : trapz (vec n y) (vec n x) = .ok (.fin (trap n x y)) := by
  rw [vec_eq_map, vec_eq_map, trapz_fin (by simp), trapezoid_range]

/-! ### Facts about the trapezoid rule -/

theorem trap_congr {n : ℕ} {x y z : ℕ → ℝ} (h : ∀ i < n, y i = z i) : trap n x y = trap n x z := by
  unfold trap
  apply Finset.sum_congr rfl
  intro i hi
  have := Finset.mem_range.mp hi
  rw [h i (by omega), h (i + 1) (by omega)]

theorem trap_add (n : ℕ) (x y z : ℕ → ℝ) :
    trap n x (fun i => y i + z i) = trap n x y + trap n x z := by
  unfold trap
  rw [← Finset.sum_add_distrib]
  apply Finset.sum_congr rfl
  intro i _; ring

theorem trap_smul (n : ℕ) (c : ℝ) (x y : ℕ → ℝ) : trap n x (fun i => c * y i) = c * trap n x y := by
  unfold trap
  rw [Finset.mul_sum]
  apply Finset.sum_congr rfl
  intro i _; ring

theorem trap_mono {n : ℕ} {x y z : ℕ → ℝ} (hx : ∀ i, i + 1 < n → x i ≤ x (i + 1))
    (h : ∀ i < n, y i ≤ z i) : trap n x y ≤ trap n x z := by
  unfold trap
  apply Finset.sum_le_sum
  intro i hi
  have := Finset.mem_range.mp hi
  apply mul_le_mul_of_nonneg_left
  · linarith [h i (by omega), h (i + 1) (by omega)]
  · linarith [hx i (by omega)]

theorem trap_nonneg {n : ℕ} {x y : ℕ → ℝ} (hx : ∀ i, i + 1 < n → x i ≤ x (i + 1))
    (h : ∀ i < n, 0 ≤ y i) : 0 ≤ trap n x y := by
  have := trap_mono (y := fun _ => 0) hx h
  have e : trap n x (fun _ => 0) = 0 := by simp [trap]
  linarith

/-! ## Maximum and minimum -/

theorem foldl_max_fin : ∀ (xs : List ℝ) (x : ℝ),
    (xs.map XR.fin).foldl XR.max (.fin x) = .fin (xs.foldl max x)
  | [], _ => rfl
  | y :: ys, x => by
    simp only [List.map_cons, List.foldl_cons, XR.fin_max]
    exact foldl_max_fin ys _

theorem foldl_min_fin : ∀ (xs : List ℝ) (x : ℝ),
    (xs.map XR.fin).foldl XR.min (.fin x) = .fin (xs.foldl min x)
  | [], _ => rfl
  | y :: ys, x => by
    simp only [List.map_cons, List.foldl_cons, XR.fin_min]
    exact foldl_min_fin ys _

theorem foldl_max_props : ∀ (xs : List ℝ) (x : ℝ),
    (xs.foldl max x = x ∨ xs.foldl max x ∈ xs) ∧ x ≤ xs.foldl max x ∧ ∀ y ∈ xs, y ≤ xs.foldl max x
  | [], x => by simp
  | y :: ys, x => by
    obtain ⟨h1, h2, h3⟩ := foldl_max_props ys (max x y)
    simp only [List.foldl_cons]
    refine ⟨?_, (le_max_left _ _).trans h2, ?_⟩
    · rcases h1 with h | h
      · rcases max_choice x y with h' | h'
        · left; rw [h, h']
        · right; rw [h, h']; simp
      · right; exact List.mem_cons_of_mem _ h
    · intro z hz
      rcases List.mem_cons.mp hz with rfl | hz
      · exact (le_max_right _ _).trans h2
      · exact h3 z hz

theorem foldl_min_props : ∀ (xs : List ℝ) (x : ℝ),
    (xs.foldl min x = x ∨ xs.foldl min x ∈ xs) ∧ xs.foldl min x ≤ x ∧ ∀ y ∈ xs, xs.foldl min x ≤ y
  | [], x => by simp
  | y :: ys, x => by
    obtain ⟨h1, h2, h3⟩ := foldl_min_props ys (min x y)
    simp only [List.foldl_cons]
    refine ⟨?_, h2.trans (min_le_left _ _), ?_⟩
    · rcases h1 with h | h
      · rcases min_choice x y with h' | h'
        · left; rw [h, h']
        · right; rw [h, h']; simp
      · right; exact List.mem_cons_of_mem _ h
    · intro z hz
      rcases List.mem_cons.mp hz with rfl | hz
      · exact h2.trans (min_le_right _ _)
      · exact h3 z hz

/-- `np.max` of a non-empty finite array is its largest element. -/
theorem amax_fin {xs : List ℝ} (h : xs ≠ []) :
    ∃ m, amax (xs.map .fin) = .ok (.fin m) ∧ m ∈ xs ∧ ∀ x ∈ xs, x ≤ m := by
  match xs, h with
  | x :: t, _ =>
    obtain ⟨h1, h2, h3⟩ := foldl_max_props t x
    refine ⟨t.foldl max x, ?_, ?_, ?_⟩
    · simp only [List.map_cons, amax, foldl_max_fin]
    · rcases h1 with h | h
      · rw [h]; simp
      · exact List.mem_cons_of_mem _ h
    · intro y hy
      rcases List.mem_cons.mp hy with rfl | hy
      · exact h2
      · exact h3 y hy

theorem amin_fin {xs : List ℝ} (h : xs ≠ []) :
    ∃ m, amin (xs.map .fin) = .ok (.fin m) ∧ m ∈ xs ∧ ∀ x ∈ xs, m ≤ x := by
  match xs, h with
  | x :: t, _ =>
    obtain ⟨h1, h2, h3⟩ := foldl_min_props t x
    refine ⟨t.foldl min x, ?_, ?_, ?_⟩
    · simp only [List.map_cons, amin, foldl_min_fin]
    · rcases h1 with h | h
      · rw [h]; simp
      · exact List.mem_cons_of_mem _ h
    · intro y hy
      rcases List.mem_cons.mp hy with rfl | hy
      · exact h2
      · exact h3 y hy

theorem linspace_fin (a b : ℝ) (n : ℕ) :
    linspace (.fin a) (.fin b) n
      = ((List.range n).map fun (i : ℕ) => (i : ℝ) / ((n : ℝ) - 1) * (b - a) + a).map .fin := by
  unfold linspace
  rw [List.map_map]
  apply List.map_congr_left
  intro i _
  simp only [Function.comp]
  xr_simp

end PyBSM
