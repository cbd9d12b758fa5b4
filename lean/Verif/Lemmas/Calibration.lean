import Verif.Spec.Calibration
import Verif.Lemmas.Sensor
import Verif.Model.Simulation

noncomputable section

open Classical

namespace PyBSM

open Spec

/-- `insertKey` on finite entries. -/
def rinsert (p : ℝ × ℝ) : List (ℝ × ℝ) → List (ℝ × ℝ)
  | [] => [p]
  | q :: t => if q.1 < p.1 then q :: rinsert p t else p :: q :: t

/-- `sortKey` on finite entries. -/
def rsort : List (ℝ × ℝ) → List (ℝ × ℝ)
  | [] => []
  | p :: t => rinsert p (rsort t)

theorem insertKey_finP (p : ℝ × ℝ) : ∀ t, insertKey (finP p) (t.map finP) = (rinsert p t).map finP
  | [] => rfl
  | q :: t => by
    simp only [List.map_cons, insertKey, rinsert]
    have : XR.lt (finP q).1 (finP p).1 ↔ q.1 < p.1 := XR.fin_lt _ _
    by_cases h : q.1 < p.1
    · rw [if_pos (this.mpr h), if_pos h, insertKey_finP p t]; rfl
    · rw [if_neg (fun a => h (this.mp a)), if_neg h]; rfl

theorem sortKey_finP : ∀ t, sortKey (t.map finP) = (rsort t).map finP
  | [] => rfl
  | p :: t => by
    simp only [List.map_cons, sortKey, rsort]
    rw [sortKey_finP t, insertKey_finP]

theorem rinsert_perm (p : ℝ × ℝ) : ∀ t, (rinsert p t).Perm (p :: t)
  | [] => List.Perm.refl _
  | q :: t => by
    unfold rinsert
    split_ifs
    · exact ((rinsert_perm p t).cons q).trans (List.Perm.swap p q t)
    · exact List.Perm.refl _

theorem rsort_perm : ∀ t, (rsort t).Perm t
  | [] => List.Perm.refl _
  | p :: t => (rinsert_perm p _).trans ((rsort_perm t).cons p)

theorem rinsert_increasing (p : ℝ × ℝ) : ∀ t, Increasing t → (∀ q ∈ t, q.1 ≠ p.1) → Increasing (rinsert p t)
  | [], _, _ => by unfold rinsert Increasing; simp
  | q :: t, h, hp => by
    have h' := List.pairwise_cons.mp h
    unfold rinsert
    split_ifs with hq
    · refine List.pairwise_cons.mpr ⟨?_, rinsert_increasing p t h'.2 fun r hr => hp r (List.mem_cons_of_mem _ hr)⟩
      intro r hr
      rcases List.mem_cons.mp ((rinsert_perm p t).mem_iff.mp hr) with rfl | hr
      · exact hq
      · exact h'.1 r hr
    · have hpq : p.1 < q.1 := lt_of_le_of_ne (not_lt.mp hq) (Ne.symm (hp q (by simp)))
      refine List.pairwise_cons.mpr ⟨?_, h⟩
      intro r hr
      rcases List.mem_cons.mp hr with rfl | hr
      · exact hpq
      · exact hpq.trans (h'.1 r hr)

theorem rsort_increasing : ∀ t : List (ℝ × ℝ), (t.map Prod.fst).Nodup → Increasing (rsort t)
  | [], _ => List.Pairwise.nil
  | p :: t, h => by
    rw [List.map_cons, List.nodup_cons] at h
    refine rinsert_increasing p _ (rsort_increasing t h.2) fun q hq e => h.1 ?_
    rw [← e]
    exact List.mem_map_of_mem ((rsort_perm t).mem_iff.mp hq)

theorem increasing_unique {s t : List (ℝ × ℝ)} (hs : Increasing s) (ht : Increasing t) (h : s.Perm t) : s = t := by
  refine h.eq_of_pairwise ?_ hs ht
  intro a b _ _ h1 h2
  exact absurd h1 (not_lt.mpr h2.le)

theorem Spec.OnExtended.cons {p : ℝ × ℝ} {t : List (ℝ × ℝ)} {x y : ℝ} (h : OnExtended t x y)
    (hx : ∀ q, t.head? = some q → q.1 ≤ x) : OnExtended (p :: t) x y := by
  obtain ⟨i, a, ya, b, yb, h1, h2, h3, h4, h5⟩ := h
  refine ⟨i + 1, a, ya, b, yb, by simpa using h1, by simpa using h2, Or.inl ?_, ?_, h5⟩
  · rcases h3 with h3 | rfl
    · exact h3
    · exact hx (a, ya) (by rw [← h1]; exact List.head?_eq_getElem?)
  · rcases h4 with h4 | h4
    · exact Or.inl h4
    · right; rw [List.length_cons, ← h4]

/-- `interp1d` with extrapolation on a finite increasing table. -/
theorem interp1dSeg_fin (x : ℝ) : ∀ (t : List (ℝ × ℝ)), Increasing t → 2 ≤ t.length →
    ∃ y, interp1dSeg (.fin x) (t.map finP) = .fin y ∧ OnExtended t x y
  | [], _, h => by simp at h
  | [p], _, h => by simp at h
  | [(a, ya), (b, yb)], hinc, _ => by
    have hab : a < b := (List.pairwise_cons.mp hinc).1 (b, yb) (by simp)
    refine ⟨line a ya b yb x, ?_, 0, a, ya, b, yb, rfl, rfl, Or.inr rfl, Or.inr rfl, rfl⟩
    show segment _ _ _ _ _ = _
    exact segment_fin hab.ne
  | (a, ya) :: (b, yb) :: (c, yc) :: t, hinc, _ => by
    have hab : a < b := (List.pairwise_cons.mp hinc).1 (b, yb) (by simp)
    have e : interp1dSeg (.fin x) (((a, ya) :: (b, yb) :: (c, yc) :: t).map finP)
        = if XR.le (.fin x) (.fin b) then segment (.fin a) (.fin ya) (.fin b) (.fin yb) (.fin x)
          else interp1dSeg (.fin x) (((b, yb) :: (c, yc) :: t).map finP) := rfl
    rw [e]
    by_cases h : x ≤ b
    · rw [if_pos ((XR.fin_le _ _).mpr h), segment_fin hab.ne]
      exact ⟨_, rfl, 0, a, ya, b, yb, rfl, rfl, Or.inr rfl, Or.inl h, rfl⟩
    · rw [if_neg (fun a => h ((XR.fin_le _ _).mp a))]
      obtain ⟨y, e1, e2⟩ := interp1dSeg_fin x ((b, yb) :: (c, yc) :: t) (List.pairwise_cons.mp hinc).2 (by simp)
      refine ⟨y, e1, e2.cons ?_⟩
      intro q hq
      cases hq
      exact (not_le.mp h).le

theorem line_le {a ya b yb x x' : ℝ} (hab : a < b) (hy : ya ≤ yb) (h : x ≤ x') :
    line a ya b yb x ≤ line a ya b yb x' := by
  unfold line
  have : (x - a) / (b - a) ≤ (x' - a) / (b - a) := by
    apply div_le_div_of_nonneg_right _ (by linarith)
    linarith
  nlinarith

theorem Spec.OnExtended.mono {t : List (ℝ × ℝ)} (hinc : Increasing t) (hm : Brightening t) {x x' y y' : ℝ}
    (h : OnExtended t x y) (h' : OnExtended t x' y') (hx : x ≤ x') : y ≤ y' := by
  obtain ⟨i, a, ya, b, yb, h1, h2, h3, h4, h5⟩ := h
  obtain ⟨j, c, yc, d, yd, k1, k2, k3, k4, k5⟩ := h'
  have hab : a < b := hinc.lt_of_getElem? h1 h2 (by omega)
  have hcd : c < d := hinc.lt_of_getElem? k1 k2 (by omega)
  have hy1 := hm _ (List.mem_of_getElem? h1) _ (List.mem_of_getElem? h2) hab
  have hy2 := hm _ (List.mem_of_getElem? k1) _ (List.mem_of_getElem? k2) hcd
  have l1 := (List.getElem?_eq_some_iff.mp h2).1
  have l2 := (List.getElem?_eq_some_iff.mp k2).1
  rcases lt_trichotomy i j with hij | hij | hij
  · have e1 : x ≤ b := by rcases h4 with h | h; exact h; omega
    have e2 : c ≤ x' := by rcases k3 with h | h; exact h; omega
    have e3 : y ≤ yb := by
      rw [h5]; exact (line_le hab hy1 e1).trans_eq (line_right hab.ne _ _)
    have e4 : yc ≤ y' := by
      rw [k5]; exact (line_left (a := c) (b := d) yc yd).symm.le.trans (line_le hcd hy2 e2)
    have e5 : yb ≤ yc := by
      rcases Nat.eq_or_lt_of_le (show i + 1 ≤ j by omega) with e | e
      · subst e
        rw [h2] at k1
        have := Option.some.inj k1
        simp only [Prod.mk.injEq] at this
        exact this.2.le
      · exact hm _ (List.mem_of_getElem? h2) _ (List.mem_of_getElem? k1) (hinc.lt_of_getElem? h2 k1 e)
    linarith
  · subst hij
    rw [h1] at k1; rw [h2] at k2
    have u := Option.some.inj k1
    have v := Option.some.inj k2
    simp only [Prod.mk.injEq] at u v
    rw [h5, k5, ← u.1, ← u.2, ← v.1, ← v.2]
    exact line_le hab hy1 hx
  · have e1 : x' ≤ d := by rcases k4 with h | h; exact h; omega
    have e2 : a ≤ x := by rcases h3 with h | h; exact h; omega
    rcases Nat.eq_or_lt_of_le (show j + 1 ≤ i by omega) with e | e
    · subst e
      rw [k2] at h1
      have := Option.some.inj h1
      simp only [Prod.mk.injEq] at this
      have hxx : x = a := by linarith [this.1]
      have hxx' : x' = d := by linarith [this.1]
      rw [h5, k5, hxx, hxx', line_left, line_right hcd.ne, this.2]
    · have : d < a := hinc.lt_of_getElem? k2 h1 e
      linarith

/-- At a table point the broken line takes the tabulated value. -/
theorem Spec.OnExtended.point {t : List (ℝ × ℝ)} (hinc : Increasing t) {x y z : ℝ} (h : OnExtended t x y)
    (hz : (x, z) ∈ t) : y = z := by
  obtain ⟨i, a, ya, b, yb, h1, h2, h3, h4, h5⟩ := h
  obtain ⟨k, hk, e⟩ := List.mem_iff_getElem.mp hz
  have hk' : t[k]? = some (x, z) := by rw [List.getElem?_eq_getElem hk, e]
  have hab : a < b := hinc.lt_of_getElem? h1 h2 (by omega)
  have l1 := (List.getElem?_eq_some_iff.mp h2).1
  rcases lt_trichotomy k i with hki | hki | hki
  · have : x < a := hinc.lt_of_getElem? hk' h1 hki
    rcases h3 with h | h
    · linarith
    · omega
  · subst hki
    rw [hk'] at h1
    have := Option.some.inj h1
    simp only [Prod.mk.injEq] at this
    rw [h5, ← this.1, line_left, this.2]
  · rcases Nat.eq_or_lt_of_le (show i + 1 ≤ k by omega) with e | e
    · subst e
      rw [hk'] at h2
      have := Option.some.inj h2
      simp only [Prod.mk.injEq] at this
      rw [h5, this.1, line_right hab.ne, this.2]
    · have : b < x := hinc.lt_of_getElem? h2 hk' e
      rcases h4 with h | h
      · linarith
      · omega

theorem clip01_fin (y : ℝ) : clip01 (.fin y) = .fin (unit y) := by
  unfold clip01 unit
  have h1 : XR.lt 1 (.fin y) ↔ 1 < y := XR.fin_lt _ _
  have o : (1 : XR) = .fin 1 := rfl
  have z : (0 : XR) = .fin 0 := rfl
  by_cases h : 1 < y
  · simp only [if_pos (h1.mpr h)]
    rw [if_neg, min_eq_left h.le, max_eq_right zero_le_one]; rfl
    rw [o, z, XR.fin_lt]; norm_num
  · simp only [if_neg (fun a => h (h1.mp a))]
    rw [min_eq_right (not_lt.mp h), z, XR.fin_lt]
    split_ifs with h0
    · rw [max_eq_left h0.le]
    · rw [max_eq_right (not_lt.mp h0)]

theorem unit_mem (y : ℝ) : 0 ≤ unit y ∧ unit y ≤ 1 :=
  ⟨le_max_left _ _, max_le zero_le_one (min_le_left _ _)⟩

theorem unit_mono {y y' : ℝ} (h : y ≤ y') : unit y ≤ unit y' :=
  max_le_max le_rfl (min_le_min le_rfl h)

theorem unit_self {y : ℝ} (h0 : 0 ≤ y) (h1 : y ≤ 1) : unit y = y := by
  unfold unit
  rw [min_eq_right h1, max_eq_right h0]

theorem rsort_brightening {cal : List (ℝ × ℝ)} (h : Brightening cal) : Brightening (rsort cal) := by
  intro p hp q hq
  exact h p ((rsort_perm cal).mem_iff.mp hp) q ((rsort_perm cal).mem_iff.mp hq)

/-- The value of the calibration curve at a pixel value. -/
def calAt (cal : List (ℝ × ℝ)) (x : ℝ) : ℝ :=
  if h : ∃ y, OnExtended (rsort cal) x y then h.choose else 0

theorem calAt_spec {cal : List (ℝ × ℝ)} (h : Calibration cal) (x : ℝ) :
    OnExtended (rsort cal) x (calAt cal x)
    ∧ interp1dSeg (.fin x) (sortKey ((cal.map fun p => XR.fin p.1).zip (cal.map fun p => XR.fin p.2)))
      = .fin (calAt cal x) := by
  have hinc := rsort_increasing cal h.distinct
  obtain ⟨y, e1, e2⟩ := interp1dSeg_fin x (rsort cal) hinc (by rw [(rsort_perm cal).length_eq]; exact h.two)
  have hex : ∃ y, OnExtended (rsort cal) x y := ⟨y, e2⟩
  have hc : OnExtended (rsort cal) x (calAt cal x) := by
    unfold calAt; rw [dif_pos hex]; exact hex.choose_spec
  have hu : calAt cal x = y := by
    -- uniqueness by interpolation along the one table
    obtain ⟨i, a, ya, b, yb, h1, h2, h3, h4, h5⟩ := hc
    obtain ⟨j, c, yc, d, yd, k1, k2, k3, k4, k5⟩ := e2
    have hab : a < b := hinc.lt_of_getElem? h1 h2 (by omega)
    have hcd : c < d := hinc.lt_of_getElem? k1 k2 (by omega)
    have l1 := (List.getElem?_eq_some_iff.mp h2).1
    have l2 := (List.getElem?_eq_some_iff.mp k2).1
    have step : ∀ {i j : ℕ} {a ya b yb c yc d yd : ℝ}, i < j → (rsort cal)[i + 1]? = some (b, yb) →
        (rsort cal)[j]? = some (c, yc) → a < b → c < d → (x ≤ b ∨ i + 2 = (rsort cal).length) → (c ≤ x ∨ j = 0) →
        j + 1 < (rsort cal).length → line a ya b yb x = line c yc d yd x := by
      intro i j a ya b yb c yc d yd hij h2 k1 hab hcd h4 k3 hl
      have e1 : x ≤ b := by rcases h4 with h | h; exact h; omega
      have e2 : c ≤ x := by rcases k3 with h | h; exact h; omega
      rcases Nat.eq_or_lt_of_le (show i + 1 ≤ j by omega) with e | e
      · subst e
        rw [h2] at k1
        have := Option.some.inj k1
        simp only [Prod.mk.injEq] at this
        have hxb : x = b := by linarith [this.1]
        have hxc : x = c := by linarith [this.1]
        conv_lhs => rw [hxb]
        conv_rhs => rw [hxc]
        rw [line_right hab.ne, line_left, this.2]
      · have : b < c := hinc.lt_of_getElem? h2 k1 e
        linarith
    rcases lt_trichotomy i j with hij | hij | hij
    · rw [h5, k5]; exact step hij h2 k1 hab hcd h4 k3 l2
    · subst hij
      rw [h1] at k1; rw [h2] at k2
      have u := Option.some.inj k1
      have v := Option.some.inj k2
      simp only [Prod.mk.injEq] at u v
      rw [h5, k5, u.1, u.2, v.1, v.2]
    · rw [h5, k5]; exact (step hij k2 h1 hcd hab k4 h3 l1).symm
  refine ⟨hc, ?_⟩
  have hz : (cal.map fun p => XR.fin p.1).zip (cal.map fun p => XR.fin p.2) = cal.map finP := by
    rw [List.zip_map']; rfl
  rw [hz, sortKey_finP, e1, hu]

theorem imgToReflectance_value {cal : List (ℝ × ℝ)} (h : Calibration cal) (img : List ℝ) :
    imgToReflectance (img.map .fin) (cal.map fun p => .fin p.1) (cal.map fun p => .fin p.2)
      = .ok (img.map fun x => .fin (unit (calAt cal x))) := by
  unfold imgToReflectance
  have hne : cal ≠ [] := by
    rintro rfl
    have := h.two
    simp at this
  rw [if_neg (by simp [hne])]
  congr 1
  rw [List.map_map]
  apply List.map_congr_left
  intro x _
  show clip01 _ = _
  rw [(calAt_spec h x).2, clip01_fin]

end PyBSM
