import Verif.Lemmas.Arr

noncomputable section

open Classical

namespace PyBSM

open Spec

/-- a real table entry as numpy sees it -/
def finP (p : ℝ × ℝ) : XR × XR := (.fin p.1, .fin p.2)

theorem zip_finP (xs ys : List ℝ) : (xs.map XR.fin).zip (ys.map XR.fin) = (xs.zip ys).map finP := by
  rw [List.zip_map]; rfl

theorem segment_fin {a ya b yb x : ℝ} (h : a ≠ b) :
    segment (.fin a) (.fin ya) (.fin b) (.fin yb) (.fin x) = .fin (line a ya b yb x) := by
  unfold segment
  xr_simp
  rw [XR.fin_div _ (sub_ne_zero.mpr h.symm)]
  xr_simp
  unfold line
  rw [XR.fin_inj]; ring

theorem line_left {a b : ℝ} (ya yb : ℝ) : line a ya b yb a = ya := by
  unfold line; simp

theorem line_right {a b : ℝ} (h : a ≠ b) (ya yb : ℝ) : line a ya b yb b = yb := by
  unfold line
  rw [div_self (sub_ne_zero.mpr h.symm)]; ring

theorem Spec.OnTable.cons {p : ℝ × ℝ} {t : List (ℝ × ℝ)} {x y : ℝ} (h : OnTable t x y) :
    OnTable (p :: t) x y := by
  rcases h with h | ⟨i, a, ya, b, yb, h1, h2, h3⟩
  · exact Or.inl (List.mem_cons_of_mem _ h)
  · exact Or.inr ⟨i + 1, a, ya, b, yb, by simpa using h1, by simpa using h2, h3⟩

/-- `np.interp` at or right of the first abscissa. -/
theorem interpFrom_fin (x right : ℝ) : ∀ (p : ℝ × ℝ) (t : List (ℝ × ℝ)), Increasing (p :: t) →
    p.1 ≤ x →
    (∃ y, interpFrom (.fin x) (.fin right) ((p :: t).map finP) = .fin y ∧ OnTable (p :: t) x y)
    ∨ (interpFrom (.fin x) (.fin right) ((p :: t).map finP) = .fin right ∧ ∀ q ∈ p :: t, q.1 < x)
  | (a, ya), [], _, hx => by
    simp only [List.map_cons, List.map_nil, finP, interpFrom, XR.fin_lt]
    by_cases h : a < x
    · right; rw [if_pos h]; exact ⟨rfl, by simpa using h⟩
    · left; rw [if_neg h]
      have : x = a := le_antisymm (not_lt.mp h) hx
      exact ⟨ya, rfl, Or.inl (by simp [this])⟩
  | (a, ya), (b, yb) :: t, hinc, hx => by
    have hab : a < b := (List.pairwise_cons.mp hinc).1 (b, yb) (by simp)
    simp only [List.map_cons, finP, interpFrom, XR.fin_lt, XR.fin_eq]
    by_cases h : x < b
    · left
      rw [if_pos h]
      by_cases hxa : x = a
      · rw [if_pos hxa]; exact ⟨ya, rfl, Or.inl (by simp [hxa])⟩
      · rw [if_neg hxa, segment_fin hab.ne]
        exact ⟨_, rfl, Or.inr ⟨0, a, ya, b, yb, rfl, rfl, lt_of_le_of_ne hx (Ne.symm hxa), h, rfl⟩⟩
    · rw [if_neg h]
      rcases interpFrom_fin x right (b, yb) t (List.pairwise_cons.mp hinc).2 (not_lt.mp h) with
        ⟨y, e, ho⟩ | ⟨e, ho⟩
      · left; exact ⟨y, e, ho.cons⟩
      · right
        refine ⟨e, ?_⟩
        intro q hq
        rcases List.mem_cons.mp hq with rfl | hq
        · exact hab.trans_le (not_lt.mp h)
        · exact ho q hq

/-- `np.interp` on a finite increasing table. -/
theorem interpTable_fin (x left right : ℝ) {tbl : List (ℝ × ℝ)} (hne : tbl ≠ [])
    (hinc : Increasing tbl) :
    (interpTable (.fin x) (.fin left) (.fin right) (tbl.map finP) = .fin left ∧ ∀ q ∈ tbl, x < q.1)
    ∨ (∃ y, interpTable (.fin x) (.fin left) (.fin right) (tbl.map finP) = .fin y ∧ OnTable tbl x y)
    ∨ (interpTable (.fin x) (.fin left) (.fin right) (tbl.map finP) = .fin right
        ∧ ∀ q ∈ tbl, q.1 < x) := by
  match tbl, hne, hinc with
  | p :: t, _, hinc =>
    simp only [List.map_cons, interpTable, XR.fin_isNan, if_false]
    simp only [finP, XR.fin_lt]
    by_cases h : x < p.1
    · left
      rw [if_pos h]
      refine ⟨rfl, ?_⟩
      intro q hq
      rcases List.mem_cons.mp hq with rfl | hq
      · exact h
      · exact h.trans ((List.pairwise_cons.mp hinc).1 q hq)
    · right
      rw [if_neg h]
      exact interpFrom_fin x right p t hinc (not_lt.mp h)

theorem Spec.OnTable.range {tbl : List (ℝ × ℝ)} {x y m M : ℝ} (h : OnTable tbl x y)
    (hb : ∀ q ∈ tbl, m ≤ q.2 ∧ q.2 ≤ M) : m ≤ y ∧ y ≤ M := by
  rcases h with h | ⟨i, a, ya, b, yb, h1, h2, h3, h4, h5⟩
  · exact hb _ h
  · have ha := hb (a, ya) (List.mem_of_getElem? h1)
    have hbb := hb (b, yb) (List.mem_of_getElem? h2)
    simp only at ha hbb
    subst h5
    unfold line
    have hd : 0 < b - a := by linarith
    have t0 : 0 ≤ (x - a) / (b - a) := div_nonneg (by linarith) hd.le
    have t1 : (x - a) / (b - a) ≤ 1 := (div_le_one hd).mpr (by linarith)
    constructor <;> nlinarith

theorem Spec.Increasing.lt_of_getElem? {tbl : List (ℝ × ℝ)} (hinc : Increasing tbl) {i j : ℕ}
    {p q : ℝ × ℝ} (hp : tbl[i]? = some p) (hq : tbl[j]? = some q) (hij : i < j) : p.1 < q.1 := by
  obtain ⟨h1, e1⟩ := List.getElem?_eq_some_iff.mp hp
  obtain ⟨h2, e2⟩ := List.getElem?_eq_some_iff.mp hq
  have := (List.pairwise_iff_getElem.mp hinc) i j h1 h2 hij
  rw [e1, e2] at this
  exact this

/-- The value on an increasing table is unique. -/
theorem Spec.OnTable.unique {tbl : List (ℝ × ℝ)} (hinc : Increasing tbl) {x y y' : ℝ}
    (h : OnTable tbl x y) (h' : OnTable tbl x y') : y = y' := by
  have key : ∀ {p : ℝ × ℝ} {i : ℕ} {a ya b yb : ℝ}, p ∈ tbl → tbl[i]? = some (a, ya) →
      tbl[i + 1]? = some (b, yb) → a < p.1 → p.1 < b → False := by
    intro p i a ya b yb hp h1 h2 h3 h4
    obtain ⟨j, hj, e⟩ := List.mem_iff_getElem.mp hp
    have hj' : tbl[j]? = some p := by rw [List.getElem?_eq_getElem hj, e]
    rcases lt_trichotomy j i with h | h | h
    · have := hinc.lt_of_getElem? hj' h1 h; simp only at this; linarith
    · subst h; rw [hj'] at h1; have := Option.some.inj h1; rw [this] at h3; simp at h3
    · rcases Nat.eq_or_lt_of_le (show i + 1 ≤ j by omega) with h | h
      · subst h; rw [hj'] at h2; have := Option.some.inj h2; rw [this] at h4; simp at h4
      · have := hinc.lt_of_getElem? h2 hj' h; simp only at this; linarith
  rcases h with h | ⟨i, a, ya, b, yb, h1, h2, h3, h4, h5⟩
  · rcases h' with h' | ⟨i, a, ya, b, yb, h1, h2, h3, h4, h5⟩
    · obtain ⟨j, hj, e⟩ := List.mem_iff_getElem.mp h
      obtain ⟨k, hk, e'⟩ := List.mem_iff_getElem.mp h'
      rcases lt_trichotomy j k with hjk | hjk | hjk
      · have := (List.pairwise_iff_getElem.mp hinc) j k hj hk hjk
        rw [e, e'] at this; simp at this
      · subst hjk; rw [e] at e'; exact (Prod.mk.inj e').2
      · have := (List.pairwise_iff_getElem.mp hinc) k j hk hj hjk
        rw [e, e'] at this; simp at this
    · exact absurd (key h h1 h2 h3 h4) not_false
  · rcases h' with h' | ⟨j, a', ya', b', yb', k1, k2, k3, k4, k5⟩
    · exact absurd (key h' h1 h2 h3 h4) not_false
    · have hij : i = j := by
        rcases lt_trichotomy i j with h | h | h
        · rcases Nat.eq_or_lt_of_le (show i + 1 ≤ j by omega) with e | e
          · subst e; rw [h2] at k1
            have := Option.some.inj k1
            simp only [Prod.mk.injEq] at this
            linarith [this.1]
          · have := hinc.lt_of_getElem? h2 k1 e; simp only at this; linarith
        · exact h
        · rcases Nat.eq_or_lt_of_le (show j + 1 ≤ i by omega) with e | e
          · subst e; rw [k2] at h1
            have := Option.some.inj h1
            simp only [Prod.mk.injEq] at this
            linarith [this.1]
          · have := hinc.lt_of_getElem? k2 h1 e; simp only at this; linarith
      subst hij
      rw [h1] at k1; rw [h2] at k2
      have e1 := Option.some.inj k1
      have e2 := Option.some.inj k2
      simp only [Prod.mk.injEq] at e1 e2
      rw [h5, k5, e1.1, e1.2, e2.1, e2.2]

theorem Spec.OnTable.between {tbl : List (ℝ × ℝ)} {x y : ℝ} (h : OnTable tbl x y) :
    (∃ q ∈ tbl, q.1 ≤ x) ∧ ∃ q ∈ tbl, x ≤ q.1 := by
  rcases h with h | ⟨i, a, ya, b, yb, h1, h2, h3, h4, -⟩
  · exact ⟨⟨_, h, le_rfl⟩, ⟨_, h, le_rfl⟩⟩
  · exact ⟨⟨_, List.mem_of_getElem? h1, h3.le⟩, ⟨_, List.mem_of_getElem? h2, h4.le⟩⟩

/-- Inside the table `np.interp` returns the (unique) value on the table. -/
theorem interpTable_onTable {x y : ℝ} (left right : ℝ) {tbl : List (ℝ × ℝ)}
    (hinc : Increasing tbl) (h : OnTable tbl x y) :
    interpTable (.fin x) (.fin left) (.fin right) (tbl.map finP) = .fin y := by
  have hne : tbl ≠ [] := by
    rintro rfl
    obtain ⟨⟨q, hq, -⟩, -⟩ := h.between
    simp at hq
  obtain ⟨⟨q, hq, hq'⟩, ⟨r, hr, hr'⟩⟩ := h.between
  rcases interpTable_fin x left right hne hinc with ⟨-, h0⟩ | ⟨y', e, h'⟩ | ⟨-, h0⟩
  · linarith [h0 q hq]
  · rw [e, h'.unique hinc h]
  · linarith [h0 r hr]

theorem interpTable_left {x : ℝ} (left right : ℝ) {tbl : List (ℝ × ℝ)} (hne : tbl ≠ [])
    (h : ∀ q ∈ tbl, x < q.1) (hinc : Increasing tbl) :
    interpTable (.fin x) (.fin left) (.fin right) (tbl.map finP) = .fin left := by
  obtain ⟨q, hq⟩ := List.exists_mem_of_ne_nil _ hne
  rcases interpTable_fin x left right hne hinc with ⟨e, -⟩ | ⟨y', -, h'⟩ | ⟨-, h0⟩
  · exact e
  · obtain ⟨⟨r, hr, hr'⟩, -⟩ := h'.between
    linarith [h r hr]
  · linarith [h0 q hq, h q hq]

theorem interpTable_right {x : ℝ} (left right : ℝ) {tbl : List (ℝ × ℝ)} (hne : tbl ≠ [])
    (h : ∀ q ∈ tbl, q.1 < x) (hinc : Increasing tbl) :
    interpTable (.fin x) (.fin left) (.fin right) (tbl.map finP) = .fin right := by
  obtain ⟨q, hq⟩ := List.exists_mem_of_ne_nil _ hne
  rcases interpTable_fin x left right hne hinc with ⟨-, h0⟩ | ⟨y', -, h'⟩ | ⟨e, -⟩
  · linarith [h0 q hq, h q hq]
  · obtain ⟨-, ⟨r, hr, hr'⟩⟩ := h'.between
    linarith [h r hr]
  · exact e

end PyBSM
