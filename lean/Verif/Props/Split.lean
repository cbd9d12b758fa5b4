import Verif.Props.Photoelectrons
import Verif.Lemmas.Simulate
import Verif.Lemmas.Imaging
import Verif.Props.Logs

/-!
# C133: cameras with adjacent bands

A band is split at one of the wavelengths of its transmission table. What the two parts collect adds up to what the whole
collects if the atmosphere has a sample there. Otherwise the panel around the cut is lost.
-/

noncomputable section

open Classical

namespace PyBSM

open Spec

/-! ## Tables -/

theorem onTable_lower {A B : List (ℝ × ℝ)} {c τ : ℝ} (h : Increasing (A ++ (c, τ) :: B)) {x y : ℝ} (hx : x ≤ c) :
    OnTable (A ++ (c, τ) :: B) x y ↔ OnTable (A ++ [(c, τ)]) x y := by
  have hp := List.pairwise_append.mp h
  have hB : ∀ q ∈ B, c < q.1 := fun q hq => (List.pairwise_cons.mp hp.2.1).1 q hq
  have e : A ++ (c, τ) :: B = (A ++ [(c, τ)]) ++ B := by simp
  rw [e]
  constructor
  · rintro (h1 | ⟨i, a, ya, b, yb, h1, h2, h3, h4, h5⟩)
    · rcases List.mem_append.mp h1 with h1 | h1
      · exact Or.inl h1
      · exact absurd (hB _ h1) (not_lt.mpr hx)
    · right
      have hi : i + 1 < (A ++ [(c, τ)]).length := by
        by_contra hc
        have hm : (b, yb) ∈ B := by
          rw [List.getElem?_append_right (by omega)] at h2
          exact List.mem_of_getElem? h2
        by_cases hi : i < (A ++ [(c, τ)]).length
        · have : i = A.length := by
            simp only [List.length_append, List.length_cons, List.length_nil] at hi hc
            omega
          rw [List.getElem?_append_left hi, this, List.getElem?_append_right le_rfl, Nat.sub_self,
            List.getElem?_cons_zero, Option.some.injEq, Prod.mk.injEq] at h1
          linarith [h1.1]
        · rw [List.getElem?_append_right (by omega)] at h1
          have := hB _ (List.mem_of_getElem? h1)
          dsimp only at this
          linarith
      rw [List.getElem?_append_left (by omega)] at h1
      rw [List.getElem?_append_left hi] at h2
      exact ⟨i, a, ya, b, yb, h1, h2, h3, h4, h5⟩
  · rintro (h1 | ⟨i, a, ya, b, yb, h1, h2, h3, h4, h5⟩)
    · exact Or.inl (List.mem_append_left _ h1)
    · refine Or.inr ⟨i, a, ya, b, yb, ?_, ?_, h3, h4, h5⟩
      · rw [List.getElem?_append_left (List.getElem?_eq_some_iff.mp h1).1]
        exact h1
      · rw [List.getElem?_append_left (List.getElem?_eq_some_iff.mp h2).1]
        exact h2

theorem onTable_upper {A B : List (ℝ × ℝ)} {c τ : ℝ} (h : Increasing (A ++ (c, τ) :: B)) {x y : ℝ} (hx : c ≤ x) :
    OnTable (A ++ (c, τ) :: B) x y ↔ OnTable ((c, τ) :: B) x y := by
  have hp := List.pairwise_append.mp h
  have hA : ∀ q ∈ A, q.1 < c := fun q hq => hp.2.2 q hq (c, τ) (by simp)
  constructor
  · rintro (h1 | ⟨i, a, ya, b, yb, h1, h2, h3, h4, h5⟩)
    · rcases List.mem_append.mp h1 with h1 | h1
      · exact absurd (hA _ h1) (not_lt.mpr hx)
      · exact Or.inl h1
    · right
      have hi : A.length ≤ i := by
        by_contra hc
        push Not at hc
        by_cases hi : i + 1 < A.length
        · rw [List.getElem?_append_left hi] at h2
          have := hA _ (List.mem_of_getElem? h2)
          dsimp only at this
          linarith
        · have : i + 1 = A.length := by omega
          rw [this, List.getElem?_append_right le_rfl, Nat.sub_self,
            List.getElem?_cons_zero, Option.some.injEq, Prod.mk.injEq] at h2
          linarith [h2.1]
      rw [List.getElem?_append_right hi] at h1
      rw [List.getElem?_append_right (by omega), show i + 1 - A.length = i - A.length + 1 by omega] at h2
      exact ⟨_, a, ya, b, yb, h1, h2, h3, h4, h5⟩
  · rintro (h1 | ⟨i, a, ya, b, yb, h1, h2, h3, h4, h5⟩)
    · exact Or.inl (List.mem_append_right _ h1)
    · refine Or.inr ⟨A.length + i, a, ya, b, yb, ?_, ?_, h3, h4, h5⟩
      · rw [List.getElem?_append_right (by omega), Nat.add_sub_cancel_left]
        exact h1
      · rw [List.getElem?_append_right (by omega), show A.length + i + 1 - A.length = i + 1 by omega]
        exact h2

theorem tableAt_of_iff {t u : List (ℝ × ℝ)} {x : ℝ} (h : ∀ y, OnTable t x y ↔ OnTable u x y) : tableAt t x = tableAt u x := by
  have : OnTable t x = OnTable u x := funext fun y => propext (h y)
  unfold tableAt
  rw [this]

/-! ## Sums over rows -/

/-- The trapezoid sum over the rows of an atmosphere. -/
def rowSum (B : List (Fin 6 → ℝ)) (y : (Fin 6 → ℝ) → ℝ) : ℝ :=
  trap B.length (fun i => B.getD i 0 0) fun i => y (B.getD i 0)

theorem rowSum_cons (a b : Fin 6 → ℝ) (Q : List (Fin 6 → ℝ)) (y : (Fin 6 → ℝ) → ℝ) :
    rowSum (a :: b :: Q) y = (b 0 - a 0) * ((y a + y b) / 2) + rowSum (b :: Q) y := by
  unfold rowSum trap
  simp only [List.length_cons, Nat.add_sub_cancel]
  rw [Finset.sum_range_succ', add_comm]
  rfl

theorem rowSum_append (P : List (Fin 6 → ℝ)) (a : Fin 6 → ℝ) (Q : List (Fin 6 → ℝ)) (y : (Fin 6 → ℝ) → ℝ) :
    rowSum (P ++ a :: Q) y = rowSum (P ++ [a]) y + rowSum (a :: Q) y := by
  induction P with
  | nil =>
    have : rowSum [a] y = 0 := by simp [rowSum, trap]
    rw [List.nil_append, List.nil_append, this, zero_add]
  | cons p P ih =>
    cases P with
    | nil =>
      have : rowSum [a] y = 0 := by simp [rowSum, trap]
      rw [List.cons_append, List.nil_append, List.cons_append, List.nil_append, rowSum_cons, rowSum_cons, this]
      ring
    | cons q P =>
      rw [List.cons_append, List.cons_append, rowSum_cons, List.cons_append, List.cons_append, rowSum_cons]
      rw [List.cons_append, List.cons_append] at ih
      rw [ih]
      ring

theorem rowSum_congr {B : List (Fin 6 → ℝ)} {y z : (Fin 6 → ℝ) → ℝ} (h : ∀ a ∈ B, y a = z a) : rowSum B y = rowSum B z := by
  unfold rowSum
  apply trap_congr
  intro i hi
  rw [List.getD_eq_getElem _ _ hi]
  exact h _ (List.getElem_mem hi)

theorem rate_rows (s : RealSensor) (B : List (Fin 6 → ℝ)) (F : (Fin 6 → ℝ) → ℝ) :
    s.rate B.length (fun i => B.getD i 0 0) (fun i => F (B.getD i 0))
      = rowSum B (fun a => s.spectral (a 0) (F a)) + s.darkCurrent := rfl

/-! ## The two parts -/

/-- The camera with the lower part of the band. -/
def below (s : RealSensor) (A : List (ℝ × ℝ)) (c τ : ℝ) : RealSensor := { s with transmission := A ++ [(c, τ)] }

/-- The camera with the upper part of the band. -/
def above (s : RealSensor) (c τ : ℝ) (B : List (ℝ × ℝ)) : RealSensor := { s with transmission := (c, τ) :: B }

theorem inBand_split {A B : List (ℝ × ℝ)} {c τ : ℝ} (h : Increasing (A ++ (c, τ) :: B)) :
    ∃ lo hi, (A ++ (c, τ) :: B).head? = some lo ∧ (A ++ [(c, τ)]).head? = some lo
      ∧ (A ++ (c, τ) :: B).getLast? = some hi ∧ ((c, τ) :: B).getLast? = some hi
      ∧ (A ++ [(c, τ)]).getLast? = some (c, τ) ∧ lo.1 ≤ c ∧ c ≤ hi.1 := by
  have hp := List.pairwise_append.mp h
  obtain ⟨hi, e⟩ : ∃ hi, ((c, τ) :: B).getLast? = some hi := by
    rw [List.getLast?_eq_some_getLast (List.cons_ne_nil _ _)]
    exact ⟨_, rfl⟩
  have e' : (A ++ (c, τ) :: B).getLast? = some hi := by
    rw [List.getLast?_append, e]
    rfl
  have hhi : c ≤ hi.1 := by
    rcases List.mem_cons.mp (List.mem_of_getLast? e) with h1 | h1
    · rw [h1]
    · exact ((List.pairwise_cons.mp hp.2.1).1 _ h1).le
  cases A with
  | nil => exact ⟨(c, τ), hi, rfl, rfl, e', e, rfl, le_rfl, hhi⟩
  | cons p A => exact ⟨p, hi, rfl, rfl, e', e, by rw [List.getLast?_append]; rfl, (hp.2.2 p (by simp) (c, τ) (by simp)).le, hhi⟩

theorem rows_eq (s : RealSensor) {lo hi : ℝ × ℝ} (h1 : s.transmission.head? = some lo) (h2 : s.transmission.getLast? = some hi)
    (rows : List (Fin 6 → ℝ)) : s.rowsInBand rows = rows.filter fun r => lo.1 ≤ r 0 ∧ r 0 ≤ hi.1 := by
  unfold RealSensor.rowsInBand
  rw [h1, h2]
  apply List.filter_congr
  intro r _
  apply decide_eq_decide.mpr
  constructor
  · rintro ⟨l, h, e1, e2, h3, h4⟩
    rw [Option.some.inj e1, Option.some.inj e2]
    exact ⟨h3, h4⟩
  · rintro ⟨h3, h4⟩
    exact ⟨lo, hi, rfl, rfl, h3, h4⟩

theorem spectral_below {s : RealSensor} {A B : List (ℝ × ℝ)} {c τ : ℝ} (ht : s.transmission = A ++ (c, τ) :: B)
    (hi : Increasing s.transmission) {x : ℝ} (hx : x ≤ c) (l : ℝ) : (below s A c τ).spectral x l = s.spectral x l := by
  rw [ht] at hi
  have : tableAt (A ++ [(c, τ)]) x = tableAt s.transmission x := by
    rw [ht]
    exact tableAt_of_iff fun y => (onTable_lower hi hx).symm
  unfold RealSensor.spectral RealSensor.transAt
  rw [← this]
  rfl

theorem spectral_above {s : RealSensor} {A B : List (ℝ × ℝ)} {c τ : ℝ} (ht : s.transmission = A ++ (c, τ) :: B)
    (hi : Increasing s.transmission) {x : ℝ} (hx : c ≤ x) (l : ℝ) : (above s c τ B).spectral x l = s.spectral x l := by
  rw [ht] at hi
  have : tableAt ((c, τ) :: B) x = tableAt s.transmission x := by
    rw [ht]
    exact tableAt_of_iff fun y => (onTable_upper hi hx).symm
  unfold RealSensor.spectral RealSensor.transAt
  rw [← this]
  rfl

/-- How the rows fall on the two sides of the cut. -/
theorem rows_split {s : RealSensor} {A B : List (ℝ × ℝ)} {c τ : ℝ} (ht : s.transmission = A ++ (c, τ) :: B)
    (hi : Increasing s.transmission) {P Q : List (Fin 6 → ℝ)} (hP : ∀ r ∈ P, r 0 < c) (hQ : ∀ r ∈ Q, c < r 0) :
    (below s A c τ).rowsInBand (P ++ Q) = s.rowsInBand P ∧ (above s c τ B).rowsInBand (P ++ Q) = s.rowsInBand Q
      ∧ s.rowsInBand (P ++ Q) = s.rowsInBand P ++ s.rowsInBand Q
      ∧ ∀ r : Fin 6 → ℝ, r 0 = c → (below s A c τ).rowsInBand (P ++ r :: Q) = s.rowsInBand P ++ [r]
        ∧ (above s c τ B).rowsInBand (P ++ r :: Q) = r :: s.rowsInBand Q
        ∧ s.rowsInBand (P ++ r :: Q) = s.rowsInBand P ++ r :: s.rowsInBand Q := by
  have hi' := hi
  rw [ht] at hi'
  obtain ⟨lo, hi2, e1, e2, e3, e4, e5, e6, e7⟩ := inBand_split hi'
  have b : ∀ R, (below s A c τ).rowsInBand R = R.filter fun r => lo.1 ≤ r 0 ∧ r 0 ≤ c :=
    rows_eq (below s A c τ) (lo := lo) (hi := (c, τ)) e2 e5
  have u : ∀ R, (above s c τ B).rowsInBand R = R.filter fun r => c ≤ r 0 ∧ r 0 ≤ hi2.1 :=
    rows_eq (above s c τ B) (lo := (c, τ)) (hi := hi2) rfl e4
  have w : ∀ R, s.rowsInBand R = R.filter fun r => lo.1 ≤ r 0 ∧ r 0 ≤ hi2.1 :=
    rows_eq s (lo := lo) (hi := hi2) (by rw [ht]; exact e1) (by rw [ht]; exact e3)
  have bP : P.filter (fun r => lo.1 ≤ r 0 ∧ r 0 ≤ c) = P.filter fun r => lo.1 ≤ r 0 ∧ r 0 ≤ hi2.1 := by
    apply List.filter_congr
    intro r hr
    apply decide_eq_decide.mpr
    have := hP r hr
    exact ⟨fun h => ⟨h.1, by linarith⟩, fun h => ⟨h.1, this.le⟩⟩
  have bQ : Q.filter (fun r => lo.1 ≤ r 0 ∧ r 0 ≤ c) = [] := by
    rw [List.filter_eq_nil_iff]
    intro r hr
    have := hQ r hr
    simp only [decide_eq_true_eq, not_and, not_le]
    exact fun _ => this
  have uQ : Q.filter (fun r => c ≤ r 0 ∧ r 0 ≤ hi2.1) = Q.filter fun r => lo.1 ≤ r 0 ∧ r 0 ≤ hi2.1 := by
    apply List.filter_congr
    intro r hr
    apply decide_eq_decide.mpr
    have := hQ r hr
    exact ⟨fun h => ⟨by linarith, h.2⟩, fun h => ⟨this.le, h.2⟩⟩
  have uP : P.filter (fun r => c ≤ r 0 ∧ r 0 ≤ hi2.1) = [] := by
    rw [List.filter_eq_nil_iff]
    intro r hr
    have := hP r hr
    simp only [decide_eq_true_eq, not_and]
    exact fun h => absurd h (not_le.mpr this)
  refine ⟨?_, ?_, ?_, ?_⟩
  · rw [b, w, List.filter_append, bP, bQ, List.append_nil]
  · rw [u, w, List.filter_append, uP, uQ, List.nil_append]
  · rw [w, w, w, List.filter_append]
  · intro r hr
    refine ⟨?_, ?_, ?_⟩
    · rw [b, w, List.filter_append, List.filter_cons_of_pos (by simp [hr, e6]), bP, bQ]
    · rw [u, w, List.filter_append, List.filter_cons_of_pos (by simp [hr, e7]), uP, uQ, List.nil_append]
    · rw [w, w, w, List.filter_append, List.filter_cons_of_pos (by simp [hr, e6, e7])]

theorem rate_split {s : RealSensor} {A B : List (ℝ × ℝ)} {c τ : ℝ} (ht : s.transmission = A ++ (c, τ) :: B)
    (hi : Increasing s.transmission) {P Q : List (Fin 6 → ℝ)} (hP : ∀ r ∈ P, r 0 < c) (hQ : ∀ r ∈ Q, c < r 0)
    {r : Fin 6 → ℝ} (hr : r 0 = c) (F : (Fin 6 → ℝ) → ℝ) :
    let rate (s : RealSensor) := let R := s.rowsInBand (P ++ r :: Q)
      s.rate R.length (fun i => R.getD i 0 0) (fun i => F (R.getD i 0))
    rate (below s A c τ) + rate (above s c τ B) = rate s + s.darkCurrent := by
  dsimp only
  obtain ⟨-, -, -, h⟩ := rows_split ht hi hP hQ
  obtain ⟨h1, h2, h3⟩ := h r hr
  rw [h1, h2, h3, rate_rows, rate_rows, rate_rows, rowSum_append _ r (s.rowsInBand Q)]
  have mP : ∀ a ∈ s.rowsInBand P, a 0 < c := fun a ha => hP a (List.mem_of_mem_filter ha)
  have mQ : ∀ a ∈ s.rowsInBand Q, c < a 0 := fun a ha => hQ a (List.mem_of_mem_filter ha)
  rw [rowSum_congr (B := s.rowsInBand P ++ [r]) (z := fun a => s.spectral (a 0) (F a)),
    rowSum_congr (B := r :: s.rowsInBand Q) (z := fun a => s.spectral (a 0) (F a))]
  · show _ + s.darkCurrent + (_ + s.darkCurrent) = _
    ring
  · intro a ha
    apply spectral_above ht hi
    rcases List.mem_cons.mp ha with rfl | ha
    · exact hr.ge
    · exact (mQ a ha).le
  · intro a ha
    apply spectral_below ht hi
    rcases List.mem_append.mp ha with ha | ha
    · exact (mP a ha).le
    · rw [List.mem_singleton.mp ha, hr]

theorem rate_gap {s : RealSensor} {A B : List (ℝ × ℝ)} {c τ : ℝ} (ht : s.transmission = A ++ (c, τ) :: B)
    (hi : Increasing s.transmission) {P Q : List (Fin 6 → ℝ)} {a b : Fin 6 → ℝ} (hP : ∀ r ∈ P ++ [a], r 0 < c)
    (hQ : ∀ r ∈ b :: Q, c < r 0) (ha : a ∈ s.rowsInBand [a]) (hb : b ∈ s.rowsInBand [b]) (F : (Fin 6 → ℝ) → ℝ) :
    let rate (s : RealSensor) := let R := s.rowsInBand ((P ++ [a]) ++ b :: Q)
      s.rate R.length (fun i => R.getD i 0 0) (fun i => F (R.getD i 0))
    rate (below s A c τ) + rate (above s c τ B) + (b 0 - a 0) * ((s.spectral (a 0) (F a) + s.spectral (b 0) (F b)) / 2)
      = rate s + s.darkCurrent := by
  dsimp only
  obtain ⟨h1, h2, h3, -⟩ := rows_split ht hi hP hQ
  have ea : s.rowsInBand (P ++ [a]) = s.rowsInBand P ++ [a] := by
    unfold RealSensor.rowsInBand at ha ⊢
    rw [List.filter_append, List.filter_cons_of_pos (List.of_mem_filter ha)]
    rfl
  have eb : s.rowsInBand (b :: Q) = b :: s.rowsInBand Q := by
    unfold RealSensor.rowsInBand at hb ⊢
    rw [List.filter_cons_of_pos (List.of_mem_filter hb)]
  rw [h1, h2, h3, rate_rows, rate_rows, rate_rows]
  have mP : ∀ a' ∈ s.rowsInBand (P ++ [a]), a' 0 < c := fun a' ha => hP a' (List.mem_of_mem_filter ha)
  have mQ : ∀ a' ∈ s.rowsInBand (b :: Q), c < a' 0 := fun a' ha => hQ a' (List.mem_of_mem_filter ha)
  rw [rowSum_congr (B := s.rowsInBand (P ++ [a])) (z := fun a => s.spectral (a 0) (F a))
      fun a' h => spectral_below ht hi (mP a' h).le _,
    rowSum_congr (B := s.rowsInBand (b :: Q)) (z := fun a => s.spectral (a 0) (F a))
      fun a' h => spectral_above ht hi (mQ a' h).le _, ea, eb,
    List.append_assoc, List.singleton_append, rowSum_append _ a (b :: _), rowSum_cons]
  show _ + s.darkCurrent + (_ + s.darkCurrent) + _ = _
  ring

theorem usable_below {s : RealSensor} (hs : s.Usable) {A B : List (ℝ × ℝ)} {c τ : ℝ}
    (ht : s.transmission = A ++ (c, τ) :: B) : (below s A c τ).Usable := by
  have h := hs.transmission_inc
  rw [ht, show A ++ (c, τ) :: B = (A ++ [(c, τ)]) ++ B by simp] at h
  exact ⟨hs.1, by simp [below], (List.pairwise_append.mp h).1, hs.4, hs.5, hs.6, hs.7, hs.8⟩

theorem usable_above {s : RealSensor} (hs : s.Usable) {A B : List (ℝ × ℝ)} {c τ : ℝ}
    (ht : s.transmission = A ++ (c, τ) :: B) : (above s c τ B).Usable := by
  have h := hs.transmission_inc
  rw [ht] at h
  exact ⟨hs.1, by simp [above], (List.pairwise_append.mp h).2.1, hs.4, hs.5, hs.6, hs.7, hs.8⟩

theorem sides {P Q : List (Fin 6 → ℝ)} {r : Fin 6 → ℝ} (h : (P ++ r :: Q).Pairwise fun a b => a 0 < b 0) :
    (∀ a ∈ P, a 0 < r 0) ∧ ∀ a ∈ Q, r 0 < a 0 := by
  have hp := List.pairwise_append.mp h
  exact ⟨fun a ha => hp.2.2 a ha r (by simp), fun a ha => (List.pairwise_cons.mp hp.2.1).1 a ha⟩

theorem snr_rows {s : RealSensor} (hs : s.Usable) {rows : List (Fin 6 → ℝ)} (hpos : ∀ r ∈ rows, 0 < r 0)
    (F G : (Fin 6 → ℝ) → ℝ) :
    ∃ m, photonDetectorSNR s.toSensor ((s.rowsInBand rows).map fun a => .fin (a 0)) ((s.rowsInBand rows).map fun a => .fin (F a))
        ((s.rowsInBand rows).map fun a => .fin (G a)) = .ok m
      ∧ m.tgtNRate = .fin (s.rate (s.rowsInBand rows).length (fun i => (s.rowsInBand rows).getD i 0 0)
          fun i => F ((s.rowsInBand rows).getD i 0))
      ∧ m.bkgNRate = .fin (s.rate (s.rowsInBand rows).length (fun i => (s.rowsInBand rows).getD i 0 0)
          fun i => G ((s.rowsInBand rows).getD i 0)) := by
  obtain ⟨m, h1, h2, h3, -⟩ := snr_total hs (n := (s.rowsInBand rows).length) (wl := fun i => (s.rowsInBand rows).getD i 0 0)
    (by
      intro i hi
      rw [List.getD_eq_getElem _ _ hi]
      exact hpos _ (List.mem_of_mem_filter (List.getElem_mem hi)))
    (fun i => F ((s.rowsInBand rows).getD i 0)) (fun i => G ((s.rowsInBand rows).getD i 0))
  refine ⟨m, ?_, h2, h3⟩
  rw [map_vec _ (fun a => a 0), map_vec, map_vec]
  exact h1

/-! ## C133 -/

/-- **C133** (rates): the transmission table is cut at one of its wavelengths, which the atmosphere has too. The rates of
the two cameras, each on the rows in its band, add up to the rate of the whole, but the dark current counts twice. -/
theorem C133_rates {s : RealSensor} (hs : s.Usable) {A B : List (ℝ × ℝ)} {c τ : ℝ}
    (ht : s.transmission = A ++ (c, τ) :: B) {rows : List (Fin 6 → ℝ)} (hinc : rows.Pairwise fun a b => a 0 < b 0)
    (hpos : ∀ r ∈ rows, 0 < r 0) (hc : ∃ r ∈ rows, r 0 = c) (F G : (Fin 6 → ℝ) → ℝ) :
    let snr (s : RealSensor) := photonDetectorSNR s.toSensor ((s.rowsInBand rows).map fun a => .fin (a 0))
      ((s.rowsInBand rows).map fun a => .fin (F a)) ((s.rowsInBand rows).map fun a => .fin (G a))
    ∃ (m m₁ m₂ : SNRMetrics) (t t₁ t₂ b b₁ b₂ : ℝ), snr s = .ok m ∧ snr { s with transmission := A ++ [(c, τ)] } = .ok m₁
      ∧ snr { s with transmission := (c, τ) :: B } = .ok m₂
      ∧ m.tgtNRate = .fin t ∧ m₁.tgtNRate = .fin t₁ ∧ m₂.tgtNRate = .fin t₂
      ∧ m.bkgNRate = .fin b ∧ m₁.bkgNRate = .fin b₁ ∧ m₂.bkgNRate = .fin b₂
      ∧ t₁ + t₂ = t + s.darkCurrent ∧ b₁ + b₂ = b + s.darkCurrent := by
  obtain ⟨m, a1, a2, a3⟩ := snr_rows hs hpos F G
  obtain ⟨m₁, b1, b2, b3⟩ := snr_rows (usable_below hs ht) hpos F G
  obtain ⟨m₂, d1, d2, d3⟩ := snr_rows (usable_above hs ht) hpos F G
  refine ⟨m, m₁, m₂, _, _, _, _, _, _, a1, b1, d1, a2, b2, d2, a3, b3, d3, ?_, ?_⟩
  all_goals
    obtain ⟨r, hr, rfl⟩ := hc
    obtain ⟨P, Q, rfl⟩ := List.append_of_mem hr
    obtain ⟨h1, h2⟩ := sides hinc
    exact rate_split ht hs.transmission_inc h1 h2 rfl _

/-- **C133** (gap): if the cut lies strictly between two neighbouring wavelengths of the atmosphere, both in the band,
the two cameras together miss the panel between them. -/
theorem C133_gap {s : RealSensor} (hs : s.Usable) {A B : List (ℝ × ℝ)} {c τ : ℝ}
    (ht : s.transmission = A ++ (c, τ) :: B) {P Q : List (Fin 6 → ℝ)} {a b : Fin 6 → ℝ}
    (hinc : (P ++ a :: b :: Q).Pairwise fun a b => a 0 < b 0) (hpos : ∀ r ∈ P ++ a :: b :: Q, 0 < r 0)
    (ha : a 0 < c) (hb : c < b 0) (hlo : ∃ p ∈ A, p.1 ≤ a 0) (hhi : ∃ q ∈ B, b 0 ≤ q.1) (F G : (Fin 6 → ℝ) → ℝ) :
    let rows := P ++ a :: b :: Q
    let snr (s : RealSensor) := photonDetectorSNR s.toSensor ((s.rowsInBand rows).map fun a => .fin (a 0))
      ((s.rowsInBand rows).map fun a => .fin (F a)) ((s.rowsInBand rows).map fun a => .fin (G a))
    ∃ (m m₁ m₂ : SNRMetrics) (t t₁ t₂ : ℝ), snr s = .ok m ∧ snr { s with transmission := A ++ [(c, τ)] } = .ok m₁
      ∧ snr { s with transmission := (c, τ) :: B } = .ok m₂
      ∧ m.tgtNRate = .fin t ∧ m₁.tgtNRate = .fin t₁ ∧ m₂.tgtNRate = .fin t₂
      ∧ t₁ + t₂ + (b 0 - a 0) * ((s.spectral (a 0) (F a) + s.spectral (b 0) (F b)) / 2) = t + s.darkCurrent := by
  intro rows snr
  obtain ⟨m, a1, a2, -⟩ := snr_rows hs hpos F G
  obtain ⟨m₁, b1, b2, -⟩ := snr_rows (usable_below hs ht) hpos F G
  obtain ⟨m₂, d1, d2, -⟩ := snr_rows (usable_above hs ht) hpos F G
  refine ⟨m, m₁, m₂, _, _, _, a1, b1, d1, a2, b2, d2, ?_⟩
  have hp := List.pairwise_append.mp hinc
  have hP : ∀ r ∈ P ++ [a], r 0 < c := by
    intro r hr
    rcases List.mem_append.mp hr with hr | hr
    · exact (hp.2.2 r hr a (by simp)).trans ha
    · rw [List.mem_singleton.mp hr]
      exact ha
  have hQ : ∀ r ∈ b :: Q, c < r 0 := by
    intro r hr
    rcases List.mem_cons.mp hr with rfl | hr
    · exact hb
    · exact hb.trans ((List.pairwise_cons.mp (List.pairwise_cons.mp hp.2.1).2).1 r hr)
  have e : P ++ a :: b :: Q = (P ++ [a]) ++ b :: Q := by simp
  have hinc' := hs.transmission_inc
  rw [ht] at hinc'
  obtain ⟨lo, hi, e1, -, e3, e4, -⟩ := inBand_split hinc'
  have hw := rows_eq s (lo := lo) (hi := hi) (by rw [ht]; exact e1) (by rw [ht]; exact e3)
  have hp' := List.pairwise_append.mp hinc'
  have ha' : lo.1 ≤ a 0 := by
    obtain ⟨p, hp, h⟩ := hlo
    refine le_trans ?_ h
    cases A with
    | nil => cases hp
    | cons x A =>
      have : x = lo := by simpa using e1
      rw [← this]
      rcases List.mem_cons.mp hp with rfl | hp
      · exact le_rfl
      · exact ((List.pairwise_cons.mp hp'.1).1 p hp).le
  have hb' : b 0 ≤ hi.1 := by
    obtain ⟨q, hq, h⟩ := hhi
    refine h.trans ?_
    obtain ⟨ys, rfl | hy⟩ : ∃ ys, B = ys ++ [hi] ∨ B = [] := by
      rcases List.eq_nil_or_concat B with rfl | ⟨ys, y, rfl⟩
      · exact ⟨[], Or.inr rfl⟩
      · refine ⟨ys, Or.inl ?_⟩
        have : ((c, τ) :: (ys.concat y)).getLast? = some y := by
          rw [List.concat_eq_append, ← List.cons_append, List.getLast?_append]
          rfl
        rw [e4] at this
        rw [Option.some.inj this, List.concat_eq_append]
    · rcases List.mem_append.mp hq with hq | hq
      · exact ((List.pairwise_append.mp (List.pairwise_cons.mp hp'.2.1).2).2.2 q hq hi (by simp)).le
      · rw [List.mem_singleton.mp hq]
    · rw [hy] at hq
      cases hq
  have := rate_gap ht hs.transmission_inc hP hQ
    (by rw [hw]; exact List.mem_filter.mpr ⟨by simp, by simp [ha']; linarith⟩)
    (by rw [hw]; exact List.mem_filter.mpr ⟨by simp, by simp [hb']; linarith⟩) F
  rw [← e] at this
  exact this

/-- **C133** (photoelectrons): what `reflectance_to_photoelectrons` counts adds up in the same way, as long as no well is
full. -/
theorem C133_photoelectrons {s : RealSensor} (hs : s.Usable) (hM : 0 < s.maxN) {A B : List (ℝ × ℝ)} {c τ : ℝ}
    (ht : s.transmission = A ++ (c, τ) :: B) {rows : List (Fin 6 → ℝ)} (hinc : rows.Pairwise fun a b => a 0 < b 0)
    (hpos : ∀ r ∈ rows, 0 < r 0) (hc : ∃ r ∈ rows, r 0 = c)
    (hlow : ∃ a ∈ { s with transmission := A ++ [(c, τ)] }.rowsInBand rows, 0 < s.spectral (a 0) (greyRadiance a 1 300))
    (hhigh : ∃ a ∈ { s with transmission := (c, τ) :: B }.rowsInBand rows, 0 < s.spectral (a 0) (greyRadiance a 1 300))
    (hwell : ∀ r : RealSensor, r ∈ [s, { s with transmission := A ++ [(c, τ)] }, { s with transmission := (c, τ) :: B }] →
      r.collected (r.rowsInBand rows) 0 ≤ s.maxN ∧ r.collected (r.rowsInBand rows) 1 ≤ s.maxN) :
    let run (s : RealSensor) := reflectanceToPhotoelectrons (realAtm rows) s.toSensor (.fin s.intTime) 300
    ∃ (N N₁ N₂ : ℕ → ℝ) (w w₁ w₂ k k₁ k₂ : List XR),
      run s = .ok (vec 100 (fun i => i / 99), vec 100 N, w, k)
      ∧ run { s with transmission := A ++ [(c, τ)] } = .ok (vec 100 (fun i => i / 99), vec 100 N₁, w₁, k₁)
      ∧ run { s with transmission := (c, τ) :: B } = .ok (vec 100 (fun i => i / 99), vec 100 N₂, w₂, k₂)
      ∧ ∀ i, N₁ i + N₂ i = N i + s.darkCurrent * s.intTime * s.nTdi := by
  have hi := hs.transmission_inc
  obtain ⟨r, hr, rfl⟩ := hc
  obtain ⟨P, Q, rfl⟩ := List.append_of_mem hr
  obtain ⟨h1, h2⟩ := sides hinc
  obtain ⟨-, -, -, h⟩ := rows_split ht hi h1 h2
  obtain ⟨e1, e2, e3⟩ := h r rfl
  have sub1 : ∀ a ∈ (below s A (r 0) τ).rowsInBand (P ++ r :: Q), a ∈ s.rowsInBand (P ++ r :: Q) ∧ a 0 ≤ r 0 := by
    intro a ha
    rw [e1] at ha
    rw [e3]
    rcases List.mem_append.mp ha with ha | ha
    · exact ⟨List.mem_append_left _ ha, (h1 a (List.mem_of_mem_filter ha)).le⟩
    · rw [List.mem_singleton.mp ha]
      exact ⟨by simp, le_rfl⟩
  have sub2 : ∀ a ∈ (above s (r 0) τ B).rowsInBand (P ++ r :: Q), r 0 ≤ a 0 := by
    intro a ha
    rw [e2] at ha
    rcases List.mem_cons.mp ha with rfl | ha
    · exact le_rfl
    · exact (h2 a (List.mem_of_mem_filter ha)).le
  obtain ⟨x, hx, hx'⟩ := hlow
  obtain ⟨y, hy, hy'⟩ := hhigh
  obtain ⟨k, -, a1⟩ := r2pe_pixel hs hM (rows := P ++ r :: Q) (fun a ha => hpos a (List.mem_of_mem_filter ha))
    ⟨x, (sub1 x hx).1, hx'⟩
  obtain ⟨k₁, -, b1⟩ := r2pe_pixel (usable_below hs ht) hM (rows := P ++ r :: Q)
    (fun a ha => hpos a (List.mem_of_mem_filter ha)) ⟨x, hx, by rw [spectral_below ht hi (sub1 x hx).2]; exact hx'⟩
  obtain ⟨k₂, -, d1⟩ := r2pe_pixel (usable_above hs ht) hM (rows := P ++ r :: Q)
    (fun a ha => hpos a (List.mem_of_mem_filter ha)) ⟨y, hy, by rw [spectral_above ht hi (sub2 y hy)]; exact hy'⟩
  refine ⟨_, _, _, _, _, _, _, _, _, a1, b1, d1, ?_⟩
  intro i
  have px : ∀ (q : RealSensor), q.maxN = s.maxN → q.collected (q.rowsInBand (P ++ r :: Q)) 0 ≤ s.maxN
      ∧ q.collected (q.rowsInBand (P ++ r :: Q)) 1 ≤ s.maxN → ∀ ρ, q.pixel (q.rowsInBand (P ++ r :: Q)) ρ
        = q.collected (q.rowsInBand (P ++ r :: Q)) ρ := by
    intro q hq hw ρ
    unfold RealSensor.pixel
    rw [max_eq_left, div_one]
    rw [hq, div_le_one hM]
    exact max_le hw.1 hw.2
  rw [px s rfl (hwell s (by simp)), px (below s A (r 0) τ) rfl (hwell _ (by simp [below])),
    px (above s (r 0) τ B) rfl (hwell _ (by simp [above]))]
  have := rate_split ht hi h1 h2 (r := r) rfl fun a => greyRadiance a (i / 99) 300
  dsimp only at this
  unfold RealSensor.collected RealSensor.electrons
  show _ * s.intTime * s.nTdi + _ * s.intTime * s.nTdi = _
  linear_combination s.intTime * s.nTdi * this

/-- Non-vacuity of C133: the demonstration camera with a large well, cut at 4 µm, in the demonstration atmosphere. -/
example : ∃ M : ℝ, let s : RealSensor := { demoSensor with maxN := M }
    s.Usable ∧ 0 < s.maxN ∧ s.transmission = [(3e-6, 0.8)] ++ (4e-6, 0.9) :: [(5e-6, 0.7)]
    ∧ (demoAtm.Pairwise fun a b => a 0 < b 0) ∧ (∀ r ∈ demoAtm, 0 < r 0) ∧ (∃ r ∈ demoAtm, r 0 = 4e-6)
    ∧ (∃ a ∈ { s with transmission := [(3e-6, 0.8)] ++ [(4e-6, 0.9)] }.rowsInBand demoAtm,
        0 < s.spectral (a 0) (greyRadiance a 1 300))
    ∧ (∃ a ∈ { s with transmission := (4e-6, 0.9) :: [(5e-6, 0.7)] }.rowsInBand demoAtm,
        0 < s.spectral (a 0) (greyRadiance a 1 300))
    ∧ ∀ r : RealSensor, r ∈ [s, { s with transmission := [(3e-6, 0.8)] ++ [(4e-6, 0.9)] },
        { s with transmission := (4e-6, 0.9) :: [(5e-6, 0.7)] }] →
      r.collected (r.rowsInBand demoAtm) 0 ≤ s.maxN ∧ r.collected (r.rowsInBand demoAtm) 1 ≤ s.maxN := by
  let s₁ : RealSensor := { demoSensor with transmission := [(3e-6, 0.8)] ++ [(4e-6, 0.9)] }
  let s₂ : RealSensor := { demoSensor with transmission := (4e-6, 0.9) :: [(5e-6, 0.7)] }
  let f : RealSensor → ℝ := fun r => max (r.collected (r.rowsInBand demoAtm) 0) (r.collected (r.rowsInBand demoAtm) 1)
  let row : Fin 6 → ℝ := ![(0.30 + 0.01 * ((370 : ℕ) : ℝ)) * 1e-6, 0.5, 5e9, 5e9, 5e9, 5e9]
  have hrow : row ∈ demoAtm := List.mem_map.mpr ⟨370, List.mem_range.mpr (by norm_num), rfl⟩
  have h4 : row 0 = 4e-6 := by
    show (0.30 + 0.01 * ((370 : ℕ) : ℝ)) * 1e-6 = 4e-6
    norm_num
  have hin : row ∈ demoInBand := by
    unfold demoInBand
    rw [rows_eq demoSensor (lo := (3e-6, 0.8)) (hi := (5e-6, 0.7)) rfl rfl]
    exact List.mem_filter.mpr ⟨hrow, by rw [h4]; norm_num⟩
  have h1 : row ∈ s₁.rowsInBand demoAtm := by
    rw [rows_eq s₁ (lo := (3e-6, 0.8)) (hi := (4e-6, 0.9)) rfl rfl]
    exact List.mem_filter.mpr ⟨hrow, by rw [h4]; norm_num⟩
  have h2 : row ∈ s₂.rowsInBand demoAtm := by
    rw [rows_eq s₂ (lo := (4e-6, 0.9)) (hi := (5e-6, 0.7)) rfl rfl]
    exact List.mem_filter.mpr ⟨hrow, by rw [h4]; norm_num⟩
  refine ⟨max 1 (max (f demoSensor) (max (f s₁) (f s₂))), ?_⟩
  obtain ⟨u1, u2, u3, u4, u5, u6, u7, u8⟩ := demoSensor_usable
  refine ⟨⟨u1, u2, u3, u4, u5, u6, u7, u8⟩, lt_of_lt_of_le one_pos (le_max_left _ _), rfl, ?_, ?_, ⟨row, hrow, h4⟩,
    ⟨row, h1, demo_white hin⟩, ⟨row, h2, demo_white hin⟩, ?_⟩
  · unfold demoAtm
    rw [List.pairwise_map]
    refine List.Pairwise.imp ?_ List.pairwise_lt_range
    intro i j hij
    have : (i : ℝ) < j := by exact_mod_cast hij
    show (0.30 + 0.01 * (i : ℝ)) * 1e-6 < (0.30 + 0.01 * (j : ℝ)) * 1e-6
    nlinarith
  · intro r hr
    obtain ⟨i, -, rfl⟩ := List.mem_map.mp hr
    show 0 < (0.30 + 0.01 * (i : ℝ)) * 1e-6
    positivity
  · intro r hr
    have key : ∀ q : RealSensor, f q ≤ max 1 (max (f demoSensor) (max (f s₁) (f s₂))) →
        q.collected (q.rowsInBand demoAtm) 0 ≤ max 1 (max (f demoSensor) (max (f s₁) (f s₂)))
        ∧ q.collected (q.rowsInBand demoAtm) 1 ≤ max 1 (max (f demoSensor) (max (f s₁) (f s₂))) := fun q h =>
      ⟨(le_max_left _ _).trans h, (le_max_right _ _).trans h⟩
    simp only [List.mem_cons, List.not_mem_nil, or_false] at hr
    rcases hr with rfl | rfl | rfl
    · exact key demoSensor (le_max_of_le_right (le_max_left _ _))
    · exact key s₁ (le_max_of_le_right (le_max_of_le_right (le_max_left _ _)))
    · exact key s₂ (le_max_of_le_right (le_max_of_le_right (le_max_right _ _)))

/-- Non-vacuity of `C133_gap`: a table with an entry at 4.005 µm, between samples at 4.00 and 4.01 µm; the panel that is lost
is not empty. -/
example (l : ℝ) : let s : RealSensor := { demoSensor with transmission := [(3e-6, 0.8)] ++ (4.005e-6, 0.9) :: [(5e-6, 0.7)] }
    let a : Fin 6 → ℝ := ![4e-6, 0.5, l, l, l, l]
    let b : Fin 6 → ℝ := ![4.01e-6, 0.5, l, l, l, l]
    s.Usable ∧ (([] ++ a :: b :: []).Pairwise fun a b : Fin 6 → ℝ => a 0 < b 0) ∧ (∀ r ∈ [] ++ a :: b :: [], 0 < r 0)
    ∧ a 0 < 4.005e-6 ∧ 4.005e-6 < b 0 ∧ (∃ p ∈ [((3e-6, 0.8) : ℝ × ℝ)], p.1 ≤ a 0) ∧ ∃ q ∈ [((5e-6, 0.7) : ℝ × ℝ)], b 0 ≤ q.1 := by
  intro s a b
  obtain ⟨u1, u2, u3, u4, u5, u6, u7, u8⟩ := demoSensor_usable
  have ea : a 0 = 4e-6 := rfl
  have eb : b 0 = 4.01e-6 := rfl
  refine ⟨⟨u1, by simp [s], ?_, u4, u5, u6, u7, u8⟩, ?_, ?_, ?_, ?_, ⟨_, List.mem_singleton_self _, ?_⟩,
    ⟨_, List.mem_singleton_self _, ?_⟩⟩
  · show Increasing [(3e-6, 0.8), (4.005e-6, 0.9), (5e-6, 0.7)]
    unfold Increasing
    simp only [List.pairwise_cons, List.mem_cons, List.not_mem_nil, or_false, forall_eq_or_imp, forall_eq, false_implies,
      implies_true, List.Pairwise.nil, and_true]
    norm_num
  · simp only [List.nil_append, List.pairwise_cons, List.mem_cons, List.not_mem_nil, or_false, forall_eq, false_implies,
      implies_true, List.Pairwise.nil, and_true]
    rw [ea, eb]
    norm_num
  · intro r hr
    simp only [List.nil_append, List.mem_cons, List.not_mem_nil, or_false] at hr
    rcases hr with rfl | rfl
    · rw [ea]; norm_num
    · rw [eb]; norm_num
  · rw [ea]; norm_num
  · rw [eb]; norm_num
  · rw [ea]; norm_num
  · rw [eb]; norm_num

end PyBSM
