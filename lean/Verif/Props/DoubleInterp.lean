import Verif.Props.DoubleLookup
import Verif.Props.Database

/-!
# C100: the interpolating lookup in double precision
-/

noncomputable section

open Classical

namespace PyBSM

open Spec

variable {fl fs : ℝ → ℝ}

/-! ## The grids -/

/-- A grid whose stop value lies a little beyond the last point has the intended points. -/
theorem arangeD_eq (hfl : RoundsToNearest fl) {a s n : ℕ} (hs : 1 ≤ s) (hs' : s ≤ 8192) (h1 : a + n * s ≤ 1000000)
    (hn : 1 ≤ n) {x : ℝ} (hx : ((a + (n - 1) * s : ℕ) : ℝ) + 2 ^ (-7 : ℤ) ≤ x) (hx' : x ≤ ((a + (n - 1) * s : ℕ) : ℝ) + 1) :
    arangeD fl a (fl x) s = (List.range n).map fun (i : ℕ) => (a : ℝ) + i * s := by
  have bnd : ∀ k : ℕ, k ≤ 1000000 → fl (k : ℝ) = k := fun k hk => hfl.self (isDouble_nat (by omega))
  obtain ⟨m, rfl⟩ : ∃ m, n = m + 1 := ⟨n - 1, by omega⟩
  rw [Nat.add_sub_cancel] at hx hx'
  have hms : a + m * s + s ≤ 1000000 := by nlinarith
  have d1 : fl (fl ((a : ℝ) + s) - a) = s := by
    have : (a : ℝ) + s = ((a + s : ℕ) : ℝ) := by push_cast; ring
    rw [this, bnd _ (by omega)]
    push_cast
    rw [add_sub_cancel_left, bnd _ (by omega)]
  have hs0 : (0 : ℝ) < s := by exact_mod_cast hs
  have dy : ∀ k j : ℕ, k ≤ 1000000 → j ≤ 20 → fl ((k : ℝ) + 2 ^ (-(j : ℤ))) = (k : ℝ) + 2 ^ (-(j : ℤ)) := by
    intro k j hk hj
    refine hfl.self ⟨k * 2 ^ j + 1, -(j : ℤ), ?_, ?_⟩
    · rw [abs_of_nonneg (by positivity)]
      have : (2 : ℤ) ^ j ≤ 2 ^ 20 := pow_le_pow_right₀ (by norm_num) hj
      have hk' : (k : ℤ) ≤ 1000000 := by exact_mod_cast hk
      have := mul_le_mul hk' this (by positivity) (by norm_num)
      exact lt_of_le_of_lt (add_le_add_left this 1) (by norm_num)
    · push_cast
      rw [add_mul, zpow_neg, zpow_natCast]
      field_simp
  have lo : (m : ℝ) < fl (fl (fl x - a) / s) := by
    have e1 : ((a + m * s : ℕ) : ℝ) + 2 ^ (-7 : ℤ) ≤ fl x := by
      have := hfl.mono hx
      have d := dy (a + m * s) 7 (by omega) (by norm_num)
      push_cast at d this ⊢
      rwa [d] at this
    have e2 : ((m * s : ℕ) : ℝ) + 2 ^ (-7 : ℤ) ≤ fl (fl x - a) := by
      have d := dy (m * s) 7 (by omega) (by norm_num)
      have := hfl.mono (show ((m * s : ℕ) : ℝ) + 2 ^ (-(7 : ℕ) : ℤ) ≤ fl x - a by push_cast at e1 ⊢; linarith)
      rw [d] at this
      exact this
    have hsr : (s : ℝ) ≤ 8192 := by exact_mod_cast hs'
    have e3 : (m : ℝ) + 2 ^ (-20 : ℤ) ≤ fl (fl (fl x - a) / s) := by
      have hm : m ≤ 1000000 := by nlinarith
      have d := dy m 20 hm le_rfl
      have := hfl.mono (show (m : ℝ) + 2 ^ (-(20 : ℕ) : ℤ) ≤ fl (fl x - a) / s by
        rw [le_div_iff₀ hs0]
        refine le_trans ?_ e2
        push_cast
        norm_num
        nlinarith)
      rw [d] at this
      exact this
    have : (0 : ℝ) < 2 ^ (-20 : ℤ) := by positivity
    linarith
  have up : fl (fl (fl x - a) / s) ≤ ((m + 1 : ℕ) : ℝ) := by
    have hsr : (1 : ℝ) ≤ s := by exact_mod_cast hs
    have e1 : fl x ≤ ((a + m * s + 1 : ℕ) : ℝ) := by
      rw [← bnd (a + m * s + 1) (by omega)]
      exact hfl.mono (by push_cast at hx' ⊢; linarith)
    have e2 : fl (fl x - a) ≤ ((m * s + 1 : ℕ) : ℝ) := by
      rw [← bnd (m * s + 1) (by omega)]
      exact hfl.mono (by push_cast at e1 ⊢; linarith)
    have hmm : m ≤ m * s := Nat.le_mul_of_pos_right m hs
    rw [← bnd (m + 1) (by omega)]
    apply hfl.mono
    rw [div_le_iff₀ hs0]
    push_cast at e2 ⊢
    nlinarith
  have c : ⌈fl (fl (fl x - a) / s)⌉₊ = m + 1 :=
    (Nat.ceil_eq_iff (by omega)).mpr ⟨by simpa using lo, up⟩
  unfold arangeD
  rw [c, d1]
  apply List.map_congr_left
  intro i hi
  have hi' : i ≤ m := by have := List.mem_range.mp hi; omega
  have his : i * s ≤ m * s := Nat.mul_le_mul_right s hi'
  have e1 : fl ((i : ℝ) * s) = i * s := by exact_mod_cast bnd (i * s) (by omega)
  rw [e1]
  exact_mod_cast bnd (a + i * s) (by omega)

/-- The ground ranges of the grid are computed without error. -/
theorem groundRangeArrayD_eq (hfl : RoundsToNearest fl) : groundRangeArrayD fl 301000 = gridRanges := by
  rw [← groundRangeArray_eq]
  unfold groundRangeArrayD groundRangeArray
  have h1 := arangeD_eq hfl (a := 1000) (s := 1000) (n := 20) (x := 20000.01) (by norm_num) (by norm_num) (by norm_num)
    (by norm_num) (by norm_num) (by norm_num)
  have h2 := arangeD_eq hfl (a := 22000) (s := 2000) (n := 30) (x := 80000.01) (by norm_num) (by norm_num) (by norm_num)
    (by norm_num) (by norm_num) (by norm_num)
  have h3 := arangeD_eq hfl (a := 85000) (s := 5000) (n := 44) (x := 300000.01) (by norm_num) (by norm_num) (by norm_num)
    (by norm_num) (by norm_num) (by norm_num)
  push_cast at h1 h2 h3
  rw [h1, h2, h3, arangeR_eq (n := 20) (by norm_num) (by norm_num) (by norm_num),
    arangeR_eq (n := 30) (by norm_num) (by norm_num) (by norm_num),
    arangeR_eq (n := 44) (by norm_num) (by norm_num) (by norm_num)]

theorem fl_3255 (hfl : RoundsToNearest fl) : 32 < fl 32.55 ∧ fl 32.55 < 33 ∧ |fl 32.55 - 32.55| ≤ 1e-14 := by
  have h := hfl.error 32.55
  rw [abs_of_pos (by norm_num : (0 : ℝ) < 32.55)] at h
  have h' : |fl 32.55 - 32.55| ≤ 1e-14 := h.trans (by norm_num)
  have h2 := abs_le.mp h'
  refine ⟨?_, ?_, h'⟩
  · have := h2.1; norm_num at this ⊢; linarith
  · have := h2.2; norm_num at this ⊢; linarith

theorem altitudeArrayD_eq (hfl : RoundsToNearest fl) : altitudeArrayD fl =
    [2, fl 32.55, 75, 150, 225, 500, 1000, 2000, 3000, 4000, 5000, 6000, 7000, 8000, 9000, 10000,
     11000, 12000, 14000, 16000, 18000, 20000] := by
  have bnd : ∀ k : ℕ, k ≤ 1000000 → fl (k : ℝ) = k := fun k hk => hfl.self (isDouble_nat (by omega))
  have b : ∀ (k : ℕ) [k.AtLeastTwo], k ≤ 1000000 → fl (OfNat.ofNat k : ℝ) = OfNat.ofNat k := fun k _ hk => bnd k hk
  unfold altitudeArrayD altitudeArray
  simp only [List.map_cons, List.map_nil]
  rw [b 2, b 75, b 150, b 225, b 500, b 1000, b 2000, b 3000, b 4000, b 5000, b 6000, b 7000, b 8000, b 9000, b 10000,
    b 11000, b 12000, b 14000, b 16000, b 18000, b 20000] <;> norm_num

theorem altitudeArrayD_sorted (hfl : RoundsToNearest fl) : (altitudeArrayD fl).Pairwise (· < ·) := by
  obtain ⟨h1, h2, -⟩ := fl_3255 hfl
  rw [altitudeArrayD_eq hfl]
  simp only [List.pairwise_cons, List.mem_cons, List.not_mem_nil, or_false, forall_eq_or_imp, forall_eq, false_imp_iff,
    implies_true, List.Pairwise.nil, and_true]
  refine ⟨?_, ?_, ?_⟩
  · refine ⟨by linarith, ?_⟩; norm_num
  · refine ⟨by linarith, by linarith, by linarith, by linarith, by linarith, by linarith, by linarith, by linarith,
      by linarith, by linarith, by linarith, by linarith, by linarith, by linarith, by linarith, by linarith, by linarith,
      by linarith, by linarith, by linarith⟩
  · norm_num

/-- Membership in the two altitude grids. -/
theorem mem_altitudeArrayD (hfl : RoundsToNearest fl) {x : ℝ} (hx : x ≤ 2 ∨ 33 ≤ x) : x ∈ altitudeArrayD fl ↔ x ∈ gridAltitudes := by
  obtain ⟨h1, h2, -⟩ := fl_3255 hfl
  have n1 : x ≠ fl 32.55 := by rintro rfl; rcases hx with h | h <;> linarith
  have n2 : x ≠ 32.55 := by rintro rfl; rcases hx with h | h <;> norm_num at h
  rw [altitudeArrayD_eq hfl]
  unfold gridAltitudes
  simp only [List.mem_cons, List.not_mem_nil, or_false, n1, n2, false_or]

theorem altD_bounds (hfl : RoundsToNearest fl) {x : ℝ} (h : x ∈ altitudeArrayD fl) : 2 ≤ x ∧ x ≤ 20000 := by
  by_cases hx : x ≤ 2 ∨ 33 ≤ x
  · exact gridAltitudes_bounds ((mem_altitudeArrayD hfl hx).mp h)
  · push Not at hx
    exact ⟨hx.1.le, by linarith [hx.2]⟩

theorem altD_min (hfl : RoundsToNearest fl) : (altitudeArrayD fl).foldl min ((altitudeArrayD fl).headD 0) = 2 := by
  have : (altitudeArrayD fl).headD 0 = 2 := by rw [altitudeArrayD_eq hfl]; rfl
  rw [this]
  exact foldl_min_sorted fun y hy => (altD_bounds hfl hy).1

theorem altD_max (hfl : RoundsToNearest fl) : (altitudeArrayD fl).foldl max ((altitudeArrayD fl).headD 0) = 20000 := by
  have : (altitudeArrayD fl).headD 0 = 2 := by rw [altitudeArrayD_eq hfl]; rfl
  rw [this]
  exact foldl_max_eq (by rw [altitudeArrayD_eq hfl]; simp) (by norm_num) fun y hy => (altD_bounds hfl hy).2

theorem gridRanges_isDouble {g : ℝ} (h : g ∈ gridRanges) : IsDouble g := by
  obtain ⟨n, hn, rfl⟩ := mem_gridRanges.mp h
  have := (gridRanges_bounds h).2
  have hn' : n ≤ 300000 := by exact_mod_cast this
  exact isDouble_nat (by omega)

theorem altD_isDouble {x : ℝ} (hfl : RoundsToNearest fl) (h : x ∈ altitudeArrayD fl) : IsDouble x := by
  unfold altitudeArrayD at h
  obtain ⟨y, -, rfl⟩ := List.mem_map.mp h
  exact (hfl y).1

/-- The altitude 32.55 m is no row of the decoder file, rounded or not. -/
theorem no_row_fl3255 (hfl : RoundsToNearest fl) (r : DecRow) (g : ℝ) (h : ℤ) : ¬ IsRow r (fl 32.55) g h := by
  rintro ⟨-, -, h, -⟩
  obtain ⟨-, -, h3⟩ := fl_3255 hfl
  rw [← h, abs_le] at h3
  have h4 := h3.1
  have h5 := h3.2
  have l : (325 : ℝ) < r.altDm := by norm_num at h4; linarith
  have u : (r.altDm : ℝ) < 326 := by norm_num at h5; linarith
  have l' : 325 < r.altDm := by exact_mod_cast l
  have u' : r.altDm < 326 := by exact_mod_cast u
  omega

/-! ## The steps -/

/-- The work of the loader in a cell. -/
def cellD (fl fs : ℝ → ℝ) (files : Files) (aLo aHi gLo gHi alt rng : ℝ) (h : ℤ) : Except PyErr Atm := do
  let atmLow ← altAtmInterpD fl fs files aLo aHi alt gLo h
  if gLo ≠ gHi then
    let atmHigh ← altAtmInterpD fl fs files aLo aHi alt gHi h
    let w := weightD fl gLo gHi rng
    .ok (atmBlendD fl (fl (1 - w)) w atmLow atmHigh)
  else .ok atmLow

theorem loadInterpD_inside (hfl : RoundsToNearest fl) (files : Files) {alt rng : ℝ} (h : ℤ) (ha1 : 2 ≤ alt) (ha2 : alt ≤ 20000)
    (hr1 : 0 ≤ rng) (hr2 : rng ≤ 300000) :
    ∃ aLo aHi gLo gHi, Brackets (altitudeArrayD fl) alt aLo aHi ∧ (aLo = aHi ↔ alt ∈ altitudeArrayD fl)
      ∧ Brackets gridRanges rng gLo gHi ∧ (gLo = gHi ↔ rng ∈ gridRanges)
      ∧ loadInterpD fl fs files alt rng h = cellD fl fs files aLo aHi gLo gHi alt rng h := by
  obtain ⟨aLo, aHi, e1, e2, b1, c1⟩ := bracket_spec (altitudeArrayD_sorted hfl)
    (x0 := 2) (x1 := 20000) (by rw [altitudeArrayD_eq hfl]; simp) (by rw [altitudeArrayD_eq hfl]; simp) ha1 ha2
  obtain ⟨gLo, gHi, e3, e4, b2, c2⟩ := bracket_spec gridRanges_sorted
    zero_mem_gridRanges max_mem_gridRanges hr1 hr2
  refine ⟨aLo, aHi, gLo, gHi, b1, c1, b2, c2, ?_⟩
  unfold loadInterpD cellD
  simp only [groundRangeArrayD_eq hfl, altD_min hfl, altD_max hfl, rng_min, rng_max]
  simp only [not_lt.mpr ha1, not_lt.mpr ha2, not_lt.mpr hr1, not_lt.mpr hr2, or_self,
    if_false, e1, e2, e3, e4, bind, Except.bind]

theorem altAtmInterpD_iff {files : Files} {lo hi q g : ℝ} {h : ℤ} :
    (∃ E, altAtmInterpD fl fs files lo hi q g h = .ok E) ↔
      (∃ A, loadNoInterpD fl fs files lo g h = .ok A) ∧ (∃ A, loadNoInterpD fl fs files hi g h = .ok A) := by
  unfold altAtmInterpD
  cases h1 : loadNoInterpD fl fs files lo g h with
  | error e => simp [bind, Except.bind]
  | ok A =>
    by_cases hlh : lo = hi
    · subst hlh; simp [h1, bind, Except.bind]
    · cases h2 : loadNoInterpD fl fs files hi g h with
      | error e => simp [bind, Except.bind, hlh]
      | ok B => simp [bind, Except.bind, hlh]

theorem altAtmInterpD_error {files : Files} {lo hi q g : ℝ} {h : ℤ} {e : PyErr}
    (he : altAtmInterpD fl fs files lo hi q g h = .error e) :
    loadNoInterpD fl fs files lo g h = .error e ∨ loadNoInterpD fl fs files hi g h = .error e := by
  unfold altAtmInterpD at he
  cases h1 : loadNoInterpD fl fs files lo g h with
  | error e' => simp [h1, bind, Except.bind] at he; left; rw [he]
  | ok A =>
    by_cases hlh : lo = hi
    · subst hlh; simp [h1, bind, Except.bind] at he
    · cases h2 : loadNoInterpD fl fs files hi g h with
      | error e' => simp [h1, h2, bind, Except.bind, hlh] at he; right; rw [he]
      | ok B => simp [h1, h2, bind, Except.bind, hlh] at he

theorem cellD_iff {files : Files} {aLo aHi gLo gHi alt rng : ℝ} {h : ℤ} :
    (∃ E, cellD fl fs files aLo aHi gLo gHi alt rng h = .ok E) ↔
      ∀ a ∈ [aLo, aHi], ∀ g ∈ [gLo, gHi], ∃ A, loadNoInterpD fl fs files a g h = .ok A := by
  have L := altAtmInterpD_iff (fl := fl) (fs := fs) (files := files) (lo := aLo) (hi := aHi) (q := alt) (g := gLo) (h := h)
  have H := altAtmInterpD_iff (fl := fl) (fs := fs) (files := files) (lo := aLo) (hi := aHi) (q := alt) (g := gHi) (h := h)
  have R : (∀ a ∈ [aLo, aHi], ∀ g ∈ [gLo, gHi], ∃ A, loadNoInterpD fl fs files a g h = .ok A) ↔
      (∃ E, altAtmInterpD fl fs files aLo aHi alt gLo h = .ok E) ∧ (∃ E, altAtmInterpD fl fs files aLo aHi alt gHi h = .ok E) := by
    rw [L, H]
    simp only [List.mem_cons, List.not_mem_nil, or_false, forall_eq_or_imp, forall_eq]
    tauto
  rw [R]
  unfold cellD
  cases h1 : altAtmInterpD fl fs files aLo aHi alt gLo h with
  | error e => simp [bind, Except.bind]
  | ok A =>
    by_cases hg : gLo = gHi
    · subst hg; simp [h1, bind, Except.bind]
    · cases h2 : altAtmInterpD fl fs files aLo aHi alt gHi h with
      | error e => simp [bind, Except.bind, hg]
      | ok B => simp [bind, Except.bind, hg]

theorem cellD_error {files : Files} {aLo aHi gLo gHi alt rng : ℝ} {h : ℤ} {e : PyErr}
    (he : cellD fl fs files aLo aHi gLo gHi alt rng h = .error e) :
    ∃ a ∈ [aLo, aHi], ∃ g ∈ [gLo, gHi], loadNoInterpD fl fs files a g h = .error e := by
  unfold cellD at he
  cases h1 : altAtmInterpD fl fs files aLo aHi alt gLo h with
  | error y =>
    simp only [h1, bind, Except.bind] at he
    have : y = e := Except.error.inj he
    subst this
    rcases altAtmInterpD_error h1 with h | h
    · exact ⟨aLo, by simp, gLo, by simp, h⟩
    · exact ⟨aHi, by simp, gLo, by simp, h⟩
  | ok A =>
    by_cases hg : gLo = gHi
    · subst hg; simp [h1, bind, Except.bind] at he
    · cases h2 : altAtmInterpD fl fs files aLo aHi alt gHi h with
      | ok B => simp [h1, h2, bind, Except.bind, hg] at he
      | error y =>
        simp only [h1, h2, bind, Except.bind, ne_eq, hg, not_false_eq_true, if_true] at he
        have : y = e := Except.error.inj he
        subst this
        rcases altAtmInterpD_error h2 with h | h
        · exact ⟨aLo, by simp, gHi, by simp, h⟩
        · exact ⟨aHi, by simp, gHi, by simp, h⟩

/-- Away from the gap between 2 m and 75 m the neighbours are those of exact arithmetic. -/
theorem brackets_same (hfl : RoundsToNearest fl) {alt lo hi : ℝ} (ha : alt = 2 ∨ 75 ≤ alt) (b : Brackets (altitudeArrayD fl) alt lo hi)
    (c : lo = hi ↔ alt ∈ altitudeArrayD fl) : Brackets gridAltitudes alt lo hi ∧ (lo = hi ↔ alt ∈ gridAltitudes) := by
  have h2 : (2 : ℝ) ∈ altitudeArrayD fl := by rw [altitudeArrayD_eq hfl]; simp
  have h75 : (75 : ℝ) ∈ altitudeArrayD fl := by rw [altitudeArrayD_eq hfl]; simp
  have hm : alt ∈ altitudeArrayD fl ↔ alt ∈ gridAltitudes :=
    mem_altitudeArrayD hfl (by rcases ha with h | h; exacts [Or.inl h.le, Or.inr (by linarith)])
  have nl : lo ≤ 2 ∨ 33 ≤ lo := by
    rcases ha with rfl | h
    · exact Or.inl b.lo_le
    · rcases b.adjacent 75 h75 with h' | h'
      · exact Or.inr (by linarith)
      · have : alt = 75 := le_antisymm (b.le_hi.trans h') h
        subst this
        rw [c.mpr h75]
        exact Or.inr (by linarith [b.le_hi])
  have nh : hi ≤ 2 ∨ 33 ≤ hi := by
    rcases ha with rfl | h
    · rw [← c.mpr h2]; exact Or.inl b.lo_le
    · exact Or.inr (by linarith [b.le_hi])
  refine ⟨⟨(mem_altitudeArrayD hfl nl).mp b.lo_mem, (mem_altitudeArrayD hfl nh).mp b.hi_mem, b.lo_le, b.le_hi, ?_⟩, by rw [c, hm]⟩
  intro x hx
  by_cases hx' : x ≤ 2 ∨ 33 ≤ x
  · exact b.adjacent x ((mem_altitudeArrayD hfl hx').mpr hx)
  · push Not at hx'
    rcases ha with rfl | h
    · right
      rw [← c.mpr h2]
      linarith [b.lo_le]
    · left
      rcases nl with h' | h'
      · exfalso
        rcases b.adjacent 75 h75 with h'' | h''
        · linarith
        · have : alt = 75 := le_antisymm (b.le_hi.trans h'') h
          subst this
          rw [c.mpr h75] at h'
          linarith [b.le_hi]
      · linarith

/-- In the gap one of the neighbours is the altitude that the database does not have. -/
theorem brackets_gap (hfl : RoundsToNearest fl) {alt lo hi : ℝ} (h1 : 2 < alt) (h2 : alt < 75)
    (b : Brackets (altitudeArrayD fl) alt lo hi) : lo = fl 32.55 ∨ hi = fl 32.55 := by
  obtain ⟨f1, f2, -⟩ := fl_3255 hfl
  rcases b.adjacent (fl 32.55) (by rw [altitudeArrayD_eq hfl]; simp) with h | h
  · left
    have hlt : lo < 75 := lt_of_le_of_lt b.lo_le h2
    have hm := b.lo_mem
    rw [altitudeArrayD_eq hfl] at hm
    simp only [List.mem_cons, List.not_mem_nil, or_false] at hm
    rcases hm with e | e | e | e | e | e | e | e | e | e | e | e | e | e | e | e | e | e | e | e | e | e <;>
      first | exact e | (exfalso; linarith)
  · right
    have hlt : 2 < hi := lt_of_lt_of_le h1 b.le_hi
    have hm := b.hi_mem
    rw [altitudeArrayD_eq hfl] at hm
    simp only [List.mem_cons, List.not_mem_nil, or_false] at hm
    rcases hm with e | e | e | e | e | e | e | e | e | e | e | e | e | e | e | e | e | e | e | e | e | e <;>
      first | exact e | (exfalso; linarith)

theorem brackets_unique {xs : List ℝ} {q lo hi lo' hi' : ℝ} (b : Brackets xs q lo hi) (c : lo = hi ↔ q ∈ xs)
    (b' : Brackets xs q lo' hi') (c' : lo' = hi' ↔ q ∈ xs) : lo = lo' ∧ hi = hi' := by
  by_cases hq : q ∈ xs
  · have e1 := c.mpr hq
    have e2 := c'.mpr hq
    subst e1 e2
    have h1 : lo = q := le_antisymm b.lo_le b.le_hi
    have h2 : lo' = q := le_antisymm b'.lo_le b'.le_hi
    exact ⟨h1.trans h2.symm, h1.trans h2.symm⟩
  · have l : lo < q := lt_of_le_of_ne b.lo_le fun h => hq (h ▸ b.lo_mem)
    have u : q < hi := lt_of_le_of_ne b.le_hi fun h => hq (h ▸ b.hi_mem)
    have l' : lo' < q := lt_of_le_of_ne b'.lo_le fun h => hq (h ▸ b'.lo_mem)
    have u' : q < hi' := lt_of_le_of_ne b'.le_hi fun h => hq (h ▸ b'.hi_mem)
    constructor
    · refine le_antisymm ?_ ?_
      · exact (b'.adjacent lo b.lo_mem).resolve_right (by linarith)
      · exact (b.adjacent lo' b'.lo_mem).resolve_right (by linarith)
    · refine le_antisymm ?_ ?_
      · exact (b.adjacent hi' b'.hi_mem).resolve_left (by linarith)
      · exact (b'.adjacent hi b.hi_mem).resolve_left (by linarith)

theorem loadInterpD_outside (hfl : RoundsToNearest fl) (files : Files) {alt rng : ℝ} (haze : ℤ)
    (h : ¬ (2 ≤ alt ∧ alt ≤ 20000 ∧ 0 ≤ rng ∧ rng ≤ 300000)) : loadInterpD fl fs files alt rng haze = .error .indexError := by
  unfold loadInterpD
  simp only [groundRangeArrayD_eq hfl, altD_min hfl, altD_max hfl, rng_min, rng_max]
  split_ifs with h1 h2
  · rfl
  · rfl
  · push Not at h1 h2
    exact absurd ⟨h1.1, h1.2, h2.1, h2.2⟩ h

/-- A request for the documented altitude of 32.55 m fails. -/
theorem load_fl3255 (hfl : RoundsToNearest fl) (files : Files) {g : ℝ} (hg : IsDouble g) (h : ℤ) :
    loadNoInterpD fl fs files (fl 32.55) g h = .error .indexError :=
  C99_not_found hfl fs files (hfl _).1 hg fun r => no_row_fl3255 hfl r g h

theorem same_ok (hfl : RoundsToNearest fl) (fs : ℝ → ℝ) (files : Files) {a g : ℝ} (ha : IsDouble a) (hg : IsDouble g) (h : ℤ) :
    (∃ A, loadNoInterpD fl fs files a g h = .ok A) ↔ ∃ A, loadNoInterp files (.fin a) (.fin g) h = .ok A := by
  have key := C99_same_errors hfl fs files (haze := h) ha hg
  cases h1 : loadNoInterpD fl fs files a g h with
  | error e => rw [(key e).mp h1]
  | ok A =>
    cases h2 : loadNoInterp files (.fin a) (.fin g) h with
    | error e => rw [(key e).mpr h2] at h1; simp at h1
    | ok B => simp

theorem gap_fails (hfl : RoundsToNearest fl) (files : Files) {alt rng : ℝ} (haze : ℤ) (h1 : 2 < alt) (h2 : alt < 75) (E : Atm) :
    loadInterpD fl fs files alt rng haze ≠ .ok E := by
  intro hE
  by_cases hr : 0 ≤ rng ∧ rng ≤ 300000
  · obtain ⟨aLo, aHi, gLo, gHi, b1, -, b2, -, e⟩ := loadInterpD_inside (fs := fs) hfl files haze h1.le (by linarith) hr.1 hr.2
    have := cellD_iff.mp ⟨E, e ▸ hE⟩
    have hd := gridRanges_isDouble b2.lo_mem
    rcases brackets_gap hfl h1 h2 b1 with h | h
    · obtain ⟨A, hA⟩ := this aLo (by simp) gLo (by simp)
      rw [h, load_fl3255 hfl files hd] at hA
      simp at hA
    · obtain ⟨A, hA⟩ := this aHi (by simp) gLo (by simp)
      rw [h, load_fl3255 hfl files hd] at hA
      simp at hA
  · rw [loadInterpD_outside hfl files haze (fun h => hr h.2.2)] at hE
    simp at hE

/-- **C100** (grid). The ground ranges that the program computes are exactly the 97 documented ones. -/
theorem C100_ground_ranges (hfl : RoundsToNearest fl) :
    groundRangeArrayD fl 301000 = gridRanges ∧ gridRanges.length = 97 :=
  ⟨groundRangeArrayD_eq hfl, by unfold gridRanges; rw [List.length_map]; decide +kernel⟩

/-- **C100** (success). Whatever the database contains, a request for doubles succeeds exactly when it succeeds in exact
arithmetic. -/
theorem C100_same_success (hfl : RoundsToNearest fl) (fs : ℝ → ℝ) (files : Files) {alt rng : ℝ} (haze : ℤ) :
    (∃ E, loadInterpD fl fs files alt rng haze = .ok E) ↔ ∃ E, loadInterp files (.fin alt) (.fin rng) haze = .ok E := by
  by_cases hin : 2 ≤ alt ∧ alt ≤ 20000 ∧ 0 ≤ rng ∧ rng ≤ 300000
  · obtain ⟨h1, h2, h3, h4⟩ := hin
    by_cases hgap : alt = 2 ∨ 75 ≤ alt
    · obtain ⟨aLo, aHi, gLo, gHi, b1, c1, b2, c2, e⟩ := loadInterpD_inside (fs := fs) hfl files haze h1 h2 h3 h4
      obtain ⟨aLo', aHi', gLo', gHi', b1', c1', b2', c2', e', -⟩ := C05_inside files haze h1 h2 h3 h4
      obtain ⟨bb, cc⟩ := brackets_same hfl hgap b1 c1
      obtain ⟨rfl, rfl⟩ := brackets_unique bb cc b1' c1'
      obtain ⟨rfl, rfl⟩ := brackets_unique b2 c2 b2' c2'
      rw [e', e, cellD_iff]
      have key : ∀ a ∈ [aLo, aHi], ∀ g ∈ [gLo, gHi],
          ((∃ A, loadNoInterpD fl fs files a g haze = .ok A) ↔ ∃ A, loadNoInterp files (.fin a) (.fin g) haze = .ok A) := by
        intro a ha g hg
        refine same_ok hfl fs files ?_ ?_ haze
        · simp only [List.mem_cons, List.not_mem_nil, or_false] at ha
          rcases ha with rfl | rfl
          · exact altD_isDouble hfl b1.lo_mem
          · exact altD_isDouble hfl b1.hi_mem
        · simp only [List.mem_cons, List.not_mem_nil, or_false] at hg
          rcases hg with rfl | rfl
          · exact gridRanges_isDouble b2.lo_mem
          · exact gridRanges_isDouble b2.hi_mem
      exact ⟨fun h a ha g hg => (key a ha g hg).mp (h a ha g hg), fun h a ha g hg => (key a ha g hg).mpr (h a ha g hg)⟩
    · push Not at hgap
      have h5 := lt_of_le_of_ne h1 (Ne.symm hgap.1)
      constructor
      · rintro ⟨E, hE⟩
        exact absurd hE (gap_fails hfl files haze h5 hgap.2 E)
      · rintro ⟨E, hE⟩
        exact absurd hE ((C08_low_altitude_gap files _ haze h5 hgap.2).1 E)
  · rw [loadInterpD_outside hfl files haze hin, C05_outside]
    rintro ⟨a, g, h1, h2, h3⟩
    rw [XR.fin_inj] at h1 h2
    subst h1 h2
    exact hin h3

/-- **C100** (exceptions). With a complete database every request that fails raises `IndexError`, as in exact
arithmetic. -/
theorem C100_index_error (hfl : RoundsToNearest fl) (fs : ℝ → ℝ) {files : Files} (hc : Complete files) {alt rng : ℝ}
    (haze : ℤ) {e : PyErr} (he : loadInterpD fl fs files alt rng haze = .error e) : e = .indexError := by
  by_cases hin : 2 ≤ alt ∧ alt ≤ 20000 ∧ 0 ≤ rng ∧ rng ≤ 300000
  · obtain ⟨h1, h2, h3, h4⟩ := hin
    obtain ⟨aLo, aHi, gLo, gHi, b1, c1, b2, c2, e'⟩ := loadInterpD_inside (fs := fs) hfl files haze h1 h2 h3 h4
    rw [e'] at he
    obtain ⟨a, ha, g, hg, h⟩ := cellD_error he
    refine load_complete_error hc ((C99_same_errors hfl fs files ?_ ?_ e).mp h)
    · simp only [List.mem_cons, List.not_mem_nil, or_false] at ha
      rcases ha with rfl | rfl
      · exact altD_isDouble hfl b1.lo_mem
      · exact altD_isDouble hfl b1.hi_mem
    · simp only [List.mem_cons, List.not_mem_nil, or_false] at hg
      rcases hg with rfl | rfl
      · exact gridRanges_isDouble b2.lo_mem
      · exact gridRanges_isDouble b2.hi_mem
  · rw [loadInterpD_outside hfl files haze hin] at he
    exact (Except.error.inj he).symm

/-! ## The values -/

theorem FinAtm.blendD {a b : Atm} {v w : ℕ → Fin 6 → ℝ} (ha : FinAtm a v) (hb : FinAtm b w) (fl : ℝ → ℝ)
    (s t : ℝ) : FinAtm (atmBlendD fl s t a b) (fun i j => fl (fl (s * v i j) + fl (t * w i j))) := by
  have hl : (atmBlendD fl s t a b).length = 1371 := by
    simp [atmBlendD, ha.1, hb.1]
  refine ⟨hl, fun i hi j => ?_⟩
  have h1 := ha.2 i hi j
  have h2 := hb.2 i hi j
  unfold atmAt at *
  rw [List.getD_eq_getElem _ _ (by omega)]
  rw [List.getD_eq_getElem _ _ (by rw [ha.1]; omega)] at h1
  rw [List.getD_eq_getElem _ _ (by rw [hb.1]; omega)] at h2
  have e : (atmBlendD fl s t a b)[i]'(by omega)
      = fun j => XR.rnd fl (XR.rnd fl (.fin s * (a[i]'(by rw [ha.1]; omega)) j)
        + XR.rnd fl (.fin t * (b[i]'(by rw [hb.1]; omega)) j)) :=
    List.getElem_zipWith
  rw [e]
  simp only [h1, h2, XR.fin_mul, XR.rnd, XR.fin_add]

theorem weightD_near (hfl : RoundsToNearest fl) {lo hi q : ℝ} (h1 : lo ≤ q) (h2 : q ≤ hi) (hne : lo ≠ hi) :
    |weightD fl lo hi q - (q - lo) / (hi - lo)| ≤ 1e-15 := by
  set u : ℝ := (2 : ℝ) ^ (-53 : ℤ) with hu
  have h0 : (0 : ℝ) ≤ u := by positivity
  have hus : u ≤ 1.12e-16 := by rw [hu]; norm_num
  have hu1 : u < 1 := lt_of_le_of_lt hus (by norm_num)
  have r : ∀ x, Rnd u x (fl x) := nearest_rnd hfl
  have hd : 0 < hi - lo := sub_pos.mpr (lt_of_le_of_ne (h1.trans h2) hne)
  have n1 := (Near.refl h0 hu1 (q - lo)).round h0 hu1 (by linarith) (r _)
  have n2 := (Near.refl h0 hu1 (hi - lo)).round h0 hu1 hd.le (r _)
  have n3 := (n1.div h0 hu1 n2 (by linarith) hd).round h0 hu1 (div_nonneg (by linarith) hd.le) (r _)
  have e := n3.error' h0 hu1 (div_nonneg (by linarith) hd.le) (by push_cast; linarith)
  have w1 : (q - lo) / (hi - lo) ≤ 1 := (div_le_one hd).mpr (by linarith)
  have w0 : 0 ≤ (q - lo) / (hi - lo) := div_nonneg (by linarith) hd.le
  refine e.trans ?_
  push_cast
  have h6 : 2 * 3 * u ≤ 7e-16 := by linarith
  have h7 := mul_le_mul h6 w1 w0 (by norm_num)
  have h8 : (7e-16 * 1 : ℝ) ≤ 1e-15 := by norm_num
  convert h7.trans h8 using 3

/-- One interpolation in floating-point arithmetic. -/
theorem blend_near (hfl : RoundsToNearest fl) {w w' x x' y y' M d : ℝ} (w0 : 0 ≤ w) (w1 : w ≤ 1) (hw : |w' - w| ≤ 1e-15)
    (hx : |x| ≤ M) (hy : |y| ≤ M) (d0 : 0 ≤ d) (d1 : d ≤ 0.1) (hx' : |x' - x| ≤ d * M) (hy' : |y' - y| ≤ d * M) :
    |fl (fl (fl (1 - w') * x') + fl (w' * y')) - ((1 - w) * x + w * y)| ≤ (d + 1e-14) * M := by
  have hM : 0 ≤ M := (abs_nonneg x).trans hx
  have hw2 := abs_le.mp hw
  have aw : |1 - w'| ≤ 1.01 := by rw [abs_le]; constructor <;> norm_num at hw2 ⊢ <;> linarith
  have es : |fl (1 - w') - (1 - w)| ≤ 1.2e-15 := by
    have := hfl.error (1 - w')
    have h2 := abs_sub_le (fl (1 - w')) (1 - w') (1 - w)
    rw [show (1 - w') - (1 - w) = -(w' - w) by ring, abs_neg] at h2
    have : |fl (1 - w') - (1 - w')| ≤ 1.2e-16 * 1.01 := this.trans (mul_le_mul_of_nonneg_left aw (by norm_num))
    norm_num at this hw h2 ⊢
    linarith
  have dM : d * M ≤ 0.1 * M := mul_le_mul_of_nonneg_right d1 hM
  have ax' : |x'| ≤ 1.1 * M := by
    have := abs_sub_abs_le_abs_sub x' x
    linarith
  have ay' : |y'| ≤ 1.1 * M := by
    have := abs_sub_abs_le_abs_sub y' y
    linarith
  -- the two products
  have p1 : |fl (1 - w') * x' - (1 - w) * x| ≤ 1.4e-15 * M + (1 - w) * (d * M) := by
    rw [show fl (1 - w') * x' - (1 - w) * x = (fl (1 - w') - (1 - w)) * x' + (1 - w) * (x' - x) by ring]
    refine (abs_add_le _ _).trans ?_
    rw [abs_mul, abs_mul, abs_of_nonneg (by linarith : (0 : ℝ) ≤ 1 - w)]
    have := mul_le_mul es ax' (abs_nonneg _) (by norm_num)
    have h2 := mul_le_mul_of_nonneg_left hx' (by linarith : (0 : ℝ) ≤ 1 - w)
    linarith
  have p2 : |w' * y' - w * y| ≤ 1.4e-15 * M + w * (d * M) := by
    rw [show w' * y' - w * y = (w' - w) * y' + w * (y' - y) by ring]
    refine (abs_add_le _ _).trans ?_
    rw [abs_mul, abs_mul, abs_of_nonneg w0]
    have := mul_le_mul hw ay' (abs_nonneg _) (by norm_num)
    have h2 := mul_le_mul_of_nonneg_left hy' w0
    linarith
  have q1 : |fl (1 - w') * x'| ≤ 1.2 * M := by
    have h3 : |fl (1 - w')| ≤ 1.02 := by
      have := abs_sub_abs_le_abs_sub (fl (1 - w')) (1 - w)
      rw [abs_of_nonneg (by linarith : (0 : ℝ) ≤ 1 - w)] at this
      norm_num at this es ⊢
      linarith
    rw [abs_mul]
    have := mul_le_mul h3 ax' (abs_nonneg _) (by norm_num)
    linarith
  have q2 : |w' * y'| ≤ 1.2 * M := by
    have h3 : |w'| ≤ 1.02 := by rw [abs_le]; constructor <;> norm_num at hw2 ⊢ <;> linarith
    rw [abs_mul]
    have := mul_le_mul h3 ay' (abs_nonneg _) (by norm_num)
    linarith
  have r1 := hfl.error (fl (1 - w') * x')
  have r2 := hfl.error (w' * y')
  have r3 := hfl.error (fl (fl (1 - w') * x') + fl (w' * y'))
  set P := fl (1 - w') * x'
  set Q := w' * y'
  clear_value P Q
  have s1 : |fl P| ≤ 1.3 * M := by
    have := abs_sub_abs_le_abs_sub (fl P) P
    have h1 : 1.2e-16 * |P| ≤ 1.2e-16 * (1.2 * M) := mul_le_mul_of_nonneg_left q1 (by norm_num)
    linarith
  have s2 : |fl Q| ≤ 1.3 * M := by
    have := abs_sub_abs_le_abs_sub (fl Q) Q
    have h1 : 1.2e-16 * |Q| ≤ 1.2e-16 * (1.2 * M) := mul_le_mul_of_nonneg_left q2 (by norm_num)
    linarith
  have s3 : |fl P + fl Q| ≤ 2.6 * M := (abs_add_le _ _).trans (by linarith)
  have t1 : |fl P - P| ≤ 2e-16 * M := r1.trans (by have := mul_le_mul_of_nonneg_left q1 (by norm_num : (0 : ℝ) ≤ 1.2e-16); linarith)
  have t2 : |fl Q - Q| ≤ 2e-16 * M := r2.trans (by have := mul_le_mul_of_nonneg_left q2 (by norm_num : (0 : ℝ) ≤ 1.2e-16); linarith)
  have t3 : |fl (fl P + fl Q) - (fl P + fl Q)| ≤ 4e-16 * M := r3.trans (by have := mul_le_mul_of_nonneg_left s3 (by norm_num : (0 : ℝ) ≤ 1.2e-16); linarith)
  have tot : |fl (fl P + fl Q) - ((1 - w) * x + w * y)| ≤
      |fl (fl P + fl Q) - (fl P + fl Q)| + (|fl P - P| + (|fl Q - Q| + (|P - (1 - w) * x| + |Q - w * y|))) := by
    rw [show fl (fl P + fl Q) - ((1 - w) * x + w * y) = (fl (fl P + fl Q) - (fl P + fl Q))
      + ((fl P - P) + ((fl Q - Q) + ((P - (1 - w) * x) + (Q - w * y)))) by ring]
    refine (abs_add_le _ _).trans (add_le_add le_rfl ?_)
    refine (abs_add_le _ _).trans (add_le_add le_rfl ?_)
    refine (abs_add_le _ _).trans (add_le_add le_rfl ?_)
    exact abs_add_le _ _
  refine tot.trans ?_
  linarith

/-- A record in single and double precision. -/
theorem corner_near (hfl : RoundsToNearest fl) (hfs : SingleAccuracy fs) {files : Files} (hf : FiniteFiles files) {a g : ℝ} {h : ℤ}
    {A : Atm} {v : ℕ → Fin 6 → ℝ} (hA : loadNoInterp files (.fin a) (.fin g) h = .ok A) (hv : FinAtm A v) :
    ∃ A' v', loadNoInterpD fl fs files a g h = .ok A' ∧ FinAtm A' v' ∧ ∀ i < 1371, ∀ j, |v' i j - v i j| ≤ 2e-7 * |v i j| := by
  obtain ⟨r, raw, a', g', e1, e2, hr, hfile, hlen, hatm⟩ := load_ok_inv hA
  rw [hatm] at hv
  clear hatm hA
  rw [XR.fin_inj] at e1 e2
  subst e1 e2
  obtain ⟨A', hA', n⟩ := C99_lookup hfl hfs hr hfile hlen
  obtain ⟨raw', rfl⟩ := hf _ _ hfile
  have hlen' : raw'.length = 1371 * 5 := by rwa [List.length_map] at hlen
  have hrec := decodeRaw_isRecord (raw'.map XR.fin)
  have hget : ∀ n < 1371 * 5, (raw'.map XR.fin).getD n .nan = .fin (raw'.getD n 0) := by
    intro n hn
    rw [List.getD_eq_getElem _ _ (by simpa [hlen'] using hn),
      List.getD_eq_getElem _ _ (by omega), List.getElem_map]
  have key : ∀ i < 1371, ∀ j, ∃ x, atmAt A' i j = .fin x ∧ |x - v i j| ≤ 2e-7 * |v i j| := by
    intro i hi j
    have hvj := hv.2 i hi j
    have rad : ∀ c : Fin 4, j = ⟨c + 2, by omega⟩ → ∃ x, atmAt A' i j = .fin x ∧ |x - v i j| ≤ 2e-7 * |v i j| := by
      rintro c rfl
      have hc := c.2
      have hg := hget (((c : ℕ) + 1) * 1371 + i) (by generalize (c : ℕ) = k at hc; clear * - hc hi; omega)
      obtain ⟨x, e, hx⟩ := n.radiance i hi c _ hg
      refine ⟨x, e, ?_⟩
      have := hrec.radiance i hi c
      rw [hvj, hg, XR.fin_mul, XR.fin_inj] at this
      rw [this, abs_mul, abs_of_pos (show (0 : ℝ) < 1e10 by norm_num)]
      exact hx
    have hj : j = 0 ∨ j = 1 ∨ ∃ c : Fin 4, j = ⟨c + 2, by omega⟩ := by
      rcases j with ⟨j, hj⟩
      rcases j with _ | _ | j
      · exact Or.inl rfl
      · exact Or.inr (Or.inl rfl)
      · exact Or.inr (Or.inr ⟨⟨j, by omega⟩, rfl⟩)
    rcases hj with rfl | rfl | ⟨c, hc⟩
    · obtain ⟨w, e, hw⟩ := n.wavelength i hi
      refine ⟨w, e, ?_⟩
      have := hrec.wavelength i hi
      rw [hvj, XR.fin_inj] at this
      rw [this]
      have hp : (0 : ℝ) ≤ (0.30 + 0.01 * i) * 1e-6 := by positivity
      rw [abs_of_nonneg hp]
      exact hw.trans (mul_le_mul_of_nonneg_right (by norm_num) hp)
    · have e := n.transmission i hi
      have := hrec.transmission i hi
      rw [hvj, ← e] at this
      exact ⟨_, this.symm, by rw [sub_self, abs_zero]; positivity⟩
    · exact rad c hc
  refine ⟨A', fun i j => (atmAt A' i j).toReal, hA', ⟨n.rows, fun i hi j => ?_⟩, fun i hi j => ?_⟩
  · obtain ⟨x, e, -⟩ := key i hi j
    dsimp only
    rw [e]; rfl
  · obtain ⟨x, e, hx⟩ := key i hi j
    dsimp only
    rw [e]
    exact hx

theorem lerp_abs {lo hi x y q M : ℝ} (h1 : lo ≤ q) (h2 : q ≤ hi) (hx : |x| ≤ M) (hy : |y| ≤ M) : |lerp lo hi x y q| ≤ M := by
  rw [abs_le] at hx hy ⊢
  exact lerp_bounds h1 h2 hx hy

theorem lerp_weights {lo hi x y q : ℝ} (hne : lo ≠ hi) :
    lerp lo hi x y q = (1 - (q - lo) / (hi - lo)) * x + (q - lo) / (hi - lo) * y := by
  unfold lerp
  rw [if_neg hne]
  ring

/-- Interpolation of records. -/
theorem blend_step (hfl : RoundsToNearest fl) {lo hi q : ℝ} (h1 : lo ≤ q) (h2 : q ≤ hi) (hne : lo ≠ hi) {x x' y y' M d : ℝ}
    (hx : |x| ≤ M) (hy : |y| ≤ M) (d0 : 0 ≤ d) (d1 : d ≤ 0.1) (hx' : |x' - x| ≤ d * M) (hy' : |y' - y| ≤ d * M) :
    |fl (fl (fl (1 - weightD fl lo hi q) * x') + fl (weightD fl lo hi q * y')) - lerp lo hi x y q| ≤ (d + 1e-14) * M := by
  have hd : 0 < hi - lo := sub_pos.mpr (lt_of_le_of_ne (h1.trans h2) hne)
  rw [lerp_weights hne]
  exact blend_near hfl (div_nonneg (by linarith) hd.le) ((div_le_one hd).mpr (by linarith)) (weightD_near hfl h1 h2 hne)
    hx hy d0 d1 hx' hy'

theorem altAtmInterpD_near (hfl : RoundsToNearest fl) (hfs : SingleAccuracy fs) {files : Files} (hf : FiniteFiles files)
    {lo hi q g : ℝ} {h : ℤ} (h1 : lo ≤ q) (h2 : q ≤ hi) {A B : Atm} {v w : ℕ → Fin 6 → ℝ}
    (hA : loadNoInterp files (.fin lo) (.fin g) h = .ok A) (hv : FinAtm A v)
    (hB : loadNoInterp files (.fin hi) (.fin g) h = .ok B) (hw : FinAtm B w) :
    ∃ E e, altAtmInterpD fl fs files lo hi q g h = .ok E ∧ FinAtm E e ∧ ∀ i < 1371, ∀ j M, |v i j| ≤ M → |w i j| ≤ M →
      |e i j - lerp lo hi (v i j) (w i j) q| ≤ (2e-7 + 1e-14) * M := by
  obtain ⟨A', v', hA', fv, nv⟩ := corner_near hfl hfs hf hA hv
  obtain ⟨B', w', hB', fw, nw⟩ := corner_near hfl hfs hf hB hw
  by_cases hne : lo = hi
  · subst hne
    refine ⟨A', v', by simp [altAtmInterpD, hA', bind, Except.bind], fv, fun i hi j M m1 _ => ?_⟩
    have hM : 0 ≤ M := (abs_nonneg _).trans m1
    have : lerp lo lo (v i j) (w i j) q = v i j := by unfold lerp; rw [if_pos rfl]
    rw [this]
    refine (nv i hi j).trans ?_
    have := mul_le_mul_of_nonneg_left m1 (by norm_num : (0 : ℝ) ≤ 2e-7)
    have h3 : (2e-7 : ℝ) * M ≤ (2e-7 + 1e-14) * M := mul_le_mul_of_nonneg_right (by norm_num) hM
    linarith
  · refine ⟨_, _, by simp only [altAtmInterpD, hA', hB', bind, Except.bind, ne_eq, hne, not_false_eq_true, if_true]; rfl,
      fv.blendD fw fl _ _, fun i hi' j M m1 m2 => ?_⟩
    refine blend_step hfl h1 h2 hne m1 m2 (by norm_num) (by norm_num) ?_ ?_
    · exact (nv i hi' j).trans (mul_le_mul_of_nonneg_left m1 (by norm_num))
    · exact (nw i hi' j).trans (mul_le_mul_of_nonneg_left m2 (by norm_num))

/-- **C100** (values). In every cell with loadable corners the double-precision result differs from the bilinear blend of
the exact records, i.e. from the result of exact arithmetic, by at most 3 parts in ten million of the largest corner
entry. -/
theorem C100_values (hfl : RoundsToNearest fl) (hfs : SingleAccuracy fs) {files : Files} (hf : FiniteFiles files)
    {alt rng : ℝ} {haze : ℤ} {E : Atm} (hE : loadInterp files (.fin alt) (.fin rng) haze = .ok E) :
    ∃ E', loadInterpD fl fs files alt rng haze = .ok E' ∧ E'.length = 1371 ∧ ∀ i < 1371, ∀ j, ∃ x x' : ℝ,
      atmAt E i j = .fin x ∧ atmAt E' i j = .fin x' ∧ ∀ M : ℝ,
        (∀ aLo aHi gLo gHi, Brackets gridAltitudes alt aLo aHi → Brackets gridRanges rng gLo gHi →
          ∀ a ∈ [aLo, aHi], ∀ g ∈ [gLo, gHi], ∀ A, loadNoInterp files (.fin a) (.fin g) haze = .ok A →
            ∃ y, atmAt A i j = .fin y ∧ |y| ≤ M) →
        |x' - x| ≤ 3e-7 * M := by
  have hin : 2 ≤ alt ∧ alt ≤ 20000 ∧ 0 ≤ rng ∧ rng ≤ 300000 := by
    by_contra hin
    rw [C05_outside] at hE
    · simp at hE
    · rintro ⟨a, g, h1, h2, h3⟩
      rw [XR.fin_inj] at h1 h2
      subst h1 h2
      exact hin h3
  obtain ⟨h1, h2, h3, h4⟩ := hin
  have hgap : alt = 2 ∨ 75 ≤ alt := by
    by_contra hgap
    push Not at hgap
    exact absurd hE ((C08_low_altitude_gap files _ haze (lt_of_le_of_ne h1 (Ne.symm hgap.1)) hgap.2).1 E)
  obtain ⟨aLo, aHi, gLo, gHi, b1, c1, b2, c2, e⟩ := loadInterpD_inside (fs := fs) hfl files haze h1 h2 h3 h4
  obtain ⟨aLo', aHi', gLo', gHi', b1', c1', b2', c2', e', -⟩ := C05_inside files haze h1 h2 h3 h4
  obtain ⟨bb, cc⟩ := brackets_same hfl hgap b1 c1
  obtain ⟨rfl, rfl⟩ := brackets_unique bb cc b1' c1'
  obtain ⟨rfl, rfl⟩ := brackets_unique b2 c2 b2' c2'
  have all := e'.mp ⟨E, hE⟩
  obtain ⟨A00, l00⟩ := all aLo (by simp) gLo (by simp)
  obtain ⟨A10, l10⟩ := all aHi (by simp) gLo (by simp)
  obtain ⟨A01, l01⟩ := all aLo (by simp) gHi (by simp)
  obtain ⟨A11, l11⟩ := all aHi (by simp) gHi (by simp)
  obtain ⟨v00, f00⟩ := load_finAtm hf l00
  obtain ⟨v10, f10⟩ := load_finAtm hf l10
  obtain ⟨v01, f01⟩ := load_finAtm hf l01
  obtain ⟨v11, f11⟩ := load_finAtm hf l11
  obtain ⟨E2, hE2, fE⟩ := loadInterp_cell bb b2 l00 f00 l10 f10 l01 f01 l11 f11
  rw [hE] at hE2
  have := Except.ok.inj hE2
  subst this
  obtain ⟨X, x, hX, fX, nX⟩ := altAtmInterpD_near hfl hfs hf b1.lo_le b1.le_hi l00 f00 l10 f10
  obtain ⟨Y, y, hY, fY, nY⟩ := altAtmInterpD_near hfl hfs hf b1.lo_le b1.le_hi l01 f01 l11 f11
  -- the corner bounds
  have corners : ∀ i < 1371, ∀ j M, (∀ aLo aHi gLo gHi, Brackets gridAltitudes alt aLo aHi → Brackets gridRanges rng gLo gHi →
          ∀ a ∈ [aLo, aHi], ∀ g ∈ [gLo, gHi], ∀ A, loadNoInterp files (.fin a) (.fin g) haze = .ok A →
            ∃ y, atmAt A i j = .fin y ∧ |y| ≤ M) → |v00 i j| ≤ M ∧ |v10 i j| ≤ M ∧ |v01 i j| ≤ M ∧ |v11 i j| ≤ M := by
    intro i hi j M hM
    have k := hM aLo aHi gLo gHi bb b2
    have get : ∀ {a g A v}, a ∈ [aLo, aHi] → g ∈ [gLo, gHi] → loadNoInterp files (.fin a) (.fin g) haze = .ok A → FinAtm A v →
        |v i j| ≤ M := by
      intro a g A v ha hg hl hv
      obtain ⟨y, e1, e2⟩ := k a ha g hg A hl
      rw [hv.2 i hi j, XR.fin_inj] at e1
      rwa [e1]
    exact ⟨get (by simp) (by simp) l00 f00, get (by simp) (by simp) l10 f10, get (by simp) (by simp) l01 f01,
      get (by simp) (by simp) l11 f11⟩
  rw [e]
  by_cases hg : gLo = gHi
  · refine ⟨X, by unfold cellD; rw [hX]; simp only [bind, Except.bind, ne_eq, hg, not_true_eq_false, if_false], fX.1, fun i hi j => ⟨_, _, fE.2 i hi j, fX.2 i hi j, fun M hM => ?_⟩⟩
    obtain ⟨m1, m2, -, -⟩ := corners i hi j M hM
    have hM0 : 0 ≤ M := (abs_nonneg _).trans m1
    have := nX i hi j M m1 m2
    dsimp only
    have el : ∀ a b : ℝ, lerp gLo gHi a b rng = a := fun a b => by unfold lerp; rw [if_pos hg]
    rw [el]
    exact this.trans (mul_le_mul_of_nonneg_right (by norm_num) hM0)
  · refine ⟨_, by simp only [cellD, hX, hY, bind, Except.bind, ne_eq, hg, not_false_eq_true, if_true]; rfl,
      (fX.blendD fY fl _ _).1, fun i hi j => ⟨_, _, fE.2 i hi j, (fX.blendD fY fl _ _).2 i hi j, fun M hM => ?_⟩⟩
    obtain ⟨m1, m2, m3, m4⟩ := corners i hi j M hM
    have hM0 : 0 ≤ M := (abs_nonneg _).trans m1
    have := blend_step hfl b2.lo_le b2.le_hi hg (lerp_abs b1.lo_le b1.le_hi m1 m2) (lerp_abs b1.lo_le b1.le_hi m3 m4)
      (by norm_num : (0 : ℝ) ≤ 2e-7 + 1e-14) (by norm_num) (nX i hi j M m1 m2) (nY i hi j M m3 m4)
    exact this.trans (mul_le_mul_of_nonneg_right (by norm_num) hM0)

/-- A database whose files hold zeros: requests in doubles succeed off the grid and fail in the gap. -/
example : ∃ files : Files, FiniteFiles files ∧ Complete files
    ∧ (∃ E, loadInterpD roundDouble id files 8500 50 1 = .ok E)
    ∧ loadInterpD roundDouble id files 50 50 1 = .error .indexError := by
  refine ⟨fun _ => some ((List.replicate (1371 * 5) (0 : ℝ)).map .fin), ?_, ?_, ?_, ?_⟩
  · exact fun _ _ h => ⟨List.replicate (1371 * 5) 0, (Option.some.inj h).symm⟩
  · exact fun _ _ => ⟨List.replicate (1371 * 5) 0, rfl, List.length_replicate⟩
  · refine (C100_same_success roundDouble_rounds id _ 1).mpr
      (C08_guaranteed (fun _ _ => ⟨List.replicate (1371 * 5) 0, rfl, List.length_replicate⟩) ?_ ?_ ?_ ?_ ?_)
    all_goals norm_num
  · have hc : Complete fun _ => some ((List.replicate (1371 * 5) (0 : ℝ)).map .fin) :=
      fun _ _ => ⟨List.replicate (1371 * 5) 0, rfl, List.length_replicate⟩
    cases h : loadInterpD roundDouble id (fun _ => some ((List.replicate (1371 * 5) (0 : ℝ)).map .fin)) 50 50 1 with
    | error e => rw [C100_index_error roundDouble_rounds id hc 1 h]
    | ok E => exact absurd h (gap_fails roundDouble_rounds _ 1 (by norm_num) (by norm_num) E)

end PyBSM
