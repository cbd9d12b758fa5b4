import Verif.Lemmas.Decoder

/-!
# Lemmas about the atmosphere loaders
-/

noncomputable section

open Classical

namespace PyBSM

open Spec

/-- Decoding of raw numbers, as the last step of `loadNoInterp`. -/
def decodeRaw (raw : List XR) : Atm :=
  let col (c i : ℕ) : XR := raw.getD (c * 1371 + i) .nan
  (List.range 1371).map fun (i : ℕ) =>
    ![wavelengthCol.getD i .nan, col 0 i, col 1 i / 1e-10, col 2 i / 1e-10,
      col 3 i / 1e-10, col 4 i / 1e-10]

/-- The list of rows the three filters of `loadNoInterp` leave. -/
def matching (altitude groundRange : XR) (ihaze : ℤ) : List DecRow :=
  ((decoderTable.filter (fun r => (r.haze : ℤ) = ihaze)).filter
    (fun r => XR.eq (.fin (r.altDm / 10000)) (altitude / 1000))).filter
    (fun r => XR.eq (.fin (r.rangeM / 1000)) (groundRange / 1000))

theorem loadNoInterp_eq (files : Files) (a g : XR) (h : ℤ) :
    loadNoInterp files a g h =
      match matching a g h with
      | [] => .error .indexError
      | r :: _ =>
        match files r.idx with
        | none => .error .indexError
        | some raw => if raw.length ≠ 1371 * 5 then .error .valueError else .ok (decodeRaw raw) := rfl

theorem key_eq {n : ℕ} {a : XR} {k d : ℝ} (hk : k ≠ 0) (hd : d = k / 1000) :
    XR.eq (.fin (n / k)) (a / 1000) ↔ a = .fin ((n : ℝ) / d) := by
  subst hd
  cases a with
  | fin x =>
    rw [XR.ofNat_def, XR.fin_div _ (by norm_num), XR.fin_eq, XR.fin_inj]
    constructor
    · intro h; field_simp at h ⊢; linarith
    · intro h; rw [h]; field_simp
  | pinf =>
    have : (XR.pinf / 1000 : XR) = .pinf := by
      show (if ((1000:ℝ)) < 0 then XR.ninf else XR.pinf) = _
      rw [if_neg (by norm_num)]
    rw [this]; simp [XR.eq]
  | ninf =>
    have : (XR.ninf / 1000 : XR) = .ninf := by
      show (if ((1000:ℝ)) < 0 then XR.pinf else XR.ninf) = _
      rw [if_neg (by norm_num)]
    rw [this]; simp [XR.eq]
  | nan => rw [XR.nan_div]; simp [XR.eq]

theorem mem_matching {a g : XR} {h : ℤ} {r : DecRow} :
    r ∈ matching a g h ↔ r ∈ decoderTable ∧ (r.haze : ℤ) = h ∧ a = .fin ((r.altDm : ℝ) / 10)
      ∧ g = .fin (r.rangeM : ℝ) := by
  unfold matching
  simp only [List.mem_filter, decide_eq_true_eq]
  rw [key_eq (d := 10) (by norm_num) (by norm_num), key_eq (d := 1) (by norm_num) (by norm_num),
    div_one]
  tauto

theorem IsRow.unique {r s : DecRow} {a g : ℝ} {h : ℤ} (hr : IsRow r a g h) (hs : IsRow s a g h) :
    r = s := by
  obtain ⟨r1, r2, r3, r4⟩ := hr
  obtain ⟨s1, s2, s3, s4⟩ := hs
  refine decoder_unique r1 s1 (by exact_mod_cast r2.trans s2.symm) ?_
    (by exact_mod_cast r4.trans s4.symm)
  have : (r.altDm : ℝ) = s.altDm := by
    have := r3.trans s3.symm
    linarith
  exact_mod_cast this

theorem load_of_row {files : Files} {r : DecRow} {a g : ℝ} {h : ℤ} (hr : IsRow r a g h) :
    loadNoInterp files (.fin a) (.fin g) h =
      match files r.idx with
      | none => .error .indexError
      | some raw => if raw.length ≠ 1371 * 5 then .error .valueError else .ok (decodeRaw raw) := by
  rw [loadNoInterp_eq]
  have hm : r ∈ matching (.fin a) (.fin g) h :=
    mem_matching.mpr ⟨hr.1, hr.2.1, by rw [hr.2.2.1], by rw [hr.2.2.2]⟩
  cases hl : matching (.fin a) (.fin g) h with
  | nil => rw [hl] at hm; simp at hm
  | cons s t =>
    have hs : s ∈ matching (.fin a) (.fin g) h := by rw [hl]; exact List.mem_cons_self
    rw [mem_matching] at hs
    have : s = r := IsRow.unique (a := a) (g := g) (h := h)
      ⟨hs.1, hs.2.1, (XR.fin_inj.mp hs.2.2.1).symm, (XR.fin_inj.mp hs.2.2.2).symm⟩ hr
    subst this; rfl

theorem load_of_no_row {files : Files} {a g : XR} {h : ℤ}
    (hn : ∀ a' g' r, a = .fin a' → g = .fin g' → ¬ IsRow r a' g' h) :
    loadNoInterp files a g h = .error .indexError := by
  rw [loadNoInterp_eq]
  cases hl : matching a g h with
  | nil => rfl
  | cons s t =>
    have hs : s ∈ matching a g h := by rw [hl]; exact List.mem_cons_self
    rw [mem_matching] at hs
    exact absurd ⟨hs.1, hs.2.1, rfl, rfl⟩ (hn _ _ s hs.2.2.1 hs.2.2.2)

/-- A successful load found its row and its file. -/
theorem load_ok_inv {files : Files} {a g : XR} {h : ℤ} {atm : Atm}
    (hl : loadNoInterp files a g h = .ok atm) :
    ∃ r raw a' g', a = .fin a' ∧ g = .fin g' ∧ IsRow r a' g' h ∧ files r.idx = some raw
      ∧ raw.length = 1371 * 5 ∧ atm = decodeRaw raw := by
  rw [loadNoInterp_eq] at hl
  cases hm : matching a g h with
  | nil => simp [hm] at hl
  | cons s t =>
    have hs : s ∈ matching a g h := by rw [hm]; exact List.mem_cons_self
    rw [mem_matching] at hs
    simp only [hm] at hl
    cases hf : files s.idx with
    | none => simp [hf] at hl
    | some raw =>
      simp only [hf] at hl
      split_ifs at hl with hlen
      exact ⟨s, raw, _, _, hs.2.2.1, hs.2.2.2, ⟨hs.1, hs.2.1, rfl, rfl⟩, hf,
        not_not.mp hlen, (Except.ok.inj hl).symm⟩

theorem wavelengthCol_getD {i : ℕ} (hi : i < 1371) :
    wavelengthCol.getD i .nan = .fin ((0.30 + 0.01 * i) * 1e-6) := by
  unfold wavelengthCol linspace
  rw [List.getD_eq_getElem _ _ (by simpa using hi)]
  simp only [List.getElem_map, List.getElem_range]
  xr_simp
  congr 1
  push_cast
  norm_num
  ring

theorem div_1em10 (x : XR) : x / 1e-10 = x * .fin 1e10 := by
  rw [XR.sci_def]
  cases x with
  | fin x =>
    rw [XR.fin_div _ (by norm_num), XR.fin_mul]
    congr 1; norm_num
    ring
  | pinf =>
    show (if ((1e-10:ℝ)) < 0 then XR.ninf else XR.pinf) = XR.mulInf 1e10
    rw [if_neg (by norm_num), XR.mulInf, if_pos (by norm_num)]
  | ninf =>
    show (if ((1e-10:ℝ)) < 0 then XR.pinf else XR.ninf) = XR.neg (XR.mulInf 1e10)
    rw [if_neg (by norm_num), XR.mulInf, if_pos (by norm_num)]; rfl
  | nan => rfl

theorem decodeRaw_length (raw : List XR) : (decodeRaw raw).length = 1371 := by
  simp [decodeRaw]

theorem decodeRaw_isRecord (raw : List XR) : IsRecord raw (decodeRaw raw) := by
  have key : ∀ i < 1371, (decodeRaw raw).getD i (fun _ => .nan) =
      ![wavelengthCol.getD i .nan, raw.getD (0 * 1371 + i) .nan,
        raw.getD (1 * 1371 + i) .nan / 1e-10, raw.getD (2 * 1371 + i) .nan / 1e-10,
        raw.getD (3 * 1371 + i) .nan / 1e-10, raw.getD (4 * 1371 + i) .nan / 1e-10] := by
    intro i hi
    rw [List.getD_eq_getElem _ _ (by rw [decodeRaw_length]; exact hi)]
    simp only [decodeRaw, List.getElem_map, List.getElem_range]
  refine ⟨decodeRaw_length raw, ?_, ?_, ?_⟩
  · intro i hi
    unfold atmAt; rw [key i hi, Matrix.cons_val_zero, wavelengthCol_getD hi]
  · intro i hi
    unfold atmAt; rw [key i hi]
    show raw.getD (0 * 1371 + i) .nan = _
    rw [Nat.zero_mul, Nat.zero_add]
  · intro i hi c
    unfold atmAt; rw [key i hi, ← div_1em10]
    fin_cases c <;> rfl

theorem isRecord_unique {raw : List XR} {a b : Atm} (ha : IsRecord raw a) (hb : IsRecord raw b) :
    a = b := by
  apply List.ext_getElem (ha.rows.trans hb.rows.symm)
  intro i h1 h2
  have hi : i < 1371 := by rw [ha.rows] at h1; exact h1
  have e : ∀ j, atmAt a i j = atmAt b i j := by
    intro j
    fin_cases j
    · exact (ha.wavelength i hi).trans (hb.wavelength i hi).symm
    · exact (ha.transmission i hi).trans (hb.transmission i hi).symm
    · exact (ha.radiance i hi 0).trans (hb.radiance i hi 0).symm
    · exact (ha.radiance i hi 1).trans (hb.radiance i hi 1).symm
    · exact (ha.radiance i hi 2).trans (hb.radiance i hi 2).symm
    · exact (ha.radiance i hi 3).trans (hb.radiance i hi 3).symm
  funext j
  have := e j
  unfold atmAt at this
  rwa [List.getD_eq_getElem _ _ h1, List.getD_eq_getElem _ _ h2] at this

/-! ### Bracketing in sorted grids -/

theorem getLast?_filter_spec {xs : List ℝ} (hs : xs.Pairwise (· < ·)) {p : ℝ → Bool} {x : ℝ}
    (h : (xs.filter p).getLast? = some x) : x ∈ xs ∧ p x = true ∧ ∀ y ∈ xs, p y = true → y ≤ x := by
  have hs' := hs.filter p
  obtain ⟨l, hl⟩ := List.getLast?_eq_some_iff.mp h
  have hx : x ∈ xs.filter p := by rw [hl]; simp
  rw [List.mem_filter] at hx
  refine ⟨hx.1, hx.2, fun y hy hpy => ?_⟩
  have hy' : y ∈ xs.filter p := List.mem_filter.mpr ⟨hy, hpy⟩
  rw [hl] at hy' hs'
  rw [List.pairwise_append] at hs'
  rcases List.mem_append.mp hy' with h1 | h1
  · exact (hs'.2.2 y h1 x (by simp)).le
  · simp at h1; exact h1.le

theorem head?_filter_spec {xs : List ℝ} (hs : xs.Pairwise (· < ·)) {p : ℝ → Bool} {x : ℝ}
    (h : (xs.filter p).head? = some x) : x ∈ xs ∧ p x = true ∧ ∀ y ∈ xs, p y = true → x ≤ y := by
  have hs' := hs.filter p
  obtain ⟨l, hl⟩ := List.head?_eq_some_iff.mp h
  have hx : x ∈ xs.filter p := by rw [hl]; simp
  rw [List.mem_filter] at hx
  refine ⟨hx.1, hx.2, fun y hy hpy => ?_⟩
  have hy' : y ∈ xs.filter p := List.mem_filter.mpr ⟨hy, hpy⟩
  rw [hl] at hy' hs'
  rcases List.mem_cons.mp hy' with h1 | h1
  · exact h1.ge
  · exact ((List.pairwise_cons.mp hs').1 y h1).le

theorem lastLe_spec {xs : List ℝ} (hs : xs.Pairwise (· < ·)) {q x0 : ℝ} (h0 : x0 ∈ xs)
    (hq : x0 ≤ q) :
    ∃ lo, lastLe xs (.fin q) = .ok lo ∧ lo ∈ xs ∧ lo ≤ q ∧ ∀ y ∈ xs, y ≤ q → y ≤ lo := by
  unfold lastLe
  simp only [XR.fin_le]
  cases h : (xs.filter (fun x => decide (x ≤ q))).getLast? with
  | none =>
    rw [List.getLast?_eq_none_iff, List.filter_eq_nil_iff] at h
    exact absurd (decide_eq_true hq) (h x0 h0)
  | some lo =>
    obtain ⟨h1, h2, h3⟩ := getLast?_filter_spec hs h
    exact ⟨lo, rfl, h1, of_decide_eq_true h2, fun y hy hyq => h3 y hy (decide_eq_true hyq)⟩

theorem firstGe_spec {xs : List ℝ} (hs : xs.Pairwise (· < ·)) {q x0 : ℝ} (h0 : x0 ∈ xs)
    (hq : q ≤ x0) :
    ∃ hi, firstGe xs (.fin q) = .ok hi ∧ hi ∈ xs ∧ q ≤ hi ∧ ∀ y ∈ xs, q ≤ y → hi ≤ y := by
  unfold firstGe
  simp only [XR.fin_le]
  cases h : (xs.filter (fun x => decide (q ≤ x))).head? with
  | none =>
    rw [List.head?_eq_none_iff, List.filter_eq_nil_iff] at h
    exact absurd (decide_eq_true hq) (h x0 h0)
  | some lo =>
    obtain ⟨h1, h2, h3⟩ := head?_filter_spec hs h
    exact ⟨lo, rfl, h1, of_decide_eq_true h2, fun y hy hyq => h3 y hy (decide_eq_true hyq)⟩

/-- The two selections together: a bracket that collapses exactly on grid values. -/
theorem bracket_spec {xs : List ℝ} (hs : xs.Pairwise (· < ·)) {q x0 x1 : ℝ} (h0 : x0 ∈ xs)
    (h1 : x1 ∈ xs) (hq0 : x0 ≤ q) (hq1 : q ≤ x1) :
    ∃ lo hi, lastLe xs (.fin q) = .ok lo ∧ firstGe xs (.fin q) = .ok hi ∧ Brackets xs q lo hi
      ∧ (lo = hi ↔ q ∈ xs) := by
  obtain ⟨lo, e1, m1, l1, f1⟩ := lastLe_spec hs h0 hq0
  obtain ⟨hi, e2, m2, l2, f2⟩ := firstGe_spec hs h1 hq1
  refine ⟨lo, hi, e1, e2, ⟨m1, m2, l1, l2, fun x hx => ?_⟩, ?_⟩
  · rcases le_total x q with h | h
    · exact Or.inl (f1 x hx h)
    · exact Or.inr (f2 x hx h)
  · constructor
    · intro h
      have : q = lo := le_antisymm (h ▸ l2) l1
      exact this ▸ m1
    · intro h
      exact le_antisymm (l1.trans l2) ((f2 q h le_rfl).trans (f1 q h le_rfl))

/-! ### The two grids -/

theorem altitudeArray_eq : altitudeArray = gridAltitudes := rfl

theorem arangeR_eq {a b s : ℝ} {n : ℕ} (h1 : (n : ℝ) - 1 < (b - a) / s) (h2 : (b - a) / s ≤ n)
    (hn : n ≠ 0) : arangeR a b s = (List.range n).map fun (i : ℕ) => a + i * s := by
  unfold arangeR
  rw [(Nat.ceil_eq_iff hn).mpr ⟨by
    rw [Nat.cast_sub (Nat.one_le_iff_ne_zero.mpr hn)]; simpa using h1, h2⟩]

theorem groundRangeArray_eq : groundRangeArray 301000 = gridRanges := by
  unfold groundRangeArray
  rw [arangeR_eq (n := 20) (by norm_num) (by norm_num) (by norm_num),
    arangeR_eq (n := 30) (by norm_num) (by norm_num) (by norm_num),
    arangeR_eq (n := 44) (by norm_num) (by norm_num) (by norm_num)]
  rw [List.filter_eq_self.mpr]
  · unfold gridRanges gridRangesNat
    simp only [List.map_append, List.map_map, List.map_cons, List.map_nil]
    congr 1
    · congr 1
      · congr 1
        · norm_num
        · apply List.map_congr_left; intro i _; simp; ring
      · apply List.map_congr_left; intro i _; simp; ring
    · apply List.map_congr_left; intro i _; simp; ring
  · intro x hx
    simp only [List.mem_append, List.mem_map, List.mem_range, List.mem_cons,
      List.not_mem_nil, or_false] at hx
    apply decide_eq_true
    rcases hx with ((((rfl | rfl | rfl) | ⟨i, hi, rfl⟩) | ⟨i, hi, rfl⟩) | ⟨i, hi, rfl⟩)
    · norm_num
    · norm_num
    · norm_num
    · have : (i : ℝ) ≤ 20 := by exact_mod_cast hi.le
      linarith
    · have : (i : ℝ) ≤ 30 := by exact_mod_cast hi.le
      linarith
    · have : (i : ℝ) ≤ 43 := by exact_mod_cast (by omega : i ≤ 43)
      linarith

theorem gridAltitudes_sorted : gridAltitudes.Pairwise (· < ·) := by
  unfold gridAltitudes
  norm_num

theorem gridRangesNat_sorted : gridRangesNat.Pairwise (· < ·) := by decide +kernel

theorem gridRanges_sorted : gridRanges.Pairwise (· < ·) := by
  unfold gridRanges
  rw [List.pairwise_map]
  exact gridRangesNat_sorted.imp (by intro a b h; exact_mod_cast h)

theorem mem_gridRanges {g : ℝ} : g ∈ gridRanges ↔ ∃ n ∈ gridRangesNat, (n : ℝ) = g := by
  simp [gridRanges]

theorem gridRanges_bounds {g : ℝ} (h : g ∈ gridRanges) : 0 ≤ g ∧ g ≤ 300000 := by
  obtain ⟨n, hn, rfl⟩ := mem_gridRanges.mp h
  have : ∀ n ∈ gridRangesNat, n ≤ 300000 := by decide +kernel
  exact ⟨Nat.cast_nonneg n, by exact_mod_cast this n hn⟩

theorem gridAltitudes_bounds {a : ℝ} (h : a ∈ gridAltitudes) : 2 ≤ a ∧ a ≤ 20000 := by
  simp only [gridAltitudes, List.mem_cons, List.not_mem_nil, or_false] at h
  rcases h with rfl | rfl | rfl | rfl | rfl | rfl | rfl | rfl | rfl | rfl | rfl | rfl | rfl | rfl
    | rfl | rfl | rfl | rfl | rfl | rfl | rfl | rfl <;> norm_num

theorem foldl_min_sorted {x : ℝ} {xs : List ℝ} (h : ∀ y ∈ xs, x ≤ y) : xs.foldl min x = x := by
  induction xs with
  | nil => rfl
  | cons y t ih =>
    rw [List.foldl_cons, min_eq_left (h y List.mem_cons_self)]
    exact ih (fun z hz => h z (List.mem_cons_of_mem _ hz))

theorem foldl_max_spec (xs : List ℝ) : ∀ (x : ℝ), x ≤ xs.foldl max x ∧ (∀ y ∈ xs, y ≤ xs.foldl max x)
    ∧ (xs.foldl max x = x ∨ xs.foldl max x ∈ xs) := by
  induction xs with
  | nil => intro x; simp
  | cons y t ih =>
    intro x
    obtain ⟨h1, h2, h3⟩ := ih (max x y)
    refine ⟨(le_max_left _ _).trans h1, ?_, ?_⟩
    · intro z hz
      rcases List.mem_cons.mp hz with rfl | hz
      · exact (le_max_right _ _).trans h1
      · exact h2 z hz
    · rw [List.foldl_cons]
      rcases h3 with h3 | h3
      · rcases max_choice x y with h | h
        · left; rw [h3, h]
        · right; rw [h3, h]; exact List.mem_cons_self
      · right; exact List.mem_cons_of_mem _ h3

theorem foldl_max_eq {xs : List ℝ} {x m : ℝ} (hm : m ∈ xs) (hx : x ≤ m) (h : ∀ y ∈ xs, y ≤ m) :
    xs.foldl max x = m := by
  obtain ⟨h1, h2, h3⟩ := foldl_max_spec xs x
  rcases h3 with h3 | h3
  · exact le_antisymm (h3.trans_le hx) (h2 m hm)
  · exact le_antisymm (h _ h3) (h2 m hm)

theorem alt_min : altitudeArray.foldl min (altitudeArray.headD 0) = 2 := by
  rw [show altitudeArray.headD 0 = 2 from rfl]
  exact foldl_min_sorted (fun y hy => (gridAltitudes_bounds hy).1)

theorem alt_max : altitudeArray.foldl max (altitudeArray.headD 0) = 20000 := by
  rw [show altitudeArray.headD 0 = 2 from rfl]
  exact foldl_max_eq (by simp [altitudeArray]) (by norm_num) (fun y hy => (gridAltitudes_bounds hy).2)

theorem zero_mem_gridRanges : (0 : ℝ) ∈ gridRanges :=
  mem_gridRanges.mpr ⟨0, by decide +kernel, by simp⟩

theorem max_mem_gridRanges : (300000 : ℝ) ∈ gridRanges :=
  mem_gridRanges.mpr ⟨300000, by decide +kernel, by norm_num⟩

theorem rng_min : gridRanges.foldl min (gridRanges.headD 0) = 0 := by
  rw [show gridRanges.headD 0 = 0 from by simp [gridRanges, gridRangesNat]]
  exact foldl_min_sorted (fun y hy => (gridRanges_bounds hy).1)

theorem rng_max : gridRanges.foldl max (gridRanges.headD 0) = 300000 := by
  rw [show gridRanges.headD 0 = 0 from by simp [gridRanges, gridRangesNat]]
  exact foldl_max_eq max_mem_gridRanges (by norm_num) (fun y hy => (gridRanges_bounds hy).2)

end PyBSM
