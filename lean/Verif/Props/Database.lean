import Verif.Lemmas.Interp
import Mathlib.Topology.LocallyFinite

/-!
# C03 - C09: the atmosphere database
-/

noncomputable section

open Classical

namespace PyBSM

open Spec

/-! ## C03 -/

/-- **C03** (keys are unique). -/
theorem C03_unique_key {r s : DecRow} {alt rng : ℝ} {haze : ℤ} (hr : IsRow r alt rng haze)
    (hs : IsRow s alt rng haze) : r = s := IsRow.unique hr hs

/-- **C03** (found). If the decoder has a row for the request and its file has the right size, the
load returns the record in that file. -/
theorem C03_lookup {files : Files} {r : DecRow} {alt rng : ℝ} {haze : ℤ} {raw : List XR}
    (hr : IsRow r alt rng haze) (hf : files r.idx = some raw) (hl : raw.length = 1371 * 5) :
    ∃ a, loadNoInterp files (.fin alt) (.fin rng) haze = .ok a ∧ IsRecord raw a := by
  refine ⟨decodeRaw raw, ?_, decodeRaw_isRecord raw⟩
  rw [load_of_row hr]
  simp [hf, hl]

/-- **C03** (not found). No decoder row, or a row whose file is missing: `IndexError`.  Requests
that are not finite numbers have no row. -/
theorem C03_not_found {files : Files} {alt rng : XR} {haze : ℤ}
    (h : ∀ a g r, alt = .fin a → rng = .fin g → IsRow r a g haze → files r.idx = none) :
    loadNoInterp files alt rng haze = .error .indexError := by
  by_cases hn : ∃ a g r, alt = .fin a ∧ rng = .fin g ∧ IsRow r a g haze
  · obtain ⟨a, g, r, rfl, rfl, hr⟩ := hn
    rw [load_of_row hr, h a g r rfl rfl hr]
  · apply load_of_no_row
    intro a g r ha hg hr
    exact hn ⟨a, g, r, ha, hg, hr⟩

/-- **C03** (converse). The load raises `IndexError` only in those cases, and nothing else except
`ValueError` for a file of the wrong size. -/
theorem C03_errors {files : Files} {alt rng : XR} {haze : ℤ} {e : PyErr}
    (h : loadNoInterp files alt rng haze = .error e) :
    (e = .indexError ∧ ∀ a g r, alt = .fin a → rng = .fin g → IsRow r a g haze → files r.idx = none)
    ∨ (e = .valueError ∧ ∃ a g r raw, alt = .fin a ∧ rng = .fin g ∧ IsRow r a g haze
        ∧ files r.idx = some raw ∧ raw.length ≠ 1371 * 5) := by
  by_cases hn : ∃ a g r, alt = .fin a ∧ rng = .fin g ∧ IsRow r a g haze
  · obtain ⟨a, g, r, rfl, rfl, hr⟩ := hn
    rw [load_of_row hr] at h
    cases hf : files r.idx with
    | none =>
      rw [hf] at h
      left
      refine ⟨(Except.error.inj h).symm, ?_⟩
      intro a' g' r' ha hg hr'
      rw [XR.fin_inj] at ha hg
      subst ha hg
      rw [IsRow.unique hr' hr, hf]
    | some raw =>
      rw [hf] at h
      simp only at h
      split_ifs at h with hlen
      right
      exact ⟨(Except.error.inj h).symm, a, g, r, raw, rfl, rfl, hr, hf, hlen⟩
  · left
    rw [load_of_no_row (fun a g r ha hg hr => hn ⟨a, g, r, ha, hg, hr⟩)] at h
    exact ⟨(Except.error.inj h).symm, fun a g r ha hg hr => absurd ⟨a, g, r, ha, hg, hr⟩ hn⟩

/-- The row for 32.5 m altitude, ground range 0, haze 1 exists (and there is none for 32.55 m). -/
theorem row_example : ∃ r, IsRow r 32.5 0 1 := by
  have : ∃ r ∈ decoderTable, r.haze = 1 ∧ r.altDm = 325 ∧ r.rangeM = 0 := by decide +kernel
  obtain ⟨r, h1, h2, h3, h4⟩ := this
  exact ⟨r, h1, by rw [h2]; norm_num, by rw [h3]; norm_num, by rw [h4]; norm_num⟩

example (files : Files) (raw : List XR) (h : ∀ n, files n = some raw) (hl : raw.length = 1371 * 5) :
    ∃ a, loadNoInterp files (.fin 32.5) (.fin 0) 1 = .ok a ∧ IsRecord raw a := by
  obtain ⟨r, hr⟩ := row_example
  exact C03_lookup hr (h _) hl

theorem no_row_3255 (r : DecRow) (g : ℝ) (h : ℤ) : ¬ IsRow r 32.55 g h := by
  rintro ⟨-, -, h3, -⟩
  have : ((2 * r.altDm : ℕ) : ℝ) = ((651 : ℕ) : ℝ) := by push_cast; linarith
  have : 2 * r.altDm = 651 := by exact_mod_cast this
  omega

/-! ## C04 -/

/-- **C04.** Whatever is requested and whatever the files contain: a successful load returns 1371
rows whose first column is the wavelength grid, second the raw transmission, and the others the raw
radiances times 1e10, all read from the file of the requested row. -/
theorem C04_layout {files : Files} {alt rng : XR} {haze : ℤ} {a : Atm}
    (h : loadNoInterp files alt rng haze = .ok a) :
    ∃ r raw alt' rng', alt = .fin alt' ∧ rng = .fin rng' ∧ IsRow r alt' rng' haze
      ∧ files r.idx = some raw ∧ raw.length = 1371 * 5 ∧ IsRecord raw a := by
  obtain ⟨r, raw, a', g', h1, h2, h3, h4, h5, h6⟩ := load_ok_inv h
  exact ⟨r, raw, a', g', h1, h2, h3, h4, h5, h6 ▸ decodeRaw_isRecord raw⟩

/-- **C04** (the specification determines the array). -/
theorem C04_layout_determined {raw : List XR} {a b : Atm} (ha : IsRecord raw a)
    (hb : IsRecord raw b) : a = b := isRecord_unique ha hb

/-- **C04** (size check). A file of the wrong size is rejected with `ValueError`. -/
theorem C04_wrong_size {files : Files} {r : DecRow} {alt rng : ℝ} {haze : ℤ} {raw : List XR}
    (hr : IsRow r alt rng haze) (hf : files r.idx = some raw) (hl : raw.length ≠ 1371 * 5) :
    loadNoInterp files (.fin alt) (.fin rng) haze = .error .valueError := by
  rw [load_of_row hr]
  simp only [hf]
  rw [if_pos hl]

example (files : Files) (h : ∀ n, files n = some []) :
    loadNoInterp files (.fin 32.5) (.fin 0) 1 = .error .valueError := by
  obtain ⟨r, hr⟩ := row_example
  exact C04_wrong_size hr (h _) (by simp)

/-! ## C05 -/

theorem lastLe_nonfin {xs : List ℝ} : lastLe xs .nan = .error .indexError := by
  have : xs.filter (fun x => decide (XR.le (.fin x) .nan)) = [] := by
    rw [List.filter_eq_nil_iff]
    intro x _ h
    have h' := decide_eq_true_eq.mp h
    exact h'
  simp only [lastLe, this, List.getLast?_nil]

/-- **C05** (outside). A request whose altitude is not a number in [2, 20000] or whose ground range
is not a number in [0, 300000] raises `IndexError`. -/
theorem C05_outside (files : Files) (alt rng : XR) (haze : ℤ)
    (h : ¬ ∃ a g : ℝ, alt = .fin a ∧ rng = .fin g ∧ 2 ≤ a ∧ a ≤ 20000 ∧ 0 ≤ g ∧ g ≤ 300000) :
    loadInterp files alt rng haze = .error .indexError := by
  unfold loadInterp
  rw [groundRangeArray_eq, alt_min, alt_max]
  simp only [rng_min, rng_max]
  split_ifs with h1 h2
  · rfl
  · rfl
  · cases alt with
    | pinf => exact absurd (Or.inr trivial) h1
    | ninf => exact absurd (Or.inl trivial) h1
    | nan => rw [lastLe_nonfin]; rfl
    | fin a =>
      simp only [XR.fin_lt, not_or, not_lt] at h1
      obtain ⟨lo, hi, e1, e2, -, -⟩ := bracket_spec gridAltitudes_sorted
        (x0 := 2) (x1 := 20000) (by simp [gridAltitudes]) (by simp [gridAltitudes]) h1.1 h1.2
      simp only [altitudeArray_eq, e1, e2, bind, Except.bind]
      cases rng with
      | pinf => exact absurd (Or.inr trivial) h2
      | ninf => exact absurd (Or.inl trivial) h2
      | nan => rw [lastLe_nonfin]
      | fin g =>
        simp only [XR.fin_lt, not_or, not_lt] at h2
        exact absurd ⟨a, g, rfl, rfl, h1.1, h1.2, h2.1, h2.2⟩ h

example (files : Files) : loadInterp files (.fin 20001) (.fin 0) 1 = .error .indexError := by
  apply C05_outside
  rintro ⟨a, g, ha, -, -, h, -⟩
  rw [XR.fin_inj] at ha
  subst ha; norm_num at h

/-- **C05** (inside). For a request inside the grid there are adjacent grid altitudes and ranges
around it (a single one exactly when the request is on the grid) such that the load succeeds iff the
four corner records can be loaded, and otherwise fails with the error of one of them. -/
theorem C05_inside (files : Files) {alt rng : ℝ} (haze : ℤ) (ha1 : 2 ≤ alt) (ha2 : alt ≤ 20000)
    (hr1 : 0 ≤ rng) (hr2 : rng ≤ 300000) :
    ∃ aLo aHi gLo gHi, Brackets gridAltitudes alt aLo aHi ∧ (aLo = aHi ↔ alt ∈ gridAltitudes)
      ∧ Brackets gridRanges rng gLo gHi ∧ (gLo = gHi ↔ rng ∈ gridRanges)
      ∧ ((∃ E, loadInterp files (.fin alt) (.fin rng) haze = .ok E) ↔
          ∀ a ∈ [aLo, aHi], ∀ g ∈ [gLo, gHi],
            ∃ A, loadNoInterp files (.fin a) (.fin g) haze = .ok A)
      ∧ ∀ e, loadInterp files (.fin alt) (.fin rng) haze = .error e →
          ∃ a ∈ [aLo, aHi], ∃ g ∈ [gLo, gHi],
            loadNoInterp files (.fin a) (.fin g) haze = .error e := by
  obtain ⟨aLo, aHi, gLo, gHi, b1, c1, b2, c2, e⟩ :=
    loadInterp_inside files haze ha1 ha2 hr1 hr2
  refine ⟨aLo, aHi, gLo, gHi, b1, c1, b2, c2, ?_, ?_⟩
  · rw [e]
    constructor
    · rintro ⟨E, hE⟩
      cases h1 : altAtmInterp files aLo aHi (.fin alt) gLo haze with
      | error x => simp [h1, bind, Except.bind] at hE
      | ok A =>
        obtain ⟨p, q⟩ := altAtmInterp_ok h1
        have key : (∃ A, loadNoInterp files (.fin aLo) (.fin gHi) haze = .ok A)
            ∧ (∃ A, loadNoInterp files (.fin aHi) (.fin gHi) haze = .ok A) := by
          by_cases hg : gLo = gHi
          · exact hg ▸ ⟨p, q⟩
          · cases h2 : altAtmInterp files aLo aHi (.fin alt) gHi haze with
            | error x => simp [h1, h2, bind, Except.bind, hg] at hE
            | ok B => exact altAtmInterp_ok h2
        intro a ha g hg
        simp only [List.mem_cons, List.not_mem_nil, or_false] at ha hg
        rcases ha with rfl | rfl <;> rcases hg with rfl | rfl
        · exact p
        · exact key.1
        · exact q
        · exact key.2
    · intro hall
      obtain ⟨A, hA⟩ := hall aLo (by simp) gLo (by simp)
      obtain ⟨B, hB⟩ := hall aHi (by simp) gLo (by simp)
      obtain ⟨C, hC⟩ := hall aLo (by simp) gHi (by simp)
      obtain ⟨D, hD⟩ := hall aHi (by simp) gHi (by simp)
      obtain ⟨E0, hE0⟩ := altAtmInterp_ok_of (.fin alt) hA hB
      obtain ⟨E1, hE1⟩ := altAtmInterp_ok_of (.fin alt) hC hD
      by_cases hg : gLo = gHi
      · subst hg; exact ⟨E0, by simp [hE0, bind, Except.bind]⟩
      · refine ⟨atmBlend (1 - (XR.fin rng - XR.fin gLo) / (XR.fin gHi - XR.fin gLo))
          ((XR.fin rng - XR.fin gLo) / (XR.fin gHi - XR.fin gLo)) E0 E1, ?_⟩
        simp only [hE0, hE1, bind, Except.bind, ne_eq, hg, not_false_eq_true, if_true]
  · intro x hx
    rw [e] at hx
    cases h1 : altAtmInterp files aLo aHi (.fin alt) gLo haze with
    | error y =>
      simp only [h1, bind, Except.bind] at hx
      have : y = x := Except.error.inj hx
      subst this
      rcases altAtmInterp_error h1 with h | h
      · exact ⟨aLo, by simp, gLo, by simp, h⟩
      · exact ⟨aHi, by simp, gLo, by simp, h⟩
    | ok A =>
      by_cases hg : gLo = gHi
      · subst hg; simp [h1, bind, Except.bind] at hx
      · cases h2 : altAtmInterp files aLo aHi (.fin alt) gHi haze with
        | ok B => simp [h1, h2, bind, Except.bind, hg] at hx
        | error y =>
          simp only [h1, h2, bind, Except.bind, ne_eq, hg, not_false_eq_true, if_true] at hx
          have : y = x := Except.error.inj hx
          subst this
          rcases altAtmInterp_error h2 with h | h
          · exact ⟨aLo, by simp, gHi, by simp, h⟩
          · exact ⟨aHi, by simp, gHi, by simp, h⟩

/-! ## C06 -/

/-- **C06.** On the grid, interpolation changes nothing: same record, same exception. -/
theorem C06_exact_on_grid (files : Files) {alt rng : ℝ} (haze : ℤ) (ha : alt ∈ gridAltitudes)
    (hg : rng ∈ gridRanges) :
    loadInterp files (.fin alt) (.fin rng) haze = loadNoInterp files (.fin alt) (.fin rng) haze := by
  obtain ⟨aLo, aHi, gLo, gHi, b1, c1, b2, c2, e⟩ := loadInterp_inside files haze
    (gridAltitudes_bounds ha).1 (gridAltitudes_bounds ha).2 (gridRanges_bounds hg).1
    (gridRanges_bounds hg).2
  have e1 := c1.mpr ha
  have e2 := c2.mpr hg
  subst e1 e2
  have e3 : aLo = alt := le_antisymm b1.lo_le b1.le_hi
  have e4 : gLo = rng := le_antisymm b2.lo_le b2.le_hi
  subst e3 e4
  rw [e]
  cases h : loadNoInterp files (.fin aLo) (.fin gLo) haze <;>
    simp [altAtmInterp, h, bind, Except.bind]

example (files : Files) :
    loadInterp files (.fin 1000) (.fin 22000) 2 = loadNoInterp files (.fin 1000) (.fin 22000) 2 :=
  C06_exact_on_grid files 2 (by simp [gridAltitudes])
    (mem_gridRanges.mpr ⟨22000, by decide +kernel, by norm_num⟩)

/-! ## C07 -/

/-- **C07.** In every cell of the grid whose four corner records can be loaded, the interpolated
atmosphere is the bilinear blend of those records, column by column. -/
theorem C07_bilinear {files : Files} (hf : FiniteFiles files) {alt rng aLo aHi gLo gHi : ℝ} {haze : ℤ}
    (ba : Brackets gridAltitudes alt aLo aHi) (bg : Brackets gridRanges rng gLo gHi)
    {A00 A10 A01 A11 : Atm}
    (h00 : loadNoInterp files (.fin aLo) (.fin gLo) haze = .ok A00)
    (h10 : loadNoInterp files (.fin aHi) (.fin gLo) haze = .ok A10)
    (h01 : loadNoInterp files (.fin aLo) (.fin gHi) haze = .ok A01)
    (h11 : loadNoInterp files (.fin aHi) (.fin gHi) haze = .ok A11) :
    ∃ E, loadInterp files (.fin alt) (.fin rng) haze = .ok E ∧ E.length = 1371 ∧
      ∀ i < 1371, ∀ j, ∃ x00 x10 x01 x11 : ℝ,
        atmAt A00 i j = .fin x00 ∧ atmAt A10 i j = .fin x10 ∧ atmAt A01 i j = .fin x01
        ∧ atmAt A11 i j = .fin x11
        ∧ atmAt E i j = .fin (lerp gLo gHi (lerp aLo aHi x00 x10 alt) (lerp aLo aHi x01 x11 alt) rng) := by
  obtain ⟨v00, f00⟩ := load_finAtm hf h00
  obtain ⟨v10, f10⟩ := load_finAtm hf h10
  obtain ⟨v01, f01⟩ := load_finAtm hf h01
  obtain ⟨v11, f11⟩ := load_finAtm hf h11
  obtain ⟨E, hE, fE⟩ := loadInterp_cell ba bg h00 f00 h10 f10 h01 f01 h11 f11
  exact ⟨E, hE, fE.1, fun i hi j => ⟨_, _, _, _, f00.2 i hi j, f10.2 i hi j, f01.2 i hi j,
    f11.2 i hi j, fE.2 i hi j⟩⟩

theorem lerp_bounds {lo hi x y q m M : ℝ} (h1 : lo ≤ q) (h2 : q ≤ hi) (hx : m ≤ x ∧ x ≤ M)
    (hy : m ≤ y ∧ y ≤ M) : m ≤ lerp lo hi x y q ∧ lerp lo hi x y q ≤ M := by
  unfold lerp
  split_ifs with h
  · exact hx
  · have hd : 0 < hi - lo := sub_pos.mpr (lt_of_le_of_ne (h1.trans h2) h)
    set t := (q - lo) / (hi - lo)
    have t0 : 0 ≤ t := div_nonneg (by linarith) hd.le
    have t1 : t ≤ 1 := (div_le_one hd).mpr (by linarith)
    constructor <;> nlinarith

/-- **C07** (consequence). Every entry of an interpolated atmosphere lies between bounds that hold
for the four corner records around the request: transmissions stay in [0, 1], radiances stay
non-negative. -/
theorem C07_between {files : Files} (hf : FiniteFiles files) {alt rng : ℝ} {haze : ℤ} {E : Atm}
    (hE : loadInterp files (.fin alt) (.fin rng) haze = .ok E) {i : ℕ} (hi : i < 1371) (j : Fin 6)
    (m M : ℝ)
    (hb : ∀ aLo aHi gLo gHi, Brackets gridAltitudes alt aLo aHi → Brackets gridRanges rng gLo gHi →
      ∀ a ∈ [aLo, aHi], ∀ g ∈ [gLo, gHi], ∀ A, loadNoInterp files (.fin a) (.fin g) haze = .ok A →
      ∀ x, atmAt A i j = .fin x → m ≤ x ∧ x ≤ M) :
    ∃ x, atmAt E i j = .fin x ∧ m ≤ x ∧ x ≤ M := by
  have hin : ∃ a g : ℝ, XR.fin alt = .fin a ∧ XR.fin rng = .fin g ∧ 2 ≤ a ∧ a ≤ 20000 ∧ 0 ≤ g
      ∧ g ≤ 300000 := by
    by_contra h
    rw [C05_outside files _ _ haze h] at hE
    simp at hE
  obtain ⟨a, g, ha, hg, h1, h2, h3, h4⟩ := hin
  rw [XR.fin_inj] at ha hg
  subst ha hg
  obtain ⟨aLo, aHi, gLo, gHi, b1, -, b2, -, hc, -⟩ := C05_inside files haze h1 h2 h3 h4
  have hall := hc.mp ⟨E, hE⟩
  obtain ⟨A, hA⟩ := hall aLo (by simp) gLo (by simp)
  obtain ⟨B, hB⟩ := hall aHi (by simp) gLo (by simp)
  obtain ⟨C, hC⟩ := hall aLo (by simp) gHi (by simp)
  obtain ⟨D, hD⟩ := hall aHi (by simp) gHi (by simp)
  obtain ⟨E', hE', -, hv⟩ := C07_bilinear hf b1 b2 hA hB hC hD
  rw [hE] at hE'
  have : E = E' := Except.ok.inj hE'
  subst this
  obtain ⟨x00, x10, x01, x11, k1, k2, k3, k4, k5⟩ := hv i hi j
  refine ⟨_, k5, ?_⟩
  have hb := hb aLo aHi gLo gHi b1 b2
  have B00 := hb aLo (by simp) gLo (by simp) A hA x00 k1
  have B10 := hb aHi (by simp) gLo (by simp) B hB x10 k2
  have B01 := hb aLo (by simp) gHi (by simp) C hC x01 k3
  have B11 := hb aHi (by simp) gHi (by simp) D hD x11 k4
  exact lerp_bounds b2.lo_le b2.le_hi (lerp_bounds b1.lo_le b1.le_hi B00 B10)
    (lerp_bounds b1.lo_le b1.le_hi B01 B11)

/-- **C07** (physical ranges). If the database's transmissions are in [0, 1] and its radiances are
nonnegative, so are those of every interpolated atmosphere. -/
theorem C07_physical {files : Files} (hf : FiniteFiles files) {haze : ℤ}
    (ht : ∀ a g A, loadNoInterp files (.fin a) (.fin g) haze = .ok A →
      ∀ i < 1371, ∀ x, atmAt A i 1 = .fin x → 0 ≤ x ∧ x ≤ 1)
    (hr : ∀ a g A, loadNoInterp files (.fin a) (.fin g) haze = .ok A →
      ∀ i < 1371, ∀ j : Fin 6, 2 ≤ j → ∀ x, atmAt A i j = .fin x → 0 ≤ x)
    {alt rng : ℝ} {E : Atm} (hE : loadInterp files (.fin alt) (.fin rng) haze = .ok E) {i : ℕ}
    (hi : i < 1371) :
    (∃ t, atmAt E i 1 = .fin t ∧ 0 ≤ t ∧ t ≤ 1) ∧
      ∀ j : Fin 6, 2 ≤ j → ∃ l, atmAt E i j = .fin l ∧ 0 ≤ l := by
  refine ⟨C07_between hf hE hi 1 0 1 fun _ _ _ _ _ _ a _ g _ A hA x hx => ht a g A hA i hi x hx, ?_⟩
  intro j hj
  -- an upper bound for the entries of all grid records at `(i, j)`
  have hfin : {p : ℝ × ℝ | p.1 ∈ gridAltitudes ∧ p.2 ∈ gridRanges}.Finite :=
    ((List.finite_toSet gridAltitudes).prod (List.finite_toSet gridRanges)).subset
      (fun p hp => ⟨hp.1, hp.2⟩)
  let v : ℝ × ℝ → ℝ := fun p =>
    match loadNoInterp files (.fin p.1) (.fin p.2) haze with
    | .ok A => (atmAt A i j).toReal
    | .error _ => 0
  obtain ⟨M, hM⟩ := (hfin.image v).bddAbove
  obtain ⟨x, h1, h2, -⟩ := C07_between hf hE hi j 0 M (by
    intro aLo aHi gLo gHi b1 b2 a ha g hg A hA x hx
    refine ⟨hr a g A hA i hi j hj x hx, ?_⟩
    apply hM
    refine ⟨(a, g), ⟨?_, ?_⟩, ?_⟩
    · simp only [List.mem_cons, List.not_mem_nil, or_false] at ha
      rcases ha with rfl | rfl
      · exact b1.lo_mem
      · exact b1.hi_mem
    · simp only [List.mem_cons, List.not_mem_nil, or_false] at hg
      rcases hg with rfl | rfl
      · exact b2.lo_mem
      · exact b2.hi_mem
    · simp only [v, hA, hx, XR.toReal])
  exact ⟨x, h1, h2⟩

/-- **C07** (wavelengths). Interpolation leaves the wavelength column unchanged. -/
theorem C07_wavelengths {files : Files} (hf : FiniteFiles files) {alt rng : ℝ} {haze : ℤ} {E : Atm}
    (hE : loadInterp files (.fin alt) (.fin rng) haze = .ok E) {i : ℕ} (hi : i < 1371) :
    atmAt E i 0 = .fin ((0.30 + 0.01 * i) * 1e-6) := by
  obtain ⟨x, hx, h1, h2⟩ := C07_between hf hE hi 0 ((0.30 + 0.01 * i) * 1e-6)
    ((0.30 + 0.01 * i) * 1e-6) (by
      intro _ _ _ _ _ _ a _ g _ A hA x hx
      obtain ⟨r, raw, -, -, -, -, -, -, -, hrec⟩ := C04_layout hA
      rw [hrec.wavelength i hi, XR.fin_inj] at hx
      exact ⟨hx.le, hx.ge⟩)
  rw [hx, le_antisymm h2 h1]

/-! ## C08 -/

theorem row_iff_le {p : ℕ × ℕ} (hp : p ∈ maxRangeAt) {haze : ℤ} (hh : haze = 1 ∨ haze = 2) {g : ℝ}
    (hg : g ∈ gridRanges) : (∃ r, IsRow r ((p.1 : ℝ) / 10) g haze) ↔ g ≤ p.2 := by
  obtain ⟨n, hn, rfl⟩ := mem_gridRanges.mp hg
  obtain ⟨h, hh1, rfl⟩ : ∃ h ∈ [1, 2], haze = ((h : ℕ) : ℤ) := by
    rcases hh with rfl | rfl
    · exact ⟨1, by simp, by simp⟩
    · exact ⟨2, by simp, by simp⟩
  have key : (∃ r, IsRow r ((p.1 : ℝ) / 10) n h)
      ↔ ∃ r ∈ decoderTable, r.haze = h ∧ r.altDm = p.1 ∧ r.rangeM = n := by
    constructor
    · rintro ⟨r, h1, h2, h3, h4⟩
      refine ⟨r, h1, by exact_mod_cast h2, ?_, by exact_mod_cast h4⟩
      have : (r.altDm : ℝ) = p.1 := by linarith
      exact_mod_cast this
    · rintro ⟨r, h1, h2, h3, h4⟩
      exact ⟨r, h1, by rw [h2], by rw [h3], by rw [h4]⟩
  rw [key, row_iff_range, rangesOf_grid h hh1 p hp, List.mem_filter, Nat.ble_eq]
  constructor
  · rintro ⟨-, h⟩; exact_mod_cast h
  · intro h; exact ⟨hn, by exact_mod_cast h⟩

theorem load_complete_iff {files : Files} (hc : Complete files) {a g : ℝ} {haze : ℤ} :
    (∃ A, loadNoInterp files (.fin a) (.fin g) haze = .ok A) ↔ ∃ r, IsRow r a g haze := by
  constructor
  · rintro ⟨A, hA⟩
    obtain ⟨r, raw, a', g', h1, h2, h3, -⟩ := C04_layout hA
    rw [XR.fin_inj] at h1 h2
    subst h1 h2
    exact ⟨r, h3⟩
  · rintro ⟨r, hr⟩
    obtain ⟨raw, h1, h2⟩ := hc r hr.1
    obtain ⟨A, hA, -⟩ := C03_lookup hr h1 (by rw [List.length_map]; exact h2)
    exact ⟨A, hA⟩

theorem load_complete_error {files : Files} (hc : Complete files) {a g : ℝ} {haze : ℤ} {e : PyErr}
    (he : loadNoInterp files (.fin a) (.fin g) haze = .error e) : e = .indexError := by
  rcases C03_errors he with h | ⟨-, a', g', r, raw, h1, h2, h3, h4, h5⟩
  · exact h.1
  · obtain ⟨raw', h6, h7⟩ := hc r h3.1
    rw [h4] at h6
    have := Option.some.inj h6
    rw [this, List.length_map] at h5
    exact absurd h7 h5

theorem gridAltitude_cases {a : ℝ} (h : a ∈ gridAltitudes) :
    a = 32.55 ∨ ∃ p ∈ maxRangeAt, a = (p.1 : ℝ) / 10 := by
  have key : ∀ p ∈ maxRangeAt, a = (p.1 : ℝ) / 10 → a = 32.55 ∨ ∃ p ∈ maxRangeAt, a = (p.1 : ℝ) / 10 :=
    fun p hp e => Or.inr ⟨p, hp, e⟩
  simp only [gridAltitudes, List.mem_cons, List.not_mem_nil, or_false] at h
  rcases h with h | h | h | h | h | h | h | h | h | h | h | h | h | h
    | h | h | h | h | h | h | h | h
  · exact key (20, 5000) (by decide) (by rw [h]; norm_num)
  · exact Or.inl h
  · exact key (750, 30000) (by decide) (by rw [h]; norm_num)
  · exact key (1500, 42000) (by decide) (by rw [h]; norm_num)
  · exact key (2250, 52000) (by decide) (by rw [h]; norm_num)
  · exact key (5000, 78000) (by decide) (by rw [h]; norm_num)
  · exact key (10000, 110000) (by decide) (by rw [h]; norm_num)
  · exact key (20000, 155000) (by decide) (by rw [h]; norm_num)
  · exact key (30000, 195000) (by decide) (by rw [h]; norm_num)
  · exact key (40000, 225000) (by decide) (by rw [h]; norm_num)
  · exact key (50000, 250000) (by decide) (by rw [h]; norm_num)
  · exact key (60000, 275000) (by decide) (by rw [h]; norm_num)
  · exact key (70000, 295000) (by decide) (by rw [h]; norm_num)
  · exact key (80000, 300000) (by decide) (by rw [h]; norm_num)
  · exact key (90000, 300000) (by decide) (by rw [h]; norm_num)
  · exact key (100000, 300000) (by decide) (by rw [h]; norm_num)
  · exact key (110000, 300000) (by decide) (by rw [h]; norm_num)
  · exact key (120000, 300000) (by decide) (by rw [h]; norm_num)
  · exact key (140000, 300000) (by decide) (by rw [h]; norm_num)
  · exact key (160000, 300000) (by decide) (by rw [h]; norm_num)
  · exact key (180000, 300000) (by decide) (by rw [h]; norm_num)
  · exact key (200000, 300000) (by decide) (by rw [h]; norm_num)

theorem maxRange_mono : ∀ p ∈ maxRangeAt, ∀ q ∈ maxRangeAt, p.1 ≤ q.1 → p.2 ≤ q.2 := by
  decide +kernel

theorem maxRange_grid : ∀ p ∈ maxRangeAt, p.2 ∈ gridRangesNat := by decide +kernel

/-- **C08** (which requests succeed). With a complete database, haze code 1 or 2 and an altitude that
is 2 m or at least 75 m, the interpolating load succeeds exactly up to the largest ground range the
database has at the next lower grid altitude. -/
theorem C08_success_iff {files : Files} (hc : Complete files) {alt rng : ℝ} {haze : ℤ}
    (hh : haze = 1 ∨ haze = 2) (ha : alt = 2 ∨ 75 ≤ alt) (ha2 : alt ≤ 20000) (hr1 : 0 ≤ rng)
    {p : ℕ × ℕ} (hp : p ∈ maxRangeAt) (hp1 : (p.1 : ℝ) / 10 ≤ alt)
    (hp2 : ∀ a ∈ gridAltitudes, a ≤ alt → a ≤ (p.1 : ℝ) / 10)  :
    (∃ E, loadInterp files (.fin alt) (.fin rng) haze = .ok E) ↔ rng ≤ p.2 := by
  have hpg : (p.2 : ℝ) ∈ gridRanges := mem_gridRanges.mpr ⟨p.2, maxRange_grid p hp, rfl⟩
  have hp3 : (p.2 : ℝ) ≤ 300000 := (gridRanges_bounds hpg).2
  by_cases hr2 : rng ≤ 300000
  swap
  · constructor
    · rintro ⟨E, hE⟩
      rw [C05_outside] at hE
      · simp at hE
      · rintro ⟨a, g, -, hg, -, -, -, h⟩
        rw [XR.fin_inj] at hg; subst hg; exact hr2 h
    · intro h; exact absurd (h.trans hp3) hr2
  have ha1 : 2 ≤ alt := by rcases ha with h | h <;> linarith
  obtain ⟨aLo, aHi, gLo, gHi, b1, c1, b2, c2, hs, -⟩ := C05_inside files haze ha1 ha2 hr1 hr2
  rw [hs]
  have hgrid : (p.1 : ℝ) / 10 ∈ gridAltitudes ∨ True := Or.inr trivial
  have eLo : aLo = (p.1 : ℝ) / 10 := by
    apply le_antisymm (hp2 aLo b1.lo_mem b1.lo_le)
    have hm : (p.1 : ℝ) / 10 ∈ gridAltitudes := by
      have : ∀ p ∈ maxRangeAt, p.1 = 20 ∨ p.1 = 750 ∨ p.1 = 1500 ∨ p.1 = 2250 ∨ p.1 = 5000 ∨ p.1 = 10000
        ∨ p.1 = 20000 ∨ p.1 = 30000 ∨ p.1 = 40000 ∨ p.1 = 50000 ∨ p.1 = 60000 ∨ p.1 = 70000
        ∨ p.1 = 80000 ∨ p.1 = 90000 ∨ p.1 = 100000 ∨ p.1 = 110000 ∨ p.1 = 120000 ∨ p.1 = 140000
        ∨ p.1 = 160000 ∨ p.1 = 180000 ∨ p.1 = 200000 := by decide +kernel
      rcases this p hp with h | h | h | h | h | h | h | h | h | h | h | h | h | h | h | h | h | h | h | h | h <;>
        (rw [h]; norm_num [gridAltitudes])
    rcases b1.adjacent _ hm with h | h
    · exact h
    · have : alt = (p.1 : ℝ) / 10 := le_antisymm (b1.le_hi.trans h) hp1
      have : aLo = aHi := c1.mpr (this ▸ hm)
      linarith [b1.lo_le, b1.le_hi]
  have hHi : ∃ q ∈ maxRangeAt, aHi = (q.1 : ℝ) / 10 := by
    rcases gridAltitude_cases b1.hi_mem with h | h
    · exfalso
      rcases ha with h2 | h2
      · have : aLo = aHi := c1.mpr (by rw [h2]; simp [gridAltitudes])
        have h3 := b1.lo_le
        rw [h2, this, h] at h3
        norm_num at h3
      · have := b1.le_hi
        rw [h] at this
        norm_num at this; linarith
    · exact h
  obtain ⟨q, hq, eHi⟩ := hHi
  have hpq : p.2 ≤ q.2 := by
    apply maxRange_mono p hp q hq
    have : (p.1 : ℝ) ≤ q.1 := by
      have := b1.lo_le.trans b1.le_hi
      rw [eLo, eHi] at this
      linarith
    exact_mod_cast this
  constructor
  · intro hall
    have := (load_complete_iff hc).mp (hall aLo (by simp) gHi (by simp))
    rw [eLo, row_iff_le hp hh b2.hi_mem] at this
    exact b2.le_hi.trans this
  · intro hle a ham g hgm
    rw [load_complete_iff hc]
    have hgHi : gHi ≤ p.2 := by
      rcases b2.adjacent _ hpg with h | h
      · have e : (p.2 : ℝ) = rng := le_antisymm (h.trans b2.lo_le) hle
        have : gLo = gHi := c2.mpr (e ▸ hpg)
        linarith [b2.lo_le, b2.le_hi]
      · exact h
    have hgLo : gLo ≤ p.2 := (b2.lo_le.trans b2.le_hi).trans hgHi
    have hpq' : (p.2 : ℝ) ≤ q.2 := by exact_mod_cast hpq
    simp only [List.mem_cons, List.not_mem_nil, or_false] at ham hgm
    rcases ham with rfl | rfl <;> rcases hgm with rfl | rfl
    · rw [eLo, row_iff_le hp hh b2.lo_mem]; exact hgLo
    · rw [eLo, row_iff_le hp hh b2.hi_mem]; exact hgHi
    · rw [eHi, row_iff_le hq hh b2.lo_mem]; exact hgLo.trans hpq'
    · rw [eHi, row_iff_le hq hh b2.hi_mem]; exact hgHi.trans hpq'

/-- **C08** (guaranteed region). With a complete database every request with altitude in
[8000, 20000] m and ground range in [0, 300000] m succeeds. -/
theorem C08_guaranteed {files : Files} (hc : Complete files) {alt rng : ℝ} {haze : ℤ}
    (hh : haze = 1 ∨ haze = 2) (ha1 : 8000 ≤ alt) (ha2 : alt ≤ 20000) (hr1 : 0 ≤ rng)
    (hr2 : rng ≤ 300000) : ∃ E, loadInterp files (.fin alt) (.fin rng) haze = .ok E := by
  obtain ⟨lo, hi, -, -, b, -⟩ := bracket_spec gridAltitudes_sorted
    (x0 := 8000) (x1 := 20000) (by simp [gridAltitudes]) (by simp [gridAltitudes]) ha1 ha2
  obtain ⟨lo, e, hm, hle, hmax⟩ := lastLe_spec gridAltitudes_sorted (x0 := 8000)
    (by simp [gridAltitudes]) ha1
  have h8 : 8000 ≤ lo := hmax 8000 (by simp [gridAltitudes]) ha1
  rcases gridAltitude_cases hm with h | ⟨p, hp, h⟩
  · rw [h] at h8; norm_num at h8
  · rw [C08_success_iff hc hh (Or.inr (by linarith)) ha2 hr1 hp (h ▸ hle)
      (fun a ham hal => h ▸ hmax a ham hal)]
    have h9 : 80000 ≤ p.1 := by
      have : (80000 : ℝ) ≤ p.1 := by rw [h] at h8; linarith
      exact_mod_cast this
    have := maxRange_mono (80000, 300000) (by decide) p hp h9
    have : (300000 : ℝ) ≤ p.2 := by exact_mod_cast this
    linarith

/-- A complete database exists (so the hypotheses of C08 can be met). -/
example : ∃ files : Files, Complete files ∧ FiniteFiles files :=
  ⟨fun _ => some ((List.replicate (1371 * 5) 0).map .fin),
   fun _ _ => ⟨List.replicate (1371 * 5) 0, rfl, List.length_replicate⟩,
   fun _ _ h => ⟨List.replicate (1371 * 5) 0, (Option.some.inj h).symm⟩⟩

/-- **C08** (the gap). No interpolated request with an altitude strictly between 2 m and 75 m ever
succeeds, whatever the database contains; with a complete database it raises `IndexError`. -/
theorem C08_low_altitude_gap (files : Files) {alt : ℝ} (rng : XR) (haze : ℤ) (h1 : 2 < alt)
    (h2 : alt < 75) :
    (∀ E, loadInterp files (.fin alt) rng haze ≠ .ok E)
    ∧ (Complete files → loadInterp files (.fin alt) rng haze = .error .indexError) := by
  by_cases hr : ∃ g, rng = .fin g ∧ 0 ≤ g ∧ g ≤ 300000
  · obtain ⟨g, rfl, hg1, hg2⟩ := hr
    obtain ⟨aLo, aHi, gLo, gHi, b1, c1, b2, c2, hs, herr⟩ :=
      C05_inside files (alt := alt) (rng := g) haze h1.le (by linarith) hg1 hg2
    have hbad : aLo = 32.55 ∨ aHi = 32.55 := by
      rcases b1.adjacent 32.55 (by simp [gridAltitudes]) with h | h
      · left
        rcases b1.adjacent 75 (by simp [gridAltitudes]) with h' | h'
        · linarith [b1.lo_le]
        · have hlt : aLo < 75 := lt_of_le_of_lt b1.lo_le h2
          have hm := b1.lo_mem
          simp only [gridAltitudes, List.mem_cons, List.not_mem_nil, or_false] at hm
          rcases hm with e | e | e | e | e | e | e | e | e | e | e | e | e | e
            | e | e | e | e | e | e | e | e <;>
            first | exact e | (exfalso; rw [e] at hlt h; first | (norm_num at hlt; done) | (norm_num at h; done))
      · right
        have hlt : 2 < aHi := lt_of_lt_of_le h1 b1.le_hi
        have hm := b1.hi_mem
        simp only [gridAltitudes, List.mem_cons, List.not_mem_nil, or_false] at hm
        rcases hm with e | e | e | e | e | e | e | e | e | e | e | e | e | e
            | e | e | e | e | e | e | e | e <;>
            first | exact e | (exfalso; rw [e] at hlt h; first | (norm_num at hlt; done) | (norm_num at h; done))
    have hfail : ∀ E, loadInterp files (.fin alt) (.fin g) haze ≠ .ok E := by
      intro E hE
      have hall := hs.mp ⟨E, hE⟩
      rcases hbad with h | h
      · obtain ⟨A, hA⟩ := hall aLo (by simp) gLo (by simp)
        obtain ⟨r, raw, a', g', e1, -, e3, -⟩ := C04_layout hA
        rw [XR.fin_inj] at e1
        exact no_row_3255 r g' haze (by rw [← h, e1]; exact e3)
      · obtain ⟨A, hA⟩ := hall aHi (by simp) gLo (by simp)
        obtain ⟨r, raw, a', g', e1, -, e3, -⟩ := C04_layout hA
        rw [XR.fin_inj] at e1
        exact no_row_3255 r g' haze (by rw [← h, e1]; exact e3)
    refine ⟨hfail, fun hc => ?_⟩
    cases hl : loadInterp files (.fin alt) (.fin g) haze with
    | ok E => exact absurd hl (hfail E)
    | error e =>
      obtain ⟨a, -, g', -, hae⟩ := herr e hl
      rw [load_complete_error hc hae]
  · have : loadInterp files (.fin alt) rng haze = .error .indexError := by
      apply C05_outside
      rintro ⟨a, g, -, hg, -, -, h3, h4⟩
      exact hr ⟨g, hg, h3, h4⟩
    rw [this]
    exact ⟨fun E h => by simp at h, fun _ => rfl⟩

example (files : Files) (E : Atm) : loadInterp files (.fin 50) (.fin 0) 1 ≠ .ok E :=
  (C08_low_altitude_gap files _ 1 (by norm_num) (by norm_num)).1 E

/-- The documented grid altitude 32.55 m itself cannot be loaded, even without interpolation. -/
theorem C08_documented_altitude_missing (files : Files) (rng : XR) (haze : ℤ) :
    loadNoInterp files (.fin 32.55) rng haze = .error .indexError := by
  apply C03_not_found
  intro a g r ha hg hr
  rw [XR.fin_inj] at ha
  exact absurd (ha ▸ hr) (no_row_3255 r g haze)

/-! ## C09 -/

/-- Entry `(i, j)` of the interpolated atmosphere as a function of altitude and ground range (zero
where the load fails). -/
def interpEntry (files : Files) (haze : ℤ) (i : ℕ) (j : Fin 6) (p : ℝ × ℝ) : ℝ :=
  match loadInterp files (.fin p.1) (.fin p.2) haze with
  | .ok E => (atmAt E i j).toReal
  | .error _ => 0

theorem continuous_lerp {α : Type*} [TopologicalSpace α] (lo hi : ℝ) {x y q : α → ℝ}
    (hx : Continuous x) (hy : Continuous y) (hq : Continuous q) :
    Continuous fun p => lerp lo hi (x p) (y p) (q p) := by
  unfold lerp
  split_ifs
  · exact hx
  · exact hx.add (((hq.sub continuous_const).div_const _).mul (hy.sub hx))

/-- **C09.** Wherever interpolated loads succeed, every entry of the result is a continuous function
of altitude and ground range: in particular nothing jumps at cell borders. -/
theorem C09_continuous {files : Files} (hf : FiniteFiles files) (haze : ℤ) {i : ℕ} (hi : i < 1371)
    (j : Fin 6) :
    ContinuousOn (interpEntry files haze i j)
      {p | ∃ E, loadInterp files (.fin p.1) (.fin p.2) haze = .ok E} := by
  -- the cells (degenerate ones included) with loadable corners
  let good : Set ((ℝ × ℝ) × (ℝ × ℝ)) := {c |
    c.1.1 ∈ gridAltitudes ∧ c.1.2 ∈ gridAltitudes ∧ c.2.1 ∈ gridRanges ∧ c.2.2 ∈ gridRanges
    ∧ (∀ x ∈ gridAltitudes, x ≤ c.1.1 ∨ c.1.2 ≤ x) ∧ (∀ x ∈ gridRanges, x ≤ c.2.1 ∨ c.2.2 ≤ x)
    ∧ ∀ a ∈ [c.1.1, c.1.2], ∀ g ∈ [c.2.1, c.2.2],
        ∃ A, loadNoInterp files (.fin a) (.fin g) haze = .ok A}
  have hfin : good.Finite := by
    apply Set.Finite.subset
      (((List.finite_toSet gridAltitudes).prod (List.finite_toSet gridAltitudes)).prod
        ((List.finite_toSet gridRanges).prod (List.finite_toSet gridRanges)))
    rintro ⟨⟨a, b⟩, ⟨c, d⟩⟩ ⟨h1, h2, h3, h4, -⟩
    exact ⟨⟨h1, h2⟩, ⟨h3, h4⟩⟩
  have : Finite good := hfin
  let cell : good → Set (ℝ × ℝ) := fun c => Set.Icc c.1.1.1 c.1.1.2 ×ˢ Set.Icc c.1.2.1 c.1.2.2
  have hcov : {p : ℝ × ℝ | ∃ E, loadInterp files (.fin p.1) (.fin p.2) haze = .ok E}
      ⊆ ⋃ c, cell c := by
    rintro ⟨alt, rng⟩ ⟨E, hE⟩
    have hin : ∃ a g : ℝ, XR.fin alt = .fin a ∧ XR.fin rng = .fin g ∧ 2 ≤ a ∧ a ≤ 20000 ∧ 0 ≤ g
        ∧ g ≤ 300000 := by
      by_contra h
      rw [C05_outside files _ _ haze h] at hE
      simp at hE
    obtain ⟨a, g, ha, hg, h1, h2, h3, h4⟩ := hin
    rw [XR.fin_inj] at ha hg
    subst ha hg
    obtain ⟨aLo, aHi, gLo, gHi, b1, -, b2, -, hc, -⟩ := C05_inside files haze h1 h2 h3 h4
    rw [Set.mem_iUnion]
    exact ⟨⟨((aLo, aHi), (gLo, gHi)), b1.lo_mem, b1.hi_mem, b2.lo_mem, b2.hi_mem, b1.adjacent,
      b2.adjacent, hc.mp ⟨E, hE⟩⟩, ⟨b1.lo_le, b1.le_hi⟩, ⟨b2.lo_le, b2.le_hi⟩⟩
  refine ContinuousOn.mono ?_ hcov
  apply (locallyFinite_of_finite cell).continuousOn_iUnion
  · intro c; exact isClosed_Icc.prod isClosed_Icc
  · rintro ⟨⟨⟨aLo, aHi⟩, ⟨gLo, gHi⟩⟩, m1, m2, m3, m4, ad1, ad2, hall⟩
    obtain ⟨A00, h00⟩ := hall aLo (by simp) gLo (by simp)
    obtain ⟨A10, h10⟩ := hall aHi (by simp) gLo (by simp)
    obtain ⟨A01, h01⟩ := hall aLo (by simp) gHi (by simp)
    obtain ⟨A11, h11⟩ := hall aHi (by simp) gHi (by simp)
    obtain ⟨v00, f00⟩ := load_finAtm hf h00
    obtain ⟨v10, f10⟩ := load_finAtm hf h10
    obtain ⟨v01, f01⟩ := load_finAtm hf h01
    obtain ⟨v11, f11⟩ := load_finAtm hf h11
    have hcont : Continuous fun p : ℝ × ℝ =>
        lerp gLo gHi (lerp aLo aHi (v00 i j) (v10 i j) p.1) (lerp aLo aHi (v01 i j) (v11 i j) p.1)
          p.2 :=
      continuous_lerp gLo gHi
        (continuous_lerp aLo aHi continuous_const continuous_const continuous_fst)
        (continuous_lerp aLo aHi continuous_const continuous_const continuous_fst) continuous_snd
    refine hcont.continuousOn.congr ?_
    rintro ⟨alt, rng⟩ ⟨⟨p1, p2⟩, ⟨p3, p4⟩⟩
    obtain ⟨E, hE, fE⟩ := loadInterp_cell (alt := alt) (rng := rng) ⟨m1, m2, p1, p2, ad1⟩
      ⟨m3, m4, p3, p4, ad2⟩ h00 f00 h10 f10 h01 f01 h11 f11
    simp only [interpEntry, hE, fE.2 i hi j, XR.toReal]

/-- The domain in C09 is large: with a complete database it contains a 12 km by 300 km rectangle. -/
example {files : Files} (hc : Complete files) :
    Set.Icc (8000 : ℝ) 20000 ×ˢ Set.Icc (0 : ℝ) 300000 ⊆
      {p | ∃ E, loadInterp files (.fin p.1) (.fin p.2) 1 = .ok E} :=
  fun _ ⟨⟨h1, h2⟩, ⟨h3, h4⟩⟩ => C08_guaranteed hc (Or.inl rfl) h1 h2 h3 h4

end PyBSM
