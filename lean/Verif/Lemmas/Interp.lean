import Verif.Lemmas.Database

/-!
# The interpolating loader, cell by cell
-/

noncomputable section

open Classical

namespace PyBSM

open Spec

/-- `a` is an array of 1371 rows with the finite entries `v`. -/
def FinAtm (a : Atm) (v : ℕ → Fin 6 → ℝ) : Prop :=
  a.length = 1371 ∧ ∀ i < 1371, ∀ j, atmAt a i j = .fin (v i j)

theorem FinAtm.blend {a b : Atm} {v w : ℕ → Fin 6 → ℝ} (ha : FinAtm a v) (hb : FinAtm b w)
    (s t : ℝ) : FinAtm (atmBlend (.fin s) (.fin t) a b) (fun i j => s * v i j + t * w i j) := by
  have hl : (atmBlend (.fin s) (.fin t) a b).length = 1371 := by
    simp [atmBlend, ha.1, hb.1]
  refine ⟨hl, fun i hi j => ?_⟩
  have h1 := ha.2 i hi j
  have h2 := hb.2 i hi j
  unfold atmAt at *
  rw [List.getD_eq_getElem _ _ (by omega)]
  rw [List.getD_eq_getElem _ _ (by rw [ha.1]; omega)] at h1
  rw [List.getD_eq_getElem _ _ (by rw [hb.1]; omega)] at h2
  have e : (atmBlend (.fin s) (.fin t) a b)[i]'(by omega)
      = fun j => XR.fin s * (a[i]'(by rw [ha.1]; omega)) j + XR.fin t * (b[i]'(by rw [hb.1]; omega)) j :=
    List.getElem_zipWith
  rw [e]
  simp only [h1, h2, XR.fin_mul, XR.fin_add]

/-- With finite files every loaded record is finite. -/
theorem load_finAtm {files : Files} (hf : FiniteFiles files) {a g : XR} {h : ℤ} {atm : Atm}
    (hl : loadNoInterp files a g h = .ok atm) : ∃ v, FinAtm atm v := by
  obtain ⟨r, raw, a', g', _, _, _, hfile, hlen, hatm⟩ := load_ok_inv hl
  rw [hatm]
  obtain ⟨raw', rfl⟩ := hf _ _ hfile
  have hlen' : raw'.length = 1371 * 5 := by rwa [List.length_map] at hlen
  have hrec := decodeRaw_isRecord (raw'.map XR.fin)
  have hget : ∀ n < 1371 * 5, (raw'.map XR.fin).getD n .nan = .fin (raw'.getD n 0) := by
    intro n hn
    rw [List.getD_eq_getElem _ _ (by simpa [hlen'] using hn),
      List.getD_eq_getElem _ _ (by omega), List.getElem_map]
  refine ⟨fun i j => (atmAt (decodeRaw (raw'.map XR.fin)) i j).toReal, hrec.rows, fun i hi j => ?_⟩
  have key : ∃ x, atmAt (decodeRaw (raw'.map XR.fin)) i j = .fin x := by
    fin_cases j
    · exact ⟨_, hrec.wavelength i hi⟩
    · exact ⟨_, (hrec.transmission i hi).trans (hget _ (by omega))⟩
    · exact ⟨_, (hrec.radiance i hi 0).trans (by rw [hget _ (by omega), XR.fin_mul])⟩
    · exact ⟨_, (hrec.radiance i hi 1).trans (by
        rw [hget _ (by show (1 + 1) * 1371 + i < _; omega), XR.fin_mul])⟩
    · exact ⟨_, (hrec.radiance i hi 2).trans (by
        rw [hget _ (by show (2 + 1) * 1371 + i < _; omega), XR.fin_mul])⟩
    · exact ⟨_, (hrec.radiance i hi 3).trans (by
        rw [hget _ (by show (3 + 1) * 1371 + i < _; omega), XR.fin_mul])⟩
  obtain ⟨x, hx⟩ := key
  simp only [hx, XR.toReal]

/-- A bracket is the collapsed or the proper one. -/
theorem bracket_cases {xs : List ℝ} {q lo hi lo' hi' : ℝ} (h : Brackets xs q lo hi)
    (hc : lo = hi ↔ q ∈ xs) (h' : Brackets xs q lo' hi') :
    (lo = q ∧ hi = q ∧ (q = lo' ∨ q = hi')) ∨ (lo = lo' ∧ hi = hi' ∧ lo ≠ hi) := by
  by_cases hq : q ∈ xs
  · left
    have e := hc.mpr hq
    have h1 : lo = q := le_antisymm h.lo_le (e ▸ h.le_hi)
    refine ⟨h1, e ▸ h1, ?_⟩
    rcases h'.adjacent q hq with hh | hh
    · exact Or.inl (le_antisymm hh h'.lo_le)
    · exact Or.inr (le_antisymm h'.le_hi hh)
  · right
    have hne : lo ≠ hi := fun e => hq (hc.mp e)
    have m1 : ∀ {x}, x ∈ xs → x ≠ q := fun hx e => hq (e ▸ hx)
    refine ⟨?_, ?_, hne⟩
    · apply le_antisymm
      · rcases h'.adjacent lo h.lo_mem with hh | hh
        · exact hh
        · exact absurd (le_antisymm (h'.le_hi.trans hh) h.lo_le).symm (m1 h.lo_mem)
      · rcases h.adjacent lo' h'.lo_mem with hh | hh
        · exact hh
        · exact absurd (le_antisymm (h.le_hi.trans hh) h'.lo_le).symm (m1 h'.lo_mem)
    · apply le_antisymm
      · rcases h.adjacent hi' h'.hi_mem with hh | hh
        · exact absurd (le_antisymm (hh.trans h.lo_le) h'.le_hi) (m1 h'.hi_mem)
        · exact hh
      · rcases h'.adjacent hi h.hi_mem with hh | hh
        · exact absurd (le_antisymm (hh.trans h'.lo_le) h.le_hi) (m1 h.hi_mem)
        · exact hh

theorem lerp_lo (lo hi x y : ℝ) : lerp lo hi x y lo = x := by
  unfold lerp; split_ifs <;> simp

theorem lerp_hi {lo hi : ℝ} (x y : ℝ) (h : lo ≠ hi) : lerp lo hi x y hi = y := by
  unfold lerp
  rw [if_neg h, div_self (sub_ne_zero.mpr h.symm)]; ring

/-- The altitude interpolation in an arbitrary bracket with loadable ends. -/
theorem altAtmInterp_cell {files : Files} {lo hi lo' hi' q g : ℝ} {h : ℤ} {A B : Atm}
    {v w : ℕ → Fin 6 → ℝ} {xs : List ℝ} (b : Brackets xs q lo hi) (hc : lo = hi ↔ q ∈ xs)
    (b' : Brackets xs q lo' hi')
    (hA : loadNoInterp files (.fin lo') (.fin g) h = .ok A) (hv : FinAtm A v)
    (hB : loadNoInterp files (.fin hi') (.fin g) h = .ok B) (hw : FinAtm B w) :
    ∃ E, altAtmInterp files lo hi (.fin q) g h = .ok E
      ∧ FinAtm E (fun i j => lerp lo' hi' (v i j) (w i j) q) := by
  rcases bracket_cases b hc b' with ⟨e1, e2, e3⟩ | ⟨rfl, rfl, hne⟩
  · subst e2 e1
    by_cases hl : lo = lo'
    · subst hl
      refine ⟨A, ?_, hv.1, fun i hi j => by simp only [lerp_lo]; exact hv.2 i hi j⟩
      simp [altAtmInterp, hA, bind, Except.bind]
    · have e : lo = hi' := e3.resolve_left hl
      subst e
      refine ⟨B, ?_, hw.1, fun i hi j => by simp only [lerp_hi _ _ (Ne.symm hl)]; exact hw.2 i hi j⟩
      simp [altAtmInterp, hB, bind, Except.bind]
  · have hd : hi - lo ≠ 0 := sub_ne_zero.mpr hne.symm
    refine ⟨_, ?_, (hv.blend hw (1 - (q - lo) / (hi - lo)) ((q - lo) / (hi - lo))).1, ?_⟩
    · simp only [altAtmInterp, hA, hB, bind, Except.bind, ne_eq, hne, not_false_eq_true, if_true]
      rw [XR.fin_sub, XR.fin_sub, XR.fin_div _ hd, XR.one_def, XR.fin_sub]
    · intro i hi' j
      rw [(hv.blend hw _ _).2 i hi' j]
      simp only [lerp, if_neg hne]
      congr 1; ring

/-- The range checks pass and the code finds collapsed-or-proper brackets. -/
theorem loadInterp_inside (files : Files) {alt rng : ℝ} (h : ℤ) (ha1 : 2 ≤ alt) (ha2 : alt ≤ 20000)
    (hr1 : 0 ≤ rng) (hr2 : rng ≤ 300000) :
    ∃ aLo aHi gLo gHi, Brackets gridAltitudes alt aLo aHi ∧ (aLo = aHi ↔ alt ∈ gridAltitudes)
      ∧ Brackets gridRanges rng gLo gHi ∧ (gLo = gHi ↔ rng ∈ gridRanges)
      ∧ loadInterp files (.fin alt) (.fin rng) h = (do
        let atmLow ← altAtmInterp files aLo aHi (.fin alt) gLo h
        if gLo ≠ gHi then
          let atmHigh ← altAtmInterp files aLo aHi (.fin alt) gHi h
          let w := (.fin rng - .fin gLo) / (.fin gHi - .fin gLo)
          .ok (atmBlend (1 - w) w atmLow atmHigh)
        else .ok atmLow) := by
  obtain ⟨aLo, aHi, e1, e2, b1, c1⟩ := bracket_spec gridAltitudes_sorted
    (x0 := 2) (x1 := 20000) (by simp [gridAltitudes]) (by simp [gridAltitudes]) ha1 ha2
  obtain ⟨gLo, gHi, e3, e4, b2, c2⟩ := bracket_spec gridRanges_sorted
    zero_mem_gridRanges max_mem_gridRanges hr1 hr2
  refine ⟨aLo, aHi, gLo, gHi, b1, c1, b2, c2, ?_⟩
  unfold loadInterp
  rw [groundRangeArray_eq, alt_min, alt_max]
  simp only [rng_min, rng_max]
  simp only [XR.fin_lt, not_lt.mpr ha1, not_lt.mpr ha2, not_lt.mpr hr1, not_lt.mpr hr2, or_self,
    if_false, altitudeArray_eq, e1, e2, e3, e4, bind, Except.bind]

/-- The interpolating loader in an arbitrary cell with loadable corners. -/
theorem loadInterp_cell {files : Files} {alt rng aLo aHi gLo gHi : ℝ} {h : ℤ}
    (ba : Brackets gridAltitudes alt aLo aHi) (bg : Brackets gridRanges rng gLo gHi)
    {A00 A10 A01 A11 : Atm} {v00 v10 v01 v11 : ℕ → Fin 6 → ℝ}
    (h00 : loadNoInterp files (.fin aLo) (.fin gLo) h = .ok A00) (f00 : FinAtm A00 v00)
    (h10 : loadNoInterp files (.fin aHi) (.fin gLo) h = .ok A10) (f10 : FinAtm A10 v10)
    (h01 : loadNoInterp files (.fin aLo) (.fin gHi) h = .ok A01) (f01 : FinAtm A01 v01)
    (h11 : loadNoInterp files (.fin aHi) (.fin gHi) h = .ok A11) (f11 : FinAtm A11 v11) :
    ∃ E, loadInterp files (.fin alt) (.fin rng) h = .ok E ∧ FinAtm E (fun i j =>
      lerp gLo gHi (lerp aLo aHi (v00 i j) (v10 i j) alt) (lerp aLo aHi (v01 i j) (v11 i j) alt)
        rng) := by
  obtain ⟨cLo, cHi, dLo, dHi, b1, c1, b2, c2, e⟩ := loadInterp_inside files (alt := alt) (rng := rng) h
    ((gridAltitudes_bounds ba.lo_mem).1.trans ba.lo_le) (ba.le_hi.trans (gridAltitudes_bounds ba.hi_mem).2)
    ((gridRanges_bounds bg.lo_mem).1.trans bg.lo_le) (bg.le_hi.trans (gridRanges_bounds bg.hi_mem).2)
  rw [e]
  obtain ⟨E0, e0, fE0⟩ := altAtmInterp_cell b1 c1 ba h00 f00 h10 f10
  obtain ⟨E1, e1, fE1⟩ := altAtmInterp_cell b1 c1 ba h01 f01 h11 f11
  rcases bracket_cases b2 c2 bg with ⟨i1, i2, i3⟩ | ⟨rfl, rfl, hne⟩
  · subst i2 i1
    by_cases hl : dLo = gLo
    · subst hl
      refine ⟨E0, ?_, fE0.1, fun i hi j => by simp only [lerp_lo]; exact fE0.2 i hi j⟩
      simp [e0, bind, Except.bind]
    · have e' : dLo = gHi := i3.resolve_left hl
      subst e'
      refine ⟨E1, ?_, fE1.1, fun i hi j => by simp only [lerp_hi _ _ (Ne.symm hl)]; exact fE1.2 i hi j⟩
      simp [e1, bind, Except.bind]
  · have hd : dHi - dLo ≠ 0 := sub_ne_zero.mpr hne.symm
    refine ⟨_, ?_, (fE0.blend fE1 (1 - (rng - dLo) / (dHi - dLo)) ((rng - dLo) / (dHi - dLo))).1, ?_⟩
    · simp only [e0, e1, bind, Except.bind, ne_eq, hne, not_false_eq_true, if_true]
      rw [XR.fin_sub, XR.fin_sub, XR.fin_div _ hd, XR.one_def, XR.fin_sub]
    · intro i hi' j
      rw [(fE0.blend fE1 _ _).2 i hi' j]
      have : ∀ x y : ℝ, lerp dLo dHi x y rng = x + (rng - dLo) / (dHi - dLo) * (y - x) :=
        fun x y => if_neg hne
      simp only [this]
      congr 1; ring

/-- An error of the altitude interpolation is the error of one of its loads. -/
theorem altAtmInterp_error {files : Files} {lo hi g : ℝ} {q : XR} {h : ℤ} {e : PyErr}
    (he : altAtmInterp files lo hi q g h = .error e) :
    loadNoInterp files (.fin lo) (.fin g) h = .error e
      ∨ loadNoInterp files (.fin hi) (.fin g) h = .error e := by
  unfold altAtmInterp at he
  cases h1 : loadNoInterp files (.fin lo) (.fin g) h with
  | error e' => simp [h1, bind, Except.bind] at he; left; rw [he]
  | ok A =>
    by_cases hlh : lo = hi
    · subst hlh; simp [h1, bind, Except.bind] at he
    · cases h2 : loadNoInterp files (.fin hi) (.fin g) h with
      | error e' => simp [h1, h2, bind, Except.bind, hlh] at he; right; rw [he]
      | ok B => simp [h1, h2, bind, Except.bind, hlh] at he

theorem altAtmInterp_ok {files : Files} {lo hi g : ℝ} {q : XR} {h : ℤ} {E : Atm}
    (he : altAtmInterp files lo hi q g h = .ok E) :
    (∃ A, loadNoInterp files (.fin lo) (.fin g) h = .ok A)
      ∧ (∃ A, loadNoInterp files (.fin hi) (.fin g) h = .ok A) := by
  unfold altAtmInterp at he
  cases h1 : loadNoInterp files (.fin lo) (.fin g) h with
  | error e' => simp [h1, bind, Except.bind] at he
  | ok A =>
    refine ⟨⟨A, rfl⟩, ?_⟩
    by_cases hlh : lo = hi
    · exact ⟨A, hlh ▸ h1⟩
    · cases h2 : loadNoInterp files (.fin hi) (.fin g) h with
      | error e' => simp [h1, h2, bind, Except.bind, hlh] at he
      | ok B => exact ⟨B, rfl⟩

theorem altAtmInterp_ok_of {files : Files} {lo hi g : ℝ} (q : XR) {h : ℤ} {A B : Atm}
    (h1 : loadNoInterp files (.fin lo) (.fin g) h = .ok A)
    (h2 : loadNoInterp files (.fin hi) (.fin g) h = .ok B) :
    ∃ E, altAtmInterp files lo hi q g h = .ok E := by
  unfold altAtmInterp
  by_cases hlh : lo = hi
  · subst hlh; simp [h1, bind, Except.bind]
  · simp [h1, h2, bind, Except.bind, hlh]

end PyBSM
