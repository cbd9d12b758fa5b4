import Verif.Spec.Double
import Verif.Lemmas.Rounded
import Verif.Lemmas.DoubleLookup

/-!
# C99: the database lookup in double precision

The lookup compares quotients of floating-point numbers for equality. Nevertheless it finds, for every altitude and every
ground range a program can pass, the record that exact arithmetic finds, and no other.
-/

noncomputable section

open Classical

namespace PyBSM

open Spec

variable {fl fs : ℝ → ℝ}

theorem keyOk_isDouble {t : ℕ} (h : keyOk t = true) : IsDouble ((t : ℝ) / 10) := by
  simp only [keyOk, Bool.or_eq_true, Bool.and_eq_true, Nat.beq_eq] at h
  have key : ∀ n F m E : ℕ, keyUp t n F m E = true → IsDouble ((t : ℝ) / 10) := by
    intro n F m E h
    simp only [keyUp, Bool.and_eq_true, Nat.ble_eq, Nat.blt_eq, Nat.beq_eq] at h
    obtain ⟨⟨⟨⟨⟨⟨-, h2⟩, h3⟩, -⟩, -⟩, -⟩, -⟩ := h
    refine ⟨n, -(F : ℤ), by rw [Nat.abs_cast]; exact_mod_cast h2, ?_⟩
    have c3 : (t : ℝ) * 2 ^ F = 10 * n := by exact_mod_cast h3
    rw [zpow_neg, zpow_natCast]
    field_simp
    push_cast
    linarith
  rcases h with rfl | ⟨h | h, -⟩
  · exact ⟨0, 0, by norm_num, by norm_num⟩
  · exact key _ _ _ _ h
  · exact key _ _ _ _ h

/-- The conditions of the database are doubles. -/
theorem IsRow.isDouble {r : DecRow} {alt rng : ℝ} {haze : ℤ} (h : IsRow r alt rng haze) : IsDouble alt ∧ IsDouble rng := by
  obtain ⟨h1, -, rfl, rfl⟩ := h
  have h := List.all_eq_true.mp table_keyOk r h1
  rw [Bool.and_eq_true] at h
  refine ⟨keyOk_isDouble h.1, ?_⟩
  have := keyOk_isDouble h.2
  push_cast at this
  rwa [show (10 * (r.rangeM : ℝ)) / 10 = r.rangeM by ring] at this

/-- The wavelengths. -/
theorem wavelengthD_near (hfl : RoundsToNearest fl) {i : ℕ} (hi : i < 1371) :
    |wavelengthD fl i - (0.30 + 0.01 * i) * 1e-6| ≤ 2e-15 * ((0.30 + 0.01 * i) * 1e-6) := by
  set u : ℝ := (2 : ℝ) ^ (-53 : ℤ) with hu
  have h0 : (0 : ℝ) ≤ u := by positivity
  have hus : u ≤ 1.12e-16 := by rw [hu]; norm_num
  have h1 : u < 1 := lt_of_le_of_lt hus (by norm_num)
  have r : ∀ x, Rnd u x (fl x) := nearest_rnd hfl
  have hi' : (0 : ℝ) ≤ i := Nat.cast_nonneg i
  have n6 : Near u 1 (fl 1e-6) 1e-6 := (Near.refl h0 h1 _).round h0 h1 (by norm_num) (r _)
  have n3 : Near u 1 (fl 0.3) 0.3 := (Near.refl h0 h1 _).round h0 h1 (by norm_num) (r _)
  have nl : Near u 6 (linspaceD fl (fl 0.3) 14 1371 i) (0.30 + 0.01 * i) := by
    unfold linspaceD
    split_ifs with h
    · have : i = 1370 := by omega
      subst this
      have := (Near.refl h0 h1 (14 : ℝ)).mono h0 h1 (by norm_num) (Nat.zero_le 6)
      convert this using 1
      norm_num
    · -- 14 - 0.3
      have nd : Near u 2 (fl (14 - fl 0.3)) 13.7 := by
        have e : |(14 - fl 0.3) - 13.7| ≤ 1 / 13.7 * 0.3 * u * 13.7 := by
          have := r 0.3
          unfold Rnd at this
          rw [abs_of_pos (by norm_num : (0 : ℝ) < 0.3)] at this
          rw [show (14 - fl 0.3 - 13.7 : ℝ) = -(fl 0.3 - 0.3) by ring, abs_neg]
          refine this.trans (le_of_eq ?_)
          ring
        have b : Near u 1 (14 - fl 0.3) 13.7 := by
          rw [abs_le] at e
          constructor
          · nlinarith
          · nlinarith
        exact b.round h0 h1 (by norm_num) (r _)
      have nq : Near u 3 (fl (fl (14 - fl 0.3) / (((1371 : ℕ) : ℝ) - 1))) 0.01 := by
        have := (nd.div h0 h1 (Near.refl h0 h1 (1370 : ℝ)) (by norm_num) (by norm_num)).round h0 h1 (by norm_num) (r _)
        convert this using 1
        · norm_num
        · norm_num
      have nm : Near u 4 (fl (i * fl (fl (14 - fl 0.3) / (((1371 : ℕ) : ℝ) - 1)))) (i * 0.01) := by
        have := ((Near.refl h0 h1 (i : ℝ)).mul h0 h1 nq hi' (by norm_num)).round h0 h1 (by positivity) (r _)
        simpa using this
      have ns := (nm.add h0 h1 (n3.mono h0 h1 (by norm_num) (by norm_num : 1 ≤ 4))).round h0 h1 (by positivity) (r _)
      have := ns.mono h0 h1 (by positivity) (by norm_num : 5 ≤ 6)
      convert this using 1
      ring
  have nw := (n6.mul h0 h1 nl (by norm_num) (by positivity)).round h0 h1 (by positivity) (r _)
  have e := nw.error' h0 h1 (by positivity) (by push_cast; linarith)
  rw [show (1e-6 : ℝ) * (0.30 + 0.01 * i) = (0.30 + 0.01 * i) * 1e-6 by ring] at e
  refine e.trans (mul_le_mul_of_nonneg_right ?_ (by positivity))
  push_cast
  linarith

theorem scaled_near (hfs : SingleAccuracy fs) (v : ℝ) :
    XR.rnd fs (.fin v / .fin (fs 1e-10)) = .fin (fs (v / fs 1e-10)) ∧ |fs (v / fs 1e-10) - v * 1e10| ≤ 2e-7 * (|v| * 1e10) := by
  have hs := hfs 1e-10
  rw [abs_of_pos (by norm_num : (0 : ℝ) < 1e-10), abs_le] at hs
  have hp : 0 < fs 1e-10 := by norm_num at hs ⊢; linarith
  refine ⟨by rw [XR.fin_div _ hp.ne']; rfl, ?_⟩
  have h2 := hfs (v / fs 1e-10)
  set s := fs 1e-10
  have hq : v / s = v * 1e10 * (1e-10 / s) := by rw [mul_div_assoc', mul_assoc]; norm_num
  have hc : |1e-10 / s - 1| ≤ 6.1e-8 := by
    rw [show 1e-10 / s - 1 = (1e-10 - s) / s by field_simp, abs_div, abs_of_pos hp, div_le_iff₀ hp, abs_le]
    constructor <;> norm_num at hs ⊢ <;> linarith
  have hv : |v * 1e10| = |v| * 1e10 := by rw [abs_mul, abs_of_pos (by norm_num : (0 : ℝ) < 1e10)]
  have hn : 0 ≤ |v| * 1e10 := by positivity
  have a1 : |v / s - v * 1e10| ≤ 6.1e-8 * (|v| * 1e10) := by
    rw [hq, show v * 1e10 * (1e-10 / s) - v * 1e10 = v * 1e10 * (1e-10 / s - 1) by ring, abs_mul, hv, mul_comm]
    exact mul_le_mul_of_nonneg_right hc hn
  have a2 : |v / s| ≤ 1.1 * (|v| * 1e10) := by
    have := abs_sub_abs_le_abs_sub (v / s) (v * 1e10)
    rw [hv] at this
    linarith
  have := abs_sub_le (fs (v / s)) (v / s) (v * 1e10)
  linarith

theorem decodeRawD_isRecordNearly (hfl : RoundsToNearest fl) (hfs : SingleAccuracy fs) (raw : List XR) :
    IsRecordNearly raw (decodeRawD fl fs raw) := by
  have len : (decodeRawD fl fs raw).length = 1371 := by simp [decodeRawD]
  have key : ∀ i < 1371, (decodeRawD fl fs raw).getD i (fun _ => .nan) =
      ![.fin (wavelengthD fl i), raw.getD (0 * 1371 + i) .nan,
        XR.rnd fs (raw.getD (1 * 1371 + i) .nan / .fin (fs 1e-10)), XR.rnd fs (raw.getD (2 * 1371 + i) .nan / .fin (fs 1e-10)),
        XR.rnd fs (raw.getD (3 * 1371 + i) .nan / .fin (fs 1e-10)), XR.rnd fs (raw.getD (4 * 1371 + i) .nan / .fin (fs 1e-10))] := by
    intro i hi
    rw [List.getD_eq_getElem _ _ (by rw [len]; exact hi)]
    simp only [decodeRawD, List.getElem_map, List.getElem_range]
  refine ⟨len, ?_, ?_, ?_⟩
  · intro i hi
    exact ⟨_, by unfold atmAt; rw [key i hi, Matrix.cons_val_zero], wavelengthD_near hfl hi⟩
  · intro i hi
    unfold atmAt; rw [key i hi]
    show raw.getD (0 * 1371 + i) .nan = _
    rw [Nat.zero_mul, Nat.zero_add]
  · intro i hi c v hv
    obtain ⟨e1, e2⟩ := scaled_near hfs v
    refine ⟨_, ?_, e2⟩
    unfold atmAt; rw [key i hi, ← e1, ← hv]
    fin_cases c <;> rfl

/-- **C99** (found). A request at the conditions of a row of the decoder file loads the file of that row: the record is
the documented one, up to the rounding of the numbers in it. -/
theorem C99_lookup (hfl : RoundsToNearest fl) (hfs : SingleAccuracy fs) {files : Files} {r : DecRow} {alt rng : ℝ}
    {haze : ℤ} {raw : List XR} (hr : IsRow r alt rng haze) (hf : files r.idx = some raw) (hl : raw.length = 1371 * 5) :
    ∃ a, loadNoInterpD fl fs files alt rng haze = .ok a ∧ IsRecordNearly raw a := by
  refine ⟨_, ?_, decodeRawD_isRecordNearly hfl hfs raw⟩
  have hm : r ∈ matching (.fin alt) (.fin rng) haze :=
    mem_matching.mpr ⟨hr.1, hr.2.1, by rw [hr.2.2.1], by rw [hr.2.2.2]⟩
  obtain ⟨d1, d2⟩ := IsRow.isDouble hr
  rw [loadNoInterpD_eq hfl fs files d1 d2]
  cases hc : matching (.fin alt) (.fin rng) haze with
  | nil => rw [hc] at hm; simp at hm
  | cons s t =>
    have hs : s ∈ matching (.fin alt) (.fin rng) haze := by rw [hc]; exact List.mem_cons_self
    rw [mem_matching] at hs
    have : s = r := IsRow.unique (a := alt) (g := rng) (h := haze)
      ⟨hs.1, hs.2.1, (XR.fin_inj.mp hs.2.2.1).symm, (XR.fin_inj.mp hs.2.2.2).symm⟩ hr
    subst this
    simp only [hf, hl, ne_eq, not_true_eq_false, if_false]

/-- **C99** (not found). Every other request a program can pass, however near to a row, raises `IndexError`. -/
theorem C99_not_found (hfl : RoundsToNearest fl) (fs : ℝ → ℝ) (files : Files) {alt rng : ℝ} {haze : ℤ} (ha : IsDouble alt)
    (hg : IsDouble rng) (hn : ∀ r, ¬ IsRow r alt rng haze) :
    loadNoInterpD fl fs files alt rng haze = .error .indexError := by
  rw [loadNoInterpD_eq hfl fs files ha hg]
  cases hc : matching (.fin alt) (.fin rng) haze with
  | nil => rfl
  | cons s t =>
    have hs : s ∈ matching (.fin alt) (.fin rng) haze := by rw [hc]; exact List.mem_cons_self
    rw [mem_matching] at hs
    exact absurd ⟨hs.1, hs.2.1, (XR.fin_inj.mp hs.2.2.1).symm, (XR.fin_inj.mp hs.2.2.2).symm⟩ (hn s)

/-- **C99** (same outcome). For all doubles the lookup raises an exception exactly when exact arithmetic does, and the
same one. -/
theorem C99_same_errors (hfl : RoundsToNearest fl) (fs : ℝ → ℝ) (files : Files) {alt rng : ℝ} {haze : ℤ} (ha : IsDouble alt)
    (hg : IsDouble rng) (e : PyErr) :
    loadNoInterpD fl fs files alt rng haze = .error e ↔ loadNoInterp files (.fin alt) (.fin rng) haze = .error e := by
  rw [loadNoInterpD_eq hfl fs files ha hg, loadNoInterp_eq]
  cases matching (.fin alt) (.fin rng) haze with
  | nil => exact Iff.rfl
  | cons s t =>
    cases h : files s.idx with
    | none => simp only [h]
    | some raw =>
      simp only [h]
      split_ifs <;> simp

/-- 2000 m and the next double: the first is in the database, the second is not, although its distance is less than
`10^-12` m. -/
example (files : Files) : IsDouble (2000 + 2 ^ (-42 : ℤ)) ∧ ∀ rng, IsDouble rng →
    loadNoInterpD roundDouble id files (2000 + 2 ^ (-42 : ℤ)) rng 1 = .error .indexError := by
  have hd : IsDouble (2000 + 2 ^ (-42 : ℤ)) :=
    ⟨2000 * 2 ^ 42 + 1, -42, by norm_num, by push_cast; norm_num⟩
  refine ⟨hd, fun rng hr => C99_not_found roundDouble_rounds _ _ hd hr ?_⟩
  rintro r ⟨-, -, h, -⟩
  have h2 : (r.altDm : ℝ) = 20000 + 10 * 2 ^ (-42 : ℤ) := by
    rw [div_eq_iff (by norm_num)] at h; rw [h]; ring
  have h3 : (20000 : ℝ) < r.altDm := by rw [h2]; norm_num
  have h4 : (r.altDm : ℝ) < 20001 := by rw [h2]; norm_num
  have h3' : 20000 < r.altDm := by exact_mod_cast h3
  have h4' : r.altDm < 20001 := by exact_mod_cast h4
  omega

example : SingleAccuracy id := fun x => by simp only [id, sub_self, abs_zero]; positivity

example : ∃ r, IsRow r 32.5 100 1 := ⟨⟨10, 325, 100, 1⟩, by decide +kernel, by norm_num, by norm_num, by norm_num⟩

end PyBSM
