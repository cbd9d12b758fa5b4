import Verif.Lemmas.Double
import Verif.Model.Double
import Verif.Lemmas.Database

/-!
# Table keys in double precision

A condition given as a double has the same key as a table entry only if it is that entry: the neighbouring doubles
already have other keys. This is checked for each number of the table.
-/

namespace PyBSM

/-- `t` tenths of a metre are the double `n / 2^F`; the middle of the neighbouring doubles `m / 2^E`, `(m + 1) / 2^E`
lies between the key `t / 10000` and the key of the next double. -/
def keyUp (t n F m E : ℕ) : Bool :=
  Nat.ble (2 ^ 52) n && Nat.blt n (2 ^ 53) && Nat.beq (t * 2 ^ F) (10 * n) && Nat.ble (2 ^ 52) m && Nat.blt m (2 ^ 53)
    && Nat.blt (t * 2 ^ (E + 1)) (10000 * (2 * m + 1)) && Nat.blt (1000 * (2 * m + 1) * 2 ^ F) ((n + 1) * 2 ^ (E + 1))

/-- The same for the double before. -/
def keyDown (t n F m E : ℕ) : Bool :=
  Nat.ble (2 ^ 52) n && Nat.blt n (2 ^ 53) && Nat.beq (t * 2 ^ F) (10 * (n + 1)) && Nat.ble (2 ^ 52) m && Nat.blt m (2 ^ 53)
    && Nat.blt (10000 * (2 * m + 1)) (t * 2 ^ (E + 1)) && Nat.blt (n * 2 ^ (E + 1)) (1000 * (2 * m + 1) * 2 ^ F)

/-- Both neighbours of `t` tenths of a metre have other keys. -/
def keyOk (t : ℕ) : Bool :=
  Nat.beq t 0 ||
  (let a := t / 5
   let L := Nat.log2 a
   let n := a * 2 ^ (52 - L)
   let F := 53 - L
   let E := 116 - Nat.log2 (t * 2 ^ 64 / 10000)
   let m := t * 2 ^ E / 10000
   (keyUp t n F m E || keyUp t n F (m + 1) E)
     && (keyDown t (n - 1) F (m - 1) E || keyDown t (n - 1) F m E || keyDown t (2 * n - 1) (F + 1) (m - 1) E
        || keyDown t (2 * n - 1) (F + 1) m E || keyDown t (n - 1) F (2 * m - 1) (E + 1)
        || keyDown t (2 * n - 1) (F + 1) (2 * m - 1) (E + 1)))

theorem table_keyOk : decoderTable.all (fun r => keyOk r.altDm && keyOk (10 * r.rangeM)) = true := by decide +kernel

noncomputable section

open Classical

variable {fl : ℝ → ℝ}

theorem keyUp_spec (hfl : RoundsToNearest fl) {t n F m E : ℕ} (h : keyUp t n F m E = true) {a : ℝ} (ha : IsDouble a)
    (hlt : (t : ℝ) / 10 < a) : fl ((t : ℝ) / 10000) < fl (a / 1000) := by
  simp only [keyUp, Bool.and_eq_true, Nat.ble_eq, Nat.blt_eq, Nat.beq_eq] at h
  obtain ⟨⟨⟨⟨⟨⟨h1, h2⟩, h3⟩, h4⟩, h5⟩, h6⟩, h7⟩ := h
  have c3 : (t : ℝ) * 2 ^ F = 10 * n := by exact_mod_cast h3
  have c6 : (t : ℝ) * 2 ^ (E + 1) < 10000 * (2 * m + 1) := by exact_mod_cast h6
  have c7 : 1000 * (2 * (m : ℝ) + 1) * 2 ^ F < (n + 1) * 2 ^ (E + 1) := by exact_mod_cast h7
  have pF : (0 : ℝ) < 2 ^ F := by positivity
  have pE : (0 : ℝ) < 2 ^ E := by positivity
  have eF : (2 : ℝ) ^ (-(F : ℤ)) = 1 / 2 ^ F := by rw [zpow_neg, zpow_natCast, one_div]
  have eE : (2 : ℝ) ^ (-(E : ℤ)) = 1 / 2 ^ E := by rw [zpow_neg, zpow_natCast, one_div]
  rw [pow_succ] at c6 c7
  have hn : (t : ℝ) / 10 = n * (2 : ℝ) ^ (-(F : ℤ)) := by rw [eF]; field_simp; linarith
  have next : ((n : ℝ) + 1) * (2 : ℝ) ^ (-(F : ℤ)) ≤ a := by
    rcases no_double_between (m := (n : ℤ)) (by exact_mod_cast h1) (by exact_mod_cast h2) (-(F : ℤ)) ha with h | h
    · push_cast at h; linarith
    · push_cast at h; exact h
  have l := hfl.le_of_lt (m := (m : ℤ)) (by exact_mod_cast h4) (by exact_mod_cast h5) (-(E : ℤ)) (x := (t : ℝ) / 10000)
    (by push_cast; rw [eE, mul_one_div, div_lt_div_iff₀ (by norm_num) pE]; linarith)
  have g := hfl.ge_of_gt (m := (m : ℤ)) (by exact_mod_cast h4) (by exact_mod_cast h5) (-(E : ℤ)) (x := a / 1000) (by
    push_cast
    refine lt_of_lt_of_le ?_ (div_le_div_of_nonneg_right next (by norm_num))
    rw [eE, eF, mul_one_div, mul_one_div, div_div, div_lt_div_iff₀ pE (by positivity)]
    linarith)
  refine lt_of_le_of_lt l (lt_of_lt_of_le ?_ g)
  have : (0 : ℝ) < (2 : ℝ) ^ (-(E : ℤ)) := by positivity
  push_cast
  linarith

theorem keyDown_spec (hfl : RoundsToNearest fl) {t n F m E : ℕ} (h : keyDown t n F m E = true) {a : ℝ} (ha : IsDouble a)
    (hlt : a < (t : ℝ) / 10) : fl (a / 1000) < fl ((t : ℝ) / 10000) := by
  simp only [keyDown, Bool.and_eq_true, Nat.ble_eq, Nat.blt_eq, Nat.beq_eq] at h
  obtain ⟨⟨⟨⟨⟨⟨h1, h2⟩, h3⟩, h4⟩, h5⟩, h6⟩, h7⟩ := h
  have c3 : (t : ℝ) * 2 ^ F = 10 * (n + 1) := by exact_mod_cast h3
  have c6 : 10000 * (2 * (m : ℝ) + 1) < t * 2 ^ (E + 1) := by exact_mod_cast h6
  have c7 : (n : ℝ) * 2 ^ (E + 1) < 1000 * (2 * m + 1) * 2 ^ F := by exact_mod_cast h7
  have pF : (0 : ℝ) < 2 ^ F := by positivity
  have pE : (0 : ℝ) < 2 ^ E := by positivity
  have eF : (2 : ℝ) ^ (-(F : ℤ)) = 1 / 2 ^ F := by rw [zpow_neg, zpow_natCast, one_div]
  have eE : (2 : ℝ) ^ (-(E : ℤ)) = 1 / 2 ^ E := by rw [zpow_neg, zpow_natCast, one_div]
  rw [pow_succ] at c6 c7
  have hn : (t : ℝ) / 10 = (n + 1) * (2 : ℝ) ^ (-(F : ℤ)) := by rw [eF]; field_simp; linarith
  have prev : a ≤ (n : ℝ) * (2 : ℝ) ^ (-(F : ℤ)) := by
    rcases no_double_between (m := (n : ℤ)) (by exact_mod_cast h1) (by exact_mod_cast h2) (-(F : ℤ)) ha with h | h
    · push_cast at h; exact h
    · push_cast at h; linarith
  have g := hfl.ge_of_gt (m := (m : ℤ)) (by exact_mod_cast h4) (by exact_mod_cast h5) (-(E : ℤ)) (x := (t : ℝ) / 10000)
    (by push_cast; rw [eE, mul_one_div, div_lt_div_iff₀ pE (by norm_num)]; linarith)
  have l := hfl.le_of_lt (m := (m : ℤ)) (by exact_mod_cast h4) (by exact_mod_cast h5) (-(E : ℤ)) (x := a / 1000) (by
    push_cast
    refine lt_of_le_of_lt (div_le_div_of_nonneg_right prev (by norm_num)) ?_
    rw [eE, eF, mul_one_div, mul_one_div, div_div, div_lt_div_iff₀ (by positivity) pE]
    linarith)
  refine lt_of_le_of_lt l (lt_of_lt_of_le ?_ g)
  have : (0 : ℝ) < (2 : ℝ) ^ (-(E : ℤ)) := by positivity
  push_cast
  linarith

/-- The key of a double is the key of a table entry exactly when the double is the entry. -/
theorem key_double (hfl : RoundsToNearest fl) {t : ℕ} (h : keyOk t = true) {a : ℝ} (ha : IsDouble a) :
    fl ((t : ℝ) / 10000) = fl (a / 1000) ↔ a = (t : ℝ) / 10 := by
  constructor
  · intro he
    simp only [keyOk, Bool.or_eq_true, Bool.and_eq_true, Nat.beq_eq] at h
    rcases h with rfl | ⟨hu, hd⟩
    · rw [Nat.cast_zero, zero_div, hfl.zero] at he
      have := hfl.eq_zero he.symm
      rw [Nat.cast_zero, zero_div]
      linarith
    · by_contra hne
      rcases lt_or_gt_of_ne hne with hlt | hgt
      · rcases hd with ((((h | h) | h) | h) | h) | h <;>
          exact absurd he (ne_of_gt (keyDown_spec hfl h ha hlt))
      · rcases hu with h | h <;> exact absurd he (ne_of_lt (keyUp_spec hfl h ha hgt))
  · rintro rfl
    congr 1
    ring

theorem key_table (hfl : RoundsToNearest fl) {r : DecRow} (hr : r ∈ decoderTable) {a g : ℝ} (ha : IsDouble a)
    (hg : IsDouble g) :
    (fl ((r.altDm : ℝ) / 10000) = fl (a / 1000) ↔ a = (r.altDm : ℝ) / 10)
      ∧ (fl ((r.rangeM : ℝ) / 1000) = fl (g / 1000) ↔ g = r.rangeM) := by
  have h := List.all_eq_true.mp table_keyOk r hr
  rw [Bool.and_eq_true] at h
  refine ⟨key_double hfl h.1 ha, ?_⟩
  have := key_double hfl h.2 hg
  push_cast at this
  rw [show (10 * (r.rangeM : ℝ)) / 10000 = r.rangeM / 1000 by ring, show (10 * (r.rangeM : ℝ)) / 10 = r.rangeM by ring] at this
  exact this

/-- Decoding of raw numbers in single and double precision. -/
def decodeRawD (fl fs : ℝ → ℝ) (raw : List XR) : Atm :=
  let col (c i : ℕ) : XR := raw.getD (c * 1371 + i) .nan
  let scaled (c i : ℕ) : XR := XR.rnd fs (col c i / .fin (fs 1e-10))
  (List.range 1371).map fun (i : ℕ) =>
    ![.fin (wavelengthD fl i), col 0 i, scaled 1 i, scaled 2 i, scaled 3 i, scaled 4 i]

theorem loadNoInterpD_eq (hfl : RoundsToNearest fl) (fs : ℝ → ℝ) (files : Files) {a g : ℝ} (ha : IsDouble a)
    (hg : IsDouble g) (h : ℤ) :
    loadNoInterpD fl fs files a g h =
      match matching (.fin a) (.fin g) h with
      | [] => .error .indexError
      | r :: _ =>
        match files r.idx with
        | none => .error .indexError
        | some raw => if raw.length ≠ 1371 * 5 then .error .valueError else .ok (decodeRawD fl fs raw) := by
  have e : ((decoderTable.filter (fun r => (r.haze : ℤ) = h)).filter
      (fun r => fl (r.altDm / 10000) = fl (a / 1000))).filter (fun r => fl (r.rangeM / 1000) = fl (g / 1000))
      = matching (.fin a) (.fin g) h := by
    unfold matching
    rw [List.filter_filter, List.filter_filter, List.filter_filter, List.filter_filter]
    apply List.filter_congr
    intro r hr
    obtain ⟨k1, k2⟩ := key_table hfl hr ha hg
    have e1 := key_eq (n := r.altDm) (a := .fin a) (k := 10000) (d := 10) (by norm_num) (by norm_num)
    have e2 := key_eq (n := r.rangeM) (a := .fin g) (k := 1000) (d := 1) (by norm_num) (by norm_num)
    rw [XR.fin_inj] at e1 e2
    rw [div_one] at e2
    simp only [k1, k2, e1, e2]
  unfold loadNoInterpD
  dsimp only
  rw [e]
  rfl

end

end PyBSM
