import Verif.Spec.FileBytes
import Verif.Props.DoubleLookup
import Verif.Props.Database

/-!
# C103: database files byte by byte
-/

noncomputable section

open Classical

namespace PyBSM

open Spec

theorem fromFile_length (b : List UInt8) : (fromFile b).length = b.length / 4 := by
  induction b using fromFile.induct with
  | case1 a b c d rest ih =>
    rw [fromFile, List.length_cons, ih]
    simp only [List.length_cons]
    omega
  | case2 b h =>
    rw [fromFile]
    · match b with
      | [] => rfl
      | [_] => simp
      | [_, _] => simp
      | [_, _, _] => simp
      | a :: b :: c :: d :: rest => exact absurd rfl (h a b c d rest)
    · exact h

theorem fromFile_getD (b : List UInt8) : ∀ k, k < b.length / 4 → (fromFile b).getD k .nan = float32 (word b k) := by
  induction b using fromFile.induct with
  | case1 a b c d rest ih =>
    intro k hk
    rw [fromFile]
    cases k with
    | zero => rfl
    | succ k =>
      rw [List.getD_cons_succ, ih k (by simp only [List.length_cons] at hk; omega)]
      unfold word
      rw [show 4 * (k + 1) = 4 * k + 4 by ring, show 4 * k + 4 + 1 = 4 * k + 1 + 4 by ring,
        show 4 * k + 4 + 2 = 4 * k + 2 + 4 by ring, show 4 * k + 4 + 3 = 4 * k + 3 + 4 by ring]
      rfl
  | case2 b h =>
    intro k hk
    exfalso
    match b with
    | [] => simp at hk
    | [_] => simp at hk
    | [_, _] => simp at hk
    | [_, _, _] => simp at hk
    | a :: b :: c :: d :: rest => exact absurd rfl (h a b c d rest)

/-- **C103** (which files are accepted). A request for a row of the decoder whose file exists succeeds exactly when the
file has 27420 bytes (1371 times 5 numbers of 4 bytes), or one to three bytes more; otherwise it raises `ValueError`. -/
theorem C103_accepted {disk : Disk} {r : DecRow} {alt rng : ℝ} {haze : ℤ} {bytes : List UInt8}
    (hr : IsRow r alt rng haze) (hf : disk r.idx = some bytes) :
    ((∃ a, loadNoInterp disk.files (.fin alt) (.fin rng) haze = .ok a) ↔ 27420 ≤ bytes.length ∧ bytes.length ≤ 27423)
      ∧ (¬ (27420 ≤ bytes.length ∧ bytes.length ≤ 27423) →
          loadNoInterp disk.files (.fin alt) (.fin rng) haze = .error .valueError) := by
  have hf' : disk.files r.idx = some (fromFile bytes) := by unfold Disk.files; rw [hf]; rfl
  have hl := fromFile_length bytes
  have no : ¬ (27420 ≤ bytes.length ∧ bytes.length ≤ 27423) →
      loadNoInterp disk.files (.fin alt) (.fin rng) haze = .error .valueError :=
    fun h => C04_wrong_size hr hf' (by rw [hl]; omega)
  refine ⟨⟨fun ⟨a, ha⟩ => ?_, fun h => ?_⟩, no⟩
  · by_contra hc
    rw [no hc] at ha
    cases ha
  · obtain ⟨a, ha, -⟩ := C03_lookup hr hf' (by rw [hl]; omega)
    exact ⟨a, ha⟩

/-- **C103** (interrupted copies). A file that was cut off anywhere, for instance by a crash while it was written, is never
accepted: if a file is complete without surplus bytes, every proper beginning of it is rejected with `ValueError`. -/
theorem C103_truncated {disk : Disk} {r : DecRow} {alt rng : ℝ} {haze : ℤ} {bytes : List UInt8} {k : ℕ}
    (hr : IsRow r alt rng haze) (hb : bytes.length = 27420) (hk : k < bytes.length) (hf : disk r.idx = some (bytes.take k)) :
    loadNoInterp disk.files (.fin alt) (.fin rng) haze = .error .valueError :=
  (C103_accepted hr hf).2 (by rw [List.length_take]; omega)

/-- **C103** (interrupted copies, in double precision). The same with the rounding of the actual arithmetic. -/
theorem C103_truncated_double {fl : ℝ → ℝ} (hfl : RoundsToNearest fl) (fs : ℝ → ℝ) {disk : Disk} {r : DecRow} {alt rng : ℝ}
    {haze : ℤ} {bytes : List UInt8} {k : ℕ} (ha : IsDouble alt) (hg : IsDouble rng) (hr : IsRow r alt rng haze)
    (hb : bytes.length = 27420) (hk : k < bytes.length) (hf : disk r.idx = some (bytes.take k)) :
    loadNoInterpD fl fs disk.files alt rng haze = .error .valueError :=
  (C99_same_errors hfl fs disk.files ha hg _).mpr (C103_truncated hr hb hk hf)

/-- A database of files of zeros: the lookup succeeds, and fails when the files are cut off. -/
example (k : ℕ) (hk : k < 27420) :
    (∃ a, loadNoInterp (Disk.files fun _ => some (List.replicate 27422 0)) (.fin 32.5) (.fin 0) 1 = .ok a)
      ∧ loadNoInterp (Disk.files fun _ => some ((List.replicate 27420 0).take k)) (.fin 32.5) (.fin 0) 1 = .error .valueError := by
  obtain ⟨r, hr⟩ := row_example
  refine ⟨(C103_accepted (disk := fun _ => some (List.replicate 27422 0)) hr rfl).1.mpr (by simp only [List.length_replicate]; norm_num),
    C103_truncated (bytes := List.replicate 27420 0) (k := k) hr (by simp only [List.length_replicate])
      (by simp only [List.length_replicate]; exact hk) rfl⟩

/-- **C103** (entries). In an accepted file the transmission at wavelength `i` is the number in word `i`, and the four
radiances are `1e10` times the numbers in words `1371 + i`, `2 * 1371 + i`, `3 * 1371 + i` and `4 * 1371 + i`. -/
theorem C103_entries {disk : Disk} {r : DecRow} {alt rng : ℝ} {haze : ℤ} {bytes : List UInt8} {a : Atm}
    (hr : IsRow r alt rng haze) (hf : disk r.idx = some bytes)
    (h : loadNoInterp disk.files (.fin alt) (.fin rng) haze = .ok a) {i : ℕ} (hi : i < 1371) :
    atmAt a i 1 = float32 (word bytes i)
      ∧ ∀ c : Fin 4, atmAt a i ⟨c + 2, by omega⟩ = float32 (word bytes ((c + 1) * 1371 + i)) * .fin 1e10 := by
  have hl := ((C103_accepted hr hf).1.mp ⟨a, h⟩)
  have hf' : disk.files r.idx = some (fromFile bytes) := by unfold Disk.files; rw [hf]; rfl
  obtain ⟨a', h', rec⟩ := C03_lookup hr hf' (by rw [fromFile_length]; omega)
  rw [h] at h'
  obtain rfl := Except.ok.inj h'
  refine ⟨?_, fun c => ?_⟩
  · rw [rec.transmission i hi, fromFile_getD _ _ (by omega)]
  · rw [rec.radiance i hi c, fromFile_getD _ _ (by omega)]

/-- **C103** (one entry per word). Two files that agree in the four bytes of one word agree in the entry made from it:
damage to a file stays in the entries whose bytes are damaged. -/
theorem C103_local {d d' : Disk} {r : DecRow} {alt rng : ℝ} {haze : ℤ} {b b' : List UInt8} {a a' : Atm}
    (hr : IsRow r alt rng haze) (hf : d r.idx = some b) (hf' : d' r.idx = some b')
    (h : loadNoInterp d.files (.fin alt) (.fin rng) haze = .ok a)
    (h' : loadNoInterp d'.files (.fin alt) (.fin rng) haze = .ok a') {i : ℕ} (hi : i < 1371) (c : Fin 5)
    (same : ∀ j < 4, b.getD (4 * (c * 1371 + i) + j) 0 = b'.getD (4 * (c * 1371 + i) + j) 0) :
    atmAt a i ⟨c + 1, by omega⟩ = atmAt a' i ⟨c + 1, by omega⟩ := by
  have hw : word b (c * 1371 + i) = word b' (c * 1371 + i) := by
    have s0 := same 0 (by norm_num)
    rw [Nat.add_zero] at s0
    unfold word
    rw [s0, same 1 (by norm_num), same 2 (by norm_num), same 3 (by norm_num)]
  obtain ⟨t, q⟩ := C103_entries hr hf h hi
  obtain ⟨t', q'⟩ := C103_entries hr hf' h' hi
  obtain ⟨c, hc⟩ := c
  cases c with
  | zero =>
    simp only [Nat.zero_mul, Nat.zero_add] at hw ⊢
    show atmAt a i 1 = atmAt a' i 1
    rw [t, t', hw]
  | succ c =>
    simp only at hw
    have e := q ⟨c, by omega⟩
    have e' := q' ⟨c, by omega⟩
    simp only at e e'
    rw [hw, ← e'] at e
    exact e

/-- Two databases that differ in the first number only agree everywhere else. -/
example : ∃ a a', loadNoInterp (Disk.files fun _ => some (List.replicate 27420 0)) (.fin 32.5) (.fin 0) 1 = .ok a
    ∧ loadNoInterp (Disk.files fun _ => some (3 :: List.replicate 27419 0)) (.fin 32.5) (.fin 0) 1 = .ok a'
    ∧ atmAt a 5 2 = atmAt a' 5 2 := by
  obtain ⟨r, hr⟩ := row_example
  obtain ⟨a, ha⟩ := (C103_accepted (disk := fun _ => some (List.replicate 27420 0)) hr rfl).1.mpr
    (by simp only [List.length_replicate]; norm_num)
  obtain ⟨a', ha'⟩ := (C103_accepted (disk := fun _ => some (3 :: List.replicate 27419 0)) hr rfl).1.mpr
    (by simp only [List.length_cons, List.length_replicate]; norm_num)
  refine ⟨a, a', ha, ha', C103_local hr rfl rfl ha ha' (i := 5) (by norm_num) 1 fun j hj => ?_⟩
  have h1 : ∀ n k, (List.replicate n (0 : UInt8)).getD k 0 = 0 := fun n k => by
    rw [List.getD_eq_getElem?_getD, List.getElem?_replicate]
    split_ifs <;> rfl
  obtain ⟨q, hq⟩ : ∃ q, 4 * ((((1 : Fin 5) : ℕ)) * 1371 + 5) + j = q + 1 := ⟨5503 + j, by simp; omega⟩
  rw [hq, h1, List.getD_cons_succ, h1]

/-! ## The numbers -/

theorem float32_parts {s e f : ℕ} (hs : s < 2) (he : e < 256) (hf : f < 8388608) :
    float32 (s * 2147483648 + e * 8388608 + f)
      = if e = 255 then (if f ≠ 0 then .nan else if s = 0 then .pinf else .ninf)
        else if e = 0 then .fin ((if s = 0 then 1 else -1) * (f * 2 ^ (-149 : ℤ)))
        else .fin ((if s = 0 then 1 else -1) * ((8388608 + f) * 2 ^ ((e : ℤ) - 150))) := by
  unfold float32
  rw [show (s * 2147483648 + e * 8388608 + f) / 8388608 % 256 = e by omega,
    show (s * 2147483648 + e * 8388608 + f) % 8388608 = f by omega,
    show (s * 2147483648 + e * 8388608 + f) / 2147483648 % 2 = s by omega]

theorem word_parts (n : ℕ) (hn : n < 4294967296) : ∃ s e f : ℕ, s < 2 ∧ e < 256 ∧ f < 8388608
    ∧ n = s * 2147483648 + e * 8388608 + f :=
  ⟨n / 2147483648, n / 8388608 % 256, n % 8388608, by omega, by omega, by omega, by omega⟩

theorem float32_finite {n : ℕ} (hn : n < 4294967296) {x : ℝ} (h : float32 n = .fin x) : IsSingle x := by
  obtain ⟨s, e, f, hs, he, hf, rfl⟩ := word_parts n hn
  rw [float32_parts hs he hf] at h
  have key : ∀ (m : ℕ) (k : ℤ), m < 16777216 → -149 ≤ k → k ≤ 104 →
      IsSingle ((if s = 0 then 1 else -1) * (m * 2 ^ k)) := by
    intro m k hm h1 h2
    split_ifs
    · exact ⟨m, k, by rw [Nat.abs_cast]; exact_mod_cast hm, h1, h2, by push_cast; ring⟩
    · exact ⟨-m, k, by rw [abs_neg, Nat.abs_cast]; exact_mod_cast hm, h1, h2, by push_cast; ring⟩
  by_cases h1 : e = 255
  · rw [if_pos h1] at h
    split_ifs at h
  · rw [if_neg h1] at h
    by_cases h2 : e = 0
    · rw [if_pos h2] at h
      rw [← XR.fin.inj h]
      exact key f _ (by omega) (by norm_num) (by norm_num)
    · rw [if_neg h2] at h
      rw [← XR.fin.inj h]
      have := key (8388608 + f) ((e : ℤ) - 150) (by omega) (by omega) (by omega)
      push_cast at this
      exact this

/-- Shift left until the first bit is in place or the exponent is the least. -/
theorem single_canonical : ∀ (j : ℕ) (M : ℕ), M < 16777216 → j ≤ 253 → ∃ M' j' : ℕ, M' < 16777216 ∧ j' ≤ 253
    ∧ (8388608 ≤ M' ∨ j' = 0) ∧ (M : ℝ) * 2 ^ ((j : ℤ) - 149) = M' * 2 ^ ((j' : ℤ) - 149) := by
  intro j
  induction j with
  | zero => exact fun M hM _ => ⟨M, 0, hM, by norm_num, Or.inr rfl, rfl⟩
  | succ j ih =>
    intro M hM hj
    by_cases h : 8388608 ≤ M
    · exact ⟨M, j + 1, hM, hj, Or.inl h, rfl⟩
    · obtain ⟨M', j', h1, h2, h3, h4⟩ := ih (2 * M) (by omega) (by omega)
      refine ⟨M', j', h1, h2, h3, h4 ▸ ?_⟩
      rw [show ((j + 1 : ℕ) : ℤ) - 149 = ((j : ℤ) - 149) + 1 by push_cast; ring, zpow_add_one₀ (by norm_num)]
      push_cast
      ring

theorem single_word {x : ℝ} (h : IsSingle x) : ∃ n < 4294967296, float32 n = .fin x := by
  obtain ⟨m, e, hm, h1, h2, rfl⟩ := h
  obtain ⟨j, rfl⟩ : ∃ j : ℕ, e = (j : ℤ) - 149 := ⟨(e + 149).toNat, by omega⟩
  obtain ⟨M, j', hM, hj, hc, hv⟩ := single_canonical j m.natAbs (by rw [abs_lt] at hm; omega) (by omega)
  obtain ⟨s, hs, hsm⟩ : ∃ s : ℕ, s < 2 ∧ (m : ℝ) = (if s = 0 then 1 else -1) * (m.natAbs : ℝ) := by
    rcases le_total 0 m with h0 | h0
    · refine ⟨0, by norm_num, ?_⟩
      rw [if_pos rfl, one_mul, Nat.cast_natAbs, abs_of_nonneg h0]
    · refine ⟨1, by norm_num, ?_⟩
      rw [if_neg one_ne_zero, Nat.cast_natAbs, abs_of_nonpos h0]
      push_cast
      ring
  rw [hsm, mul_assoc, hv]
  by_cases hb : 8388608 ≤ M
  · refine ⟨s * 2147483648 + (j' + 1) * 8388608 + (M - 8388608), by omega, ?_⟩
    rw [float32_parts hs (by omega) (by omega), if_neg (by omega), if_neg (by omega), Nat.cast_sub hb]
    refine congrArg XR.fin ?_
    rw [show ((j' + 1 : ℕ) : ℤ) - 150 = (j' : ℤ) - 149 by push_cast; ring]
    push_cast
    ring
  · obtain rfl : j' = 0 := by omega
    refine ⟨s * 2147483648 + 0 * 8388608 + M, by omega, ?_⟩
    rw [float32_parts hs (by omega) (by omega), if_neg (by omega), if_pos rfl]
    norm_num

/-- **C103** (which numbers a file can hold). The finite numbers that four bytes of a file can stand for are exactly the
numbers of single precision. -/
theorem C103_numbers (x : ℝ) : (∃ a b c d : UInt8, fromFile [a, b, c, d] = [.fin x]) ↔ IsSingle x := by
  constructor
  · rintro ⟨a, b, c, d, h⟩
    rw [fromFile] at h
    refine float32_finite ?_ (List.cons.inj h).1
    have := a.toNat_lt
    have := b.toNat_lt
    have := c.toNat_lt
    have := d.toNat_lt
    omega
  · intro h
    obtain ⟨n, hn, he⟩ := single_word h
    refine ⟨UInt8.ofNat (n % 256), UInt8.ofNat (n / 256 % 256), UInt8.ofNat (n / 65536 % 256),
      UInt8.ofNat (n / 16777216 % 256), ?_⟩
    rw [fromFile, fromFile, UInt8.toNat_ofNat_of_lt' (by simp [UInt8.size]; omega), UInt8.toNat_ofNat_of_lt' (by simp [UInt8.size]; omega),
      UInt8.toNat_ofNat_of_lt' (by simp [UInt8.size]; omega), UInt8.toNat_ofNat_of_lt' (by simp [UInt8.size]; omega),
      show n % 256 + 256 * (n / 256 % 256) + 65536 * (n / 65536 % 256) + 16777216 * (n / 16777216 % 256) = n by omega, he]
    · simp

/-- The word of the number 1 is `0x3F800000`, and that of -0.5 is `0xBF000000`. -/
example : fromFile [0, 0, 0x80, 0x3F, 0, 0, 0, 0xBF, 7] = [1, .fin (-0.5)] := by
  have h := float32_parts (s := 0) (e := 127) (f := 0) (by norm_num) (by norm_num) (by norm_num)
  have h' := float32_parts (s := 1) (e := 126) (f := 0) (by norm_num) (by norm_num) (by norm_num)
  norm_num at h h'
  rw [fromFile, fromFile, fromFile]
  · norm_num
    exact ⟨h, h'⟩
  · simp

end PyBSM
