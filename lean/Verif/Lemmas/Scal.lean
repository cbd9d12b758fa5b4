import Verif.Num.Arr

noncomputable section

open Classical

namespace PyBSM

namespace Scal

/-- the scalar is a Python number -/
def IsPy : Scal → Prop
  | py _ => True
  | np _ => False

theorem val_py (x : XR) : (py x).val = x := rfl
theorem val_np (x : XR) : (np x).val = x := rfl
theorem val_add (a b : Scal) : (a + b).val = a.val + b.val := by cases a <;> cases b <;> rfl
theorem val_sub (a b : Scal) : (a - b).val = a.val - b.val := by cases a <;> cases b <;> rfl
theorem val_mul (a b : Scal) : (a * b).val = a.val * b.val := by cases a <;> cases b <;> rfl
theorem val_pow (a : Scal) (n : ℕ) : (a ^ n).val = a.val ^ n := by cases a <;> rfl
theorem isPy_add (a b : Scal) : (a + b).IsPy ↔ a.IsPy ∧ b.IsPy := by
  cases a <;> cases b <;>
    simp [IsPy, HAdd.hAdd, Add.add, lift2]
theorem isPy_sub (a b : Scal) : (a - b).IsPy ↔ a.IsPy ∧ b.IsPy := by
  cases a <;> cases b <;>
    simp [IsPy, HSub.hSub, Sub.sub, lift2]
theorem isPy_mul (a b : Scal) : (a * b).IsPy ↔ a.IsPy ∧ b.IsPy := by
  cases a <;> cases b <;>
    simp [IsPy, HMul.hMul, Mul.mul, lift2]
theorem isPy_pow (a : Scal) (n : ℕ) : (a ^ n).IsPy ↔ a.IsPy := by
  cases a
  · show True ↔ True; rfl
  · show False ↔ False; rfl
theorem isPy_py (x : XR) : (py x).IsPy ↔ True := Iff.rfl
theorem isPy_np (x : XR) : (np x).IsPy ↔ False := Iff.rfl

/-- Division raises only for two Python numbers and a zero divisor. -/
theorem div_error_iff (a b : Scal) (e : PyErr) :
    a.div b = .error e ↔ e = .zeroDivisionError ∧ a.IsPy ∧ b.IsPy ∧ XR.eq b.val 0 := by
  cases a with
  | np x => simp [div, IsPy]
  | py x =>
    cases b with
    | np y => simp [div, IsPy]
    | py y =>
      by_cases h : XR.eq y 0
      · simp [div, h, IsPy, val, eq_comm]
      · simp [div, h, IsPy, val]

theorem div_ok {a b : Scal} (h : ¬ (a.IsPy ∧ b.IsPy ∧ XR.eq b.val 0)) :
    ∃ c, a.div b = .ok c ∧ c.val = a.val / b.val := by
  cases a with
  | np x => cases b <;> exact ⟨_, rfl, rfl⟩
  | py x =>
    cases b with
    | np y => exact ⟨_, rfl, rfl⟩
    | py y =>
      have : ¬ XR.eq y 0 := fun e => h ⟨trivial, trivial, e⟩
      exact ⟨py (x / y), by simp [div, this], rfl⟩

theorem div_ok_val {a b c : Scal} (h : a.div b = .ok c) : c.val = a.val / b.val := by
  cases a with
  | np x => cases b <;> (simp [div] at h; rw [← h]; rfl)
  | py x =>
    cases b with
    | np y => simp [div] at h; rw [← h]; rfl
    | py y =>
      by_cases h' : XR.eq y 0
      · simp [div, h'] at h
      · simp [div, h'] at h; rw [← h]; rfl

/-- Division of finite scalars by a nonzero one. -/
theorem div_fin {a b : Scal} {x y : ℝ} (ha : a.val = .fin x) (hb : b.val = .fin y) (hy : y ≠ 0) :
    ∃ c, a.div b = .ok c ∧ c.val = .fin (x / y) := by
  obtain ⟨c, h1, h2⟩ := div_ok (a := a) (b := b) (by rintro ⟨-, -, h⟩; rw [hb] at h; exact hy h)
  exact ⟨c, h1, by rw [h2, ha, hb, XR.fin_div _ hy]⟩

end Scal

end PyBSM
