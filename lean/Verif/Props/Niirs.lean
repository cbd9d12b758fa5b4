import Verif.Lemmas.Niirs

/-!
# C57, C58: `niirs` and `niirs5` over histories of calls

All statements are for an arbitrary atmosphere database, sensor and scenario (`env`, `s`, `sc`), and cover
calls that raise.
-/

noncomputable section

open Classical

namespace PyBSM

open Spec

/-! ## C57 -/

/-- **C57** (repeatable): after any number of `niirs` calls on the same objects, a call returns (or raises)
what it would have at the start. -/
theorem C57_repeatable (env : Env) (s : Sensor) (sc : Scenario) (cs : List Call) (h : ∀ c ∈ cs, ∃ j, c = .niirs j) (i : Bool) :
    (niirs env (after env s sc cs).1 (after env s sc cs).2 i).1 = (niirs env s sc i).1 := by
  obtain ⟨h1, ⟨⟨j, hj, -⟩, -⟩ | ⟨-, h2⟩⟩ := after_invariant env s sc cs
  · obtain ⟨k, hk⟩ := h _ hj
    cases hk
  · rw [h2]
    exact niirs_result_same h1 env s i

/-- **C57** (independence): the target and background reflectances and temperatures of the scenario have no
influence; nor do its `interp` flag and its cached atmosphere. -/
theorem C57_independent (env : Env) (s : Sensor) {a b : Scenario} (h : SameScene a b) (i : Bool) :
    (niirs env s a i).1 = (niirs env s b i).1 := niirs_result_same h env s i

/-- **C57** (rewritten fields): a normal return leaves GIQE's nominal reflectances in the scenario, in the
thermal band (first wavelength of the sensor at least 2.9 um) also the target temperature 280. -/
theorem C57_rewrites (env : Env) (s : Sensor) (sc : Scenario) (i : Bool) {m : Metrics} (h : (niirs env s sc i).1 = .ok m)
    {l : ℝ} {ls : List XR} (hl : s.optTransWavelengths = .fin l :: ls) :
    (2.9e-6 ≤ l → (niirs env s sc i).2.2.targetReflectance = 0 ∧ (niirs env s sc i).2.2.backgroundReflectance = 0
      ∧ (niirs env s sc i).2.2.targetTemperature = 280)
    ∧ (l < 2.9e-6 → (niirs env s sc i).2.2.targetReflectance = 0.15 ∧ (niirs env s sc i).2.2.backgroundReflectance = 0.07
      ∧ (niirs env s sc i).2.2.targetTemperature = sc.targetTemperature) := by
  have hatm : ∃ atm, niirsAtm env s sc i = .ok atm := by
    rw [niirs_result] at h
    cases ha : niirsAtm env s sc i with
    | error e => rw [ha] at h; cases h
    | ok atm => exact ⟨atm, rfl⟩
  rw [niirs_state]
  dsimp only
  rw [if_pos hatm]
  unfold niirsBookkeeping
  constructor
  · intro hb
    have : isEmissiveBand s := by unfold isEmissiveBand; rw [hl]; exact hb
    rw [if_pos this]
    exact ⟨rfl, rfl, rfl⟩
  · intro hb
    have : ¬ isEmissiveBand s := by unfold isEmissiveBand; rw [hl]; exact not_le.mpr hb
    rw [if_neg this]
    exact ⟨rfl, rfl, rfl⟩

/-- **C57** (untouched): no call, normal or not, changes the sensor or any other field of the scenario, in
particular not the background temperature. -/
theorem C57_untouched (env : Env) (s : Sensor) (sc : Scenario) (i : Bool) :
    (niirs env s sc i).2.1 = s ∧ SameScene (niirs env s sc i).2.2 sc
    ∧ (niirs env s sc i).2.2.backgroundTemperature = sc.backgroundTemperature
    ∧ (niirs env s sc i).2.2.interp = sc.interp ∧ (niirs env s sc i).2.2.atmCache = sc.atmCache := by
  rw [niirs_state]
  dsimp only
  refine ⟨rfl, ?_, ?_⟩
  · split_ifs
    · exact bookkeeping_same s sc
    · exact SameScene.refl sc
  · unfold niirsBookkeeping
    split_ifs <;> exact ⟨rfl, rfl, rfl⟩

/-- **C57** (failure): if the call fails although the atmosphere was loaded, the scenario has been
rewritten all the same; if the atmosphere cannot be loaded it has not. -/
theorem C57_failure (env : Env) (s : Sensor) (sc : Scenario) (i : Bool) :
    ((∃ e, niirsAtm env s sc i = .error e) → (niirs env s sc i).2 = (s, sc))
    ∧ ((∃ atm, niirsAtm env s sc i = .ok atm) → (niirs env s sc i).2 = (s, niirsBookkeeping s sc)) := by
  rw [niirs_state]
  constructor
  · rintro ⟨e, he⟩
    rw [if_neg (by rw [he]; simp)]
  · intro h
    rw [if_pos h]

/-! ## C58 -/

/-- **C58** (sensor changed): a normal return of `niirs5` leaves the identity kernel in the caller's sensor,
and changes nothing else in it. -/
theorem C58_resets_kernel (env : Env) (s : Sensor) (sc : Scenario) (i : Bool) {m : Metrics}
    (h : (niirs5 env s sc i).1 = .ok m) : (niirs5 env s sc i).2.1 = { s with filterKernel := [[1]] } := by
  have hr : reachesTail env s sc i := by
    rw [niirs5_result] at h
    cases ha : niirsAtm env s sc i with
    | error e => rw [ha] at h; cases h
    | ok atm =>
      rw [ha] at h
      cases hm : niirsMid s atm with
      | error e => simp [bind, Except.bind, hm] at h
      | ok mid => exact ⟨atm, mid, ha, hm⟩
  rw [niirs5_state]
  dsimp only
  rw [if_pos hr]
  rfl

/-- **C58** (effect on `niirs`): a `niirs` call after a normal return of `niirs5` computes with the identity kernel,
whatever the sensor's kernel was. -/
theorem C58_niirs_after (env : Env) (s : Sensor) (sc : Scenario) (i j : Bool) {m : Metrics}
    (h : (niirs5 env s sc i).1 = .ok m) :
    (niirs env (niirs5 env s sc i).2.1 (niirs5 env s sc i).2.2 j).1
      = (niirs env { s with filterKernel := [[1]] } sc j).1 := by
  rw [C58_resets_kernel env s sc i h]
  exact niirs_result_same (call_same env s sc (.niirs5 i)) env _ j

/-- **C58** (`niirs5` repeatable): after any history of `niirs` and `niirs5` calls `niirs5` returns what it would
have at the start. -/
theorem C58_repeatable (env : Env) (s : Sensor) (sc : Scenario) (cs : List Call) (i : Bool) :
    (niirs5 env (after env s sc cs).1 (after env s sc cs).2 i).1 = (niirs5 env s sc i).1 := by
  obtain ⟨h1, ⟨-, h2⟩ | ⟨-, h2⟩⟩ := after_invariant env s sc cs
  · rw [h2]; exact niirs5_result_same h1 env s [[1]] i
  · rw [h2]; exact niirs5_result_same h1 env s s.filterKernel i

/-- **C58** (independence): `niirs5` does not depend on the sensor's kernel or on the overridden scenario fields. -/
theorem C58_independent (env : Env) (s : Sensor) (k : Kernel) {a b : Scenario} (h : SameScene a b) (i : Bool) :
    (niirs5 env { s with filterKernel := k } a i).1 = (niirs5 env s b i).1 := niirs5_result_same h env s k i

/-- **C58** (any history): after an arbitrary history of calls, `niirs` returns either what it would have at
the start or what it would have with the identity kernel; the latter as soon as one `niirs5` call
returned normally at some point of the history. -/
theorem C58_history (env : Env) (s : Sensor) (sc : Scenario) (cs : List Call) (i : Bool) :
    ((niirs env (after env s sc cs).1 (after env s sc cs).2 i).1 = (niirs env s sc i).1
      ∨ (niirs env (after env s sc cs).1 (after env s sc cs).2 i).1 = (niirs env { s with filterKernel := [[1]] } sc i).1)
    ∧ ((∃ j m, Call.niirs5 j ∈ cs ∧ (niirs5 env s sc j).1 = .ok m) →
      (niirs env (after env s sc cs).1 (after env s sc cs).2 i).1 = (niirs env { s with filterKernel := [[1]] } sc i).1) := by
  obtain ⟨h1, h⟩ := after_invariant env s sc cs
  constructor
  · rcases h with ⟨-, h2⟩ | ⟨-, h2⟩
    · right; rw [h2]; exact niirs_result_same h1 env _ i
    · left; rw [h2]; exact niirs_result_same h1 env _ i
  · rintro ⟨j, m, hj, hm⟩
    rcases h with ⟨-, h2⟩ | ⟨h0, -⟩
    · rw [h2]; exact niirs_result_same h1 env _ i
    · exfalso
      apply h0
      refine ⟨j, hj, ?_⟩
      rw [niirs5_result] at hm
      cases ha : niirsAtm env s sc j with
      | error e => rw [ha] at hm; cases hm
      | ok atm =>
        rw [ha] at hm
        cases hmid : niirsMid s atm with
        | error e => simp [bind, Except.bind, hmid] at hm
        | ok mid => exact ⟨atm, mid, ha, hmid⟩

end PyBSM
