import Verif.Spec.Niirs

/-!
# What `niirs` and `niirs5` depend on
-/

noncomputable section

open Classical

namespace PyBSM

open Spec

theorem Spec.SameScene.refl (a : Scenario) : SameScene a a := ⟨rfl, rfl, rfl, rfl, rfl, rfl, rfl⟩
theorem Spec.SameScene.symm {a b : Scenario} (h : SameScene a b) : SameScene b a :=
  ⟨h.1.symm, h.2.symm, h.3.symm, h.4.symm, h.5.symm, h.6.symm, h.7.symm⟩
theorem Spec.SameScene.trans {a b c : Scenario} (h : SameScene a b) (g : SameScene b c) : SameScene a c :=
  ⟨h.1.trans g.1, h.2.trans g.2, h.3.trans g.3, h.4.trans g.4, h.5.trans g.5, h.6.trans g.6, h.7.trans g.7⟩

theorem bookkeeping_same (s : Sensor) (sc : Scenario) : SameScene (niirsBookkeeping s sc) sc := by
  unfold niirsBookkeeping
  split_ifs <;> exact ⟨rfl, rfl, rfl, rfl, rfl, rfl, rfl⟩

theorem commonTurbulence_same {a b : Scenario} (h : SameScene a b) (s : Sensor) (us vs wl weights : List XR) (r : Scal) (t : XR) :
    commonTurbulence s a us vs wl weights r t = commonTurbulence s b us vs wl weights r t := by
  unfold commonTurbulence
  rw [h.altitude, h.aircraftSpeed, h.haWindSpeed, h.cn2At1m]

theorem commonOTFs_same {a b : Scenario} (h : SameScene a b) (diag : ℕ → ℕ → Bool) (s : Sensor)
    (us vs wl weights : List XR) (r : Scal) (t : XR) :
    commonOTFs diag s a us vs wl weights r t = commonOTFs diag s b us vs wl weights r t := by
  unfold commonOTFs
  rw [commonTurbulence_same h]

theorem gridOTFs_same {a b : Scenario} (h : SameScene a b) (env : Env) (n : ℕ) (s : Sensor) (c : XR)
    (wl weights : List XR) (r t : XR) : gridOTFs env n s a c wl weights r t = gridOTFs env n s b c wl weights r t := by
  unfold gridOTFs
  congr 1
  funext v
  exact commonOTFs_same h _ _ _ _ _ _ _ _

theorem slant_same {a b : Scenario} (h : SameScene a b) : niirsSlantRange a = niirsSlantRange b := by
  unfold niirsSlantRange
  rw [h.altitude, h.groundRange]

theorem niirsAtm_same {a b : Scenario} (h : SameScene a b) (env : Env) (s : Sensor) (i : Bool) :
    niirsAtm env s a i = niirsAtm env s b i := by
  unfold niirsAtm
  rw [h.altitude, h.groundRange, h.ihaze]

theorem niirsTail_same {a b : Scenario} (h : SameScene a b) (env : Env) (s : Sensor) (atm : Atm) (m : NiirsMid) :
    niirsTail env s a atm m = niirsTail env s b atm m := by
  unfold niirsTail
  rw [slant_same h, h.altitude]
  simp only [gridOTFs_same h]

theorem niirs5Tail_same {a b : Scenario} (h : SameScene a b) (env : Env) (s : Sensor) (atm : Atm) (m : NiirsMid) :
    niirs5Tail env s a atm m = niirs5Tail env s b atm m := by
  unfold niirs5Tail
  rw [slant_same h, h.altitude]
  simp only [gridOTFs_same h]

/-- the sensor with another sharpening kernel -/
def withKernel (s : Sensor) (k : Kernel) : Sensor := { s with filterKernel := k }

theorem niirsAtm_kernel (env : Env) (s : Sensor) (k : Kernel) (sc : Scenario) (i : Bool) :
    niirsAtm env (withKernel s k) sc i = niirsAtm env s sc i := rfl

theorem niirsMid_kernel (s : Sensor) (k : Kernel) (atm : Atm) :
    niirsMid (withKernel s k) atm = niirsMid s atm := rfl

theorem bookkeeping_kernel (s : Sensor) (k : Kernel) (sc : Scenario) :
    niirsBookkeeping (withKernel s k) sc = niirsBookkeeping s sc := rfl

theorem niirs_result (env : Env) (s : Sensor) (sc : Scenario) (i : Bool) :
    (niirs env s sc i).1 = (do
      let atm ← niirsAtm env s sc i
      let m ← niirsMid s atm
      niirsTail env s sc atm m) := by
  unfold niirs
  cases niirsAtm env s sc i with
  | error e => rfl
  | ok atm =>
    dsimp only
    cases h : niirsMid s atm with
    | error e => simp [bind, Except.bind, h]
    | ok m =>
      simp only [bind, Except.bind, h]
      exact niirsTail_same (bookkeeping_same s sc) env s atm m

theorem niirs5_result (env : Env) (s : Sensor) (sc : Scenario) (i : Bool) :
    (niirs5 env s sc i).1 = (do
      let atm ← niirsAtm env s sc i
      let m ← niirsMid s atm
      niirs5Tail env (withKernel s [[1]]) sc atm m) := by
  unfold niirs5
  cases niirsAtm env s sc i with
  | error e => rfl
  | ok atm =>
    dsimp only
    cases h : niirsMid s atm with
    | error e => simp [bind, Except.bind, h]
    | ok m =>
      simp only [bind, Except.bind, h]
      exact niirs5Tail_same (bookkeeping_same s sc) env (withKernel s [[1]]) atm m

/-- How far a call gets: past the atmosphere and the SNR. -/
def reachesTail (env : Env) (s : Sensor) (sc : Scenario) (i : Bool) : Prop :=
  ∃ atm m, niirsAtm env s sc i = .ok atm ∧ niirsMid s atm = .ok m

theorem niirs_state (env : Env) (s : Sensor) (sc : Scenario) (i : Bool) :
    (niirs env s sc i).2 = (s, if ∃ atm, niirsAtm env s sc i = .ok atm then niirsBookkeeping s sc else sc) := by
  unfold niirs
  cases h : niirsAtm env s sc i with
  | error e => simp
  | ok atm =>
    dsimp only
    cases h : niirsMid s atm <;> simp

theorem niirs5_state (env : Env) (s : Sensor) (sc : Scenario) (i : Bool) :
    (niirs5 env s sc i).2 = (if reachesTail env s sc i then withKernel s [[1]] else s,
      if ∃ atm, niirsAtm env s sc i = .ok atm then niirsBookkeeping s sc else sc) := by
  unfold niirs5 reachesTail
  cases h : niirsAtm env s sc i with
  | error e => simp
  | ok atm =>
    dsimp only
    cases h' : niirsMid s atm with
    | error e => simp [h']
    | ok m =>
      simp only [Except.ok.injEq, exists_eq', if_true]
      rw [if_pos ⟨atm, m, rfl, h'⟩]
      rfl

theorem reachesTail_same {a b : Scenario} (h : SameScene a b) (env : Env) (s : Sensor) (k : Kernel) (i : Bool) :
    reachesTail env (withKernel s k) a i ↔ reachesTail env s b i := by
  unfold reachesTail
  rw [niirsAtm_kernel, niirsAtm_same h]
  rfl

theorem niirs5_result_same {a b : Scenario} (h : SameScene a b) (env : Env) (s : Sensor) (k : Kernel) (i : Bool) :
    (niirs5 env (withKernel s k) a i).1 = (niirs5 env s b i).1 := by
  rw [niirs5_result, niirs5_result, niirsAtm_kernel, niirsAtm_same h]
  congr 1
  funext atm
  rw [niirsMid_kernel]
  congr 1
  funext m
  exact niirs5Tail_same h env _ atm m

theorem niirs_result_same {a b : Scenario} (h : SameScene a b) (env : Env) (s : Sensor) (i : Bool) :
    (niirs env s a i).1 = (niirs env s b i).1 := by
  rw [niirs_result, niirs_result, niirsAtm_same h]
  congr 1
  funext atm
  congr 1
  funext m
  exact niirsTail_same h env _ atm m

theorem withKernel_self (s : Sensor) : withKernel s s.filterKernel = s := rfl

theorem call_same (env : Env) (s : Sensor) (sc : Scenario) (c : Call) : SameScene (c.run env s sc).2.2 sc := by
  cases c with
  | niirs i =>
    show SameScene (niirs env s sc i).2.2 sc
    rw [niirs_state]
    dsimp only
    split_ifs
    · exact bookkeeping_same s sc
    · exact SameScene.refl sc
  | niirs5 i =>
    show SameScene (niirs5 env s sc i).2.2 sc
    rw [niirs5_state]
    dsimp only
    split_ifs
    · exact bookkeeping_same s sc
    · exact SameScene.refl sc

/-- The invariant of every history. -/
theorem after_invariant (env : Env) (s : Sensor) (sc : Scenario) (cs : List Call) :
    SameScene (after env s sc cs).2 sc
    ∧ (((∃ i, Call.niirs5 i ∈ cs ∧ reachesTail env s sc i) ∧ (after env s sc cs).1 = withKernel s [[1]])
      ∨ ((¬ ∃ i, Call.niirs5 i ∈ cs ∧ reachesTail env s sc i) ∧ (after env s sc cs).1 = s)) := by
  induction cs generalizing s sc with
  | nil => exact ⟨SameScene.refl _, Or.inr ⟨by simp, rfl⟩⟩
  | cons c cs ih =>
    have hs := call_same env s sc c
    show SameScene (after env (c.run env s sc).2.1 (c.run env s sc).2.2 cs).2 sc ∧
      (_ ∧ (after env (c.run env s sc).2.1 (c.run env s sc).2.2 cs).1 = _
        ∨ _ ∧ (after env (c.run env s sc).2.1 (c.run env s sc).2.2 cs).1 = _)
    obtain ⟨i1, i2⟩ := ih (c.run env s sc).2.1 (c.run env s sc).2.2
    refine ⟨i1.trans hs, ?_⟩
    have unchanged : (c.run env s sc).2.1 = s → (∀ i, c = Call.niirs5 i → ¬ reachesTail env s sc i) →
        (((∃ i, Call.niirs5 i ∈ c :: cs ∧ reachesTail env s sc i)
            ∧ (after env (c.run env s sc).2.1 (c.run env s sc).2.2 cs).1 = withKernel s [[1]])
          ∨ ((¬ ∃ i, Call.niirs5 i ∈ c :: cs ∧ reachesTail env s sc i)
            ∧ (after env (c.run env s sc).2.1 (c.run env s sc).2.2 cs).1 = s)) := by
      intro e hc
      have e2 : ∀ i, reachesTail env s (c.run env s sc).2.2 i ↔ reachesTail env s sc i := fun i =>
        reachesTail_same hs env s s.filterKernel i
      simp only [e] at i2 ⊢
      have hiff : (∃ i, Call.niirs5 i ∈ c :: cs ∧ reachesTail env s sc i)
          ↔ ∃ i, Call.niirs5 i ∈ cs ∧ reachesTail env s (c.run env s sc).2.2 i := by
        constructor
        · rintro ⟨i, hm, hr⟩
          rcases List.mem_cons.mp hm with h | h
          · exact absurd hr (hc i h.symm)
          · exact ⟨i, h, (e2 i).mpr hr⟩
        · rintro ⟨i, hm, hr⟩
          exact ⟨i, List.mem_cons_of_mem _ hm, (e2 i).mp hr⟩
      rw [hiff]
      exact i2
    cases c with
    | niirs i =>
      apply unchanged
      · show (niirs env s sc i).2.1 = s
        rw [niirs_state]
      · intro j h; cases h
    | niirs5 i =>
      by_cases hr : reachesTail env s sc i
      · left
        refine ⟨⟨i, by simp, hr⟩, ?_⟩
        have e : ((Call.niirs5 i).run env s sc).2.1 = withKernel s [[1]] := by
          show (niirs5 env s sc i).2.1 = _
          rw [niirs5_state, if_pos hr]
        rw [e] at i2 ⊢
        rcases i2 with ⟨-, h⟩ | ⟨-, h⟩
        · rw [h]; rfl
        · exact h
      · apply unchanged
        · show (niirs5 env s sc i).2.1 = s
          rw [niirs5_state, if_neg hr]
        · intro j h
          cases h
          exact hr

end PyBSM
