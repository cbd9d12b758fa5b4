import Verif.Spec.NiirsThreads
import Verif.Lemmas.Niirs
import Verif.Props.NiirsDemo

/-!
# C104: `niirs` and `niirs5` on a sensor shared by threads
-/

noncomputable section

open Classical

namespace PyBSM

open Spec

theorem niirsTail_split (env : Env) (s : Sensor) (k : Kernel) (sc : Scenario) (atm : Atm) (m : NiirsMid) :
    niirsTail env (withKernel s k) sc atm m = (do
      let otf ← niirsGrid env s sc m k
      niirsFinish s sc atm m otf k) := rfl

theorem niirs5Tail_split (env : Env) (s : Sensor) (k : Kernel) (sc : Scenario) (atm : Atm) (m : NiirsMid) :
    niirs5Tail env (withKernel s k) sc atm m = (do
      let otf ← niirsGrid env s sc m k
      niirs5Finish s sc atm m otf) := rfl

/-- The call has got past the SNR. -/
def PastSnr (env : Env) (s : Sensor) (c : NiirsCall) (atm : Atm) (m : NiirsMid) : Prop :=
  niirsAtm env s c.scenario c.interp = .ok atm ∧ niirsMid s atm = .ok m

theorem niirs_past {env : Env} {s : Sensor} {c : NiirsCall} {atm : Atm} {m : NiirsMid} (h : PastSnr env s c atm m) (k : Kernel) :
    (niirs env (withKernel s k) c.scenario c.interp).1 = (do
      let otf ← niirsGrid env s c.scenario m k
      niirsFinish s c.scenario atm m otf k) := by
  rw [niirs_result, niirsAtm_kernel, h.1, ok_bind, niirsMid_kernel, h.2, ok_bind, niirsTail_split]

theorem niirs5_past {env : Env} {s : Sensor} {c : NiirsCall} {atm : Atm} {m : NiirsMid} (h : PastSnr env s c atm m) :
    (niirs5 env s c.scenario c.interp).1 = (do
      let otf ← niirsGrid env s c.scenario m [[1]]
      niirs5Finish s c.scenario atm m otf) := by
  rw [niirs5_result, h.1, ok_bind, h.2, ok_bind, niirs5Tail_split]

theorem overtaken_past {env : Env} {s : Sensor} {c : NiirsCall} {atm : Atm} {m : NiirsMid} (h : PastSnr env s c atm m) :
    c.overtaken env s = (do
      let otf ← niirsGrid env s c.scenario m s.filterKernel
      niirsFinish s c.scenario atm m otf [[1]]) := by
  unfold NiirsCall.overtaken
  rw [h.1, ok_bind, h.2, ok_bind]

/-- How a call may end; `other` says that some thread calls `niirs5`. -/
def EndOk (env : Env) (s : Sensor) (other : Prop) (c : NiirsCall) (r : Except PyErr Metrics) : Prop :=
  r = c.alone env s ∨ (c.five = false ∧ other ∧ (r = c.alone env (unsharpened s) ∨ r = c.overtaken env s
    ∨ (1 < s.filterKernel.length ∧ r = .error .indexError)))

/-- What is known of a call in progress. -/
def CallOk (env : Env) (s : Sensor) (other : Prop) (kernel : Kernel) (c : NiirsCall) : NiirsThread → Prop
  | .start five sc i => five = c.five ∧ sc = c.scenario ∧ i = c.interp
  | .reset sc atm m => c.five = true ∧ sc = c.scenario ∧ PastSnr env s c atm m
  | .check five sc atm m => five = c.five ∧ sc = c.scenario ∧ PastSnr env s c atm m ∧ (c.five = true → kernel = [[1]])
  | .use five sc atm m => five = false ∧ c.five = false ∧ sc = c.scenario ∧ PastSnr env s c atm m ∧ 1 < s.filterKernel.length
  | .gain sc atm m otf => c.five = false ∧ sc = c.scenario ∧ PastSnr env s c atm m
      ∧ (niirsGrid env s c.scenario m s.filterKernel = .ok otf
        ∨ (niirsGrid env s c.scenario m [[1]] = .ok otf ∧ kernel = [[1]] ∧ other))
  | .done r => EndOk env s other c r

/-- The kernel is the client's, or a `niirs5` call has reset it. -/
def KernelOk (s : Sensor) (other : Prop) (kernel : Kernel) : Prop := kernel = s.filterKernel ∨ (kernel = [[1]] ∧ other)

theorem callOk_reset {env : Env} {s : Sensor} {other : Prop} {kernel : Kernel} {c : NiirsCall} {t : NiirsThread}
    (h : CallOk env s other kernel c t) : CallOk env s other [[1]] c t := by
  cases t with
  | start five sc i => exact h
  | reset sc atm m => exact h
  | check five sc atm m => exact ⟨h.1, h.2.1, h.2.2.1, fun _ => rfl⟩
  | use five sc atm m => exact h
  | gain sc atm m otf =>
    obtain ⟨h1, h2, h3, h4 | ⟨h4, -, h5⟩⟩ := h
    · exact ⟨h1, h2, h3, Or.inl h4⟩
    · exact ⟨h1, h2, h3, Or.inr ⟨h4, rfl, h5⟩⟩
  | done r => exact h

theorem alone_niirs {env : Env} {s : Sensor} {c : NiirsCall} (h : c.five = false) :
    c.alone env s = (niirs env s c.scenario c.interp).1 := by unfold NiirsCall.alone; rw [h]; rfl

theorem alone_niirs5 {env : Env} {s : Sensor} {c : NiirsCall} (h : c.five = true) :
    c.alone env s = (niirs5 env s c.scenario c.interp).1 := by unfold NiirsCall.alone; rw [h]; rfl

theorem callOk_step {env : Env} {s : Sensor} {other : Prop} {kernel : Kernel} {c : NiirsCall} {t : NiirsThread}
    (ho : c.five = true → other) (hk : KernelOk s other kernel) (h : CallOk env s other kernel c t) :
    ((t.step env s kernel).1 = kernel ∨ ((t.step env s kernel).1 = [[1]] ∧ other))
      ∧ CallOk env s other (t.step env s kernel).1 c (t.step env s kernel).2 := by
  cases t with
  | start five sc i =>
    obtain ⟨rfl, rfl, rfl⟩ := h
    refine ⟨Or.inl rfl, ?_⟩
    simp only [NiirsThread.step]
    cases ha : niirsAtm env s c.scenario c.interp with
    | error e =>
      refine Or.inl ?_
      unfold NiirsCall.alone
      rw [niirs5_result, niirs_result, ha]
      split_ifs <;> rfl
    | ok atm =>
      dsimp only
      cases hm : niirsMid s atm with
      | error e =>
        refine Or.inl ?_
        unfold NiirsCall.alone
        rw [niirs5_result, niirs_result, ha, ok_bind, ok_bind, hm]
        split_ifs <;> rfl
      | ok m =>
        dsimp only
        cases hf : c.five with
        | true => exact ⟨hf, rfl, ha, hm⟩
        | false => exact ⟨hf.symm, rfl, ⟨ha, hm⟩, fun h => by rw [hf] at h; cases h⟩
  | reset sc atm m =>
    obtain ⟨h1, h2, h3⟩ := h
    exact ⟨Or.inr ⟨rfl, ho h1⟩, h1.symm, h2, h3, fun _ => rfl⟩
  | check five sc atm m =>
    obtain ⟨rfl, rfl, h3, h4⟩ := h
    refine ⟨Or.inl rfl, ?_⟩
    simp only [NiirsThread.step]
    cases hf : c.five with
    | true =>
      rw [h4 hf, if_neg (by simp)]
      have hp := niirs5_past h3
      rw [← alone_niirs5 hf] at hp
      cases hg : niirsGrid env s c.scenario m [[1]] with
      | error e => rw [hg] at hp; exact Or.inl hp.symm
      | ok otf => rw [hg] at hp; exact Or.inl hp.symm
    | false =>
      by_cases hl : 1 < kernel.length
      · rw [if_pos hl]
        rcases hk with rfl | ⟨rfl, -⟩
        · exact ⟨rfl, hf, rfl, h3, hl⟩
        · simp at hl
      · rw [if_neg hl]
        rcases hk with rfl | ⟨rfl, hot⟩
        · have hp := niirs_past h3 s.filterKernel
          rw [withKernel_self, ← alone_niirs hf] at hp
          cases hg : niirsGrid env s c.scenario m s.filterKernel with
          | error e => rw [hg] at hp; exact Or.inl hp.symm
          | ok otf => exact ⟨hf, rfl, h3, Or.inl hg⟩
        · have hp := niirs_past h3 [[1]]
          rw [show withKernel s [[1]] = unsharpened s from rfl, ← alone_niirs hf] at hp
          cases hg : niirsGrid env s c.scenario m [[1]] with
          | error e => rw [hg] at hp; exact Or.inr ⟨hf, hot, Or.inl hp.symm⟩
          | ok otf => exact ⟨hf, rfl, h3, Or.inr ⟨hg, rfl, hot⟩⟩
  | use five sc atm m =>
    obtain ⟨rfl, hf, rfl, h3, h4⟩ := h
    refine ⟨Or.inl rfl, ?_⟩
    simp only [NiirsThread.step]
    rcases hk with rfl | ⟨rfl, hot⟩
    · rw [if_pos h4]
      have hp := niirs_past h3 s.filterKernel
      rw [withKernel_self, ← alone_niirs hf] at hp
      cases hg : niirsGrid env s c.scenario m s.filterKernel with
      | error e => rw [hg] at hp; exact Or.inl hp.symm
      | ok otf => exact ⟨hf, rfl, h3, Or.inl hg⟩
    · rw [if_neg (by simp)]
      have hp := niirs_past h3 [[1]]
      rw [show withKernel s [[1]] = unsharpened s from rfl, ← alone_niirs hf] at hp
      cases hg : niirsGrid env s c.scenario m [[1]] with
      | error e => rw [hg] at hp; exact Or.inr ⟨hf, hot, Or.inl hp.symm⟩
      | ok otf =>
        rw [hg, ok_bind] at hp
        rw [ok_bind]
        cases hd : Scal.div (.py s.pX) (.py s.f) with
        | error e =>
          unfold niirsFinish at hp
          rw [hd] at hp
          exact Or.inr ⟨hf, hot, Or.inl hp.symm⟩
        | ok q => exact Or.inr ⟨hf, hot, Or.inr (Or.inr ⟨h4, rfl⟩)⟩
  | gain sc atm m otf =>
    obtain ⟨hf, rfl, h3, h4⟩ := h
    refine ⟨Or.inl rfl, ?_⟩
    simp only [NiirsThread.step]
    rcases h4 with h4 | ⟨h4, rfl, hot⟩
    · rcases hk with rfl | ⟨rfl, hot⟩
      · have hp := niirs_past h3 s.filterKernel
        rw [withKernel_self, ← alone_niirs hf, h4, ok_bind] at hp
        exact Or.inl hp.symm
      · have hp := overtaken_past h3
        rw [h4, ok_bind] at hp
        exact Or.inr ⟨hf, hot, Or.inr (Or.inl hp.symm)⟩
    · have hp := niirs_past h3 [[1]]
      rw [show withKernel s [[1]] = unsharpened s from rfl, ← alone_niirs hf, h4, ok_bind] at hp
      exact Or.inr ⟨hf, hot, Or.inl hp.symm⟩
  | done r => exact ⟨Or.inl rfl, h⟩

theorem run_invariant {env : Env} {s : Sensor} {calls : ℕ → NiirsCall} (is : List ℕ) : ∀ (σ : SharedKernel),
    KernelOk s (∃ i, (calls i).five = true) σ.kernel →
    (∀ i, CallOk env s (∃ i, (calls i).five = true) σ.kernel (calls i) (σ.threads i)) →
    ∀ i, CallOk env s (∃ i, (calls i).five = true) (σ.run env s is).kernel (calls i) ((σ.run env s is).threads i) := by
  induction is with
  | nil => exact fun σ _ h => h
  | cons j is ih =>
    intro σ hk h
    obtain ⟨h1, h2⟩ := callOk_step (fun h => ⟨j, h⟩) hk (h j)
    refine ih (σ.step env s j) ?_ fun i => ?_
    · show KernelOk _ _ ((σ.threads j).step env s σ.kernel).1
      rcases h1 with h1 | h1
      · rw [h1]; exact hk
      · exact Or.inr h1
    · show CallOk _ _ _ ((σ.threads j).step env s σ.kernel).1 _ (Function.update σ.threads j _ i)
      by_cases hi : i = j
      · subst hi
        rw [Function.update_self]
        exact h2
      · rw [Function.update_of_ne hi]
        rcases h1 with h1 | ⟨h1, -⟩
        · rw [h1]; exact h i
        · rw [h1]; exact callOk_reset (h i)

theorem ending {env : Env} {s : Sensor} {calls : ℕ → NiirsCall} {is : List ℕ} {i : ℕ} {r : Except PyErr Metrics}
    (h : ((calling s calls).run env s is).threads i = .done r) : EndOk env s (∃ i, (calls i).five = true) (calls i) r := by
  have := run_invariant (env := env) (s := s) (calls := calls) is (calling s calls) (Or.inl rfl) (fun i => ⟨rfl, rfl, rfl⟩) i
  rw [h] at this
  exact this

/-- **C104** (`niirs5` is safe). Any number of `niirs` and `niirs5` calls on one sensor, interleaved in any way: a `niirs5`
call ends as if it had the sensor to itself. -/
theorem C104_niirs5 {env : Env} {s : Sensor} {calls : ℕ → NiirsCall} {schedule : List ℕ} {i : ℕ} {r : Except PyErr Metrics}
    (hc : (calls i).five = true) (h : ((calling s calls).run env s schedule).threads i = .done r) :
    r = (niirs5 env s (calls i).scenario (calls i).interp).1 := by
  rcases ending h with h | ⟨h, -⟩
  · rw [← alone_niirs5 hc]; exact h
  · rw [hc] at h; cases h

/-- **C104** (`niirs` calls among themselves are safe). If no thread calls `niirs5`, every call ends as if it had the sensor
to itself. -/
theorem C104_niirs_only {env : Env} {s : Sensor} {calls : ℕ → NiirsCall} {schedule : List ℕ} {i : ℕ} {r : Except PyErr Metrics}
    (hc : ∀ j, (calls j).five = false) (h : ((calling s calls).run env s schedule).threads i = .done r) :
    r = (niirs env s (calls i).scenario (calls i).interp).1 := by
  rcases ending h with h | ⟨-, ⟨j, hj⟩, -⟩
  · rw [← alone_niirs (hc i)]; exact h
  · rw [hc j] at hj; cases hj

/-- **C104** (`niirs` next to `niirs5`). A `niirs` call ends as if alone with the client's kernel, or as if alone with the
identity kernel, or with the OTFs of the former and the noise gain of the latter, or (if the kernel has two rows or more)
with `IndexError`. -/
theorem C104_niirs {env : Env} {s : Sensor} {calls : ℕ → NiirsCall} {schedule : List ℕ} {i : ℕ} {r : Except PyErr Metrics}
    (hc : (calls i).five = false) (h : ((calling s calls).run env s schedule).threads i = .done r) :
    r = (niirs env s (calls i).scenario (calls i).interp).1
      ∨ r = (niirs env (unsharpened s) (calls i).scenario (calls i).interp).1
      ∨ r = (calls i).overtaken env s
      ∨ (1 < s.filterKernel.length ∧ r = .error .indexError) := by
  rcases ending h with h | ⟨-, -, h⟩
  · rw [← alone_niirs hc]; exact Or.inl h
  · rw [← alone_niirs hc (s := unsharpened s)]; exact Or.inr h

/-- **C104** (without sharpening all calls are safe). If the sensor has the identity kernel, every call ends as if it had the
sensor to itself. -/
theorem C104_unsharpened {env : Env} {s : Sensor} {calls : ℕ → NiirsCall} {schedule : List ℕ} {i : ℕ} {r : Except PyErr Metrics}
    (hs : s.filterKernel = [[1]]) (h : ((calling s calls).run env s schedule).threads i = .done r) :
    r = (calls i).alone env s := by
  have hu : unsharpened s = s := by unfold unsharpened; rw [← hs]
  rcases ending h with h | ⟨hf, -, h | h | ⟨h, -⟩⟩
  · exact h
  · rw [hu] at h; exact h
  · rw [h, alone_niirs hf, niirs_result]
    unfold NiirsCall.overtaken
    congr 1
    funext atm
    congr 1
    funext m
    have := niirsTail_split env s s.filterKernel (calls i).scenario atm m
    rw [withKernel_self, hs] at this
    rw [this, hs]
  · rw [hs] at h; simp at h

/-! ## Every call ends -/

/-- How many more accesses a call needs at most. -/
def NiirsThread.left : NiirsThread → ℕ
  | .start _ _ _ => 5
  | .reset _ _ _ => 4
  | .check _ _ _ _ => 3
  | .use _ _ _ _ => 2
  | .gain _ _ _ _ => 1
  | .done _ => 0

theorem afterOTFs_left (s : Sensor) (five : Bool) (sc : Scenario) (atm : Atm) (m : NiirsMid) (x : Except PyErr (List OTFRow)) :
    (NiirsThread.afterOTFs s five sc atm m x).left ≤ 1 := by
  unfold NiirsThread.afterOTFs
  cases x with
  | error e => exact Nat.zero_le _
  | ok otf =>
    dsimp only
    split_ifs
    · exact Nat.zero_le _
    · exact le_rfl

theorem niirs_left_step (env : Env) (s : Sensor) (k : Kernel) (t : NiirsThread) :
    (t.step env s k).2.left ≤ t.left - 1 := by
  cases t with
  | start five sc i =>
    simp only [NiirsThread.step]
    cases niirsAtm env s sc i with
    | error e => exact Nat.zero_le _
    | ok atm =>
      dsimp only
      cases niirsMid s atm with
      | error e => exact Nat.zero_le _
      | ok m => cases five <;> simp [NiirsThread.left]
  | reset sc atm m => exact le_rfl
  | check five sc atm m =>
    simp only [NiirsThread.step]
    split_ifs
    · exact le_rfl
    · exact (afterOTFs_left _ _ _ _ _ _).trans (by simp [NiirsThread.left])
  | use five sc atm m =>
    simp only [NiirsThread.step]
    split_ifs
    · exact afterOTFs_left _ _ _ _ _ _
    · exact Nat.zero_le _
  | gain sc atm m otf => exact le_rfl
  | done r => exact le_rfl

theorem niirs_left_run (env : Env) (s : Sensor) (is : List ℕ) : ∀ (σ : SharedKernel) (i : ℕ),
    ((σ.run env s is).threads i).left ≤ (σ.threads i).left - is.count i := by
  induction is with
  | nil => intro σ i; simp [SharedKernel.run]
  | cons j is ih =>
    intro σ i
    refine le_trans (ih (σ.step env s j) i) ?_
    by_cases h : i = j
    · subst h
      have := niirs_left_step env s σ.kernel (σ.threads i)
      simp only [SharedKernel.step, Function.update_self, List.count_cons_self]
      omega
    · have h' : (j == i) = false := by simpa using fun e => h e.symm
      simp only [SharedKernel.step, Function.update_of_ne h, List.count_cons, h']
      simp

/-- **C104** (progress). A call that is scheduled five times has ended. -/
theorem C104_ends (env : Env) (s : Sensor) (calls : ℕ → NiirsCall) {schedule : List ℕ} {i : ℕ} (h : 5 ≤ schedule.count i) :
    ∃ r, ((calling s calls).run env s schedule).threads i = .done r := by
  have h1 := niirs_left_run env s schedule (calling s calls) i
  have h2 : ((calling s calls).threads i).left = 5 := rfl
  rw [h2] at h1
  have h3 : (((calling s calls).run env s schedule).threads i).left = 0 := by omega
  cases ht : ((calling s calls).run env s schedule).threads i with
  | done r => exact ⟨r, rfl⟩
  | _ => rw [ht] at h3; simp [NiirsThread.left] at h3

/-! ## The two anomalies -/

theorem giqe3_np (a b c d e : XR) : ∃ x, giqe3 (.np a) (.np b) (.np c) (.np d) (.np e) = .ok x := ⟨_, rfl⟩

theorem giqe4_np (a b c d e f : XR) : ∃ x, giqe4 (.np a) (.np b) (.np c) (.np d) (.np e) f = .ok x := by
  unfold giqe4
  split
  exact ⟨_, rfl⟩

theorem noiseGain_one : noiseGain [[1]] = .ok 1 := by
  rw [noiseGain_eq, if_pos (by simp)]
  simp [XR.one_def]

theorem finish_other_kernel {s : Sensor} {sc : Scenario} {atm : Atm} {m : NiirsMid} {otf : List OTFRow} {k : Kernel} {r : Metrics}
    (h : niirsFinish s sc atm m otf k = .ok r) :
    r.otf = otf ∧ (∃ ng, noiseGain k = .ok ng ∧ ∃ a b c d e f, r.giqe34 = some (a, b, c, d, ng, e, f))
      ∧ ∃ r', niirsFinish s sc atm m otf [[1]] = .ok r' ∧ Mixed r r' := by
  unfold niirsFinish at h ⊢
  obtain ⟨qx, h1, h⟩ := bind_ok.mp h
  obtain ⟨qy, h2, h⟩ := bind_ok.mp h
  obtain ⟨⟨rer, eho⟩, h3, h⟩ := bind_ok.mp h
  obtain ⟨ng, h4, h⟩ := bind_ok.mp h
  obtain ⟨n3, h5, h⟩ := bind_ok.mp h
  obtain ⟨nadir, h6, h⟩ := bind_ok.mp h
  obtain ⟨⟨n4, gp⟩, h7, h⟩ := bind_ok.mp h
  have h := Except.ok.inj h
  refine ⟨by rw [← h], ⟨ng, h4, _, _, _, _, _, _, by rw [← h]⟩, ?_⟩
  obtain ⟨x, hx⟩ := giqe3_np rer (XR.sqrt (qx.val * niirsSlantRange sc * (qy.val * niirsSlantRange sc))) eho 1
    (XR.sqrt s.frameStacks * m.snr.snr)
  obtain ⟨⟨y, z⟩, hy⟩ := giqe4_np rer (XR.sqrt (qx.val * niirsSlantRange sc * (qy.val * niirsSlantRange sc))) eho 1
    (XR.sqrt s.frameStacks * m.snr.snr) (.fin (Real.pi / 2) - nadir)
  simp only [h1, h2, h3, h6, noiseGain_one, ok_bind, hx, hy]
  exact ⟨_, rfl, by rw [← h], _, _, _, _, _, _, rfl⟩

/-- **C104** (a report of no sensor). If a `niirs` call alone returns the report `m`, the sensor's kernel has two rows or more,
and another thread calls `niirs5` and gets past its SNR, then there is a schedule in which the `niirs` call returns a report
with the OTFs of `m` and the noise gain of the identity kernel. -/
theorem C104_overtaken {env : Env} {s : Sensor} {calls : ℕ → NiirsCall} {m m5 : Metrics} (hk : 1 < s.filterKernel.length)
    (h0 : (calls 0).five = false) (h1 : (calls 1).five = true)
    (h : (niirs env s (calls 0).scenario (calls 0).interp).1 = .ok m)
    (h5 : (niirs5 env s (calls 1).scenario (calls 1).interp).1 = .ok m5) :
    ∃ m', ((calling s calls).run env s [0, 0, 0, 1, 1, 0]).threads 0 = .done (.ok m') ∧ Mixed m m' := by
  have h' := h
  rw [niirs_result] at h'
  obtain ⟨atm, a1, h'⟩ := bind_ok.mp h'
  obtain ⟨mid, a2, -⟩ := bind_ok.mp h'
  rw [niirs5_result] at h5
  obtain ⟨atm5, b1, h5⟩ := bind_ok.mp h5
  obtain ⟨mid5, b2, -⟩ := bind_ok.mp h5
  have hp := niirs_past (c := calls 0) ⟨a1, a2⟩ s.filterKernel
  rw [withKernel_self, h] at hp
  obtain ⟨otf, hg, hfin⟩ := bind_ok.mp hp.symm
  obtain ⟨-, -, m', hm', hmix⟩ := finish_other_kernel hfin
  refine ⟨m', ?_, hmix⟩
  simp only [SharedKernel.run, SharedKernel.step, calling, NiirsThread.step, NiirsThread.afterOTFs, Function.update_self, h0, h1,
    a1, a2, b1, b2, hk, if_true, hg, hm', Function.update_of_ne (show (1 : ℕ) ≠ 0 by norm_num),
    Function.update_of_ne (show (0 : ℕ) ≠ 1 by norm_num), Bool.false_eq_true, if_false]

/-- **C104** (a failure that neither call has alone). Under the same conditions, and if `niirs` without sharpening succeeds
too, there is a schedule in which the `niirs` call raises `IndexError`. -/
theorem C104_index_error {env : Env} {s : Sensor} {calls : ℕ → NiirsCall} {m m' m5 : Metrics} (hk : 1 < s.filterKernel.length)
    (h0 : (calls 0).five = false) (h1 : (calls 1).five = true)
    (h : (niirs env s (calls 0).scenario (calls 0).interp).1 = .ok m)
    (hu : (niirs env (unsharpened s) (calls 0).scenario (calls 0).interp).1 = .ok m')
    (h5 : (niirs5 env s (calls 1).scenario (calls 1).interp).1 = .ok m5) :
    ((calling s calls).run env s [0, 0, 1, 1, 0]).threads 0 = .done (.error .indexError) := by
  have h' := h
  rw [niirs_result] at h'
  obtain ⟨atm, a1, h'⟩ := bind_ok.mp h'
  obtain ⟨mid, a2, -⟩ := bind_ok.mp h'
  rw [niirs5_result] at h5
  obtain ⟨atm5, b1, h5⟩ := bind_ok.mp h5
  obtain ⟨mid5, b2, -⟩ := bind_ok.mp h5
  have hp := niirs_past (c := calls 0) ⟨a1, a2⟩ [[1]]
  rw [show withKernel s [[1]] = unsharpened s from rfl, hu] at hp
  obtain ⟨otf, hg, hfin⟩ := bind_ok.mp hp.symm
  unfold niirsFinish at hfin
  obtain ⟨qx, hq, -⟩ := bind_ok.mp hfin
  simp only [SharedKernel.run, SharedKernel.step, calling, NiirsThread.step, Function.update_self, h0, h1,
    a1, a2, b1, b2, hk, if_true, hg, hq, Function.update_of_ne (show (1 : ℕ) ≠ 0 by norm_num),
    Function.update_of_ne (show (0 : ℕ) ≠ 1 by norm_num), Bool.false_eq_true, if_false, List.length_singleton, lt_irrefl]
  rfl

/-! ## A concrete case -/

theorem niirs_gain {env : Env} {s : Sensor} {sc : Scenario} {interp : Bool} {m : Metrics}
    (h : (niirs env s sc interp).1 = .ok m) :
    ∃ ng, noiseGain s.filterKernel = .ok ng ∧ ∃ a b c d e f, m.giqe34 = some (a, b, c, d, ng, e, f) := by
  have h' := h
  rw [niirs_result] at h'
  obtain ⟨atm, a1, h'⟩ := bind_ok.mp h'
  obtain ⟨mid, a2, -⟩ := bind_ok.mp h'
  have hp := niirs_past (c := ⟨false, sc, interp⟩) ⟨a1, a2⟩ s.filterKernel
  rw [withKernel_self, h] at hp
  obtain ⟨otf, hg, hfin⟩ := bind_ok.mp hp.symm
  exact (finish_other_kernel hfin).2.1

/-- The demonstration sensor with a kernel that sharpens edges between rows. -/
def demoSharp : RealSensor := { demoSensor with filterKernel := [[-1], [2]] }

/-- The demonstration sensor without sharpening. -/
def demoPlain : RealSensor := { demoSensor with filterKernel := [[1]] }

/-- Thread 0 calls `niirs`, all others `niirs5`. -/
def demoCalls (i : ℕ) : NiirsCall := ⟨decide (i ≠ 0), demoScenario, false⟩

theorem demoKernel_imaging (k : Kernel) :
    Imaging demoEnv { demoSensor with filterKernel := k } demoScene demoScenario false demoInBand := by
  obtain ⟨h1, h2, h3, h4, h5, h6, h7, h8, h9, h10, h11, h12, h13, h14, h15, h16⟩ := demo_imaging
  obtain ⟨a1, a2, a3, a4, a5, a6, a7, a8⟩ := h1
  obtain ⟨b1, b2, b3, b4, b5, b6⟩ := h2
  exact ⟨⟨a1, a2, a3, a4, a5, a6, a7, a8⟩, ⟨b1, b2, b3, b4, b5, b6⟩, h3, h4, h5, h6, h7, h8, h9,
    h10, h11, h12, h13, h14, h15, h16⟩

theorem demoSharp_dc {F : ℝ → ℝ → ℝ} (h : demoSharp.Sharpening demoEnv.diag F) : 1 < F 0 0 := by
  have h2 := h.2 (by simp [demoSharp]) 1 (fun _ => 0) (fun _ => 0)
  have hd := C44_dc demoEnv.diag (k := demoSharp.filterKernel) (by simp [Fits, demoSharp])
    (ifov := .np (.fin (demoSharp.pX / demoSharp.f))) (a := demoSharp.pX / demoSharp.f) rfl
    (by norm_num [demoSharp, demoSensor])
  have he : [XR.fin (F 0 0)] = _ := Except.ok.inj (h2.symm.trans hd)
  have he := XR.fin.inj (List.cons.inj he).1
  rw [he, if_pos (show demoEnv.diag 49 49 = true from rfl)]
  have k1 := kernelSpectrum_sharpen 0 0
  have k2 := kernelSpectrum_sharpen (-0.01) (-0.01)
  have hc : Real.cos (2 * Real.pi * (-0.01)) < 1 := by
    refine lt_of_le_of_ne (Real.cos_le_one _) fun h => ?_
    rw [Real.cos_eq_one_iff] at h
    obtain ⟨n, hn⟩ := h
    have hn' : (n : ℝ) = -0.01 := by
      have := Real.pi_pos
      have h3 : 2 * Real.pi * ((n : ℝ) - (-0.01)) = 0 := by linarith
      rcases mul_eq_zero.mp h3 with h3 | h3
      · linarith
      · linarith
    have h4 : n * 100 = -1 := by
      have : (n : ℝ) * 100 = -1 := by rw [hn']; norm_num
      exact_mod_cast this
    omega
  have n1 : 0 ≤ kernelSpectrum [[-1], [2]] 0 0 := norm_nonneg _
  have n2 : 0 ≤ kernelSpectrum [[-1], [2]] (-0.01) (-0.01) := norm_nonneg _
  simp only [mul_zero, Real.cos_zero] at k1
  have v1 : kernelSpectrum [[-1], [2]] 0 0 = 1 := by nlinarith
  have v2 : 1 < kernelSpectrum [[-1], [2]] (-0.01) (-0.01) := by nlinarith
  show 1 < (kernelSpectrum [[-1], [2]] (-0.01) (-0.01) + kernelSpectrum [[-1], [2]] 0 0) / 2
  linarith

theorem grid_at {n : ℕ} {f g : ℕ → ℕ → ℝ} (h : grid n f = grid n g) {i j : ℕ} (hi : i < n) (hj : j < n) : f i j = g i j := by
  have h1 := congrArg (fun l => (l.getD i []).getD j XR.nan) h
  unfold grid vec at h1
  simpa [hi, hj] using h1

/-- **C104** (negation of "a report describes the sensor with or without sharpening"): on the demonstration sensor with a
sharpening kernel, `niirs` next to `niirs5` returns, in one schedule, a report that is neither the one it returns alone nor the
one it returns for the sensor without sharpening, and raises in another. -/
theorem C104_witness : ∃ m m1 m' : Metrics,
    (niirs demoEnv demoSharp.toSensor demoScenario false).1 = .ok m
    ∧ (niirs demoEnv (unsharpened demoSharp.toSensor) demoScenario false).1 = .ok m1
    ∧ ((calling demoSharp.toSensor demoCalls).run demoEnv demoSharp.toSensor [0, 0, 0, 1, 1, 0]).threads 0 = .done (.ok m')
    ∧ m' ≠ m ∧ m' ≠ m1
    ∧ ((calling demoSharp.toSensor demoCalls).run demoEnv demoSharp.toSensor [0, 0, 1, 1, 0]).threads 0
        = .done (.error .indexError) := by
  obtain ⟨m, c, F, h1, -, h3, h4⟩ := C70_report (demoKernel_imaging [[-1], [2]]) (by norm_num)
  obtain ⟨m1, c1, F1, g1, -, g3, g4⟩ := C70_report (demoKernel_imaging [[1]]) (by norm_num)
  have g1' : (niirs demoEnv (unsharpened demoSharp.toSensor) demoScenario false).1 = .ok m1 := g1
  have h1' : (niirs demoEnv demoSharp.toSensor demoScenario false).1 = .ok m := h1
  obtain ⟨m5, f1⟩ : ∃ m5, (niirs5 demoEnv demoSharp.toSensor demoScenario false).1 = .ok m5 := by
    obtain ⟨m5, -, h, -⟩ := C71_report (demoKernel_imaging [[-1], [2]])
    exact ⟨m5, h⟩
  obtain ⟨m', r, hm⟩ := C104_overtaken (calls := demoCalls) (by simp [demoSharp, RealSensor.toSensor]) rfl rfl h1' f1
  refine ⟨m, m1, m', h1', g1', r, fun h => ?_, fun h => ?_,
    C104_index_error (calls := demoCalls) (by simp [demoSharp, RealSensor.toSensor]) rfl rfl h1' g1' f1⟩
  · obtain ⟨ng, hng, a, b, c, d, e, f, hg⟩ := niirs_gain h1'
    obtain ⟨-, a', b', c', d', e', f', hg'⟩ := hm
    rw [h, hg] at hg'
    have hng1 : ng = 1 := by
      simp only [Option.some.injEq, Prod.mk.injEq] at hg'
      exact hg'.2.2.2.2.1
    have hk : demoSharp.toSensor.filterKernel = [[-1], [2]] := rfl
    rw [hk, noiseGain_eq, if_pos (by norm_num), hng1, XR.one_def] at hng
    have h5 := XR.fin.inj (Except.ok.inj hng)
    have h6 := (Real.sqrt_eq_one).mp h5
    norm_num at h6
  · have h5 := h4.filter
    rw [← hm.1, h, g4.filter] at h5
    have h6 := grid_at h5 (show 50 < 101 by norm_num) (show 50 < 101 by norm_num)
    rw [g3.1 (by simp)] at h6
    have e1 : colFreq 101 c 50 = 0 := by unfold colFreq; norm_num
    have e2 : rowFreq 101 c 50 = 0 := by unfold rowFreq; norm_num
    rw [e1, e2] at h6
    have := demoSharp_dc h3
    linarith

/-- The hypotheses of `C104_niirs5` and `C104_niirs` hold in a concrete case in which both kinds of call succeed alone: two
threads taking turns both come to an end. -/
example : ∃ r0 r1, ((calling demoSharp.toSensor demoCalls).run demoEnv demoSharp.toSensor
      [0, 1, 0, 1, 0, 1, 0, 1, 0, 1]).threads 0 = .done r0
    ∧ ((calling demoSharp.toSensor demoCalls).run demoEnv demoSharp.toSensor
      [0, 1, 0, 1, 0, 1, 0, 1, 0, 1]).threads 1 = .done r1
    ∧ (demoCalls 0).five = false ∧ (demoCalls 1).five = true
    ∧ r1 = (niirs5 demoEnv demoSharp.toSensor demoScenario false).1 ∧ ∃ m, r1 = .ok m := by
  obtain ⟨r0, h0⟩ := C104_ends demoEnv demoSharp.toSensor demoCalls (schedule := [0, 1, 0, 1, 0, 1, 0, 1, 0, 1]) (i := 0)
    (by decide)
  obtain ⟨r1, h1⟩ := C104_ends demoEnv demoSharp.toSensor demoCalls (schedule := [0, 1, 0, 1, 0, 1, 0, 1, 0, 1]) (i := 1)
    (by decide)
  have h2 := C104_niirs5 (i := 1) rfl h1
  obtain ⟨m5, -, h, -⟩ := C71_report (demoKernel_imaging [[-1], [2]])
  exact ⟨r0, r1, h0, h1, rfl, rfl, h2, m5, h2.trans h⟩

/-- The hypotheses of `C104_niirs_only` hold in a concrete case: two `niirs` calls taking turns. -/
example : ∃ m, ((calling demoSharp.toSensor fun _ => ⟨false, demoScenario, false⟩).run demoEnv demoSharp.toSensor
      [0, 1, 0, 1, 0, 1, 0, 1, 0, 1]).threads 0 = .done (.ok m)
    ∧ (niirs demoEnv demoSharp.toSensor demoScenario false).1 = .ok m := by
  obtain ⟨r, h⟩ := C104_ends demoEnv demoSharp.toSensor (fun _ => ⟨false, demoScenario, false⟩)
    (schedule := [0, 1, 0, 1, 0, 1, 0, 1, 0, 1]) (i := 0) (by decide)
  have h2 := C104_niirs_only (fun _ => rfl) h
  obtain ⟨m, c, F, h1, -⟩ := C70_report (demoKernel_imaging [[-1], [2]]) (by norm_num)
  have h1' : (niirs demoEnv demoSharp.toSensor demoScenario false).1 = .ok m := h1
  exact ⟨m, by rw [h, h2]; exact congrArg _ h1', h1'⟩

/-- The hypotheses of `C104_unsharpened` hold in a concrete case: `niirs` next to `niirs5` on a sensor without sharpening. -/
example : ∃ m, ((calling demoPlain.toSensor demoCalls).run demoEnv demoPlain.toSensor
      [0, 1, 0, 1, 0, 1, 0, 1, 0, 1]).threads 0 = .done (.ok m)
    ∧ (niirs demoEnv demoPlain.toSensor demoScenario false).1 = .ok m := by
  obtain ⟨r, h⟩ := C104_ends demoEnv demoPlain.toSensor demoCalls
    (schedule := [0, 1, 0, 1, 0, 1, 0, 1, 0, 1]) (i := 0) (by decide)
  have h2 := C104_unsharpened rfl h
  obtain ⟨m, c, F, h1, -⟩ := C70_report (demoKernel_imaging [[1]]) (by norm_num)
  have h1' : (niirs demoEnv demoPlain.toSensor demoScenario false).1 = .ok m := h1
  exact ⟨m, by rw [h, h2]; exact congrArg _ h1', h1'⟩

end PyBSM
