import Verif.Spec.Threads
import Verif.Props.Scenario
import Verif.Props.Database

/-!
# C95, C96: a scenario shared by threads, and operations that are interrupted
-/

noncomputable section

namespace PyBSM

/-- Two rows of the database, for the examples below. -/
theorem rows_1000_2000 : (⟨185, 10000, 0, 1⟩ : DecRow) ∈ decoderTable
    ∧ (⟨244, 20000, 0, 1⟩ : DecRow) ∈ decoderTable := by decide +kernel

open Classical

open Spec

theorem dbLoad_key (files : Files) (i : Bool) (a g : XR) (h : ℤ) :
    dbLoad files ⟨i, a, g, h⟩ = loadFresh files i ⟨a, g, h⟩ := by
  unfold dbLoad loadFresh
  cases i <;> rfl

/-! ## Readers only -/

/-- What a reading thread knows, given the outcome `l` of the load for the parameters `k`. -/
def ReaderOk (i : Bool) (k : AtmKey) (l : Except PyErr Atm) (cache : Option Atm) : Thread → Prop
  | .check => True
  | .readInterp => True
  | .readAltitude j => j = i
  | .readGroundRange j a => j = i ∧ a = k.altitude
  | .readIhaze j a g => j = i ∧ a = k.altitude ∧ g = k.groundRange
  | .call c => c = ⟨i, k.altitude, k.groundRange, k.ihaze⟩
  | .store a => l = .ok a
  | .fetch => ∃ a, cache = some a
  | .done r => r = endingOf l
  | _ => False

/-- How many more accesses a reader needs at most. -/
def Thread.left : Thread → ℕ
  | .check => 8
  | .readInterp => 7
  | .readAltitude _ => 6
  | .readGroundRange _ _ => 5
  | .readIhaze _ _ _ => 4
  | .call _ => 3
  | .store _ => 2
  | .fetch => 1
  | .setIhaze _ => 2
  | .setIhaze' _ => 1
  | .setAltitude _ => 2
  | .setAltitude' _ => 1
  | .setGroundRange _ => 2
  | .setGroundRange' _ => 1
  | .done _ => 0

theorem left_step (files : Files) (s : Scenario) (t : Thread) :
    (t.step files s).2.left ≤ t.left - 1 := by
  cases t <;> simp only [Thread.step, Thread.left] <;> try omega
  · cases s.atmCache <;> simp [Thread.left]
  · rename_i c
    cases dbLoad files c <;> simp [Thread.left]

theorem left_run (files : Files) (is : List ℕ) : ∀ (σ : Shared) (i : ℕ),
    ((σ.run files is).threads i).left ≤ (σ.threads i).left - is.count i := by
  induction is with
  | nil => intro σ i; simp [Shared.run]
  | cons j is ih =>
    intro σ i
    refine le_trans (ih (σ.step files j) i) ?_
    by_cases h : i = j
    · subst h
      have := left_step files σ.scenario (σ.threads i)
      simp only [Shared.step, Function.update_self, List.count_cons_self]
      omega
    · have h' : (j == i) = false := by simpa using fun e => h e.symm
      simp only [Shared.step, Function.update_of_ne h, List.count_cons, h']
      simp

theorem done_of_left {t : Thread} (h : t.left = 0) : ∃ r, t = .done r := by
  cases t <;> simp [Thread.left] at h ⊢

theorem readers_step {files : Files} {σ : Shared} (hc : CacheFresh files σ.scenario)
    (ht : ∀ i, ReaderOk σ.scenario.interp (keyOf σ.scenario)
      (loadFresh files σ.scenario.interp (keyOf σ.scenario)) σ.scenario.atmCache (σ.threads i))
    (j : ℕ) :
    (σ.step files j).scenario.interp = σ.scenario.interp
    ∧ keyOf (σ.step files j).scenario = keyOf σ.scenario
    ∧ CacheFresh files (σ.step files j).scenario
    ∧ ∀ i, ReaderOk σ.scenario.interp (keyOf σ.scenario)
      (loadFresh files σ.scenario.interp (keyOf σ.scenario)) (σ.step files j).scenario.atmCache
      ((σ.step files j).threads i) := by
  -- it is enough to look at the moving thread, if the cache only ever gets filled
  have key : ∀ (s' : Scenario) (t' : Thread), (σ.threads j).step files σ.scenario = (s', t') →
      s'.interp = σ.scenario.interp → keyOf s' = keyOf σ.scenario → CacheFresh files s' →
      (∀ a, σ.scenario.atmCache = some a → ∃ b, s'.atmCache = some b) →
      ReaderOk σ.scenario.interp (keyOf σ.scenario)
        (loadFresh files σ.scenario.interp (keyOf σ.scenario)) s'.atmCache t' →
      (σ.step files j).scenario.interp = σ.scenario.interp
      ∧ keyOf (σ.step files j).scenario = keyOf σ.scenario
      ∧ CacheFresh files (σ.step files j).scenario
      ∧ ∀ i, ReaderOk σ.scenario.interp (keyOf σ.scenario)
        (loadFresh files σ.scenario.interp (keyOf σ.scenario)) (σ.step files j).scenario.atmCache
        ((σ.step files j).threads i) := by
    intro s' t' e h1 h2 h3 h4 h5
    simp only [Shared.step, e]
    refine ⟨h1, h2, h3, fun i => ?_⟩
    by_cases hi : i = j
    · subst hi; simpa using h5
    · rw [Function.update_of_ne hi]
      have := ht i
      cases hti : σ.threads i <;> rw [hti] at this <;> simp only [ReaderOk] at this ⊢ <;>
        try exact this
      obtain ⟨a, ha⟩ := this
      exact h4 a ha
  have hj := ht j
  cases hm : σ.threads j with
  | check =>
    cases hcache : σ.scenario.atmCache with
    | none =>
      exact key σ.scenario .readInterp (by simp [hm, Thread.step, hcache]) rfl rfl hc
        (fun a ha => ⟨a, ha⟩) trivial
    | some b =>
      exact key σ.scenario .fetch (by simp [hm, Thread.step, hcache]) rfl rfl hc
        (fun a ha => ⟨a, ha⟩) ⟨b, hcache⟩
  | readInterp =>
    exact key σ.scenario (.readAltitude σ.scenario.interp) (by simp [hm, Thread.step]) rfl rfl hc
        (fun a ha => ⟨a, ha⟩) rfl
  | readAltitude j' =>
    rw [hm] at hj
    exact key σ.scenario (.readGroundRange j' σ.scenario.altitude) (by simp [hm, Thread.step]) rfl
      rfl hc (fun a ha => ⟨a, ha⟩) ⟨hj, rfl⟩
  | readGroundRange j' a' =>
    rw [hm] at hj
    exact key σ.scenario (.readIhaze j' a' σ.scenario.groundRange) (by simp [hm, Thread.step]) rfl
      rfl hc (fun a ha => ⟨a, ha⟩) ⟨hj.1, hj.2, rfl⟩
  | readIhaze j' a' g' =>
    rw [hm] at hj
    obtain ⟨e1, e2, e3⟩ := hj
    subst e1; subst e2; subst e3
    exact key σ.scenario (.call ⟨σ.scenario.interp, σ.scenario.altitude, σ.scenario.groundRange,
      σ.scenario.ihaze⟩) (by rw [hm]; rfl) rfl rfl hc (fun a ha => ⟨a, ha⟩) rfl
  | call c =>
    rw [hm] at hj
    simp only [ReaderOk] at hj
    have hl : dbLoad files c = loadFresh files σ.scenario.interp (keyOf σ.scenario) := by
      rw [hj, dbLoad_key]
    cases hr : loadFresh files σ.scenario.interp (keyOf σ.scenario) with
    | ok a =>
      refine key σ.scenario (.store a) (by simp [hm, Thread.step, hl, hr]) rfl rfl hc
        (fun a ha => ⟨a, ha⟩) hr |> fun h => ?_
      rw [hr] at h
      exact h
    | error e =>
      refine key σ.scenario (.done (.raised e)) (by simp [hm, Thread.step, hl, hr]) rfl rfl hc
        (fun a ha => ⟨a, ha⟩) (by simp [ReaderOk, hr, endingOf]) |> fun h => ?_
      rw [hr] at h
      exact h
  | store a =>
    rw [hm] at hj
    simp only [ReaderOk] at hj
    refine key { σ.scenario with atmCache := some a } .fetch (by simp [hm, Thread.step]) rfl rfl ?_
      (fun _ _ => ⟨a, rfl⟩) ⟨a, rfl⟩
    intro b hb
    simp only [Option.some.injEq] at hb
    subst hb
    exact hj
  | fetch =>
    rw [hm] at hj
    obtain ⟨a, ha⟩ := hj
    exact key σ.scenario (.done (.returned (some a))) (by rw [hm, ← ha]; rfl) rfl rfl hc
      (fun a ha => ⟨a, ha⟩) (by simp only [ReaderOk, hc a ha, endingOf])
  | done r =>
    rw [hm] at hj
    exact key σ.scenario (.done r) (by simp [hm, Thread.step]) rfl rfl hc (fun a ha => ⟨a, ha⟩) hj
  | setIhaze v => rw [hm] at hj; exact hj.elim
  | setIhaze' v => rw [hm] at hj; exact hj.elim
  | setAltitude v => rw [hm] at hj; exact hj.elim
  | setAltitude' v => rw [hm] at hj; exact hj.elim
  | setGroundRange v => rw [hm] at hj; exact hj.elim
  | setGroundRange' v => rw [hm] at hj; exact hj.elim

theorem readers_run {files : Files} (is : List ℕ) : ∀ {σ : Shared}, CacheFresh files σ.scenario →
    (∀ i, ReaderOk σ.scenario.interp (keyOf σ.scenario)
      (loadFresh files σ.scenario.interp (keyOf σ.scenario)) σ.scenario.atmCache (σ.threads i)) →
    (σ.run files is).scenario.interp = σ.scenario.interp
    ∧ keyOf (σ.run files is).scenario = keyOf σ.scenario
    ∧ CacheFresh files (σ.run files is).scenario
    ∧ ∀ i, ReaderOk σ.scenario.interp (keyOf σ.scenario)
      (loadFresh files σ.scenario.interp (keyOf σ.scenario)) (σ.run files is).scenario.atmCache
      ((σ.run files is).threads i) := by
  induction is with
  | nil => intro σ h1 h2; exact ⟨rfl, rfl, h1, h2⟩
  | cons j is ih =>
    intro σ h1 h2
    obtain ⟨a1, a2, a3, a4⟩ := readers_step h1 h2 j
    have := ih (σ := σ.step files j) a3 (by rw [a1, a2]; exact a4)
    rw [a1, a2] at this
    exact this

/-- **C95** (readers). Any number of threads read `atm` of one scenario, under any schedule.  Every
read that has ended returned the atmosphere of the scenario's parameters, or raised the exception of
the load; every thread that was given eight turns has ended; the parameters and the coherence of the
cache are untouched. -/
theorem C95_concurrent_readers (files : Files) (σ : Shared) (is : List ℕ)
    (hc : CacheFresh files σ.scenario) (hr : ∀ i, σ.threads i = AtmOp.readAtm.start) :
    (∀ i r, (σ.run files is).threads i = .done r →
      r = endingOf (loadFresh files σ.scenario.interp (keyOf σ.scenario)))
    ∧ (∀ i, 8 ≤ is.count i → ∃ r, (σ.run files is).threads i = .done r)
    ∧ keyOf (σ.run files is).scenario = keyOf σ.scenario
    ∧ CacheFresh files (σ.run files is).scenario := by
  obtain ⟨_, h2, h3, h4⟩ := readers_run is (files := files) hc
    (fun i => by rw [hr i]; exact trivial)
  refine ⟨fun i r h => ?_, fun i hi => done_of_left ?_, h2, h3⟩
  · have := h4 i
    rw [h] at this
    exact this
  · have := left_run files is σ i
    have h8 : AtmOp.readAtm.start.left = 8 := rfl
    rw [hr i, h8] at this
    omega

/-! ## Readers and writers -/

/-- What a thread may hold when parameters are being assigned concurrently. -/
def MixedOk (files : Files) (σ : Shared) : Thread → Prop
  | .readAltitude j => j = σ.scenario.interp
  | .readGroundRange j a => j = σ.scenario.interp ∧ SomeAltitude σ a
  | .readIhaze j a g => j = σ.scenario.interp ∧ SomeAltitude σ a ∧ SomeGroundRange σ g
  | .call c => c.interp = σ.scenario.interp ∧ SomeAltitude σ c.altitude
      ∧ SomeGroundRange σ c.groundRange ∧ SomeIhaze σ c.ihaze
  | .store a => ∃ k : AtmKey, SomeAltitude σ k.altitude ∧ SomeGroundRange σ k.groundRange
      ∧ SomeIhaze σ k.ihaze ∧ loadFresh files σ.scenario.interp k = .ok a
  | .done (.returned (some a)) => ∃ k : AtmKey, SomeAltitude σ k.altitude
      ∧ SomeGroundRange σ k.groundRange ∧ SomeIhaze σ k.ihaze
      ∧ loadFresh files σ.scenario.interp k = .ok a
  | .done (.raised e) => ∃ k : AtmKey, SomeAltitude σ k.altitude
      ∧ SomeGroundRange σ k.groundRange ∧ SomeIhaze σ k.ihaze
      ∧ loadFresh files σ.scenario.interp k = .error e
  | .setIhaze v => SomeIhaze σ v
  | .setIhaze' v => SomeIhaze σ v
  | .setAltitude v => SomeAltitude σ v
  | .setAltitude' v => SomeAltitude σ v
  | .setGroundRange v => SomeGroundRange σ v
  | .setGroundRange' v => SomeGroundRange σ v
  | _ => True

/-- The shared scenario only ever holds assigned values and atmospheres loaded for them. -/
def MixedState (files : Files) (σ : Shared) (s : Scenario) : Prop :=
  s.interp = σ.scenario.interp ∧ SomeAltitude σ s.altitude ∧ SomeGroundRange σ s.groundRange
  ∧ SomeIhaze σ s.ihaze
  ∧ ∀ a, s.atmCache = some a → ∃ k : AtmKey, SomeAltitude σ k.altitude
      ∧ SomeGroundRange σ k.groundRange ∧ SomeIhaze σ k.ihaze
      ∧ loadFresh files σ.scenario.interp k = .ok a

theorem mixed_step {files : Files} {σ : Shared} {s : Scenario} {t : Thread}
    (hs : MixedState files σ s) (ht : MixedOk files σ t) :
    MixedState files σ (t.step files s).1 ∧ MixedOk files σ (t.step files s).2 := by
  obtain ⟨h1, h2, h3, h4, h5⟩ := hs
  cases t with
  | check =>
    refine ⟨⟨h1, h2, h3, h4, h5⟩, ?_⟩
    simp only [Thread.step]
    cases s.atmCache <;> exact trivial
  | readInterp => exact ⟨⟨h1, h2, h3, h4, h5⟩, h1⟩
  | readAltitude j => exact ⟨⟨h1, h2, h3, h4, h5⟩, ht, h2⟩
  | readGroundRange j a => exact ⟨⟨h1, h2, h3, h4, h5⟩, ht.1, ht.2, h3⟩
  | readIhaze j a g => exact ⟨⟨h1, h2, h3, h4, h5⟩, ht.1, ht.2.1, ht.2.2, h4⟩
  | call c =>
    refine ⟨⟨h1, h2, h3, h4, h5⟩, ?_⟩
    obtain ⟨i, a, g, h⟩ := c
    obtain ⟨e1, e2, e3, e4⟩ := ht
    simp only at e1 e2 e3 e4
    simp only [Thread.step, dbLoad_key, e1]
    cases hl : loadFresh files σ.scenario.interp ⟨a, g, h⟩ with
    | ok b => exact ⟨⟨a, g, h⟩, e2, e3, e4, hl⟩
    | error e => exact ⟨⟨a, g, h⟩, e2, e3, e4, hl⟩
  | store a =>
    refine ⟨⟨h1, h2, h3, h4, ?_⟩, trivial⟩
    intro b hb
    simp only [Thread.step, Option.some.injEq] at hb
    subst hb
    exact ht
  | fetch =>
    refine ⟨⟨h1, h2, h3, h4, h5⟩, ?_⟩
    simp only [Thread.step]
    cases hc : s.atmCache with
    | none => exact trivial
    | some a => exact h5 a hc
  | setIhaze v => exact ⟨⟨h1, h2, h3, h4, by intro a ha; simp [Thread.step] at ha⟩, ht⟩
  | setIhaze' v => exact ⟨⟨h1, h2, h3, ht, h5⟩, trivial⟩
  | setAltitude v => exact ⟨⟨h1, h2, h3, h4, by intro a ha; simp [Thread.step] at ha⟩, ht⟩
  | setAltitude' v => exact ⟨⟨h1, ht, h3, h4, h5⟩, trivial⟩
  | setGroundRange v => exact ⟨⟨h1, h2, h3, h4, by intro a ha; simp [Thread.step] at ha⟩, ht⟩
  | setGroundRange' v => exact ⟨⟨h1, h2, ht, h4, h5⟩, trivial⟩
  | done r => exact ⟨⟨h1, h2, h3, h4, h5⟩, ht⟩

theorem mixed_run {files : Files} {σ : Shared} (is : List ℕ) : ∀ {τ : Shared},
    MixedState files σ τ.scenario → (∀ i, MixedOk files σ (τ.threads i)) →
    MixedState files σ (τ.run files is).scenario
      ∧ ∀ i, MixedOk files σ ((τ.run files is).threads i) := by
  induction is with
  | nil => intro τ h1 h2; exact ⟨h1, h2⟩
  | cons j is ih =>
    intro τ h1 h2
    have h := mixed_step h1 (h2 j)
    refine ih (τ := τ.step files j) h.1 fun i => ?_
    by_cases hi : i = j
    · subst hi
      simpa [Shared.step] using h.2
    · simpa [Shared.step, Function.update_of_ne hi] using h2 i

/-- **C95** (readers and writers). Any number of threads read `atm` and assign `ihaze`, `altitude` and
`ground_range`, under any schedule.  No read ever invents data: an array that is returned is what a
load gives for some altitude, some ground range and some haze index, each of which is the initial one
or one that a thread assigned; the same holds for an exception that is raised.  Every thread that was
given eight turns has ended. -/
theorem C95_concurrent_writers (files : Files) (σ : Shared) (is : List ℕ)
    (hc : CacheFresh files σ.scenario) (hr : ∀ i, ∃ op : AtmOp, σ.threads i = op.start) :
    (∀ i a, (σ.run files is).threads i = .done (.returned (some a)) → ∃ k : AtmKey,
      SomeAltitude σ k.altitude ∧ SomeGroundRange σ k.groundRange ∧ SomeIhaze σ k.ihaze
      ∧ loadFresh files σ.scenario.interp k = .ok a)
    ∧ (∀ i e, (σ.run files is).threads i = .done (.raised e) → ∃ k : AtmKey,
      SomeAltitude σ k.altitude ∧ SomeGroundRange σ k.groundRange ∧ SomeIhaze σ k.ihaze
      ∧ loadFresh files σ.scenario.interp k = .error e)
    ∧ (∀ i, 8 ≤ is.count i → ∃ r, (σ.run files is).threads i = .done r) := by
  have h0 : MixedState files σ σ.scenario :=
    ⟨rfl, .inl rfl, .inl rfl, .inl rfl, fun a ha =>
      ⟨keyOf σ.scenario, .inl rfl, .inl rfl, .inl rfl, hc a ha⟩⟩
  have h1 : ∀ i, MixedOk files σ (σ.threads i) := by
    intro i
    obtain ⟨op, h⟩ := hr i
    cases op with
    | setIhaze v => rw [h]; exact .inr ⟨i, h⟩
    | setAltitude v => rw [h]; exact .inr ⟨i, h⟩
    | setGroundRange v => rw [h]; exact .inr ⟨i, h⟩
    | readAtm => rw [h]; exact trivial
  have hh := mixed_run is h0 h1
  refine ⟨fun i a h => ?_, fun i e h => ?_, fun i hi => done_of_left ?_⟩
  · have := hh.2 i
    rw [h] at this
    exact this
  · have := hh.2 i
    rw [h] at this
    exact this
  · have := left_run files is σ i
    obtain ⟨op, h⟩ := hr i
    have h8 : op.start.left ≤ 8 := by cases op <;> simp [AtmOp.start, Thread.left]
    rw [h] at this
    omega

/-! ## What can go wrong between a reader and a writer -/

/-- **C95** (counterexample: `None`). A read of a scenario that already has its atmosphere returns
`None`, not an array, when an assignment starts between the reader's two looks at the cache. -/
theorem C95_reader_can_get_none (files : Files) (σ : Shared) (a : Atm) (v : XR)
    (hc : σ.scenario.atmCache = some a) (h0 : σ.threads 0 = AtmOp.readAtm.start)
    (h1 : σ.threads 1 = (AtmOp.setAltitude v).start) :
    (σ.run files [0, 1, 0]).threads 0 = .done (.returned none) := by
  have e0 : σ.threads 0 = .check := h0
  have e1 : σ.threads 1 = .setAltitude v := h1
  simp [Shared.run, Shared.step, e0, e1, Thread.step, hc, Function.update]

/-! ## One operation at a time -/

theorem steps_done (files : Files) (n : ℕ) (s : Scenario) (r : Ending) :
    Thread.steps files n s (.done r) = (s, .done r) := by
  induction n with
  | zero => rfl
  | succ n ih => exact ih

/-- Eight accesses complete any operation, with the effect of the atomic model. -/
theorem steps_eight {files : Files} {s : Scenario} (hc : CacheFresh files s) (op : AtmOp) :
    (Thread.steps files 8 s op.start).1.interp = s.interp
    ∧ keyOf (Thread.steps files 8 s op.start).1 = keyAfter (keyOf s) op
    ∧ CacheFresh files (Thread.steps files 8 s op.start).1
    ∧ (Thread.steps files 8 s op.start).2 = .done (match op with
        | .readAtm => endingOf (loadFresh files s.interp (keyOf s))
        | _ => .assigned) := by
  cases op with
  | setIhaze v =>
    refine ⟨rfl, rfl, ?_, rfl⟩
    intro a ha
    simp [AtmOp.start, Thread.steps, Thread.step] at ha
  | setAltitude v =>
    refine ⟨rfl, rfl, ?_, rfl⟩
    intro a ha
    simp [AtmOp.start, Thread.steps, Thread.step] at ha
  | setGroundRange v =>
    refine ⟨rfl, rfl, ?_, rfl⟩
    intro a ha
    simp [AtmOp.start, Thread.steps, Thread.step] at ha
  | readAtm =>
    have hl : dbLoad files ⟨s.interp, s.altitude, s.groundRange, s.ihaze⟩
        = loadFresh files s.interp (keyOf s) := dbLoad_key _ _ _ _ _
    cases hcache : s.atmCache with
    | some a =>
      have e : Thread.steps files 8 s AtmOp.readAtm.start = (s, .done (.returned (some a))) := by
        simp [AtmOp.start, Thread.steps, Thread.step, hcache]
      rw [e]
      exact ⟨rfl, rfl, hc, by rw [hc a hcache]; rfl⟩
    | none =>
      cases hr : loadFresh files s.interp (keyOf s) with
      | ok a =>
        have e : Thread.steps files 8 s AtmOp.readAtm.start
            = ({ s with atmCache := some a }, .done (.returned (some a))) := by
          simp [AtmOp.start, Thread.steps, Thread.step, hcache, hl, hr]
        rw [e]
        refine ⟨rfl, rfl, ?_, rfl⟩
        intro b hb
        simp only [Option.some.injEq] at hb
        subst hb
        exact hr
      | error x =>
        have e : Thread.steps files 8 s AtmOp.readAtm.start = (s, .done (.raised x)) := by
          simp [AtmOp.start, Thread.steps, Thread.step, hcache, hl, hr]
        rw [e]
        exact ⟨rfl, rfl, hc, rfl⟩

/-- Consecutive turns of one thread. -/
theorem run_replicate (files : Files) (i n : ℕ) : ∀ σ : Shared,
    σ.run files (List.replicate n i)
      = ⟨(Thread.steps files n σ.scenario (σ.threads i)).1,
        Function.update σ.threads i (Thread.steps files n σ.scenario (σ.threads i)).2⟩ := by
  induction n with
  | zero => intro σ; simp [Shared.run, Thread.steps]
  | succ n ih =>
    intro σ
    simp only [List.replicate_succ, Shared.run, ih, Thread.steps]
    simp [Shared.step]

theorem run_append (files : Files) (is js : List ℕ) : ∀ σ : Shared,
    σ.run files (is ++ js) = (σ.run files is).run files js := by
  induction is with
  | nil => intro σ; rfl
  | cons i is ih => intro σ; exact ih _

/-- **C95** (counterexample: stale cache). A read that runs between the two halves of an altitude
assignment leaves the atmosphere of the old altitude in the cache of the scenario with the new
altitude.  Both operations have ended, and every later read, from any thread, returns the old
atmosphere until a parameter is assigned again. -/
theorem C95_stale_after_race (files : Files) (σ : Shared) (a b : Atm) (v : XR)
    (hn : σ.scenario.atmCache = none)
    (ha : loadFresh files σ.scenario.interp (keyOf σ.scenario) = .ok a)
    (hb : loadFresh files σ.scenario.interp { keyOf σ.scenario with altitude := v } = .ok b)
    (hab : a ≠ b) (h0 : σ.threads 0 = AtmOp.readAtm.start)
    (h1 : σ.threads 1 = (AtmOp.setAltitude v).start) :
    let τ := σ.run files [1, 0, 0, 0, 0, 0, 0, 0, 0, 1]
    τ.threads 0 = .done (.returned (some a)) ∧ τ.threads 1 = .done .assigned
    ∧ keyOf τ.scenario = { keyOf σ.scenario with altitude := v }
    ∧ (∀ ops : List ScenOp, (∀ op ∈ ops, ¬ IsParamWrite op) →
        (τ.scenario.run files ops).2.1 = (ops.filter isRead).map fun _ => .ok a)
    ∧ loadFresh files τ.scenario.interp (keyOf τ.scenario) = .ok b ∧ a ≠ b := by
  have hl : dbLoad files ⟨σ.scenario.interp, σ.scenario.altitude, σ.scenario.groundRange,
      σ.scenario.ihaze⟩ = .ok a := by rw [dbLoad_key]; exact ha
  have hs : Thread.steps files 8 { σ.scenario with atmCache := none } AtmOp.readAtm.start
      = ({ σ.scenario with atmCache := some a }, .done (.returned (some a))) := by
    simp [AtmOp.start, Thread.steps, Thread.step, hl]
  have h10 : (1 : ℕ) ≠ 0 := by decide
  have e1 : σ.step files 1 = ⟨{ σ.scenario with atmCache := none },
      Function.update σ.threads 1 (.setAltitude' v)⟩ := by
    simp [Shared.step, h1, AtmOp.start, Thread.step]
  have e2 : (σ.step files 1).run files (List.replicate 8 0)
      = ⟨{ σ.scenario with atmCache := some a }, Function.update (Function.update σ.threads 1
        (.setAltitude' v)) 0 (.done (.returned (some a)))⟩ := by
    rw [e1, run_replicate]
    simp only [Function.update_of_ne h10.symm, h0, hs]
  have e : σ.run files [1, 0, 0, 0, 0, 0, 0, 0, 0, 1]
      = ((σ.step files 1).run files (List.replicate 8 0)).step files 1 := by
    have hl : ([1, 0, 0, 0, 0, 0, 0, 0, 0, 1] : List ℕ) = 1 :: (List.replicate 8 0 ++ [1]) := by
      decide
    rw [hl]
    simp only [Shared.run, run_append]
  have e3 : σ.run files [1, 0, 0, 0, 0, 0, 0, 0, 0, 1]
      = ⟨{ σ.scenario with atmCache := some a, altitude := v }, Function.update (Function.update
        (Function.update σ.threads 1 (.setAltitude' v)) 0 (.done (.returned (some a)))) 1
        (.done .assigned)⟩ := by
    rw [e, e2]
    simp [Shared.step, Function.update_of_ne h10, Thread.step]
  simp only [e3]
  exact ⟨by simp [Function.update_of_ne h10.symm], by simp, rfl,
    fun ops hw => (run_no_write_cached ops hw rfl).2, hb, hab⟩

theorem run_threads_of_notMem (files : Files) (is : List ℕ) : ∀ (σ : Shared) (i : ℕ), i ∉ is →
    (σ.run files is).threads i = σ.threads i := by
  induction is with
  | nil => intro σ i _; rfl
  | cons j is ih =>
    intro σ i hi
    rw [List.mem_cons, not_or] at hi
    simp only [Shared.run]
    rw [ih _ i hi.2]
    simp [Shared.step, Function.update_of_ne hi.1]

theorem exclusive_run (files : Files) (order : List ℕ) : ∀ (σ : Shared) (op : ℕ → AtmOp),
    order.Nodup → CacheFresh files σ.scenario → (∀ i ∈ order, σ.threads i = (op i).start) →
    order.map (σ.run files (oneAtATime order)).threads
      = (endings files σ.scenario.interp (keyOf σ.scenario) (order.map op)).map .done
    ∧ CacheFresh files (σ.run files (oneAtATime order)).scenario
    ∧ keyOf (σ.run files (oneAtATime order)).scenario
      = (order.map op).foldl keyAfter (keyOf σ.scenario) := by
  induction order with
  | nil => intro σ op _ hf _; exact ⟨rfl, hf, rfl⟩
  | cons i order ih =>
    intro σ op hn hf ht
    rw [List.nodup_cons] at hn
    have e : oneAtATime (i :: order) = List.replicate 8 i ++ oneAtATime order := rfl
    have hi : i ∉ oneAtATime order := by
      intro h
      simp only [oneAtATime, List.mem_flatMap, List.mem_replicate] at h
      obtain ⟨j, hj, _, rfl⟩ := h
      exact hn.1 hj
    have h8 := steps_eight hf (op i)
    rw [← ht i (by simp)] at h8
    rw [e, run_append, run_replicate]
    set s' := (Thread.steps files 8 σ.scenario (σ.threads i)).1
    set t' := (Thread.steps files 8 σ.scenario (σ.threads i)).2
    obtain ⟨a1, a2, a3, a4⟩ := h8
    have q := ih ⟨s', Function.update σ.threads i t'⟩ op hn.2 a3 (by
      intro j hj
      have : j ≠ i := fun e => hn.1 (e ▸ hj)
      simp only [Function.update_of_ne this]
      exact ht j (by simp [hj]))
    have hthis : (Shared.run files ⟨s', Function.update σ.threads i t'⟩
        (oneAtATime order)).threads i = t' := by
      rw [run_threads_of_notMem files _ _ i hi]; simp
    refine ⟨?_, q.2.1, by rw [q.2.2]; simp only [a2, List.map_cons, List.foldl_cons]⟩
    rw [List.map_cons, hthis, q.1, List.map_cons, a4]
    simp only [a1, a2]
    cases op i <;> rfl

/-- **C95** (locking). If the operations of the threads do not overlap - each has ended before the
next one starts, in whatever order - then every operation ends as if the cache did not exist: a read
returns (or raises) what a fresh load gives for the parameters assigned so far. -/
theorem C95_one_at_a_time (files : Files) (σ : Shared) (op : ℕ → AtmOp) (order : List ℕ)
    (hn : order.Nodup) (hf : CacheFresh files σ.scenario)
    (ht : ∀ i, σ.threads i = (op i).start) :
    order.map (σ.run files (oneAtATime order)).threads
      = (endings files σ.scenario.interp (keyOf σ.scenario) (order.map op)).map .done
    ∧ keyOf (σ.run files (oneAtATime order)).scenario
      = (order.map op).foldl keyAfter (keyOf σ.scenario) :=
  have h := exclusive_run files order σ op hn hf fun i _ => ht i
  ⟨h.1, h.2.2⟩

/-! ## Interrupts -/

/-- What an abandoned operation leaves behind. -/
theorem steps_fresh {files : Files} {s : Scenario} (hc : CacheFresh files s) (op : AtmOp) (n : ℕ) :
    (Thread.steps files n s op.start).1.interp = s.interp
    ∧ (keyOf (Thread.steps files n s op.start).1 = keyOf s
      ∨ keyOf (Thread.steps files n s op.start).1 = keyAfter (keyOf s) op)
    ∧ CacheFresh files (Thread.steps files n s op.start).1 := by
  cases op with
  | setIhaze v =>
    match n with
    | 0 => exact ⟨rfl, .inl rfl, hc⟩
    | 1 => exact ⟨rfl, .inl rfl, by intro a ha; simp [AtmOp.start, Thread.steps, Thread.step] at ha⟩
    | n + 2 =>
      have e : Thread.steps files (n + 2) s (AtmOp.setIhaze v).start
          = Thread.steps files n { s with atmCache := none, ihaze := v } (.done .assigned) := rfl
      rw [e, steps_done]
      exact ⟨rfl, .inr rfl, by intro a ha; simp at ha⟩
  | setAltitude v =>
    match n with
    | 0 => exact ⟨rfl, .inl rfl, hc⟩
    | 1 => exact ⟨rfl, .inl rfl, by intro a ha; simp [AtmOp.start, Thread.steps, Thread.step] at ha⟩
    | n + 2 =>
      have e : Thread.steps files (n + 2) s (AtmOp.setAltitude v).start
          = Thread.steps files n { s with atmCache := none, altitude := v } (.done .assigned) := rfl
      rw [e, steps_done]
      exact ⟨rfl, .inr rfl, by intro a ha; simp at ha⟩
  | setGroundRange v =>
    match n with
    | 0 => exact ⟨rfl, .inl rfl, hc⟩
    | 1 => exact ⟨rfl, .inl rfl, by intro a ha; simp [AtmOp.start, Thread.steps, Thread.step] at ha⟩
    | n + 2 =>
      have e : Thread.steps files (n + 2) s (AtmOp.setGroundRange v).start
          = Thread.steps files n { s with atmCache := none, groundRange := v } (.done .assigned) :=
        rfl
      rw [e, steps_done]
      exact ⟨rfl, .inr rfl, by intro a ha; simp at ha⟩
  | readAtm =>
    have h := readers_run (files := files) (List.replicate n 0) (σ := ⟨s, fun _ => .check⟩) hc
      (fun _ => trivial)
    rw [run_replicate] at h
    exact ⟨h.1, .inl h.2.1, h.2.2.1⟩

theorem interrupted_fresh {files : Files} (ps : List (AtmOp × ℕ)) : ∀ {s : Scenario},
    CacheFresh files s → CacheFresh files (s.runInterrupted files ps)
      ∧ (s.runInterrupted files ps).interp = s.interp := by
  induction ps with
  | nil => intro s h; exact ⟨h, rfl⟩
  | cons p ps ih =>
    intro s h
    have q := steps_fresh h p.1 p.2
    have r := ih q.2.2
    exact ⟨r.1, r.2.trans q.1⟩

/-- **C96.** However often and wherever reads of `atm` and assignments of its parameters are
interrupted - by `KeyboardInterrupt` or any other asynchronous exception, between any two accesses -
the next complete read gives what a fresh load gives for the parameters the scenario then has. -/
theorem C96_interrupts_leave_no_stale_atmosphere (files : Files) (name : String) (ihaze : ℤ)
    (altitude groundRange aircraftSpeed targetReflectance targetTemperature backgroundReflectance
      backgroundTemperature haWindSpeed cn2At1m : XR) (interp : Bool) (ps : List (AtmOp × ℕ)) :
    let s := (Scenario.new name ihaze altitude groundRange aircraftSpeed targetReflectance
      targetTemperature backgroundReflectance backgroundTemperature haWindSpeed cn2At1m
      interp).runInterrupted files ps
    (s.readAtm files).1 = loadFresh files interp ⟨s.altitude, s.groundRange, s.ihaze⟩ := by
  intro s
  have h := interrupted_fresh (files := files) ps (s := Scenario.new name ihaze altitude groundRange
    aircraftSpeed targetReflectance targetTemperature backgroundReflectance backgroundTemperature
    haWindSpeed cn2At1m interp) (by intro a ha; simp [Scenario.new] at ha)
  have q := (readAtm_spec (files := files) (s := s) h.1).1
  have hi : s.interp = interp := h.2
  rw [hi] at q
  exact q

/-- **C96** (one interrupted operation). An interrupted assignment has either not happened or
happened: each parameter is as before, or - if it is the one being assigned - has its new value.  An
interrupted read changes no parameter. -/
theorem C96_interrupted_operation (files : Files) (s : Scenario) (op : AtmOp) (n : ℕ)
    (hc : CacheFresh files s) :
    keyOf (Thread.steps files n s op.start).1 = keyOf s
      ∨ keyOf (Thread.steps files n s op.start).1 = keyAfter (keyOf s) op :=
  (steps_fresh hc op n).2.1

/-! ## The hypotheses are satisfiable -/

/-- Data files that can be told apart: the file with number `n` contains the number `n` only. -/
def numberedFiles : Files := fun n => some (List.replicate (1371 * 5) (.fin n))

/-- With these files the database holds different atmospheres for 1000 m and 2000 m. -/
theorem two_atmospheres : ∃ a b, loadFresh numberedFiles false ⟨.fin 1000, .fin 0, 1⟩ = .ok a
    ∧ loadFresh numberedFiles false ⟨.fin 2000, .fin 0, 1⟩ = .ok b ∧ a ≠ b := by
  obtain ⟨a, ha, ra⟩ := C03_lookup (files := numberedFiles) (alt := 1000) (rng := 0)
    (haze := 1) ⟨rows_1000_2000.1, by norm_num, by norm_num, by norm_num⟩ rfl
    List.length_replicate
  obtain ⟨b, hb, rb⟩ := C03_lookup (files := numberedFiles) (alt := 2000) (rng := 0)
    (haze := 1) ⟨rows_1000_2000.2, by norm_num, by norm_num, by norm_num⟩ rfl
    List.length_replicate
  refine ⟨a, b, ha, hb, ?_⟩
  rintro rfl
  have h1 := ra.transmission 0 (by norm_num)
  have h2 := rb.transmission 0 (by norm_num)
  rw [h1, List.getD_replicate _ (by norm_num), List.getD_replicate _ (by norm_num)] at h2
  simp only [XR.fin.injEq, Nat.cast_inj] at h2
  exact absurd h2 (by decide)

/-- Readers only: a new scenario is coherent, and the load succeeds. -/
example : ∃ a, ∀ is : List ℕ, ∀ i, 8 ≤ is.count i →
    ((Shared.mk (Scenario.new "s" 1 (.fin 1000) (.fin 0)) fun _ => .check).run numberedFiles
      is).threads i = .done (.returned (some a)) := by
  obtain ⟨a, b, ha, -, -⟩ := two_atmospheres
  refine ⟨a, fun is i hi => ?_⟩
  have h := C95_concurrent_readers numberedFiles
    (Shared.mk (Scenario.new "s" 1 (.fin 1000) (.fin 0)) fun _ => .check) is
    (by intro a ha; simp [Scenario.new] at ha) fun _ => rfl
  obtain ⟨r, hr⟩ := h.2.1 i hi
  have q := h.1 i r hr
  have e : loadFresh numberedFiles (Scenario.new "s" 1 (.fin 1000) (.fin 0)).interp
      (keyOf (Scenario.new "s" 1 (.fin 1000) (.fin 0))) = .ok a := ha
  simp only [e] at q
  rw [hr, q]
  rfl

/-- The race of `C95_stale_after_race` happens for a scenario at 1000 m that is being moved to
2000 m: afterwards it reports 2000 m and the atmosphere of 1000 m. -/
example : ∃ (σ : Shared) (is : List ℕ) (a b : Atm), a ≠ b
    ∧ loadNoInterp numberedFiles (.fin 1000) (.fin 0) 1 = .ok a
    ∧ loadNoInterp numberedFiles (.fin 2000) (.fin 0) 1 = .ok b
    ∧ σ.scenario = Scenario.new "s" 1 (.fin 1000) (.fin 0)
    ∧ (σ.run numberedFiles is).scenario.altitude = .fin 2000
    ∧ ((σ.run numberedFiles is).scenario.readAtm numberedFiles).1 = .ok a := by
  obtain ⟨a, b, ha, hb, hab⟩ := two_atmospheres
  let σ : Shared := ⟨Scenario.new "s" 1 (.fin 1000) (.fin 0), fun i =>
    if i = 0 then AtmOp.readAtm.start else (AtmOp.setAltitude (.fin 2000)).start⟩
  have h := C95_stale_after_race numberedFiles σ a b (.fin 2000) rfl ha hb hab rfl rfl
  refine ⟨σ, _, a, b, hab, ha, hb, rfl, congrArg AtmKey.altitude h.2.2.1, ?_⟩
  have q := h.2.2.2.1 [.readAtm] (by simp [IsParamWrite])
  have hf : [ScenOp.readAtm].filter isRead = [.readAtm] := rfl
  rw [hf] at q
  simpa [Scenario.run, Scenario.step] using q

/-- The race of `C95_reader_can_get_none` happens for a scenario that has been read before. -/
example : ∃ (σ : Shared) (a : Atm), (Scenario.readAtm numberedFiles
      (Scenario.new "s" 1 (.fin 1000) (.fin 0))).2.1 = σ.scenario
    ∧ σ.scenario.atmCache = some a ∧ σ.threads 0 = AtmOp.readAtm.start
    ∧ σ.threads 1 = (AtmOp.setAltitude (.fin 2000)).start := by
  obtain ⟨a, b, ha, hb, hab⟩ := two_atmospheres
  have hl : dbLoad numberedFiles ⟨false, .fin 1000, .fin 0, 1⟩ = .ok a := by
    rw [dbLoad_key]; exact ha
  refine ⟨⟨{ Scenario.new "s" 1 (.fin 1000) (.fin 0) with atmCache := some a }, fun i =>
    if i = 0 then AtmOp.readAtm.start else (AtmOp.setAltitude (.fin 2000)).start⟩, a, ?_, rfl, rfl,
    rfl⟩
  simp [Scenario.readAtm, Scenario.new, hl]

/-- An assignment that is interrupted half-way, between two reads. -/
example : ∃ a, ((Scenario.new "s" 1 (.fin 1000) (.fin 0)).runInterrupted numberedFiles
      [(.readAtm, 8), (.setAltitude (.fin 2000), 1)]).readAtm numberedFiles
    = (.ok a, { Scenario.new "s" 1 (.fin 1000) (.fin 0) with atmCache := some a },
      [⟨false, .fin 1000, .fin 0, 1⟩]) := by
  obtain ⟨a, b, ha, hb, hab⟩ := two_atmospheres
  have hl : dbLoad numberedFiles ⟨false, .fin 1000, .fin 0, 1⟩ = .ok a := by
    rw [dbLoad_key]; exact ha
  refine ⟨a, ?_⟩
  simp [Scenario.runInterrupted, AtmOp.start, Thread.steps, Thread.step, Scenario.new,
    Scenario.readAtm, hl]

end PyBSM
