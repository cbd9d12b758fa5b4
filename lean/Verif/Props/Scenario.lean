import Verif.Spec.Scenario

/-!
# C01, C02: the atmosphere cache of `Scenario`
-/

noncomputable section

namespace PyBSM

open Spec

/-- The parameters of a scenario. -/
def Scenario.key (s : Scenario) : AtmKey := ⟨s.altitude, s.groundRange, s.ihaze⟩

/-- Cache coherence: a cached atmosphere is the one a fresh load for the current parameters gives. -/
def Coherent (files : Files) (s : Scenario) : Prop :=
  ∀ a, s.atmCache = some a → loadFresh files s.interp s.key = .ok a

theorem dbLoad_eq (files : Files) (s : Scenario) :
    dbLoad files ⟨s.interp, s.altitude, s.groundRange, s.ihaze⟩
      = loadFresh files s.interp s.key := by
  unfold dbLoad loadFresh Scenario.key
  cases s.interp <;> rfl

theorem readAtm_spec {files : Files} {s : Scenario} (h : Coherent files s) :
    (s.readAtm files).1 = loadFresh files s.interp s.key
    ∧ Coherent files (s.readAtm files).2.1
    ∧ (s.readAtm files).2.1.key = s.key ∧ (s.readAtm files).2.1.interp = s.interp := by
  unfold Scenario.readAtm
  cases hc : s.atmCache with
  | some a => exact ⟨(h a hc).symm, h, rfl, rfl⟩
  | none =>
    simp only [dbLoad_eq]
    cases hl : loadFresh files s.interp s.key with
    | ok a =>
      refine ⟨rfl, ?_, rfl, rfl⟩
      intro b hb
      simp only [Option.some.injEq] at hb
      subst hb; exact hl
    | error e => exact ⟨rfl, h, rfl, rfl⟩

theorem run_reads {files : Files} (ops : List ScenOp) :
    ∀ {s : Scenario}, Coherent files s →
      (s.run files ops).2.1 = reads files s.interp s.key ops := by
  induction ops with
  | nil => intro s _; rfl
  | cons op ops ih =>
    intro s h
    cases op with
    | readAtm =>
      have r := readAtm_spec h
      have q := ih r.2.1
      simp only [Scenario.run, Scenario.step, reads, q, r.1, r.2.2.1, r.2.2.2, Option.toList]
      rfl
    | setIhaze v =>
      exact ih (s := s.setIhaze v) (by intro a ha; simp [Scenario.setIhaze] at ha)
    | setAltitude v =>
      exact ih (s := s.setAltitude v) (by intro a ha; simp [Scenario.setAltitude] at ha)
    | setGroundRange v =>
      exact ih (s := s.setGroundRange v) (by intro a ha; simp [Scenario.setGroundRange] at ha)
    | setName v => exact ih (s := { s with name := v }) h
    | setAircraftSpeed v => exact ih (s := { s with aircraftSpeed := v }) h
    | setTargetReflectance v => exact ih (s := { s with targetReflectance := v }) h
    | setTargetTemperature v => exact ih (s := { s with targetTemperature := v }) h
    | setBackgroundReflectance v => exact ih (s := { s with backgroundReflectance := v }) h
    | setBackgroundTemperature v => exact ih (s := { s with backgroundTemperature := v }) h
    | setHaWindSpeed v => exact ih (s := { s with haWindSpeed := v }) h
    | setCn2At1m v => exact ih (s := { s with cn2At1m := v }) h

/-- **C01.** For every constructor call and every history of attribute writes and `atm` reads
(including reads that raise), the results of all reads are exactly those of the cache-free
specification: fresh loads for the parameters current at each read. -/
theorem C01_atm_never_stale (files : Files) (name : String) (ihaze : ℤ) (altitude groundRange : XR)
    (aircraftSpeed targetReflectance targetTemperature backgroundReflectance backgroundTemperature
      haWindSpeed cn2At1m : XR) (interp : Bool) (ops : List ScenOp) :
    ((Scenario.new name ihaze altitude groundRange aircraftSpeed targetReflectance
      targetTemperature backgroundReflectance backgroundTemperature haWindSpeed cn2At1m
      interp).run files ops).2.1
    = reads files interp ⟨altitude, groundRange, ihaze⟩ ops :=
  run_reads ops (by intro a ha; simp [Scenario.new] at ha)

/-- The history of the property's name: read, change the altitude, read again. -/
example (files : Files) :
    ((Scenario.new "s" 1 1000 0).run files [.readAtm, .setAltitude 2000, .readAtm]).2.1
      = [loadNoInterp files 1000 0 1, loadNoInterp files 2000 0 1] :=
  C01_atm_never_stale files "s" 1 1000 0 0 0.15 295 0.07 293 21 1.7e-14 false _

theorem run_no_write_cached {files : Files} {a : Atm} (ops : List ScenOp)
    (hw : ∀ op ∈ ops, ¬ IsParamWrite op) :
    ∀ {s : Scenario}, s.atmCache = some a →
      (s.run files ops).2.2 = [] ∧ (s.run files ops).2.1 = (ops.filter isRead).map (fun _ => .ok a) := by
  induction ops with
  | nil => intro s _; exact ⟨rfl, rfl⟩
  | cons op ops ih =>
    intro s h
    have ih' := fun {s} h => ih (fun op ho => hw op (List.mem_cons_of_mem _ ho)) (s := s) h
    have hop := hw op List.mem_cons_self
    cases op with
    | readAtm =>
      have r : s.readAtm files = (.ok a, s, []) := by simp [Scenario.readAtm, h]
      have q := ih' h
      simp only [Scenario.run, Scenario.step, r, q.1, q.2, Option.toList, isRead, List.filter_cons]
      simp
    | setIhaze v => exact absurd trivial hop
    | setAltitude v => exact absurd trivial hop
    | setGroundRange v => exact absurd trivial hop
    | setName v => exact ih' (s := { s with name := v }) h
    | setAircraftSpeed v => exact ih' (s := { s with aircraftSpeed := v }) h
    | setTargetReflectance v => exact ih' (s := { s with targetReflectance := v }) h
    | setTargetTemperature v => exact ih' (s := { s with targetTemperature := v }) h
    | setBackgroundReflectance v => exact ih' (s := { s with backgroundReflectance := v }) h
    | setBackgroundTemperature v => exact ih' (s := { s with backgroundTemperature := v }) h
    | setHaWindSpeed v => exact ih' (s := { s with haWindSpeed := v }) h
    | setCn2At1m v => exact ih' (s := { s with cn2At1m := v }) h

/-- **C02** (failure part). A read that raises leaves the scenario exactly as it was. -/
theorem C02_failed_read_changes_nothing (files : Files) (s : Scenario) (e : PyErr)
    (h : (s.readAtm files).1 = .error e) : (s.readAtm files).2.1 = s := by
  unfold Scenario.readAtm at h ⊢
  cases hc : s.atmCache with
  | some a => rfl
  | none =>
    simp only [hc] at h ⊢
    cases hl : dbLoad files ⟨s.interp, s.altitude, s.groundRange, s.ihaze⟩ with
    | ok a => simp [hl] at h
    | error e' => rfl

/-- A failing read exists: the default scenario at an altitude that is not in the database. -/
example (files : Files) (s : Scenario) (h : s.atmCache = none) (hi : s.interp = false)
    (hl : loadNoInterp files s.altitude s.groundRange s.ihaze = .error .indexError) :
    (s.readAtm files).1 = .error .indexError := by
  simp [Scenario.readAtm, h, dbLoad, hi, hl]

/-- **C02** (success part). Once a read has succeeded, no later step loads anything, and every later
read returns the same array, until one of the three parameters is assigned. -/
theorem C02_no_load_after_success (files : Files) (s : Scenario) (a : Atm)
    (h : (s.readAtm files).1 = .ok a) (ops : List ScenOp)
    (hw : ∀ op ∈ ops, ¬ IsParamWrite op) :
    ((s.readAtm files).2.1.run files ops).2.2 = []
    ∧ ((s.readAtm files).2.1.run files ops).2.1 = (ops.filter isRead).map (fun _ => .ok a) := by
  apply run_no_write_cached ops hw
  unfold Scenario.readAtm at h ⊢
  cases hc : s.atmCache with
  | some b =>
    simp only [hc] at h ⊢
    simpa using h
  | none =>
    simp only [hc] at h ⊢
    cases hl : dbLoad files ⟨s.interp, s.altitude, s.groundRange, s.ihaze⟩ with
    | ok b =>
      simp only [hl] at h ⊢
      simpa using h
    | error e => simp [hl] at h

/-- **C02** (counting). Starting from any scenario without a cached atmosphere, a stretch of steps
without parameter assignments performs exactly one load if the load succeeds and there is a read,
one load per read if the load fails; and every load asks for the current parameters. -/
theorem C02_load_count (files : Files) (ops : List ScenOp)
    (hw : ∀ op ∈ ops, ¬ IsParamWrite op) (s : Scenario) (hc : s.atmCache = none) :
    (s.run files ops).2.2 = List.replicate
      (match loadFresh files s.interp s.key with
       | .ok _ => min 1 (ops.filter isRead).length
       | .error _ => (ops.filter isRead).length)
      ⟨s.interp, s.altitude, s.groundRange, s.ihaze⟩ := by
  induction ops generalizing s with
  | nil => simp [Scenario.run]; split <;> rfl
  | cons op ops ih =>
    have hw' : ∀ op ∈ ops, ¬ IsParamWrite op := fun op ho => hw op (List.mem_cons_of_mem _ ho)
    have hop := hw op List.mem_cons_self
    cases op with
    | readAtm =>
      cases hl : loadFresh files s.interp s.key with
      | ok a =>
        have r : s.readAtm files = (.ok a, { s with atmCache := some a },
            [⟨s.interp, s.altitude, s.groundRange, s.ihaze⟩]) := by
          simp [Scenario.readAtm, hc, dbLoad_eq, hl]
        have q := run_no_write_cached (files := files) (a := a) ops hw'
          (s := { s with atmCache := some a }) rfl
        simp only [Scenario.run, Scenario.step, r, q.1, isRead, List.filter_cons]
        simp
      | error e =>
        have r : s.readAtm files = (.error e, s,
            [⟨s.interp, s.altitude, s.groundRange, s.ihaze⟩]) := by
          simp [Scenario.readAtm, hc, dbLoad_eq, hl]
        have q := ih hw' s hc
        simp only [hl] at q
        simp only [Scenario.run, Scenario.step, r, q, isRead, List.filter_cons]
        simp [List.replicate_succ]
    | setIhaze v => exact absurd trivial hop
    | setAltitude v => exact absurd trivial hop
    | setGroundRange v => exact absurd trivial hop
    | setName v => exact ih hw' { s with name := v } hc
    | setAircraftSpeed v => exact ih hw' { s with aircraftSpeed := v } hc
    | setTargetReflectance v => exact ih hw' { s with targetReflectance := v } hc
    | setTargetTemperature v => exact ih hw' { s with targetTemperature := v } hc
    | setBackgroundReflectance v => exact ih hw' { s with backgroundReflectance := v } hc
    | setBackgroundTemperature v => exact ih hw' { s with backgroundTemperature := v } hc
    | setHaWindSpeed v => exact ih hw' { s with haWindSpeed := v } hc
    | setCn2At1m v => exact ih hw' { s with cn2At1m := v } hc

/-- Three reads with a rename in between perform one load (if it succeeds). -/
example (files : Files) (a : Atm) (h : loadNoInterp files 1000 0 1 = .ok a) :
    ((Scenario.new "s" 1 1000 0).run files
      [.readAtm, .setName "t", .readAtm, .readAtm]).2.2.length = 1 := by
  rw [C02_load_count files _ (by simp [IsParamWrite]) _ rfl]
  simp only [Scenario.new, Scenario.key, loadFresh, h, List.length_replicate]
  rfl

end PyBSM
