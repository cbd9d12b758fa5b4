import Verif.Spec.Session
import Verif.Lemmas.Niirs
import Verif.Props.Scenario
import Verif.Props.SimulateDemo

/-!
# C80: any session of calls and assignments on shared objects
-/

noncomputable section

open Classical

namespace PyBSM

open Spec

/-- The scenario object `a` of the program against the reference `b`. -/
structure Tracks (env : Env) (a b : Scenario) : Prop where
  same : SameScene a b
  interp : a.interp = b.interp
  coherent : Coherent env.files a

theorem Tracks.key {env : Env} {a b : Scenario} (h : Tracks env a b) : a.key = b.key := by
  unfold Scenario.key
  rw [h.same.altitude, h.same.groundRange, h.same.ihaze]

theorem tracks_read {env : Env} {a b : Scenario} (h : Tracks env a b) :
    (a.readAtm env.files).1 = loadFresh env.files b.interp b.key ∧ Tracks env (a.readAtm env.files).2.1 b := by
  obtain ⟨h1, h2, -, h4⟩ := readAtm_spec h.coherent
  refine ⟨by rw [h1, h.interp, h.key], ?_, h4.trans h.interp, h2⟩
  refine SameScene.trans ?_ h.same
  unfold Scenario.readAtm
  cases a.atmCache with
  | some x => exact SameScene.refl a
  | none =>
    dsimp only
    split <;> exact ⟨rfl, rfl, rfl, rfl, rfl, rfl, rfl⟩

theorem tracks_assign {env : Env} {a b : Scenario} (h : Tracks env a b) (op : ScenOp) :
    Tracks env (a.step env.files op).1 (assigned b op) := by
  obtain ⟨⟨h1, h2, h3, h4, h5, h6, h7⟩, hi, hc⟩ := h
  cases op with
  | readAtm => exact (tracks_read ⟨⟨h1, h2, h3, h4, h5, h6, h7⟩, hi, hc⟩).2
  | setIhaze v => exact ⟨⟨h1, rfl, h3, h4, h5, h6, h7⟩, hi, fun x hx => by cases hx⟩
  | setAltitude v => exact ⟨⟨h1, h2, rfl, h4, h5, h6, h7⟩, hi, fun x hx => by cases hx⟩
  | setGroundRange v => exact ⟨⟨h1, h2, h3, rfl, h5, h6, h7⟩, hi, fun x hx => by cases hx⟩
  | setName v => exact ⟨⟨rfl, h2, h3, h4, h5, h6, h7⟩, hi, hc⟩
  | setAircraftSpeed v => exact ⟨⟨h1, h2, h3, h4, rfl, h6, h7⟩, hi, hc⟩
  | setTargetReflectance v => exact ⟨⟨h1, h2, h3, h4, h5, h6, h7⟩, hi, hc⟩
  | setTargetTemperature v => exact ⟨⟨h1, h2, h3, h4, h5, h6, h7⟩, hi, hc⟩
  | setBackgroundReflectance v => exact ⟨⟨h1, h2, h3, h4, h5, h6, h7⟩, hi, hc⟩
  | setBackgroundTemperature v => exact ⟨⟨h1, h2, h3, h4, h5, h6, h7⟩, hi, hc⟩
  | setHaWindSpeed v => exact ⟨⟨h1, h2, h3, h4, h5, rfl, h7⟩, hi, hc⟩
  | setCn2At1m v => exact ⟨⟨h1, h2, h3, h4, h5, h6, rfl⟩, hi, hc⟩

theorem tracks_bookkeeping {env : Env} {a b : Scenario} (h : Tracks env a b) (s : Sensor) :
    Tracks env (niirsBookkeeping s a) b := by
  refine ⟨(bookkeeping_same s a).trans h.same, ?_, ?_⟩
  · unfold niirsBookkeeping
    split_ifs <;> exact h.interp
  · unfold niirsBookkeeping
    split_ifs <;> exact h.coherent

/-- What `simulate_image` returns depends on the scenario only through its attributes and its atmosphere. -/
theorem simulate_images_eq (env : Env) (usable : Bool) (rng : Rng) (r : RefImage) (s : Sensor) {a b : Scenario}
    (h1 : (a.readAtm env.files).1 = (b.readAtm env.files).1)
    (h2 : SameScene (a.readAtm env.files).2.1 (b.readAtm env.files).2.1) :
    (simulateImage env usable rng r s a).map (fun R => (R.trueImg, R.blurImg, R.noisyImg))
      = (simulateImage env usable rng r s b).map (fun R => (R.trueImg, R.blurImg, R.noisyImg)) := by
  have hs : flatSlantRange (a.readAtm env.files).2.1 = flatSlantRange (b.readAtm env.files).2.1 := by
    unfold flatSlantRange
    rw [h2.altitude, h2.groundRange]
  have step : ∀ {α γ δ : Type} (x : Except PyErr α) (f g : α → Except PyErr γ) (F : γ → δ),
      (∀ t, (f t).map F = (g t).map F) → (x >>= f).map F = (x >>= g).map F := by
    intro α γ δ x f g F h
    cases x with
    | error e => rfl
    | ok t => exact h t
  unfold simulateImage
  dsimp only
  rw [h1]
  refine step _ _ _ _ fun atm => step _ _ _ _ fun p => step _ _ _ _ fun mn => ?_
  rw [hs, gridOTFs_same h2]
  refine step _ _ _ _ fun otf => ?_
  split_ifs
  · rfl
  refine step _ _ _ _ fun ifov => step _ _ _ _ fun t => step _ _ _ _ fun tr => step _ _ _ _ fun rows =>
    step _ _ _ _ fun q => ?_
  split_ifs
  · rfl
  split <;> rfl

/-- The program's objects against the reference objects. -/
def TracksAll (env : Env) (w v : Objects) : Prop :=
  w.sensor = v.sensor ∧ ∀ j, Tracks env (w.scenario j) (v.scenario j)

theorem tracksAll_update {env : Env} {w v : Objects} (h : TracksAll env w v) {j : ℕ} {a b : Scenario}
    (hab : Tracks env a b) (k : ℕ) :
    Tracks env (Function.update w.scenario j a k) (Function.update v.scenario j b k) := by
  by_cases hk : k = j
  · subst hk
    rw [Function.update_self, Function.update_self]
    exact hab
  · rw [Function.update_of_ne hk, Function.update_of_ne hk]
    exact h.2 k

theorem tracksAll_same {env : Env} {w v : Objects} (h : TracksAll env w v) {j : ℕ} {a : Scenario}
    (hab : Tracks env a (v.scenario j)) (k : ℕ) :
    Tracks env (Function.update w.scenario j a k) (v.scenario k) := by
  by_cases hk : k = j
  · subst hk
    rw [Function.update_self]
    exact hab
  · rw [Function.update_of_ne hk]
    exact h.2 k

theorem session_step {env : Env} {w v : Objects} (h : TracksAll env w v) (a : Action) :
    (w.step env a).2 = outcome env v a ∧ TracksAll env (w.step env a).1 (objectsAfter env v a) := by
  obtain ⟨hs, hsc⟩ := id h
  cases a with
  | assign i g => exact ⟨rfl, by simp only [Objects.step, objectsAfter, hs], hsc⟩
  | look i => exact ⟨by simp only [Objects.step, outcome, hs], h⟩
  | lookScene j =>
    obtain ⟨h1, h2, h3, h4, h5, h6, h7⟩ := (hsc j).same
    exact ⟨by simp only [Objects.step, outcome, Scenario.attributes, h1, h2, h3, h4, h5, h6, h7], h⟩
  | scenario j op =>
    refine ⟨?_, hs, tracksAll_update h (tracks_assign (hsc j) op)⟩
    cases op with
    | readAtm =>
      show Outcome.atmosphere ((w.scenario j).readAtm env.files).1 = _
      rw [(tracks_read (hsc j)).1]
      rfl
    | _ => rfl
  | niirs i j interp =>
    refine ⟨?_, ?_, ?_⟩
    · show Outcome.report (niirs env (w.sensor i) (w.scenario j) interp).1 = _
      rw [hs, niirs_result_same (hsc j).same]
      rfl
    · show Function.update w.sensor i (niirs env (w.sensor i) (w.scenario j) interp).2.1 = v.sensor
      rw [niirs_state, Function.update_eq_self]
      exact hs
    · show ∀ k, Tracks env (Function.update w.scenario j (niirs env (w.sensor i) (w.scenario j) interp).2.2 k) _
      rw [niirs_state]
      apply tracksAll_same h
      dsimp only
      split_ifs
      · exact tracks_bookkeeping (hsc j) _
      · exact hsc j
  | niirs5 i j interp =>
    have hr : ReachesSNR env (v.sensor i) (v.scenario j) interp ↔ reachesTail env (w.sensor i) (w.scenario j) interp := by
      rw [hs]
      exact (reachesTail_same (hsc j).same env (v.sensor i) (v.sensor i).filterKernel interp).symm
    have hsen : (objectsAfter env v (.niirs5 i j interp)).scenario = v.scenario := by
      simp only [objectsAfter]
      split_ifs <;> rfl
    refine ⟨?_, ?_, ?_⟩
    · show Outcome.report (niirs5 env (w.sensor i) (w.scenario j) interp).1 = _
      rw [hs]
      exact congrArg Outcome.report (niirs5_result_same (hsc j).same env (v.sensor i) (v.sensor i).filterKernel interp)
    · show Function.update w.sensor i (niirs5 env (w.sensor i) (w.scenario j) interp).2.1 = _
      rw [niirs5_state]
      dsimp only
      simp only [objectsAfter, hr]
      split_ifs
      · rw [hs]; rfl
      · rw [Function.update_eq_self]; exact hs
    · rw [hsen]
      show ∀ k, Tracks env (Function.update w.scenario j (niirs5 env (w.sensor i) (w.scenario j) interp).2.2 k) _
      rw [niirs5_state]
      apply tracksAll_same h
      dsimp only
      split_ifs
      · exact tracks_bookkeeping (hsc j) _
      · exact hsc j
  | simulate usable rng r i j =>
    refine ⟨?_, hs, tracksAll_same h (tracks_read (hsc j)).2⟩
    have hu : Tracks env (uncached (v.scenario j)) (v.scenario j) :=
      ⟨⟨rfl, rfl, rfl, rfl, rfl, rfl, rfl⟩, rfl, fun x hx => by cases hx⟩
    show Outcome.images _ = Outcome.images _
    rw [hs]
    congr 1
    exact simulate_images_eq env usable rng r _ ((tracks_read (hsc j)).1.trans (tracks_read hu).1.symm)
      ((tracks_read (hsc j)).2.same.trans (tracks_read hu).2.same.symm)

theorem session_run {env : Env} (as : List Action) : ∀ {w v : Objects}, TracksAll env w v →
    (w.run env as).2 = outcomes env v as := by
  induction as with
  | nil => intro w v _; rfl
  | cons a as ih =>
    intro w v h
    obtain ⟨h1, h2⟩ := session_step h a
    show (w.step env a).2 :: ((w.step env a).1.run env as).2 = _
    rw [h1, ih h2]
    rfl

/-- **C80** (sessions): in every session on any number of shared sensor and scenario objects, every read and call has
the outcome it has in the reference behaviour without caches and hidden writes. -/
theorem C80_sessions (env : Env) (w : Objects) (hw : Fresh w) (as : List Action) :
    (w.run env as).2 = outcomes env w as :=
  session_run as ⟨rfl, fun j => ⟨SameScene.refl _, rfl, fun x hx => by rw [hw j] at hx; cases hx⟩⟩

theorem outcomes_append (env : Env) (as : List Action) : ∀ w, ∃ v, ∀ cs,
    outcomes env w (as ++ cs) = outcomes env w as ++ outcomes env v cs := by
  induction as with
  | nil => intro w; exact ⟨w, fun cs => rfl⟩
  | cons a as ih =>
    intro w
    obtain ⟨v, hv⟩ := ih (objectsAfter env w a)
    refine ⟨v, fun cs => ?_⟩
    show _ :: outcomes env _ (as ++ cs) = _
    rw [hv]
    rfl

theorem inert_after (env : Env) (w : Objects) {a : Action} (ha : Action.Inert a) : objectsAfter env w a = w := by
  cases a with
  | scenario j op =>
    cases op with
    | readAtm =>
      simp only [objectsAfter, assigned, Function.update_eq_self]
    | _ => exact absurd ha (by simp [Action.Inert])
  | assign => exact absurd ha (by simp [Action.Inert])
  | niirs5 => exact absurd ha (by simp [Action.Inert])
  | look => rfl
  | lookScene => rfl
  | niirs => rfl
  | simulate => rfl

/-- **C80** (no interference): a read, a `niirs` or a `simulate_image` call can be inserted anywhere in a session
without changing the outcome of anything else, before or after, on the same or other objects. -/
theorem C80_inert (env : Env) (w : Objects) (hw : Fresh w) (as bs : List Action) {a : Action} (ha : Action.Inert a) :
    ∃ x, (w.run env (as ++ a :: bs)).2 = (w.run env as).2 ++ x :: ((w.run env (as ++ bs)).2.drop as.length) := by
  obtain ⟨v, hv⟩ := outcomes_append env as w
  have hl : ∀ (as : List Action) w, (outcomes env w as).length = as.length := by
    intro as
    induction as with
    | nil => intro w; rfl
    | cons a as ih => intro w; simp only [outcomes, List.length_cons, ih]
  refine ⟨outcome env v a, ?_⟩
  rw [C80_sessions env w hw, C80_sessions env w hw, C80_sessions env w hw, hv, hv, List.drop_left' (hl as w)]
  congr 1
  show _ :: outcomes env (objectsAfter env v a) bs = _
  rw [inert_after env v ha]

/-- **C80** (repeatable): a read or a call made twice in a row, or with other reads, `niirs` and `simulate_image` calls
in between, has the same outcome both times (the same random draws given). -/
theorem C80_repeat (env : Env) (w : Objects) (hw : Fresh w) (as bs : List Action) (a : Action)
    (ha : Action.Inert a) (hb : ∀ b ∈ bs, Action.Inert b) :
    ∃ x ys, (w.run env (as ++ a :: bs ++ [a])).2 = (w.run env as).2 ++ x :: ys ++ [x] := by
  have stay : ∀ (bs : List Action) (v : Objects), (∀ b ∈ bs, Action.Inert b) →
      ∀ cs, outcomes env v (bs ++ cs) = outcomes env v bs ++ outcomes env v cs := by
    intro bs
    induction bs with
    | nil => intro v _ cs; rfl
    | cons b bs ih =>
      intro v hb cs
      have e := inert_after env v (hb b (by simp))
      show _ :: outcomes env _ (bs ++ cs) = _ :: outcomes env _ bs ++ _
      rw [e, ih v (fun c hc => hb c (by simp [hc])) cs]
      rfl
  obtain ⟨v, hv⟩ := outcomes_append env as w
  refine ⟨outcome env v a, outcomes env v bs, ?_⟩
  rw [C80_sessions env w hw, C80_sessions env w hw, List.append_assoc, hv, List.append_assoc]
  congr 1
  rw [stay (a :: bs) v (by
    intro b hb'
    rcases List.mem_cons.mp hb' with rfl | h
    · exact ha
    · exact hb b h)]
  show (_ :: outcomes env (objectsAfter env v a) bs) ++ [_] = _
  rw [inert_after env v ha]

/-- **C80** (`niirs5`): inserting a `niirs5` call that gets as far as the SNR has the same effect on everything
afterwards as assigning the identity kernel to its sensor at that point; one that does not get so far has none. -/
theorem C80_niirs5 (env : Env) (w : Objects) (hw : Fresh w) (as bs : List Action) (i j : ℕ) (interp : Bool) :
    ∃ x, (w.run env (as ++ .niirs5 i j interp :: bs)).2 = (w.run env as).2 ++ .report x
          :: ((w.run env (as ++ .assign i (fun s => { s with filterKernel := [[1]] }) :: bs)).2.drop (as.length + 1))
      ∨ (w.run env (as ++ .niirs5 i j interp :: bs)).2 = (w.run env as).2 ++ .report x
          :: ((w.run env (as ++ bs)).2.drop as.length) ∧ ∃ e, x = .error e := by
  obtain ⟨v, hv⟩ := outcomes_append env as w
  have hl : ∀ (as : List Action) w, (outcomes env w as).length = as.length := by
    intro as
    induction as with
    | nil => intro w; rfl
    | cons a as ih => intro w; simp only [outcomes, List.length_cons, ih]
  refine ⟨(niirs5 env (v.sensor i) (v.scenario j) interp).1, ?_⟩
  rw [C80_sessions env w hw, C80_sessions env w hw, C80_sessions env w hw, C80_sessions env w hw, hv, hv, hv]
  by_cases hr : ReachesSNR env (v.sensor i) (v.scenario j) interp
  · left
    rw [← List.drop_drop, List.drop_left' (hl as w)]
    congr 1
    show _ :: outcomes env (objectsAfter env v _) bs = _ :: outcomes env (objectsAfter env v _) bs
    simp only [objectsAfter, if_pos hr]
    rfl
  · right
    refine ⟨?_, ?_⟩
    · rw [List.drop_left' (hl as w)]
      congr 1
      show _ :: outcomes env (objectsAfter env v _) bs = _
      simp only [objectsAfter, if_neg hr]
      rfl
    · rw [niirs5_result]
      cases h1 : niirsAtm env (v.sensor i) (v.scenario j) interp with
      | error e => exact ⟨e, rfl⟩
      | ok atm =>
        cases h2 : niirsMid (v.sensor i) atm with
        | error e => exact ⟨e, by simp [bind, Except.bind, h2]⟩
        | ok m => exact absurd ⟨atm, m, h1, h2⟩ hr

/-- Every object of the demonstration session. -/
def demoObjects : Objects := ⟨fun _ => demoSensor.toSensor, fun _ => demoScenario⟩

/-- A session in which everything succeeds: two `niirs` reports on the same objects around a simulation and a read of
the atmosphere, which leaves the scenario with a cached atmosphere. -/
example (rng : Rng) : Fresh demoObjects ∧ ∃ (m : Metrics) (t b n : Img),
    (demoObjects.run demoEnv [.niirs 0 7 false, .simulate true rng demoRef 0 7, .niirs 0 7 false, .scenario 7 .readAtm]).2
      = [.report (.ok m), .images (.ok (t, b, n)), .report (.ok m), .atmosphere (.ok (realAtm demoAtm))] := by
  have hf : Fresh demoObjects := fun _ => rfl
  refine ⟨hf, ?_⟩
  obtain ⟨m, -, -, -, -, -, -, h1, -⟩ := C70_well_sampled demo_imaging rfl demo_sampled
    (by norm_num [demoScene]) (by norm_num [demoSensor]) demo_brighter.ne' demo_cut
  obtain ⟨R, h2, -⟩ := demo_succeeds rng
  refine ⟨m, R.trueImg, R.blurImg, R.noisyImg, ?_⟩
  rw [C80_sessions demoEnv demoObjects hf]
  have e1 : outcome demoEnv demoObjects (.niirs 0 7 false) = .report (.ok m) := congrArg Outcome.report h1
  have e2 : outcome demoEnv demoObjects (.simulate true rng demoRef 0 7) = .images (.ok (R.trueImg, R.blurImg, R.noisyImg)) := by
    show Outcome.images ((simulateImage demoEnv true rng demoRef demoSensor.toSensor demoScenario).map _) = _
    rw [h2]
    rfl
  have e3 : outcome demoEnv demoObjects (.scenario 7 .readAtm) = .atmosphere (.ok (realAtm demoAtm)) :=
    congrArg Outcome.atmosphere demoAtm_load
  show [outcome demoEnv demoObjects _, outcome demoEnv demoObjects _, outcome demoEnv demoObjects _,
    outcome demoEnv demoObjects _] = _
  rw [e1, e2, e3]

end PyBSM
