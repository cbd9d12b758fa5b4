import Verif.Spec.Generator
import Verif.Props.Session
import Verif.Props.RefImage
import Verif.Props.SNR
import Verif.Lemmas.Simulate

/-!
# C127: which random numbers a simulation uses, and repeating a session with the same seed
-/

noncomputable section

open Classical

namespace PyBSM

open Spec

theorem means_factor (env : Env) (usable : Bool) (rng : Rng) (r : RefImage) (s : Sensor) (sc : Scenario) :
    simulateImage env usable rng r s sc = (simulateMeans env usable r s sc).map fun p =>
      { trueImg := p.1, blurImg := p.2.1, scenario := p.2.2.2
        noisyImg := { p.2.1 with px := fun i j => (rng.poisson i j (p.2.1.px i j) : ℝ) + p.2.2.1 * rng.normal i j } } := by
  have step : ∀ {α β γ : Type} (x : Except PyErr α) (f : α → Except PyErr γ) (g : α → Except PyErr β) (F : β → γ),
      (∀ t, f t = (g t).map F) → (x >>= f) = (x >>= g).map F := by
    intro α β γ x f g F h
    cases x with
    | error e => rfl
    | ok t => exact h t
  unfold simulateImage simulateMeans
  refine step _ _ _ _ fun atm => step _ _ _ _ fun p => step _ _ _ _ fun mn => step _ _ _ _ fun otf => ?_
  dsimp only
  split_ifs with hdf
  · rfl
  refine step _ _ _ _ fun ifov => step _ _ _ _ fun t => step _ _ _ _ fun tr => step _ _ _ _ fun rows =>
    step _ _ _ _ fun q => ?_
  split_ifs with hneg
  · rfl
  cases XR.sqrt (quantizationNoise s.maxN s.bitDepth ^ 2 + s.readNoise ^ 2) <;> rfl

theorem poissons_state (G : Generator) (ms : List ℝ) : ∀ st, (G.poissons ms st).2 = afterPoissons G ms st := by
  induction ms with
  | nil => intro st; rfl
  | cons m ms ih => intro st; exact ih _

theorem poissons_getD (G : Generator) (ms : List ℝ) : ∀ st (k : ℕ) (hk : k < ms.length),
    (G.poissons ms st).1.getD k 0 = (G.poisson ms[k] (afterPoissons G (ms.take k) st)).1 := by
  induction ms with
  | nil => intro st k hk; simp at hk
  | cons m ms ih =>
    intro st k hk
    cases k with
    | zero => rfl
    | succ k => exact ih _ k (by simpa using hk)

theorem normals_state (G : Generator) (n : ℕ) : ∀ st, (G.normals n st).2 = afterNormals G n st := by
  induction n with
  | zero => intro st; rfl
  | succ n ih => intro st; exact ih _

theorem normals_getD (G : Generator) (n : ℕ) : ∀ st (k : ℕ), k < n →
    (G.normals n st).1.getD k 0 = (G.normal (afterNormals G k st)).1 := by
  induction n with
  | zero => intro st k hk; simp at hk
  | succ n ih =>
    intro st k hk
    cases k with
    | zero => rfl
    | succ k => exact ih _ k (by omega)

theorem ravel_before (b : Img) : pixelsBefore b b.h 0 = b.ravel := by
  simp [pixelsBefore, Img.ravel]

theorem ravel_take (b : Img) {i j : ℕ} (hi : i < b.h) (hj : j < b.w) : b.ravel.take (i * b.w + j) = pixelsBefore b i j := by
  obtain ⟨k, hk⟩ : ∃ k, b.h = i + (1 + k) := ⟨b.h - i - 1, by omega⟩
  obtain ⟨m, hm⟩ : ∃ m, b.w = j + m := ⟨b.w - j, by omega⟩
  have hl : ((List.range i).flatMap fun a => (List.range b.w).map fun c => b.px a c).length = i * b.w := by
    simp [List.length_flatMap]
  have e : b.ravel = pixelsBefore b i j ++ ((List.range m).map (fun c => b.px i (j + c))
      ++ (List.range k).flatMap fun a => (List.range b.w).map fun c => b.px (i + 1 + a) c) := by
    unfold Img.ravel pixelsBefore
    rw [hk, List.range_add, List.flatMap_append, List.append_assoc]
    congr 1
    rw [List.range_add, List.map_append, List.flatMap_append]
    rw [← List.append_assoc]
    congr 1
    · simp only [List.range_one, List.map_cons, List.map_nil, List.flatMap_cons, List.flatMap_nil, List.append_nil,
        Nat.add_zero]
      conv_lhs => rw [hm, List.range_add, List.map_append, List.map_map]
      rfl
    · simp only [List.flatMap_map, List.map_map, Function.comp_def, Nat.add_assoc]
  rw [e, List.take_left']
  unfold pixelsBefore
  rw [List.length_append, hl]
  simp

/-- **C127** (which draws): a call of `simulate_image` that raises leaves the random generator alone.  A call that
succeeds draws first one Poisson count per pixel of the blurred image, with that pixel as mean, row by row, then one
standard normal variate per pixel in the same order, and nothing else; each noisy pixel is its count plus the standard
deviation of the quantization and read noise times its variate. -/
theorem C127_draws (env : Env) (G : Generator) (usable : Bool) (st : G.State) (r : RefImage) (s : Sensor) (sc : Scenario) :
    (∀ e st', simulateDrawn env G usable st r s sc = (.error e, st') → st' = st)
    ∧ ∀ t b n st', simulateDrawn env G usable st r s sc = (.ok (t, b, n), st') →
        ∃ g : ℝ, XR.sqrt (quantizationNoise s.maxN s.bitDepth ^ 2 + s.readNoise ^ 2) = .fin g
          ∧ NoiseOf G st b g n st' := by
  have hg : ∀ t b g sc', simulateMeans env usable r s sc = .ok (t, b, g, sc') →
      XR.sqrt (quantizationNoise s.maxN s.bitDepth ^ 2 + s.readNoise ^ 2) = .fin g := by
    intro t b g sc' h
    unfold simulateMeans at h
    simp only [bind_ok] at h
    obtain ⟨atm, e1, ⟨ref, pe, wl, w⟩, e2, mn, e3, otf, e4, h⟩ := h
    split_ifs at h with hdf
    simp only [bind_ok] at h
    obtain ⟨ifov, e5, t, e6, tr, e7, rows, e8, ⟨blur, sp⟩, e9, h⟩ := h
    split_ifs at h with hneg
    split at h
    · next g' hg =>
      simp only [Except.ok.injEq, Prod.mk.injEq] at h
      rw [hg, h.2.2.1]
    · cases h
  unfold simulateDrawn
  cases hm : simulateMeans env usable r s sc with
  | error e =>
    refine ⟨fun e' st' h => ?_, fun t b n st' h => ?_⟩
    · simp only [Prod.mk.injEq] at h; exact h.2.symm
    · simp at h
  | ok p =>
    obtain ⟨t, b, g, sc'⟩ := p
    refine ⟨fun e' st' h => ?_, fun t' b' n st' h => ?_⟩
    · simp at h
    · simp only [Prod.mk.injEq, Except.ok.injEq] at h
      obtain ⟨⟨rfl, rfl, rfl⟩, rfl⟩ := h
      refine ⟨g, hg _ _ _ _ hm, rfl, rfl, fun i hi j hj => ?_, ?_⟩
      · have hlt : i * b.w + j < b.h * b.w := by
          calc i * b.w + j < i * b.w + b.w := by omega
            _ = (i + 1) * b.w := by ring
            _ ≤ b.h * b.w := Nat.mul_le_mul_right _ hi
        have hlt' : i * b.w + j < b.ravel.length := by rw [ravel_length]; exact hlt
        have hget : b.ravel[i * b.w + j] = b.px i j := by
          rw [← ravel_getD b hi hj 0, List.getD_eq_getElem _ _ hlt']
        dsimp only
        rw [poissons_getD G _ _ _ hlt', normals_getD G _ _ _ hlt, poissons_state, hget, ravel_take b hi hj, ravel_before]
      · rw [normals_state, poissons_state, ravel_before]

/-- **C127** (nothing else changes): the images are those of `simulate_image` for some draws; success, error, true and
blurred image are the same for every generator and every state of it. -/
theorem C127_images (env : Env) (usable : Bool) (r : RefImage) (s : Sensor) (sc : Scenario) :
    (∀ (G : Generator) (st : G.State), ∃ rng : Rng, (simulateDrawn env G usable st r s sc).1
        = (simulateImage env usable rng r s sc).map fun R => (R.trueImg, R.blurImg, R.noisyImg))
    ∧ ∀ (G G' : Generator) (st : G.State) (st' : G'.State),
        (simulateDrawn env G usable st r s sc).1.map (fun x => (x.1, x.2.1))
          = (simulateDrawn env G' usable st' r s sc).1.map fun x => (x.1, x.2.1) := by
  constructor
  · intro G st
    cases hm : simulateMeans env usable r s sc with
    | error e =>
      refine ⟨⟨fun _ _ _ => 0, fun _ _ => 0⟩, ?_⟩
      rw [means_factor]
      simp only [simulateDrawn, hm]
      rfl
    | ok p =>
      obtain ⟨t, b, g, sc'⟩ := p
      refine ⟨⟨fun i j _ => (G.poissons b.ravel st).1.getD (i * b.w + j) 0,
        fun i j => (G.normals (b.h * b.w) (G.poissons b.ravel st).2).1.getD (i * b.w + j) 0⟩, ?_⟩
      rw [means_factor]
      simp only [simulateDrawn, hm]
      rfl
  · intro G G' st st'
    unfold simulateDrawn
    cases simulateMeans env usable r s sc with
    | error e => rfl
    | ok p => rfl

theorem drawn_eq (env : Env) (G : Generator) (usable : Bool) (st : G.State) (r : RefImage) (s : Sensor) {a b : Scenario}
    (h1 : (a.readAtm env.files).1 = (b.readAtm env.files).1)
    (h2 : SameScene (a.readAtm env.files).2.1 (b.readAtm env.files).2.1) :
    simulateDrawn env G usable st r s a = simulateDrawn env G usable st r s b := by
  have hs : flatSlantRange (a.readAtm env.files).2.1 = flatSlantRange (b.readAtm env.files).2.1 := by
    unfold flatSlantRange
    rw [h2.altitude, h2.groundRange]
  have step : ∀ {α γ δ : Type} (x : Except PyErr α) (f g : α → Except PyErr γ) (F : γ → δ),
      (∀ t, (f t).map F = (g t).map F) → (x >>= f).map F = (x >>= g).map F := by
    intro α γ δ x f g F h
    cases x with
    | error e => rfl
    | ok t => exact h t
  have key : (simulateMeans env usable r s a).map (fun p => (p.1, p.2.1, p.2.2.1))
      = (simulateMeans env usable r s b).map fun p => (p.1, p.2.1, p.2.2.1) := by
    unfold simulateMeans
    dsimp only
    rw [h1]
    refine step _ _ _ _ fun atm => step _ _ _ _ fun p => step _ _ _ _ fun mn => ?_
    rw [hs, gridOTFs_same h2]
    refine step _ _ _ _ fun otf => ?_
    split_ifs
    · rfl
    refine step _ _ _ _ fun ifov => step _ _ _ _ fun t => step _ _ _ _ fun tr => step _ _ _ _ fun rows =>
      step _ _ _ _ fun q => ?_
    split_ifs
    · rfl
    split <;> rfl
  have out : ∀ x : Scenario, simulateDrawn env G usable st r s x
      = match (simulateMeans env usable r s x).map (fun p => (p.1, p.2.1, p.2.2.1)) with
        | .error e => (.error e, st)
        | .ok (t, b, g) =>
          let p := G.poissons b.ravel st
          let n := G.normals (b.h * b.w) p.2
          (.ok (t, b, { b with px := fun i j => (p.1.getD (i * b.w + j) 0 : ℝ) + g * n.1.getD (i * b.w + j) 0 }), n.2) := by
    intro x
    unfold simulateDrawn
    cases simulateMeans env usable r s x <;> rfl
  rw [out a, out b, key]

theorem lab_run {G : Generator} {env : Env} (as : List (LabAction G)) : ∀ {l : Lab G} {v : Objects},
    TracksAll env l.objects v → (l.run env as).2 = labOutcomes env v l.gen as := by
  induction as with
  | nil => intro l v _; rfl
  | cons a as ih =>
    intro l v h
    cases a with
    | act a ha =>
      obtain ⟨h1, h2⟩ := session_step h a
      have e := ih (l := { l with objects := (l.objects.step env a).1 }) h2
      show (l.objects.step env a).2 :: (Lab.run env { l with objects := (l.objects.step env a).1 } as).2 = _
      rw [h1, e]
      rfl
    | seed n => exact congrArg (Outcome.done :: ·) (ih (l := { l with gen := G.seeded n }) h)
    | draw f => exact congrArg (Outcome.done :: ·) (ih (l := { l with gen := f l.gen }) h)
    | simulate usable r i j =>
      obtain ⟨hs, hsc⟩ := id h
      have hu : Tracks env (uncached (v.scenario j)) (v.scenario j) :=
        ⟨⟨rfl, rfl, rfl, rfl, rfl, rfl, rfl⟩, rfl, fun x hx => by cases hx⟩
      have e : simulateDrawn env G usable l.gen r (l.objects.sensor i) (l.objects.scenario j)
          = simulateDrawn env G usable l.gen r (v.sensor i) (uncached (v.scenario j)) := by
        rw [hs]
        exact drawn_eq env G usable l.gen r _ ((tracks_read (hsc j)).1.trans (tracks_read hu).1.symm)
          ((tracks_read (hsc j)).2.same.trans (tracks_read hu).2.same.symm)
      have e2 := ih (l := (l.step env (.simulate usable r i j)).1) (v := v) ⟨hs, tracksAll_same h (tracks_read (hsc j)).2⟩
      show Outcome.images (simulateDrawn env G usable l.gen r (l.objects.sensor i) (l.objects.scenario j)).1
        :: (Lab.run env (l.step env (.simulate usable r i j)).1 as).2 = _
      rw [e2]
      show _ :: labOutcomes env v (simulateDrawn env G usable l.gen r (l.objects.sensor i) (l.objects.scenario j)).2 as = _
      rw [e]
      rfl

/-- **C127** (sessions): every session with the global generator has the outcomes of the reference behaviour, in which
reports, reads, assignments and failed simulations never touch the generator. -/
theorem C127_sessions {G : Generator} (env : Env) (l : Lab G) (hw : Fresh l.objects) (as : List (LabAction G)) :
    (l.run env as).2 = labOutcomes env l.objects l.gen as :=
  lab_run as ⟨rfl, fun j => ⟨SameScene.refl _, rfl, fun x hx => by rw [hw j] at hx; cases hx⟩⟩

theorem labOutcomes_length {G : Generator} (env : Env) (as : List (LabAction G)) :
    ∀ w st, (labOutcomes env w st as).length = as.length := by
  induction as with
  | nil => intro w st; rfl
  | cons a as ih => intro w st; cases a <;> simp only [labOutcomes, List.length_cons, ih]

theorem labOutcomes_append {G : Generator} (env : Env) (as : List (LabAction G)) : ∀ w st, ∃ v st', ∀ cs,
    labOutcomes env w st (as ++ cs) = labOutcomes env w st as ++ labOutcomes env v st' cs := by
  induction as with
  | nil => intro w st; exact ⟨w, st, fun cs => rfl⟩
  | cons a as ih =>
    intro w st
    cases a with
    | act a ha =>
      obtain ⟨v, st', h⟩ := ih (objectsAfter env w a) st
      exact ⟨v, st', fun cs => congrArg (outcome env w a :: ·) (h cs)⟩
    | seed n =>
      obtain ⟨v, st', h⟩ := ih w (G.seeded n)
      exact ⟨v, st', fun cs => congrArg (Outcome.done :: ·) (h cs)⟩
    | draw f =>
      obtain ⟨v, st', h⟩ := ih w (f st)
      exact ⟨v, st', fun cs => congrArg (Outcome.done :: ·) (h cs)⟩
    | simulate usable r i j =>
      obtain ⟨v, st', h⟩ := ih w (simulateDrawn env G usable st r (w.sensor i) (uncached (w.scenario j))).2
      exact ⟨v, st', fun cs => congrArg (Outcome.images _ :: ·) (h cs)⟩

theorem labOutcomes_inert {G : Generator} (env : Env) (as : List (LabAction G)) : (∀ a ∈ as, LabAction.Inert a) →
    ∀ w st, ∃ st', ∀ cs, labOutcomes env w st (as ++ cs) = labOutcomes env w st as ++ labOutcomes env w st' cs := by
  induction as with
  | nil => intro _ w st; exact ⟨st, fun cs => rfl⟩
  | cons a as ih =>
    intro hi w st
    have ih := ih (fun b hb => hi b (by simp [hb]))
    cases a with
    | act a ha =>
      obtain ⟨st', h⟩ := ih w st
      refine ⟨st', fun cs => ?_⟩
      have e := inert_after env w (hi (.act a ha) (by simp) : Action.Inert a)
      show outcome env w a :: labOutcomes env (objectsAfter env w a) st (as ++ cs)
        = outcome env w a :: labOutcomes env (objectsAfter env w a) st as ++ _
      rw [e, h]
      rfl
    | seed n =>
      obtain ⟨st', h⟩ := ih w (G.seeded n)
      exact ⟨st', fun cs => congrArg (Outcome.done :: ·) (h cs)⟩
    | draw f =>
      obtain ⟨st', h⟩ := ih w (f st)
      exact ⟨st', fun cs => congrArg (Outcome.done :: ·) (h cs)⟩
    | simulate usable r i j =>
      obtain ⟨st', h⟩ := ih w (simulateDrawn env G usable st r (w.sensor i) (uncached (w.scenario j))).2
      exact ⟨st', fun cs => congrArg (Outcome.images _ :: ·) (h cs)⟩

/-- **C127** (same seed, same results): what happens after `np.random.seed` does not depend on the state of the
generator before it: neither on earlier simulations nor on anything else drawn from it. -/
theorem C127_seed {G : Generator} (env : Env) (w : Objects) (hw : Fresh w) (st st' : G.State) (n : ℕ)
    (as : List (LabAction G)) :
    (Lab.run env ⟨w, st⟩ (.seed n :: as)).2 = (Lab.run env ⟨w, st'⟩ (.seed n :: as)).2 := by
  rw [C127_sessions env ⟨w, st⟩ hw, C127_sessions env ⟨w, st'⟩ hw]
  rfl

/-- **C127** (replay): a series of simulations, `niirs` reports and reads that starts with `np.random.seed` can be
repeated, at any later time of the session, with any simulations, `niirs` reports, reads and draws in between: seeded
with the same number it returns the same outcomes, noisy images included. -/
theorem C127_replay {G : Generator} (env : Env) (l : Lab G) (hw : Fresh l.objects) (pre as mid : List (LabAction G))
    (ha : ∀ a ∈ as, LabAction.Inert a) (hm : ∀ a ∈ mid, LabAction.Inert a) (n : ℕ) :
    ∃ xs ys, xs.length = as.length + 1 ∧ ys.length = mid.length
      ∧ (l.run env (pre ++ (.seed n :: as) ++ mid ++ (.seed n :: as))).2 = (l.run env pre).2 ++ xs ++ ys ++ xs := by
  obtain ⟨v, st, h1⟩ := labOutcomes_append env pre l.objects l.gen
  obtain ⟨st2, h2⟩ := labOutcomes_inert env (.seed n :: as)
    (fun b hb => by
      rcases List.mem_cons.mp hb with rfl | hb
      · trivial
      · exact ha b hb) v st
  obtain ⟨st3, h3⟩ := labOutcomes_inert env mid hm v st2
  refine ⟨labOutcomes env v st (.seed n :: as), labOutcomes env v st2 mid, by rw [labOutcomes_length]; rfl,
    labOutcomes_length env mid v st2, ?_⟩
  rw [C127_sessions env l hw, C127_sessions env l hw, List.append_assoc, List.append_assoc, h1, h2, h3,
    List.append_assoc, List.append_assoc]
  rfl

/-- **C127** (reports draw nothing): inserting a `niirs` report or a read anywhere in a session changes no other
outcome, so every noisy image stays the same. -/
theorem C127_insert {G : Generator} (env : Env) (l : Lab G) (hw : Fresh l.objects) (as bs : List (LabAction G))
    {a : Action} (hd : a.DrawsNothing) (ha : Action.Inert a) :
    ∃ x, (l.run env (as ++ .act a hd :: bs)).2 = (l.run env as).2 ++ x :: ((l.run env (as ++ bs)).2.drop as.length) := by
  obtain ⟨v, st, h⟩ := labOutcomes_append env as l.objects l.gen
  refine ⟨outcome env v a, ?_⟩
  rw [C127_sessions env l hw, C127_sessions env l hw, C127_sessions env l hw, h, h,
    List.drop_left' (labOutcomes_length env as _ _)]
  congr 1
  show _ :: labOutcomes env (objectsAfter env v a) st bs = _
  rw [inert_after env v ha]

/-- **C127** (failed simulations draw nothing): neither does a simulation that raises. -/
theorem C127_failed {G : Generator} (env : Env) (l : Lab G) (hw : Fresh l.objects) (as bs : List (LabAction G))
    (usable : Bool) (r : RefImage) (i j : ℕ) :
    ∃ x, (l.run env (as ++ .simulate usable r i j :: bs)).2[as.length]? = some (.images x)
      ∧ ∀ e, x = .error e → (l.run env (as ++ .simulate usable r i j :: bs)).2
          = (l.run env as).2 ++ .images (.error e) :: ((l.run env (as ++ bs)).2.drop as.length) := by
  obtain ⟨v, st, h⟩ := labOutcomes_append env as l.objects l.gen
  have hl := labOutcomes_length env as l.objects l.gen
  refine ⟨(simulateDrawn env G usable st r (v.sensor i) (uncached (v.scenario j))).1, ?_, fun e he => ?_⟩
  · rw [C127_sessions env l hw, h, List.getElem?_append_right (by rw [hl]), hl, Nat.sub_self]
    rfl
  · rw [C127_sessions env l hw, C127_sessions env l hw, C127_sessions env l hw, h, h, List.drop_left' hl]
    congr 1
    have hst := (C127_draws env G usable st r (v.sensor i) (uncached (v.scenario j))).1 e _ (Prod.ext he rfl)
    have hx : simulateDrawn env G usable st r (v.sensor i) (uncached (v.scenario j)) = (.error e, st) := Prod.ext he hst
    show Outcome.images (simulateDrawn env G usable st r (v.sensor i) (uncached (v.scenario j))).1
      :: labOutcomes env v (simulateDrawn env G usable st r (v.sensor i) (uncached (v.scenario j))).2 bs = _
    rw [hx]

/-- **C127** (common random numbers): change only the read noise and the bit depth of a sensor whose simulation
succeeds.  From the same state of the generator the simulation succeeds again, with the same true and blurred image,
the same counts and the same normal variates, and leaves the generator in the same state: the noisy images differ by
the scale of the Gaussian noise only, and later simulations do not change at all. -/
theorem C127_common (env : Env) (G : Generator) (usable : Bool) (st : G.State) (r : RefImage) (s : Sensor)
    (sc : Scenario) (σ : XR) (β g' : ℝ) (hg' : XR.sqrt (quantizationNoise s.maxN β ^ 2 + σ ^ 2) = .fin g')
    {t b n : Img} {q : G.State} (h : simulateDrawn env G usable st r s sc = (.ok (t, b, n), q)) :
    ∃ n', simulateDrawn env G usable st r { s with readNoise := σ, bitDepth := β } sc = (.ok (t, b, n'), q)
      ∧ ∃ (P : ℕ → ℕ → ℕ) (N : ℕ → ℕ → ℝ) (g : ℝ),
        XR.sqrt (quantizationNoise s.maxN s.bitDepth ^ 2 + s.readNoise ^ 2) = .fin g
        ∧ ∀ i < b.h, ∀ j < b.w, n.px i j = P i j + g * N i j ∧ n'.px i j = P i j + g' * N i j := by
  have key : ∀ {t b g sc1}, simulateMeans env usable r s sc = .ok (t, b, g, sc1) →
      simulateMeans env usable r { s with readNoise := σ, bitDepth := β } sc = .ok (t, b, g', sc1) := by
    intro t b g sc1 h
    unfold simulateMeans at h ⊢
    simp only [bind_ok] at h
    obtain ⟨atm, e1, ⟨ref, pe, wl, w⟩, e2, mn, e3, otf, e4, h⟩ := h
    have e2' : reflectanceToPhotoelectrons atm { s with readNoise := σ, bitDepth := β } s.intTime = .ok (ref, pe, wl, w) := e2
    split_ifs at h with hdf
    simp only [bind_ok] at h
    obtain ⟨ifov, e5, t, e6, tr, e7, rows, e8, ⟨blur, sp⟩, e9, h⟩ := h
    split_ifs at h with hneg
    split at h
    · simp only [Except.ok.injEq, Prod.mk.injEq] at h
      obtain ⟨rfl, rfl, -, rfl⟩ := h
      have e4' : gridOTFs env 1501 { s with readNoise := σ, bitDepth := β } (sc.readAtm env.files).2.1 (s.D / mn)
          (((wl.zip w).filter (fun p => XR.lt 0 p.2)).map (·.1)) (((wl.zip w).filter (fun p => XR.lt 0 p.2)).map (·.2))
          (flatSlantRange (sc.readAtm env.files).2.1) s.intTime = .ok otf := e4
      simp only [e1, ok_bind, e2', e3, e4', if_neg hdf, e5, e6, e7, e8, e9, if_neg hneg, hg']
    · cases h
  obtain ⟨g, hg, d⟩ := (C127_draws env G usable st r s sc).2 _ _ _ _ h
  have h' : ∃ n', simulateDrawn env G usable st r { s with readNoise := σ, bitDepth := β } sc = (.ok (t, b, n'), q) := by
    unfold simulateDrawn at h ⊢
    cases hm : simulateMeans env usable r s sc with
    | error e => rw [hm] at h; simp at h
    | ok p =>
      rw [hm] at h
      rw [key hm]
      simp only [Prod.mk.injEq, Except.ok.injEq] at h
      obtain ⟨⟨rfl, rfl, -⟩, rfl⟩ := h
      exact ⟨_, rfl⟩
  obtain ⟨n', h'⟩ := h'
  obtain ⟨g1, hg1, d'⟩ := (C127_draws env G usable st r _ sc).2 _ _ _ _ h'
  have e : XR.fin g1 = .fin g' := hg1.symm.trans hg'
  rw [XR.fin.injEq] at e
  subst e
  exact ⟨n', h', _, _, g, hg, fun i hi j hj => ⟨d.pixel i hi j hj, d'.pixel i hi j hj⟩⟩

/-- A generator that counts: its state is the number of Poisson draws since it was seeded, plus the seed, and that is
also what it returns. -/
def counter : Generator where
  State := ℕ
  seeded n := n
  poisson _ q := (q, q + 1)
  normal q := (0, q)

theorem counter_after (ms : List ℝ) : ∀ q : ℕ, afterPoissons counter ms (counter.seeded q) = counter.seeded (q + ms.length) := by
  induction ms with
  | nil => intro q; rfl
  | cons m ms ih =>
    intro q
    have e : q + (m :: ms).length = q + 1 + ms.length := by rw [List.length_cons]; omega
    rw [e]
    exact ih (q + 1)

theorem counter_still (k : ℕ) : ∀ q : counter.State, afterNormals counter k q = q := by
  induction k with
  | zero => intro q; rfl
  | succ k ih => intro q; exact ih q

theorem drawn_ok {env : Env} {usable : Bool} {rng : Rng} {r : RefImage} {s : Sensor} {sc : Scenario} {R : SimResult}
    (h : simulateImage env usable rng r s sc = .ok R) (G : Generator) (st : G.State) :
    ∃ n q, simulateDrawn env G usable st r s sc = (.ok (R.trueImg, R.blurImg, n), q) := by
  rw [means_factor] at h
  unfold simulateDrawn
  cases hm : simulateMeans env usable r s sc with
  | error e => rw [hm] at h; cases h
  | ok p =>
    rw [hm] at h
    simp only [Except.map, Except.ok.injEq] at h
    subst h
    exact ⟨_, _, rfl⟩

/-- The objects of the demonstration session: scenario 1 lies above every atmosphere in the database. -/
def labObjects : Objects :=
  ⟨fun _ => demoSensor.toSensor, fun j => if j = 1 then { demoScenario with altitude := .fin 600000 } else demoScenario⟩

theorem high_fails (st : counter.State) : simulateDrawn demoEnv counter true st demoRef demoSensor.toSensor
    (uncached { demoScenario with altitude := .fin 600000 }) = (.error .indexError, st) := by
  have hr : ((uncached { demoScenario with altitude := .fin 600000 }).readAtm demoEnv.files).1 = .error .indexError := by
    unfold Scenario.readAtm uncached
    simp only
    have : ∀ b, dbLoad demoEnv.files ⟨b, .fin 600000, demoScenario.groundRange, demoScenario.ihaze⟩ = .error .indexError := by
      intro b
      unfold dbLoad
      cases b
      · exact (no_atmosphere_above demoEnv.files (by norm_num) _ _).1
      · exact (no_atmosphere_above demoEnv.files (by norm_num) _ _).2
    rw [this]
  unfold simulateDrawn simulateMeans
  simp only [hr, error_bind]

/-- **C127** (without a seed): two simulations in a row with the same arguments may differ, but only in the noise: here
is a session in which they do, with a failed simulation and a report on the way, and in which seeding again brings the
first image back. -/
theorem C127_unseeded : ∃ (env : Env) (l : Lab counter) (r : RefImage) (t b n n' : Img),
    Fresh l.objects ∧ n.px 0 0 ≠ n'.px 0 0
    ∧ (l.run env [.seed 1, .simulate true r 0 0, .simulate true r 0 1, .simulate true r 0 0, .seed 1,
        .act (.niirs 0 0 false) trivial, .simulate true r 0 0]).2.filter (fun x => ∃ y, x = .images y)
      = [.images (.ok (t, b, n)), .images (.error .indexError), .images (.ok (t, b, n')), .images (.ok (t, b, n))] := by
  obtain ⟨R, hR, hh, hw, -⟩ := demo_succeeds ⟨fun _ _ _ => 0, fun _ _ => 0⟩
  have hf : Fresh labObjects := by
    intro j
    simp only [labObjects]
    split_ifs <;> rfl
  obtain ⟨n1, q1, h1⟩ := drawn_ok hR counter (counter.seeded 1)
  obtain ⟨g, -, d1⟩ := (C127_draws _ counter _ (counter.seeded 1) _ _ _).2 _ _ _ _ h1
  have f1 : q1 = counter.seeded (1 + 400000 * 600000) := by
    have e := d1.final
    rw [counter_after, counter_still, ravel_before, ravel_length, hh, hw] at e
    exact e
  subst f1
  obtain ⟨n2, q2, h2⟩ := drawn_ok hR counter (counter.seeded (1 + 400000 * 600000))
  obtain ⟨g', -, d2⟩ := (C127_draws _ counter _ (counter.seeded (1 + 400000 * 600000)) _ _ _).2 _ _ _ _ h2
  have p1 := d1.pixel 0 (by rw [hh]; norm_num) 0 (by rw [hw]; norm_num)
  have p2 := d2.pixel 0 (by rw [hh]; norm_num) 0 (by rw [hw]; norm_num)
  have z : pixelsBefore R.blurImg 0 0 = [] := rfl
  rw [z] at p1 p2
  have a1 : n1.px 0 0 = ((1 : ℕ) : ℝ) := p1.trans (by
    show ((1 : ℕ) : ℝ) + g * 0 = _
    ring)
  have a2 : n2.px 0 0 = ((1 + 400000 * 600000 : ℕ) : ℝ) := p2.trans (by
    show ((1 + 400000 * 600000 : ℕ) : ℝ) + g' * 0 = _
    ring)
  refine ⟨demoEnv, ⟨labObjects, counter.seeded 0⟩, demoRef, R.trueImg, R.blurImg, n1, n2, hf, ?_, ?_⟩
  · rw [a1, a2]
    norm_num
  · rw [C127_sessions demoEnv ⟨labObjects, counter.seeded 0⟩ hf]
    have e1 : simulateDrawn demoEnv counter true (counter.seeded 1) demoRef (labObjects.sensor 0)
        (uncached (labObjects.scenario 0)) = (.ok (R.trueImg, R.blurImg, n1), counter.seeded (1 + 400000 * 600000)) := h1
    have e2 : simulateDrawn demoEnv counter true (counter.seeded (1 + 400000 * 600000)) demoRef (labObjects.sensor 0)
        (uncached (labObjects.scenario 0)) = (.ok (R.trueImg, R.blurImg, n2), q2) := h2
    have e3 : ∀ st, simulateDrawn demoEnv counter true st demoRef (labObjects.sensor 0)
        (uncached (labObjects.scenario 1)) = (.error .indexError, st) := high_fails
    have ho : ∃ m, outcome demoEnv labObjects (.niirs 0 0 false) = .report m := ⟨_, rfl⟩
    obtain ⟨m, ho⟩ := ho
    have ha : objectsAfter demoEnv labObjects (.niirs 0 0 false) = labObjects := rfl
    simp only [labOutcomes, e1, e2, e3, ho, ha]
    simp

/-- The hypotheses of C127_common are met: a change of the read noise to 7 and of the bit depth to 8. -/
example (st : counter.State) : ∃ t b n n' q,
    simulateDrawn demoEnv counter true st demoRef demoSensor.toSensor demoScenario = (.ok (t, b, n), q)
    ∧ simulateDrawn demoEnv counter true st demoRef { demoSensor.toSensor with readNoise := .fin 7, bitDepth := 8 }
        demoScenario = (.ok (t, b, n'), q) := by
  obtain ⟨R, hR, -⟩ := demo_succeeds ⟨fun _ _ _ => 0, fun _ _ => 0⟩
  obtain ⟨n, q, h⟩ := drawn_ok hR counter st
  have hq : ∃ g', XR.sqrt (quantizationNoise demoSensor.toSensor.maxN 8 ^ 2 + (.fin 7 : XR) ^ 2) = .fin g' := by
    show ∃ g', XR.sqrt (quantizationNoise (.fin demoSensor.maxN) 8 ^ 2 + (.fin 7 : XR) ^ 2) = .fin g'
    rw [quantizationNoise_fin _ (by norm_num), XR.fin_pow, XR.fin_pow, XR.fin_add, XR.fin_sqrt (by positivity)]
    exact ⟨_, rfl⟩
  obtain ⟨g', hg'⟩ := hq
  obtain ⟨n', h', -⟩ := C127_common _ _ _ _ _ _ _ _ _ _ hg' h
  exact ⟨_, _, _, _, _, h, h'⟩

/-- A series that C127_replay and C127_insert apply to: simulations, the client's own draws and reports. -/
example : (∀ a ∈ ([.simulate true demoRef 0 0, .draw (fun q => q), .act (.niirs 0 0 false) trivial] : List (LabAction counter)),
    LabAction.Inert a) ∧ Action.Inert (.niirs 0 0 false) ∧ Action.DrawsNothing (.niirs 0 0 false) := by
  refine ⟨fun a ha => ?_, trivial, trivial⟩
  simp only [List.mem_cons, List.not_mem_nil, or_false] at ha
  rcases ha with rfl | rfl | rfl <;> trivial

end PyBSM
