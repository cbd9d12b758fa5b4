import Verif.Props.References
import Verif.Props.Plot
import Verif.Props.Defaults

/-!
# C126: plots of a report after its sensor was changed, and concrete programs
-/

noncomputable section

open Classical

namespace PyBSM

open Spec

/-- The plot of a report with another focal length. -/
theorem plot_refocused {m : Metrics} {c a f f' ang : ℝ} {x y : ℕ → ℝ} {t t' : Sensor} {p : MtfPlot}
    (hm : m.cutoffFrequency = .fin c) (hi : m.ifovX = .fin a) (ht : t.f = .fin f) (ht' : t'.f = .fin f')
    (ha : 0 < a) (hf : 0 < f) (hf' : 0 < f') (hc : 0 < c)
    (hr : ∀ k : ℕ, Real.sqrt (x k ^ 2 + y k ^ 2) = k * (c / 50))
    (hs : ∀ A : ℝ → ℝ → ℝ, sliceOtf (grid 101 fun i j => A (colFreq 101 c j) (rowFreq 101 c i)) ang
      = .ok (vec 50 fun k => A (x k) (y k)))
    (hp : plotCommonMTFs m t ang = .ok p) :
    plotCommonMTFs m t' ang = .ok { p with
      sf := vec 50 fun k => k * (c / 50) / f' / 1000
      xMax := .fin (49 * (c / 50) / f' / 1000)
      nyquist := .fin (0.5 / (a * f') * 0.001) } := by
  have key : ∀ {t : Sensor} {f : ℝ}, t.f = .fin f → 0 < f → ∃ inv ny : Scal,
      Scal.div (.py 1) (.py t.f) = .ok inv
      ∧ sliceOtf (imagePlaneFrequency m.cutoffFrequency inv.val) ang = .ok (vec 50 fun k => k * (c / 50) / f / 1000)
      ∧ amax (vec 50 fun k => (k : ℝ) * (c / 50) / f / 1000) = .ok (.fin (49 * (c / 50) / f / 1000))
      ∧ Scal.div (.py 0.5) (.py (m.ifovX * t.f)) = .ok ny ∧ ny.val * 0.001 = .fin (0.5 / (a * f) * 0.001) := by
    intro t f ht hf
    obtain ⟨inv, e1, e2⟩ := Scal.div_fin (a := .py 1) (b := .py t.f) (x := 1) (y := f) rfl (by rw [ht]; rfl) hf.ne'
    obtain ⟨ny, e3, e4⟩ := Scal.div_fin (a := .py 0.5) (b := .py (m.ifovX * t.f)) (x := 0.5) (y := a * f) rfl
      (by rw [hi, ht]; rfl) (by positivity)
    refine ⟨inv, ny, e1, ?_, ?_, e3, by rw [e4, XR.sci_def, XR.fin_mul]⟩
    · rw [hm, e2, imagePlane_grid, hs fun u v => 0.001 * (1 / f) * Real.sqrt (u ^ 2 + v ^ 2)]
      congr 1
      apply vec_congr
      intro k _
      rw [hr]
      ring
    · rw [amax_increasing (by norm_num)]
      · norm_num
      · intro i _
        push_cast
        gcongr
        linarith
  obtain ⟨i1, n1, a1, a2, a3, a4, a5⟩ := key ht hf
  obtain ⟨i2, n2, b1, b2, b3, b4, b5⟩ := key ht' hf'
  unfold plotCommonMTFs at hp ⊢
  rw [a1, ok_bind, a2, ok_bind] at hp
  rw [b1, ok_bind, b2, ok_bind]
  cases h1 : mtfSlice (m.otf.map (·.ap)) ang with
  | error e => rw [h1] at hp; cases hp
  | ok v1 =>
  cases h2 : mtfSlice (m.otf.map (·.turb)) ang with
  | error e => rw [h1, ok_bind, h2] at hp; cases hp
  | ok v2 =>
  cases h3 : mtfSlice (m.otf.map (·.det)) ang with
  | error e => rw [h1, ok_bind, h2, ok_bind, h3] at hp; cases hp
  | ok v3 =>
  cases h4 : mtfSlice (m.otf.map (·.jit)) ang with
  | error e => rw [h1, ok_bind, h2, ok_bind, h3, ok_bind, h4] at hp; cases hp
  | ok v4 =>
  cases h5 : mtfSlice (m.otf.map (·.drft)) ang with
  | error e => rw [h1, ok_bind, h2, ok_bind, h3, ok_bind, h4, ok_bind, h5] at hp; cases hp
  | ok v5 =>
  cases h6 : mtfSlice (m.otf.map (·.wav)) ang with
  | error e => rw [h1, ok_bind, h2, ok_bind, h3, ok_bind, h4, ok_bind, h5, ok_bind, h6] at hp; cases hp
  | ok v6 =>
  cases h7 : mtfSlice (m.otf.map (·.system)) ang with
  | error e => rw [h1, ok_bind, h2, ok_bind, h3, ok_bind, h4, ok_bind, h5, ok_bind, h6, ok_bind, h7] at hp; cases hp
  | ok v7 =>
  rw [h1, ok_bind, h2, ok_bind, h3, ok_bind, h4, ok_bind, h5, ok_bind, h6, ok_bind, h7, ok_bind] at hp
  simp only [ok_bind]
  cases h8 : mtfSlice (m.otf.map (·.filter)) ang with
  | error e => rw [h8] at hp; cases hp
  | ok v8 =>
  rw [h8, ok_bind, a3, ok_bind] at hp
  rw [ok_bind, b3, ok_bind]
  cases h9 : amax v8 with
  | error e => rw [h9] at hp; cases hp
  | ok v9 =>
  rw [h9, ok_bind, a4, ok_bind] at hp
  rw [ok_bind, b4, ok_bind]
  obtain rfl := Except.ok.inj hp
  dsimp only
  rw [b5]

/-- A report in memory: the rating succeeded, and afterwards an attribute of its sensor was assigned. -/
theorem after_assign {env : Env} {w : Memory} {i j : ℕ} {interp : Bool} {t : SensorObj} {m : Metrics}
    (ht : w.sensors[i]? = some t) (hm : (niirs5 env (w.view t) (w.scenario j) interp).1 = .ok m) (g : Sensor → Sensor) :
    ∃ (w' : Memory) (t' : SensorObj), (w.run env [.niirs5 i j interp, .assign i g]).1 = w'
      ∧ (w.step env (.niirs5 i j interp)).2 = .results m
      ∧ w'.reports[w.reports.length]? = some ⟨m, i⟩ ∧ w'.sensors[i]? = some t' ∧ t'.plain = g t.plain := by
  have hl := (List.getElem?_eq_some_iff.mp ht).1
  have key : ∃ (w₁ : Memory) (t₁ : SensorObj), (w.step env (.niirs5 i j interp)).1 = w₁
      ∧ w₁.reports = w.reports ++ [⟨m, i⟩] ∧ w₁.sensors[i]? = some t₁ ∧ t₁.plain = t.plain := by
    simp only [Memory.step, ht, hm]
    split_ifs
    · exact ⟨_, ⟨t.plain, Function.update t.ref .filterKernel w.cells.length⟩, rfl, rfl, by simp [Memory.record, hl], rfl⟩
    · exact ⟨_, t, rfl, rfl, ht, rfl⟩
  obtain ⟨w₁, t₁, e1, e2, e3, e4⟩ := key
  have hl1 := (List.getElem?_eq_some_iff.mp e3).1
  refine ⟨(w₁.step env (.assign i g)).1, ⟨g t₁.plain, t₁.ref⟩, ?_, ?_, ?_, ?_, by rw [e4]⟩
  · rw [← e1]; rfl
  · simp only [Memory.step, ht, hm]
    split_ifs <;> rfl
  · simp only [Memory.step, e3]
    rw [e2]
    simp
  · simp only [Memory.step, e3]
    simp [hl1]

/-- The attributes of a sensor are those it was given, so the plain ones are in the object itself. -/
theorem view_plain (w : Memory) (t : SensorObj) :
    (w.view t).f = t.plain.f ∧ (w.view t).readNoise = t.plain.readNoise := ⟨rfl, rfl⟩

/-- **C126** (plotting an old report after refocusing): rate a scene with `niirs5`, assign the sensor another focal
length `f'` and plot the report: all curves are those of the report, but the frequency axis and the Nyquist marker are
scaled by `f / f'`: the marker is no longer at the Nyquist frequency of the pitch unless `f' = f`. -/
theorem C126_refocused {env : Env} {s : RealSensor} {g : RealScene} {sc : Scenario} {interp : Bool}
    {B : List (Fin 6 → ℝ)} (h : Imaging env s g sc interp B) (scenario : ℕ → Scenario) (ops : List MemOp) {i j : ℕ}
    (hi : lastSeen env scenario ops (.look i) = .attributes s.toSensor)
    (hj : ((Memory.start scenario).run env ops).1.scenario j = sc) {f' : ℝ} (hf' : 0 < f') :
    ∃ (m : Metrics) (c : ℝ) (p : MtfPlot),
      lastSeen env scenario ops (.niirs5 i j interp) = .results m ∧ s.Cutoff B c
      ∧ lastSeen env scenario (ops ++ [.niirs5 i j interp]) (.plotMTFs (reportCount env scenario ops) 0) = .mtfs (.ok p)
      ∧ MtfCurves s g B (fun _ _ => 1) c (fun k => k * (c / 50)) (fun _ => 0) p
      ∧ lastSeen env scenario (ops ++ [.niirs5 i j interp, .assign i fun S => { S with f := .fin f' }])
          (.plotMTFs (reportCount env scenario ops) 0)
        = .mtfs (.ok { p with
            sf := vec 50 fun k => s.f / f' * (k * (c / 50) / s.f / 1000)
            xMax := .fin (s.f / f' * (49 * (c / 50) / s.f / 1000))
            nyquist := .fin (s.f / f' * (1 / (2 * (1000 * s.pX)))) })
      ∧ (s.f / f' * (1 / (2 * (1000 * s.pX))) = 1 / (2 * (1000 * s.pX)) ↔ f' = s.f) := by
  have hfoc := h.focal
  have hpx := h.pitchX
  obtain ⟨m, c, φ, gw, rer, h1, -, h3, -⟩ := niirs5_value h
  have hc := cutoff_pos h.optical.aperture h.wavelengths h3.isCutoff
  unfold lastSeen reportCount at *
  simp only [memory_append]
  generalize ((Memory.start scenario).run env ops).1 = w at hi hj ⊢
  obtain ⟨t, ht, hv⟩ := seen_look.mp hi
  have hm : (niirs5 env (w.view t) (w.scenario j) interp).1 = .ok m := by rw [hv, hj]; exact h1
  have hft : t.plain.f = .fin s.f := by
    have := congrArg Sensor.f hv
    exact this
  obtain ⟨p, p1, p2⟩ := plot_value h3 h.focal h.pitchX hc (t := w.view t) hft (axis_u hc) fun A => (slices_value A c).1
  obtain ⟨w0, t0, e0, -, r0, s0, q0⟩ := after_assign ht hm id
  obtain ⟨w1, t1, e1, seen, r1, s1, q1⟩ := after_assign ht hm fun S => { S with f := .fin f' }
  refine ⟨m, c, p, seen, h3.isCutoff, ?_, p2, ?_, ?_⟩
  · have same : ((w.run env [.niirs5 i j interp]).1.step env (.plotMTFs w.reports.length 0)).2
        = (w0.step env (.plotMTFs w.reports.length 0)).2 := by
      rw [← e0]
      show ((w.step env (.niirs5 i j interp)).1.step env _).2
        = (((w.step env (.niirs5 i j interp)).1.step env (.assign i id)).1.step env _).2
      have e : ∀ v : Memory, (v.step env (.assign i id)).1 = v := by
        intro v
        simp only [Memory.step]
        split
        · rfl
        · rename_i u hu
          have : ({ u with plain := id u.plain } : SensorObj) = u := rfl
          rw [this, set_same hu]
      rw [e]
    rw [same]
    simp only [Memory.step, r0, s0, Option.bind_some, Option.map_some]
    rw [plotCommonMTFs_congr m (t := w.view t) ((view_plain w0 t0).1.trans (by rw [q0]; rfl)), p1]
  · rw [e1]
    simp only [Memory.step, r1, s1, Option.bind_some, Option.map_some]
    have hft1 : (w1.view t1).f = .fin f' := by rw [(view_plain w1 t1).1, q1]
    rw [plot_refocused h3.cutoff h3.ifovX hft hft1 (by positivity) hfoc hf' hc (axis_u hc)
      (fun A => (slices_value A c).1) p1]
    congr 4
    · funext k
      field_simp
    · field_simp
    · field_simp
      norm_num
  · constructor
    · intro e
      field_simp at e
      linarith
    · rintro rfl
      field_simp

/-- **C126** (plotting the noise of an old report after assigning the read noise): the bars are those of the report but
the last, which is the new value; the total no longer is the root sum of squares of the others unless the new value has
the magnitude of the old. -/
theorem C126_read_noise {env : Env} {s : RealSensor} {g : RealScene} {sc : Scenario} {interp : Bool}
    {B : List (Fin 6 → ℝ)} (h : Imaging env s g sc interp B) (hcount : Counting s B) (scenario : ℕ → Scenario)
    (ops : List MemOp) {i j : ℕ} (hi : lastSeen env scenario ops (.look i) = .attributes s.toSensor)
    (hj : ((Memory.start scenario).run env ops).1.scenario j = sc) (ρ : ℝ) :
    ∃ (total scene path own dark quant : ℝ) (p : NoisePlot),
      lastSeen env scenario (ops ++ [.niirs5 i j interp, .assign i fun S => { S with readNoise := .fin ρ }])
        (.plotNoise (reportCount env scenario ops)) = .noise (.ok p)
      ∧ p.bars = [.fin total, .fin scene, .fin path, .fin own, .fin dark, .fin quant, .fin ρ]
      ∧ (total ^ 2 = scene ^ 2 + path ^ 2 + own ^ 2 + dark ^ 2 + quant ^ 2 + ρ ^ 2 + (s.otherNoise.map (· ^ 2)).sum
          ↔ |ρ| = |s.readNoise|) := by
  obtain ⟨m, p, h1, h2, h3⟩ := C92_noise_niirs5 h hcount
  obtain ⟨total, scene, path, own, dark, quant, hb, -, -, -, -, -, hsum⟩ := h3.bars
  unfold lastSeen reportCount at *
  simp only [memory_append]
  generalize ((Memory.start scenario).run env ops).1 = w at hi hj ⊢
  obtain ⟨t, ht, hv⟩ := seen_look.mp hi
  have hm : (niirs5 env (w.view t) (w.scenario j) interp).1 = .ok m := by rw [hv, hj]; exact h1
  obtain ⟨w1, t1, e1, seen, r1, s1, q1⟩ := after_assign ht hm fun S => { S with readNoise := .fin ρ }
  refine ⟨total, scene, path, own, dark, quant, ⟨[.fin total, .fin scene, .fin path, .fin own, .fin dark, .fin quant, .fin ρ],
    p.electrons, p.contrast, p.wellPercent⟩, ?_, rfl, ?_⟩
  · rw [e1]
    simp only [Memory.step, r1, s1, Option.bind_some, Option.map_some]
    have hr : (w1.view t1).readNoise = .fin ρ := by rw [(view_plain w1 t1).2, q1]
    unfold plotNoiseTerms at h2 ⊢
    rw [hr]
    cases k1 : pyInt m.snr.tgtN with
    | error e => rw [k1] at h2; cases h2
    | ok a =>
    cases k2 : pyInt (m.snr.tgtN - m.snr.bkgN) with
    | error e => rw [k1, ok_bind, k2] at h2; cases h2
    | ok b =>
    cases k3 : pyInt (m.snr.wellFraction * 100) with
    | error e => rw [k1, ok_bind, k2, ok_bind, k3] at h2; cases h2
    | ok d =>
    rw [k1, ok_bind, k2, ok_bind, k3, ok_bind] at h2
    rw [ok_bind, ok_bind, ok_bind]
    obtain rfl := Except.ok.inj h2
    simp only [List.cons.injEq] at hb
    obtain ⟨b1, b2, b3, b4, b5, b6, -⟩ := hb
    rw [b1, b2, b3, b4, b5, b6]
  · rw [hsum, ← sq_eq_sq_iff_abs_eq_abs]
    constructor <;> intro e <;> linarith

/-! ## Programs -/

/-- A program that makes sensor 0 with the attributes of `S`, every array its own. -/
def buildSensor (S : Sensor) : List MemOp :=
  [.array (.row S.optTransWavelengths), .sensor "sensor" 1 1 1 (.var 0),
    .array (.row S.opticsTransmission), .put 0 .transmission (.var 1),
    .array (.row S.qeWavelengths), .put 0 .qeWavelengths (.var 2),
    .array (.row S.qe), .put 0 .qe (.var 3),
    .array (.row S.otherNoise), .put 0 .otherNoise (.var 4),
    .array (.kernel S.filterKernel), .put 0 .filterKernel (.var 5),
    .assign 0 fun _ => S]

theorem new_unit (wl : List XR) : ∃ s, Sensor.new "sensor" 1 1 1 wl = .ok s := by
  obtain ⟨s, h, -⟩ := C64_default_values "sensor" 1 1 (px := 1) one_ne_zero wl
  exact ⟨s, h⟩

/-- **C126** (attributes): the attributes of a sensor are the arrays and values assigned to it: every combination can be
built by assigning them to a new sensor, and is what the program then reads. -/
theorem C126_build (env : Env) (scenario : ℕ → Scenario) (S : Sensor) :
    lastSeen env scenario (buildSensor S) (.look 0) = .attributes S
      ∧ ((Memory.start scenario).run env (buildSensor S)).1.scenario = scenario := by
  obtain ⟨s, hs⟩ := new_unit S.optTransWavelengths
  refine ⟨?_, ?_⟩
  · simp [lastSeen, buildSensor, Memory.run, Memory.start, Memory.step, Memory.find, Memory.cell, Cell.asRow, hs,
      Memory.view, assemble, Cell.asKernel, newRefs, Function.update]
  · simp [buildSensor, Memory.run, Memory.start, Memory.step, Memory.find, Memory.cell, Cell.asRow, hs]

/-- A concrete report, refocused. -/
example : ∃ (m : Metrics) (c : ℝ) (p : MtfPlot),
    lastSeen demoEnv (fun _ => demoScenario) (buildSensor demoSensor.toSensor) (.niirs5 0 7 false) = .results m
      ∧ lastSeen demoEnv (fun _ => demoScenario)
          (buildSensor demoSensor.toSensor ++ [.niirs5 0 7 false, .assign 0 fun S => { S with f := .fin 2 }])
          (.plotMTFs (reportCount demoEnv (fun _ => demoScenario) (buildSensor demoSensor.toSensor)) 0)
        = .mtfs (.ok { p with
            sf := vec 50 fun k => demoSensor.f / 2 * (k * (c / 50) / demoSensor.f / 1000)
            xMax := .fin (demoSensor.f / 2 * (49 * (c / 50) / demoSensor.f / 1000))
            nyquist := .fin (demoSensor.f / 2 * (1 / (2 * (1000 * demoSensor.pX)))) }) := by
  obtain ⟨h1, h2⟩ := C126_build demoEnv (fun _ => demoScenario) demoSensor.toSensor
  obtain ⟨m, c, p, a1, -, -, -, a2, -⟩ := C126_refocused demo_imaging _ _ h1 (j := 7) (by rw [h2]) (f' := 2) two_pos
  exact ⟨m, c, p, a1, a2⟩

/-- Two sensors made from one array of wavelengths: converting the unit in place through one of them converts it for
both, for both attributes of both and in the client's variable. The reference behaviour with copies (`C126_copies`) does
not describe programs that write. -/
example (env : Env) (scenario : ℕ → Scenario) :
    let ops : List MemOp := [.array (.row [.fin 4, .fin 7]), .sensor "sensor" 1 1 1 (.var 0), .sensor "sensor" 1 1 1 (.var 0),
      .write (.attr 1 .qeWavelengths) fun c => .row (c.asRow.map (· * .fin 1e-7))]
    (∃ s, lastSeen env scenario ops (.look 0) = .attributes s ∧ s.optTransWavelengths = [.fin 4e-7, .fin 7e-7]
      ∧ s.qeWavelengths = [.fin 4e-7, .fin 7e-7])
    ∧ (∃ s, lastSeen env scenario ops (.look 1) = .attributes s ∧ s.optTransWavelengths = [.fin 4e-7, .fin 7e-7]
      ∧ s.qeWavelengths = [.fin 4e-7, .fin 7e-7])
    ∧ lastSeen env scenario ops (.contents (.var 0)) = .contents (.row [.fin 4e-7, .fin 7e-7]) := by
  obtain ⟨s, hs⟩ := new_unit [.fin 4, .fin 7]
  have e4 : XR.fin 4 * XR.fin 1e-7 = .fin 4e-7 := by rw [XR.fin_mul]; norm_num
  have e7 : XR.fin 7 * XR.fin 1e-7 = .fin 7e-7 := by rw [XR.fin_mul]; norm_num
  simp [lastSeen, Memory.run, Memory.start, Memory.step, Memory.find, Memory.cell, Cell.asRow, hs, e4, e7,
    Memory.view, assemble, newRefs]

/-- A program without writes that builds a sensor, rates a scene twice, puts back the kernel and plots the old report. -/
example (S : Sensor) :
    ∀ op ∈ buildSensor S ++ [.niirs 0 7 false, .keep (.attr 0 .filterKernel), .niirs5 0 7 false,
      .put 0 .filterKernel (.var 6), .plotMTFs 0 0, .look 0], ¬ IsWrite op := by
  intro op h
  simp only [buildSensor, List.cons_append, List.nil_append, List.mem_cons, List.not_mem_nil, or_false] at h
  rcases h with rfl | rfl | rfl | rfl | rfl | rfl | rfl | rfl | rfl | rfl | rfl | rfl | rfl | rfl | rfl | rfl | rfl
    | rfl | rfl <;> simp [IsWrite]

/-- Two sensors made from one array: writing into the quantum efficiency of the first leaves the second alone. -/
example (env : Env) (scenario : ℕ → Scenario) (wl : List XR) (g : Cell → Cell) :
    ∃ s, lastSeen env scenario ([.array (.row wl), .sensor "sensor" 1 1 1 (.var 0), .sensor "sensor" 1 1 1 (.var 0)]
        ++ [.write (.attr 0 .qe) g]) (.look 1) = .attributes s
      ∧ lastSeen env scenario [.array (.row wl), .sensor "sensor" 1 1 1 (.var 0), .sensor "sensor" 1 1 1 (.var 0)]
        (.look 1) = .attributes s := by
  have h := (C126_own env scenario [.array (.row wl), .sensor "sensor" 1 1 1 (.var 0), .sensor "sensor" 1 1 1 (.var 0)]
    (i := 0) (a := .qe) g (by simp) (by simp) (by
      intro op h
      simp only [List.mem_cons, List.not_mem_nil, or_false] at h
      rcases h with rfl | rfl | rfl <;> simp [TakesAttribute, Puts])).1 1 (by simp)
  rw [h]
  obtain ⟨s, hs⟩ := new_unit wl
  simp [lastSeen, Memory.run, Memory.start, Memory.step, Memory.find, Memory.cell, Cell.asRow, hs]

/-- An array of a program keeps its contents while a sensor made from it is rated. -/
example (env : Env) (scenario : ℕ → Scenario) :
    lastSeen env scenario ([.array (.row [.fin 4, .fin 7])] ++ [.sensor "sensor" 1 1 1 (.var 0), .niirs5 0 7 false,
      .plotNoise 0]) (.contents (.var 0)) = .contents (.row [.fin 4, .fin 7]) := by
  refine C126_library env scenario [.array (.row [.fin 4, .fin 7])] _ ?_ ?_
  · intro op h
    simp only [List.mem_cons, List.not_mem_nil, or_false] at h
    rcases h with rfl | rfl | rfl <;> simp [IsWrite]
  · simp [lastSeen, Memory.run, Memory.start, Memory.step, Memory.find, Memory.cell]

/-- A sensor made from an array and rated still shares its wavelengths with the array, and a write through it is seen there. -/
example (env : Env) (scenario : ℕ → Scenario) :
    ∃ c : Cell, lastSeen env scenario ([.array (.row [.fin 4, .fin 7])] ++ .sensor "sensor" 1 1 1 (.var 0) :: [.niirs5 0 7 true])
        (.contents (.var 0)) = .contents c
      ∧ lastSeen env scenario ([.array (.row [.fin 4, .fin 7])] ++ .sensor "sensor" 1 1 1 (.var 0) :: [.niirs5 0 7 true]
          ++ [.write (.attr (sensorCount env scenario [.array (.row [.fin 4, .fin 7])]) .wavelengths) fun c => .row (c.asRow.map (· * 2))])
        (.contents (.var 0)) = .contents (.row (c.asRow.map (· * 2))) := by
  obtain ⟨s, hs⟩ := new_unit [.fin 4, .fin 7]
  have h : lastSeen env scenario [.array (.row [.fin 4, .fin 7])] (.sensor "sensor" 1 1 1 (.var 0)) = .done := by
    simp [lastSeen, Memory.run, Memory.start, Memory.step, Memory.find, Memory.cell, Cell.asRow, hs]
  have hp : ∀ op ∈ ([.niirs5 0 7 true] : List MemOp),
      ¬ Puts (sensorCount env scenario [.array (.row [.fin 4, .fin 7])]) .wavelengths op
      ∧ ¬ Puts (sensorCount env scenario [.array (.row [.fin 4, .fin 7])]) .qeWavelengths op := by
    intro op h
    simp only [List.mem_cons, List.not_mem_nil, or_false] at h
    subst h
    simp [Puts]
  obtain ⟨c, -, h1, -⟩ := C126_shared env scenario _ _ h hp
  exact ⟨c, h1, C126_shared_write env scenario _ _ h hp (Or.inl rfl) _ h1⟩

/-- A report and its sensor in a program that goes on. -/
theorem demo_report : ∃ (m : Metrics) (s : Sensor),
    lastSeen demoEnv (fun _ => demoScenario) (buildSensor demoSensor.toSensor ++ [.niirs5 0 7 false, .assign 0 id])
      (.results (reportCount demoEnv (fun _ => demoScenario) (buildSensor demoSensor.toSensor))) = .results m
    ∧ lastSeen demoEnv (fun _ => demoScenario) (buildSensor demoSensor.toSensor ++ [.niirs5 0 7 false, .assign 0 id])
      (.sensorOf (reportCount demoEnv (fun _ => demoScenario) (buildSensor demoSensor.toSensor))) = .attributes s := by
  obtain ⟨h1, h2⟩ := C126_build demoEnv (fun _ => demoScenario) demoSensor.toSensor
  obtain ⟨m, c, φ, gw, rer, k1, -⟩ := niirs5_value demo_imaging
  unfold lastSeen reportCount at *
  simp only [memory_append]
  generalize ((Memory.start fun _ => demoScenario).run demoEnv (buildSensor demoSensor.toSensor)).1 = w at h1 h2 ⊢
  obtain ⟨t, ht, hv⟩ := seen_look.mp h1
  obtain ⟨w1, t1, e1, -, r1, s1, -⟩ := after_assign (i := 0) (j := 7) (interp := false) ht (m := m) (by rw [hv, h2]; exact k1) id
  refine ⟨m, w1.view t1, ?_, ?_⟩
  · rw [e1]
    simp only [Memory.step, r1]
  · rw [e1]
    simp only [Memory.step, r1, s1, Option.bind_some]

/-- A report still shows its results after another rating and a write into its sensor. -/
example : ∃ m : Metrics, lastSeen demoEnv (fun _ => demoScenario) (buildSensor demoSensor.toSensor ++ [.niirs5 0 7 false, .assign 0 id]
      ++ [.niirs 0 3 true, .write (.attr 0 .qe) fun _ => .row []])
    (.results (reportCount demoEnv (fun _ => demoScenario) (buildSensor demoSensor.toSensor))) = .results m := by
  obtain ⟨m, -, h, -⟩ := demo_report
  exact ⟨m, C126_results _ _ _ _ h⟩

/-- The hypotheses of `C126_plots` hold in a concrete case: a plot after looking at the sensor and at an array is the plot before. -/
example : ∀ angle, lastSeen demoEnv (fun _ => demoScenario)
      ((buildSensor demoSensor.toSensor ++ [.niirs5 0 7 false, .assign 0 id]) ++ [.look 0, .contents (.var 0)])
      (.plotMTFs (reportCount demoEnv (fun _ => demoScenario) (buildSensor demoSensor.toSensor)) angle)
    = lastSeen demoEnv (fun _ => demoScenario) (buildSensor demoSensor.toSensor ++ [.niirs5 0 7 false, .assign 0 id])
      (.plotMTFs (reportCount demoEnv (fun _ => demoScenario) (buildSensor demoSensor.toSensor)) angle) := by
  obtain ⟨-, s, -, h⟩ := demo_report
  have e : ∀ w : Memory, (w.run demoEnv [.look 0, .contents (.var 0)]).1 = w := by
    intro w
    have a : (w.step demoEnv (.look 0)).1 = w := by simp only [Memory.step]; split <;> rfl
    have b : (w.step demoEnv (.contents (.var 0))).1 = w := by simp only [Memory.step]; split <;> rfl
    show ((w.step demoEnv (.look 0)).1.step demoEnv (.contents (.var 0))).1 = w
    rw [a, b]
  refine (C126_plots demoEnv (fun _ => demoScenario) _ _ h (s' := s) ?_).1 rfl
  unfold lastSeen at h ⊢
  rw [memory_append, e]
  exact h

end PyBSM
