import Verif.Spec.World
import Verif.Props.Scenario
import Verif.Props.Niirs
import Verif.Props.Database

/-!
# C116: data files that are replaced while a scenario is in use
-/

noncomputable section

open Classical

namespace PyBSM

open Spec

/-! ## Helpers -/

theorem World.after_cons (w : World) (op : WorldOp) (ops : List WorldOp) : w.after (op :: ops) = (w.step op).after ops := rfl

theorem world_read_none {w : World} (h : w.scenario.atmCache = none) : w.read = loadNow w := by
  unfold World.read Scenario.readAtm loadNow
  rw [h]
  dsimp only [dbLoad]
  split_ifs <;> (split <;> rename_i e <;> exact e.symm)

theorem world_read_some {w : World} {A : Atm} (h : w.scenario.atmCache = some A) : w.read = .ok A := by
  unfold World.read Scenario.readAtm
  rw [h]

/-- A read leaves its result in the cache, or nothing. -/
theorem cache_after_read (w : World) :
    (w.step (.client .readAtm)).scenario.atmCache = (match w.read with | .ok A => some A | .error _ => none) := by
  show ((w.scenario.readAtm w.files).2.1).atmCache = _
  unfold World.read Scenario.readAtm
  cases hc : w.scenario.atmCache with
  | some A => exact hc
  | none =>
    dsimp only
    split <;> rename_i e
    · rfl
    · exact hc

theorem cache_kept {w : World} {op : WorldOp} (h : ¬ WorldOp.Selects op) (hr : op ≠ .client .readAtm) :
    (w.step op).scenario.atmCache = w.scenario.atmCache := by
  cases op with
  | disk f => rfl
  | client o =>
    cases o <;> first | rfl | exact absurd trivial h | exact absurd rfl hr

theorem held {A : Atm} (ops : List WorldOp) : ∀ {w : World}, w.scenario.atmCache = some A →
    (∀ op ∈ ops, ¬ WorldOp.Selects op) → (w.after ops).scenario.atmCache = some A := by
  induction ops with
  | nil => intro w h _; exact h
  | cons op ops ih =>
    intro w h hs
    rw [World.after_cons]
    apply ih _ fun o ho => hs o (List.mem_cons_of_mem _ ho)
    by_cases hr : op = .client .readAtm
    · subst hr
      rw [cache_after_read, world_read_some h]
    · rw [cache_kept (hs op (List.mem_cons_self ..)) hr, h]

theorem nothing_held (ops : List WorldOp) : ∀ {w : World}, w.scenario.atmCache = none →
    (∀ op ∈ ops, ¬ WorldOp.Selects op) → AllReadsRaise w ops → (w.after ops).scenario.atmCache = none := by
  induction ops with
  | nil => intro w h _ _; exact h
  | cons op ops ih =>
    intro w h hs hr
    rw [World.after_cons]
    apply ih _ fun o ho => hs o (List.mem_cons_of_mem _ ho)
    · intro before after e
      have := hr (op :: before) after (by rw [e]; rfl)
      rwa [World.after_cons] at this
    · by_cases hop : op = .client .readAtm
      · subst hop
        obtain ⟨e, he⟩ := hr [] ops rfl
        rw [cache_after_read]
        rw [show w.read = .error e from he]
      · rw [cache_kept (hs op (List.mem_cons_self ..)) hop, h]

/-! ## C116 -/

/-- **C116** (kept). Once a read of `atm` has succeeded, all further reads return the same atmosphere until one of the three
parameters is assigned, whatever happens to the data files in between: replaced, damaged or deleted. -/
theorem C116_kept {w : World} {A : Atm} (h : w.read = .ok A) {ops : List WorldOp} (hs : ∀ op ∈ ops, ¬ WorldOp.Selects op) :
    ((w.step (.client .readAtm)).after ops).read = .ok A := by
  apply world_read_some
  apply held ops _ hs
  rw [cache_after_read, h]

/-- **C116** (fresh). After an assignment of one of the three parameters, and as long as every read since has raised, a read
returns or raises what the loader does with the files as they are at that moment. So a failed read can be repeated
after the file has been repaired. -/
theorem C116_fresh {w : World} {op : WorldOp} (ho : WorldOp.Selects op) {ops : List WorldOp}
    (hs : ∀ op ∈ ops, ¬ WorldOp.Selects op) (hr : AllReadsRaise (w.step op) ops) :
    ((w.step op).after ops).read = loadNow ((w.step op).after ops) := by
  apply world_read_none
  apply nothing_held ops _ hs hr
  cases op with
  | disk f => exact absurd ho (by simp [WorldOp.Selects])
  | client o => cases o <;> first | rfl | exact absurd ho (by simp [WorldOp.Selects, IsParamWrite])

/-- **C116** (fresh, new object). The same holds for a scenario that has just been constructed. -/
theorem C116_new (files : Files) (name : String) (ihaze : ℤ) (altitude groundRange : XR)
    (aircraftSpeed targetReflectance targetTemperature backgroundReflectance backgroundTemperature
      haWindSpeed cn2At1m : XR) (interp : Bool) {w : World} (hw : w = ⟨files, Scenario.new name ihaze altitude groundRange
        aircraftSpeed targetReflectance targetTemperature backgroundReflectance backgroundTemperature haWindSpeed
        cn2At1m interp⟩) {ops : List WorldOp} (hs : ∀ op ∈ ops, ¬ WorldOp.Selects op) (hr : AllReadsRaise w ops) :
    (w.after ops).read = loadNow (w.after ops) := by
  apply world_read_none
  apply nothing_held ops _ hs hr
  rw [hw]; rfl

/-- **C116** (files). The files as they are at some moment are the ones that replaced them last; nothing done to the scenario
changes them. -/
theorem C116_files (w : World) (before after : List WorldOp) (new : Files) (h : ∀ op ∈ after, ∃ o, op = .client o) :
    (w.after (before ++ .disk new :: after)).files = new := by
  have client : ∀ (l : List WorldOp) (v : World), (∀ op ∈ l, ∃ o, op = .client o) → (v.after l).files = v.files := by
    intro l
    induction l with
    | nil => intro v _; rfl
    | cons op l ih =>
      intro v hl
      rw [World.after_cons, ih _ fun o ho => hl o (List.mem_cons_of_mem _ ho)]
      obtain ⟨o, rfl⟩ := hl op List.mem_cons_self
      cases o <;> rfl
  induction before generalizing w with
  | nil =>
    rw [List.nil_append, World.after_cons, client after _ h]
    rfl
  | cons op l ih =>
    rw [List.cons_append, World.after_cons]
    exact ih _

/-- **C116** (ratings). `niirs` and `niirs5` never use the atmosphere a scenario holds: after any history they give what they
give for a newly constructed scenario with the same parameters, from the files as they are now. -/
theorem C116_ratings (w : World) (ops : List WorldOp) (diag : ℕ → ℕ → Bool) (s : Sensor) (i : Bool) (c : Option Atm) :
    (niirs ⟨(w.after ops).files, diag⟩ s (w.after ops).scenario i).1
      = (niirs ⟨(w.after ops).files, diag⟩ s { (w.after ops).scenario with atmCache := c } i).1
    ∧ (niirs5 ⟨(w.after ops).files, diag⟩ s (w.after ops).scenario i).1
      = (niirs5 ⟨(w.after ops).files, diag⟩ s { (w.after ops).scenario with atmCache := c } i).1 := by
  have h : SameScene (w.after ops).scenario { (w.after ops).scenario with atmCache := c } :=
    ⟨rfl, rfl, rfl, rfl, rfl, rfl, rfl⟩
  exact ⟨niirs_result_same h _ s i, niirs5_result_same h _ s s.filterKernel i⟩

/-- **C116** (they can disagree). If the files are replaced after a read, `atm` (and with it `simulate_image`) goes on with
the old atmosphere, and `niirs` uses the new one, for the same scenario object at the same time. -/
theorem C116_disagree {w : World} {A A' : Atm} (h : w.read = .ok A) {new : Files}
    (hnew : loadNow { w with files := new } = .ok A') (diag : ℕ → ℕ → Bool) (s : Sensor) :
    ((w.step (.client .readAtm)).step (.disk new)).read = .ok A
    ∧ niirsAtm ⟨((w.step (.client .readAtm)).step (.disk new)).files, diag⟩ s ((w.step (.client .readAtm)).step (.disk new)).scenario
      w.scenario.interp = bandCrop s A' := by
  refine ⟨C116_kept h (ops := [.disk new]) (by simp [WorldOp.Selects]), ?_⟩
  have same : ∀ c : Scenario, ∀ f, (c.readAtm f).2.1.altitude = c.altitude ∧ (c.readAtm f).2.1.groundRange = c.groundRange
      ∧ (c.readAtm f).2.1.ihaze = c.ihaze := by
    intro c f
    unfold Scenario.readAtm
    cases c.atmCache with
    | some A => exact ⟨rfl, rfl, rfl⟩
    | none => dsimp only; split <;> exact ⟨rfl, rfl, rfl⟩
  obtain ⟨e1, e2, e3⟩ := same w.scenario w.files
  show niirsAtm ⟨new, diag⟩ s (w.scenario.readAtm w.files).2.1 w.scenario.interp = _
  unfold niirsAtm
  rw [e1, e2, e3]
  unfold loadNow at hnew
  dsimp only at hnew ⊢
  split_ifs at hnew ⊢ <;> (rw [hnew]; rfl)

/-- A database all of whose files are full of the same number. -/
def constantFiles (x : ℝ) : Files := fun _ => some (List.replicate (1371 * 5) (.fin x))

/-- Non-trivial instance: with the files replaced, the old and the new atmosphere are different. -/
theorem C116_witness : ∃ (w : World) (new : Files) (A A' : Atm), w.read = .ok A
    ∧ loadNow { w with files := new } = .ok A' ∧ A ≠ A' := by
  have hr : IsRow ⟨10, 325, 100, 1⟩ 32.5 100 1 := ⟨by decide +kernel, by norm_num, by norm_num, by norm_num⟩
  have load : ∀ x, ∃ A, loadNoInterp (constantFiles x) (.fin 32.5) (.fin 100) 1 = .ok A
      ∧ IsRecord (List.replicate (1371 * 5) (.fin x)) A := fun x => C03_lookup hr rfl (List.length_replicate ..)
  obtain ⟨A, hA, rA⟩ := load 0
  obtain ⟨A', hA', rA'⟩ := load 1
  refine ⟨⟨constantFiles 0, Scenario.new "s" 1 (.fin 32.5) (.fin 100)⟩, constantFiles 1, A, A', ?_, ?_, ?_⟩
  · rw [world_read_none rfl]; exact hA
  · exact hA'
  · intro e
    have h1 := rA.transmission 0 (by norm_num)
    have h2 := rA'.transmission 0 (by norm_num)
    rw [e, h2] at h1
    have g : ∀ x : ℝ, (List.replicate (1371 * 5) (XR.fin x)).getD 0 .nan = .fin x := by
      intro x
      rw [List.getD_eq_getElem?_getD, List.getElem?_replicate]
      simp
    rw [g, g, XR.fin_inj] at h1
    norm_num at h1

/-- Non-trivial instance: a read that raises because all files are missing, after which the files appear. -/
example (sc : Scenario) (hi : sc.interp = false) (f : Files) :
    AllReadsRaise ((⟨fun _ => none, sc⟩ : World).step (.client (.setAltitude (.fin 9000)))) [.client .readAtm, .disk f] := by
  intro before after e
  cases before with
  | nil =>
    refine ⟨.indexError, ?_⟩
    show World.read _ = _
    rw [world_read_none rfl]
    show (if sc.interp = true then _ else _) = _
    rw [if_neg (by rw [hi]; simp)]
    exact C03_not_found fun _ _ _ _ _ _ => rfl
  | cons b before =>
    simp only [List.cons_append, List.cons.injEq] at e
    cases before with
    | nil => simp at e
    | cons b' before => simp at e

end PyBSM
