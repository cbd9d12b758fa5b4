import Verif.Spec.References
import Verif.Lemmas.Niirs

/-!
# C126: arrays and reports by reference
-/

noncomputable section

open Classical

namespace PyBSM

open Spec

/-! ## Programs that do not write into arrays -/

/-- The contents of a program state. -/
def Memory.copies (w : Memory) : Copies :=
  ⟨w.vars.map w.cell, w.sensors.map fun t => (t.plain, fun a => w.cell (t.ref a)), w.scenario, w.reports⟩

/-- All references are to existing arrays. -/
structure Memory.Valid (w : Memory) : Prop where
  vars : ∀ n ∈ w.vars, n < w.cells.length
  refs : ∀ t ∈ w.sensors, ∀ a, t.ref a < w.cells.length

theorem valid_start (sc : ℕ → Scenario) : (Memory.start sc).Valid :=
  ⟨fun _ h => by simp [Memory.start] at h, fun _ h => by simp [Memory.start] at h⟩

theorem find_copies (w : Memory) (p : Place) : w.copies.find p = (w.find p).map w.cell := by
  cases p with
  | var n => simp [Copies.find, Memory.find, Memory.copies]
  | attr i a => simp [Copies.find, Memory.find, Memory.copies, Function.comp_def]

theorem attributes_copies (w : Memory) (i : ℕ) : w.copies.attributes i = w.sensors[i]?.map w.view := by
  simp [Copies.attributes, Memory.copies, Function.comp_def]
  rfl

theorem find_lt {w : Memory} (h : w.Valid) {p : Place} {n : ℕ} (hp : w.find p = some n) : n < w.cells.length := by
  cases p with
  | var k => exact h.vars n (List.mem_of_getElem? hp)
  | attr i a =>
    simp only [Memory.find, Option.map_eq_some_iff] at hp
    obtain ⟨t, ht, rfl⟩ := hp
    exact h.refs t (List.mem_of_getElem? ht) a

theorem cell_append {cells more : List Cell} {n : ℕ} (h : n < cells.length) :
    (cells ++ more).getD n (.row []) = cells.getD n (.row []) := by
  simp [List.getD_eq_getElem?_getD, List.getElem?_append_left h]

/-- More arrays do not change the contents. -/
theorem copies_more {w : Memory} (h : w.Valid) (more : List Cell) :
    Memory.copies { w with cells := w.cells ++ more } = w.copies := by
  unfold Memory.copies
  congr 1
  · exact List.map_congr_left fun n hn => cell_append (h.vars n hn)
  · exact List.map_congr_left fun t ht => Prod.ext rfl (funext fun a => cell_append (h.refs t ht a))

theorem valid_more {w : Memory} (h : w.Valid) (more : List Cell) :
    Memory.Valid { w with cells := w.cells ++ more } :=
  ⟨fun n hn => by simpa using Nat.lt_add_right _ (h.vars n hn),
    fun t ht a => by simpa using Nat.lt_add_right _ (h.refs t ht a)⟩

theorem valid_add_sensor {w : Memory} (h : w.Valid) {t : SensorObj} (ht : ∀ a, t.ref a < w.cells.length) :
    Memory.Valid { w with sensors := w.sensors ++ [t] } := by
  refine ⟨h.vars, fun u hu a => ?_⟩
  rcases List.mem_append.mp hu with hu | hu
  · exact h.refs u hu a
  · rw [List.mem_singleton.mp hu]; exact ht a

theorem valid_set {w : Memory} (h : w.Valid) {t : SensorObj} (ht : ∀ a, t.ref a < w.cells.length) (i : ℕ) :
    Memory.Valid { w with sensors := w.sensors.set i t } := by
  refine ⟨h.vars, fun u hu a => ?_⟩
  rcases List.mem_or_eq_of_mem_set hu with hu | rfl
  · exact h.refs u hu a
  · exact ht a

theorem valid_keep {w : Memory} (h : w.Valid) {n : ℕ} (hn : n < w.cells.length) :
    Memory.Valid { w with vars := w.vars ++ [n] } := by
  refine ⟨fun m hm => ?_, h.refs⟩
  rcases List.mem_append.mp hm with hm | hm
  · exact h.vars m hm
  · rw [List.mem_singleton.mp hm]; exact hn

theorem record_seen (w : Memory) (i : ℕ) (x : Except PyErr Metrics) : (w.record i x).2 = ratingSeen x := by
  cases x <;> rfl

theorem record_state (w : Memory) (i : ℕ) (x : Except PyErr Metrics) :
    (w.record i x).1 = { w with reports := w.reports ++ (x.toOption.map fun m => (⟨m, i⟩ : ReportObj)).toList } := by
  cases x with
  | error e => simp [Memory.record, Except.toOption]
  | ok m => simp [Memory.record, Except.toOption]

theorem set_modify {α : Type*} {l : List α} {i : ℕ} {t : α} (h : l[i]? = some t) (g : α → α) :
    l.set i (g t) = l.modify i g := by
  apply List.ext_getElem?
  intro k
  rw [List.getElem?_set, List.getElem?_modify]
  by_cases hk : i = k
  · subst hk
    rw [if_pos rfl]
    rw [h]
    have := (List.getElem?_eq_some_iff.mp h).1
    simp [this]
  · rw [if_neg hk]
    simp [hk]

theorem map_modify {α β : Type*} (l : List α) (i : ℕ) (g : α → α) (g' : β → β) (φ : α → β)
    (h : ∀ t, φ (g t) = g' (φ t)) : (l.modify i g).map φ = (l.map φ).modify i g' := by
  apply List.ext_getElem?
  intro k
  simp only [List.getElem?_map, List.getElem?_modify]
  split_ifs <;> cases l[k]? <;> simp [h]

theorem valid_fields {w w' : Memory} (h : w.Valid) (h1 : w'.cells = w.cells) (h2 : w'.vars = w.vars)
    (h3 : w'.sensors = w.sensors) : w'.Valid :=
  ⟨by rw [h1, h2]; exact h.vars, by rw [h1, h3]; exact h.refs⟩

theorem valid_step {env : Env} {w : Memory} (h : w.Valid) (op : MemOp) : (w.step env op).1.Valid := by
  cases op with
  | array c =>
    exact valid_keep (valid_more h [c]) (by simp)
  | keep p =>
    simp only [Memory.step]
    split
    · exact h
    · rename_i n hn
      exact valid_keep h (find_lt h hn)
  | sensor name D f pX p =>
    simp only [Memory.step]
    split
    · exact h
    · rename_i n hn
      split
      · exact h
      · refine valid_add_sensor (valid_more h _) fun a => ?_
        have := find_lt h hn
        cases a <;> simp [newRefs] <;> omega
  | assign i g =>
    simp only [Memory.step]
    split
    · exact h
    · rename_i t ht
      exact valid_set h (t := ⟨g t.plain, t.ref⟩) (fun a => h.refs t (List.mem_of_getElem? ht) a) i
  | put i a p =>
    simp only [Memory.step]
    split
    · rename_i t n ht hn
      refine valid_set h (fun b => ?_) i
      dsimp only
      by_cases hb : b = a
      · subst hb; rw [Function.update_self]; exact find_lt h hn
      · rw [Function.update_of_ne hb]; exact h.refs t (List.mem_of_getElem? ht) b
    · exact h
  | write p g =>
    simp only [Memory.step]
    split
    · exact h
    · exact ⟨fun n hn => by simpa using h.vars n hn, fun t ht a => by simpa using h.refs t ht a⟩
  | contents p => simp only [Memory.step]; split <;> exact h
  | look i => simp only [Memory.step]; split <;> exact h
  | scenario j op => exact valid_fields h rfl rfl rfl
  | niirs i j interp =>
    simp only [Memory.step]
    split
    · exact h
    · rw [record_state]; exact valid_fields h rfl rfl rfl
  | niirs5 i j interp =>
    simp only [Memory.step]
    split
    · exact h
    · rename_i t ht
      split_ifs
      · rw [record_state]
        refine valid_fields (valid_set (valid_more h [Cell.kernel [[1]]])
          (t := ⟨t.plain, Function.update t.ref ArrayAttr.filterKernel w.cells.length⟩) (fun b => ?_) i) rfl rfl rfl
        dsimp only
        by_cases hb : b = .filterKernel
        · subst hb; rw [Function.update_self]; simp
        · rw [Function.update_of_ne hb]
          have := h.refs t (List.mem_of_getElem? ht) b
          simp; omega
      · rw [record_state]; exact valid_fields h rfl rfl rfl
  | simulate usable rng r i j =>
    simp only [Memory.step]
    split
    · exact h
    · exact valid_fields h rfl rfl rfl
  | results r => simp only [Memory.step]; split <;> exact h
  | sensorOf r => simp only [Memory.step]; split <;> exact h
  | plotMTFs r angle => simp only [Memory.step]; split <;> exact h
  | plotNoise r => simp only [Memory.step]; split <;> exact h

theorem step_seen {env : Env} {w : Memory} {op : MemOp} (hw : ¬ IsWrite op) :
    (w.step env op).2 = w.copies.seen env op := by
  cases op with
  | array c => rfl
  | keep p =>
    simp only [Memory.step, Copies.seen, find_copies]
    cases w.find p <;> rfl
  | sensor name D f pX p =>
    simp only [Memory.step, Copies.seen, find_copies]
    cases w.find p with
    | none => rfl
    | some n =>
      simp only [Option.map_some]
      cases Sensor.new name D f pX (w.cell n).asRow <;> rfl
  | assign i g =>
    simp only [Memory.step, Copies.seen, Memory.copies, List.length_map]
    split
    · rename_i h; rw [if_neg (by simpa using h)]
    · rename_i t h; rw [if_pos (List.getElem?_eq_some_iff.mp h).1]
  | put i a p =>
    simp only [Memory.step, Copies.seen, find_copies, Option.isSome_map]
    have e : w.copies.sensors.length = w.sensors.length := by simp [Memory.copies]
    rw [e]
    cases h1 : w.sensors[i]? with
    | none => rw [if_neg (by rintro ⟨h, -⟩; simp at h1; omega)]
    | some t =>
      have := (List.getElem?_eq_some_iff.mp h1).1
      cases w.find p with
      | none => simp
      | some n => simp [this]
  | write p g => exact absurd trivial hw
  | contents p =>
    simp only [Memory.step, Copies.seen, find_copies]
    cases w.find p <;> rfl
  | look i =>
    simp only [Memory.step, Copies.seen, attributes_copies]
    cases w.sensors[i]? <;> rfl
  | scenario j op => rfl
  | niirs i j interp =>
    simp only [Memory.step, Copies.seen, attributes_copies]
    cases w.sensors[i]? with
    | none => rfl
    | some t => exact record_seen _ _ _
  | niirs5 i j interp =>
    simp only [Memory.step, Copies.seen, attributes_copies]
    cases w.sensors[i]? with
    | none => rfl
    | some t =>
      dsimp only
      split_ifs <;> exact record_seen _ _ _
  | simulate usable rng r i j =>
    simp only [Memory.step, Copies.seen, attributes_copies]
    cases w.sensors[i]? <;> rfl
  | results r =>
    simp only [Memory.step, Copies.seen, Memory.copies]
    cases w.reports[r]? <;> rfl
  | sensorOf r =>
    simp only [Memory.step, Copies.seen, attributes_copies]
    change _ = ((w.reports[r]?.bind _).getD _)
    cases w.reports[r]? with
    | none => rfl
    | some m =>
      simp only [Option.bind_some]
      cases w.sensors[m.sensor]? <;> rfl
  | plotMTFs r angle =>
    simp only [Memory.step, Copies.seen, attributes_copies]
    change _ = ((w.reports[r]?.bind _).getD _)
    cases w.reports[r]? with
    | none => rfl
    | some m =>
      simp only [Option.bind_some]
      cases w.sensors[m.sensor]? <;> rfl
  | plotNoise r =>
    simp only [Memory.step, Copies.seen, attributes_copies]
    change _ = ((w.reports[r]?.bind _).getD _)
    cases w.reports[r]? with
    | none => rfl
    | some m =>
      simp only [Option.bind_some]
      cases w.sensors[m.sensor]? <;> rfl

theorem copies_fields {w w' : Memory} (h1 : w'.cells = w.cells) (h2 : w'.vars = w.vars)
    (h3 : w'.sensors = w.sensors) : w'.copies = { w.copies with scenario := w'.scenario, reports := w'.reports } := by
  unfold Memory.copies Memory.cell
  rw [h1, h2, h3]

theorem cell_last (cells more : List Cell) (c : Cell) (k : ℕ) (h : more[k]? = some c) :
    (cells ++ more).getD (cells.length + k) (.row []) = c := by
  simp [List.getD_eq_getElem?_getD, List.getElem?_append_right, h]

theorem pair_ext {x : Sensor} {f g : ArrayAttr → Cell} (h : ∀ a, f a = g a) : (x, f) = (x, g) := by
  rw [funext h]

theorem step_copies {env : Env} {w : Memory} (h : w.Valid) {op : MemOp} (hw : ¬ IsWrite op) :
    (w.step env op).1.copies = w.copies.after env op := by
  cases op with
  | array c =>
    have e := copies_more h [c]
    simp only [Memory.step, Copies.after]
    rw [← e]
    simp only [Memory.copies, List.map_append, List.map_cons, List.map_nil]
    congr 3
    exact cell_last w.cells [c] c 0 rfl
  | keep p =>
    simp only [Memory.step, Copies.after, find_copies]
    cases w.find p with
    | none => simp
    | some n => simp [Memory.copies, Memory.cell]
  | sensor name D f pX p =>
    simp only [Memory.step, Copies.after, find_copies]
    cases hp : w.find p with
    | none => rfl
    | some n =>
      simp only [Option.map_some]
      cases hs : Sensor.new name D f pX (w.cell n).asRow with
      | error e => rfl
      | ok s =>
        have hn := find_lt h hp
        have e := copies_more h [.row s.opticsTransmission, .row s.qe, .row s.otherNoise, .kernel s.filterKernel]
        dsimp only
        rw [← e]
        simp only [Memory.copies, List.map_append, List.map_cons, List.map_nil]
        rw [Copies.mk.injEq]
        refine ⟨rfl, congrArg₂ (· ++ ·) rfl (congrArg (fun x => [x]) (pair_ext fun a => ?_)), rfl, rfl⟩
        have c0 := cell_append (more := [.row s.opticsTransmission, .row s.qe, .row s.otherNoise, .kernel s.filterKernel]) hn
        cases a with
        | wavelengths =>
          rw [Function.update_of_ne (by simp), Function.update_self]; exact c0
        | qeWavelengths => rw [Function.update_self]; exact c0
        | transmission =>
          rw [Function.update_of_ne (by simp), Function.update_of_ne (by simp)]
          exact cell_last w.cells _ _ 0 rfl
        | qe =>
          rw [Function.update_of_ne (by simp), Function.update_of_ne (by simp)]
          exact cell_last w.cells _ _ 1 rfl
        | otherNoise =>
          rw [Function.update_of_ne (by simp), Function.update_of_ne (by simp)]
          exact cell_last w.cells _ _ 2 rfl
        | filterKernel =>
          rw [Function.update_of_ne (by simp), Function.update_of_ne (by simp)]
          exact cell_last w.cells _ _ 3 rfl
  | assign i g =>
    simp only [Memory.step, Copies.after]
    cases ht : w.sensors[i]? with
    | none =>
      dsimp only
      have : w.copies.sensors.length ≤ i := by simpa [Memory.copies] using ht
      rw [List.modify_eq_self this]
    | some t =>
      dsimp only
      have e := set_modify ht fun t : SensorObj => { t with plain := g t.plain }
      rw [e]
      simp only [Memory.copies]
      congr 1
      exact map_modify _ _ _ _ _ fun t => rfl
  | put i a p =>
    simp only [Memory.step, Copies.after, find_copies]
    cases hp : w.find p with
    | none =>
      cases w.sensors[i]? <;> rfl
    | some n =>
      cases ht : w.sensors[i]? with
      | none =>
        dsimp only [Option.map_some]
        have : w.copies.sensors.length ≤ i := by simpa [Memory.copies] using ht
        rw [List.modify_eq_self this]
      | some t =>
        dsimp only [Option.map_some]
        have e := set_modify ht fun t : SensorObj => { t with ref := Function.update t.ref a n }
        rw [e]
        simp only [Memory.copies]
        congr 1
        refine map_modify _ _ _ _ _ fun t => pair_ext fun b => ?_
        dsimp only
        by_cases hb : b = a
        · subst hb; simp only [Function.update_self]; rfl
        · simp only [Function.update_of_ne hb]
  | write p g => exact absurd trivial hw
  | contents p => simp only [Memory.step, Copies.after]; split <;> rfl
  | look i => simp only [Memory.step, Copies.after]; split <;> rfl
  | scenario j op => rfl
  | niirs i j interp =>
    simp only [Memory.step, Copies.after, attributes_copies]
    cases w.sensors[i]? with
    | none => rfl
    | some t =>
      dsimp only [Option.map_some]
      rw [record_state]
      rfl
  | niirs5 i j interp =>
    simp only [Memory.step, Copies.after, attributes_copies]
    cases ht : w.sensors[i]? with
    | none => rfl
    | some t =>
      dsimp only [Option.map_some]
      have hr : reachesKernelReset env (w.view t) (w.scenario j) interp
          ↔ ReachesSNR env (w.view t) (w.copies.scenario j) interp := Iff.rfl
      simp only [hr]
      by_cases hs : ReachesSNR env (w.view t) (w.copies.scenario j) interp
      · simp only [if_pos hs]
        rw [record_state]
        have e := copies_more h [Cell.kernel [[1]]]
        have e2 := set_modify ht fun t : SensorObj => { t with ref := Function.update t.ref .filterKernel w.cells.length }
        rw [e2]
        conv_rhs => rw [← e]
        simp only [Memory.copies]
        congr 1
        refine map_modify _ _ _ _ _ fun t => pair_ext fun b => ?_
        dsimp only
        by_cases hb : b = .filterKernel
        · subst hb; simp only [Function.update_self]; exact cell_last w.cells _ _ 0 rfl
        · simp only [Function.update_of_ne hb]
      · simp only [if_neg hs]
        rw [record_state]
        have e : (fun t : Sensor × (ArrayAttr → Cell) => t) = id := rfl
        rw [e, List.modify_id]
        rfl
  | simulate usable rng r i j =>
    simp only [Memory.step, Copies.after, attributes_copies]
    cases w.sensors[i]? <;> rfl
  | results r => simp only [Memory.step, Copies.after]; split <;> rfl
  | sensorOf r => simp only [Memory.step, Copies.after]; split <;> rfl
  | plotMTFs r angle => simp only [Memory.step, Copies.after]; split <;> rfl
  | plotNoise r => simp only [Memory.step, Copies.after]; split <;> rfl

theorem run_copies {env : Env} (ops : List MemOp) : ∀ {w : Memory}, w.Valid → (∀ op ∈ ops, ¬ IsWrite op) →
    (w.run env ops).2 = w.copies.run env ops := by
  induction ops with
  | nil => intro w _ _; rfl
  | cons op ops ih =>
    intro w h hw
    show (w.step env op).2 :: ((w.step env op).1.run env ops).2 = _ :: _
    rw [step_seen (hw op (by simp)), ih (valid_step h op) fun o ho => hw o (by simp [ho]), step_copies h (hw op (by simp))]

/-- **C126** (sharing is invisible without writing): a program that never writes into an array sees exactly what it would
see if every variable and every sensor had its own copy of its arrays. -/
theorem C126_copies (env : Env) (scenario : ℕ → Scenario) (ops : List MemOp) (hw : ∀ op ∈ ops, ¬ IsWrite op) :
    ((Memory.start scenario).run env ops).2 = (⟨[], [], scenario, []⟩ : Copies).run env ops :=
  run_copies ops (valid_start scenario) hw

/-! ## What never changes -/

theorem memory_append {env : Env} (as : List MemOp) : ∀ (w : Memory) (bs : List MemOp),
    (w.run env (as ++ bs)).1 = ((w.run env as).1.run env bs).1 := by
  induction as with
  | nil => intro w bs; rfl
  | cons a as ih => intro w bs; exact ih (w.step env a).1 bs

theorem valid_run {env : Env} (ops : List MemOp) : ∀ {w : Memory}, w.Valid → (w.run env ops).1.Valid := by
  induction ops with
  | nil => intro w h; exact h
  | cons op ops ih => intro w h; exact ih (valid_step h op)

/-- Existing variables, sensors and reports keep their numbers; variables keep referring to the same arrays and reports
keep their results and sensor. -/
structure Grown (w w' : Memory) : Prop where
  vars : w.vars <+: w'.vars
  reports : w.reports <+: w'.reports
  sensors : w.sensors.length ≤ w'.sensors.length
  cells : w.cells.length ≤ w'.cells.length

theorem Grown.refl (w : Memory) : Grown w w := ⟨List.prefix_rfl, List.prefix_rfl, le_rfl, le_rfl⟩

theorem Grown.trans {a b c : Memory} (h : Grown a b) (k : Grown b c) : Grown a c :=
  ⟨h.vars.trans k.vars, h.reports.trans k.reports, h.sensors.trans k.sensors, h.cells.trans k.cells⟩

theorem grown_step {env : Env} (w : Memory) (op : MemOp) : Grown w (w.step env op).1 := by
  have hr : ∀ (w' : Memory) (i : ℕ) (x : Except PyErr Metrics), Grown w w' → Grown w (w'.record i x).1 := by
    intro w' i x h
    rw [record_state]
    exact h.trans ⟨List.prefix_rfl, List.prefix_append _ _, le_rfl, le_rfl⟩
  cases op with
  | array c => exact ⟨List.prefix_append _ _, List.prefix_rfl, le_rfl, by simp [Memory.step]⟩
  | keep p =>
    simp only [Memory.step]
    split
    · exact Grown.refl w
    · exact ⟨List.prefix_append _ _, List.prefix_rfl, le_rfl, le_rfl⟩
  | sensor name D f pX p =>
    simp only [Memory.step]
    split
    · exact Grown.refl w
    · split
      · exact Grown.refl w
      · exact ⟨List.prefix_rfl, List.prefix_rfl, by simp, by simp⟩
  | assign i g =>
    simp only [Memory.step]
    split
    · exact Grown.refl w
    · exact ⟨List.prefix_rfl, List.prefix_rfl, by simp, le_rfl⟩
  | put i a p =>
    simp only [Memory.step]
    split
    · exact ⟨List.prefix_rfl, List.prefix_rfl, by simp, le_rfl⟩
    · exact Grown.refl w
  | write p g =>
    simp only [Memory.step]
    split
    · exact Grown.refl w
    · exact ⟨List.prefix_rfl, List.prefix_rfl, le_rfl, by simp⟩
  | contents p => simp only [Memory.step]; split <;> exact Grown.refl w
  | look i => simp only [Memory.step]; split <;> exact Grown.refl w
  | scenario j op => exact ⟨List.prefix_rfl, List.prefix_rfl, le_rfl, le_rfl⟩
  | niirs i j interp =>
    simp only [Memory.step]
    split
    · exact Grown.refl w
    · exact hr _ _ _ ⟨List.prefix_rfl, List.prefix_rfl, le_rfl, le_rfl⟩
  | niirs5 i j interp =>
    simp only [Memory.step]
    split
    · exact Grown.refl w
    · split_ifs
      · exact hr _ _ _ ⟨List.prefix_rfl, List.prefix_rfl, by simp, by simp⟩
      · exact hr _ _ _ ⟨List.prefix_rfl, List.prefix_rfl, le_rfl, le_rfl⟩
  | simulate usable rng r i j =>
    simp only [Memory.step]
    split
    · exact Grown.refl w
    · exact ⟨List.prefix_rfl, List.prefix_rfl, le_rfl, le_rfl⟩
  | results r => simp only [Memory.step]; split <;> exact Grown.refl w
  | sensorOf r => simp only [Memory.step]; split <;> exact Grown.refl w
  | plotMTFs r angle => simp only [Memory.step]; split <;> exact Grown.refl w
  | plotNoise r => simp only [Memory.step]; split <;> exact Grown.refl w

theorem grown_run {env : Env} (ops : List MemOp) : ∀ w : Memory, Grown w (w.run env ops).1 := by
  induction ops with
  | nil => intro w; exact Grown.refl w
  | cons op ops ih => intro w; exact (grown_step w op).trans (ih _)

theorem prefix_get {α : Type*} {l l' : List α} (h : l <+: l') {n : ℕ} {x : α} (hn : l[n]? = some x) : l'[n]? = some x := by
  obtain ⟨t, rfl⟩ := h
  rw [List.getElem?_append_left (List.getElem?_eq_some_iff.mp hn).1, hn]

/-- A call, look or assignment leaves the contents of every existing array alone. -/
theorem cells_step {env : Env} {w : Memory} {op : MemOp} (hw : ¬ IsWrite op) : w.cells <+: (w.step env op).1.cells := by
  have hr : ∀ (w' : Memory) (i : ℕ) (x : Except PyErr Metrics), w.cells <+: w'.cells → w.cells <+: (w'.record i x).1.cells := by
    intro w' i x h
    rw [record_state]
    exact h
  cases op with
  | array c => exact List.prefix_append _ _
  | sensor name D f pX p =>
    simp only [Memory.step]
    split
    · exact List.prefix_rfl
    · split
      · exact List.prefix_rfl
      · exact List.prefix_append _ _
  | write p g => exact absurd trivial hw
  | scenario j op => exact List.prefix_rfl
  | niirs i j interp =>
    simp only [Memory.step]
    split
    · exact List.prefix_rfl
    · exact hr _ _ _ List.prefix_rfl
  | niirs5 i j interp =>
    simp only [Memory.step]
    split
    · exact List.prefix_rfl
    · split_ifs
      · exact hr _ _ _ (List.prefix_append _ _)
      · exact hr _ _ _ List.prefix_rfl
  | keep p => simp only [Memory.step]; split <;> exact List.prefix_rfl
  | assign i g => simp only [Memory.step]; split <;> exact List.prefix_rfl
  | put i a p => simp only [Memory.step]; split <;> exact List.prefix_rfl
  | contents p => simp only [Memory.step]; split <;> exact List.prefix_rfl
  | look i => simp only [Memory.step]; split <;> exact List.prefix_rfl
  | simulate usable rng r i j => simp only [Memory.step]; split <;> exact List.prefix_rfl
  | results r => simp only [Memory.step]; split <;> exact List.prefix_rfl
  | sensorOf r => simp only [Memory.step]; split <;> exact List.prefix_rfl
  | plotMTFs r angle => simp only [Memory.step]; split <;> exact List.prefix_rfl
  | plotNoise r => simp only [Memory.step]; split <;> exact List.prefix_rfl

theorem cells_run {env : Env} (ops : List MemOp) : ∀ w : Memory, (∀ op ∈ ops, ¬ IsWrite op) →
    w.cells <+: (w.run env ops).1.cells := by
  induction ops with
  | nil => intro w _; exact List.prefix_rfl
  | cons op ops ih =>
    intro w h
    exact (cells_step (h op (by simp))).trans (ih _ fun o ho => h o (by simp [ho]))

theorem seen_contents {env : Env} {w : Memory} {p : Place} {c : Cell} :
    (w.step env (.contents p)).2 = .contents c ↔ ∃ n, w.find p = some n ∧ w.cell n = c := by
  simp only [Memory.step]
  cases w.find p with
  | none => simp
  | some n => simp

theorem cell_prefix {w w' : Memory} (h : w.cells <+: w'.cells) {n : ℕ} (hn : n < w.cells.length) :
    w'.cell n = w.cell n := by
  obtain ⟨t, ht⟩ := h
  unfold Memory.cell
  rw [← ht]
  exact cell_append hn

/-- **C126** (the library does not write into arrays): an array the client holds keeps its contents whatever sensors are
made from it, and whatever ratings, simulations, plots, looks and assignments follow, until the client itself writes
into an array. -/
theorem C126_library (env : Env) (scenario : ℕ → Scenario) (as bs : List MemOp) {n : ℕ} {c : Cell}
    (hw : ∀ op ∈ bs, ¬ IsWrite op) (h : lastSeen env scenario as (.contents (.var n)) = .contents c) :
    lastSeen env scenario (as ++ bs) (.contents (.var n)) = .contents c := by
  unfold lastSeen at h ⊢
  rw [memory_append]
  have hv := valid_run (env := env) as (valid_start scenario)
  generalize ((Memory.start scenario).run env as).1 = w at h hv ⊢
  obtain ⟨k, hk, rfl⟩ := seen_contents.mp h
  have g := grown_run (env := env) bs w
  refine seen_contents.mpr ⟨k, prefix_get g.vars hk, ?_⟩
  exact cell_prefix (cells_run bs w hw) (find_lt hv hk)

/-- **C126** (reports do not change): the results a report shows stay the same whatever happens afterwards, including
assignments to its sensor and writes into the arrays of its sensor. -/
theorem C126_results (env : Env) (scenario : ℕ → Scenario) (as bs : List MemOp) {r : ℕ} {m : Metrics}
    (h : lastSeen env scenario as (.results r) = .results m) :
    lastSeen env scenario (as ++ bs) (.results r) = .results m := by
  unfold lastSeen at h ⊢
  rw [memory_append]
  generalize ((Memory.start scenario).run env as).1 = w at h ⊢
  have g := grown_run (env := env) bs w
  simp only [Memory.step] at h ⊢
  cases hr : w.reports[r]? with
  | none => rw [hr] at h; cases h
  | some q =>
    rw [hr] at h
    rw [prefix_get g.reports hr]
    exact h

/-! ## The kernel after `niirs5` -/

theorem set_same {α : Type*} {l : List α} {i : ℕ} {t : α} (h : l[i]? = some t) : l.set i t = l := by
  have := set_modify h id
  rwa [List.modify_id] at this

theorem seen_look {env : Env} {w : Memory} {i : ℕ} {s : Sensor} :
    (w.step env (.look i)).2 = .attributes s ↔ ∃ t, w.sensors[i]? = some t ∧ w.view t = s := by
  simp only [Memory.step]
  cases w.sensors[i]? with
  | none => simp
  | some t => simp

theorem step_niirs5_sensors {env : Env} {w : Memory} {i j : ℕ} {interp : Bool} {t : SensorObj}
    (ht : w.sensors[i]? = some t) :
    ∃ n, (w.step env (.niirs5 i j interp)).1.sensors = w.sensors.set i ⟨t.plain, Function.update t.ref .filterKernel n⟩ := by
  simp only [Memory.step, ht]
  split_ifs
  · exact ⟨w.cells.length, by rw [record_state]⟩
  · refine ⟨t.ref .filterKernel, ?_⟩
    rw [record_state, Function.update_eq_self]
    exact (set_same ht).symm

/-- **C126** (`niirs5` and the sharpening kernel): a client that keeps a reference to the kernel, calls `niirs5` (whether
or not it succeeds) and assigns the kept array back has the sensor exactly as it was. -/
theorem C126_restore (env : Env) (scenario : ℕ → Scenario) (as : List MemOp) {i j : ℕ} {interp : Bool} {s : Sensor}
    (h : lastSeen env scenario as (.look i) = .attributes s) :
    lastSeen env scenario (as ++ [.keep (.attr i .filterKernel), .niirs5 i j interp,
      .put i .filterKernel (.var (varCount env scenario as))]) (.look i) = .attributes s := by
  unfold lastSeen varCount at *
  rw [memory_append]
  have hv := valid_run (env := env) as (valid_start scenario)
  generalize ((Memory.start scenario).run env as).1 = w at h hv ⊢
  obtain ⟨t, ht, rfl⟩ := seen_look.mp h
  have hk : w.find (.attr i .filterKernel) = some (t.ref .filterKernel) := by simp [Memory.find, ht]
  have e1 : w.step env (.keep (.attr i .filterKernel)) = ({ w with vars := w.vars ++ [t.ref .filterKernel] }, .done) := by
    simp only [Memory.step, hk]
  show ((((w.step env (.keep (.attr i .filterKernel))).1.step env (.niirs5 i j interp)).1.step env (.put i .filterKernel
    (.var w.vars.length))).1.step env (.look i)).2 = _
  rw [e1]
  dsimp only
  have ht' : (Memory.mk w.cells (w.vars ++ [t.ref .filterKernel]) w.sensors w.scenario w.reports).sensors[i]? = some t := ht
  have hc := cells_step (env := env) (w := ⟨w.cells, w.vars ++ [t.ref .filterKernel], w.sensors, w.scenario, w.reports⟩)
    (op := .niirs5 i j interp) (by simp [IsWrite])
  have hg := grown_step (env := env) ⟨w.cells, w.vars ++ [t.ref .filterKernel], w.sensors, w.scenario, w.reports⟩
    (.niirs5 i j interp)
  obtain ⟨n, hn⟩ := step_niirs5_sensors (env := env) (j := j) (interp := interp) ht'
  generalize ((Memory.mk w.cells (w.vars ++ [t.ref .filterKernel]) w.sensors w.scenario w.reports).step env
    (.niirs5 i j interp)).1 = w2 at hc hg hn ⊢
  have hvar : w2.find (.var w.vars.length) = some (t.ref .filterKernel) := by
    apply prefix_get hg.vars
    simp
  have hl := (List.getElem?_eq_some_iff.mp ht).1
  have hs2 : w2.sensors[i]? = some ⟨t.plain, Function.update t.ref .filterKernel n⟩ := by
    rw [hn]
    simp [hl]
  have hput : (w2.step env (.put i .filterKernel (.var w.vars.length))).1
      = { w2 with sensors := w2.sensors.set i t } := by
    simp only [Memory.step, hs2, hvar]
    congr 2
    simp
  rw [hput]
  refine seen_look.mpr ⟨t, ?_, ?_⟩
  · have : i < w2.sensors.length := by rw [hn]; simpa using hl
    simp [this]
  · unfold Memory.view
    congr 1
    funext a
    exact cell_prefix (w := w) (w' := { w2 with sensors := w2.sensors.set i t }) hc
      (hv.refs t (List.mem_of_getElem? ht) a)

/-! ## Which arrays are shared -/

/-- Attribute `a` of sensor `i` refers to array `n`. -/
def RefersTo (w : Memory) (i : ℕ) (a : ArrayAttr) (n : ℕ) : Prop := ∃ t, w.sensors[i]? = some t ∧ t.ref a = n

theorem refers_set {w w' : Memory} {i : ℕ} {a : ArrayAttr} {n k : ℕ} (h : RefersTo w i a n) {t u : SensorObj}
    (ht : w.sensors[k]? = some t) (hs : w'.sensors = w.sensors.set k u) (hu : k = i → u.ref a = t.ref a) :
    RefersTo w' i a n := by
  obtain ⟨v, hv, hn⟩ := h
  by_cases hk : k = i
  · subst hk
    refine ⟨u, ?_, ?_⟩
    · rw [hs]
      simp [(List.getElem?_eq_some_iff.mp ht).1]
    · rw [hu rfl, ← hn]
      rw [ht] at hv
      rw [Option.some.inj hv]
  · exact ⟨v, by rw [hs, List.getElem?_set_ne hk, hv], hn⟩

/-- An attribute other than the kernel refers to the same array until the client assigns it. -/
theorem refers_step {env : Env} {w : Memory} {i : ℕ} {a : ArrayAttr} {n : ℕ} (h : RefersTo w i a n)
    (ha : a ≠ .filterKernel) {op : MemOp} (hp : ¬ Puts i a op) : RefersTo (w.step env op).1 i a n := by
  have hr : ∀ (w' : Memory) (k : ℕ) (x : Except PyErr Metrics), RefersTo w' i a n → RefersTo (w'.record k x).1 i a n := by
    intro w' k x h
    rw [record_state]
    exact h
  cases op with
  | array c => exact h
  | keep p => simp only [Memory.step]; split <;> exact h
  | sensor name D f pX p =>
    simp only [Memory.step]
    split
    · exact h
    · split
      · exact h
      · obtain ⟨t, ht, hn⟩ := h
        exact ⟨t, by dsimp only; rw [List.getElem?_append_left (List.getElem?_eq_some_iff.mp ht).1, ht], hn⟩
  | assign k g =>
    simp only [Memory.step]
    split
    · exact h
    · rename_i t ht
      exact refers_set h ht rfl fun _ => rfl
  | put k b p =>
    simp only [Memory.step]
    split
    · rename_i t m ht hm
      refine refers_set h ht rfl fun hk => ?_
      dsimp only
      rw [Function.update_of_ne]
      rintro rfl
      exact hp ⟨hk, rfl⟩
    · exact h
  | write p g => simp only [Memory.step]; split <;> exact h
  | contents p => simp only [Memory.step]; split <;> exact h
  | look k => simp only [Memory.step]; split <;> exact h
  | scenario j op => exact h
  | niirs k j interp =>
    simp only [Memory.step]
    split
    · exact h
    · exact hr _ _ _ h
  | niirs5 k j interp =>
    simp only [Memory.step]
    split
    · exact h
    · rename_i t ht
      split_ifs
      · apply hr
        refine refers_set h ht rfl fun hk => ?_
        dsimp only
        rw [Function.update_of_ne ha]
      · exact hr _ _ _ h
  | simulate usable rng r k j => simp only [Memory.step]; split <;> exact h
  | results r => simp only [Memory.step]; split <;> exact h
  | sensorOf r => simp only [Memory.step]; split <;> exact h
  | plotMTFs r angle => simp only [Memory.step]; split <;> exact h
  | plotNoise r => simp only [Memory.step]; split <;> exact h

theorem refers_run {env : Env} {i : ℕ} {a : ArrayAttr} {n : ℕ} (ha : a ≠ .filterKernel) (ops : List MemOp) :
    ∀ {w : Memory}, RefersTo w i a n → (∀ op ∈ ops, ¬ Puts i a op) → RefersTo (w.run env ops).1 i a n := by
  induction ops with
  | nil => intro w h _; exact h
  | cons op ops ih =>
    intro w h hp
    exact ih (refers_step h ha (hp op (by simp))) fun o ho => hp o (by simp [ho])

/-- Both wavelength attributes of a sensor made from a variable refer to the array of the variable. -/
theorem shared_refs {env : Env} {w : Memory} {bs : List MemOp} {name : String} {D f pX : XR} {n : ℕ}
    (h : (w.step env (.sensor name D f pX (.var n))).2 = .done)
    (hp : ∀ op ∈ bs, ¬ Puts w.sensors.length .wavelengths op ∧ ¬ Puts w.sensors.length .qeWavelengths op) :
    ∃ k, (w.run env (.sensor name D f pX (.var n) :: bs)).1.find (.var n) = some k
      ∧ RefersTo (w.run env (.sensor name D f pX (.var n) :: bs)).1 w.sensors.length .wavelengths k
      ∧ RefersTo (w.run env (.sensor name D f pX (.var n) :: bs)).1 w.sensors.length .qeWavelengths k := by
  show ∃ k, ((w.step env (.sensor name D f pX (.var n))).1.run env bs).1.find (.var n) = some k
      ∧ RefersTo ((w.step env (.sensor name D f pX (.var n))).1.run env bs).1 w.sensors.length .wavelengths k
      ∧ RefersTo ((w.step env (.sensor name D f pX (.var n))).1.run env bs).1 w.sensors.length .qeWavelengths k
  obtain ⟨k, hk⟩ : ∃ k, w.find (.var n) = some k := by
    cases hk : w.find (.var n) with
    | none => simp [Memory.step, hk] at h
    | some k => exact ⟨k, rfl⟩
  obtain ⟨s, hs⟩ : ∃ s, Sensor.new name D f pX (w.cell k).asRow = .ok s := by
    cases hs : Sensor.new name D f pX (w.cell k).asRow with
    | error e => simp [Memory.step, hk, hs] at h
    | ok s => exact ⟨s, rfl⟩
  have r1 : ∀ a, newRefs k w.cells.length a = k →
      RefersTo (w.step env (.sensor name D f pX (.var n))).1 w.sensors.length a k := by
    intro a ha
    refine ⟨⟨s, newRefs k w.cells.length⟩, ?_, ha⟩
    simp [Memory.step, hk, hs]
  have g := (grown_step (env := env) w (.sensor name D f pX (.var n))).trans
    (grown_run (env := env) bs (w.step env (.sensor name D f pX (.var n))).1)
  exact ⟨k, prefix_get g.vars hk, refers_run (by simp) bs (r1 .wavelengths rfl) fun o ho => (hp o ho).1,
    refers_run (by simp) bs (r1 .qeWavelengths rfl) fun o ho => (hp o ho).2⟩

/-- **C126** (the wavelength array is shared): the array a sensor is made from stays both its `opt_trans_wavelengths` and
its `qe_wavelengths` until the client assigns those attributes, whatever is written into arrays in between. -/
theorem C126_shared (env : Env) (scenario : ℕ → Scenario) (as bs : List MemOp) {name : String} {D f pX : XR} {n : ℕ}
    (h : lastSeen env scenario as (.sensor name D f pX (.var n)) = .done)
    (hp : ∀ op ∈ bs, ¬ Puts (sensorCount env scenario as) .wavelengths op
      ∧ ¬ Puts (sensorCount env scenario as) .qeWavelengths op) :
    ∃ (c : Cell) (s : Sensor),
      lastSeen env scenario (as ++ .sensor name D f pX (.var n) :: bs) (.contents (.var n)) = .contents c
      ∧ lastSeen env scenario (as ++ .sensor name D f pX (.var n) :: bs) (.look (sensorCount env scenario as)) = .attributes s
      ∧ s.optTransWavelengths = c.asRow ∧ s.qeWavelengths = c.asRow := by
  unfold lastSeen sensorCount at *
  rw [memory_append]
  generalize ((Memory.start scenario).run env as).1 = w at h hp ⊢
  obtain ⟨k, hk, ⟨t, ht, e1⟩, ⟨t', ht', e2⟩⟩ := shared_refs h hp
  generalize (w.run env (.sensor name D f pX (.var n) :: bs)).1 = w' at hk ht ht' ⊢
  rw [ht] at ht'
  obtain rfl := Option.some.inj ht'
  refine ⟨w'.cell k, w'.view t, seen_contents.mpr ⟨k, hk, rfl⟩, seen_look.mpr ⟨t, ht, rfl⟩, ?_, ?_⟩
  · show (w'.cell (t.ref .wavelengths)).asRow = _
    rw [e1]
  · show (w'.cell (t.ref .qeWavelengths)).asRow = _
    rw [e2]

/-- **C126** (writing through an attribute): writing into `opt_trans_wavelengths` or `qe_wavelengths` of such a sensor
writes into the client's own array, hence (`C126_shared`) into the other attribute and into every sensor made from it. -/
theorem C126_shared_write (env : Env) (scenario : ℕ → Scenario) (as bs : List MemOp) {name : String} {D f pX : XR} {n : ℕ}
    (h : lastSeen env scenario as (.sensor name D f pX (.var n)) = .done)
    (hp : ∀ op ∈ bs, ¬ Puts (sensorCount env scenario as) .wavelengths op
      ∧ ¬ Puts (sensorCount env scenario as) .qeWavelengths op)
    {a : ArrayAttr} (ha : a = .wavelengths ∨ a = .qeWavelengths) (g : Cell → Cell) {c : Cell}
    (hc : lastSeen env scenario (as ++ .sensor name D f pX (.var n) :: bs) (.contents (.var n)) = .contents c) :
    lastSeen env scenario (as ++ .sensor name D f pX (.var n) :: bs ++ [.write (.attr (sensorCount env scenario as) a) g])
      (.contents (.var n)) = .contents (g c) := by
  have hv := valid_run (env := env) (as ++ .sensor name D f pX (.var n) :: bs) (valid_start scenario)
  unfold lastSeen sensorCount at *
  rw [memory_append (as ++ .sensor name D f pX (.var n) :: bs)]
  rw [memory_append] at hv hc ⊢
  generalize ((Memory.start scenario).run env as).1 = w at h hp hv hc ⊢
  obtain ⟨k, hk, r1, r2⟩ := shared_refs h hp
  generalize (w.run env (.sensor name D f pX (.var n) :: bs)).1 = w' at hk r1 r2 hv hc ⊢
  obtain ⟨k', hk', rfl⟩ := seen_contents.mp hc
  rw [hk] at hk'
  obtain rfl := Option.some.inj hk'
  have hr : RefersTo w' w.sensors.length a k := by rcases ha with rfl | rfl <;> assumption
  obtain ⟨t, ht, e⟩ := hr
  have ew : (w'.step env (.write (.attr w.sensors.length a) g)).1 = { w' with cells := w'.cells.modify k g } := by
    simp [Memory.step, Memory.find, ht, e]
  show ((w'.step env (.write (.attr w.sensors.length a) g)).1.step env _).2 = _
  rw [ew]
  refine seen_contents.mpr ⟨k, hk, ?_⟩
  have hl := find_lt hv hk
  unfold Memory.cell
  simp [List.getD_eq_getElem?_getD, hl]

/-- The array of attribute `a` of sensor `i` is in no variable and no other attribute. -/
def Own (w : Memory) (i : ℕ) (a : ArrayAttr) : Prop :=
  ∀ n, RefersTo w i a n → n ∉ w.vars ∧ ∀ k b, RefersTo w k b n → k = i ∧ b = a

theorem refers_lt {w : Memory} (h : w.Valid) {i : ℕ} {a : ArrayAttr} {n : ℕ} (hr : RefersTo w i a n) :
    n < w.cells.length := by
  obtain ⟨t, ht, rfl⟩ := hr
  exact h.refs t (List.mem_of_getElem? ht) a

theorem refers_update {w w' : Memory} {k₀ m : ℕ} {b₀ : ArrayAttr} {t : SensorObj} {q : Sensor}
    (ht : w.sensors[k₀]? = some t) (hs : w'.sensors = w.sensors.set k₀ ⟨q, Function.update t.ref b₀ m⟩)
    {k : ℕ} {b : ArrayAttr} {n : ℕ} (h : RefersTo w' k b n) :
    (k = k₀ ∧ b = b₀ ∧ n = m) ∨ (¬ (k = k₀ ∧ b = b₀) ∧ RefersTo w k b n) := by
  obtain ⟨u, hu, hn⟩ := h
  rw [hs] at hu
  by_cases hk : k = k₀
  · subst hk
    rw [List.getElem?_set_self (List.getElem?_eq_some_iff.mp ht).1] at hu
    obtain rfl := Option.some.inj hu
    by_cases hb : b = b₀
    · subst hb
      left
      exact ⟨rfl, rfl, by rw [← hn]; simp⟩
    · right
      refine ⟨fun h => hb h.2, t, ht, ?_⟩
      rw [← hn]
      simp [Function.update_of_ne hb]
  · right
    rw [List.getElem?_set_ne (Ne.symm hk)] at hu
    exact ⟨fun h => hk h.1, u, hu, hn⟩

theorem own_fields {w w' : Memory} {i : ℕ} {a : ArrayAttr} (h : Own w i a) (h1 : w'.vars = w.vars)
    (h2 : w'.sensors = w.sensors) : Own w' i a := by
  have e : ∀ k b n, RefersTo w' k b n ↔ RefersTo w k b n := fun k b n => by unfold RefersTo; rw [h2]
  intro n hn
  rw [h1]
  simp only [e] at hn ⊢
  exact h n hn

theorem own_step {env : Env} {w : Memory} (hv : w.Valid) {i : ℕ} {a : ArrayAttr} (h : Own w i a)
    (h1 : a ≠ .wavelengths) (h2 : a ≠ .qeWavelengths) {op : MemOp} (ht : ¬ TakesAttribute op) (hp : ¬ Puts i a op) :
    Own (w.step env op).1 i a := by
  have hr : ∀ (w' : Memory) (k : ℕ) (x : Except PyErr Metrics), Own w' i a → Own (w'.record k x).1 i a := by
    intro w' k x h
    rw [record_state]
    exact own_fields h rfl rfl
  have old : ∀ {n m : ℕ}, n ∈ w.vars → RefersTo w i a m → n ≠ m := fun hn hm e => (h _ hm).1 (e ▸ hn)
  cases op with
  | array c =>
    intro n hn
    have hn' : RefersTo w i a n := hn
    refine ⟨fun hm => ?_, fun k b hk => (h n hn').2 k b hk⟩
    have hl := refers_lt hv hn'
    rcases List.mem_append.mp hm with hm | hm
    · exact (h n hn').1 hm
    · rw [List.mem_singleton.mp hm] at hl; exact lt_irrefl _ hl
  | keep p =>
    cases p with
    | attr k b => exact absurd trivial ht
    | var m =>
      simp only [Memory.step]
      split
      · exact h
      · rename_i x hx
        have hx' : x ∈ w.vars := List.mem_of_getElem? hx
        intro n hn
        have hn' : RefersTo w i a n := hn
        refine ⟨fun hm => ?_, fun k b hk => (h n hn').2 k b hk⟩
        rcases List.mem_append.mp hm with hm | hm
        · exact (h n hn').1 hm
        · exact old hx' hn' (List.mem_singleton.mp hm).symm
  | sensor name D f pX p =>
    cases p with
    | attr k b => exact absurd trivial ht
    | var m =>
      simp only [Memory.step]
      split
      · exact h
      · rename_i x hx
        split
        · exact h
        · rename_i s hs
          have hx' : x ∈ w.vars := List.mem_of_getElem? hx
          have hxl := hv.vars x hx'
          have hsplit : ∀ (cs : List Cell) (k : ℕ) (b : ArrayAttr) (n : ℕ),
              RefersTo { w with cells := cs, sensors := w.sensors ++ [⟨s, newRefs x w.cells.length⟩] } k b n →
              RefersTo w k b n ∨ (k = w.sensors.length ∧ newRefs x w.cells.length b = n) := by
            rintro cs k b n ⟨u, hu, hn⟩
            dsimp only at hu
            rcases Nat.lt_trichotomy k w.sensors.length with hk | hk | hk
            · rw [List.getElem?_append_left hk] at hu
              exact Or.inl ⟨u, hu, hn⟩
            · rw [hk] at hu
              simp at hu
              subst hu
              exact Or.inr ⟨hk, hn⟩
            · rw [List.getElem?_eq_none (by simp; omega)] at hu
              cases hu
          have hin : ∀ {k b n}, RefersTo w k b n → k < w.sensors.length := by
            rintro k b n ⟨u, hu, -⟩
            exact (List.getElem?_eq_some_iff.mp hu).1
          intro n hn
          rcases hsplit _ _ _ _ hn with hn' | ⟨hi, hn'⟩
          · refine ⟨(h n hn').1, fun k b hk => ?_⟩
            rcases hsplit _ _ _ _ hk with hk' | ⟨-, hk'⟩
            · exact (h n hn').2 k b hk'
            · exfalso
              have hl := refers_lt hv hn'
              have hne := old hx' hn'
              cases b <;> simp only [newRefs] at hk' <;> first | exact hne hk' | omega
          · have hge : w.cells.length ≤ n := by
              cases a <;> simp only [newRefs] at hn' <;> first | exact absurd rfl h1 | exact absurd rfl h2 | omega
            refine ⟨fun hm => absurd (hv.vars n hm) (by omega), fun k b hk => ?_⟩
            rcases hsplit _ _ _ _ hk with hk' | ⟨hki, hk'⟩
            · exact absurd (refers_lt hv hk') (by omega)
            · refine ⟨by rw [hki, hi], ?_⟩
              rw [← hn'] at hk' hge
              cases a <;> cases b <;> simp only [newRefs] at hk' hge <;>
                first | rfl | exact absurd rfl h1 | exact absurd rfl h2 | omega
  | assign k g =>
    simp only [Memory.step]
    split
    · exact h
    · rename_i t ht'
      have e : ∀ k' b n, RefersTo { w with sensors := w.sensors.set k { t with plain := g t.plain } } k' b n →
          RefersTo w k' b n := by
        intro k' b n hk
        rcases refers_update (w' := { w with sensors := w.sensors.set k { t with plain := g t.plain } }) ht'
          (b₀ := .qe) (m := t.ref .qe) (q := g t.plain) (by rw [Function.update_eq_self]) hk with ⟨rfl, rfl, rfl⟩ | ⟨-, h⟩
        · exact ⟨t, ht', rfl⟩
        · exact h
      intro n hn
      exact ⟨(h n (e _ _ _ hn)).1, fun k' b hk => (h n (e _ _ _ hn)).2 k' b (e _ _ _ hk)⟩
  | put k b p =>
    cases p with
    | attr k b => exact absurd trivial ht
    | var m =>
      simp only [Memory.step]
      split
      · rename_i t x ht' hx
        have hx' : x ∈ w.vars := List.mem_of_getElem? hx
        intro n hn
        rcases refers_update ht' rfl hn with ⟨e1, e2, -⟩ | ⟨-, hn'⟩
        · exact absurd ⟨e1.symm, e2.symm⟩ hp
        · refine ⟨(h n hn').1, fun k' b' hk => ?_⟩
          rcases refers_update ht' rfl hk with ⟨-, -, e⟩ | ⟨-, hk'⟩
          · exact absurd e.symm (old hx' hn')
          · exact (h n hn').2 k' b' hk'
      · exact h
  | write p g => simp only [Memory.step]; split <;> exact h
  | contents p => simp only [Memory.step]; split <;> exact h
  | look k => simp only [Memory.step]; split <;> exact h
  | scenario j op => exact own_fields h rfl rfl
  | niirs k j interp =>
    simp only [Memory.step]
    split
    · exact h
    · exact hr _ _ _ (own_fields h rfl rfl)
  | niirs5 k j interp =>
    simp only [Memory.step]
    split
    · exact h
    · rename_i t ht'
      split_ifs
      · apply hr
        intro n hn
        rcases refers_update ht' rfl hn with ⟨e1, e2, e3⟩ | ⟨-, hn'⟩
        · refine ⟨fun hm => absurd (hv.vars n hm) (by omega), fun k' b' hk => ?_⟩
          rcases refers_update ht' rfl hk with ⟨f1, f2, -⟩ | ⟨-, hk'⟩
          · exact ⟨by rw [f1, e1], by rw [f2, e2]⟩
          · exact absurd (refers_lt hv hk') (by omega)
        · refine ⟨(h n hn').1, fun k' b' hk => ?_⟩
          rcases refers_update ht' rfl hk with ⟨-, -, e⟩ | ⟨-, hk'⟩
          · exact absurd (refers_lt hv hn') (by omega)
          · exact (h n hn').2 k' b' hk'
      · exact hr _ _ _ (own_fields h rfl rfl)
  | simulate usable rng r k j => simp only [Memory.step]; split <;> exact h
  | results r => simp only [Memory.step]; split <;> exact h
  | sensorOf r => simp only [Memory.step]; split <;> exact h
  | plotMTFs r angle => simp only [Memory.step]; split <;> exact h
  | plotNoise r => simp only [Memory.step]; split <;> exact h

theorem own_run {env : Env} {i : ℕ} {a : ArrayAttr} (h1 : a ≠ .wavelengths) (h2 : a ≠ .qeWavelengths)
    (ops : List MemOp) : ∀ {w : Memory}, w.Valid → Own w i a → (∀ op ∈ ops, ¬ TakesAttribute op ∧ ¬ Puts i a op) →
    Own (w.run env ops).1 i a := by
  induction ops with
  | nil => intro w _ h _; exact h
  | cons op ops ih =>
    intro w hv h hp
    exact ih (valid_step hv op) (own_step hv h h1 h2 (hp op (by simp)).1 (hp op (by simp)).2)
      fun o ho => hp o (by simp [ho])

theorem cell_modify {w : Memory} {n m : ℕ} (h : m ≠ n) (g : Cell → Cell) :
    Memory.cell { w with cells := w.cells.modify n g } m = w.cell m := by
  unfold Memory.cell
  simp [List.getD_eq_getElem?_getD, Ne.symm h]

/-- **C126** (the other arrays are the sensor's own): in a program that never takes an array out of a sensor, the
transmission, the quantum efficiency, the noise terms and the kernel of a sensor, unless the client assigned them, are
arrays nothing else refers to: writing into one of them changes no other sensor, no other attribute of that sensor and no
variable. -/
theorem C126_own (env : Env) (scenario : ℕ → Scenario) (ops : List MemOp) {i : ℕ} {a : ArrayAttr} (g : Cell → Cell)
    (h1 : a ≠ .wavelengths) (h2 : a ≠ .qeWavelengths) (hp : ∀ op ∈ ops, ¬ TakesAttribute op ∧ ¬ Puts i a op) :
    (∀ k ≠ i, lastSeen env scenario (ops ++ [.write (.attr i a) g]) (.look k) = lastSeen env scenario ops (.look k))
    ∧ (∀ b ≠ a, lastSeen env scenario (ops ++ [.write (.attr i a) g]) (.contents (.attr i b))
        = lastSeen env scenario ops (.contents (.attr i b)))
    ∧ ∀ n, lastSeen env scenario (ops ++ [.write (.attr i a) g]) (.contents (.var n))
        = lastSeen env scenario ops (.contents (.var n)) := by
  unfold lastSeen
  rw [memory_append]
  have hv := valid_run (env := env) ops (valid_start scenario)
  have ho : Own ((Memory.start scenario).run env ops).1 i a := own_run h1 h2 ops (valid_start scenario)
    (fun n ⟨t, ht, _⟩ => by simp [Memory.start] at ht) hp
  generalize ((Memory.start scenario).run env ops).1 = w at hv ho ⊢
  change (∀ k ≠ i, ((w.step env (.write (.attr i a) g)).1.step env _).2 = _)
    ∧ (∀ b ≠ a, ((w.step env (.write (.attr i a) g)).1.step env _).2 = _)
    ∧ ∀ n, ((w.step env (.write (.attr i a) g)).1.step env _).2 = _
  cases ht : w.sensors[i]? with
  | none =>
    have e : (w.step env (.write (.attr i a) g)).1 = w := by simp [Memory.step, Memory.find, ht]
    rw [e]
    exact ⟨fun _ _ => rfl, fun _ _ => rfl, fun _ => rfl⟩
  | some t =>
    have e : (w.step env (.write (.attr i a) g)).1 = { w with cells := w.cells.modify (t.ref a) g } := by
      simp [Memory.step, Memory.find, ht]
    rw [e]
    obtain ⟨o1, o2⟩ := ho (t.ref a) ⟨t, ht, rfl⟩
    refine ⟨fun k hk => ?_, fun b hb => ?_, fun n => ?_⟩
    · simp only [Memory.step]
      cases hu : w.sensors[k]? with
      | none => rfl
      | some u =>
        dsimp only
        congr 1
        unfold Memory.view
        congr 1
        funext b
        exact cell_modify (fun e => hk (o2 k b ⟨u, hu, e⟩).1) g
    · have e1 : Memory.find { w with cells := w.cells.modify (t.ref a) g } (.attr i b) = some (t.ref b) := by
        simp [Memory.find, ht]
      have e2 : w.find (.attr i b) = some (t.ref b) := by simp [Memory.find, ht]
      simp only [Memory.step, e1, e2]
      rw [cell_modify (fun e => hb (o2 i b ⟨t, ht, e⟩).2) g]
    · have e1 : Memory.find { w with cells := w.cells.modify (t.ref a) g } (.var n) = w.find (.var n) := rfl
      simp only [Memory.step, e1]
      cases hn : w.find (.var n) with
      | none => rfl
      | some m =>
        dsimp only
        have hm : m ∈ w.vars := List.mem_of_getElem? hn
        rw [cell_modify (fun e : m = t.ref a => o1 (by rw [← e]; exact hm)) g]

/-! ## Plots of reports -/

theorem seen_sensorOf {env : Env} {w : Memory} {r : ℕ} {s : Sensor}
    (h : (w.step env (.sensorOf r)).2 = .attributes s) :
    ∃ m t, w.reports[r]? = some m ∧ w.sensors[m.sensor]? = some t ∧ w.view t = s := by
  simp only [Memory.step] at h
  cases hm : w.reports[r]? with
  | none => rw [hm] at h; cases h
  | some m =>
    rw [hm] at h
    simp only [Option.bind_some] at h
    cases ht : w.sensors[m.sensor]? with
    | none => rw [ht] at h; cases h
    | some t =>
      rw [ht] at h
      exact ⟨m, t, rfl, ht, by simpa using h⟩

theorem plotCommonMTFs_congr (m : Metrics) {s t : Sensor} (h : s.f = t.f) (angle : ℝ) :
    plotCommonMTFs m s angle = plotCommonMTFs m t angle := by
  unfold plotCommonMTFs
  rw [h]

theorem plotNoiseTerms_congr (m : Metrics) {s t : Sensor} (h : s.readNoise = t.readNoise) :
    plotNoiseTerms m s = plotNoiseTerms m t := by
  unfold plotNoiseTerms
  rw [h]

/-- **C126** (plots follow the sensor): the MTF plot of a report, drawn again later, is the same if the focal length of
its sensor is then the same, and the noise plot is the same if the read noise is, whatever else has been assigned,
written or rated in between. -/
theorem C126_plots (env : Env) (scenario : ℕ → Scenario) (as bs : List MemOp) {r : ℕ} {s s' : Sensor}
    (h : lastSeen env scenario as (.sensorOf r) = .attributes s)
    (h' : lastSeen env scenario (as ++ bs) (.sensorOf r) = .attributes s') :
    (s'.f = s.f → ∀ angle, lastSeen env scenario (as ++ bs) (.plotMTFs r angle)
      = lastSeen env scenario as (.plotMTFs r angle))
    ∧ (s'.readNoise = s.readNoise → lastSeen env scenario (as ++ bs) (.plotNoise r)
      = lastSeen env scenario as (.plotNoise r)) := by
  unfold lastSeen at *
  rw [memory_append] at *
  generalize ((Memory.start scenario).run env as).1 = w at h h' ⊢
  have g := grown_run (env := env) bs w
  generalize (w.run env bs).1 = w' at h' g ⊢
  obtain ⟨m, t, hm, ht, rfl⟩ := seen_sensorOf h
  obtain ⟨m', t', hm', ht', rfl⟩ := seen_sensorOf h'
  rw [prefix_get g.reports hm] at hm'
  obtain rfl := Option.some.inj hm'
  have hm'' := prefix_get g.reports hm
  refine ⟨fun e angle => ?_, fun e => ?_⟩
  · simp only [Memory.step, hm, hm'', Option.bind_some, ht, ht', Option.map_some]
    rw [plotCommonMTFs_congr _ e]
  · simp only [Memory.step, hm, hm'', Option.bind_some, ht, ht', Option.map_some]
    rw [plotNoiseTerms_congr _ e]

end PyBSM
