import Verif.Lemmas.Sensor
import Verif.Spec.Band

noncomputable section

open Classical

namespace PyBSM

open Spec

theorem mapM_ok {ε α β : Type} {f : α → Except ε β} {g : α → β} : ∀ {l : List α},
    (∀ x ∈ l, f x = .ok (g x)) → l.mapM f = .ok (l.map g)
  | [], _ => rfl
  | x :: t, h => by
    rw [List.mapM_cons, h x (List.mem_cons_self ..), ok_bind,
      mapM_ok (fun y hy => h y (List.mem_cons_of_mem _ hy)), ok_bind]
    rfl

theorem bandCrop_eq (s : Sensor) (atm : Atm) :
    bandCrop s atm = if s.optTransWavelengths = [] then .error .indexError
      else .ok (atm.filter fun r => InBand s.optTransWavelengths r) := by
  unfold bandCrop
  cases hb : s.optTransWavelengths with
  | nil => simp
  | cons x t =>
    simp only [List.head?_cons, reduceCtorEq, if_false]
    obtain ⟨hi, hhi⟩ : ∃ hi, (x :: t).getLast? = some hi :=
      ⟨_, List.getLast?_eq_getLast_of_ne_nil (by simp)⟩
    rw [hhi]
    simp only
    rw [List.filter_filter]
    congr 1
    apply List.filter_congr
    intro r _
    rw [← Bool.decide_and]
    apply decide_eq_decide.mpr
    unfold InBand
    rw [List.head?_cons, hhi]
    constructor
    · rintro ⟨h1, h2⟩
      exact ⟨x, hi, rfl, rfl, h2, h1⟩
    · rintro ⟨lo, hi', e1, e2, h1, h2⟩
      simp only [Option.some.injEq] at e1 e2
      subst e1 e2
      exact ⟨h2, h1⟩

theorem filter_sameInBand {band : List XR} {a b : List (Fin 6 → XR)} (h : SameInBand band a b) :
    a.filter (fun r => InBand band r) = b.filter fun r => InBand band r := by
  unfold SameInBand at h
  induction h with
  | nil => rfl
  | cons h1 _ ih =>
    rcases h1 with rfl | ⟨h1, h2⟩
    · rw [List.filter_cons, List.filter_cons, ih]
    · rw [List.filter_cons_of_neg (by simpa using h1), List.filter_cons_of_neg (by simpa using h2), ih]

theorem bandCrop_same {s : Sensor} {a b : Atm} (h : SameInBand s.optTransWavelengths a b) :
    bandCrop s a = bandCrop s b := by
  rw [bandCrop_eq, bandCrop_eq, filter_sameInBand h]

theorem bandCrop_real {s : RealSensor} (hne : s.transmission ≠ []) (rows : List (Fin 6 → ℝ)) :
    bandCrop s.toSensor (realAtm rows) = .ok (realAtm (s.rowsInBand rows)) := by
  rw [bandCrop_eq, if_neg (by simp [RealSensor.toSensor, hne])]
  unfold realAtm RealSensor.rowsInBand
  rw [List.filter_map]
  congr 2
  apply List.filter_congr
  intro r _
  simp only [Function.comp]
  apply decide_eq_decide.mpr
  unfold InBand
  simp only [RealSensor.toSensor, List.head?_map, List.getLast?_map, Option.map_map,
    Option.map_eq_some_iff]
  constructor
  · rintro ⟨lo, hi, ⟨p, e1, rfl⟩, ⟨q, e2, rfl⟩, h1, h2⟩
    exact ⟨p, q, e1, e2, h1, h2⟩
  · rintro ⟨p, q, e1, e2, h1, h2⟩
    exact ⟨_, _, ⟨p, e1, rfl⟩, ⟨q, e2, rfl⟩, h1, h2⟩

theorem realAtm_vec (rows : List (Fin 6 → ℝ)) :
    realAtm rows = vecAtm rows.length (fun i => rows.getD i 0) := by
  unfold realAtm vecAtm
  apply List.ext_getElem
  · simp
  · intro i h1 h2
    simp only [List.length_map] at h1
    simp [h1]

theorem vecAtm_wl (n : ℕ) (A : ℕ → Fin 6 → ℝ) : (vecAtm n A).map (· 0) = vec n fun i => A i 0 := by
  unfold vecAtm vec
  rw [List.map_map]; rfl

theorem pyMax_foldl : ∀ (xs : List ℝ) (x : ℝ),
    (xs.map XR.fin).foldl (fun m y => if XR.lt m y then y else m) (.fin x) = .fin (xs.foldl max x)
  | [], _ => rfl
  | y :: ys, x => by
    simp only [List.map_cons, List.foldl_cons]
    have : (if XR.lt (.fin x) (.fin y) then XR.fin y else XR.fin x) = .fin (max x y) := by
      split_ifs with h
      · rw [max_eq_right (le_of_lt h)]
      · rw [max_eq_left (not_lt.mp h)]
    rw [this]
    exact pyMax_foldl ys _

theorem pyMax_fin {xs : List ℝ} (h : xs ≠ []) :
    ∃ m, pyMax (xs.map .fin) = .ok (.fin m) ∧ m ∈ xs ∧ ∀ x ∈ xs, x ≤ m := by
  match xs, h with
  | x :: t, _ =>
    obtain ⟨h1, h2, h3⟩ := foldl_max_props t x
    refine ⟨t.foldl max x, ?_, ?_, ?_⟩
    · simp only [List.map_cons, pyMax, pyMax_foldl]
    · rcases h1 with h | h
      · rw [h]; exact List.mem_cons_self ..
      · exact List.mem_cons_of_mem _ h
    · intro y hy
      rcases List.mem_cons.mp hy with rfl | hy
      · exact h2
      · exact h3 y hy

theorem pyMax_vec {n : ℕ} (hn : n ≠ 0) (a : ℕ → ℝ) :
    ∃ m, pyMax (vec n a) = .ok (.fin m) ∧ (∃ i < n, a i = m) ∧ ∀ i < n, a i ≤ m := by
  obtain ⟨m, h1, h2, h3⟩ := pyMax_fin (xs := (List.range n).map fun (i : ℕ) => a i)
    (by simpa using hn)
  refine ⟨m, by rw [vec_eq_map, h1], ?_, ?_⟩
  · obtain ⟨i, hi, e⟩ := List.mem_map.mp h2
    exact ⟨i, List.mem_range.mp hi, e⟩
  · intro i hi
    exact h3 _ (List.mem_map.mpr ⟨i, List.mem_range.mpr hi, rfl⟩)

theorem amax_vec {n : ℕ} (hn : n ≠ 0) (a : ℕ → ℝ) :
    ∃ m, amax (vec n a) = .ok (.fin m) ∧ (∃ i < n, a i = m) ∧ ∀ i < n, a i ≤ m := by
  obtain ⟨m, h1, h2, h3⟩ := amax_fin (xs := (List.range n).map fun (i : ℕ) => a i)
    (by simpa using hn)
  refine ⟨m, by rw [vec_eq_map, h1], ?_, ?_⟩
  · obtain ⟨i, hi, e⟩ := List.mem_map.mp h2
    exact ⟨i, List.mem_range.mp hi, e⟩
  · intro i hi
    exact h3 _ (List.mem_map.mpr ⟨i, List.mem_range.mpr hi, rfl⟩)

end PyBSM
