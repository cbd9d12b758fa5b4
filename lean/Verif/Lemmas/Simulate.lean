import Verif.Spec.Simulation
import Verif.Lemmas.ImagingOtf
import Verif.Lemmas.Imaging
import Verif.Props.Photoelectrons
import Verif.Props.RefImage

/-!
# Lemmas for `simulate_image`
-/

noncomputable section

open Classical

namespace PyBSM

open Spec

/-! ## Scaling the weights of a band -/

/-- All weights divided by `k`. -/
def scaled (k : ℝ) (pairs : List (ℝ × ℝ)) : List (ℝ × ℝ) := pairs.map fun p => (p.1, p.2 / k)

theorem wmean_scaled {k : ℝ} (hk : k ≠ 0) (pairs : List (ℝ × ℝ)) (F : ℝ → ℝ) : wmean (scaled k pairs) F = wmean pairs F := by
  unfold wmean scaled
  rw [List.map_map, List.map_map]
  have e1 : (pairs.map ((fun p : ℝ × ℝ => p.2 * F p.1) ∘ fun p => (p.1, p.2 / k))).sum
      = (pairs.map fun p => p.2 * F p.1).sum / k := by
    rw [div_eq_mul_inv, ← List.sum_map_mul_right]
    congr 1
    apply List.map_congr_left
    intro p _
    simp only [Function.comp]
    ring
  have e2 : (pairs.map ((fun p : ℝ × ℝ => p.2) ∘ fun p => (p.1, p.2 / k))).sum = (pairs.map fun p => p.2).sum / k := by
    rw [div_eq_mul_inv, ← List.sum_map_mul_right]
    rfl
  rw [e1, e2, div_div_div_cancel_right₀ hk]

theorem opticsAt_scaled {k : ℝ} (hk : k ≠ 0) (s : RealSensor) (g : RealScene) (pairs : List (ℝ × ℝ)) (t u v : ℝ) :
    opticsAt s g (scaled k pairs) t u v = opticsAt s g pairs t u v := by
  unfold opticsAt apertureAt turbulenceAt wavefrontAt
  simp only [wmean_scaled hk]

theorem band_scaled {k : ℝ} (hk : 0 < k) {pairs : List (ℝ × ℝ)} (h : Band pairs) : Band (scaled k pairs) where
  distinct := by
    unfold scaled
    rw [List.map_map]
    exact h.distinct
  positive := by
    intro p hp
    obtain ⟨q, hq, rfl⟩ := List.mem_map.mp hp
    exact h.positive q hq
  weights := by
    intro p hp
    obtain ⟨q, hq, rfl⟩ := List.mem_map.mp hp
    exact div_nonneg (h.weights q hq) hk.le
  total := by
    have e2 : ((scaled k pairs).map fun p => p.2).sum = (pairs.map fun p => p.2).sum / k := by
      unfold scaled
      rw [List.map_map, div_eq_mul_inv, ← List.sum_map_mul_right]
      rfl
    rw [e2]
    exact div_pos h.total hk

/-- The band of wavelengths with positive weight. -/
theorem positive_band {B : List (Fin 6 → ℝ)} {w : (Fin 6 → ℝ) → ℝ} (hB : ∀ a ∈ B, 0 < a 0) (hd : (B.map (· 0)).Nodup)
    (hl : ∃ a ∈ B, 0 < w a) : Band ((B.map fun a => (a 0, w a)).filter fun p => 0 < p.2) := by
  set L := (B.map fun a => (a 0, w a)).filter fun p => 0 < p.2 with hL
  have hw : ∀ p ∈ L, 0 < p.2 := by
    intro p hp
    have := (List.mem_filter.mp hp).2
    simpa using this
  refine ⟨?_, ?_, fun p hp => (hw p hp).le, ?_⟩
  · refine List.Nodup.sublist (List.Sublist.map _ List.filter_sublist) ?_
    rw [List.map_map]
    exact hd
  · intro p hp
    obtain ⟨a, ha, rfl⟩ := List.mem_map.mp (List.mem_filter.mp hp).1
    exact hB a ha
  · obtain ⟨a, ha, hpos⟩ := hl
    have hm : (a 0, w a) ∈ L := List.mem_filter.mpr ⟨List.mem_map.mpr ⟨a, ha, rfl⟩, by simpa using hpos⟩
    have hmem : w a ∈ L.map (·.2) := List.mem_map.mpr ⟨_, hm, rfl⟩
    refine lt_of_lt_of_le hpos (List.single_le_sum ?_ _ hmem)
    intro x hx
    obtain ⟨p, hp, rfl⟩ := List.mem_map.mp hx
    exact (hw p hp).le

theorem scaled_lists {k : ℝ} (hk : 0 < k) (B : List (Fin 6 → ℝ)) (w : (Fin 6 → ℝ) → ℝ) :
    ((vec B.length fun i => B.getD i 0 0).zip (vec B.length fun i => w (B.getD i 0) / k)).filter (fun p => XR.lt 0 p.2)
      = (scaled k ((B.map fun a => (a 0, w a)).filter fun p => 0 < p.2)).map fun p => (XR.fin p.1, XR.fin p.2) := by
  rw [← map_vec B (fun a => a 0), ← map_vec B (fun a => w a / k), List.zip_map', scaled, List.filter_map,
    List.filter_map, List.map_map, List.map_map]
  congr 1
  apply List.filter_congr
  intro a _
  simp only [Function.comp]
  congr 1
  have : XR.lt 0 (.fin (w a / k)) ↔ 0 < w a / k := XR.fin_lt _ _
  rw [eq_iff_iff, this]
  exact div_pos_iff_of_pos_right hk

/-! ## The photoelectron table -/

theorem collected_affine (s : RealSensor) (B : List (Fin 6 → ℝ)) (x : ℝ) :
    s.collected B x = (1 - x) * s.collected B 0 + x * s.collected B 1 := by
  have := counts_affine s B.length (fun i => B.getD i 0) s.intTime 0 1 x
  rw [show (1 - x) * 0 + x * 1 = x by ring] at this
  exact this

theorem collected_le (s : RealSensor) (B : List (Fin 6 → ℝ)) {x : ℝ} (h0 : 0 ≤ x) (h1 : x ≤ 1) :
    s.collected B x ≤ max (s.collected B 0) (s.collected B 1) := by
  rw [collected_affine]
  have a := le_max_left (s.collected B 0) (s.collected B 1)
  have b := le_max_right (s.collected B 0) (s.collected B 1)
  nlinarith

theorem pixel_affine (s : RealSensor) (B : List (Fin 6 → ℝ)) (x : ℝ) :
    s.pixel B x = s.pixel B 0 + (s.pixel B 1 - s.pixel B 0) * x := by
  unfold RealSensor.pixel
  rw [collected_affine s B x]
  ring

/-- `reflectance_to_photoelectrons` for the in-band rows. -/
theorem r2pe_pixel {s : RealSensor} (hs : s.Usable) (hM : 0 < s.maxN) {rows : List (Fin 6 → ℝ)}
    (hpos : ∀ a ∈ s.rowsInBand rows, 0 < a 0)
    (hw : ∃ a ∈ s.rowsInBand rows, 0 < s.spectral (a 0) (greyRadiance a 1 300)) :
    ∃ k : ℝ, 0 < k ∧ reflectanceToPhotoelectrons (realAtm rows) s.toSensor (.fin s.intTime) 300
      = .ok (vec 100 (fun i => i / 99), vec 100 (fun i => s.pixel (s.rowsInBand rows) (i / 99)),
          vec (s.rowsInBand rows).length (fun i => (s.rowsInBand rows).getD i 0 0),
          vec (s.rowsInBand rows).length fun i => s.spectral ((s.rowsInBand rows).getD i 0 0)
            (greyRadiance ((s.rowsInBand rows).getD i 0) 1 300) / k) := by
  set B := s.rowsInBand rows with hB
  have hmem : ∀ i < B.length, B.getD i 0 ∈ B := by
    intro i hi
    rw [List.getD_eq_getElem _ _ hi]; exact List.getElem_mem hi
  have hn : B.length ≠ 0 := by
    obtain ⟨r, hr, -⟩ := hw
    exact (List.length_pos_of_mem hr).ne'
  have hw' : ∃ i < B.length, 0 < s.spectral (B.getD i 0 0) (greyRadiance (B.getD i 0) 1 300) := by
    obtain ⟨r, hr, h⟩ := hw
    obtain ⟨i, hi, e⟩ := List.mem_iff_getElem.mp hr
    exact ⟨i, hi, by rw [List.getD_eq_getElem _ _ hi, e]; exact h⟩
  obtain ⟨peak, wmax, h1, ⟨ip, hip, hpe⟩, h3, h4, -⟩ :=
    r2pe_val (A := fun i => B.getD i 0) hs hM (t := s.intTime) 300 (realAtm_vec B) hn (fun i hi => hpos _ (hmem i hi)) hw'
  have hc : ∀ x, s.counts B.length (fun i => B.getD i 0) s.intTime x = s.collected B x := fun x => rfl
  have hpeak : peak = max (s.collected B 0) (s.collected B 1) := by
    apply le_antisymm
    · rw [← hpe, hc]
      apply collected_le
      · positivity
      · have : (ip : ℝ) ≤ 99 := by exact_mod_cast (by omega : ip ≤ 99)
        linarith
    · apply max_le
      · have := h3 0 (by norm_num)
        rwa [hc, Nat.cast_zero, zero_div] at this
      · have := h3 99 (by norm_num)
        rw [hc] at this
        norm_num at this
        exact this
  refine ⟨wmax, h4, ?_⟩
  rw [h1, hpeak]
  rfl

theorem tableAt_affine {c0 c1 : ℝ} {tbl : List (ℝ × ℝ)} (h : UnitTable tbl) (haff : ∀ q ∈ tbl, q.2 = c0 + c1 * q.1)
    {x : ℝ} (h0 : 0 ≤ x) (h1 : x ≤ 1) : tableAt tbl x = c0 + c1 * x := by
  rcases (interp1dStrict_value h h0 h1).2 with h | ⟨i, a, ya, b, yb, h1, h2, h3, h4, h5⟩
  · exact haff _ h
  · have ha := haff _ (List.mem_of_getElem? h1)
    have hb := haff _ (List.mem_of_getElem? h2)
    simp only at ha hb
    have : b - a ≠ 0 := by linarith
    rw [h5, ha, hb]
    unfold line
    field_simp
    ring

theorem trueImage_pixel {r : RefImage} {cal : List (ℝ × ℝ)} (hr : RefOf r cal) (s : RealSensor) (B : List (Fin 6 → ℝ)) :
    trueImage r (vec 100 fun i => i / 99) (vec 100 fun i => s.pixel B (i / 99))
      = .ok ((r.img.ravel.map fun x => s.pixel B (unit (calAt cal x))).map .fin) := by
  obtain ⟨t1, t2, t3⟩ := reflTable fun i => s.pixel B ((i : ℝ) / 99)
  rw [t2, t3, trueImage_value hr t1, List.map_map]
  congr 1
  apply List.map_congr_left
  intro x _
  have := unit_mem (calAt cal x)
  rw [tableAt_affine t1 (c0 := s.pixel B 0) (c1 := s.pixel B 1 - s.pixel B 0) ?_ this.1 this.2, ← pixel_affine]
  · rfl
  · intro q hq
    obtain ⟨i, -, rfl⟩ := List.mem_map.mp hq
    exact pixel_affine _ _ _

/-! ## Images and grids -/

theorem allReal_fin (xs : List ℝ) : allReal (xs.map .fin) = .ok xs := by
  unfold allReal
  have : (xs.map XR.fin).mapM XR.real? = some xs := by
    induction xs with
    | nil => rfl
    | cons x t ih => rw [List.map_cons, List.mapM_cons, ih]; rfl
  rw [this]

theorem range_map_getD {α : Type*} {n : ℕ} (f : ℕ → α) {i : ℕ} (hi : i < n) {d : α} : ((List.range n).map f).getD i d = f i := by
  rw [List.getD_eq_getElem _ _ (by simpa using hi)]
  simp

theorem ravel_length (x : Img) : x.ravel.length = x.h * x.w := by
  unfold Img.ravel
  rw [List.length_flatMap]
  simp

theorem ravel_getD (x : Img) {i j : ℕ} (hi : i < x.h) (hj : j < x.w) (d : ℝ) : x.ravel.getD (i * x.w + j) d = x.px i j := by
  unfold Img.ravel
  generalize x.h = h at hi
  induction h with
  | zero => omega
  | succ h ih =>
    have hl : ((List.range h).flatMap fun i => (List.range x.w).map fun j => x.px i j).length = h * x.w := by
      rw [List.length_flatMap]; simp
    rw [List.range_succ, List.flatMap_append]
    rcases Nat.lt_or_ge i h with hlt | hge
    · rw [List.getD_append _ _ _ _ (by
        rw [hl]
        calc i * x.w + j < i * x.w + x.w := by omega
          _ = (i + 1) * x.w := by ring
          _ ≤ h * x.w := Nat.mul_le_mul_right _ hlt)]
      exact ih hlt
    · have : i = h := by omega
      subst this
      rw [List.getD_append_right _ _ _ _ (by rw [hl]; omega), hl]
      simp only [List.flatMap_cons, List.flatMap_nil, List.append_nil, Nat.add_sub_cancel_left]
      exact range_map_getD _ hj

/-- Row-major layout: the image built from a function of the pixels. -/
theorem imgOfPixels_map (x : Img) (f : ℝ → ℝ) {i j : ℕ} (hi : i < x.h) (hj : j < x.w) :
    (imgOfPixels x.h x.w (x.ravel.map f)).px i j = f (x.px i j) := by
  show (x.ravel.map f).getD (i * x.w + j) 0 = _
  have hlt : i * x.w + j < x.ravel.length := by
    rw [ravel_length]
    calc i * x.w + j < i * x.w + x.w := by omega
      _ = (i + 1) * x.w := by ring
      _ ≤ x.h * x.w := Nat.mul_le_mul_right _ hi
  have h := ravel_getD x hi hj 0
  rw [List.getD_eq_getElem _ _ hlt] at h
  rw [List.getD_eq_getElem _ _ (by simpa using hlt), List.getElem_map, h]

theorem grid_real (n : ℕ) (G : ℕ → ℕ → ℝ) (R : ℕ → OTFRow) (hR : ∀ i, (R i).system = vec n (G i)) :
    ((List.range n).map R).mapM (fun row => allReal row.system)
      = .ok ((List.range n).map fun i => (List.range n).map fun j => G i j) := by
  rw [List.mapM_map]
  refine mapM_ok (g := fun i => (List.range n).map fun j => G i j) (fun i _ => ?_)
  simp only [Function.comp, hR]
  unfold vec
  have := allReal_fin ((List.range n).map fun j => G i j)
  rwa [List.map_map] at this

theorem grid_getD (n : ℕ) (G : ℕ → ℕ → ℝ) {i j : ℕ} (hi : i < n) (hj : j < n) :
    (((List.range n).map fun i => (List.range n).map fun j => G i j).getD i []).getD j 0 = G i j := by
  rw [range_map_getD _ hi, range_map_getD _ hj]

theorem grid_rows (n : ℕ) (G : ℕ → ℕ → ℝ) (R : ℕ → OTFRow) (hR : ∀ i, (R i).system = vec n (G i)) :
    ∃ rws : List (List ℝ), ((List.range n).map R).mapM (fun row => allReal row.system) = .ok rws
      ∧ ∀ i < n, ∀ j < n, (rws.getD i []).getD j 0 = G i j :=
  ⟨_, grid_real n G R hR, fun _ hi _ hj => grid_getD n G hi hj⟩

/-- The frequency step of the simulator's grid. -/
theorem simStep {c : ℝ} (hc : 0 < c) :
    (((freqAxis 1501 (XR.fin c)).getD 1 XR.nan - (freqAxis 1501 (XR.fin c)).getD 0 XR.nan).abs
      + (((linspace 1 (-1) 1501).map (· * XR.fin c)).getD 0 XR.nan - ((linspace 1 (-1) 1501).map (· * XR.fin c)).getD 1 XR.nan).abs) / 2
      = .fin (c / 750) := by
  rw [freqAxis_vec, rowAxis_vec]
  unfold vec
  rw [getD_range_map _ (by norm_num), getD_range_map _ (by norm_num), getD_range_map _ (by norm_num),
    getD_range_map _ (by norm_num), XR.fin_sub, XR.fin_sub, XR.fin_abs, XR.fin_abs, XR.fin_add, XR.ofNat_def,
    XR.fin_div _ (by norm_num)]
  congr 1
  have e1 : colFreq 1501 c 1 - colFreq 1501 c 0 = c / 750 := by
    unfold colFreq; push_cast; ring
  have e2 : rowFreq 1501 c 0 - rowFreq 1501 c 1 = c / 750 := by
    unfold rowFreq; push_cast; ring
  rw [e1, e2, abs_of_pos (by positivity)]
  ring

/-- Reading the atmosphere leaves everything but the cache. -/
theorem readAtm_cached {files : Files} {sc : Scenario} {atm : Atm} (h : (sc.readAtm files).1 = .ok atm) :
    (sc.readAtm files).2.1 = { sc with atmCache := some atm } := by
  unfold Scenario.readAtm at h ⊢
  cases hc : sc.atmCache with
  | some a =>
    simp only [hc, Except.ok.injEq] at h ⊢
    rw [← h, ← hc]
  | none =>
    simp only [hc] at h ⊢
    cases hl : dbLoad files ⟨sc.interp, sc.altitude, sc.groundRange, sc.ihaze⟩ with
    | ok a =>
      simp only [hl, Except.ok.injEq] at h ⊢
      rw [h]
    | error e => simp only [hl] at h; cases h

theorem rowAt_system (diag : ℕ → ℕ → Bool) (s : RealSensor) (g : RealScene) (pairs : List (ℝ × ℝ)) (t : ℝ) (n : ℕ) (c : ℝ)
    (i : ℕ) : (rowAt diag s g pairs t n c i).system = vec n fun j =>
      opticsAt s g pairs t (colFreq n c j) (rowFreq n c i) * filterAt diag s (colFreq n c j) (rowFreq n c i) := rfl

/-- The steps of `simulate_image` once each of them is known. -/
theorem simulate_steps {env : Env} {usable : Bool} {rng : Rng} {r : RefImage} {s : Sensor} {sc sc' : Scenario} {atm : Atm}
    {ref pe wl w mwl mw : List XR} {mn df : XR} {slant : XR} {otf : List OTFRow} {ifov : Scal} {g : ℝ} {tr : List ℝ}
    {rows : List (List ℝ)}
    (h1 : (sc.readAtm env.files).1 = .ok atm) (h2 : (sc.readAtm env.files).2.1 = sc')
    (h3 : reflectanceToPhotoelectrons atm s s.intTime = .ok (ref, pe, wl, w)) (h4 : flatSlantRange sc' = slant)
    (h5 : ((wl.zip w).filter (fun p => XR.lt 0 p.2)).map (·.1) = mwl)
    (h6 : ((wl.zip w).filter (fun p => XR.lt 0 p.2)).map (·.2) = mw)
    (h7 : amin mwl = .ok mn) (h8 : gridOTFs env 1501 s sc' (s.D / mn) mwl mw slant s.intTime = .ok otf)
    (h9 : (((freqAxis 1501 (s.D / mn)).getD 1 XR.nan - (freqAxis 1501 (s.D / mn)).getD 0 XR.nan).abs
      + (((linspace 1 (-1) 1501).map (· * (s.D / mn))).getD 0 XR.nan
        - ((linspace 1 (-1) 1501).map (· * (s.D / mn))).getD 1 XR.nan).abs) / 2 = df)
    (h10 : ¬ XR.le df 0) (h11 : Scal.div (.py ((s.pX + s.pY) / 2)) (.py s.f) = .ok ifov)
    (h12 : XR.sqrt (quantizationNoise s.maxN s.bitDepth ^ 2 + s.readNoise ^ 2) = .fin g)
    (h13 : trueImage r ref pe = .ok (tr.map .fin)) (h14 : otf.mapM (fun row => allReal row.system) = .ok rows) :
    simulateImage env usable rng r s sc =
      match applyOtfToImage usable (imgOfPixels r.img.h r.img.w tr) (.py r.gsd) (.np slant) 1501 1501
          (fun i j => (((rows.getD i []).getD j 0 : ℝ) : ℂ)) (.np df) ifov with
      | .error e => .error e
      | .ok (blur, _) =>
        if ∃ i < blur.h, ∃ j < blur.w, blur.px i j < 0 then .error .valueError
        else .ok {
          trueImg := imgOfPixels r.img.h r.img.w tr
          blurImg := blur
          noisyImg := { blur with px := fun i j => (rng.poisson i j (blur.px i j) : ℝ) + g * rng.normal i j }
          scenario := sc' } := by
  subst h2 h5 h6
  unfold simulateImage
  simp only [h1, ok_bind, h3, h4, h7, h8, h9, if_neg h10, h11, h12, h13, allReal_fin, h14]
  cases applyOtfToImage usable (imgOfPixels r.img.h r.img.w tr) (.py r.gsd) (.np slant) 1501 1501
          (fun i j => (((rows.getD i []).getD j 0 : ℝ) : ℂ)) (.np df) ifov with
  | error e => rfl
  | ok p => rfl

end PyBSM
