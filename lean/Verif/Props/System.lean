import Verif.Spec.System
import Verif.Spec.Turbulence
import Verif.Props.Filter
import Verif.Props.Aperture
import Verif.Props.Spectral
import Verif.Props.SNR

/-!
# C43: the system OTF
-/

noncomputable section

open Classical

namespace PyBSM

open Spec

/-! ## Lengths -/

theorem bc2_length {f : XR → XR → XR} {xs ys zs : List XR} (h : bc2 f xs ys = .ok zs) {m : ℕ} (hm : m ≠ 1)
    (hy : ys.length = m) : zs.length = m := by
  unfold bc2 at h
  split at h
  · rename_i he
    rw [Except.ok.injEq] at h
    rw [← h, List.length_zipWith, he, hy, min_self]
  · split at h
    · rw [Except.ok.injEq] at h
      rw [← h, List.length_map, hy]
    · simp only [List.length_singleton] at hy
      exact absurd hy.symm hm
    · cases h

theorem foldlM_inv {α β : Type} {f : β → α → Except PyErr β} {P : β → Prop}
    (hf : ∀ b a c, P b → f b a = .ok c → P c) : ∀ (l : List α) (b c : β), P b → l.foldlM f b = .ok c → P c
  | [], b, c, hb, h => by
    rw [List.foldlM_nil] at h
    have : b = c := by simpa [pure, Except.pure] using h
    rwa [← this]
  | a :: l, b, c, hb, h => by
    rw [List.foldlM_cons] at h
    obtain ⟨b', h1, h2⟩ := bind_ok.mp h
    exact foldlM_inv hf l b' c (hf b a b' hb h1) h2

theorem weighted_length {wl ws : List XR} {g : XR → Except PyErr (List XR)} {m : ℕ} (hm : m ≠ 1)
    (hg : ∀ l r, g l = .ok r → r.length = m) {r : List XR} (h : weightedByWavelength wl ws g = .ok r) :
    r.length = m := by
  unfold weightedByWavelength at h
  simp only at h
  split at h
  · obtain ⟨f0, h0, h⟩ := bind_ok.mp h
    refine foldlM_inv (P := fun l : List XR => l.length = m) ?_ _ _ _ ?_ h
    · intro b a c hb hc
      split at hc
      · cases hc
      · obtain ⟨fl, h1, hc⟩ := bind_ok.mp hc
        obtain ⟨t, h2, hc⟩ := bind_ok.mp hc
        exact bc2_length hc hm (bc2_length h2 hm (hg _ _ h1))
    · rw [List.length_map]
      exact hg _ _ h0
  · cases h

theorem zipWith_getD {a b : List XR} {m : ℕ} (ha : a.length = m) (hb : b.length = m) (f : XR → XR → XR) :
    List.zipWith f a b = (List.range m).map fun (j : ℕ) => f (a.getD j .nan) (b.getD j .nan) := by
  apply List.ext_getElem
  · simp [ha, hb]
  · intro i h1 h2
    have hi : i < m := by simpa using h2
    rw [List.getElem_zipWith, List.getElem_map, List.getElem_range,
      List.getD_eq_getElem _ _ (ha ▸ hi), List.getD_eq_getElem _ _ (hb ▸ hi)]

theorem getD_range_map {m : ℕ} (f : ℕ → XR) {j : ℕ} (hj : j < m) :
    ((List.range m).map f).getD j .nan = f j := by
  rw [List.getD_eq_getElem _ _ (by simpa using hj), List.getElem_map, List.getElem_range]

/-! ## C43 -/

/-- **C43** (product): whenever `common_OTFs` succeeds on two frequency arrays of the same length (for
any sensor, scenario, band and weights, including non-finite values), all seven components and the system OTF
have that length and every sample of the system OTF is the product of the samples of the components. -/
theorem C43_product {diag : ℕ → ℕ → Bool} {s : Sensor} {sc : Scenario} {us vs wl ws : List XR} {sr : Scal} {t : XR}
    {o : OTFRow} (hlen : vs.length = us.length) (hm : us.length ≠ 1)
    (h : commonOTFs diag s sc us vs wl ws sr t = .ok o) :
    o.ap.length = us.length ∧ o.turb.length = us.length ∧ o.det.length = us.length
    ∧ o.jit.length = us.length ∧ o.drft.length = us.length ∧ o.wav.length = us.length
    ∧ o.filter.length = us.length
    ∧ o.system = (List.range us.length).map fun (j : ℕ) =>
        o.ap.getD j .nan * o.turb.getD j .nan * o.det.getD j .nan * o.jit.getD j .nan
          * o.drft.getD j .nan * o.wav.getD j .nan * o.filter.getD j .nan := by
  obtain ⟨ap, tr, det, jit, drft, wav, filt, p1, p2, p3, p4, p5, h1, h2, h3, h4, h5, h6, h7, h8, h9, h10, h11,
    h12, h13, ho⟩ := commonOTFs_ok h
  have l1 : ap.length = us.length := by
    refine weighted_length hm (fun l r hr => ?_) h1
    unfold circularApertureOTF at hr
    obtain ⟨q, -, hr⟩ := bind_ok.mp hr
    exact bc2_length hr hm hlen
  have l2 : tr.1.length = us.length := by
    unfold commonTurbulence at h2
    split at h2
    · unfold polychromaticTurbulenceOTF at h2
      obtain ⟨⟨z, hh⟩, -, h2⟩ := bind_ok.mp h2
      dsimp only at h2
      obtain ⟨r0, -, h2⟩ := bind_ok.mp h2
      obtain ⟨rb, -, h2⟩ := bind_ok.mp h2
      obtain ⟨tt, h3, h2⟩ := bind_ok.mp h2
      rw [Except.ok.injEq] at h2
      rw [← h2]
      refine weighted_length hm (fun l r hr => ?_) h3
      unfold windSpeedTurbulenceOTF at hr
      obtain ⟨q, -, hr⟩ := bind_ok.mp hr
      exact bc2_length hr hm hlen
    · rw [Except.ok.injEq] at h2
      rw [← h2]; simp
  have l3 := bc2_length h3 hm hlen
  have l4 := bc2_length h4 hm hlen
  have l5 := bc2_length h5 hm hlen
  have l6 : wav.length = us.length := weighted_length hm (fun l r hr => bc2_length hr hm hlen) h6
  have l7 : filt.length = us.length := by
    unfold commonFilter at h7
    split at h7
    · obtain ⟨q, -, h7⟩ := bind_ok.mp h7
      unfold filterOTF at h7
      obtain ⟨q, -, h7⟩ := bind_ok.mp h7
      exact bc2_length h7 hm hlen
    · rw [Except.ok.injEq] at h7
      rw [← h7]; simp
  have m1 := bc2_length h8 hm l2
  have m2 := bc2_length h9 hm l3
  have m3 := bc2_length h10 hm l4
  have m4 := bc2_length h11 hm l5
  have m5 := bc2_length h12 hm l6
  rw [bc2_eq (l1.trans l2.symm), Except.ok.injEq, zipWith_getD l1 l2] at h8
  rw [bc2_eq (m1.trans l3.symm), Except.ok.injEq, zipWith_getD m1 l3] at h9
  rw [bc2_eq (m2.trans l4.symm), Except.ok.injEq, zipWith_getD m2 l4] at h10
  rw [bc2_eq (m3.trans l5.symm), Except.ok.injEq, zipWith_getD m3 l5] at h11
  rw [bc2_eq (m4.trans l6.symm), Except.ok.injEq, zipWith_getD m4 l6] at h12
  rw [bc2_eq (m5.trans l7.symm), Except.ok.injEq, zipWith_getD m5 l7] at h13
  rw [ho]
  refine ⟨l1, l2, l3, l4, l5, l6, l7, ?_⟩
  dsimp only
  rw [← h13]
  apply List.map_congr_left
  intro j hj
  have hj : j < us.length := List.mem_range.mp hj
  rw [← h12, getD_range_map _ hj, ← h11, getD_range_map _ hj, ← h10, getD_range_map _ hj, ← h9,
    getD_range_map _ hj, ← h8, getD_range_map _ hj]

/-- **C43** (no sharpening): a kernel with at most one row gives the filter OTF 1 everywhere. -/
theorem C43_no_kernel {diag : ℕ → ℕ → Bool} {s : Sensor} {sc : Scenario} {us vs wl ws : List XR} {sr : Scal} {t : XR}
    {o : OTFRow} (h : commonOTFs diag s sc us vs wl ws sr t = .ok o) (hk : s.filterKernel.length ≤ 1) :
    o.filter = List.replicate us.length 1 := by
  obtain ⟨ap, tr, det, jit, drft, wav, filt, p1, p2, p3, p4, p5, h1, h2, h3, h4, h5, h6, h7, h8, h9, h10, h11,
    h12, h13, ho⟩ := commonOTFs_ok h
  unfold commonFilter at h7
  rw [if_neg (by omega), Except.ok.injEq] at h7
  rw [ho, ← h7]
  simp only [List.map_const']

/-- The turbulence part, for finite attributes. -/
theorem commonTurbulence_value {s : RealSensor} (hs : s.Optical) {g : RealScene} (hg : g.Viewing) {sc : Scenario}
    (hsc : g.Sky sc) {sr : Scal} (hsr : sr.val = .fin g.slant) {pairs : List (ℝ × ℝ)} (hb : Band pairs) (t : ℝ) (m : ℕ) (U V : ℕ → ℝ) :
    commonTurbulence s.toSensor sc (vec m U) (vec m V) (pairs.map fun p => .fin p.1)
          (pairs.map fun p => .fin p.2) sr (.fin t)
        = .ok (vec m fun j => turbulenceAt s g pairs t (U j) (V j),
            if 0 < g.cn2 then
              [.fin (wmean pairs (fried g.altitude g.groundRange g.windSpeed g.cn2))]
            else vec m fun _ => 1e6) := by
  have hne : pairs ≠ [] := by
    rintro rfl
    exact absurd hb.total (by simp)
  unfold commonTurbulence turbulenceAt
  by_cases hc : 0 < g.cn2
  · rw [if_pos (by rw [hsc.cn2]; exact hc), hsc.altitude, hsc.windSpeed, hsc.cn2, hsc.aircraftSpeed]
    obtain ⟨-, h2⟩ := poly_value (wind := g.windSpeed) (t := t * s.nTdi) (w := g.aircraftSpeed) hg.above
      hg.away (sS := .py (.fin g.altitude)) (sB := sr) rfl
      (hsr.trans (C10_distance 0 g.altitude g.groundRange).symm) hs.aperture hc.le hne hb.distinct hb.total.ne' hb.positive m U V
    simp only [if_pos hc]
    exact h2
  · rw [if_neg (by rw [hsc.cn2]; exact hc)]
    simp only [if_neg hc]
    rw [Except.ok.injEq, Prod.mk.injEq]
    refine ⟨vec_map (g := fun _ => 1) (fun _ => rfl) m U, vec_map (g := fun _ => 1e6) (fun _ => ?_) m U⟩
    have : (1e6 : XR) = .fin 1e6 := rfl
    rw [this, XR.one_def, XR.fin_mul, mul_one]

/-- The sharpening factor at one frequency: 1 for a kernel of at most one row. -/
def filterAt (diag : ℕ → ℕ → Bool) (s : RealSensor) (u v : ℝ) : ℝ :=
  if 1 < s.filterKernel.length then filterElt diag s.filterKernel (0.5 / (s.pX / s.f)) u v else 1

theorem commonFilter_value (diag : ℕ → ℕ → Bool) {s : RealSensor} (hs : s.Optical) (m : ℕ) (U V : ℕ → ℝ)
    (hp : 1 < s.filterKernel.length → s.pX ≠ 0) :
    commonFilter diag s.toSensor (vec m U) (vec m V) = .ok (vec m fun j => filterAt diag s (U j) (V j)) := by
  unfold commonFilter filterAt
  have ek : s.toSensor.filterKernel = s.filterKernel := rfl
  rw [ek]
  by_cases hk : 1 < s.filterKernel.length
  · simp only [if_pos hk]
    obtain ⟨q, e1, e2⟩ := Scal.div_fin (a := .py (.fin s.pX)) (b := .py (.fin s.f)) (x := s.pX) (y := s.f)
      rfl rfl hs.focal
    show (Scal.div (.py (.fin s.pX)) (.py (.fin s.f)) >>= _) = _
    rw [e1, ok_bind, filterOTF_vec diag _ e2 (div_ne_zero (hp hk) hs.focal)]
  · simp only [if_neg hk]
    rw [Except.ok.injEq]
    exact vec_map (g := fun _ => 1) (fun _ => rfl) m U

/-- The seven components and the system OTF for finite attributes, in closed form. -/
theorem commonOTFs_value (diag : ℕ → ℕ → Bool) {s : RealSensor} (hs : s.Optical) {g : RealScene} (hg : g.Viewing)
    {sc : Scenario} (hsc : g.Sky sc) {sr : Scal} (hsr : sr.val = .fin g.slant) {pairs : List (ℝ × ℝ)} (hb : Band pairs) (t : ℝ) (m : ℕ) (U V : ℕ → ℝ)
    (hp : 1 < s.filterKernel.length → s.pX ≠ 0) :
    commonOTFs diag s.toSensor sc (vec m U) (vec m V) (pairs.map fun p => .fin p.1)
        (pairs.map fun p => .fin p.2) sr (.fin t)
      = .ok { ap := vec m fun j => apertureAt s pairs (U j) (V j)
              turb := vec m fun j => turbulenceAt s g pairs t (U j) (V j)
              r0Band := if 0 < g.cn2 then
                  [.fin (wmean pairs (fried g.altitude g.groundRange g.windSpeed g.cn2))]
                else vec m fun _ => 1e6
              det := vec m fun j => detectorAt s (U j) (V j)
              jit := vec m fun j => jitterAt s (U j) (V j)
              drft := vec m fun j => driftAt s t (U j) (V j)
              wav := vec m fun j => wavefrontAt s pairs (U j) (V j)
              filter := vec m fun j => filterAt diag s (U j) (V j)
              system := vec m fun j => opticsAt s g pairs t (U j) (V j) * filterAt diag s (U j) (V j) } := by
  have hne : pairs ≠ [] := by
    rintro rfl
    exact absurd hb.total (by simp)
  have hT := commonTurbulence_value hs hg hsc hsr hb t m U V
  have hF := commonFilter_value diag hs m U V hp
  unfold commonOTFs
  have e1 : weightedByWavelength (pairs.map fun p => .fin p.1) (pairs.map fun p => .fin p.2)
      (fun w => circularApertureOTF (vec m U) (vec m V) (.np w) (.py s.toSensor.D) s.toSensor.eta)
      = .ok (vec m fun j => apertureAt s pairs (U j) (V j)) := by
    refine weighted_vec (G := fun l j => diffractionMTF l s.D s.eta (U j) (V j)) hne hb.distinct hb.total.ne' ?_
    intro p hp
    exact circular_vec (hb.positive p hp)
      (fun a b => aperture_diffraction (hb.positive p hp) hs.aperture hs.obscuration hs.open_ a b) rfl rfl m U V
  have e6 : weightedByWavelength (pairs.map fun p => .fin p.1) (pairs.map fun p => .fin p.2)
      (fun w => bc2 (fun u v => wavefrontOTF u v w (s.toSensor.pv * (s.toSensor.pvWavelength / w) ^ 2)
        s.toSensor.lX s.toSensor.lY) (vec m U) (vec m V))
      = .ok (vec m fun j => wavefrontAt s pairs (U j) (V j)) := by
    refine weighted_vec (G := fun l j => Real.exp (-(s.pv * (s.pvWavelength / l) ^ 2
      * (1 - Real.exp (-(l ^ 2 * ((U j / s.lX) ^ 2 + (V j / s.lY) ^ 2))))))) hne hb.distinct hb.total.ne' ?_
    intro p hp
    apply bc2_vec (g := fun a b => Real.exp (-(s.pv * (s.pvWavelength / p.1) ^ 2
      * (1 - Real.exp (-(p.1 ^ 2 * ((a / s.lX) ^ 2 + (b / s.lY) ^ 2)))))))
    intro a b
    show wavefrontOTF (.fin a) (.fin b) (.fin p.1) (XR.fin s.pv * (XR.fin s.pvWavelength / XR.fin p.1) ^ 2)
      (.fin s.lX) (.fin s.lY) = _
    rw [XR.fin_div _ (hb.positive p hp).ne', XR.fin_pow, XR.fin_mul, wavefrontOTF_fin _ _ _ _ hs.corrX hs.corrY]
  have e3 : bc2 (fun u v => detectorOTF u v s.toSensor.wX s.toSensor.wY s.toSensor.f) (vec m U) (vec m V)
      = .ok (vec m fun j => detectorAt s (U j) (V j)) :=
    bc2_vec (g := detectorAt s) (fun a b => detectorOTF_fin _ _ _ _ hs.focal) m U V
  have e4 : bc2 (fun u v => jitterOTF u v s.toSensor.sX s.toSensor.sY) (vec m U) (vec m V)
      = .ok (vec m fun j => jitterAt s (U j) (V j)) :=
    bc2_vec (g := jitterAt s) (fun a b => jitterOTF_fin _ _ _ _) m U V
  have e5 : bc2 (fun u v => driftOTF u v (s.toSensor.daX * .fin t * s.toSensor.nTdi)
      (s.toSensor.daY * .fin t * s.toSensor.nTdi)) (vec m U) (vec m V)
      = .ok (vec m fun j => driftAt s t (U j) (V j)) := by
    refine bc2_vec (g := driftAt s t) (fun a b => ?_) m U V
    show driftOTF (.fin a) (.fin b) (XR.fin s.daX * .fin t * XR.fin s.nTdi)
      (XR.fin s.daY * .fin t * XR.fin s.nTdi) = _
    rw [XR.fin_mul, XR.fin_mul, XR.fin_mul, XR.fin_mul, driftOTF_fin]
    rfl
  rw [e1, ok_bind, hT, ok_bind, e3, ok_bind, e4, ok_bind, e5, ok_bind, e6, ok_bind, hF, ok_bind]
  simp only [bc2_vec_mul, ok_bind]
  rfl

theorem Spec.RealScene.Of.sky {g : RealScene} {sc : Scenario} (h : g.Of sc) : g.Sky sc :=
  ⟨h.altitude, h.aircraftSpeed, h.windSpeed, h.cn2⟩

theorem Spec.RealScene.Of.slant_eq {g : RealScene} {sc : Scenario} (h : g.Of sc) :
    curvedEarthSlantRange (.fin 0) sc.altitude sc.groundRange = .fin g.slant := by
  rw [h.altitude, h.groundRange]
  exact C10_distance 0 g.altitude g.groundRange

/-- **C43** (zero frequency, and success): for every finite sensor with an open aperture, every scene
viewed from a distance and every band of distinct positive wavelengths, `common_OTFs` succeeds; every sample of
every component and of the system OTF is finite; at zero frequency all components are 1, except that a
sharpening kernel contributes its own value there, which then is the value of the system OTF. -/
theorem C43_unity_at_zero (diag : ℕ → ℕ → Bool) {s : RealSensor} (hs : s.Optical) {g : RealScene}
    (hg : g.Viewing) {sc : Scenario} (hsc : g.Of sc) {sr : Scal}
    (hsr : sr.val = curvedEarthSlantRange (.fin 0) sc.altitude sc.groundRange) {pairs : List (ℝ × ℝ)} (hb : Band pairs) (t : ℝ) (m : ℕ)
    (U V : ℕ → ℝ) (hp : 1 < s.filterKernel.length → s.pX ≠ 0) :
    ∃ (A T D J Q W F S : ℕ → ℝ) (o : OTFRow),
      commonOTFs diag s.toSensor sc (vec m U) (vec m V) (pairs.map fun p => .fin p.1)
          (pairs.map fun p => .fin p.2) sr (.fin t) = .ok o
      ∧ o.ap = vec m A ∧ o.turb = vec m T ∧ o.det = vec m D ∧ o.jit = vec m J ∧ o.drft = vec m Q
      ∧ o.wav = vec m W ∧ o.filter = vec m F ∧ o.system = vec m S
      ∧ ∀ j < m, U j = 0 → V j = 0 →
          A j = 1 ∧ T j = 1 ∧ D j = 1 ∧ J j = 1 ∧ Q j = 1 ∧ W j = 1 ∧ S j = F j
          ∧ (s.filterKernel.length ≤ 1 → F j = 1) := by
  rw [hsc.slant_eq] at hsr
  have h := commonOTFs_value diag hs hg hsc.sky hsr hb t m U V hp
  have hT : ∀ j, U j = 0 → V j = 0 → turbulenceAt s g pairs t (U j) (V j) = 1 := by
    intro j hu hv
    unfold turbulenceAt
    split
    · apply wmean_const hb.total.ne'
      intro p _
      rw [hu, hv, turbMix_dc]
    · rfl
  have hF : s.filterKernel.length ≤ 1 → ∀ j, filterAt diag s (U j) (V j) = 1 :=
    fun h j => if_neg (by omega)
  refine ⟨_, _, _, _, _, _, _, _, _, h, rfl, rfl, rfl, rfl, rfl, rfl, rfl, rfl, ?_⟩
  intro j _ hu hv
  have hA : apertureAt s pairs (U j) (V j) = 1 := by
    unfold apertureAt
    apply wmean_const hb.total.ne'
    intro p _
    rw [hu, hv, mtf_dc hs.aperture hs.obscuration hs.open_]
  have hD : detectorAt s (U j) (V j) = 1 := by simp [detectorAt, hu, hv]
  have hJ : jitterAt s (U j) (V j) = 1 := by simp [jitterAt, hu, hv]
  have hQ : driftAt s t (U j) (V j) = 1 := by simp [driftAt, hu, hv]
  have hW : wavefrontAt s pairs (U j) (V j) = 1 := by
    unfold wavefrontAt
    apply wmean_const hb.total.ne'
    intro p _
    simp [hu, hv]
  refine ⟨hA, hT j hu hv, hD, hJ, hQ, hW, ?_, fun h => hF h j⟩
  unfold opticsAt
  rw [hA, hT j hu hv, hD, hJ, hQ, hW]
  ring

/-- A scene viewed from 9 km height at 60 km ground distance. -/
def demoScene : RealScene := ⟨9000, 60000, 100, 21, 1.7e-14⟩

theorem demoScene_viewing : demoScene.Viewing := ⟨demo_geometry.1, demo_geometry.2⟩

/-- The scenario object of that scene. -/
def demoScenario : Scenario :=
  Scenario.new "demo" 1 (.fin 9000) (.fin 60000) (aircraftSpeed := .fin 100) (haWindSpeed := .fin 21)
    (cn2At1m := .fin 1.7e-14)

theorem demoScene_of : demoScene.Of demoScenario := ⟨rfl, rfl, rfl, rfl, rfl⟩

theorem demoBand : Band [(3e-6, 1), (4e-6, 3)] where
  distinct := by norm_num
  positive := by
    intro p hp
    simp only [List.mem_cons, List.not_mem_nil, or_false] at hp
    rcases hp with rfl | rfl <;> norm_num
  weights := by
    intro p hp
    simp only [List.mem_cons, List.not_mem_nil, or_false] at hp
    rcases hp with rfl | rfl <;> norm_num
  total := by norm_num

theorem demoSensor_optical : demoSensor.Optical := by
  constructor <;> norm_num [demoSensor]

example : ∃ o : OTFRow,
    commonOTFs (fun _ _ => true) demoSensor.toSensor demoScenario (vec 3 fun i => 100 * (i - 1)) (vec 3 fun _ => 0)
        ([(3e-6, 1), (4e-6, 3)].map fun p : ℝ × ℝ => .fin p.1)
        ([(3e-6, 1), (4e-6, 3)].map fun p : ℝ × ℝ => .fin p.2)
        (.np (curvedEarthSlantRange (.fin 0) demoScenario.altitude demoScenario.groundRange)) (.fin 0.01) = .ok o
    ∧ o.turb.length = 3 ∧ o.system.getD 1 .nan = .fin 1 := by
  obtain ⟨A, T, D, J, Q, W, F, S, o, h, -, h2, -, -, -, -, -, h8, h9⟩ :=
    C43_unity_at_zero (fun _ _ => true) demoSensor_optical demoScene_viewing demoScene_of (sr := .np _) rfl
      demoBand 0.01 3
      (fun i => 100 * (i - 1)) (fun _ => 0) (fun h => by norm_num [demoSensor] at h)
  refine ⟨o, h, by rw [h2, vec_length], ?_⟩
  have h9 := h9 1 (by norm_num) (by norm_num) rfl
  rw [h8]
  show (vec 3 S).getD 1 .nan = _
  unfold vec
  rw [getD_range_map _ (by norm_num), h9.2.2.2.2.2.2.1, h9.2.2.2.2.2.2.2 (by norm_num [demoSensor])]

end PyBSM
