import Verif.Spec.RoundedNoise
import Verif.Props.DoubleChain
import Verif.Props.NoiseBreakout

/-!
# C123: the noise break-out of a rating in floating-point arithmetic
-/

noncomputable section

open Classical

namespace PyBSM

open Spec

section accuracy

variable {u : ℝ}

/-- The light of the scene, after the light of the camera has been added and subtracted again. -/
theorem netExpr_spec {D f : ℝ} (hD : 0 < D) (hf : 0 ≤ f) {L t o : Expr} {j κ : ℕ} (h0 : 0 ≤ u) (hL : L.Pos u) (ht : t.Pos u) (ho : o.Pos u)
    (wL : L.weight ≤ j) (wt : t.weight ≤ j) (wo : o.weight ≤ j) (hp : 0 < t.exact * (apertureFactor D f * L.exact))
    (hκ : o.exact ≤ κ * (t.exact * (apertureFactor D f * L.exact))) (hu : ((4 * (2 * j + 10) * (1 + 2 * κ) : ℕ) : ℝ) * u ≤ 1) :
    (netExpr D f L t o).Pos u ∧ (netExpr D f L t o).weight ≤ 4 * (2 * j + 10) * (1 + 2 * κ) + 1
      ∧ (netExpr D f L t o).exact = t.exact * (apertureFactor D f * L.exact) := by
  obtain ⟨p, w, e⟩ := fpaExpr_spec hD hf hL ht ho wL wt wo
  generalize t.exact * (apertureFactor D f * L.exact) = a at *
  have hm : ((Max.max (fpaExpr D f L t o).weight o.weight : ℕ) : ℝ) ≤ 2 * j + 10 := by
    exact_mod_cast max_le w (wo.trans (by omega))
  have hq : ((fpaExpr D f L t o).exact + o.exact) / ((fpaExpr D f L t o).exact - o.exact) ≤ 1 + 2 * κ := by
    rw [e, show a + o.exact - o.exact = a by ring, div_le_iff₀ hp]
    linarith
  have hq0 : 0 ≤ ((fpaExpr D f L t o).exact + o.exact) / ((fpaExpr D f L t o).exact - o.exact) := by
    rw [e, show a + o.exact - o.exact = a by ring]
    have := ho.nonneg
    positivity
  have hprod : 4 * ((Max.max (fpaExpr D f L t o).weight o.weight : ℕ) : ℝ)
      * (((fpaExpr D f L t o).exact + o.exact) / ((fpaExpr D f L t o).exact - o.exact))
        ≤ ((4 * (2 * j + 10) * (1 + 2 * κ) : ℕ) : ℝ) := by
    push_cast
    push_cast at hm
    exact mul_le_mul (by linarith) hq hq0 (by positivity)
  refine ⟨⟨p, ho, lt_of_lt_of_eq (lt_add_of_pos_left _ hp) e.symm, (mul_le_mul_of_nonneg_right hprod h0).trans hu⟩, ?_, ?_⟩
  · simp only [netExpr, Expr.weight]
    exact Nat.add_le_add_right (Nat.ceil_le.mpr hprod) 1
  · simp only [netExpr, Expr.exact]
    rw [e]
    ring

theorem scenePhotonExpr_spec {n j κ : ℕ} (h0 : 0 ≤ u) {order : SumTree} (ho : order.leaves.Perm (List.range (n - 1)))
    {D f wx wy k : ℝ} (hD : 0 < D) (hf : 0 ≤ f) (hx : 0 ≤ wx) (hy : 0 ≤ wy) (hk : 0 ≤ k) {wl : ℕ → ℝ}
    (hl : ∀ i < n, 0 ≤ wl i) (hinc : ∀ i, i + 1 < n → wl i ≤ wl (i + 1)) {L t q o : ℕ → Expr} {e : Expr}
    (pL : ∀ i < n, (L i).Pos u ∧ (L i).weight ≤ j) (pt : ∀ i < n, (t i).Pos u ∧ (t i).weight ≤ j)
    (pq : ∀ i < n, (q i).Pos u ∧ (q i).weight ≤ j) (po : ∀ i < n, (o i).Pos u ∧ (o i).weight ≤ j) (pe : e.Pos u)
    (hp : ∀ i < n, 0 < (t i).exact * (apertureFactor D f * (L i).exact))
    (hκ : ∀ i < n, (o i).exact ≤ κ * ((t i).exact * (apertureFactor D f * (L i).exact)))
    (hu : ((4 * (2 * j + 10) * (1 + 2 * κ) : ℕ) : ℝ) * u ≤ 1) :
    (scenePhotonExpr order D f wx wy k wl L t q o e).Pos u
      ∧ (scenePhotonExpr order D f wx wy k wl L t q o e).weight
          ≤ 4 * (2 * j + 10) * (1 + 2 * κ) + j + order.depth + e.weight + 15
      ∧ (scenePhotonExpr order D f wx wy k wl L t q o e).exact
          = trap n wl (fun i => spectralRate D f wx wy (wl i) (L i).exact (t i).exact (q i).exact 0) * e.exact * k := by
  have point : ∀ i < n,
      (detectionExpr wx wy (wl i) (q i) (netExpr D f (L i) (t i) (o i))).Pos u
        ∧ (detectionExpr wx wy (wl i) (q i) (netExpr D f (L i) (t i) (o i))).weight
            ≤ 4 * (2 * j + 10) * (1 + 2 * κ) + j + 9
        ∧ (detectionExpr wx wy (wl i) (q i) (netExpr D f (L i) (t i) (o i))).exact
          = spectralRate D f wx wy (wl i) (L i).exact (t i).exact (q i).exact 0 := by
    intro i hi
    obtain ⟨p1, w1, e1⟩ := netExpr_spec hD hf h0 (pL i hi).1 (pt i hi).1 (po i hi).1 (pL i hi).2 (pt i hi).2 (po i hi).2
      (hp i hi) (hκ i hi) hu
    obtain ⟨p2, w2, e2⟩ := detectionExpr_spec hx hy (hl i hi) (pq i hi).1 p1 (pq i hi).2 w1
    refine ⟨p2, by omega, ?_⟩
    rw [e2, e1, spectralRate, add_zero]
  have term : ∀ i ∈ order.leaves,
      (trapTermExpr wl (fun i => detectionExpr wx wy (wl i) (q i) (netExpr D f (L i) (t i) (o i))) i).Pos u
        ∧ (trapTermExpr wl (fun i => detectionExpr wx wy (wl i) (q i) (netExpr D f (L i) (t i) (o i))) i).weight
            ≤ 4 * (2 * j + 10) * (1 + 2 * κ) + j + 13 := by
    intro i hi
    have hi' := SumTree.mem_of_perm ho hi
    obtain ⟨p, w, -⟩ := trapTermExpr_spec (y := fun i => detectionExpr wx wy (wl i) (q i) (netExpr D f (L i) (t i) (o i)))
      (hinc i (by omega)) (point i (by omega)).1 (point (i + 1) (by omega)).1 (point i (by omega)).2.1
      (point (i + 1) (by omega)).2.1
    exact ⟨p, w⟩
  refine ⟨⟨⟨SumTree.expr_pos _ fun i hi => (term i hi).1, pe⟩, hk⟩, ?_, ?_⟩
  · have := SumTree.expr_weight order fun i hi => (term i hi).2
    simp only [scenePhotonExpr, Expr.weight]
    omega
  · simp only [scenePhotonExpr, Expr.exact]
    rw [SumTree.expr_sum ho]
    unfold trap
    congr 2
    apply Finset.sum_congr rfl
    intro i hi
    have hi' := Finset.mem_range.mp hi
    obtain ⟨-, -, e⟩ := trapTermExpr_spec (y := fun i => detectionExpr wx wy (wl i) (q i) (netExpr D f (L i) (t i) (o i)))
      (hinc i (by omega)) (point i (by omega)).1 (point (i + 1) (by omega)).1 (point i (by omega)).2.1
      (point (i + 1) (by omega)).2.1
    rw [e, (point i (by omega)).2.2, (point (i + 1) (by omega)).2.2]

/-- The square of the scene noise, where the scene stands out against the path. -/
theorem sceneSquareExpr_spec (h0 : 0 ≤ u) {T B P : Expr} {w κ : ℕ} (pT : T.Pos u) (pB : B.Pos u) (pP : P.Pos u) (wT : T.weight ≤ w)
    (wB : B.weight ≤ w) (wP : P.weight ≤ w) (hlt : P.exact < Max.max T.exact B.exact)
    (hκ : Max.max T.exact B.exact + P.exact ≤ κ * (Max.max T.exact B.exact - P.exact))
    (hu : ((4 * (2 * w + 3) * κ : ℕ) : ℝ) * u ≤ 1) :
    (sceneSquareExpr T B P).Pos u ∧ (sceneSquareExpr T B P).weight ≤ 4 * (2 * w + 3) * κ + 1
      ∧ (sceneSquareExpr T B P).exact = Max.max T.exact B.exact - P.exact := by
  have hT := pT.nonneg
  have hP := pP.nonneg
  have e1 : (Expr.sq (Expr.max (Expr.sqrt T) (Expr.sqrt B))).exact = Max.max T.exact B.exact := by
    simp only [Expr.sq, Expr.exact]
    rw [show Max.max (Real.sqrt T.exact) (Real.sqrt B.exact) = Real.sqrt (Max.max T.exact B.exact) from
      (Monotone.map_max (f := Real.sqrt) fun _ _ h => Real.sqrt_le_sqrt h).symm, Real.mul_self_sqrt (le_max_of_le_left hT)]
  have e2 : (Expr.sq (Expr.sqrt P)).exact = P.exact := by
    simp only [Expr.sq, Expr.exact]
    rw [Real.mul_self_sqrt hP]
  have w1 : (Expr.sq (Expr.max (Expr.sqrt T) (Expr.sqrt B))).weight ≤ 2 * w + 3 := by
    simp only [Expr.sq, Expr.weight]
    omega
  have w2 : (Expr.sq (Expr.sqrt P)).weight ≤ 2 * w + 3 := by
    simp only [Expr.sq, Expr.weight]
    omega
  have hm : ((Max.max (Expr.sq (Expr.max (Expr.sqrt T) (Expr.sqrt B))).weight (Expr.sq (Expr.sqrt P)).weight : ℕ) : ℝ) ≤ 2 * w + 3 := by
    exact_mod_cast max_le w1 w2
  have hd : 0 < Max.max T.exact B.exact - P.exact := sub_pos.mpr hlt
  have hq : (Max.max T.exact B.exact + P.exact) / (Max.max T.exact B.exact - P.exact) ≤ κ := by
    rwa [div_le_iff₀ hd]
  have hq0 : 0 ≤ (Max.max T.exact B.exact + P.exact) / (Max.max T.exact B.exact - P.exact) :=
    div_nonneg (add_nonneg (le_max_of_le_left hT) hP) hd.le
  have hprod : 4 * ((Max.max (Expr.sq (Expr.max (Expr.sqrt T) (Expr.sqrt B))).weight (Expr.sq (Expr.sqrt P)).weight : ℕ) : ℝ)
      * ((Max.max T.exact B.exact + P.exact) / (Max.max T.exact B.exact - P.exact)) ≤ ((4 * (2 * w + 3) * κ : ℕ) : ℝ) := by
    push_cast
    push_cast at hm
    exact mul_le_mul (by linarith) hq hq0 (by positivity)
  refine ⟨⟨⟨⟨pT, pB⟩, pT, pB⟩, ⟨pP, pP⟩, by rw [e1, e2]; exact hlt, ?_⟩, ?_, ?_⟩
  · rw [e1, e2]
    exact (mul_le_mul_of_nonneg_right hprod h0).trans hu
  · rw [← e1, ← e2] at hprod
    exact Nat.add_le_add_right (Nat.ceil_le.mpr hprod) 1
  · show (Expr.sq (Expr.max (Expr.sqrt T) (Expr.sqrt B))).exact - (Expr.sq (Expr.sqrt P)).exact = _
    rw [e1, e2]

end accuracy

theorem exposureUsed_spec {u : ℝ} {j : ℕ} {s : RealSensor} {B : List (Fin 6 → ℝ)} (hs : s.Regular B.length fun i => B.getD i 0 0)
    (hS : KnownSpectra u j B.length s (fun i => B.getD i 0 0) (s.computed fun i => B.getD i 0 0))
    (hL : Known u j B.length (fun i => s.targetRadianceExpr (B.getD i 0)) fun i => s.targetAt (B.getD i 0))
    (hM : Known u j B.length (fun i => s.backgroundRadianceExpr (B.getD i 0)) fun i => s.backgroundAt (B.getD i 0))
    {order : SumTree} (ho : order.leaves.Perm (List.range (B.length - 1))) :
    (s.exposureUsedExpr order B).Pos u ∧ (s.exposureUsedExpr order B).weight ≤ 28 + 3 * j + order.depth
      ∧ (s.exposureUsedExpr order B).exact = s.exposure B := by
  obtain ⟨p, w, e⟩ := nominalExpr_spec hs hS hL ho
  obtain ⟨p', w', e'⟩ := nominalExpr_spec hs hS hM ho
  obtain ⟨q, v⟩ := scaleExpr_spec hs hS hL hM ho
  refine ⟨⟨q, hs.time⟩, ?_, ?_⟩
  · simp only [RealSensor.exposureUsedExpr, RealSensor.exposureExpr, Expr.weight]
    omega
  · simp only [RealSensor.exposureUsedExpr, RealSensor.exposureExpr, RealSensor.scaleExpr, PyBSM.scaleExpr, Expr.exact, e, e']
    unfold RealSensor.exposure RealSensor.cut RealSensor.brightest RealSensor.electrons
    by_cases hc : max (s.rate B.length (fun i => B.getD i 0 0) (fun i => s.targetAt (B.getD i 0)) * s.intTime * s.nTdi)
        (s.rate B.length (fun i => B.getD i 0 0) (fun i => s.backgroundAt (B.getD i 0)) * s.intTime * s.nTdi)
          ≤ s.maxWellFill * s.maxN
    · rw [if_neg (not_lt.mpr hc), if_pos hc]
    · rw [if_pos (not_le.mp hc), if_neg hc]

/-- The two expressions of the break-out. -/
theorem breakout_exprs {u : ℝ} (h0 : 0 ≤ u) {s : RealSensor} {B : List (Fin 6 → ℝ)} (hB : ∀ a ∈ B, 0 < a 0) {k c : ℕ}
    (hs : s.WellConditioned k c B.length fun i => B.getD i 0 0) (hA : ∀ a ∈ B, ∀ j, 0 ≤ a j)
    (hk : ∀ a ∈ B, PlanckWithin k (a 0) 282 ∧ PlanckWithin k (a 0) 280) {order : SumTree}
    (ho : order.leaves.Perm (List.range (B.length - 1))) {κ κ' : ℕ} (hlit : Outshines s B κ κ')
    {K : ℕ} (hK : K = (15080 + 160 * k + 320 * c + 16 * order.depth) * (1 + κ) * κ') (hKu : K * u < 1) :
    (s.sceneSquareExpr order B).Pos u ∧ (s.pathPhotonsExpr order B).Pos u
      ∧ (Expr.sqrt (s.sceneSquareExpr order B)).weight ≤ K ∧ (Expr.sqrt (s.pathPhotonsExpr order B)).weight ≤ K
      ∧ (s.sceneSquareExpr order B).exact = max (s.photons B s.targetAt) (s.photons B s.backgroundAt) - s.photons B pathAt
      ∧ (s.pathPhotonsExpr order B).exact = s.photons B pathAt := by
  have hout := hlit.path
  have hκ' := hlit.margin
  have mem : ∀ i < B.length, B.getD i 0 ∈ B := fun i hi => getD_mem hi
  set j := k + 2 * c + 88 with hj
  set T := max (s.photons B s.targetAt) (s.photons B s.backgroundAt) with hT
  have hκ1 : 1 ≤ κ' := by
    rcases Nat.eq_zero_or_pos κ' with h | h
    · rw [h] at hκ'
      have hP : 0 ≤ s.photons B pathAt := by
        have he : 0 ≤ s.exposure B := mul_nonneg (cut_nonneg hs.regular.well hs.regular.fill) hs.regular.time
        have hn := hs.regular.stages
        have ht : 0 ≤ trap B.length (fun i => B.getD i 0 0) fun i => spectralRate s.D s.f s.wX s.wY (B.getD i 0 0)
            (pathAt (B.getD i 0)) (s.transAt (B.getD i 0 0)) (tableAt s.qe (B.getD i 0 0)) 0 := by
          apply trap_nonneg hs.regular.increasing
          intro i hi
          have h0 := hs.regular.positive i hi
          have h1 := hs.regular.transmission i hi
          have h2 := hs.regular.efficiency i hi
          have h3 := hs.regular.width
          have h4 := hs.regular.height
          have h5 := hA _ (mem i hi) 2
          have h6 := hA _ (mem i hi) 4
          have := planckH_pos
          have := lightC_pos
          have : 0 ≤ apertureFactor s.D s.f := by unfold apertureFactor; positivity
          unfold spectralRate pathAt
          positivity
        unfold RealSensor.photons
        positivity
      norm_num at hκ'
      linarith
    · exact h
  have le : ∀ {m : ℕ}, m ≤ K → (m : ℝ) * u ≤ 1 := fun hm =>
    (mul_le_mul_of_nonneg_right (by exact_mod_cast hm) h0).trans hKu.le
  have hbig : 15080 + 160 * k + 320 * c + 16 * order.depth ≤ (15080 + 160 * k + 320 * c + 16 * order.depth) * (1 + κ) :=
    Nat.le_mul_of_pos_right _ (by omega)
  have hbig' : (15080 + 160 * k + 320 * c + 16 * order.depth) * (1 + κ) ≤ K := by
    rw [hK]; exact Nat.le_mul_of_pos_right _ hκ1
  have h1 := lt_one_of_mul (by omega) hKu h0
  obtain ⟨hS, hL, hM⟩ := imaging_known h0 hB hs hA hk (K := K) (by omega) hKu
  obtain ⟨pe, we, ee⟩ := exposureUsed_spec hs.regular hS hL hM ho
  have hnet : 4 * (2 * j + 10) * (1 + 2 * κ) ≤ (16 * j + 80) * (1 + κ) := by nlinarith
  have hnetu : ((4 * (2 * j + 10) * (1 + 2 * κ) : ℕ) : ℝ) * u ≤ 1 := le (by nlinarith)
  have hl : ∀ i < B.length, 0 ≤ B.getD i 0 0 := fun i hi => (hs.regular.positive i hi).le
  have photon : ∀ (N : (Fin 6 → ℝ) → Expr) (n : (Fin 6 → ℝ) → ℝ), Known u j B.length (fun i => N (B.getD i 0)) (fun i => n (B.getD i 0)) →
      (∀ a ∈ B, 0 < s.transAt (a 0) * (apertureFactor s.D s.f * n a)
        ∧ s.selfAt (a 0) ≤ κ * (s.transAt (a 0) * (apertureFactor s.D s.f * n a))) →
      (s.photonsExpr order B N).Pos u ∧ (s.photonsExpr order B N).weight ≤ (20 * j + 2 * order.depth + 123) * (1 + κ)
        ∧ (s.photonsExpr order B N).exact = s.photons B n := by
    intro N n hN hn
    obtain ⟨p, w, e⟩ := scenePhotonExpr_spec (j := j) (κ := κ) h0 ho hs.regular.aperture hs.regular.focal hs.regular.width
      hs.regular.height hs.regular.stages hl hs.regular.increasing (L := fun i => N (B.getD i 0))
      (fun i hi => ⟨(hN i hi).1, (hN i hi).2.1⟩) (fun i hi => ⟨(hS.transmission i hi).1, (hS.transmission i hi).2.1⟩)
      (fun i hi => ⟨(hS.efficiency i hi).1, (hS.efficiency i hi).2.1⟩)
      (fun i hi => ⟨(hS.emission i hi).1, (hS.emission i hi).2.1⟩) pe
      (fun i hi => by
        rw [(hN i hi).2.2, (hS.transmission i hi).2.2]
        exact (hn _ (mem i hi)).1)
      (fun i hi => by
        rw [(hN i hi).2.2, (hS.transmission i hi).2.2, (hS.emission i hi).2.2]
        exact (hn _ (mem i hi)).2) hnetu
    refine ⟨p, w.trans ?_, ?_⟩
    · nlinarith
    · rw [RealSensor.photonsExpr, e, ee]
      unfold RealSensor.photons
      congr 2
      apply trap_congr
      intro i hi
      rw [(hN i hi).2.2, (hS.transmission i hi).2.2, (hS.efficiency i hi).2.2]
  obtain ⟨pT, wT, eT⟩ := photon s.targetRadianceExpr s.targetAt hL hlit.target
  obtain ⟨pB, wB, eB⟩ := photon s.backgroundRadianceExpr s.backgroundAt hM hlit.background
  obtain ⟨pR, wR, eR⟩ := signalRateExpr_spec (u := u) (j := j) ho hs.regular.aperture hs.regular.focal hs.regular.width hs.regular.height
    (le_refl (0 : ℝ)) hl hs.regular.increasing (L := fun i => pathRadianceExpr (B.getD i 0)) (o := fun _ => .val 0)
    (fun i hi => ⟨⟨hA _ (mem i hi) 2, hA _ (mem i hi) 4⟩, by simp only [pathRadianceExpr, Expr.weight]; omega⟩)
    (fun i hi => ⟨(hS.transmission i hi).1, (hS.transmission i hi).2.1⟩)
    (fun i hi => ⟨(hS.efficiency i hi).1, (hS.efficiency i hi).2.1⟩) (fun i hi => ⟨le_refl (0 : ℝ), Nat.zero_le _⟩)
  have pP : (s.pathPhotonsExpr order B).Pos u := ⟨⟨pR, pe⟩, hs.regular.stages⟩
  have wP : (s.pathPhotonsExpr order B).weight ≤ 6 * j + 2 * order.depth + 53 := by
    simp only [RealSensor.pathPhotonsExpr, pathPhotonExpr, Expr.weight]
    omega
  have eP : (s.pathPhotonsExpr order B).exact = s.photons B pathAt := by
    simp only [RealSensor.pathPhotonsExpr, pathPhotonExpr, Expr.exact]
    rw [eR, ee, add_zero]
    unfold RealSensor.photons
    congr 2
    apply trap_congr
    intro i hi
    rw [(hS.transmission i hi).2.2, (hS.efficiency i hi).2.2]
    rfl
  obtain ⟨pX, wX, eX⟩ := sceneSquareExpr_spec (w := (20 * j + 2 * order.depth + 123) * (1 + κ)) (κ := κ') h0 pT pB pP wT wB
    (wP.trans (by nlinarith)) (by rw [eT, eB, eP]; exact hout) (by rw [eT, eB, eP]; exact hκ')
    (le (by rw [hK]; nlinarith))
  rw [eT, eB, eP] at eX
  have wX' : (Expr.sqrt (s.sceneSquareExpr order B)).weight ≤ K := by
    have : (s.sceneSquareExpr order B).weight + 1 ≤ K := by
      refine (Nat.add_le_add_right wX 1).trans ?_
      rw [hK]
      nlinarith
    exact this
  exact ⟨pX, pP, wX', (show (s.pathPhotonsExpr order B).weight + 1 ≤ K by omega), eX, eP⟩

/-- **C123.** A scene that outshines the air: however every operation rounds (with relative errors at most `u`), and in whatever
order the integrals are added, the number whose root is the scene noise is positive, and the scene noise and the path noise are the
roots of the photoelectrons of the scene alone and of the path, up to a fraction that is explicit. -/
theorem C123_rounded {u : ℝ} (h0 : 0 ≤ u) {s : RealSensor} {B : List (Fin 6 → ℝ)} (hB : ∀ a ∈ B, 0 < a 0) {k c : ℕ}
    (hs : s.WellConditioned k c B.length fun i => B.getD i 0 0) (hA : ∀ a ∈ B, ∀ j, 0 ≤ a j)
    (hk : ∀ a ∈ B, PlanckWithin k (a 0) 282 ∧ PlanckWithin k (a 0) 280) {order : SumTree}
    (ho : order.leaves.Perm (List.range (B.length - 1))) {κ κ' : ℕ} (hlit : Outshines s B κ κ')
    {K : ℕ} (hK : K = (15080 + 160 * k + 320 * c + 16 * order.depth) * (1 + κ) * κ') (hKu : K * u < 1) :
    (∀ x, (s.sceneSquareExpr order B).Computed u x → 0 < x)
      ∧ (∀ r, (Expr.sqrt (s.sceneSquareExpr order B)).Computed u r →
          |r - Real.sqrt (max (s.photons B s.targetAt) (s.photons B s.backgroundAt) - s.photons B pathAt)|
            ≤ K * u / (1 - K * u)
              * Real.sqrt (max (s.photons B s.targetAt) (s.photons B s.backgroundAt) - s.photons B pathAt))
      ∧ ∀ r, (Expr.sqrt (s.pathPhotonsExpr order B)).Computed u r →
          |r - Real.sqrt (s.photons B pathAt)| ≤ K * u / (1 - K * u) * Real.sqrt (s.photons B pathAt) := by
  obtain ⟨pX, pP, wX, wP, eX, eP⟩ := breakout_exprs h0 hB hs hA hk ho hlit hK hKu
  have pos := sub_pos.mpr hlit.path
  have h1 : u < 1 := by
    refine lt_one_of_mul (Nat.one_le_iff_ne_zero.mpr ?_) hKu h0
    rintro rfl
    exact absurd wX (by simp [Expr.weight])
  refine ⟨fun x hx => ?_, fun r hr => ?_, fun r hr => ?_⟩
  · have := (hx.near h0 h1 pX).1
    rw [eX] at this
    exact lt_of_lt_of_le (mul_pos pos (pow_bounds h0 h1 _).1) this
  · have nr := (hr.near h0 h1 (show (Expr.sqrt (s.sceneSquareExpr order B)).Pos u from pX)).mono h0 h1 (Real.sqrt_nonneg _) wX
    have e : (Expr.sqrt (s.sceneSquareExpr order B)).exact = _ := congrArg Real.sqrt eX
    rw [e] at nr
    exact nr.error h0 h1 (Real.sqrt_nonneg _) hKu
  · have nr := (hr.near h0 h1 (show (Expr.sqrt (s.pathPhotonsExpr order B)).Pos u from pP)).mono h0 h1 (Real.sqrt_nonneg _) wP
    have e : (Expr.sqrt (s.pathPhotonsExpr order B)).exact = _ := congrArg Real.sqrt eP
    rw [e] at nr
    exact nr.error h0 h1 (Real.sqrt_nonneg _) hKu

/-- The same for the two numbers of a report in double precision. -/
theorem breakout_double {fl : ℝ → ℝ} (hfl : RoundsToNearest fl) {s : RealSensor} {B : List (Fin 6 → ℝ)} (hB : ∀ a ∈ B, 0 < a 0)
    {k c : ℕ} (hs : s.WellConditioned k c B.length fun i => B.getD i 0 0) (hA : ∀ a ∈ B, ∀ j, 0 ≤ a j)
    (hk : ∀ a ∈ B, PlanckWithin k (a 0) 282 ∧ PlanckWithin k (a 0) 280) {order : SumTree}
    (ho : order.leaves.Perm (List.range (B.length - 1))) {κ κ' : ℕ} (hlit : Outshines s B κ κ')
    {K : ℕ} (hK : K = (15080 + 160 * k + 320 * c + 16 * order.depth) * (1 + κ) * κ') {u : ℝ} (hu : u = (2 : ℝ) ^ (-53 : ℤ))
    (hKu : K * u < 1) {p q : ℝ} (hp0 : 0 ≤ p) (hq0 : 0 ≤ q) (hp : p ^ 2 = s.photons B pathAt)
    (hq : p ^ 2 + q ^ 2 = max (s.photons B s.targetAt) (s.photons B s.backgroundAt)) :
    ∃ p' q', s.pathNoiseD fl order B = .fin p' ∧ s.sceneNoiseD fl order B = .fin q' ∧ 0 < q'
      ∧ |p' - p| ≤ K * u / (1 - K * u) * p ∧ |q' - q| ≤ K * u / (1 - K * u) * q := by
  have h0 : 0 ≤ u := by rw [hu]; positivity
  have h1 : u < 1 := by rw [hu]; norm_num
  have hr : ∀ x, Rnd u x (fl x) := hu ▸ nearest_rnd hfl
  obtain ⟨pX, pP, -⟩ := breakout_exprs h0 hB hs hA hk ho hlit hK hKu
  obtain ⟨a1, a2, a3⟩ := C123_rounded h0 hB hs hA hk ho hlit hK hKu
  have c1 := Expr.eval_computed h0 h1 hr pX
  have c2 := Expr.eval_computed h0 h1 hr pP
  have x0 := a1 _ c1
  have y0 := (c2.near h0 h1 pP).nonneg h0 h1 pP.nonneg
  have b2 := a2 _ (.sqrt c1 (hr _))
  have b3 := a3 _ (.sqrt c2 (hr _))
  have e1 : Real.sqrt (s.photons B pathAt) = p := by rw [← hp, Real.sqrt_sq hp0]
  have e2 : Real.sqrt (max (s.photons B s.targetAt) (s.photons B s.backgroundAt) - s.photons B pathAt) = q := by
    rw [← hq, ← hp, add_sub_cancel_left, Real.sqrt_sq hq0]
  rw [e1] at b3
  rw [e2] at b2
  refine ⟨_, _, ?_, ?_, ?_, b3, b2⟩
  · rw [RealSensor.pathNoiseD, XR.sqrt, if_neg (not_lt.mpr y0)]
  · rw [RealSensor.sceneNoiseD, XR.sqrt, if_neg (not_lt.mpr x0.le)]
  · refine lt_of_le_of_ne ?_ fun h => (Real.sqrt_pos.mpr x0).ne' (hfl.eq_zero h.symm)
    have := hfl.mono (Real.sqrt_nonneg ((s.sceneSquareExpr order B).eval fl))
    rwa [hfl.zero] at this

/-- **C123.** The noise break-out of `niirs` in double precision. -/
theorem C123_niirs {fl : ℝ → ℝ} (hfl : RoundsToNearest fl) {env : Env} {s : RealSensor} {g : RealScene} {sc : Scenario} {interp : Bool}
    {B : List (Fin 6 → ℝ)} (h : Imaging env s g sc interp B) (hf : s.filterKernel.flatten.sum = 1) (hc : Counting s B) {k c : ℕ}
    (hs : s.WellConditioned k c B.length fun i => B.getD i 0 0) (hA : ∀ a ∈ B, ∀ j, 0 ≤ a j)
    (hk : ∀ a ∈ B, PlanckWithin k (a 0) 282 ∧ PlanckWithin k (a 0) 280) {order : SumTree}
    (ho : order.leaves.Perm (List.range (B.length - 1))) {κ κ' : ℕ} (hlit : Outshines s B κ κ')
    {K : ℕ} (hK : K = (15080 + 160 * k + 320 * c + 16 * order.depth) * (1 + κ) * κ') {u : ℝ} (hu : u = (2 : ℝ) ^ (-53 : ℤ))
    (hKu : K * u < 1) :
    ∃ (m : Metrics) (p q p' q' : ℝ), (niirs env s.toSensor sc interp).1 = .ok m ∧ m.pathNoise = .fin p ∧ m.sceneNoise = .fin q
      ∧ s.pathNoiseD fl order B = .fin p' ∧ s.sceneNoiseD fl order B = .fin q' ∧ 0 < q'
      ∧ |p' - p| ≤ K * u / (1 - K * u) * p ∧ |q' - q| ≤ K * u / (1 - K * u) * q := by
  obtain ⟨m, p, q, d, e, t, h1, h2, h3, -, -, -, hp0, hq0, -, -, -, hp, hq, -⟩ := C72_niirs h hf hc
  obtain ⟨p', q', hh⟩ := breakout_double hfl h.wavelengths hs hA hk ho hlit hK hu hKu hp0 hq0 hp hq
  exact ⟨m, p, q, p', q', h1, h2, h3, hh⟩

/-- **C123.** The noise break-out of `niirs5` in double precision. -/
theorem C123_niirs5 {fl : ℝ → ℝ} (hfl : RoundsToNearest fl) {env : Env} {s : RealSensor} {g : RealScene} {sc : Scenario}
    {interp : Bool} {B : List (Fin 6 → ℝ)} (h : Imaging env s g sc interp B) (hc : Counting s B) {k c : ℕ}
    (hs : s.WellConditioned k c B.length fun i => B.getD i 0 0) (hA : ∀ a ∈ B, ∀ j, 0 ≤ a j)
    (hk : ∀ a ∈ B, PlanckWithin k (a 0) 282 ∧ PlanckWithin k (a 0) 280) {order : SumTree}
    (ho : order.leaves.Perm (List.range (B.length - 1))) {κ κ' : ℕ} (hlit : Outshines s B κ κ')
    {K : ℕ} (hK : K = (15080 + 160 * k + 320 * c + 16 * order.depth) * (1 + κ) * κ') {u : ℝ} (hu : u = (2 : ℝ) ^ (-53 : ℤ))
    (hKu : K * u < 1) :
    ∃ (m : Metrics) (p q p' q' : ℝ), (niirs5 env s.toSensor sc interp).1 = .ok m ∧ m.pathNoise = .fin p ∧ m.sceneNoise = .fin q
      ∧ s.pathNoiseD fl order B = .fin p' ∧ s.sceneNoiseD fl order B = .fin q' ∧ 0 < q'
      ∧ |p' - p| ≤ K * u / (1 - K * u) * p ∧ |q' - q| ≤ K * u / (1 - K * u) * q := by
  obtain ⟨m, p, q, d, e, t, h1, h2, h3, -, -, -, hp0, hq0, -, -, -, hp, hq, -⟩ := C72_niirs5 h hc
  obtain ⟨p', q', hh⟩ := breakout_double hfl h.wavelengths hs hA hk ho hlit hK hu hKu hp0 hq0 hp hq
  exact ⟨m, p, q, p', q', h1, h2, h3, hh⟩

end PyBSM
