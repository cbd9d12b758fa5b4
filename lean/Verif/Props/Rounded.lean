import Verif.Spec.Rounded
import Verif.Lemmas.Rounded
import Verif.Props.NiirsDemo

/-!
# C93: floating-point rounding does not spoil the photon counts

The other theorems about the signal chain hold in exact arithmetic. Here the same chain is computed in floating-point
arithmetic: every operation may be off by a relative error `u` (`u = 2^-53` for doubles), and sums are added in any order.
-/

noncomputable section

open Classical

namespace PyBSM

open Spec

/-! ## The steps -/

theorem irradianceExpr_spec {u : ℝ} {D f : ℝ} (hD : 0 < D) (hf : 0 ≤ f) {L : Expr} (hL : L.Pos u) :
    (irradianceExpr D f L).Pos u ∧ (irradianceExpr D f L).weight = L.weight + 8
      ∧ (irradianceExpr D f L).exact = apertureFactor D f * L.exact := by
  have hpi := Real.pi_pos.le
  refine ⟨⟨⟨hL, hpi⟩, ⟨?_, ?_, ⟨?_, ?_, ?_⟩, ⟨?_, ?_, ?_⟩⟩, ?_⟩, ?_, ?_⟩
  · exact zero_le_one
  · exact (by norm_num : (0 : ℝ) ≤ 4)
  · exact hf
  · exact hD.le
  · exact hD
  · exact hf
  · exact hD.le
  · exact hD
  · show (0 : ℝ) < 1 + 4 * (f / D * (f / D))
    positivity
  · simp only [irradianceExpr, Expr.sq, Expr.weight]
    omega
  · simp only [irradianceExpr, Expr.sq, Expr.exact, apertureFactor]
    rw [← pow_two]
    ring

theorem fpaExpr_spec {u : ℝ} {D f : ℝ} (hD : 0 < D) (hf : 0 ≤ f) {L t o : Expr} {j : ℕ} (hL : L.Pos u) (ht : t.Pos u) (ho : o.Pos u)
    (wL : L.weight ≤ j) (wt : t.weight ≤ j) (wo : o.weight ≤ j) :
    (fpaExpr D f L t o).Pos u ∧ (fpaExpr D f L t o).weight ≤ 2 * j + 10
      ∧ (fpaExpr D f L t o).exact = t.exact * (apertureFactor D f * L.exact) + o.exact := by
  obtain ⟨p, w, e⟩ := irradianceExpr_spec hD hf hL
  refine ⟨⟨⟨ht, p⟩, ho⟩, ?_, ?_⟩
  · simp only [fpaExpr, Expr.weight, w]
    omega
  · simp only [fpaExpr, Expr.exact, e]

theorem detectionExpr_spec {u : ℝ} {wx wy lam : ℝ} (hx : 0 ≤ wx) (hy : 0 ≤ wy) (hl : 0 ≤ lam) {q E : Expr} {j k : ℕ} (hq : q.Pos u)
    (hE : E.Pos u) (wq : q.weight ≤ j) (wE : E.weight ≤ k) :
    (detectionExpr wx wy lam q E).Pos u ∧ (detectionExpr wx wy lam q E).weight ≤ j + k + 8
      ∧ (detectionExpr wx wy lam q E).exact = lam / (planckH * lightC) * q.exact * (wx * wy) * E.exact := by
  have hh : (0 : ℝ) < hC := by unfold hC; norm_num
  have hc : (0 : ℝ) < cC := by unfold cC; norm_num
  refine ⟨⟨⟨⟨⟨⟨hl, ⟨hh.le, hc.le⟩, mul_pos hh hc⟩, hq⟩, hx⟩, hy⟩, hE⟩, ?_, ?_⟩
  · simp only [detectionExpr, Expr.weight]
    omega
  · simp only [detectionExpr, Expr.exact]
    rw [hC_eq, cC_eq]
    ring

theorem trapTermExpr_spec {u : ℝ} {x : ℕ → ℝ} {y : ℕ → Expr} {i w : ℕ} (hx : x i ≤ x (i + 1)) (h : (y i).Pos u)
    (h' : (y (i + 1)).Pos u) (hw : (y i).weight ≤ w) (hw' : (y (i + 1)).weight ≤ w) :
    (trapTermExpr x y i).Pos u ∧ (trapTermExpr x y i).weight ≤ w + 4
      ∧ (trapTermExpr x y i).exact = (x (i + 1) - x i) * (((y i).exact + (y (i + 1)).exact) / 2) := by
  refine ⟨⟨⟨sub_nonneg.mpr hx, h', h⟩, ?_, ?_⟩, ?_, ?_⟩
  · exact (by norm_num : (0 : ℝ) ≤ 2)
  · exact (by norm_num : (0 : ℝ) < 2)
  · simp only [trapTermExpr, Expr.weight]
    omega
  · simp only [trapTermExpr, Expr.exact]
    ring

/-- The detection rate is a computation without cancellation of the trapezoid integral. -/
theorem signalRateExpr_spec {u : ℝ} {n j : ℕ} {order : SumTree} (ho : order.leaves.Perm (List.range (n - 1)))
    {D f wx wy dark : ℝ} (hD : 0 < D) (hf : 0 ≤ f) (hx : 0 ≤ wx) (hy : 0 ≤ wy) (hd : 0 ≤ dark) {wl : ℕ → ℝ}
    (hl : ∀ i < n, 0 ≤ wl i) (hinc : ∀ i, i + 1 < n → wl i ≤ wl (i + 1)) {L t q o : ℕ → Expr}
    (pL : ∀ i < n, (L i).Pos u ∧ (L i).weight ≤ j) (pt : ∀ i < n, (t i).Pos u ∧ (t i).weight ≤ j)
    (pq : ∀ i < n, (q i).Pos u ∧ (q i).weight ≤ j) (po : ∀ i < n, (o i).Pos u ∧ (o i).weight ≤ j) :
    (signalRateExpr order D f wx wy dark wl L t q o).Pos u
      ∧ (signalRateExpr order D f wx wy dark wl L t q o).weight ≤ 23 + 3 * j + order.depth
      ∧ (signalRateExpr order D f wx wy dark wl L t q o).exact
          = trap n wl (fun i => spectralRate D f wx wy (wl i) (L i).exact (t i).exact (q i).exact (o i).exact) + dark := by
  have point : ∀ i < n,
      (detectionExpr wx wy (wl i) (q i) (fpaExpr D f (L i) (t i) (o i))).Pos u
        ∧ (detectionExpr wx wy (wl i) (q i) (fpaExpr D f (L i) (t i) (o i))).weight ≤ 3 * j + 18
        ∧ (detectionExpr wx wy (wl i) (q i) (fpaExpr D f (L i) (t i) (o i))).exact
          = spectralRate D f wx wy (wl i) (L i).exact (t i).exact (q i).exact (o i).exact := by
    intro i hi
    obtain ⟨p1, w1, e1⟩ := fpaExpr_spec hD hf (pL i hi).1 (pt i hi).1 (po i hi).1 (pL i hi).2 (pt i hi).2 (po i hi).2
    obtain ⟨p2, w2, e2⟩ := detectionExpr_spec hx hy (hl i hi) (pq i hi).1 p1 (pq i hi).2 w1
    refine ⟨p2, by omega, ?_⟩
    rw [e2, e1, spectralRate]
  have term : ∀ i ∈ order.leaves,
      (trapTermExpr wl (fun i => detectionExpr wx wy (wl i) (q i) (fpaExpr D f (L i) (t i) (o i))) i).Pos u
        ∧ (trapTermExpr wl (fun i => detectionExpr wx wy (wl i) (q i) (fpaExpr D f (L i) (t i) (o i))) i).weight
            ≤ 3 * j + 22 := by
    intro i hi
    have hi' := SumTree.mem_of_perm ho hi
    obtain ⟨p, w, -⟩ := trapTermExpr_spec (y := fun i => detectionExpr wx wy (wl i) (q i) (fpaExpr D f (L i) (t i) (o i)))
      (hinc i (by omega)) (point i (by omega)).1 (point (i + 1) (by omega)).1 (point i (by omega)).2.1
      (point (i + 1) (by omega)).2.1
    exact ⟨p, w⟩
  refine ⟨⟨SumTree.expr_pos _ fun i hi => (term i hi).1, hd⟩, ?_, ?_⟩
  · have := SumTree.expr_weight order fun i hi => (term i hi).2
    simp only [signalRateExpr, Expr.weight]
    omega
  · simp only [signalRateExpr, Expr.exact]
    rw [SumTree.expr_sum ho]
    unfold trap
    congr 1
    apply Finset.sum_congr rfl
    intro i hi
    have hi' := Finset.mem_range.mp hi
    obtain ⟨-, -, e⟩ := trapTermExpr_spec (y := fun i => detectionExpr wx wy (wl i) (q i) (fpaExpr D f (L i) (t i) (o i)))
      (hinc i (by omega)) (point i (by omega)).1 (point (i + 1) (by omega)).1 (point i (by omega)).2.1
      (point (i + 1) (by omega)).2.1
    rw [e, (point i (by omega)).2.2, (point (i + 1) (by omega)).2.2]

theorem lt_one_of_mul {k : ℕ} {u : ℝ} (hk : 1 ≤ k) (h : k * u < 1) (h0 : 0 ≤ u) : u < 1 := by
  have : (1 : ℝ) ≤ k := by exact_mod_cast hk
  nlinarith

/-- **C93** (`signal_rate`). For nonnegative spectra of any length, in any order of summation and with any rounding errors
up to the relative error `u` in every operation, the computed detection rate differs from the rate of exact arithmetic by
at most the fraction `K u / (1 - K u)` of it. `j` is the number of rounding errors already present in each entry of the
input arrays, `K = 23 + 3 j + depth`. -/
theorem C93_signal_rate {u : ℝ} (h0 : 0 ≤ u) {n j : ℕ} {order : SumTree}
    (ho : order.leaves.Perm (List.range (n - 1)))
    {D f wx wy dark : ℝ} (hD : 0 < D) (hf : 0 ≤ f) (hx : 0 ≤ wx) (hy : 0 ≤ wy) (hd : 0 ≤ dark) {wl : ℕ → ℝ}
    (hl : ∀ i < n, 0 ≤ wl i) (hinc : ∀ i, i + 1 < n → wl i ≤ wl (i + 1)) {L t q o : ℕ → ℝ}
    (hL : ∀ i < n, 0 ≤ L i) (ht : ∀ i < n, 0 ≤ t i) (hq : ∀ i < n, 0 ≤ q i) (hoo : ∀ i < n, 0 ≤ o i)
    {K : ℕ} (hK : K = 23 + 3 * j + order.depth) (hKu : K * u < 1) {r : ℝ}
    (hr : (signalRateExpr order D f wx wy dark wl (fun i => .approx (L i) j) (fun i => .approx (t i) j)
      (fun i => .approx (q i) j) (fun i => .approx (o i) j)).Computed u r) :
    ∃ x irr dN, signalRate (vec n wl) (vec n L) (vec n t) (.py (.fin D)) (.py (.fin f)) (.fin wx) (.fin wy) (vec n q)
        (vec n o) (.fin dark) = .ok (.fin x, irr, dN)
      ∧ 0 ≤ x ∧ |r - x| ≤ K * u / (1 - K * u) * x := by
  refine ⟨_, _, _, signalRate_vec rfl rfl hD.ne' n wl L t q o wx wy dark, ?_⟩
  obtain ⟨p, w, e⟩ := signalRateExpr_spec (u := u) (j := j) ho hD hf hx hy hd hl hinc (L := fun i => .approx (L i) j)
    (t := fun i => .approx (t i) j) (q := fun i => .approx (q i) j) (o := fun i => .approx (o i) j)
    (fun i hi => ⟨hL i hi, le_rfl⟩) (fun i hi => ⟨ht i hi, le_rfl⟩) (fun i hi => ⟨hq i hi, le_rfl⟩)
    (fun i hi => ⟨hoo i hi, le_rfl⟩)
  have h1 := lt_one_of_mul (by omega) hKu h0
  have hn := p.nonneg
  have nr := (hr.near h0 h1 p).mono h0 h1 hn (hK ▸ w)
  rw [e] at nr hn
  exact ⟨hn, nr.error h0 h1 hn hKu⟩

/-- **C93** (doubles). With the arrays given as doubles and every operation rounded to the nearest double (no overflow or
underflow), the detection rate of a spectrum of up to 1000 samples, summed in whatever order, is correct to 12 digits. -/
theorem C93_double {fl : ℝ → ℝ} (hfl : RoundsToNearest fl) {n : ℕ} {order : SumTree}
    (ho : order.leaves.Perm (List.range (n - 1))) (hdep : order.depth ≤ 1000)
    {D f wx wy dark : ℝ} (hD : 0 < D) (hf : 0 ≤ f) (hx : 0 ≤ wx) (hy : 0 ≤ wy) (hd : 0 ≤ dark) {wl : ℕ → ℝ}
    (hl : ∀ i < n, 0 ≤ wl i) (hinc : ∀ i, i + 1 < n → wl i ≤ wl (i + 1)) {L t q o : ℕ → ℝ}
    (hL : ∀ i < n, 0 ≤ L i) (ht : ∀ i < n, 0 ≤ t i) (hq : ∀ i < n, 0 ≤ q i) (hoo : ∀ i < n, 0 ≤ o i) :
    ∃ x irr dN, signalRate (vec n wl) (vec n L) (vec n t) (.py (.fin D)) (.py (.fin f)) (.fin wx) (.fin wy) (vec n q)
        (vec n o) (.fin dark) = .ok (.fin x, irr, dN)
      ∧ |(signalRateExpr order D f wx wy dark wl (fun i => .val (L i)) (fun i => .val (t i)) (fun i => .val (q i))
          (fun i => .val (o i))).eval fl - x| ≤ 1.2e-13 * x := by
  refine ⟨_, _, _, signalRate_vec rfl rfl hD.ne' n wl L t q o wx wy dark, ?_⟩
  obtain ⟨p, w, e⟩ := signalRateExpr_spec (u := (2 : ℝ) ^ (-53 : ℤ)) (j := 0) ho hD hf hx hy hd hl hinc (L := fun i => .val (L i))
    (t := fun i => .val (t i)) (q := fun i => .val (q i)) (o := fun i => .val (o i))
    (fun i hi => ⟨hL i hi, le_rfl⟩) (fun i hi => ⟨ht i hi, le_rfl⟩) (fun i hi => ⟨hq i hi, le_rfl⟩)
    (fun i hi => ⟨hoo i hi, le_rfl⟩)
  have h0 : (0 : ℝ) ≤ (2 : ℝ) ^ (-53 : ℤ) := by positivity
  have hu : (2 : ℝ) ^ (-53 : ℤ) = 1 / 9007199254740992 := by norm_num
  have h1 : (2 : ℝ) ^ (-53 : ℤ) < 1 := by rw [hu]; norm_num
  have hn := p.nonneg
  have nr := ((Expr.eval_computed h0 h1 (nearest_rnd hfl) p).near h0 h1 p).mono h0 h1 hn
    (show _ ≤ 1023 by omega)
  rw [e] at nr hn
  refine (nr.error h0 h1 hn (by rw [hu]; norm_num)).trans ?_
  refine mul_le_mul_of_nonneg_right ?_ hn
  rw [hu]
  norm_num

/-! ## The whole of `photon_detector_SNR` -/

/-- The computations `e` give the numbers `v`, without strong cancellation, in up to `j` roundings. -/
def Known (u : ℝ) (j n : ℕ) (e : ℕ → Expr) (v : ℕ → ℝ) : Prop :=
  ∀ i < n, (e i).Pos u ∧ (e i).weight ≤ j ∧ (e i).exact = v i

/-- The spectra of the camera are known. -/
structure KnownSpectra (u : ℝ) (j n : ℕ) (s : RealSensor) (wl : ℕ → ℝ) (S : Spectra) : Prop where
  transmission : Known u j n S.transmission fun i => s.transAt (wl i)
  efficiency : Known u j n S.efficiency fun i => tableAt s.qe (wl i)
  emission : Known u j n S.emission fun i => s.selfAt (wl i)

theorem nominalExpr_spec {u : ℝ} {j : ℕ} {s : RealSensor} {n : ℕ} {wl : ℕ → ℝ} (hs : s.Regular n wl) {S : Spectra}
    (hS : KnownSpectra u j n s wl S) {L : ℕ → Expr} {l : ℕ → ℝ} (hL : Known u j n L l)
    {order : SumTree} (ho : order.leaves.Perm (List.range (n - 1))) :
    (s.nominalExpr order S wl L).Pos u ∧ (s.nominalExpr order S wl L).weight ≤ 25 + 3 * j + order.depth
      ∧ (s.nominalExpr order S wl L).exact = s.rate n wl l * s.intTime * s.nTdi := by
  obtain ⟨p, w, e⟩ := signalRateExpr_spec (u := u) (j := j) ho hs.aperture hs.focal hs.width hs.height hs.dark
    (fun i hi => (hs.positive i hi).le) hs.increasing (L := L) (t := S.transmission) (q := S.efficiency) (o := S.emission)
    (fun i hi => ⟨(hL i hi).1, (hL i hi).2.1⟩) (fun i hi => ⟨(hS.transmission i hi).1, (hS.transmission i hi).2.1⟩)
    (fun i hi => ⟨(hS.efficiency i hi).1, (hS.efficiency i hi).2.1⟩)
    (fun i hi => ⟨(hS.emission i hi).1, (hS.emission i hi).2.1⟩)
  refine ⟨⟨⟨p, hs.time⟩, hs.stages⟩, ?_, ?_⟩
  · simp only [RealSensor.nominalExpr, countExpr, Expr.weight, RealSensor.rateExpr]
    omega
  · simp only [RealSensor.nominalExpr, countExpr, Expr.exact, RealSensor.rateExpr]
    rw [e]
    unfold RealSensor.rate RealSensor.spectral
    congr 3
    apply trap_congr
    intro i hi
    rw [(hL i hi).2.2, (hS.transmission i hi).2.2, (hS.efficiency i hi).2.2, (hS.emission i hi).2.2]

theorem scaleExpr_spec {u : ℝ} {j : ℕ} {s : RealSensor} {n : ℕ} {wl : ℕ → ℝ} (hs : s.Regular n wl) {S : Spectra}
    (hS : KnownSpectra u j n s wl S) {L M : ℕ → Expr} {l m : ℕ → ℝ} (hL : Known u j n L l) (hM : Known u j n M m)
    {order : SumTree} (ho : order.leaves.Perm (List.range (n - 1))) :
    (s.scaleExpr order S wl L M).Pos u ∧ (s.scaleExpr order S wl L M).weight ≤ 27 + 3 * j + order.depth := by
  obtain ⟨p, w, -⟩ := nominalExpr_spec hs hS hL ho
  obtain ⟨p', w', -⟩ := nominalExpr_spec hs hS hM ho
  refine ⟨⟨⟨p, p'⟩, hs.fill, hs.well.le⟩, ?_⟩
  simp only [RealSensor.scaleExpr, scaleExpr, Expr.weight]
  omega

theorem countExpr_spec {u : ℝ} {j : ℕ} {s : RealSensor} {n : ℕ} {wl : ℕ → ℝ} (hs : s.Regular n wl) {S : Spectra}
    (hS : KnownSpectra u j n s wl S) {L M : ℕ → Expr} {l m : ℕ → ℝ} (hL : Known u j n L l) (hM : Known u j n M m)
    {order : SumTree} (ho : order.leaves.Perm (List.range (n - 1))) :
    ((s.targetExpr order S wl L M).Pos u ∧ (s.targetExpr order S wl L M).weight ≤ 53 + 6 * j + 2 * order.depth)
      ∧ (s.backgroundExpr order S wl L M).Pos u
      ∧ (s.backgroundExpr order S wl L M).weight ≤ 53 + 6 * j + 2 * order.depth := by
  obtain ⟨p, w, -⟩ := nominalExpr_spec hs hS hL ho
  obtain ⟨p', w', -⟩ := nominalExpr_spec hs hS hM ho
  obtain ⟨q, v⟩ := scaleExpr_spec hs hS hL hM ho
  refine ⟨⟨⟨q, p⟩, ?_⟩, ⟨q, p'⟩, ?_⟩
  · simp only [RealSensor.targetExpr, Expr.weight]
    omega
  · simp only [RealSensor.backgroundExpr, Expr.weight]
    omega

theorem levels_pos {b : ℝ} (hb : 0 < b) : 0 < (2 : ℝ) ^ b - 1 := by
  have := Real.one_lt_rpow (x := 2) (by norm_num) hb
  linarith

theorem sum_getD (o : List ℝ) : ∑ i ∈ Finset.range o.length, o.getD i 0 ^ 2 = (o.map (· ^ 2)).sum := by
  induction o with
  | nil => simp
  | cons a t ih =>
    rw [List.length_cons, Finset.sum_range_succ', List.map_cons, List.sum_cons, ← ih]
    simp [add_comm]

theorem noiseExpr_spec {u : ℝ} {j : ℕ} {s : RealSensor} {n : ℕ} {wl : ℕ → ℝ} (hs : s.Regular n wl) {S : Spectra}
    (hS : KnownSpectra u j n s wl S) {L M : ℕ → Expr} {l m : ℕ → ℝ} (hL : Known u j n L l) (hM : Known u j n M m)
    {order order' : SumTree} (ho : order.leaves.Perm (List.range (n - 1)))
    (ho' : order'.leaves.Perm (List.range s.otherNoise.length)) :
    (s.noiseExpr order order' S wl L M).Pos u
      ∧ (s.noiseExpr order order' S wl L M).weight ≤ 113 + 12 * j + 4 * order.depth + order'.depth
      ∧ (s.noiseExpr order order' S wl L M).exact
          = Real.sqrt (max (s.targetExpr order S wl L M).exact (s.backgroundExpr order S wl L M).exact
              + (s.maxN / (Real.sqrt 12 * ((2 : ℝ) ^ s.bitDepth - 1))) ^ 2 + s.readNoise ^ 2
              + (s.otherNoise.map (· ^ 2)).sum) := by
  obtain ⟨⟨p, w⟩, p', w'⟩ := countExpr_spec hs hS hL hM ho
  have hlev := levels_pos hs.bits
  have h12 : 0 < Real.sqrt 12 := Real.sqrt_pos.mpr (by norm_num)
  have pq : (quantExpr s.maxN s.bitDepth).Pos u := ⟨hs.well.le, ⟨h12.le, hlev.le⟩, mul_pos h12 hlev⟩
  have wt := SumTree.expr_weight (f := fun i => .lit (s.otherNoise.getD i 0 ^ 2)) (w := 1) order' fun i _ => le_rfl
  refine ⟨⟨⟨⟨⟨⟨p, p'⟩, ⟨p, p'⟩⟩, ⟨pq, pq⟩⟩, sq_nonneg _⟩, SumTree.expr_pos _ fun i _ => sq_nonneg _⟩, ?_, ?_⟩
  · simp only [RealSensor.noiseExpr, noiseExpr, Expr.sq, quantExpr, Expr.weight]
    omega
  · simp only [RealSensor.noiseExpr, noiseExpr, Expr.sq, quantExpr, Expr.exact]
    rw [SumTree.expr_sum ho']
    simp only [Expr.exact]
    rw [sum_getD, Real.mul_self_sqrt (le_max_of_le_left p.nonneg), ← pow_two]

/-- A difference of two computed counts over a computed noise: the error is small compared to the counts. -/
theorem snr_error {u : ℝ} (h0 : 0 ≤ u) (h1 : u < 1) {a b noise : Expr} (pa : a.Pos u) (pb : b.Pos u) (pn : noise.Pos u)
    (hN : 0 < noise.exact) {k l K : ℕ} (ha : a.weight ≤ k) (hb : b.weight ≤ k) (hn : noise.weight ≤ l)
    (hK : k + l + 2 ≤ K) (hKu : K * u < 1) {r : ℝ} (hr : SnrComputed u a b noise r) :
    |r - (a.exact - b.exact) / noise.exact| ≤ K * u / (1 - K * u) * ((a.exact + b.exact) / noise.exact) := by
  obtain ⟨x, y, n, c, hx, hy, hn', hc, hr⟩ := hr
  obtain ⟨d, rfl, hd⟩ := hc.factor h0
  obtain ⟨e, rfl, he⟩ := hr.factor h0
  have one := (Near.refl h0 h1 (1 : ℝ))
  have nd := one.round h0 h1 zero_le_one hd
  have ne := one.round h0 h1 zero_le_one he
  have nde := nd.mul h0 h1 ne zero_le_one zero_le_one
  have nn := (hn'.near h0 h1 pn).mono h0 h1 pn.nonneg hn
  have ns := nde.div h0 h1 nn (by norm_num) hN
  have one' : (0 : ℝ) ≤ 1 * 1 / noise.exact := by positivity
  have part : ∀ {f : Expr} {z : ℝ}, f.Pos u → f.weight ≤ k → f.Computed u z →
      |z * (d * e / n) - f.exact / noise.exact| ≤ K * u / (1 - K * u) * (f.exact / noise.exact) := by
    intro f z pf wf hz
    have nz := (hz.near h0 h1 pf).mono h0 h1 pf.nonneg wf
    have h2 := (nz.mul h0 h1 ns pf.nonneg one').mono h0 h1 (mul_nonneg pf.nonneg one') (show _ ≤ K by omega)
    rw [show f.exact * (1 * 1 / noise.exact) = f.exact / noise.exact by ring] at h2
    exact h2.error h0 h1 (div_nonneg pf.nonneg hN.le) hKu
  have h2 := part pa ha hx
  have h3 := part pb hb hy
  have e1 : (x - y) * d / n * e - (a.exact - b.exact) / noise.exact
      = (x * (d * e / n) - a.exact / noise.exact) - (y * (d * e / n) - b.exact / noise.exact) := by ring
  rw [e1]
  refine (abs_sub _ _).trans ((add_le_add h2 h3).trans (le_of_eq ?_))
  ring

theorem snr_rounded {u : ℝ} (h0 : 0 ≤ u) {j : ℕ} {s : RealSensor} {n : ℕ} {wl : ℕ → ℝ} (hs : s.Regular n wl) {S : Spectra}
    (hS : KnownSpectra u j n s wl S) {L M : ℕ → Expr} {l m : ℕ → ℝ} (hL : Known u j n L l) (hM : Known u j n M m)
    {order order' : SumTree}
    (ho : order.leaves.Perm (List.range (n - 1))) (ho' : order'.leaves.Perm (List.range s.otherNoise.length))
    {K : ℕ} (hK : K = 168 + 18 * j + 6 * order.depth + order'.depth) (hKu : K * u < 1) :
    s.AccurateTo u (K * u / (1 - K * u)) n wl order order' S L M l m := by
  have h1 := lt_one_of_mul (by omega) hKu h0
  obtain ⟨pL, wL, eL⟩ := nominalExpr_spec hs hS hL ho
  obtain ⟨pM, wM, eM⟩ := nominalExpr_spec hs hS hM ho
  obtain ⟨pS, wS⟩ := scaleExpr_spec hs hS hL hM ho
  obtain ⟨⟨pT, wT⟩, pB, wB⟩ := countExpr_spec hs hS hL hM ho
  obtain ⟨pN, wN, eN⟩ := noiseExpr_spec hs hS hL hM ho ho'
  obtain ⟨R, h, hr1, hr2⟩ := C18_rates hs.usable hs.positive l m
  obtain ⟨sc, -, -, -, -, -, hfill, hT, hB, hτ, -, hcon, -, -, -, -, -, hsnr⟩ := snr_inv h
  have i1 : s.toSensor.intTime = .fin s.intTime := rfl
  have i2 : s.toSensor.nTdi = .fin s.nTdi := rfl
  have i3 : s.toSensor.maxWellFill = .fin s.maxWellFill := rfl
  have i4 : s.toSensor.maxN = .fin s.maxN := rfl
  rw [hr1, i1, i2, XR.fin_mul, XR.fin_mul, ← eL] at hT
  rw [hr2, i1, i2, XR.fin_mul, XR.fin_mul, ← eM] at hB
  rw [hr1, hr2, i1, i2, i3, i4, XR.fin_mul, XR.fin_mul, XR.fin_mul, XR.fin_mul, XR.fin_mul, ← eL, ← eM, XR.fin_max] at hfill
  have hsc : sc.val = .fin (s.scaleExpr order S wl L M).exact := by
    unfold checkWellFill at hfill
    simp only [Scal.val, XR.fin_lt] at hfill
    split_ifs at hfill with hc
    · have e : (s.scaleExpr order S wl L M).exact = s.maxWellFill * s.maxN
          / max (s.nominalExpr order S wl L).exact (s.nominalExpr order S wl M).exact := if_pos hc
      have hpos : max (s.nominalExpr order S wl L).exact (s.nominalExpr order S wl M).exact ≠ 0 := by
        have := mul_nonneg hs.fill hs.well.le
        linarith
      obtain ⟨c, hc1, hc2⟩ := Scal.div_fin (a := .py (.fin (s.maxWellFill * s.maxN)))
        (b := .np (.fin (max (s.nominalExpr order S wl L).exact (s.nominalExpr order S wl M).exact))) rfl rfl hpos
      rw [hc1, Except.ok.injEq] at hfill
      rw [← hfill, hc2, e]
    · rw [Except.ok.injEq] at hfill
      have e : (s.scaleExpr order S wl L M).exact = 1 := if_neg hc
      rw [← hfill, e]
      rfl
  rw [hsc, XR.fin_mul] at hT hB
  rw [hsc, i1, XR.fin_mul] at hτ
  have hT' : R.tgtN = .fin (s.targetExpr order S wl L M).exact := hT
  have hB' : R.bkgN = .fin (s.backgroundExpr order S wl L M).exact := hB
  obtain ⟨sn, q, tot, -, -, htot, -, htot0, hsn2, hq, htot2⟩ := C20_noise_budget (o := s.otherNoise) h hT' hB' pT.nonneg i4
    (rfl : s.toSensor.readNoise = .fin s.readNoise) rfl hs.bits
  have hlev := levels_pos hs.bits
  have h12 : 0 < Real.sqrt 12 := Real.sqrt_pos.mpr (by norm_num)
  have heN : tot = (s.noiseExpr order order' S wl L M).exact := by
    rw [eN, ← Real.sqrt_sq htot0, htot2, hsn2, hq]
    rfl
  have hNpos : 0 < (s.noiseExpr order order' S wl L M).exact := by
    rw [eN]
    apply Real.sqrt_pos.mpr
    have hw := hs.well
    have a1 : 0 ≤ max (s.targetExpr order S wl L M).exact (s.backgroundExpr order S wl L M).exact :=
      le_max_of_le_left pT.nonneg
    have a2 : 0 ≤ (s.otherNoise.map (· ^ 2)).sum := by
      apply List.sum_nonneg
      simp only [List.mem_map]
      rintro _ ⟨z, -, rfl⟩
      positivity
    have a3 : 0 < (s.maxN / (Real.sqrt 12 * ((2 : ℝ) ^ s.bitDepth - 1))) ^ 2 := by positivity
    have a4 := sq_nonneg s.readNoise
    linarith
  rw [heN] at htot
  refine ⟨R, _, _, _, _, h, hτ, hT', hB', htot, ?_, pT.nonneg, pB.nonneg, hNpos, ?_, ?_, ?_, ?_, ?_⟩
  · rw [hsnr, hcon, hT', hB', htot, XR.fin_sub, XR.fin_div _ hNpos.ne']
  · intro r hr
    have p : (s.exposureExpr order S wl L M).Pos u := ⟨pS, hs.time⟩
    exact ((hr.near h0 h1 p).mono h0 h1 p.nonneg (show _ ≤ K by simp only [RealSensor.exposureExpr, Expr.weight]; omega)).error h0 h1 p.nonneg hKu
  · intro r hr
    exact ((hr.near h0 h1 pT).mono h0 h1 pT.nonneg (show _ ≤ K by omega)).error h0 h1 pT.nonneg hKu
  · intro r hr
    exact ((hr.near h0 h1 pB).mono h0 h1 pB.nonneg (show _ ≤ K by omega)).error h0 h1 pB.nonneg hKu
  · intro r hr
    exact ((hr.near h0 h1 pN).mono h0 h1 pN.nonneg (show _ ≤ K by omega)).error h0 h1 pN.nonneg hKu
  · intro r hr
    exact snr_error h0 h1 pT pB pN hNpos wT wB wN (by omega) hKu hr


theorem known_approx {u : ℝ} {j n : ℕ} {v : ℕ → ℝ} (h : ∀ i < n, 0 ≤ v i) : Known u j n (fun i => .approx (v i) j) v :=
  fun i hi => ⟨h i hi, le_rfl, rfl⟩

theorem known_given {u : ℝ} {j n : ℕ} {s : RealSensor} {wl : ℕ → ℝ} (hs : s.Regular n wl) :
    KnownSpectra u j n s wl (s.given j wl) :=
  ⟨known_approx hs.transmission, known_approx hs.efficiency, known_approx hs.emission⟩

/-- **C93** (`photon_detector_SNR`). For every regular camera, nonnegative spectra of any length known up to `j` roundings,
any order of summation and any rounding errors up to `u` in every operation: computed exposure, counts and noise have a
relative error of at most `K u / (1 - K u)`, although rounding may decide the comparison with the well capacity the other
way; and the computed signal-to-noise ratio is off by at most this fraction of the signal-to-noise ratio of both counts
together. -/
theorem C93_snr {s : RealSensor} {n : ℕ} {wl : ℕ → ℝ} (hs : s.Regular n wl) {L M : ℕ → ℝ} (hL : ∀ i < n, 0 ≤ L i)
    (hM : ∀ i < n, 0 ≤ M i) {u : ℝ} (h0 : 0 ≤ u) {j : ℕ} {order order' : SumTree}
    (ho : order.leaves.Perm (List.range (n - 1))) (ho' : order'.leaves.Perm (List.range s.otherNoise.length))
    {K : ℕ} (hK : K = 168 + 18 * j + 6 * order.depth + order'.depth) (hKu : K * u < 1) :
    s.AccurateTo u (K * u / (1 - K * u)) n wl order order' (s.given j wl) (fun i => .approx (L i) j)
      (fun i => .approx (M i) j) L M :=
  snr_rounded h0 hs (known_given hs) (known_approx hL) (known_approx hM) ho ho' hK hKu

/-! ## The hypotheses are met -/

/-- Five wavelengths, left to right. -/
example : (SumTree.sequential 4).leaves.Perm (List.range (5 - 1)) ∧ (SumTree.sequential 4).depth = 4 :=
  ⟨by rw [SumTree.sequential_leaves], SumTree.sequential_depth 4⟩

/-- Pairwise summation of four terms. -/
example : (SumTree.node (.node (.leaf 0) (.leaf 1)) (.node (.leaf 2) (.leaf 3))).leaves.Perm (List.range (5 - 1)) := by
  exact List.Perm.refl _

theorem demo_regular : demoSensor.Regular 5 demoWl := by
  have range : ∀ i < 5, 3e-6 ≤ demoWl i ∧ demoWl i ≤ 5e-6 := by
    intro i hi
    have h1 : (i : ℝ) ≤ 4 := by exact_mod_cast Nat.lt_succ_iff.mp hi
    have h2 : (0 : ℝ) ≤ i := Nat.cast_nonneg i
    unfold demoWl
    constructor <;> linarith
  exact
  { usable := demoSensor_usable
    aperture := by norm_num [demoSensor]
    focal := by norm_num [demoSensor]
    width := by norm_num [demoSensor]
    height := by norm_num [demoSensor]
    dark := by norm_num [demoSensor]
    time := by norm_num [demoSensor]
    stages := by norm_num [demoSensor]
    well := by norm_num [demoSensor]
    fill := by norm_num [demoSensor]
    bits := by norm_num [demoSensor]
    positive := fun i _ => demoWl_pos i
    increasing := fun i _ => by unfold demoWl; push_cast; linarith
    transmission := fun i hi => (demo_trans (range i hi).1 (range i hi).2).le
    efficiency := fun i hi => (demo_qe (range i hi).1 (range i hi).2).le
    emission := fun i _ => selfAt_nonneg demoSensor_usable demoSensor_physical (demoWl_pos i) }

/-- The demonstration camera in double precision with spectra known to 100 roundings: the counts of any scene are correct
to 12 digits. -/
example {L M : ℕ → ℝ} (hL : ∀ i < 5, 0 ≤ L i) (hM : ∀ i < 5, 0 ≤ M i) :
    ∃ (m : SNRMetrics) (T : ℝ), photonDetectorSNR demoSensor.toSensor (vec 5 demoWl) (vec 5 L) (vec 5 M) = .ok m
      ∧ m.tgtN = .fin T
      ∧ ∀ r, (demoSensor.targetExpr (SumTree.sequential 4) (demoSensor.given 100 demoWl) demoWl (fun i => .approx (L i) 100)
        (fun i => .approx (M i) 100)).Computed ((2 : ℝ) ^ (-53 : ℤ)) r →
          |r - T| ≤ 1e-12 * T := by
  have hu : (2 : ℝ) ^ (-53 : ℤ) = 1 / 9007199254740992 := by norm_num
  obtain ⟨m, τ, T, B, N, h, -, hT, -, -, -, hT0, -, -, -, ht, -⟩ := C93_snr (u := (2 : ℝ) ^ (-53 : ℤ)) (j := 100)
    (order := SumTree.sequential 4) (order' := SumTree.sequential 2) demo_regular hL hM (by positivity)
    (by rw [SumTree.sequential_leaves]) (by rw [SumTree.sequential_leaves]; rfl) rfl
    (by rw [SumTree.sequential_depth, SumTree.sequential_depth, hu]; norm_num)
  refine ⟨m, T, h, hT, fun r hr => (ht r hr).trans (mul_le_mul_of_nonneg_right ?_ hT0)⟩
  rw [SumTree.sequential_depth, SumTree.sequential_depth, hu]
  norm_num

/-- Some computation exists: rounding to the nearest double. -/
example {L M : ℕ → ℝ} (hL : ∀ i < 5, 0 ≤ L i) (hM : ∀ i < 5, 0 ≤ M i) :
    (demoSensor.targetExpr (SumTree.sequential 4) (demoSensor.given 100 demoWl) demoWl (fun i => .approx (L i) 100)
        (fun i => .approx (M i) 100)).Computed ((2 : ℝ) ^ (-53 : ℤ))
      ((demoSensor.targetExpr (SumTree.sequential 4) (demoSensor.given 100 demoWl) demoWl (fun i => .approx (L i) 100)
        (fun i => .approx (M i) 100)).eval roundDouble) :=
  Expr.eval_computed (by positivity) (by norm_num) (nearest_rnd roundDouble_rounds)
    (countExpr_spec demo_regular (known_given demo_regular) (known_approx hL) (known_approx hM)
      (by rw [SumTree.sequential_leaves])).1.1

end PyBSM
