import Verif.Lemmas.Coherence
import Verif.Props.Geometry
import Verif.Props.Turbulence
import Verif.Spec.Turbulence

/-!
# C38, C40, C41: averaging over the band and the coherence diameter
-/

noncomputable section

open Classical

namespace PyBSM

open Spec

/-! ## C40 -/

/-- **C40** (weighted mean): for distinct wavelengths, weights that do not sum to zero and a
per-wavelength function with values in arrays of one common length. -/
theorem C40_weighted_mean {g : XR → Except PyErr (List XR)} {m : ℕ} {G : ℝ → ℕ → ℝ}
    {pairs : List (ℝ × ℝ)} (hne : pairs ≠ []) (hn : (pairs.map (·.1)).Nodup)
    (hS : (pairs.map (·.2)).sum ≠ 0) (hG : ∀ p ∈ pairs, g (.fin p.1) = .ok (vec m (G p.1))) :
    weightedByWavelength (pairs.map fun p => .fin p.1) (pairs.map fun p => .fin p.2) g
      = .ok (vec m fun j => wmean pairs fun l => G l j) :=
  weighted_vec hne hn hS hG

/-- **C40** (scaling the weights and permuting the pairs changes nothing). -/
theorem C40_scale_perm {g : XR → Except PyErr (List XR)} {m : ℕ} {G : ℝ → ℕ → ℝ}
    {pairs : List (ℝ × ℝ)} (hne : pairs ≠ []) (hn : (pairs.map (·.1)).Nodup)
    (hS : (pairs.map (·.2)).sum ≠ 0) (hG : ∀ p ∈ pairs, g (.fin p.1) = .ok (vec m (G p.1))) :
    (∀ c : ℝ, c ≠ 0 →
      weightedByWavelength (pairs.map fun p => .fin p.1) (pairs.map fun p => .fin (c * p.2)) g
        = weightedByWavelength (pairs.map fun p => .fin p.1) (pairs.map fun p => .fin p.2) g)
    ∧ ∀ pairs' : List (ℝ × ℝ), pairs.Perm pairs' →
      weightedByWavelength (pairs'.map fun p => .fin p.1) (pairs'.map fun p => .fin p.2) g
        = weightedByWavelength (pairs.map fun p => .fin p.1) (pairs.map fun p => .fin p.2) g := by
  constructor
  · intro c hc
    have h1 := weighted_vec (g := g) (m := m) (G := G) (pairs := pairs.map fun p => (p.1, c * p.2))
      (by simpa using hne) (by rw [List.map_map]; exact hn)
      (by
        rw [List.map_map]
        show (pairs.map fun p => c * p.2).sum ≠ 0
        rw [List.sum_map_mul_left]
        exact mul_ne_zero hc hS)
      (by
        intro p hp
        obtain ⟨q, hq, rfl⟩ := List.mem_map.mp hp
        exact hG q hq)
    rw [List.map_map, List.map_map] at h1
    rw [weighted_vec hne hn hS hG]
    refine (show _ = _ from h1).trans ?_
    congr 2
    funext j
    exact wmean_scale hc _
  · intro pairs' hp
    rw [weighted_vec hne hn hS hG, weighted_vec (m := m) (G := G) (pairs := pairs')
      (fun e => hne (by rw [e] at hp; exact hp.eq_nil)) ((hp.map _).nodup_iff.mp hn)
      (by rw [← (hp.map (fun p : ℝ × ℝ => p.2)).sum_eq]; exact hS)
      (fun p hp' => hG p (hp.mem_iff.mpr hp'))]
    congr 2
    funext j
    exact (wmean_perm hp _).symm

/-- **C40** (between the smallest and largest monochromatic value; the common value if all agree). -/
theorem C40_between {g : XR → Except PyErr (List XR)} {m : ℕ} {G : ℝ → ℕ → ℝ}
    {pairs : List (ℝ × ℝ)} (hn : (pairs.map (·.1)).Nodup) (hw : ∀ p ∈ pairs, 0 ≤ p.2)
    (hS : 0 < (pairs.map (·.2)).sum) (hG : ∀ p ∈ pairs, g (.fin p.1) = .ok (vec m (G p.1))) :
    ∃ H : ℕ → ℝ,
      weightedByWavelength (pairs.map fun p => .fin p.1) (pairs.map fun p => .fin p.2) g = .ok (vec m H)
      ∧ ∀ j < m, ∀ lo hi : ℝ, (∀ p ∈ pairs, lo ≤ G p.1 j ∧ G p.1 j ≤ hi) → lo ≤ H j ∧ H j ≤ hi := by
  have hne : pairs ≠ [] := by rintro rfl; simp at hS
  refine ⟨_, weighted_vec hne hn hS.ne' hG, ?_⟩
  intro j _ lo hi h
  exact ⟨le_wmean hw hS fun p hp => (h p hp).1, wmean_le hw hS fun p hp => (h p hp).2⟩

/-- **C40** (errors): empty input of either kind; or two or more wavelengths with a different number
of weights. -/
theorem C40_index_error (wl ws : List XR) (g : XR → Except PyErr (List XR)) :
    ((wl = [] ∨ ws = []) → weightedByWavelength wl ws g = .error .indexError)
    ∧ ∀ l0 l1 ls v, wl = l0 :: l1 :: ls → g l0 = .ok v → wl.length ≠ ws.length →
        weightedByWavelength wl ws g = .error .indexError := by
  constructor
  · rintro (rfl | rfl)
    · unfold weightedByWavelength
      dsimp only
      split
      · rename_i h; simp at h
      · rfl
    · rfl
  · rintro l0 l1 ls v rfl hg hlen
    unfold weightedByWavelength
    dsimp only
    generalize hw : List.map (fun x => x / asum ws) ws = w
    have hlen' : (l0 :: l1 :: ls).length ≠ w.length := by rw [← hw, List.length_map]; exact hlen
    cases w with
    | nil => rfl
    | cons w0 w =>
      dsimp only
      rw [hg, ok_bind, List.foldlM_cons, if_pos hlen']
      rfl

/-- **C40** (finding): with a single wavelength surplus weights are not rejected although the
documentation promises `IndexError`; they silently dilute the result. -/
theorem C40_surplus_weights {g : XR → Except PyErr (List XR)} {l w0 w1 : ℝ} {m : ℕ} {G : ℕ → ℝ}
    (hg : g (.fin l) = .ok (vec m G)) (hS : w0 + w1 ≠ 0) :
    weightedByWavelength [.fin l] [.fin w0, .fin w1] g = .ok (vec m fun j => w0 / (w0 + w1) * G j) := by
  have hs : asum [XR.fin w0, XR.fin w1] = .fin (w0 + w1) := by
    have := asum_fin [w0, w1]
    simpa using this
  unfold weightedByWavelength
  simp only [List.map_cons, List.map_nil, hs, XR.fin_div _ hS]
  rw [hg, ok_bind, List.foldlM_nil]
  show Except.ok _ = _
  rw [vec_map (g := fun y => w0 / (w0 + w1) * y) (fun y => XR.fin_mul _ _) m G]

theorem bc2_two_mismatch (x y : XR) {m : ℕ} (h1 : m ≠ 1) (h2 : m ≠ 2) (a : ℕ → ℝ)
    (f : XR → XR → XR) : bc2 f [x, y] (vec m a) = .error .valueError := by
  apply bc2_mismatch
  · rw [vec_length]; simpa using fun h => h2 h.symm
  · simp
  · rw [vec_length]; exact h1

/-- **C40** (finding): a wavelength that occurs twice makes the boolean mask select two weights, which
cannot be multiplied with a frequency grid of `m` columns. -/
theorem C40_duplicate_wavelength {g : XR → Except PyErr (List XR)} {a b w0 w1 w2 : ℝ} {m : ℕ}
    {G : ℝ → ℕ → ℝ} (hab : a ≠ b) (hG : ∀ l, g (.fin l) = .ok (vec m (G l))) (h1 : m ≠ 1) (h2 : m ≠ 2) :
    weightedByWavelength [.fin a, .fin b, .fin b] [.fin w0, .fin w1, .fin w2] g
      = .error .valueError := by
  unfold weightedByWavelength
  simp only [List.map_cons, List.map_nil]
  rw [hG, ok_bind, List.foldlM_cons]
  simp only [List.length_cons, List.length_nil, ne_eq, not_true_eq_false, if_false, hG, ok_bind,
    List.zip_cons_cons, List.zip_nil_right, List.filter_cons, XR.fin_eq, hab, decide_true, decide_false,
    List.filter_nil, if_true, List.map_cons, List.map_nil, Bool.false_eq_true]
  rw [bc2_two_mismatch _ _ h1 h2]
  rfl

/-- **C40** (all weights zero): every entry is NaN, as the documentation warns. -/
theorem C40_zero_weights {g : XR → Except PyErr (List XR)} {l : ℝ} {m : ℕ} {G : ℕ → ℝ}
    (hg : g (.fin l) = .ok (vec m G)) :
    weightedByWavelength [.fin l] [.fin 0] g = .ok (List.replicate m .nan) := by
  have hs : asum [XR.fin 0] = .fin 0 := by
    have := asum_fin [0]
    simpa using this
  unfold weightedByWavelength
  simp only [List.map_cons, List.map_nil, hs]
  rw [hg, ok_bind, List.foldlM_nil]
  show Except.ok _ = _
  have : XR.fin 0 / XR.fin 0 = .nan := by
    rw [XR.fin_div_zero]; unfold XR.mulInf; simp
  rw [this]
  congr 1
  apply List.ext_getElem
  · simp [vec_length]
  · intro i h1 h2
    simp [XR.nan_mul]

example : ∃ H : ℕ → ℝ, weightedByWavelength ([(0.4e-6, 1), (0.6e-6, 3)].map fun p : ℝ × ℝ => .fin p.1)
      ([(0.4e-6, 1), (0.6e-6, 3)].map fun p : ℝ × ℝ => .fin p.2)
      (fun l => .ok [l, 2 * l]) = .ok (vec 2 H) := by
  obtain ⟨H, h, _⟩ := C40_between (g := fun l => .ok [l, 2 * l]) (m := 2)
    (G := fun l j => if j = 0 then l else 2 * l)
    (pairs := [(0.4e-6, 1), (0.6e-6, 3)]) (by norm_num) (by
      intro p hp
      simp only [List.mem_cons, List.not_mem_nil, or_false] at hp
      rcases hp with rfl | rfl <;> norm_num) (by norm_num) (by
      intro p _
      rw [vec, show List.range 2 = [0, 1] from rfl]
      simp only [List.map_cons, List.map_nil]
      xr_simp
      norm_num)
  exact ⟨H, h⟩

/-! ## C41 -/

/-- **C41** (value): on a path of increasing positions starting at or after the target, the diameter
is Fried's `(0.423 k^2 * integral)^(-3/5)` of the trapezoid integral of `cn2 * (z/z_max)^(5/3)`. -/
theorem C41_value {s : Scal} {lam : ℝ} (hs : s.val = .fin lam) (hl : lam ≠ 0) {n : ℕ} (hn : 1 ≤ n)
    {z c : ℕ → ℝ} (hz : ∀ i, i + 1 < n → z i < z (i + 1)) (h0 : 0 ≤ z 0) (hpos : 0 < z (n - 1))
    (hint : 0 < trap n z fun i => c i * (z i / z (n - 1)) ^ ((5 : ℝ) / 3)) :
    coherenceDiameter s (vec n z) (vec n c)
      = .ok (.fin ((0.423 * (2 * Real.pi / lam) ^ 2
          * trap n z fun i => c i * (z i / z (n - 1)) ^ ((5 : ℝ) / 3)) ^ (-(3 : ℝ) / 5))) := by
  have hk : 0 < (2 * Real.pi / lam) ^ 2 := by
    have := Real.pi_pos.ne'
    positivity
  rw [coherence_vec hs hl hn hz h0 hpos, XR.fin_rpow _ (by positivity)]
  congr 3
  ring

/-- **C41** (wavelength): the diameter scales as `wavelength^(6/5)`, for every path and profile of any
length, including those on which the function raises or is infinite. -/
theorem C41_wavelength {s s' : Scal} {lam c : ℝ} (hs : s.val = .fin lam) (hs' : s'.val = .fin (c * lam))
    (hl : 0 < lam) (hc : 0 < c) (z cn2 : List XR) :
    coherenceDiameter s' z cn2
      = (coherenceDiameter s z cn2).map fun r => .fin (c ^ ((6 : ℝ) / 5)) * r :=
  coherence_scale hs hs' hl hc z cn2

theorem fried_pos {n : ℕ} (hn : 2 ≤ n) {z c : ℕ → ℝ} (hz : ∀ i, i + 1 < n → z i < z (i + 1))
    (h0 : 0 ≤ z 0) (hc : ∀ i < n, 0 ≤ c i) {k : ℕ} (hk : k < n) (hzk : 0 < z k) (hck : 0 < c k) :
    0 < trap n z fun i => c i * (z i / z (n - 1)) ^ ((5 : ℝ) / 3) := by
  have hM : 0 < z (n - 1) := hzk.trans_le (strictMono_le hz k (n - 1) (by omega) (by omega))
  have e : trap n z (fun _ => (0 : ℝ)) = 0 := by simp [trap]
  rw [← e]
  refine trap_strictMono hn hz ?_ hk ?_
  · intro i hi
    have : 0 ≤ z i := h0.trans (strictMono_le hz 0 i (by omega) hi)
    have := hc i hi
    positivity
  · positivity

/-- **C41** (more turbulence anywhere on the path beyond the target, smaller diameter). -/
theorem C41_decreasing {s : Scal} {lam : ℝ} (hs : s.val = .fin lam) (hl : lam ≠ 0) {n : ℕ} (hn : 2 ≤ n)
    {z c c' : ℕ → ℝ} (hz : ∀ i, i + 1 < n → z i < z (i + 1)) (h0 : 0 ≤ z 0) (hc : ∀ i < n, 0 ≤ c i)
    (hc1 : ∃ i < n, 0 < z i ∧ 0 < c i) (hcc : ∀ i < n, c i ≤ c' i) {k : ℕ} (hk : k < n) (hzk : 0 < z k)
    (hlt : c k < c' k) :
    ∃ r r' : ℝ, coherenceDiameter s (vec n z) (vec n c) = .ok (.fin r)
      ∧ coherenceDiameter s (vec n z) (vec n c') = .ok (.fin r') ∧ 0 < r' ∧ r' < r := by
  have hM : 0 < z (n - 1) := hzk.trans_le (strictMono_le hz k (n - 1) (by omega) (by omega))
  obtain ⟨i, hi, hzi, hci⟩ := hc1
  have p1 := fried_pos hn hz h0 hc hi hzi hci
  have p2 : trap n z (fun i => c i * (z i / z (n - 1)) ^ ((5 : ℝ) / 3))
      < trap n z fun i => c' i * (z i / z (n - 1)) ^ ((5 : ℝ) / 3) := by
    refine trap_strictMono hn hz ?_ hk ?_
    · intro j hj
      have : 0 ≤ z j := h0.trans (strictMono_le hz 0 j (by omega) hj)
      have := hcc j hj
      gcongr
    · have : 0 < (z k / z (n - 1)) ^ ((5 : ℝ) / 3) := by positivity
      gcongr
  have hpi := Real.pi_pos.ne'
  have hk2 : 0 < (2 * Real.pi / lam) ^ 2 := by positivity
  refine ⟨_, _, C41_value hs hl (by omega) hz h0 hM p1, C41_value hs hl (by omega) hz h0 hM (p1.trans p2),
    Real.rpow_pos_of_pos (by have := p1.trans p2; positivity) _, ?_⟩
  apply Real.rpow_lt_rpow_of_neg (by positivity) _ (by norm_num)
  exact mul_lt_mul_of_pos_left p2 (by positivity)

/-- **C41** (no turbulence, infinite diameter). -/
theorem C41_vanishing {s : Scal} {lam : ℝ} (hs : s.val = .fin lam) (hl : lam ≠ 0) {n : ℕ} (hn : 1 ≤ n)
    {z : ℕ → ℝ} (hz : ∀ i, i + 1 < n → z i < z (i + 1)) (h0 : 0 ≤ z 0) (hpos : 0 < z (n - 1)) :
    coherenceDiameter s (vec n z) (vec n fun _ => 0) = .ok .pinf := by
  rw [coherence_vec hs hl hn hz h0 hpos]
  have : trap n z (fun i => 0 * (z i / z (n - 1)) ^ ((5 : ℝ) / 3)) = 0 := by simp [trap]
  rw [this]
  simp only [zero_mul, XR.rpow]
  norm_num

theorem diff_length : ∀ xs : List XR, (diff xs).length = xs.length - 1
  | [] => rfl
  | [_] => rfl
  | a :: b :: t => by
    have := diff_length (b :: t)
    simp only [diff, List.length_cons] at this ⊢
    omega

theorem trapz_total {ys xs : List XR} (h : ys.length = xs.length) : ∃ r, trapz ys xs = .ok r := by
  unfold trapz
  rw [bc2_eq (by simp), ok_bind, bc2_eq (by simp [diff_length, h]), ok_bind]
  exact ⟨_, rfl⟩

/-- **C41** (errors): for a path and a profile of the same length the function raises exactly for an
empty path and for the Python wavelength zero. -/
theorem C41_errors (s : Scal) {z cn2 : List XR} (hlen : cn2.length = z.length) (e : PyErr) :
    coherenceDiameter s z cn2 = .error e
      ↔ (z = [] ∧ e = .valueError) ∨ (z ≠ [] ∧ s.IsPy ∧ s.val = .fin 0 ∧ e = .zeroDivisionError) := by
  cases z with
  | nil =>
    simp only [coherenceDiameter, amax, error_bind, Except.error.injEq, ne_eq, not_true_eq_false,
      false_and, or_false, true_and]
    exact eq_comm
  | cons z0 zs =>
    have hb : ∀ M : XR, bc2 (· * ·) cn2 ((z0 :: zs).map fun z => (z / M).rpow (5 / 3))
        = .ok (List.zipWith (· * ·) cn2 ((z0 :: zs).map fun z => (z / M).rpow (5 / 3))) :=
      fun M => bc2_eq (by rw [List.length_map]; exact hlen)
    unfold coherenceDiameter
    simp only [amax, ok_bind]
    rw [hb, ok_bind]
    obtain ⟨r, hr⟩ := trapz_total (ys := List.zipWith (· * ·) cn2 ((z0 :: zs).map fun z =>
      (z / (List.foldl XR.max z0 zs)).rpow (5 / 3))) (xs := z0 :: zs) (by simp [hlen])
    rw [hr, ok_bind]
    simp only [List.cons_ne_nil, false_and, ne_eq, not_false_eq_true, true_and, false_or]
    cases hd : Scal.div (.py (2 * .fin Real.pi)) s with
    | ok k =>
      rw [ok_bind]
      simp only [reduceCtorEq, false_iff]
      rintro ⟨h1, h2, _⟩
      have := (Scal.div_error_iff (.py (2 * .fin Real.pi)) s .zeroDivisionError).mpr
        ⟨rfl, trivial, h1, by rw [h2]; rfl⟩
      rw [hd] at this
      cases this
    | error er =>
      rw [error_bind, Except.error.injEq]
      obtain ⟨h1, _, h2, h3⟩ := (Scal.div_error_iff _ _ _).mp hd
      have h3' : s.val = .fin 0 := by
        cases hv : s.val with
        | fin x => rw [hv] at h3; rw [show x = 0 from h3]
        | pinf => rw [hv] at h3; exact absurd h3 (by simp [XR.eq])
        | ninf => rw [hv] at h3; exact absurd h3 (by simp [XR.eq])
        | nan => rw [hv] at h3; exact absurd h3 (by simp [XR.eq])
      rw [h1]
      constructor
      · intro h; exact ⟨h2, h3', h.symm⟩
      · rintro ⟨_, _, h⟩; exact h.symm

example : ∃ r r' : ℝ, coherenceDiameter (.py (.fin 1e-6)) (vec 3 fun i => 1000 * i) (vec 3 fun _ => 1e-15)
      = .ok (.fin r)
    ∧ coherenceDiameter (.py (.fin 1e-6)) (vec 3 fun i => 1000 * i)
        (vec 3 fun i => if i = 1 then 2e-15 else 1e-15) = .ok (.fin r') ∧ 0 < r' ∧ r' < r := by
  refine C41_decreasing (lam := 1e-6) rfl (by norm_num) (by norm_num) ?_ (by norm_num) ?_
    ⟨1, by norm_num, by norm_num, by norm_num⟩ ?_ (k := 1) (by norm_num) (by norm_num) (by norm_num)
  · intro i _; push_cast; linarith
  · intro i _; norm_num
  · intro i _
    split <;> norm_num

/-! ## C38 -/

/-- The polychromatic turbulence OTF as documented: at every wavelength the coherence diameter is the
one `coherence_diameter` computes for that wavelength along the line of sight. -/
def Spec.polychromaticTurbulence (us vs wl ws : List XR) (altitude slantRange : Scal)
    (D haWindSpeed cn2At1m intTime aircraftSpeed : XR) : Except PyErr (List XR × List XR) := do
  let (z, h) ← altitudeAlongSlantPath (.py 0) altitude slantRange
  let cn2 := h.map (hvProfile haWindSpeed cn2At1m)
  let r0 ← weightedByWavelength wl ws fun w => do
    let r ← coherenceDiameter (.np w) z cn2
    .ok [r]
  let turb ← weightedByWavelength wl ws fun w => do
    let r ← coherenceDiameter (.np w) z cn2
    windSpeedTurbulenceOTF us vs w D (.np r) (.py intTime) (.py aircraftSpeed)
  .ok (turb, r0)

theorem r0Function_eq (r : XR) {w : ℝ} (hw : 0 < w) :
    r0Function r (.fin w) = .fin ((w / 1e-6) ^ ((6 : ℝ) / 5)) * r := by
  unfold r0Function
  have h6 : (1e-6 : XR) = .fin 1e-6 := rfl
  rw [h6, XR.fin_rpow _ hw, XR.fin_rpow _ (by norm_num)]
  have hp1 : 0 < w ^ ((6 : ℝ) / 5) := by positivity
  have hp2 : 0 < (1e-6 : ℝ) ^ ((-6 : ℝ) / 5) := by positivity
  have key : (w / 1e-6) ^ ((6 : ℝ) / 5) = w ^ ((6 : ℝ) / 5) * (1e-6 : ℝ) ^ ((-6 : ℝ) / 5) := by
    rw [Real.div_rpow hw.le (by norm_num), show ((-6 : ℝ) / 5) = -((6 : ℝ) / 5) by norm_num,
      Real.rpow_neg (by norm_num), div_eq_mul_inv]
  rw [key]
  cases r with
  | fin x => rw [XR.fin_mul, XR.fin_mul, XR.fin_mul, XR.fin_inj]; ring
  | nan => rw [XR.nan_mul, XR.nan_mul, XR.mul_nan]
  | pinf =>
    have e : ∀ x : ℝ, 0 < x → XR.pinf * XR.fin x = .pinf := by
      intro x hx; show XR.mulInf x = _; unfold XR.mulInf; rw [if_pos hx]
    rw [e _ hp1, e _ hp2, XR.mul_comm, e _ (mul_pos hp1 hp2)]
  | ninf =>
    have e : ∀ x : ℝ, 0 < x → XR.ninf * XR.fin x = .ninf := by
      intro x hx; show XR.neg (XR.mulInf x) = _; unfold XR.mulInf; rw [if_pos hx]; rfl
    rw [e _ hp1, e _ hp2, XR.mul_comm, e _ (mul_pos hp1 hp2)]

theorem r0_direct {z cn2 : List XR} {r : XR} (h : coherenceDiameter (.py 1e-6) z cn2 = .ok r) {w : ℝ}
    (hw : 0 < w) : coherenceDiameter (.np (.fin w)) z cn2 = .ok (r0Function r (.fin w)) := by
  rw [coherence_scale (s := .py 1e-6) (lam := 1e-6) (c := w / 1e-6) rfl
    (by rw [div_mul_cancel₀ _ (by norm_num)]; rfl) (by norm_num) (by positivity), h,
    r0Function_eq r hw]
  rfl

/-- **C38** (right coherence diameter at every wavelength): for positive wavelengths the function is
the documented one, whatever the geometry, the weights and the frequencies. -/
theorem C38_right_coherence_diameter (us vs : List XR) {wl : List ℝ} (hwl : ∀ w ∈ wl, 0 < w)
    (ws : List XR) (altitude slantRange : Scal) (D wind cn2 t speed : XR) :
    polychromaticTurbulenceOTF us vs (wl.map .fin) ws altitude slantRange D wind cn2 t speed
      = Spec.polychromaticTurbulence us vs (wl.map .fin) ws altitude slantRange D wind cn2 t speed := by
  unfold polychromaticTurbulenceOTF Spec.polychromaticTurbulence
  cases hp : altitudeAlongSlantPath (.py 0) altitude slantRange with
  | error e => rfl
  | ok zh =>
    obtain ⟨z, h⟩ := zh
    have hlen : (h.map (hvProfile wind cn2)).length = z.length := by
      unfold altitudeAlongSlantPath at hp
      obtain ⟨a, _, h2⟩ := bind_ok.mp hp
      dsimp only at h2
      rw [Except.ok.injEq, Prod.mk.injEq] at h2
      rw [← h2.1, ← h2.2]
      simp
    have hz : z ≠ [] := by
      unfold altitudeAlongSlantPath at hp
      obtain ⟨a, _, h2⟩ := bind_ok.mp hp
      dsimp only at h2
      rw [Except.ok.injEq, Prod.mk.injEq] at h2
      rw [← h2.1]
      intro hnil
      have := congrArg List.length hnil
      simp [linspace] at this
    rw [ok_bind, ok_bind]
    dsimp only
    cases hr : coherenceDiameter (.py 1e-6) z (h.map (hvProfile wind cn2)) with
    | error e =>
      exfalso
      rcases (C41_errors _ hlen e).mp hr with h | h
      · exact hz h.1
      · have := h.2.2.1
        have h6 : (Scal.py 1e-6).val = .fin 1e-6 := rfl
        rw [h6, XR.fin_inj] at this
        norm_num at this
    | ok r =>
      rw [ok_bind]
      have key : ∀ l ∈ wl.map XR.fin, coherenceDiameter (.np l) z (h.map (hvProfile wind cn2))
          = .ok (r0Function r l) := by
        intro l hl
        obtain ⟨w, hw, rfl⟩ := List.mem_map.mp hl
        exact r0_direct hr (hwl w hw)
      rw [weighted_congr (g := fun w => .ok [r0Function r w])
        (g' := fun w => do let r ← coherenceDiameter (.np w) z (h.map (hvProfile wind cn2)); .ok [r])
        (fun l hl => by rw [key l hl, ok_bind])]
      congr 1
      funext r0
      rw [weighted_congr (g := fun w => windSpeedTurbulenceOTF us vs w D (.np (r0Function r w)) (.py t)
          (.py speed))
        (g' := fun w => do
          let r ← coherenceDiameter (.np w) z (h.map (hvProfile wind cn2))
          windSpeedTurbulenceOTF us vs w D (.np r) (.py t) (.py speed))
        (fun l hl => by rw [key l hl, ok_bind])]

theorem windSpeed_vec {lam D r : ℝ} (t w : ℝ) (hl : 0 ≤ lam) (hD : 0 < D) (hr : 0 < r) (m : ℕ) (U V : ℕ → ℝ) :
    windSpeedTurbulenceOTF (vec m U) (vec m V) (.fin lam) (.fin D) (.np (.fin r)) (.py (.fin t))
        (.py (.fin w)) = .ok (vec m fun j => Spec.turbMix lam D r t w (U j) (V j)) := by
  unfold windSpeedTurbulenceOTF
  have hx : (Scal.py (-1) * Scal.py (.fin w) * Scal.py (.fin t)).val = .fin (-1 * w * t) := by
    rw [Scal.val_mul, Scal.val_mul]
    show (-1 : XR) * .fin w * .fin t = _
    xr_simp
  obtain ⟨q, e1, e2⟩ := Scal.div_fin hx (b := .np (.fin r)) (y := r) rfl hr.ne'
  rw [e1, ok_bind, e2]
  apply bc2_vec
  intro a b
  unfold windSpeedTurbulenceElt Spec.turbMix
  have h5 : (0.5 : XR) = .fin 0.5 := rfl
  rw [Scal.val_np, h5, turbulence_fin _ _ _ _ hD hr hl, turbulence_long_fin _ _ _ hD hr hl]
  xr_simp
  rw [show -1 * w * t / r = -(w * t / r) by ring]

theorem turbMix_dc (lam D r t w : ℝ) : Spec.turbMix lam D r t w 0 0 = 1 := by
  unfold Spec.turbMix
  simp

/-- The geometry a caller passes: the sensor above the centre of the Earth, not at the target, and the
slant range that of the curved-Earth function. -/
theorem poly_value {hs g D wind cn2 t w : ℝ} (ha : 0 < R + hs)
    (hd : pdist (pointAt hs 0) (pointAt 0 g) ≠ 0) {sS sB : Scal} (h2 : sS.val = .fin hs)
    (h3 : sB.val = curvedEarthSlantRange (.fin 0) (.fin hs) (.fin g)) (hD : 0 < D) (hcn : 0 ≤ cn2)
    {pairs : List (ℝ × ℝ)} (hne : pairs ≠ []) (hn : (pairs.map (·.1)).Nodup)
    (hS : (pairs.map (·.2)).sum ≠ 0) (hpos : ∀ p ∈ pairs, 0 < p.1) (m : ℕ) (U V : ℕ → ℝ) :
    (∀ l, 0 < l → 0 < fried hs g wind cn2 l)
      ∧ polychromaticTurbulenceOTF (vec m U) (vec m V) (pairs.map fun p => .fin p.1)
          (pairs.map fun p => .fin p.2) sS sB (.fin D) (.fin wind) (.fin cn2) (.fin t) (.fin w)
        = .ok (vec m fun j => wmean pairs fun l => Spec.turbMix l D (fried hs g wind cn2 l) t w (U j) (V j),
            vec 1 fun _ => wmean pairs (fried hs g wind cn2)) := by
  obtain ⟨zs, hp, hpath, hl1, hl2, hk⟩ := C12_line_of_sight (ht := 0) ha hd (sH := .py 0) rfl h2 h3
  set d := pdist (pointAt 0 g) (pointAt hs 0) with hdd
  have hdpos : 0 < d := by
    rw [hdd, pdist_symm]; exact (pdist_nonneg _ _).lt_of_ne' hd
  have hz : zs.map XR.fin = vec 10000 fun k => (k : ℝ) / 9999 * d := by
    apply List.ext_getElem?
    intro i
    unfold vec
    rw [List.getElem?_map, List.getElem?_map]
    by_cases hi : i < 10000
    · rw [(hk i hi).1, List.getElem?_range hi]; rfl
    · rw [List.getElem?_eq_none (by omega), List.getElem?_eq_none (by rw [List.length_range]; omega)]
      rfl
  set hh : ℕ → ℝ := fun k => heightOf (between (pointAt 0 g) (pointAt hs 0) ((k : ℝ) / 9999)) with hhd
  have hh' : hp.map XR.fin = vec 10000 hh := by
    apply List.ext_getElem?
    intro i
    unfold vec
    rw [List.getElem?_map, List.getElem?_map]
    by_cases hi : i < 10000
    · rw [(hk i hi).2, List.getElem?_range hi]; rfl
    · rw [List.getElem?_eq_none (by omega), List.getElem?_eq_none (by rw [List.length_range]; omega)]
      rfl
  set c : ℝ → ℝ := hv wind cn2 with hc
  have hcpos : ∀ h, 0 < c h := by
    intro h
    have h10 : 0 ≤ h ^ 10 := by positivity
    simp only [hc, hv]
    positivity
  have hcv : (hp.map XR.fin).map (hvProfile (.fin wind) (.fin cn2)) = vec 10000 fun k => c (hh k) := by
    rw [hh']
    exact vec_map (g := c) (fun x => hvProfile_fin _ _ _) _ _
  have hpi := Real.pi_pos
  have hq : ∀ l : ℝ, 0 < l → 0 < 0.423 * (2 * Real.pi / l) ^ 2 := fun l hl => by positivity
  have hzinc : ∀ i : ℕ, i + 1 < 10000 → (i : ℝ) / 9999 * d < ((i + 1 : ℕ) : ℝ) / 9999 * d := by
    intro i _
    push_cast
    have : (i : ℝ) / 9999 < ((i : ℝ) + 1) / 9999 := by
      apply div_lt_div_of_pos_right _ (by norm_num); linarith
    exact mul_lt_mul_of_pos_right this hdpos
  have hlast : 0 < ((10000 - 1 : ℕ) : ℝ) / 9999 * d := by
    have : (((10000 - 1 : ℕ) : ℝ)) = 9999 := by norm_num
    rw [this]; positivity
  have hint := fried_pos (n := 10000) (z := fun k => (k : ℝ) / 9999 * d) (by norm_num) hzinc (by simp)
    (c := fun k => c (hh k))
    (fun i _ => (hcpos _).le) (k := 1) (by norm_num)
    (show 0 < ((1 : ℕ) : ℝ) / 9999 * d by positivity) (hcpos _)
  set I := trap 10000 (fun k => (k : ℝ) / 9999 * d) (fun i => c (hh i)
    * ((i : ℝ) / 9999 * d / (((10000 - 1 : ℕ) : ℝ) / 9999 * d)) ^ ((5 : ℝ) / 3)) with hI
  have hIt : I = turbPath hs g wind cn2 := by
    rw [hI]
    refine congrArg (trap 10000 _) (funext fun k => ?_)
    have e9 : (((10000 - 1 : ℕ) : ℝ)) = 9999 := by norm_num
    rw [e9, div_self (by norm_num : (9999 : ℝ) ≠ 0), one_mul, mul_div_assoc, div_self hdpos.ne', mul_one]
    rfl
  set r0 : ℝ → ℝ := fried hs g wind cn2 with hr0
  have hI0 : 0 < I := hint
  have hr0pos : ∀ l, 0 < l → 0 < r0 l := fun l hl =>
    Real.rpow_pos_of_pos (mul_pos (hq l hl) (hIt ▸ hI0)) _
  have hcoh : ∀ l, 0 < l → coherenceDiameter (.np (.fin l)) (vec 10000 fun k => (k : ℝ) / 9999 * d)
      (vec 10000 fun k => c (hh k)) = .ok (.fin (r0 l)) := by
    intro l hl
    have := C41_value (s := .np (.fin l)) (z := fun k => (k : ℝ) / 9999 * d) rfl hl.ne' (by norm_num) hzinc
      (by simp) hlast hint
    rw [this]
    show Except.ok (XR.fin ((0.423 * (2 * Real.pi / l) ^ 2 * I) ^ (-(3 : ℝ) / 5))) = _
    rw [hIt]
    rfl
  refine ⟨hr0pos, ?_⟩
  have hmap : (pairs.map fun p => XR.fin p.1) = (pairs.map (·.1)).map XR.fin := by
    rw [List.map_map]; rfl
  rw [hmap, C38_right_coherence_diameter _ _ (by
    intro x hx
    obtain ⟨p, hp, rfl⟩ := List.mem_map.mp hx
    exact hpos p hp), ← hmap]
  unfold Spec.polychromaticTurbulence
  rw [hpath, ok_bind]
  dsimp only
  rw [hcv, hz, weighted_vec (m := 1) (G := fun l _ => r0 l) hne hn hS, ok_bind,
    weighted_vec (m := m) (G := fun l j => Spec.turbMix l D (r0 l) t w (U j) (V j)) hne hn hS, ok_bind]
  · intro p hp
    rw [hcoh _ (hpos p hp), ok_bind, windSpeed_vec t w (hpos p hp).le hD (hr0pos _ (hpos p hp))]
  · intro p hp
    rw [hcoh _ (hpos p hp), ok_bind]
    rfl

theorem exists_pos_le {α : Type} {f : α → ℝ} : ∀ {l : List α}, (∀ p ∈ l, 0 < f p) → ∃ b, 0 < b ∧ ∀ p ∈ l, b ≤ f p
  | [], _ => ⟨1, one_pos, by simp⟩
  | a :: l, h => by
    obtain ⟨b, hb, hl⟩ := exists_pos_le (l := l) fun p hp => h p (List.mem_cons_of_mem _ hp)
    refine ⟨min b (f a), lt_min hb (h a List.mem_cons_self), fun p hp => ?_⟩
    rcases List.mem_cons.mp hp with rfl | hp
    · exact min_le_right _ _
    · exact (min_le_left _ _).trans (hl p hp)

/-- **C38** (zero frequency): the polychromatic turbulence OTF is 1 at every grid point whose
frequencies are zero, and the band-averaged coherence diameter is positive. -/
theorem C38_unity_at_zero {hs g D wind cn2 t w : ℝ} (ha : 0 < R + hs)
    (hd : pdist (pointAt hs 0) (pointAt 0 g) ≠ 0) {sS sB : Scal} (h2 : sS.val = .fin hs)
    (h3 : sB.val = curvedEarthSlantRange (.fin 0) (.fin hs) (.fin g)) (hD : 0 < D) (hcn : 0 ≤ cn2)
    {pairs : List (ℝ × ℝ)} (hn : (pairs.map (·.1)).Nodup)
    (hS : 0 < (pairs.map (·.2)).sum) (hw : ∀ p ∈ pairs, 0 ≤ p.2) (hpos : ∀ p ∈ pairs, 0 < p.1) (m : ℕ)
    (U V : ℕ → ℝ) :
    ∃ (T : ℕ → ℝ) (r0 : ℝ),
      polychromaticTurbulenceOTF (vec m U) (vec m V) (pairs.map fun p => .fin p.1)
          (pairs.map fun p => .fin p.2) sS sB (.fin D) (.fin wind) (.fin cn2) (.fin t) (.fin w)
        = .ok (vec m T, [.fin r0])
      ∧ (∀ j < m, U j = 0 → V j = 0 → T j = 1) ∧ 0 < r0 := by
  have hne : pairs ≠ [] := by rintro rfl; simp at hS
  obtain ⟨hr0, e⟩ := poly_value (wind := wind) (t := t) (w := w) ha hd h2 h3 hD hcn hne hn hS.ne' hpos m U V
  refine ⟨_, wmean pairs (fried hs g wind cn2), e, ?_, ?_⟩
  · intro j _ hu hv
    apply wmean_const hS.ne'
    intro p _
    rw [hu, hv, turbMix_dc]
  · obtain ⟨b, hb, hle⟩ := exists_pos_le (l := pairs) fun p hp => hr0 _ (hpos p hp)
    exact hb.trans_le (le_wmean hw hS hle)

theorem demo_geometry : (0 : ℝ) < R + 9000 ∧ pdist (pointAt 9000 0) (pointAt 0 60000) ≠ 0 := by
  refine ⟨by norm_num [R], ?_⟩
  rw [pdist_pointAt]
  have h := mul_nonneg (mul_nonneg (a := R + 9000) (b := R + 0) (by norm_num [R]) (by norm_num [R]))
    (sub_nonneg.mpr (Real.cos_le_one (60000 / R)))
  have : 0 < sq2 0 9000 60000 := by unfold sq2; nlinarith
  exact (Real.sqrt_pos.mpr this).ne'

example : ∃ (T : ℕ → ℝ) (r0 : ℝ),
    polychromaticTurbulenceOTF (vec 3 fun i => 100 * (i - 1)) (vec 3 fun _ => 0)
        ([(0.4e-6, 1), (0.6e-6, 3)].map fun p : ℝ × ℝ => .fin p.1)
        ([(0.4e-6, 1), (0.6e-6, 3)].map fun p : ℝ × ℝ => .fin p.2) (.py (.fin 9000))
        (.np (curvedEarthSlantRange (.fin 0) (.fin 9000) (.fin 60000))) (.fin 0.3) (.fin 21)
        (.fin 1.7e-14) (.fin 0.01) (.fin 100) = .ok (vec 3 T, [.fin r0]) ∧ T 1 = 1 := by
  obtain ⟨T, r0, h1, h2, _⟩ := C38_unity_at_zero (wind := 21) (cn2 := 1.7e-14) (t := 0.01) (w := 100) (D := 0.3)
    demo_geometry.1 demo_geometry.2 (sS := .py (.fin 9000))
    (sB := .np (curvedEarthSlantRange (.fin 0) (.fin 9000) (.fin 60000))) rfl rfl (by norm_num)
    (by norm_num) (pairs := [(0.4e-6, 1), (0.6e-6, 3)]) (by norm_num) (by norm_num) (by
      intro p hp
      simp only [List.mem_cons, List.not_mem_nil, or_false] at hp
      rcases hp with rfl | rfl <;> norm_num) (by
      intro p hp
      simp only [List.mem_cons, List.not_mem_nil, or_false] at hp
      rcases hp with rfl | rfl <;> norm_num) 3 (fun i => 100 * (i - 1)) (fun _ => 0)
  exact ⟨T, r0, h1, h2 1 (by norm_num) (by norm_num) rfl⟩

/-- What a successful `common_OTFs` computed. -/
theorem commonOTFs_ok {diag : ℕ → ℕ → Bool} {s : Sensor} {sc : Scenario} {us vs wl ws : List XR}
    {sr : Scal} {t : XR} {o : OTFRow} (h : commonOTFs diag s sc us vs wl ws sr t = .ok o) :
    ∃ ap tr det jit drft wav filt p1 p2 p3 p4 p5,
      weightedByWavelength wl ws (fun w => circularApertureOTF us vs (.np w) (.py s.D) s.eta) = .ok ap
      ∧ commonTurbulence s sc us vs wl ws sr t = .ok tr
      ∧ bc2 (fun u v => detectorOTF u v s.wX s.wY s.f) us vs = .ok det
      ∧ bc2 (fun u v => jitterOTF u v s.sX s.sY) us vs = .ok jit
      ∧ bc2 (fun u v => driftOTF u v (s.daX * t * s.nTdi) (s.daY * t * s.nTdi)) us vs = .ok drft
      ∧ weightedByWavelength wl ws (fun w =>
          bc2 (fun u v => wavefrontOTF u v w (s.pv * (s.pvWavelength / w) ^ 2) s.lX s.lY) us vs) = .ok wav
      ∧ commonFilter diag s us vs = .ok filt
      ∧ bc2 (· * ·) ap tr.1 = .ok p1 ∧ bc2 (· * ·) p1 det = .ok p2 ∧ bc2 (· * ·) p2 jit = .ok p3
      ∧ bc2 (· * ·) p3 drft = .ok p4 ∧ bc2 (· * ·) p4 wav = .ok p5
      ∧ bc2 (· * ·) p5 filt = .ok o.system
      ∧ o = { ap := ap, turb := tr.1, r0Band := tr.2, det := det, jit := jit, drft := drft,
              wav := wav, filter := filt, system := o.system } := by
  unfold commonOTFs at h
  simp only [bind_ok] at h
  obtain ⟨ap, h1, tr, h2, det, h3, jit, h4, drft, h5, wav, h6, filt, h7, p1, h8, p2, h9, p3, h10, p4,
    h11, p5, h12, p6, h13, h⟩ := h
  rw [Except.ok.injEq] at h
  subst h
  exact ⟨ap, tr, det, jit, drft, wav, filt, p1, p2, p3, p4, p5, h1, h2, h3, h4, h5, h6, h7, h8, h9, h10,
    h11, h12, h13, rfl⟩

/-- **C38** (switched off): when the ground turbulence is not positive, the turbulence OTF that
`common_OTFs` reports is 1 at every frequency and the coherence diameter is 1e6 m, whatever the path. -/
theorem C38_switched_off (diag : ℕ → ℕ → Bool) (s : Sensor) (sc : Scenario) (us vs wl ws : List XR)
    (sr : Scal) (t : XR) (o : OTFRow) (hc : ¬ XR.lt 0 sc.cn2At1m)
    (h : commonOTFs diag s sc us vs wl ws sr t = .ok o) :
    o.turb = List.replicate us.length 1 ∧ o.r0Band = List.replicate us.length (.fin 1000000) := by
  obtain ⟨ap, tr, det, jit, drft, wav, filt, p1, p2, p3, p4, p5, _, ht, _, _, _, _, _, _, _, _, _, _, _, ho⟩ :=
    commonOTFs_ok h
  have h6 : (1e6 : XR) * 1 = .fin 1000000 := by xr_simp; norm_num
  unfold commonTurbulence at ht
  rw [if_neg hc, Except.ok.injEq] at ht
  rw [ho, ← ht]
  refine ⟨?_, ?_⟩
  · simp only [List.map_const']
  · simp only [List.map_const', h6]

end PyBSM
