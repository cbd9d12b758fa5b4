import Verif.Lemmas.Imaging

/-!
# The grid of system OTFs inside `niirs`, `niirs5` and `simulate_image`
-/

noncomputable section

open Classical

namespace PyBSM

open Spec

theorem freqAxis_vec (n : ℕ) (c : ℝ) : freqAxis n (.fin c) = vec n (colFreq n c) := by
  unfold freqAxis
  rw [show (-1 : XR) = .fin (-1) from rfl, XR.one_def, linspace_fin, List.map_map, List.map_map]
  unfold vec
  apply List.map_congr_left
  intro i _
  simp only [Function.comp, XR.fin_mul]
  congr 1
  unfold colFreq
  ring

theorem rowAxis_vec (n : ℕ) (c : ℝ) : (linspace 1 (-1) n).map (· * .fin c) = vec n (rowFreq n c) := by
  rw [show (-1 : XR) = .fin (-1) from rfl, XR.one_def, linspace_fin, List.map_map, List.map_map]
  unfold vec
  apply List.map_congr_left
  intro i _
  simp only [Function.comp, XR.fin_mul]
  congr 1
  unfold rowFreq
  ring

theorem replicate_vec (n : ℕ) (v : ℝ) : List.replicate n (XR.fin v) = vec n fun _ => v := by
  unfold vec
  rw [List.map_const', List.length_range]

/-- The components of the system OTF at one frequency, as a row of the grid. -/
def rowAt (diag : ℕ → ℕ → Bool) (s : RealSensor) (g : RealScene) (pairs : List (ℝ × ℝ)) (t : ℝ) (n : ℕ) (c : ℝ)
    (i : ℕ) : OTFRow where
  ap := vec n fun j => apertureAt s pairs (colFreq n c j) (rowFreq n c i)
  turb := vec n fun j => turbulenceAt s g pairs t (colFreq n c j) (rowFreq n c i)
  r0Band := if 0 < g.cn2 then [.fin (wmean pairs (fried g.altitude g.groundRange g.windSpeed g.cn2))]
    else vec n fun _ => 1e6
  det := vec n fun j => detectorAt s (colFreq n c j) (rowFreq n c i)
  jit := vec n fun j => jitterAt s (colFreq n c j) (rowFreq n c i)
  drft := vec n fun j => driftAt s t (colFreq n c j) (rowFreq n c i)
  wav := vec n fun j => wavefrontAt s pairs (colFreq n c j) (rowFreq n c i)
  filter := vec n fun j => filterAt diag s (colFreq n c j) (rowFreq n c i)
  system := vec n fun j => opticsAt s g pairs t (colFreq n c j) (rowFreq n c i)
    * filterAt diag s (colFreq n c j) (rowFreq n c i)

theorem gridOTFs_value (env : Env) {s : RealSensor} (hs : s.Optical) {g : RealScene} (hg : g.Viewing)
    {sc : Scenario} (hsc : g.Sky sc) {pairs : List (ℝ × ℝ)} (hb : Band pairs) (t : ℝ) (n : ℕ) (c : ℝ)
    (hp : 1 < s.filterKernel.length → s.pX ≠ 0) :
    gridOTFs env n s.toSensor sc (.fin c) (pairs.map fun p => .fin p.1) (pairs.map fun p => .fin p.2)
        (.fin g.slant) (.fin t)
      = .ok ((List.range n).map (rowAt env.diag s g pairs t n c)) := by
  unfold gridOTFs
  rw [rowAxis_vec, freqAxis_vec]
  unfold vec
  rw [List.mapM_map]
  refine mapM_ok (g := rowAt env.diag s g pairs t n c) (fun i _ => ?_)
  simp only [Function.comp, replicate_vec]
  exact commonOTFs_value env.diag hs hg hsc rfl hb t n (colFreq n c) (fun _ => rowFreq n c i) hp

theorem grid_abs (diag : ℕ → ℕ → Bool) (s : RealSensor) (g : RealScene) (pairs : List (ℝ × ℝ)) (t : ℝ) (n : ℕ) (c : ℝ) :
    (((List.range n).map (rowAt diag s g pairs t n c)).map fun r => r.system.map XR.abs)
      = grid n fun i j => |opticsAt s g pairs t (colFreq n c j) (rowFreq n c i)
          * filterAt diag s (colFreq n c j) (rowFreq n c i)| := by
  unfold grid
  rw [List.map_map]
  apply List.map_congr_left
  intro i _
  exact vec_map (g := fun x => |x|) (fun x => rfl) n _

theorem sharpening_filterAt (diag : ℕ → ℕ → Bool) {s : RealSensor} (hf : s.f ≠ 0)
    (hp : 1 < s.filterKernel.length → s.pX ≠ 0) : s.Sharpening diag (filterAt diag s) := by
  unfold RealSensor.Sharpening filterAt
  refine ⟨fun h u v => if_neg (by omega), fun h m U V => ?_⟩
  simp only [if_pos h]
  exact filterOTF_vec diag _ rfl (div_ne_zero (hp h) hf) m U V

theorem axisStep_fin (c : ℝ) : axisStep (freqAxis 101 (.fin c)) = .fin (c / 50) := by
  rw [freqAxis_vec]
  unfold axisStep vec
  rw [getD_range_map _ (by norm_num), getD_range_map _ (by norm_num), XR.fin_sub]
  congr 1
  unfold colFreq
  push_cast
  ring

end PyBSM
