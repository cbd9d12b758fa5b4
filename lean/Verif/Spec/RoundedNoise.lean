import Verif.Spec.DoubleRating
import Verif.Model.RoundedNoise
import Verif.Lemmas.Rounded

/-!
# Vocabulary for C123: the noise break-out of a camera in floating-point arithmetic
-/

noncomputable section

open Classical

namespace PyBSM.Spec

/-- The computation of the exposure used, for the rows `B` of the atmosphere. -/
def RealSensor.exposureUsedExpr (s : RealSensor) (order : SumTree) (B : List (Fin 6 → ℝ)) : Expr :=
  s.exposureExpr order (s.computed fun i => B.getD i 0 0) (fun i => B.getD i 0 0)
    (fun i => s.targetRadianceExpr (B.getD i 0)) fun i => s.backgroundRadianceExpr (B.getD i 0)

/-- The computation of the photoelectrons of the scene radiance `L` alone. -/
def RealSensor.photonsExpr (s : RealSensor) (order : SumTree) (B : List (Fin 6 → ℝ)) (L : (Fin 6 → ℝ) → Expr) : Expr :=
  scenePhotonExpr order s.D s.f s.wX s.wY s.nTdi (fun i => B.getD i 0 0) (fun i => L (B.getD i 0))
    (s.computed fun i => B.getD i 0 0).transmission (s.computed fun i => B.getD i 0 0).efficiency
    (s.computed fun i => B.getD i 0 0).emission (s.exposureUsedExpr order B)

/-- The computation of the photoelectrons of the light of the path. -/
def RealSensor.pathPhotonsExpr (s : RealSensor) (order : SumTree) (B : List (Fin 6 → ℝ)) : Expr :=
  pathPhotonExpr order s.D s.f s.wX s.wY s.nTdi (fun i => B.getD i 0 0) (fun i => pathRadianceExpr (B.getD i 0))
    (s.computed fun i => B.getD i 0 0).transmission (s.computed fun i => B.getD i 0 0).efficiency (s.exposureUsedExpr order B)

/-- The computation of the number whose root is the scene noise of the report. -/
def RealSensor.sceneSquareExpr (s : RealSensor) (order : SumTree) (B : List (Fin 6 → ℝ)) : Expr :=
  PyBSM.sceneSquareExpr (s.photonsExpr order B s.targetRadianceExpr) (s.photonsExpr order B s.backgroundRadianceExpr)
    (s.pathPhotonsExpr order B)

/-- The computation of the irradiance of the light of the path at the detector, for row `i`. -/
def RealSensor.pathIrradianceExpr (s : RealSensor) (B : List (Fin 6 → ℝ)) (i : ℕ) : Expr :=
  .mul ((s.computed fun i => B.getD i 0 0).transmission i) (irradianceExpr s.D s.f (pathRadianceExpr (B.getD i 0)))

/-- The computation of the camera's own irradiance, for row `i`. -/
def RealSensor.ownIrradianceExpr (s : RealSensor) (B : List (Fin 6 → ℝ)) (i : ℕ) : Expr :=
  (s.computed fun i => B.getD i 0 0).emission i

/-- Scene and background outshine the air: at every wavelength the camera's own light is at most `κ` times that of the scene, and
the light of scene, background and path together is at most `κ'` times the difference that decides about the scene noise. -/
structure Outshines (s : RealSensor) (B : List (Fin 6 → ℝ)) (κ κ' : ℕ) : Prop where
  target : ∀ a ∈ B, 0 < s.transAt (a 0) * (apertureFactor s.D s.f * s.targetAt a)
    ∧ s.selfAt (a 0) ≤ κ * (s.transAt (a 0) * (apertureFactor s.D s.f * s.targetAt a))
  background : ∀ a ∈ B, 0 < s.transAt (a 0) * (apertureFactor s.D s.f * s.backgroundAt a)
    ∧ s.selfAt (a 0) ≤ κ * (s.transAt (a 0) * (apertureFactor s.D s.f * s.backgroundAt a))
  path : s.photons B pathAt < max (s.photons B s.targetAt) (s.photons B s.backgroundAt)
  margin : max (s.photons B s.targetAt) (s.photons B s.backgroundAt) + s.photons B pathAt
    ≤ κ' * (max (s.photons B s.targetAt) (s.photons B s.backgroundAt) - s.photons B pathAt)

/-- The scene noise that double precision reports. -/
def RealSensor.sceneNoiseD (s : RealSensor) (fl : ℝ → ℝ) (order : SumTree) (B : List (Fin 6 → ℝ)) : XR :=
  match XR.sqrt (.fin ((s.sceneSquareExpr order B).eval fl)) with
  | .fin x => .fin (fl x)
  | x => x

/-- The path noise that double precision reports. -/
def RealSensor.pathNoiseD (s : RealSensor) (fl : ℝ → ℝ) (order : SumTree) (B : List (Fin 6 → ℝ)) : XR :=
  match XR.sqrt (.fin ((s.pathPhotonsExpr order B).eval fl)) with
  | .fin x => .fin (fl x)
  | x => x

/-- The air is opaque: neither the surface nor reflected sunlight can be seen. -/
def Opaque (B : List (Fin 6 → ℝ)) : Prop := ∀ a ∈ B, a 1 = 0 ∧ a 5 = 0

end PyBSM.Spec
