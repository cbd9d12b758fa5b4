import Verif.Model.Generator
import Verif.Spec.Session

/-!
# Specification of the use of the random generator (C127)
-/

noncomputable section

open Classical

namespace PyBSM.Spec

/-- The generator after Poisson draws with the means `ms`, in that order. -/
def afterPoissons (G : Generator) (ms : List ℝ) (st : G.State) : G.State :=
  ms.foldl (fun q m => (G.poisson m q).2) st

/-- The generator after `n` normal draws. -/
def afterNormals (G : Generator) (n : ℕ) (st : G.State) : G.State := (fun q => (G.normal q).2)^[n] st

/-- The pixels of an image before pixel `(i, j)`, row by row from the top, each row from the left. -/
def pixelsBefore (b : Img) (i j : ℕ) : List ℝ :=
  ((List.range i).flatMap fun a => (List.range b.w).map fun c => b.px a c) ++ (List.range j).map fun c => b.px i c

/-- `n` is the image `b` with the noise a generator in state `st` gives it, Gaussian noise of standard deviation `g`
included, and `st'` is the generator afterwards: the counts of all pixels are drawn first, row by row, then the normal
variates of all pixels in the same order. -/
structure NoiseOf (G : Generator) (st : G.State) (b : Img) (g : ℝ) (n : Img) (st' : G.State) : Prop where
  height : n.h = b.h
  width : n.w = b.w
  pixel : ∀ i < b.h, ∀ j < b.w, n.px i j
    = (G.poisson (b.px i j) (afterPoissons G (pixelsBefore b i j) st)).1
      + g * (G.normal (afterNormals G (i * b.w + j) (afterPoissons G (pixelsBefore b b.h 0) st))).1
  final : st' = afterNormals G (b.h * b.w) (afterPoissons G (pixelsBefore b b.h 0) st)

/-- The reference behaviour: the objects hold what the client assigned to them, and only seeding, the client's own
draws and the draws of successful simulations change the generator. -/
def labOutcomes {G : Generator} (env : Env) : Objects → G.State → List (LabAction G) → List Outcome
  | _, _, [] => []
  | w, st, .act a _ :: as => outcome env w a :: labOutcomes env (objectsAfter env w a) st as
  | w, st, .simulate usable r i j :: as =>
    let x := simulateDrawn env G usable st r (w.sensor i) (uncached (w.scenario j))
    .images x.1 :: labOutcomes env w x.2 as
  | w, _, .seed n :: as => .done :: labOutcomes env w (G.seeded n) as
  | w, st, .draw f :: as => .done :: labOutcomes env w (f st) as

/-- The action assigns nothing to a sensor or scenario and is not a `niirs5` call. -/
def LabAction.Inert {G : Generator} : LabAction G → Prop
  | .act a _ => Action.Inert a
  | _ => True

end PyBSM.Spec
