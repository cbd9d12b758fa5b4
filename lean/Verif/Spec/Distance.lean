import Verif.Spec.Compare
import Verif.Spec.Giqe

/-!
# Specification: one camera, one air, two places (C140)
-/

noncomputable section

open Classical

namespace PyBSM.Spec

/-- Two reports of equally sharp pictures with the same signal and noise: they differ in how large a pixel is on the ground. -/
structure EquallySharp (m m' : Metrics) : Prop where
  signal : m'.snr = m.snr
  edges : m'.giqe5.map (fun r => (r.1, r.2.1, r.2.2.2)) = m.giqe5.map (fun r => (r.1, r.2.1, r.2.2.2))

end PyBSM.Spec
