/- Leading the silicon step by step. -/
import Verif.Spec.Plans
import Verif.Spec.Simulator

namespace PD.Spec
open PD

variable {G O P Img : Type}

/-- A client who steps the simulator once for each atom of the path, without asking for images: from the state `s`, each time
holding the beam for `dwell` on the next atom, where it is in the current field of view.  Each step returns an observation that
shows the silicon on this atom, in the middle of the image, after at most the dwell time and the time for two images. -/
inductive Led (cfg : SimCfg ℝ G O P Img) (dwell : Timedelta) : Sim ℝ G O P → List (V2 ℝ) → Sim ℝ G O P → Prop where
  | done (s : Sim ℝ G O P) : Led cfg dwell s [] s
  | step {s s' s'' : Sim ℝ G O P} {fov : Fov ℝ} {p x : V2 ℝ} {path : List (V2 ℝ)} {fuel : ℕ} {o : Observation ℝ Img}
      (view : s.fov = some fov)
      (returned : Sim.step { cfg with fuel := fuel } [BeamControl.mk' (fov.toMicroscope p) dwell] false s = .ok o s')
      (seen : silicons o.grid = [x]) (safe : InSafeArea x) (there : lerp o.fov.lowerLeft o.fov.upperRight x = p)
      (current : s'.fov = some o.fov)
      (time : o.elapsedTime = dwell + cfg.imageDuration ∨ o.elapsedTime = dwell + cfg.imageDuration + cfg.imageDuration)
      (rest : Led cfg dwell s' path s'') : Led cfg dwell s (p :: path) s''

/-- The simulator has been reset and holds `sheet`; its field of view is a square of a side from 15 to 30 Å. -/
structure Started (s : Sim ℝ G O P) (sheet : Grid ℝ) : Prop where
  reset : s.hasBeenReset = true
  sheet : s.ctx.mat = ⟨true, some sheet⟩
  view : ∃ c scale, s.fovScale = some scale ∧ s.fov = some (centredFov c scale) ∧ 15 ≤ scale ∧ scale ≤ 30

/-- The simulator with another state of its random generator. -/
def seeded (s : Sim ℝ G O P) (g : G) : Sim ℝ G O P := { s with ctx := { s.ctx with g := g } }

end PD.Spec
