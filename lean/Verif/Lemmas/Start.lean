/- Lemmas about starting episodes and about what a view of a generated sheet shows. -/
import Verif.Props.Lattice
import Verif.Lemmas.Goal
import Verif.Lemmas.Environment

set_option linter.unusedSectionVars false
set_option linter.unusedSimpArgs false

namespace PD.Props
open PD PD.Spec
variable {K G O P Img F : Type} [Field K] [LinearOrder K] [IsStrictOrderedRing K]

/-- The material positions of what is in view are the positions of the sheet's atoms inside. -/
theorem view_positions {m : Material K} {sheet : Grid K} (hr : m.hasBeenReset = true)
    (hm : m.grid = some sheet) (hwf : sheet.WF) {o : Observation K Img}
    (hw : 0 < o.fov.width) (hh : 0 < o.fov.height)
    (ho : m.getAtomsInBounds o.fov.lowerLeft o.fov.upperRight = .ok o.grid) :
    o.grid.WF ∧ o.grid.positions.map (place o) =
      sheet.positions.filter (fun p => decide (Inside o.fov.lowerLeft o.fov.upperRight p)) := by
  obtain ⟨o', ho', hwf', hat, _⟩ := C03_atoms_in_view m sheet hr hm hwf o.fov hw hh
  rw [ho] at ho'
  cases ho'
  refine ⟨hwf', ?_⟩
  have h := congrArg (List.map Prod.fst) hat
  have hfst : ∀ g : Grid K, g.WF → (atoms g).map Prod.fst = g.positions := by
    intro g hg
    unfold atoms
    rw [List.map_fst_zip]
    exact hg.le
  rw [hfst _ (by simpa [Grid.WF, Fov.gridToMaterial] using hwf')] at h
  have hp : (o.fov.gridToMaterial o.grid).positions = o.grid.positions.map (place o) := by
    simp only [Fov.gridToMaterial]
    exact List.map_congr_left (fun p _ => toMaterial_place o p)
  rw [← hp, h]
  have : ∀ l : List (V2 K × ℤ), (l.filter (fun a => decide (Inside o.fov.lowerLeft o.fov.upperRight a.1))).map
      Prod.fst = (l.map Prod.fst).filter (fun p => decide (Inside o.fov.lowerLeft o.fov.upperRight p)) := by
    intro l
    rw [List.filter_map]
    rfl
  rw [this, hfst _ hwf]

variable [FloorRing K]

/-- A simulator reset returns whenever the generated sheet has an atom. -/
theorem sim_reset_returns (cfg : SimCfg K G O P Img) (b : Bool) (s : Sim K G O P)
    (h : (cfg.generate s.ctx.g).1 ≠ []) : ∃ o s', Sim.reset cfg b s = .ok o s' := by
  obtain ⟨c, sheet, si, h1, h2, h3, h4, h5, h6, _⟩ :=
    (C08_reset_centres_silicon cfg.generate s.ctx).2 h
  unfold Sim.reset
  simp only [h1]
  have hsi : ∀ g : G, ({ c with g := g } : MatCtx K G O).mat.getSiliconPosition = .ok si := fun _ => h6
  simp only [h6, h3, Sim.observe]
  obtain ⟨o, ho⟩ := getAtomsInBounds_ok h2 h3
    (centredFov si (cfg.rng.uniform 15 30 c.g).1)
  simp only [ho, Sim.maybeImage]
  cases b
  · exact ⟨_, _, rfl⟩
  · exact ⟨_, _, rfl⟩

end PD.Props
