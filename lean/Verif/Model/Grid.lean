/- Model of `AtomicGrid`, `BeamControl` and the silicon queries. -/
import Verif.Model.Basic

namespace PD

/-- microscope_utils.py:73-81 `AtomicGrid`: two parallel arrays. -/
@[ext] structure Grid (K : Type) where
  positions : List (V2 K)
  numbers : List ℤ
  deriving DecidableEq, Repr

namespace Grid
variable {K : Type}

/-- The two arrays have the same length.  The dataclass does not enforce it, but
numpy raises for mismatching masks; every grid built by the modelled code has it. -/
def WF (g : Grid K) : Prop := g.positions.length = g.numbers.length

instance (g : Grid K) : Decidable g.WF := by unfold WF; infer_instance

/-- microscope_utils.py:83-87 `AtomicGrid.shift`. -/
def shift [Add K] (g : Grid K) (s : V2 K) : Grid K :=
  ⟨g.positions.map (fun p => p + s), g.numbers⟩

end Grid

/-- graphene.py:709-710 `get_silicon_positions`:
`grid.atom_positions[grid.atomic_numbers == SILICON]`. -/
def getSiliconPositions {K : Type} (g : Grid K) : List (V2 K) :=
  maskSelect (g.numbers.map (fun n => decide (n = SILICON))) g.positions

/-- graphene.py:713-746 `get_single_silicon_position`.  Distances are compared
squared (`sqrt` is monotone). -/
def getSingleSiliconPosition {K : Type} [Field K] [LinearOrder K] (g : Grid K) :
    Except Err (V2 K) :=
  match getSiliconPositions g with
  | [] => .error .siliconNotFound
  | [p] => .ok p
  | p :: q :: rest =>
    let sis := p :: q :: rest
    match argmin? (sis.map (fun s => V2.distSq (⟨1/2, 1/2⟩ : V2 K) s)) with
    | none => .error .valueError        -- numpy: argmin of an empty array
    | some i => match sis[i]? with
      | none => .error .indexError
      | some s => .ok s

/-- microscope_utils.py:181-198 `BeamControl`.  `voltage_kv`, `current_na` are
`Optional[float]`. -/
@[ext] structure BeamControl (K : Type) where
  position : V2 K
  dwellTime : Timedelta
  voltageKv : Option K
  currentNa : Option K
  deriving DecidableEq, Repr

namespace BeamControl
variable {K : Type}

/-- `BeamControl(position, dwell_time)` with the default voltage 60 and current 0.1
(microscope_utils.py:195-198). -/
def mk' [Field K] (position : V2 K) (dwellTime : Timedelta) : BeamControl K :=
  ⟨position, dwellTime, some 60, some (1 / 10)⟩

/-- microscope_utils.py:200-206 `BeamControl.shift`. -/
def shift [Add K] (c : BeamControl K) (s : V2 K) : BeamControl K :=
  ⟨⟨c.position.x + s.x, c.position.y + s.y⟩, c.dwellTime, c.voltageKv, c.currentNa⟩

end BeamControl
end PD
