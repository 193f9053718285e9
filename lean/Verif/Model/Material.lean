/- Model of `PristineSingleDopedGraphene` and its rate predictor (graphene.py). -/
import Verif.Model.Fov
import Verif.Model.Rng
import Verif.Model.Knn

namespace PD

/-- Calls made on a `SimulatorObserver` (microscope_utils.py:503-535). -/
inductive Event (K Img : Type) where
  | reset (grid : Grid K) (fov : Fov K)
  | fovChange (fov : Fov K)
  | applyControl (c : BeamControl K)
  | transition (timeSinceControl : Timedelta) (grid : Grid K)
  | takeImage (duration : Timedelta) (fov : Fov K)
  | generatedImage (img : Img)

/-- graphene.py:36-49 `SuccessorState` / `Rates`. -/
structure Successor (K : Type) where
  grid : Grid K
  rate : K

/-- graphene.py:52-59 `RateFunction`: successor states for a grid and a beam position. -/
abbrev RateFunction (K : Type) := Grid K → V2 K → Except Err (List (Successor K))

/-- graphene.py:47-49 `Rates.total_rate`. -/
def totalRate {K : Type} [Field K] (ss : List (Successor K)) : K := (ss.map (·.rate)).sum

/-- graphene.py:62-78 `CanonicalRatePredictionFn`: a function of the grid, the beam position, the
silicon position and the neighbour indices, which may raise. -/
abbrev CanonicalRateFn (K : Type) := Grid K → V2 K → V2 K → List ℕ → Except Err (List K)

/-- `np.full_like(atomic_numbers, CARBON)` with `[next_si_idx] = SILICON`
(graphene.py:264-265). -/
def successorGrid {K : Type} (grid : Grid K) (nextSiIdx : ℕ) : Grid K :=
  ⟨grid.positions, (List.replicate grid.numbers.length CARBON).set nextSiIdx SILICON⟩

/-- graphene.py:238-276 `PristineSingleSiGrRatePredictor.__call__`.
The cast of the rates to float32 is not modelled. -/
def pristineRates {K : Type} [Field K] [LinearOrder K] (knn : Knn K) (canon : CanonicalRateFn K) :
    RateFunction K := fun grid beam =>
  match getSingleSiliconPosition grid with
  | .error e => .error e
  | .ok si =>
    match nearestNeighbors3 knn grid.positions si with
    | .error e => .error e
    | .ok nbrs =>
      match canon grid beam si nbrs with
      | .error e => .error e
      | .ok rates =>
        if rates.all (fun r => decide (0 ≤ r)) then
          if rates.length = nbrs.length then
            .ok ((nbrs.zip rates).map (fun ir => ⟨successorGrid grid ir.1, ir.2⟩))
          else .error .assertionError
        else .error .assertionError

/-- graphene.py:562-582 `PristineSingleDopedGraphene`.  `grid` is only declared in
`__init__`; reading it before it is set is an `AttributeError` (`none`). -/
structure Material (K : Type) where
  hasBeenReset : Bool
  grid : Option (Grid K)

/-- A newly constructed material (graphene.py:569-582). -/
def Material.fresh {K : Type} : Material K := ⟨false, none⟩

/-- What a material method can read and write: the generator it is given, the material
and the observers it is given (`O` = observer state). -/
structure MatCtx (K G O : Type) where
  g : G
  mat : Material K
  obs : List O

variable {K G O Img : Type}

/-- `for observer in observers: observer.observe_…(…)`; `handle` is the observers' code. -/
def notify (handle : Event K Img → O → O) (e : Event K Img) (obs : List O) : List O :=
  obs.map (handle e)

section
variable [Field K] [LinearOrder K]

/-- graphene.py:702-706 `_assert_has_been_reset`, then reading `self.grid`. -/
def Material.read (m : Material K) : Except Err (Grid K) :=
  if m.hasBeenReset then
    match m.grid with
    | some g => .ok g
    | none => .error .attributeError
  else .error .runtimeError

/-- graphene.py:590-598: place the silicon at the atom nearest the origin. -/
def dopeSheet (positions : List (V2 K)) : Except Err (Grid K) :=
  match argmin? (positions.map V2.normSq) with
  | none => .error .valueError                  -- np.argmin of an empty array
  | some si => .ok ⟨positions, (List.replicate positions.length CARBON).set si SILICON⟩

/-- graphene.py:584-598 `reset`.  `generate` stands for
`generate_pristine_graphene(rng, self._grid_columns)`, which is modelled in
`Verif.Model.Lattice`. -/
def Material.reset (generate : G → List (V2 K) × G) :
    EStateM Err (MatCtx K G O) Unit := fun s =>
  let m1 : Material K := { s.mat with hasBeenReset := true }
  let (positions, g) := generate s.g
  match dopeSheet positions with
  | .error e => .error e { s with mat := m1, g := g }
  | .ok grid => .ok () { s with mat := { m1 with grid := some grid }, g := g }

/-- graphene.py:600-644 `get_atoms_in_bounds`. -/
def Material.getAtomsInBounds (m : Material K) (lowerLeft upperRight : V2 K) :
    Except Err (Grid K) :=
  match m.read with
  | .error e => .error e
  | .ok grid =>
    let mask := grid.positions.map (Fov.inRect lowerLeft upperRight)
    let selectedPositions := maskSelect mask grid.positions
    let selectedNumbers := maskSelect mask grid.numbers
    let delta := upperRight - lowerLeft
    .ok ⟨selectedPositions.map (fun p => (p - lowerLeft) / delta), selectedNumbers⟩

/-- graphene.py:696-700 `get_silicon_position`: `positions[numbers == SILICON].reshape(-1)`.
With exactly one silicon this is its `(2,)` position.  With any other number the flattened
array does not have shape `(2,)` and the callers' arithmetic/`Point(…)` fails; this is
modelled as `ValueError`. -/
def Material.getSiliconPosition (m : Material K) : Except Err (V2 K) :=
  match m.read with
  | .error e => .error e
  | .ok grid =>
    match getSiliconPositions grid with
    | [p] => .ok p
    | _ => .error .valueError

variable [FloorRing K]

/-- The draw of the next transition time, graphene.py:670-674.
`1.0 / total_rate` with total rate `np.float32(0)` is `inf`, `rng.exponential(inf)` is `inf`
and is clipped to one hour; with no successor states at all `sum([]) = 0` is a Python int and
the division raises. -/
def drawTransitionTime (rng : Rng K G) (ss : List (Successor K)) (g : G) :
    Except Err (Timedelta × G) :=
  if totalRate ss = 0 then
    if ss.isEmpty then .error .zeroDivision
    else .ok (ofSeconds (3600 : K), (rng.exponential 0 g).2)
  else
    let (t, g') := rng.exponential (1 / totalRate ss) g
    .ok (ofSeconds (min t 3600), g')

/-- One round of the `while` loop body after the time was drawn, for the branch
`elapsed_time <= control.dwell_time` (graphene.py:682-694). -/
def performTransition (rng : Rng K G) (handle : Event K Img → O → O) (elapsed : Timedelta)
    (ss : List (Successor K)) : EStateM Err (MatCtx K G O) Unit := fun s =>
  if totalRate ss = 0 then .error .valueError s            -- probabilities are NaN
  else
    let probs := ss.map (fun x => x.rate / totalRate ss)
    let (idx, g) := rng.choiceP probs s.g
    match ss[idx]? with
    | none => .error .indexError { s with g := g }
    | some next =>
      .ok () { s with
        g := g
        mat := { s.mat with grid := some next.grid }
        obs := notify handle (.transition elapsed next.grid) s.obs }

/-- The `while elapsed_time < control.dwell_time` loop, graphene.py:660-694.
`fuel` bounds the number of rounds; running out is reported as `Err.diverges`. -/
def applyLoop (rng : Rng K G) (handle : Event K Img → O → O) (rate : RateFunction K)
    (c : BeamControl K) : ℕ → Timedelta → EStateM Err (MatCtx K G O) Unit
  | fuel, elapsed => fun s =>
    if elapsed < c.dwellTime then
      match fuel with
      | 0 => .error .diverges s
      | fuel + 1 =>
        match s.mat.read with
        | .error e => .error e s
        | .ok grid =>
          match rate grid c.position with
          | .error e => .error e s
          | .ok ss =>
            match drawTransitionTime rng ss s.g with
            | .error e => .error e s
            | .ok (t, g) =>
              let elapsed' := elapsed + t
              let s1 := { s with g := g }
              if elapsed' ≤ c.dwellTime then
                match performTransition rng handle elapsed' ss s1 with
                | .error e s2 => .error e s2
                | .ok () s2 => applyLoop rng handle rate c fuel elapsed' s2
              else
                applyLoop rng handle rate c fuel elapsed' s1
    else .ok () s

/-- graphene.py:646-694 `apply_control`. -/
def Material.applyControl (rng : Rng K G) (handle : Event K Img → O → O) (rate : RateFunction K)
    (fuel : ℕ) (c : BeamControl K) : EStateM Err (MatCtx K G O) Unit := fun s =>
  if s.mat.hasBeenReset then applyLoop rng handle rate c fuel 0 s
  else .error .runtimeError s

end
end PD
