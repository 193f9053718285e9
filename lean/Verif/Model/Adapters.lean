/- Model of the action adapters (action_adapters.py).  An action is a flat numpy array, a list of
numbers here. -/
import Verif.Model.Simulator

namespace PD
variable {K G Img : Type}

/-- The four action adapters with their constructor arguments (action_adapters.py:53-54, 87-95,
131-149, 219-225). -/
inductive Adapter (K : Type) where
  | direct
  | delta
  | relative (minDwell maxDwell : Timedelta) (maxDistance : K)
  | materialFrame (minDwell maxDwell : Timedelta) (maxDistance : K)

/-- action_adapters.py:134-141, the default constructor arguments: 1.5 s and one bond. -/
def Adapter.relativeDefault [Field K] : Adapter K := .relative 1500000 1500000 BOND

/-- The default arguments are inherited (action_adapters.py:219-225). -/
def Adapter.materialFrameDefault [Field K] : Adapter K := .materialFrame 1500000 1500000 BOND

/-- `np.clip` of a 2-vector. -/
def clip2 [LinearOrder K] (p : V2 K) (lo hi : K) : V2 K := ⟨clip p.x lo hi, clip p.y lo hi⟩

/-- `dt.timedelta(seconds=1.5)` (action_adapters.py:75 and 117). -/
def fixedDwell : Timedelta := 1500000

/-- An action that must have two entries.  Other shapes raise in numpy or shapely
(`ValueError`); numpy would also broadcast a scalar, and shapely would make a point with a third
coordinate, which the model rejects too.  The action spec has shape `(2,)`. -/
def action2 : List K → Except Err (V2 K)
  | [x, y] => .ok ⟨x, y⟩
  | _ => .error .valueError

/-- `action[:2]` used as a 2-vector. -/
def actionPrefix2 : List K → Except Err (V2 K)
  | x :: y :: _ => .ok ⟨x, y⟩
  | _ => .error .valueError

/-- action_adapters.py:184-192 and 256-264: the dwell time. -/
def dwellOf [Field K] [LinearOrder K] [FloorRing K] (minDwell maxDwell : Timedelta)
    (action : List K) : Except Err Timedelta :=
  let minS : K := totalSeconds minDwell
  let maxS : K := totalSeconds maxDwell
  if minDwell = maxDwell then .ok (ofSeconds minS)
  else
    match action[2]? with
    | none => .error .indexError
    | some a => .ok (ofSeconds (clip a 0 1 * (maxS - minS) + minS))

/-- action_adapters.py:160-168 and 234-242: `RuntimeError` unless there is exactly one silicon. -/
def oneSilicon (g : Grid K) : Except Err (V2 K) :=
  match getSiliconPositions g with
  | [p] => .ok p
  | _ => .error .runtimeError

/-- `reset`: action_adapters.py:56-58, 97-99, 151-152.  Only the delta adapter does anything: it
draws a beam position from its generator. -/
def Adapter.reset [Field K] (a : Adapter K) (rng : Rng K G) (beam : V2 K) (g : G) : V2 K × G :=
  match a with
  | .delta =>
    let (x, g1) := rng.uniform 0 1 g
    let (y, g2) := rng.uniform 0 1 g1
    (⟨x, y⟩, g2)
  | _ => (beam, g)

/-- `get_action`: action_adapters.py:60-78, 101-121, 154-199, 227-274.  The state is the delta
adapter's beam position. -/
def Adapter.getAction [Field K] [LinearOrder K] [FloorRing K] (a : Adapter K)
    (o : Observation K Img) (action : List K) : EStateM Err (V2 K) (List (BeamControl K)) :=
  fun beam =>
  match a with
  | .direct =>
    match action2 action with
    | .error e => .error e beam
    | .ok p => .ok [BeamControl.mk' (clip2 p 0 1) fixedDwell] beam
  | .delta =>
    match action2 action with
    | .error e => .error e beam
    | .ok p =>
      let beam' := clip2 (beam + p) 0 1
      .ok [BeamControl.mk' beam' fixedDwell] beam'
  | .relative minDwell maxDwell maxDistance =>
    match oneSilicon o.grid with
    | .error e => .error e beam
    | .ok si =>
      let w := o.fov.upperRight.x - o.fov.lowerLeft.x
      let h := o.fov.upperRight.y - o.fov.lowerLeft.y
      if w = 0 ∨ h = 0 then .error .zeroDivision beam
      else
        let cellRadius : V2 K := ⟨maxDistance / w, maxDistance / h⟩
        match actionPrefix2 action with
        | .error e => .error e beam
        | .ok p =>
          let control := clip2 (si + clip2 p (-1) 1 * cellRadius) 0 1
          match dwellOf minDwell maxDwell action with
          | .error e => .error e beam
          | .ok d => .ok [BeamControl.mk' control d] beam
  | .materialFrame minDwell maxDwell _ =>
    match oneSilicon o.grid with
    | .error e => .error e beam
    | .ok si =>
      match actionPrefix2 action with
      | .error e => .error e beam
      | .ok p =>
        let control := clip2 (o.fov.toMicroscope (o.fov.toMaterial si + p)) 0 1
        match dwellOf minDwell maxDwell action with
        | .error e => .error e beam
        | .ok d => .ok [BeamControl.mk' control d] beam

/-- `action_spec`: the bounds of each entry (action_adapters.py:80-84, 123-128, 201-216). -/
def Adapter.actionSpec [Field K] : Adapter K → List (K × K)
  | .direct => [(0, 1), (0, 1)]
  | .delta => [(-(1 / 10), 1 / 10), (-(1 / 10), 1 / 10)]
  | .relative minDwell maxDwell _ | .materialFrame minDwell maxDwell _ =>
    if minDwell = maxDwell then [(-1, 1), (-1, 1)] else [(-1, 1), (-1, 1), (0, 1)]

/-- A sequence of actions given to an adapter; the controls returned by each (calls that raise
are recorded as errors) and the final beam position. -/
def Adapter.run [Field K] [LinearOrder K] [FloorRing K] (a : Adapter K) :
    V2 K → List (Observation K Img × List K) → List (Except Err (List (BeamControl K))) × V2 K
  | beam, [] => ([], beam)
  | beam, (o, act) :: rest =>
    match a.getAction o act beam with
    | .ok cs beam' => let (rs, b) := a.run beam' rest; (.ok cs :: rs, b)
    | .error e beam' => let (rs, b) := a.run beam' rest; (.error e :: rs, b)

end PD
