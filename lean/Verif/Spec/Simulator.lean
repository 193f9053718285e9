/- Specification vocabulary for simulator histories and event logs. -/
import Verif.Spec.Material
import Verif.Model.Simulator

namespace PD.Spec
variable {K Img : Type}

/-- Positions of the silicon atoms of a grid. -/
def silicons (g : Grid K) : List (V2 K) :=
  ((atoms g).filter (fun a => decide (a.2 = SILICON))).map Prod.fst

/-- A square field of view with the given side. -/
def IsSquare [Sub K] (f : Fov K) (side : K) : Prop := f.width = side ∧ f.height = side

/-- The point lies in the central half of the image in each direction. -/
def InSafeArea [Field K] [LinearOrder K] (p : V2 K) : Prop :=
  (1 / 4 ≤ p.x ∧ p.x ≤ 3 / 4) ∧ (1 / 4 ≤ p.y ∧ p.y ≤ 3 / 4)

/-- The time an event takes: dwelling and imaging take time. -/
def LogEvent.time : LogEvent K Img → Timedelta
  | .applyControl d _ => d
  | .takeImage d _ => d
  | _ => 0

/-- The grid an event announces. -/
def LogEvent.grid? : LogEvent K Img → Option (Grid K)
  | .reset g _ => some g
  | .transition _ g => some g
  | _ => none

/-- The control an event announces. -/
def LogEvent.control? : LogEvent K Img → Option (V2 K × Timedelta)
  | .applyControl d p => some (p, d)
  | _ => none

def LogEvent.isReset : LogEvent K Img → Bool
  | .reset _ _ => true
  | _ => false

/-- Total time recorded in a log. -/
def logTime (l : List (LogEvent K Img)) : Timedelta := (l.map LogEvent.time).sum

/-- The sheet according to a log: the last grid announced. -/
def replay (l : List (LogEvent K Img)) : Option (Grid K) := (l.filterMap LogEvent.grid?).getLast?

/-- What a control aimed at material position `p` may do: a (possibly empty) chain of transitions
to successor states that the rate function offers for a beam at `p`, none later than the dwell
time. -/
structure ControlEffect (rate : RateFunction K) (p : V2 K) (dwell : Timedelta) (g : Grid K)
    (trs : List (Timedelta × Grid K)) (g' : Grid K) : Prop where
  chain : ChainFrom (fun a b => ∃ ss, rate a p = .ok ss ∧ ∃ x ∈ ss, x.grid = b) g (trs.map Prod.snd)
  final : g' = (trs.getLast?.map Prod.snd).getD g
  inTime : ∀ e ∈ trs, e.1 ≤ dwell

/-- `evs` is what observers are told, and `g'` the resulting sheet, when controls aimed at the
given material positions for the given times are applied one after the other to sheet `g`. -/
inductive Applied (rate : RateFunction K) [Field K] :
    List (V2 K × Timedelta) → Grid K → List (Event K Img) → Grid K → Prop
  | nil (g : Grid K) : Applied rate [] g [] g
  | cons {p dwell g trs g1 cs evs g2} (h : ControlEffect rate p dwell g trs g1)
      (ht : Applied rate cs g1 evs g2) :
      Applied rate ((p, dwell) :: cs) g
        (.applyControl (BeamControl.mk' p dwell) ::
          (trs.map (fun e => Event.transition e.1 e.2) ++ evs)) g2

/-- Events that concern imaging only. -/
def Imaging : Event K Img → Prop
  | .takeImage _ _ => True
  | .fovChange _ => True
  | .generatedImage _ => True
  | _ => False

/-- The latest observation among the results of a history of calls. -/
def lastObs (rs : List (Option (Except Err (Observation K Img)))) : Option (Observation K Img) :=
  (rs.filterMap (fun r => match r with | some (.ok o) => some o | _ => none)).getLast?

/-- The total time the observations of a history report. -/
def reportedTime (rs : List (Option (Except Err (Observation K Img)))) : Timedelta :=
  (rs.map (fun r => match r with | some (.ok o) => o.elapsedTime | _ => 0)).sum

/-- A call to `reset` or `step_and_image`. -/
def SimOp.isCall {O : Type} : SimOp K O → Bool
  | .reset _ => true
  | .step _ _ => true
  | _ => false

/-- The same call for a simulator with other observers, if it is not about observers. -/
def SimOp.call? {O O' : Type} : SimOp K O → Option (SimOp K O')
  | .reset b => some (.reset b)
  | .step cs b => some (.step cs b)
  | _ => none

/-- None of the calls is a reset that returned. -/
def NoNewEpisode {O : Type} (ops : List (SimOp K O))
    (rs : List (Option (Except Err (Observation K Img)))) : Prop :=
  ∀ b o, (SimOp.reset b, some (Except.ok o)) ∉ ops.zip rs

/-- The material positions and dwell times that controls given in image coordinates stand for when
the image shows the field of view `f`. -/
def aim [Field K] (f : Fov K) (cs : List (BeamControl K)) : List (V2 K × Timedelta) :=
  cs.map (fun c => (lerp f.lowerLeft f.upperRight c.position, c.dwellTime))

/-- The controls (as aimed) that must be on record for a list of calls and their results, when the
last observation before the first call showed `f`.  A call that returned has recorded all its
controls, aimed through the observation before it.  A step that raised has recorded the first few.
No call in the list is a reset that returned. -/
inductive ControlRecord [Field K] {O : Type} :
    Fov K → List (SimOp K O × Option (Except Err (Observation K Img))) →
      List (V2 K × Timedelta) → Prop
  | nil (f : Fov K) : ControlRecord f [] []
  | step {f cs b o calls l} (h : ControlRecord o.fov calls l) :
      ControlRecord f ((.step cs b, some (.ok o)) :: calls) (aim f cs ++ l)
  | stepRaised {f cs b e calls l} (n : ℕ) (h : ControlRecord f calls l) :
      ControlRecord f ((.step cs b, some (.error e)) :: calls) (aim f (cs.take n) ++ l)
  | resetRaised {f b e calls l} (h : ControlRecord f calls l) :
      ControlRecord f ((.reset b, some (.error e)) :: calls) l

end PD.Spec
