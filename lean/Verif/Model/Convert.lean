/- Model of the conversion program pipeline/trajectories_to_transitions.py. -/
import Verif.Model.Records
import Verif.Model.Proto

namespace PD
variable {K Img B : Type}

/-- The bytes of messages: `SerializeToString` and `FromString` of protobuf (io.py:60, io.py:79), for the two
messages the program handles.  What was serialised is parsed back; parsing other bytes may fail or give some
message. -/
structure Wire (K Img B : Type) where
  trajectoryBytes : List (PObservation K Img) → B
  trajectoryParse : B → Except Err (List (PObservation K Img))
  transitionBytes : PTransition K Img → B
  transitionParse : B → Except Err (PTransition K Img)
  trajectory_back : ∀ m, trajectoryParse (trajectoryBytes m) = .ok m
  transition_back : ∀ m, transitionParse (transitionBytes m) = .ok m

variable [Field K] [LinearOrder K] [FloorRing K]

/-- io.py:78-82 for a trajectory. -/
def Wire.writeTrajectory (w : Wire K Img B) (t : List (Observation K Img)) : Except Err B :=
  (trajectoryToProto t).map w.trajectoryBytes

/-- io.py:58-61 with record type `Trajectory`. -/
def Wire.readTrajectory (w : Wire K Img B) (b : B) : Except Err (List (Observation K Img)) :=
  (w.trajectoryParse b).map trajectoryFromProto

/-- io.py:78-82 for a transition. -/
def Wire.writeTransition (w : Wire K Img B) (t : Transition K Img) : Except Err B :=
  (transitionToProto t).map w.transitionBytes

/-- io.py:58-61 with record type `Transition`. -/
def Wire.readTransition (w : Wire K Img B) (b : B) : Except Err (Transition K Img) :=
  (w.transitionParse b).map transitionFromProto

/-- trajectories_to_transitions.py:101-109 `main`: the files afterwards, and the exception.  All trajectories are
read before the target is opened. -/
def convertMain (w : Wire K Img B) (fs : Files B) (source target : List Char) : Files B × Option Err :=
  match readRecords w.readTrajectory fs source with
  | (_, some e) => (fs, some e)
  | (trajectories, none) => writeRecords w.writeTransition fs target (trajectoriesToTransitions false trajectories)

end PD
