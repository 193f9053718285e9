/- Model of `MicroscopeAgent` and `MicroscopeAgentLogger` (microscope_agent.py). -/
import Verif.Model.Environment

namespace PD

/-- `dm_env.TimeStep` as the microscope agent builds it: `dm_env.restart` has neither reward nor
discount. -/
structure AgentStep (F : Type) where
  stepType : StepType
  reward : Option ℝ
  discount : Option ℝ
  observation : F

/-- The collaborators of a microscope agent that never change (microscope_agent.py:40-50);
`agentStep` is the step method of the wrapped agent with state `α`. -/
structure MicroCfg (K G Img F α : Type) where
  rng : Rng K G
  adapter : Adapter K
  features : Observation K Img → AnyGoal K → Except Err F
  agentStep : AgentStep F → EStateM Err α (List K)

/-- The mutable state of a microscope agent: the goal, the adapter's beam position and generator,
the wrapped agent and `_is_first_step`. -/
structure Micro (K G α : Type) where
  goal : GoalState K
  beam : V2 K
  adapterRng : G
  agent : α
  isFirstStep : Bool

variable {K G Img F α : Type} [Field K] [LinearOrder K] [FloorRing K]

/-- microscope_agent.py:52-62 `reset` with the caller's generator in state `g`; its new state is
returned.  `feature_constructor.reset` does nothing. -/
def Micro.reset (cfg : MicroCfg K G Img F α) (g : G) (o : Observation K Img) :
    EStateM Err (Micro K G α) G := fun s =>
  match GoalState.reset cfg.rng o s.goal g with
  | .error e => .error e s
  | .ok (goal, g') =>
    let (beam, ga) := cfg.adapter.reset cfg.rng s.beam s.adapterRng
    .ok g' { s with goal := goal, beam := beam, adapterRng := ga, isFirstStep := true }

/-- microscope_agent.py:73-83: the rescan control. -/
def rescan : List (BeamControl K) := [BeamControl.mk' ⟨0, 0⟩ 0]

/-- microscope_agent.py:85-95: the time step shown to the wrapped agent. -/
noncomputable def Micro.timeStep (isFirst : Bool) (o : Observation K Img) (r : GoalReturn) (f : F) :
    AgentStep F :=
  let discount := gammaPow o.elapsedTime
  if r.isTerminal then ⟨.last, some r.reward, some 0, f⟩
  else if r.isTruncated then ⟨.last, some r.reward, some discount, f⟩
  else if isFirst then ⟨.first, none, none, f⟩
  else ⟨.mid, some r.reward, some discount, f⟩

/-- microscope_agent.py:64-104 `step`. -/
noncomputable def Micro.step (cfg : MicroCfg K G Img F α) (o : Observation K Img) :
    EStateM Err (Micro K G α) (List (BeamControl K)) := fun s =>
  match cfg.features o (.singleSilicon s.goal) with
  | .error .siliconNotFound => .ok rescan s
  | .error e => .error e s
  | .ok f =>
    match GoalState.calculate o s.goal with
    | .error .siliconNotFound goal => .ok rescan { s with goal := goal }
    | .error e goal => .error e { s with goal := goal }
    | .ok r goal =>
      let s1 := { s with goal := goal }
      match cfg.agentStep (Micro.timeStep s1.isFirstStep o r f) s1.agent with
      | .error e agent => .error e { s1 with agent := agent }
      | .ok action agent =>
        let s2 := { s1 with agent := agent }
        match cfg.adapter.getAction o action s2.beam with
        | .error e beam => .error e { s2 with beam := beam }
        | .ok controls beam => .ok controls { s2 with beam := beam, isFirstStep := false }

/-- A sequence of steps: the result of each, and the final state. -/
noncomputable def Micro.run (cfg : MicroCfg K G Img F α) : List (Observation K Img) → Micro K G α →
    List (Except Err (List (BeamControl K))) × Micro K G α
  | [], s => ([], s)
  | o :: os, s =>
    match Micro.step cfg o s with
    | .ok c s' => let (rs, s2) := Micro.run cfg os s'; (.ok c :: rs, s2)
    | .error e s' => let (rs, s2) := Micro.run cfg os s'; (.error e :: rs, s2)

/-! ### The logger -/

/-- microscope_agent.py:107-112 `StepRecord` (times in µs). -/
structure StepRecord where
  episode : ℕ
  episodeStep : ℕ
  reward : ℝ
  elapsed : Timedelta
  terminal : Bool

/-- microscope_agent.py:115-121 `EpisodeRecord`; the goal is a single-silicon goal. -/
structure EpisodeRecord (K : Type) where
  episode : ℕ
  episodeSteps : ℕ
  episodeReturn : ℝ
  episodeGoal : V2 K

/-- A `Trajectory` in `_trajectories`.  It holds the list object it was built from: while that list
is still `_current_trajectory` the trajectory grows with it (`live`). -/
inductive LoggedTrajectory (K Img : Type) where
  | closed (os : List (Observation K Img))
  | live

/-- The observations a logged trajectory has now. -/
def LoggedTrajectory.read (current : List (Observation K Img)) :
    LoggedTrajectory K Img → List (Observation K Img)
  | .closed os => os
  | .live => current

/-- What `flush` writes: trajectories.tfrecords, steps.csv, episodes.csv. -/
structure LogFiles (K Img : Type) where
  trajectories : List (List (Observation K Img))
  steps : List StepRecord
  episodes : List (EpisodeRecord K)

/-- microscope_agent.py:129-144: the attributes of a `MicroscopeAgentLogger`, and the files. -/
structure Logger (K G Img α : Type) where
  agent : Micro K G α
  episode : ℕ
  episodeReturn : ℝ
  episodeStep : ℕ
  current : List (Observation K Img)
  trajectories : List (LoggedTrajectory K Img)
  stepRecords : List StepRecord
  episodeRecords : List (EpisodeRecord K)
  files : Option (LogFiles K Img)

/-- microscope_agent.py:129-144 `__init__`. -/
def Logger.fresh (a : Micro K G α) : Logger K G Img α := ⟨a, 0, 0, 0, [], [], [], [], none⟩

/-- microscope_agent.py:146-161 `_make_episode_record`. -/
def Logger.makeEpisodeRecord (l : Logger K G Img α) : EpisodeRecord K :=
  ⟨l.episode, l.episodeStep, l.episodeReturn, l.agent.goal.currentGoal⟩

/-- microscope_agent.py:190-220 `flush`. -/
def Logger.flush (l : Logger K G Img α) : Logger K G Img α :=
  let l1 := if l.current ≠ [] then { l with trajectories := l.trajectories ++ [.live] } else l
  let l2 := if l1.episodeStep ≠ 0 then
    { l1 with episodeRecords := l1.episodeRecords ++ [l1.makeEpisodeRecord] } else l1
  { l2 with files := some ⟨l2.trajectories.map (LoggedTrajectory.read l2.current),
      l2.stepRecords, l2.episodeRecords⟩ }

/-- microscope_agent.py:227-237: the part of `reset` before the wrapped agent's. -/
def Logger.closeEpisode (l : Logger K G Img α) : Logger K G Img α :=
  let l1 := if l.episodeStep > 0 then
      let l' := { l with episode := l.episode + 1 }
      { l' with episodeRecords := l'.episodeRecords ++ [l'.makeEpisodeRecord] }
    else l
  let l2 := if l1.current ≠ [] then { l1 with trajectories := l1.trajectories ++ [.live] } else l1
  -- `self._current_trajectory = []`: what was live keeps the old list
  { l2 with
    episodeStep := 0, episodeReturn := 0, current := []
    trajectories := l2.trajectories.map (fun (t : LoggedTrajectory K Img) => .closed (t.read l2.current)) }

/-- microscope_agent.py:222-239 `reset`. -/
def Logger.reset (cfg : MicroCfg K G Img F α) (g : G) (o : Observation K Img) :
    EStateM Err (Logger K G Img α) G := fun l =>
  let l1 := l.closeEpisode
  match Micro.reset cfg g o l1.agent with
  | .error e a => .error e { l1 with agent := a }
  | .ok g' a => .ok g' { l1 with agent := a }

/-- microscope_agent.py:241-256 `step`. -/
noncomputable def Logger.step (cfg : MicroCfg K G Img F α) (o : Observation K Img) :
    EStateM Err (Logger K G Img α) (List (BeamControl K)) := fun l =>
  match Micro.step cfg o l.agent with
  | .error e a => .error e { l with agent := a }
  | .ok controls a =>
    match GoalState.calculate o a.goal with
    | .error e goal => .error e { l with agent := { a with goal := goal } }
    | .ok r goal =>
      let l1 := { l with agent := { a with goal := goal }
                         episodeStep := l.episodeStep + 1
                         episodeReturn := l.episodeReturn + r.reward }
      .ok controls { l1 with
        current := l1.current ++ [o]
        stepRecords := l1.stepRecords ++
          [⟨l1.episode, l1.episodeStep, r.reward, o.elapsedTime, r.isTerminal⟩] }

/-- A call on an agent or a logger. -/
inductive AgentOp (K G Img : Type) where
  | reset (g : G) (o : Observation K Img)
  | step (o : Observation K Img)
  | flush

/-- What a call returned: the caller's generator, the controls, or nothing. -/
inductive AgentOut (K G : Type) where
  | reset (g : G)
  | step (controls : List (BeamControl K))
  | flushed
  | raised (e : Err)

/-- One call on a logger. -/
noncomputable def Logger.exec (cfg : MicroCfg K G Img F α) (l : Logger K G Img α) :
    AgentOp K G Img → AgentOut K G × Logger K G Img α
  | .reset g o => match Logger.reset cfg g o l with
    | .ok g' l' => (.reset g', l')
    | .error e l' => (.raised e, l')
  | .step o => match Logger.step cfg o l with
    | .ok c l' => (.step c, l')
    | .error e l' => (.raised e, l')
  | .flush => (.flushed, l.flush)

/-- The same call on the agent itself; it has no `flush`, which does nothing here. -/
noncomputable def Micro.exec (cfg : MicroCfg K G Img F α) (a : Micro K G α) :
    AgentOp K G Img → AgentOut K G × Micro K G α
  | .reset g o => match Micro.reset cfg g o a with
    | .ok g' a' => (.reset g', a')
    | .error e a' => (.raised e, a')
  | .step o => match Micro.step cfg o a with
    | .ok c a' => (.step c, a')
    | .error e a' => (.raised e, a')
  | .flush => (.flushed, a)

/-- A history of calls on a logger. -/
noncomputable def Logger.history (cfg : MicroCfg K G Img F α) : List (AgentOp K G Img) →
    Logger K G Img α → List (AgentOut K G) × Logger K G Img α
  | [], l => ([], l)
  | op :: ops, l =>
    let (r, l') := Logger.exec cfg l op
    let (rs, l2) := Logger.history cfg ops l'
    (r :: rs, l2)

/-- A history of calls on an agent. -/
noncomputable def Micro.history (cfg : MicroCfg K G Img F α) : List (AgentOp K G Img) →
    Micro K G α → List (AgentOut K G) × Micro K G α
  | [], a => ([], a)
  | op :: ops, a =>
    let (r, a') := Micro.exec cfg a op
    let (rs, a2) := Micro.history cfg ops a'
    (r :: rs, a2)

end PD
