import Verif.Lemmas.ApplyLoop
import Verif.Lemmas.Argmin
import Verif.Lemmas.Argsort
import Verif.Lemmas.Chance
import Verif.Lemmas.Endless
import Verif.Lemmas.EnvErase
import Verif.Lemmas.EnvHistory
import Verif.Lemmas.Environment
import Verif.Lemmas.Episode
import Verif.Lemmas.Erase
import Verif.Lemmas.FairDraws
import Verif.Lemmas.FairRng
import Verif.Lemmas.Float32
import Verif.Lemmas.FloatBeam
import Verif.Lemmas.FloatChecks
import Verif.Lemmas.FloatData
import Verif.Lemmas.FloatEnv
import Verif.Lemmas.FloatGreedy
import Verif.Lemmas.FloatLabel
import Verif.Lemmas.FloatOrder
import Verif.Lemmas.FloatPlay
import Verif.Lemmas.FloatPrior
import Verif.Lemmas.FloatPristine
import Verif.Lemmas.FloatRates
import Verif.Lemmas.FloatSim
import Verif.Lemmas.FloatView
import Verif.Lemmas.Floats
import Verif.Lemmas.Goal
import Verif.Lemmas.Lists
import Verif.Lemmas.Material
import Verif.Lemmas.NearData
import Verif.Lemmas.Progress
import Verif.Lemmas.SimData
import Verif.Lemmas.SimHistory
import Verif.Lemmas.Simulator
import Verif.Lemmas.Start
import Verif.Lemmas.Tags
import Verif.Lemmas.Translate
import Verif.Lemmas.Witness
import Verif.Model.Adapters
import Verif.Model.AgentFiles
import Verif.Model.AlignLatest
import Verif.Model.AlignTrajectories
import Verif.Model.Aligners
import Verif.Model.Archives
import Verif.Model.Augment
import Verif.Model.Basic
import Verif.Model.BatchNorm
import Verif.Model.BestCheckpoint
import Verif.Model.Classes
import Verif.Model.Convert
import Verif.Model.DataPoints
import Verif.Model.Detector
import Verif.Model.DetectorLayers
import Verif.Model.Distill
import Verif.Model.Ensemble
import Verif.Model.EnsembleTraining
import Verif.Model.Environment
import Verif.Model.Eval
import Verif.Model.Experiments
import Verif.Model.Features
import Verif.Model.FloatData
import Verif.Model.FloatEnv
import Verif.Model.FloatFrames
import Verif.Model.FloatGoals
import Verif.Model.FloatGreedy
import Verif.Model.FloatPrior
import Verif.Model.FloatRates
import Verif.Model.FloatSheet
import Verif.Model.FloatSim
import Verif.Model.Floats
import Verif.Model.Fov
import Verif.Model.FramePictures
import Verif.Model.Geometry
import Verif.Model.Goal
import Verif.Model.GraphLoss
import Verif.Model.GraphNet
import Verif.Model.GreedyAgent
import Verif.Model.Grid
import Verif.Model.GridEq
import Verif.Model.Imaging
import Verif.Model.Knn
import Verif.Model.Labels
import Verif.Model.Lattice
import Verif.Model.LatticeTypes
import Verif.Model.Learn
import Verif.Model.Learners
import Verif.Model.LoggerBlock
import Verif.Model.Material
import Verif.Model.Merge
import Verif.Model.MicroscopeAgent
import Verif.Model.Mixtures
import Verif.Model.ModelStack
import Verif.Model.Names
import Verif.Model.NoiseStages
import Verif.Model.PadCrop
import Verif.Model.Plotting
import Verif.Model.Predictor
import Verif.Model.Proto
import Verif.Model.RatePicture
import Verif.Model.RatePlots
import Verif.Model.Rates
import Verif.Model.Records
import Verif.Model.Registry
import Verif.Model.Rng
import Verif.Model.Scale
import Verif.Model.Schedule
import Verif.Model.Sharding
import Verif.Model.Simulator
import Verif.Model.Splits
import Verif.Model.StackData
import Verif.Model.Synthetic
import Verif.Model.TrainScript
import Verif.Model.Training
import Verif.Model.TrainingData
import Verif.Model.TrainingImages
import Verif.Model.Transitions
import Verif.Model.UNet
import Verif.Model.Upload
import Verif.Props.Adapters
import Verif.Props.AgentFiles
import Verif.Props.AimedMoves
import Verif.Props.AlignLatest
import Verif.Props.AlignTrajectories
import Verif.Props.Aligners
import Verif.Props.Archives
import Verif.Props.Augment
import Verif.Props.BatchNorm
import Verif.Props.BestCheckpoint
import Verif.Props.Canonical
import Verif.Props.Chance
import Verif.Props.Classes
import Verif.Props.CleanImage
import Verif.Props.Connected
import Verif.Props.Convert
import Verif.Props.DataPoints
import Verif.Props.Declared
import Verif.Props.DeclaredWins
import Verif.Props.Detector
import Verif.Props.DetectorLayers
import Verif.Props.Displaced
import Verif.Props.Distill
import Verif.Props.Draws
import Verif.Props.Endless
import Verif.Props.Ensemble
import Verif.Props.EnsembleTraining
import Verif.Props.EnvData
import Verif.Props.Environment
import Verif.Props.Episode
import Verif.Props.Eval
import Verif.Props.Experiments
import Verif.Props.Features
import Verif.Props.FloatBeam
import Verif.Props.FloatData
import Verif.Props.FloatDwell
import Verif.Props.FloatEnv
import Verif.Props.FloatFrames
import Verif.Props.FloatGoals
import Verif.Props.FloatGreedy
import Verif.Props.FloatPrior
import Verif.Props.FloatRates
import Verif.Props.FloatRefused
import Verif.Props.FloatSheet
import Verif.Props.FloatSim
import Verif.Props.Floats
import Verif.Props.FramePictures
import Verif.Props.Frames
import Verif.Props.Geometry
import Verif.Props.Goal
import Verif.Props.GraphLoss
import Verif.Props.GraphNet
import Verif.Props.GreedyAgent
import Verif.Props.GreedyWins
import Verif.Props.GridEq
import Verif.Props.Imaging
import Verif.Props.Jumps
import Verif.Props.LabelChance
import Verif.Props.Labels
import Verif.Props.Lattice
import Verif.Props.Leading
import Verif.Props.Learn
import Verif.Props.Learners
import Verif.Props.LimitedWins
import Verif.Props.LoggerBlock
import Verif.Props.Material
import Verif.Props.Merge
import Verif.Props.MicroscopeAgent
import Verif.Props.Middle
import Verif.Props.Mixtures
import Verif.Props.ModelStack
import Verif.Props.Names
import Verif.Props.NearData
import Verif.Props.NoiseStages
import Verif.Props.PadCrop
import Verif.Props.Pieces
import Verif.Props.Plans
import Verif.Props.Play
import Verif.Props.Plotting
import Verif.Props.PredictInput
import Verif.Props.Predictor
import Verif.Props.Progress
import Verif.Props.Proto
import Verif.Props.RatePicture
import Verif.Props.RatePlots
import Verif.Props.Rates
import Verif.Props.Reach
import Verif.Props.Records
import Verif.Props.Registry
import Verif.Props.Return
import Verif.Props.Rigid
import Verif.Props.Scale
import Verif.Props.Schedule
import Verif.Props.Scoring
import Verif.Props.Sharding
import Verif.Props.SimData
import Verif.Props.Simulator
import Verif.Props.Splits
import Verif.Props.StackData
import Verif.Props.Start
import Verif.Props.StemImage
import Verif.Props.SubLattice
import Verif.Props.Synthetic
import Verif.Props.TrainScript
import Verif.Props.Training
import Verif.Props.TrainingData
import Verif.Props.TrainingImages
import Verif.Props.Transitions
import Verif.Props.Translate
import Verif.Props.UNet
import Verif.Props.Upload
import Verif.Props.Winning
import Verif.Spec.Adapters
import Verif.Spec.AlignTrajectories
import Verif.Spec.Aligners
import Verif.Spec.Augment
import Verif.Spec.Chance
import Verif.Spec.Convert
import Verif.Spec.DataPoints
import Verif.Spec.DeclaredWins
import Verif.Spec.Displaced
import Verif.Spec.Draws
import Verif.Spec.Endless
import Verif.Spec.Ensemble
import Verif.Spec.EnvData
import Verif.Spec.Environment
import Verif.Spec.Episode
import Verif.Spec.Eval
import Verif.Spec.Experiments
import Verif.Spec.FloatBeam
import Verif.Spec.FloatData
import Verif.Spec.FloatEnv
import Verif.Spec.FloatGreedy
import Verif.Spec.FloatPrior
import Verif.Spec.FloatRates
import Verif.Spec.FloatSim
import Verif.Spec.Frames
import Verif.Spec.Geometry
import Verif.Spec.Goal
import Verif.Spec.GreedyWins
import Verif.Spec.GridEq
import Verif.Spec.Imaging
import Verif.Spec.Jumps
import Verif.Spec.Lattice
import Verif.Spec.Leading
import Verif.Spec.LimitedWins
import Verif.Spec.Material
import Verif.Spec.Merge
import Verif.Spec.MicroscopeAgent
import Verif.Spec.Mixture
import Verif.Spec.ModelStack
import Verif.Spec.NearData
import Verif.Spec.Pieces
import Verif.Spec.Plans
import Verif.Spec.Predictor
import Verif.Spec.Progress
import Verif.Spec.Proto
import Verif.Spec.Rates
import Verif.Spec.Reach
import Verif.Spec.Return
import Verif.Spec.Scoring
import Verif.Spec.Sharding
import Verif.Spec.SimData
import Verif.Spec.Simulator
import Verif.Spec.Splits
import Verif.Spec.Training
import Verif.Spec.TrainingData
import Verif.Spec.Transitions
import Verif.Spec.Upload
import Verif.Spec.Winning
