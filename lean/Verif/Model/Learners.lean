/- Model of the learners the training script offers (pipeline/train_rate_learner.py).  scikit-learn is
specified, not modelled. -/
import Verif.Model.Predictor
import Verif.Model.StackData

namespace PD

/-- train_rate_learner.py:51-58 `LearnerType`. -/
inductive LearnerType where
  | rateNetwork | classificationNetwork | randomForest | svm | knn | gp | sklearnMlp
  deriving DecidableEq

/-- `LearnerType` is a string enumeration: members equal their values. -/
def learnerType? : String → Option LearnerType
  | "rate_network" => some .rateNetwork
  | "classification_network" => some .classificationNetwork
  | "random_forest" => some .randomForest
  | "svm" => some .svm
  | "knn" => some .knn
  | "gp" => some .gp
  | "sklearn_mlp" => some .sklearnMlp
  | _ => none

/-- A fitted classifier: the classes it knows, in the order of its probabilities, its decision and its
probabilities for a row. -/
structure SkModel where
  classes : List ℕ
  predict : List ℝ → Except Err ℕ
  proba : List ℝ → Except Err (List ℝ)

/-- Fitting, as documented by scikit-learn for the arguments given in train_rate_learner.py:130-152.
`classes_` are the labels of the data in increasing order and `predict_proba` has one column for each;
`SVC` without `probability=True` has no `predict_proba`; `MLPClassifier` refuses a number as `learning_rate`
when fitting (`InvalidParameterError`, a `ValueError`); a forest can be fitted to any data. -/
structure Sklearn where
  fit : LearnerType → List (List ℝ) → List ℕ → Except Err SkModel
  classes : ∀ t xs ys m, fit t xs ys = .ok m → m.classes.Pairwise (· < ·) ∧ ∀ c, c ∈ m.classes ↔ c ∈ ys
  columns : ∀ t xs ys m, fit t xs ys = .ok m → ∀ x p, m.proba x = .ok p → p.length = m.classes.length
  svm : ∀ xs ys m, fit .svm xs ys = .ok m → ∀ x, m.proba x = .error .attributeError
  mlp : ∀ xs ys, fit .sklearnMlp xs ys = .error .valueError
  forest : ∀ xs ys, xs ≠ [] → xs.length = ys.length → ∃ m, fit .randomForest xs ys = .ok m ∧
    ∀ x, (∃ c, m.predict x = .ok c) ∧ ∃ p, m.proba x = .ok p

/-- train_rate_learner.py:110-157 `get_sklearn_classifier`: which classifier is made. -/
def getSklearnClassifier (learner : String) : Except Err LearnerType :=
  match learnerType? learner with
  | some .sklearnMlp => .ok .sklearnMlp
  | some .knn => .ok .knn
  | some .gp => .ok .gp
  | some .randomForest => .ok .randomForest
  | some .svm => .ok .svm
  | _ => .error .valueError

/-- The rows and labels of one member (train_rate_learner.py:173-176). -/
structure LabelledRows where
  rows : List (List ℝ)
  labels : List ℕ

/-- `model.score`: the fraction of right decisions; no rows raise `ValueError`. -/
noncomputable def SkModel.score (m : SkModel) (d : LabelledRows) : Except Err ℝ :=
  if d.rows = [] then .error .valueError
  else
    match d.rows.mapM m.predict with
    | .error e => .error e
    | .ok cs => .ok (((cs.zip d.labels).filter (fun cl => decide (cl.1 = cl.2))).length / d.rows.length)

/-- train_rate_learner.py:160-181 `train_sklearn_classifier`: model, training and test accuracy. -/
noncomputable def trainSklearn (sk : Sklearn) (kind : LearnerType) (train test : LabelledRows) :
    Except Err (SkModel × ℝ × ℝ) := do
  let m ← sk.fit kind train.rows train.labels
  let testAccuracy ← m.score test
  let trainAccuracy ← m.score train
  pure (m, trainAccuracy, testAccuracy)

/-- train_rate_learner.py:776-797: the loop over the members.  Saving each model is left out. -/
noncomputable def trainMembers (sk : Sklearn) (learner : String) (data : List (LabelledRows × LabelledRows)) :
    Except Err (List (SkModel × ℝ × ℝ)) :=
  data.mapM (fun d => do
    let kind ← getSklearnClassifier learner
    trainSklearn sk kind d.1 d.2)

/-- `np.average(np.asarray(rows), axis=0)`: rows of different lengths make no array (`ValueError`). -/
noncomputable def averageRows : List (List ℝ) → Except Err (List ℝ)
  | [] => .error .zeroDivision
  | p :: ps =>
    if ps.all (fun q => decide (q.length = p.length)) then
      .ok ((List.range p.length).map (fun k => ((p :: ps).map (fun q => q.getD k 0)).sum / (ps.length + 1)))
    else .error .valueError

/-- train_rate_learner.py:803-808, 820: `VotingClassifier(..., voting='soft')` with
`estimators_ = models`, and `lambda x: ensemble.predict_proba(x)[..., 1:]` for one row. -/
noncomputable def votedRates (models : List SkModel) (x : List ℝ) : Except Err (List ℝ) := do
  let ps ← models.mapM (fun m => m.proba x)
  let p ← averageRows ps
  pure (p.drop 1)

/-- `np.median` of numbers. -/
noncomputable def medianOf (l : List ℝ) : ℝ :=
  let s := l.insertionSort (· ≤ ·)
  (s.getD ((s.length - 1) / 2) 0 + s.getD (s.length / 2) 0) / 2

/-- `np.median(rows, axis=0)`. -/
noncomputable def medianRow (rows : List (List ℝ)) : List ℝ :=
  (List.range ((rows.head?).map List.length |>.getD 0)).map (fun k => medianOf (rows.map (fun r => r.getD k 0)))

section
variable {P S : Type}

/-- A network can only be traced on contexts as long as those it was trained with; otherwise haiku raises
`ValueError`, as for several networks (`Packaged.trace`). -/
def networksFor (trained packaged : ℕ) (nets : P → S → List (List ℝ → List ℝ)) : P → S → List (List ℝ → List ℝ) :=
  if trained = packaged then nets else fun _ _ => []

/-- train_rate_learner.py:673-686, 707-759 for the two networks: prepare the data, train (and distill),
save with the median of the contexts.  Training is left open (`fitted`).  Without contexts making the
arrays raises (`jnp.asarray(None)`).  Metrics and plots are left out. -/
noncomputable def trainAndSave (nets : P → S → List (List ℝ → List ℝ)) (fitted : RateData → P × S)
    (rateNetwork : Bool) (data : List DataPoint) (dir : String) :
    EStateM Err (PredSystem P S) Unit := fun s =>
  match prepareData s.pred.cfg.useCurrent s.pred.cfg.useVoltage rateNetwork data with
  | .error e => .error e s
  | .ok d =>
    match d.toRateData with
    | .error e => .error e s
    | .ok r =>
      match r.context with
      | none => .error .typeError s
      | some rows =>
        let ps := fitted r
        let s1 := { s with pred := s.pred.trained ps.1 ps.2 }
        let fixed := medianRow rows
        PredSystem.save (networksFor (fixed.length + 2) s.pred.contextDim nets) dir 0 (some fixed) s1

end

end PD
