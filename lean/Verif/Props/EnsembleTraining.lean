/- C112: training the ensemble of the rate predictor. -/
import Verif.Model.EnsembleTraining
import Verif.Props.Ensemble
import Verif.Props.Proto

set_option linter.unusedSectionVars false
set_option linter.unusedSimpArgs false

namespace PD.Spec
open PD
variable {P O G : Type}

/-- The rows of the data a member is trained with (C85): those drawn for it, or all but the first of a shuffled list. -/
noncomputable def trainingDraw (bootstrap : Bool) (fraction : ℝ) (n : ℕ) (draw : ℕ → List ℕ) : List ℕ :=
  if bootstrap then draw n else (draw n).drop (sliceBound n (pyInt (n * fraction)))

/-- The mean of a loss over the rows of a member's data, predicted by a trained network. -/
noncomputable def meanLossOn (net : Mlp P G) (st : Student P O) (d : MemberData) (n : ℕ)
    (loss : (out : List ℝ) → (nextState : ℤ) → (elapsed : ℝ) → ℝ) : ℝ :=
  (∑ i ∈ Finset.range n, loss (net.eval st.params st.state (d.context.getD i [])) (d.states.getD i 0) (d.dt.getD i 0)) / n

/-- The loss on the neighbour of one example. -/
noncomputable def classLossOf (out : List ℝ) (nextState : ℤ) (_ : ℝ) : ℝ :=
  classLoss out.dropLast nextState.toNat (if nextState.toNat = 0 then 0 else 1)

/-- The loss on the total rate of one example. -/
noncomputable def rateLossOf (out : List ℝ) (nextState : ℤ) (elapsed : ℝ) : ℝ :=
  rateLoss ((out.getLast?).getD 0) elapsed (if nextState.toNat = 0 then 0 else 1)

end PD.Spec

namespace PD.Props
open PD PD.Spec

variable {P O G : Type}

/-! ### Lists of results -/

theorem forall₂_mapM {α β : Type} {f : α → Except Err β} {xs : List α} {ys : List β}
    (h : List.Forall₂ (fun x y => f x = .ok y) xs ys) : xs.mapM f = .ok ys := by
  induction h with
  | nil => rfl
  | cons h _ ih => rw [List.mapM_cons, h, ih]; rfl

theorem forall₂_get? {α β : Type} {R : α → β → Prop} {xs : List α} {ys : List β} (h : List.Forall₂ R xs ys) (i : ℕ) :
    (∀ y, ys[i]? = some y → ∃ x, xs[i]? = some x ∧ R x y) ∧ (∀ x, xs[i]? = some x → ∃ y, ys[i]? = some y ∧ R x y) := by
  induction h generalizing i with
  | nil => simp
  | cons h _ ih =>
    cases i with
    | zero => simpa using h
    | succ i => simpa using ih i

theorem mapM_get {α β : Type} {f : α → Except Err β} {xs : List α} {ys : List β} (h : xs.mapM f = .ok ys) {i : ℕ} {y : β}
    (hy : ys[i]? = some y) : ∃ x, xs[i]? = some x ∧ f x = .ok y :=
  (forall₂_get? (mapM_each h) i).1 y hy

/-! ### The test data do not matter -/

theorem scan_test (c : Training P O G) (train test test' : MemberData) (ks : List G) (st : Student P O)
    {st' : Student P O} {ms : List EpochMetrics} (h : c.scan train test ks st = .ok (st', ms)) :
    ∃ ms', c.scan train test' ks st = .ok (st', ms') := by
  induction ks generalizing st st' ms with
  | nil =>
    simp only [Training.scan, Except.ok.injEq, Prod.mk.injEq] at h ⊢
    exact ⟨[], h.1, rfl⟩
  | cons k ks ih =>
    simp only [Training.scan] at h ⊢
    cases he : c.epoch train st k with
    | error e => rw [he] at h; simp at h
    | ok r =>
      obtain ⟨s1, k1⟩ := r
      rw [he] at h
      simp only at h
      cases hs : c.scan train test ks s1 with
      | error e => rw [hs] at h; simp at h
      | ok r2 =>
        obtain ⟨s2, ms2⟩ := r2
        rw [hs] at h
        simp only [Except.ok.injEq, Prod.mk.injEq] at h
        obtain ⟨ms', h'⟩ := ih s1 hs
        simp only [h', ← h.1]
        exact ⟨_, rfl⟩

/-- What `members` does, once it succeeds. -/
theorem members_unfold (c : Training P O G) {trains tests : List MemberData} {n : ℕ} {key : G}
    {r : List (Student P O × List EpochMetrics)} (h : c.members trains tests n key = .ok r) :
    trains.length = n ∧ tests.length = n ∧ ∃ first rest trainKey initKey, trains = first :: rest ∧
      c.split key 2 = [trainKey, initKey] ∧
      ((trains.zip tests).zip ((c.split trainKey n).zip ((c.split initKey n).map (c.init (first.context.take 1))))).mapM
        (fun m => c.model m.1.1 m.1.2 m.2.1 m.2.2) = .ok r := by
  unfold Training.members at h
  split at h
  · simp at h
  · rename_i h1
    split at h
    · simp at h
    · rename_i h2
      rw [not_not] at h1 h2
      refine ⟨h1, h2, ?_⟩
      cases trains with
      | nil => simp at h
      | cons first rest =>
        simp only at h
        split at h
        · rename_i tk ik hk
          exact ⟨first, rest, tk, ik, rfl, hk, h⟩
        · simp at h

/-- C112: the trained networks do not depend on the data they are tested on. -/
theorem C112_no_leak (c : Training P O G) (trains tests tests' : List MemberData) (n : ℕ) (hn : tests'.length = n) (key : G)
    (r : List (Student P O × List EpochMetrics)) (h : c.members trains tests n key = .ok r) :
    ∃ r', c.members trains tests' n key = .ok r' ∧ r'.map Prod.fst = r.map Prod.fst := by
  obtain ⟨h1, h2, first, rest, tk, ik, rfl, hk, hm⟩ := members_unfold c h
  have key' : ∀ (a : List MemberData) (b b' : List MemberData) (w : List (G × Student P O)) (r : List (Student P O × List EpochMetrics)),
      b.length = a.length → b'.length = a.length →
      ((a.zip b).zip w).mapM (fun m => c.model m.1.1 m.1.2 m.2.1 m.2.2) = .ok r →
      ∃ r', ((a.zip b').zip w).mapM (fun m => c.model m.1.1 m.1.2 m.2.1 m.2.2) = .ok r' ∧ r'.map Prod.fst = r.map Prod.fst := by
    intro a
    induction a with
    | nil =>
      intro b b' w r hb hb' hr
      rw [List.zip_nil_left, List.zip_nil_left] at hr ⊢
      exact ⟨r, hr, rfl⟩
    | cons x a ih =>
      intro b b' w r hb hb' hr
      match b, b', w with
      | [], _, _ => simp at hb
      | _ :: _, [], _ => simp at hb'
      | y :: b, y' :: b', [] => 
        rw [List.zip_nil_right] at hr ⊢
        exact ⟨r, hr, rfl⟩
      | y :: b, y' :: b', z :: w =>
        have hr' := mapM_each hr
        simp only [List.zip_cons_cons] at hr' ⊢
        obtain ⟨⟨s, ms⟩, r1, hx, hrest, rfl⟩ := List.forall₂_cons_left_iff.1 hr'
        obtain ⟨r1', h1', h2'⟩ := ih b b' w r1 (by simpa using hb) (by simpa using hb') (forall₂_mapM hrest)
        obtain ⟨ms', hms'⟩ := scan_test c _ _ y' _ _ hx
        refine ⟨(s, ms') :: r1', ?_, by simp [h2']⟩
        refine forall₂_mapM (.cons hms' (mapM_each h1'))
  obtain ⟨r', h1', h2'⟩ := key' (first :: rest) tests tests' _ r (by omega) (by omega) hm
  refine ⟨r', ?_, h2'⟩
  unfold Training.members
  rw [if_neg (by rw [h1]; simp), if_neg (by rw [hn]; simp)]
  simp only [hk]
  exact h1'

/-! ### Members do not depend on each other -/

/-- States that only differ in the averages that are read. -/
def SameRunning (s s' : BnState) : Prop :=
  s.mean.hidden = s'.mean.hidden ∧ s.mean.counter = s'.mean.counter ∧ s.var.hidden = s'.var.hidden ∧
    s.var.counter = s'.var.counter

theorem update_same {e e' : RunningMean} (h : e.hidden = e'.hidden) (hc : e.counter = e'.counter) (v : List ℝ) :
    e.update v = e'.update v := by
  unfold RunningMean.update
  rw [h, hc]

theorem train_same (m : Mlp P G) (d : ℕ) (p : P) {s s' : BnState} (h : SameRunning s s') (hb : m.batchnorm = false → s = s')
    (k : G) (rows : List (List ℝ)) : m.train d p s k rows = m.train d p s' k rows := by
  unfold Mlp.train
  split
  · unfold bnTrain
    simp only [update_same h.1 h.2.1, update_same h.2.2.1 h.2.2.2]
  · rename_i hbn
    rw [hb (by simpa using hbn)]

theorem step_same (c : Training P O G) (k : G) {st st' : Student P O} (hp : st.params = st'.params) (ho : st.opt = st'.opt)
    (h : SameRunning st.state st'.state) (hb : c.net.batchnorm = false → st.state = st'.state) (batch : MemberData) :
    c.step k st batch = c.step k st' batch := by
  unfold Training.step Training.loss
  simp only [train_same c.net c.width _ h hb, hp, ho]

theorem mapM_nil_iff {α β : Type} {f : α → Except Err β} {xs : List α} {ys : List β} (h : xs.mapM f = .ok ys) :
    ys = [] ↔ xs = [] := by
  have := (mapM_each h).length_eq
  constructor
  · intro hy; rw [hy] at this; exact List.eq_nil_of_length_eq_zero (by simpa using this)
  · intro hx; rw [hx] at this; exact List.eq_nil_of_length_eq_zero (by simpa using this.symm)

theorem batchIndices_ne {l : List ℕ} {b : ℕ} {bs : List (List ℕ)} (h : batchIndices l b = .ok bs) : bs ≠ [] := by
  unfold batchIndices at h
  split at h
  · simp at h
  · split at h
    · simp at h
    · simp at h
    · rename_i hne _
      rw [Except.ok.injEq] at h
      intro hc
      exact hne (by rw [h, hc]) 

theorem epoch_same (c : Training P O G) (d : MemberData) {st st' : Student P O} (hp : st.params = st'.params)
    (ho : st.opt = st'.opt) (h : SameRunning st.state st'.state) (hb : c.net.batchnorm = false → st.state = st'.state) (k : G) :
    c.epoch d st k = c.epoch d st' k := by
  unfold Training.epoch
  split
  · split
    · rfl
    · rename_i bs hbs
      split
      · rfl
      · rename_i batches hbt
        have hne : batches ≠ [] := fun hc => batchIndices_ne hbs ((mapM_nil_iff hbt).1 hc)
        obtain ⟨b, rest, rfl⟩ := List.exists_cons_of_ne_nil hne
        simp only [List.foldl_cons, step_same c _ hp ho h hb]
  · rfl

theorem model_same (c : Training P O G) (he : 0 < c.epochs) (hs : ∀ k n, (c.split k n).length = n) (train test : MemberData)
    (k : G) {st st' : Student P O} (hp : st.params = st'.params)
    (ho : st.opt = st'.opt) (h : SameRunning st.state st'.state) (hb : c.net.batchnorm = false → st.state = st'.state) :
    c.model train test k st = c.model train test k st' := by
  unfold Training.model
  have hl := hs k c.epochs
  cases hk : c.split k c.epochs with
  | nil => rw [hk] at hl; simp at hl; omega
  | cons k0 ks =>
    simp only [Training.scan, epoch_same c train hp ho h hb]

theorem init_same (c : Training P O G) (x x' : List (List ℝ)) (k : G) :
    (c.init x k).params = (c.init x' k).params ∧ (c.init x k).opt = (c.init x' k).opt ∧
      SameRunning (c.init x k).state (c.init x' k).state ∧
      (c.net.batchnorm = false → (c.init x k).state = (c.init x' k).state) := by
  refine ⟨rfl, rfl, ?_, ?_⟩
  · unfold Training.init SameRunning
    simp only
    split
    · exact ⟨rfl, rfl, rfl, rfl⟩
    · exact ⟨rfl, rfl, rfl, rfl⟩
  · intro h
    simp [Training.init, h]

theorem zip_get? {α β : Type} {l : List α} {m : List β} {i : ℕ} {x : α × β} (h : (l.zip m)[i]? = some x) :
    l[i]? = some x.1 ∧ m[i]? = some x.2 := by
  rw [List.getElem?_zip_eq_some] at h
  exact h

/-- What becomes of one member. -/
theorem member_get (c : Training P O G) {trains tests : List MemberData} {n : ℕ} {key : G}
    {r : List (Student P O × List EpochMetrics)} (h : c.members trains tests n key = .ok r) {i : ℕ}
    {m : Student P O × List EpochMetrics} (hm : r[i]? = some m) :
    ∃ train test k ik x trainKey initKey, trains[i]? = some train ∧ tests[i]? = some test ∧
      c.split key 2 = [trainKey, initKey] ∧ (c.split trainKey n)[i]? = some k ∧ (c.split initKey n)[i]? = some ik ∧
      c.model train test k (c.init x ik) = .ok m := by
  obtain ⟨h1, h2, first, rest, tk, ik, rfl, hk, hr⟩ := members_unfold c h
  obtain ⟨⟨⟨a, b⟩, k, s⟩, hx, hmod⟩ := mapM_get hr hm
  obtain ⟨hab, hks⟩ := zip_get? hx
  obtain ⟨ha, hb⟩ := zip_get? hab
  obtain ⟨hk', hs'⟩ := zip_get? hks
  rw [List.getElem?_map, Option.map_eq_some_iff] at hs'
  obtain ⟨key', hkey', rfl⟩ := hs'
  exact ⟨a, b, k, key', _, tk, ik, ha, hb, hk, hk', hkey', hmod⟩

/-- C112: a member's network depends on its own training data only: neither on the data of other members nor on any
test data. -/
theorem C112_own_data (c : Training P O G) (he : 0 < c.epochs) (hs : ∀ k n, (c.split k n).length = n)
    (trains tests trains' tests' : List MemberData) (n : ℕ) (key : G) (r r' : List (Student P O × List EpochMetrics))
    (h : c.members trains tests n key = .ok r) (h' : c.members trains' tests' n key = .ok r') (i : ℕ)
    (hi : trains[i]? = trains'[i]?) : (r[i]?).map Prod.fst = (r'[i]?).map Prod.fst := by
  have hlen : ∀ {trains tests : List MemberData} {r}, c.members trains tests n key = .ok r → r.length = n := by
    intro trains tests r h
    obtain ⟨h1, h2, first, rest, tk, ik, rfl, hk, hr⟩ := members_unfold c h
    rw [← (mapM_each hr).length_eq]
    simp only [List.length_zip, h1, h2, hs, List.length_map]
    simp
  by_cases hin : i < n
  · have e1 : r[i]? = some (r[i]'(by rw [hlen h]; exact hin)) := List.getElem?_eq_getElem _
    have e2 : r'[i]? = some (r'[i]'(by rw [hlen h']; exact hin)) := List.getElem?_eq_getElem _
    obtain ⟨train, test, k, ik, x, tk, ink, g1, g2, g3, g4, g5, g6⟩ := member_get c h e1
    obtain ⟨train', test', k', ik', x', tk', ink', g1', g2', g3', g4', g5', g6'⟩ := member_get c h' e2
    rw [hi, g1', Option.some.injEq] at g1
    rw [g3', List.cons.injEq, List.cons.injEq] at g3
    obtain ⟨rfl, rfl, _⟩ := g3
    rw [g4', Option.some.injEq] at g4
    rw [g5', Option.some.injEq] at g5
    subst g1 g4 g5
    obtain ⟨p1, p2, p3, p4⟩ := init_same c x x' ik'
    rw [model_same c he hs _ _ _ p1 p2 p3 p4] at g6
    obtain ⟨ms', hms'⟩ := scan_test c _ _ test' _ _ g6
    have : c.model train' test' k' (c.init x' ik') = .ok ((r[i]'(by rw [hlen h]; exact hin)).1, ms') := hms'
    rw [g6', Except.ok.injEq] at this
    rw [e1, e2, Option.map_some, Option.map_some, this]
  · rw [List.getElem?_eq_none (by rw [hlen h]; omega), List.getElem?_eq_none (by rw [hlen h']; omega)]

/-! ### What is reported -/

theorem lossExamples_map (outs : List (List ℝ)) (d : MemberData) (n : ℕ) (ho : outs.length = n) (hd : MemberSize d n)
    (f : LossExample → ℝ) : ((lossExamples outs d).map f).sum =
      ∑ i ∈ Finset.range n, f ⟨outs.getD i [], (d.states.getD i 0).toNat, d.dt.getD i 0⟩ := by
  obtain ⟨h1, h2, h3, h4⟩ := hd
  clear h3 h4
  unfold lossExamples
  generalize d.states = ss at *
  generalize d.dt = ts at *
  clear d
  induction n generalizing outs ss ts with
  | zero =>
    have : outs = [] := List.eq_nil_of_length_eq_zero ho
    simp [this]
  | succ n ih =>
    match outs, ss, ts with
    | [], _, _ => simp at ho
    | _ :: _, [], _ => simp at h1
    | _ :: _, _ :: _, [] => simp at h2
    | o :: outs, s :: ss, t :: ts =>
      rw [Finset.sum_range_succ', List.zip_cons_cons, List.zipWith_cons_cons, List.map_cons, List.sum_cons,
        ih outs (by simpa using ho) ss (by simpa using h1) ts (by simpa using h2)]
      simp only [List.getD_cons_succ, List.getD_cons_zero]
      ring

theorem lossExamples_length (outs : List (List ℝ)) (d : MemberData) (n : ℕ) (ho : outs.length = n) (hd : MemberSize d n) :
    (lossExamples outs d).length = n := by
  obtain ⟨h1, h2, _, _⟩ := hd
  simp [lossExamples, ho, h1, h2]

theorem did_eq (s : ℕ) : didTransition s = if s = 0 then 0 else 1 := by
  unfold didTransition
  split <;> simp_all

theorem evaluated_mean (c : Training P O G) (st : Student P O) (d : MemberData) (n : ℕ) (hd : MemberSize d n) (wc wr : ℝ) :
    batchedLoss wc wr (c.evaluated st d) = wc * meanLossOn c.net st d n classLossOf + wr * meanLossOn c.net st d n rateLossOf ∧
    meanRateLoss (c.evaluated st d) = meanLossOn c.net st d n rateLossOf ∧
    meanClassLoss (c.evaluated st d) = meanLossOn c.net st d n classLossOf := by
  have hl : (d.context.map (c.net.eval st.params st.state)).length = n := by rw [List.length_map, hd.2.2.2]
  have hget : ∀ i ∈ Finset.range n, (d.context.map (c.net.eval st.params st.state)).getD i [] =
      c.net.eval st.params st.state (d.context.getD i []) := by
    intro i hi
    have hi' : i < d.context.length := by rw [hd.2.2.2]; exact Finset.mem_range.1 hi
    rw [List.getD_eq_getElem?_getD, List.getElem?_map, List.getD_eq_getElem?_getD, List.getElem?_eq_getElem hi']
    rfl
  refine ⟨?_, ?_, ?_⟩
  · unfold batchedLoss Training.evaluated
    rw [lossExamples_map _ d n hl hd, lossExamples_length _ d n hl hd]
    unfold meanLossOn
    rw [mul_div_assoc', mul_div_assoc', ← add_div, Finset.mul_sum, Finset.mul_sum, ← Finset.sum_add_distrib]
    congr 1
    refine Finset.sum_congr rfl (fun i hi => ?_)
    rw [hget i hi]
    simp only [exampleLoss, classLossOf, rateLossOf, did_eq]
    ring
  · unfold meanRateLoss vecMean Training.evaluated
    rw [lossExamples_map _ d n hl hd, List.length_map, lossExamples_length _ d n hl hd]
    unfold meanLossOn
    congr 1
    refine Finset.sum_congr rfl (fun i hi => ?_)
    rw [hget i hi]
    simp only [rateLossOf, did_eq]
  · unfold meanClassLoss vecMean Training.evaluated
    rw [lossExamples_map _ d n hl hd, List.length_map, lossExamples_length _ d n hl hd]
    unfold meanLossOn
    congr 1
    refine Finset.sum_congr rfl (fun i hi => ?_)
    rw [hget i hi]
    simp only [classLossOf, did_eq]

theorem scan_metrics (c : Training P O G) (train test : MemberData) (ks : List G) (st : Student P O)
    {st' : Student P O} {ms : List EpochMetrics} (h : c.scan train test ks st = .ok (st', ms)) :
    ms.length = ks.length ∧ ∀ m, ms.getLast? = some m → m = c.metrics st' train test := by
  induction ks generalizing st st' ms with
  | nil =>
    simp only [Training.scan, Except.ok.injEq, Prod.mk.injEq] at h
    rw [← h.2]
    simp
  | cons k ks ih =>
    simp only [Training.scan] at h
    cases he : c.epoch train st k with
    | error e => rw [he] at h; simp at h
    | ok r =>
      obtain ⟨s1, k1⟩ := r
      rw [he] at h
      simp only at h
      cases hs : c.scan train test ks s1 with
      | error e => rw [hs] at h; simp at h
      | ok r2 =>
        obtain ⟨s2, ms2⟩ := r2
        rw [hs] at h
        simp only [Except.ok.injEq, Prod.mk.injEq] at h
        obtain ⟨rfl, rfl⟩ := h
        obtain ⟨h1, h2⟩ := ih s1 hs
        refine ⟨by simp [h1], ?_⟩
        intro m hm
        cases ks with
        | nil =>
          simp only [Training.scan, Except.ok.injEq, Prod.mk.injEq] at hs
          obtain ⟨rfl, rfl⟩ := hs
          simp at hm
          exact hm.symm
        | cons k' ks =>
          have hne : ms2 ≠ [] := by
            intro hc
            rw [hc] at h1
            simp at h1
          rw [List.getLast?_cons_of_ne_nil hne] at hm
          exact h2 m hm

/-- C112: there is a report for each epoch, and the last one is about the networks that are kept: the mean losses on
the neighbour and on the total rate over the member's training and test data, and the sum of both. -/
theorem C112_reports (c : Training P O G) (hs : ∀ k n, (c.split k n).length = n)
    (trains tests : List MemberData) (n N M : ℕ) (key : G) (r : List (Student P O × List EpochMetrics))
    (h : c.members trains tests n key = .ok r) (i : ℕ) (st : Student P O) (ms : List EpochMetrics)
    (hi : r[i]? = some (st, ms)) :
    ∃ train test, trains[i]? = some train ∧ tests[i]? = some test ∧ ms.length = c.epochs ∧
      (MemberSize train N → MemberSize test M → ∀ m, ms.getLast? = some m →
        m.trainRateLoss = meanLossOn c.net st train N rateLossOf ∧
        m.trainClassLoss = meanLossOn c.net st train N classLossOf ∧
        m.testRateLoss = meanLossOn c.net st test M rateLossOf ∧
        m.testClassLoss = meanLossOn c.net st test M classLossOf ∧
        m.trainLoss = m.trainRateLoss + m.trainClassLoss ∧ m.testLoss = m.testRateLoss + m.testClassLoss) := by
  obtain ⟨train, test, k, ik, x, tk, ink, g1, g2, g3, g4, g5, g6⟩ := member_get c h hi
  obtain ⟨h1, h2⟩ := scan_metrics c _ _ _ _ g6
  refine ⟨train, test, g1, g2, by rw [h1, hs], ?_⟩
  intro hN hM m hm
  rw [h2 m hm]
  obtain ⟨a1, a2, a3⟩ := evaluated_mean c st train N hN 1 1
  obtain ⟨b1, b2, b3⟩ := evaluated_mean c st test M hM 1 1
  simp only [Training.metrics, a1, a2, a3, b1, b2, b3]
  refine ⟨trivial, trivial, trivial, trivial, ?_, ?_⟩ <;> ring

/-- C112, for weights of one: the reported training loss is the loss that is minimised, over all training data. -/
theorem C112_objective_partial (c : Training P O G) (hc : c.classWeight = 1) (hr : c.rateWeight = 1) (st : Student P O)
    (train test : MemberData) (N : ℕ) (hN : MemberSize train N) :
    (c.metrics st train test).trainLoss = c.classWeight * meanLossOn c.net st train N classLossOf +
      c.rateWeight * meanLossOn c.net st train N rateLossOf := by
  rw [hc, hr]
  exact (evaluated_mean c st train N hN 1 1).1

/-- C112 fails for other weights: what is reported misses the minimised loss by the losses times what the weights
differ from one. -/
theorem C112_weights_ignored (c : Training P O G) (st : Student P O) (train test : MemberData) (N : ℕ)
    (hN : MemberSize train N) :
    batchedLoss c.classWeight c.rateWeight (c.evaluated st train) - (c.metrics st train test).trainLoss =
      (c.classWeight - 1) * meanLossOn c.net st train N classLossOf +
      (c.rateWeight - 1) * meanLossOn c.net st train N rateLossOf := by
  have a := (evaluated_mean c st train N hN 1 1).1
  have b := (evaluated_mean c st train N hN c.classWeight c.rateWeight).1
  simp only [Training.metrics]
  rw [a, b]
  ring

/-- C112, what a training step does: parameters and the optimiser's state are those the optimiser gives for the loss of
the batch as a function of the parameters: the mean over the batch of the loss on the neighbour and the loss on the
total rate, with the configured weights, for what the network gives in training.  The running statistics are those
after the batch. -/
theorem C112_step (c : Training P O G) (key : G) (st : Student P O) (batch : MemberData) (n : ℕ)
    (hn : MemberSize batch n) :
    let out := fun p i => (c.net.train c.width p st.state key batch.context).1.getD i []
    let batchLoss := fun p => (∑ i ∈ Finset.range n,
      (c.classWeight * classLossOf (out p i) (batch.states.getD i 0) (batch.dt.getD i 0) +
        c.rateWeight * rateLossOf (out p i) (batch.states.getD i 0) (batch.dt.getD i 0))) / n
    c.step key st batch = ⟨(c.descend batchLoss st.params st.opt).1,
      (c.net.train c.width st.params st.state key batch.context).2, (c.descend batchLoss st.params st.opt).2⟩ := by
  intro out batchLoss
  have he : (fun p => (c.loss p st.state batch key).1) = batchLoss := by
    funext p
    have hl : (c.net.train c.width p st.state key batch.context).1.length = n := by
      have : (c.net.train c.width p st.state key batch.context).1.length = batch.context.length := by
        unfold Mlp.train bnTrain
        split <;> simp
      rw [this, hn.2.2.2]
    show batchedLoss c.classWeight c.rateWeight
      (lossExamples (c.net.train c.width p st.state key batch.context).1 batch) = _
    unfold batchedLoss
    rw [lossExamples_map _ batch n hl hn, lossExamples_length _ batch n hl hn]
    congr 1
    apply Finset.sum_congr rfl
    intro i _
    simp only [exampleLoss, classLossOf, rateLossOf, didTransition, out, ne_eq, ite_not]
    ring
  simp only [Training.step, he]
  rfl

/-! ### Randomness within an epoch -/

theorem foldl_step_congr (c : Training P O G) (layers : P → Option (G × ℕ) → List ℝ → List ℝ) (k : G)
    (hk : ∀ p j x, c.net.layers p (some (k, j)) x = layers p (some (k, j)) x) (batches : List MemberData) (st : Student P O) :
    batches.foldl (c.step k) st = batches.foldl
      (Training.step { c with net := { c.net with layers := layers } } k) st := by
  have hstep : c.step k = Training.step { c with net := { c.net with layers := layers } } k := by
    funext st batch
    simp only [Training.step, Training.loss, Mlp.train]
    split <;> simp only [hk]
  rw [hstep]

/-- C112 fails for dropout: all batches of an epoch see the units dropped for one and the same key; what the network
would do with any other key does not matter. -/
theorem C112_one_dropout (c : Training P O G) (key : G) : ∃ k, ∀ (layers : P → Option (G × ℕ) → List ℝ → List ℝ),
    (∀ p j x, c.net.layers p (some (k, j)) x = layers p (some (k, j)) x) → ∀ (d : MemberData) (st : Student P O),
      c.epoch d st key = Training.epoch { c with net := { c.net with layers := layers } } d st key := by
  match hk : c.split key 2 with
  | [k, dk] =>
    refine ⟨k, fun layers hl d st => ?_⟩
    unfold Training.epoch
    simp only [hk, foldl_step_congr c layers k hl]
  | [] => exact ⟨key, fun layers _ d st => by unfold Training.epoch; simp only [hk]⟩
  | [_] => exact ⟨key, fun layers _ d st => by unfold Training.epoch; simp only [hk]⟩
  | _ :: _ :: _ :: _ => exact ⟨key, fun layers _ d st => by unfold Training.epoch; simp only [hk]⟩

/-! ### From the whole data -/

/-- A member's data with positions joined to contexts. -/
def stacked (d : RateData) : MemberData where
  states := d.states
  dt := d.dt
  rates := d.rates
  context := List.zipWith (fun c (p : V2 ℝ) => c ++ [p.x, p.y]) (d.context.getD []) d.position

theorem bind_ok {α β : Type} {x : Except Err α} {f : α → Except Err β} {b : β} (h : (x >>= f) = .ok b) :
    ∃ a, x = .ok a ∧ f a = .ok b := by
  cases x with
  | error e => cases h
  | ok a => exact ⟨a, rfl, h⟩

theorem augmentMembers_get {augment : Bool} {ds ts : List RateData} (h : augmentMembers augment ds = .ok ts) {i : ℕ}
    {d : RateData} (hd : ds[i]? = some d) :
    ∃ t, ts[i]? = some t ∧ if augment then augmentData true 3 d = .ok t else t = d := by
  unfold augmentMembers at h
  cases augment with
  | true =>
    obtain ⟨t, ht, hR⟩ := (forall₂_get? (mapM_each h) i).2 d hd
    exact ⟨t, ht, by simpa using hR⟩
  | false =>
    simp only [Bool.false_eq_true, if_false, Except.ok.injEq] at h
    subst h
    exact ⟨d, hd, by simp⟩

theorem memberSplits_get {draws : List (ℕ → List ℕ)} {listOfSet : List ℕ → List ℕ} {bootstrap : Bool} {fraction : ℝ}
    (hf : bootstrap = true ∨ (fraction < 1 ∧ 0 < fraction)) {d : RateData} {pairs : List (RateData × RateData)}
    (h : memberSplits draws listOfSet bootstrap fraction d = .ok pairs) {i : ℕ} {draw : ℕ → List ℕ} (hd : draws[i]? = some draw) :
    ∃ p, pairs[i]? = some p ∧ d.take (trainingDraw bootstrap fraction d.states.length draw) = .ok p.1 := by
  unfold memberSplits at h
  unfold trainingDraw
  cases bootstrap with
  | true =>
    obtain ⟨p, hp, hR⟩ := (forall₂_get? (mapM_each h) i).2 draw hd
    refine ⟨p, hp, ?_⟩
    unfold bootstrapRateData at hR
    obtain ⟨t, ht, hR⟩ := bind_ok hR
    simp only at hR
    split at hR
    · simp at hR
    · obtain ⟨t', ht', hR⟩ := bind_ok hR
      cases hR
      exact ht
  | false =>
    have hf' : fraction < 1 ∧ 0 < fraction := by simpa using hf
    simp only [Bool.false_eq_true, if_false, hf', and_self, if_true] at h
    obtain ⟨p, hp, hR⟩ := (forall₂_get? (mapM_each h) i).2 draw hd
    refine ⟨p, hp, ?_⟩
    unfold splitRateData at hR
    obtain ⟨t, ht, hR⟩ := bind_ok hR
    obtain ⟨t', ht', hR⟩ := bind_ok hR
    cases hR
    exact ht

theorem splits_get {draws : List (ℕ → List ℕ)} {listOfSet : List ℕ → List ℕ} {bootstrap augment : Bool} {fraction : ℝ}
    (hf : bootstrap = true ∨ (fraction < 1 ∧ 0 < fraction)) {d : RateData} {trains tests : List MemberData}
    (h : createDatasetSplits draws listOfSet bootstrap augment fraction d = .ok (trains, tests)) {i : ℕ}
    {draw : ℕ → List ℕ} (hd : draws[i]? = some draw) :
    ∃ t0 t, d.take (trainingDraw bootstrap fraction d.states.length draw) = .ok t0 ∧
      (if augment then augmentData true 3 t0 = .ok t else t = t0) ∧ trains[i]? = some (stacked t) := by
  unfold createDatasetSplits at h
  obtain ⟨pairs, hp, h⟩ := bind_ok h
  obtain ⟨ts, ht, h⟩ := bind_ok h
  obtain ⟨ts', ht', h⟩ := bind_ok h
  obtain ⟨sizes, hz, h⟩ := bind_ok h
  obtain ⟨p, hpi, htake⟩ := memberSplits_get hf hp hd
  obtain ⟨t, hti, haug⟩ := augmentMembers_get ht (i := i) (d := p.1) (by rw [List.getElem?_map, hpi]; rfl)
  refine ⟨p.1, t, htake, haug, ?_⟩
  split at h
  · simp at h
  · obtain ⟨st, hst, h⟩ := bind_ok h
    obtain ⟨st', hst', h⟩ := bind_ok h
    cases h
    unfold stackMembers at hst
    split at hst
    · rw [Except.ok.injEq] at hst
      rw [← hst, List.getElem?_map, hti]
      rfl
    · simp at hst

/-- C112: examples a member was not given for training do not influence it: if the examples drawn for it are the same in
two data sets of the same size, its network is the same, whatever the others are. -/
theorem C112_held_out (c : Training P O G) (he : 0 < c.epochs) (hs : ∀ k n, (c.split k n).length = n)
    (draw : G → ℕ → List ℕ) (listOfSet : List ℕ → List ℕ) (n : ℕ) (bootstrap augment : Bool) (fraction : ℝ)
    (hf : bootstrap = true ∨ (fraction < 1 ∧ 0 < fraction)) (d d' : RateData)
    (hlen : d.states.length = d'.states.length) (key rng dataKey trainKey : G)
    (hkey : c.split key 3 = [rng, dataKey, trainKey]) (rng₁ rng₂ : G) (r r' : List (Student P O × List EpochMetrics))
    (h : c.train draw listOfSet n bootstrap augment fraction d key = .ok (rng₁, r))
    (h' : c.train draw listOfSet n bootstrap augment fraction d' key = .ok (rng₂, r')) (i : ℕ) (k : G)
    (hk : (c.split dataKey n)[i]? = some k)
    (hsame : d.take (trainingDraw bootstrap fraction d.states.length (draw k)) =
      d'.take (trainingDraw bootstrap fraction d.states.length (draw k))) :
    (r[i]?).map Prod.fst = (r'[i]?).map Prod.fst := by
  unfold Training.train at h h'
  rw [hkey] at h h'
  simp only at h h'
  split at h
  · simp at h
  · rename_i tr te hsp
    split at h
    · simp at h
    · rename_i ms hms
      split at h'
      · simp at h'
      · rename_i tr' te' hsp'
        split at h'
        · simp at h'
        · rename_i ms' hms'
          rw [Except.ok.injEq, Prod.mk.injEq] at h h'
          obtain ⟨_, rfl⟩ := h
          obtain ⟨_, rfl⟩ := h'
          have hd : ((c.split dataKey n).map draw)[i]? = some (draw k) := by rw [List.getElem?_map, hk]; rfl
          obtain ⟨t0, t, e1, e2, e3⟩ := splits_get hf hsp hd
          obtain ⟨t0', t', e1', e2', e3'⟩ := splits_get hf hsp' hd
          rw [← hlen, ← hsame, e1, Except.ok.injEq] at e1'
          subst e1'
          have : t = t' := by
            cases augment with
            | true =>
              simp only [if_true] at e2 e2'
              rw [e2, Except.ok.injEq] at e2'
              exact e2'
            | false =>
              simp only [Bool.false_eq_true, if_false] at e2 e2'
              rw [e2, e2']
          subst this
          exact C112_own_data c he hs tr te tr' te' n trainKey ms ms' hms hms' i (by rw [e3, e3'])

/-! ### Training completes -/

theorem batchIndices_ok {l : List ℕ} {b : ℕ} (hb : 0 < b) (hl : b ≤ l.length) :
    ∃ bs, batchIndices l b = .ok bs ∧ ∀ idx ∈ bs, ∀ i ∈ idx, i ∈ l := by
  unfold batchIndices
  rw [if_neg (by omega)]
  have hmul : l.length / b * b ≤ l.length := Nat.div_mul_le_self _ _
  rw [mapM_except (g := fun i => (l.drop (i * b)).take b)]
  · have hpos : 0 < l.length / b := Nat.div_pos hl hb
    refine ⟨(List.range (l.length / b)).map (fun i => (l.drop (i * b)).take b), ?_, ?_⟩
    · split
      · rename_i heq; simp at heq
      · rename_i heq
        rw [Except.ok.injEq] at heq
        have := congrArg List.length heq
        simp at this
        omega
      · rename_i heq
        rw [Except.ok.injEq] at heq
        rw [heq]
    · intro idx hidx i hi
      obtain ⟨j, _, rfl⟩ := List.mem_map.1 hidx
      exact List.mem_of_mem_drop (List.mem_of_mem_take hi)
  · intro i hi
    have hi' := List.mem_range.1 hi
    have h1 : i * b + b ≤ l.length := by
      calc i * b + b = (i + 1) * b := by ring
        _ ≤ l.length / b * b := Nat.mul_le_mul_right b hi'
        _ ≤ l.length := hmul
    unfold dynamicSlice
    rw [if_pos (by omega), Nat.min_eq_left (by omega)]

theorem takeRows_total {α : Type} {rows : List α} {idx : List ℕ} (h : ∀ i ∈ idx, i < rows.length) :
    ∃ r, takeRows rows idx = .ok r := by
  induction idx with
  | nil => exact ⟨[], rfl⟩
  | cons i is ih =>
    obtain ⟨r, hr⟩ := ih (fun j hj => h j (by simp [hj]))
    refine ⟨rows[i]'(h i (by simp)) :: r, ?_⟩
    simp only [takeRows, List.getElem?_eq_getElem (h i (by simp)), hr]

theorem memberTake_total {d : MemberData} {n : ℕ} (hd : MemberSize d n) {idx : List ℕ} (h : ∀ i ∈ idx, i < n) :
    ∃ d', d.take idx = .ok d' := by
  obtain ⟨h1, h2, h3, h4⟩ := hd
  obtain ⟨a, ha⟩ := takeRows_total (rows := d.states) (idx := idx) (by rw [h1]; exact h)
  obtain ⟨b, hb⟩ := takeRows_total (rows := d.dt) (idx := idx) (by rw [h2]; exact h)
  obtain ⟨e, he⟩ := takeRows_total (rows := d.rates) (idx := idx) (by rw [h3]; exact h)
  obtain ⟨f, hf⟩ := takeRows_total (rows := d.context) (idx := idx) (by rw [h4]; exact h)
  refine ⟨⟨a, b, e, f⟩, ?_⟩
  unfold MemberData.take
  rw [ha, hb, he, hf]
  rfl

theorem mapM_total {α β : Type} {f : α → Except Err β} {xs : List α} (h : ∀ x ∈ xs, ∃ y, f x = .ok y) :
    ∃ ys, xs.mapM f = .ok ys := by
  induction xs with
  | nil => exact ⟨[], rfl⟩
  | cons x xs ih =>
    obtain ⟨y, hy⟩ := h x (by simp)
    obtain ⟨ys, hys⟩ := ih (fun z hz => h z (by simp [hz]))
    exact ⟨y :: ys, by rw [List.mapM_cons, hy, hys]; rfl⟩

theorem epoch_total (c : Training P O G) (hs : ∀ k n, (c.split k n).length = n)
    (hp : ∀ k n, (c.permutation k n).Perm (List.range n)) (hb : 0 < c.batchSize) {d : MemberData} {N : ℕ}
    (hd : MemberSize d N) (hN : c.batchSize ≤ N) (st : Student P O) (k : G) : ∃ r, c.epoch d st k = .ok r := by
  have hl := hs k 2
  match hk : c.split k 2 with
  | [k1, k2] =>
    have hperm := hp k2 N
    obtain ⟨bs, hbs, hin⟩ := batchIndices_ok (l := c.permutation k2 N) hb (by rw [hperm.length_eq]; simpa using hN)
    obtain ⟨batches, hbt⟩ := mapM_total (f := d.take) (xs := bs) (fun idx hidx =>
      memberTake_total hd (fun i hi => List.mem_range.1 (hperm.mem_iff.1 (hin idx hidx i hi))))
    unfold Training.epoch
    simp only [hk, hd.1, hbs, hbt]
    exact ⟨_, rfl⟩
  | [] => rw [hk] at hl; simp at hl
  | [_] => rw [hk] at hl; simp at hl
  | _ :: _ :: _ :: _ => rw [hk] at hl; simp at hl

theorem scan_total (c : Training P O G) (hs : ∀ k n, (c.split k n).length = n)
    (hp : ∀ k n, (c.permutation k n).Perm (List.range n)) (hb : 0 < c.batchSize) {d : MemberData} {N : ℕ}
    (hd : MemberSize d N) (hN : c.batchSize ≤ N) (test : MemberData) (ks : List G) (st : Student P O) :
    ∃ r, c.scan d test ks st = .ok r := by
  induction ks generalizing st with
  | nil => exact ⟨_, rfl⟩
  | cons k ks ih =>
    obtain ⟨⟨s1, k1⟩, h1⟩ := epoch_total c hs hp hb hd hN st k
    obtain ⟨⟨s2, ms⟩, h2⟩ := ih s1
    simp only [Training.scan, h1, h2]
    exact ⟨_, rfl⟩

/-- C112: training completes and gives all members if each of them has enough rows for one batch. -/
theorem C112_completes (c : Training P O G) (hs : ∀ k n, (c.split k n).length = n)
    (hp : ∀ k n, (c.permutation k n).Perm (List.range n)) (hb : 0 < c.batchSize) (trains tests : List MemberData) (n : ℕ)
    (hn : 0 < n) (h1 : trains.length = n) (h2 : tests.length = n)
    (hsize : ∀ train ∈ trains, ∃ N, c.batchSize ≤ N ∧ MemberSize train N) (key : G) :
    ∃ r, c.members trains tests n key = .ok r ∧ r.length = n := by
  have hl := hs key 2
  unfold Training.members
  rw [if_neg (by rw [h1]; simp), if_neg (by rw [h2]; simp)]
  cases trains with
  | nil => simp at h1; omega
  | cons first rest =>
    match hk : c.split key 2 with
    | [k1, k2] =>
      obtain ⟨r, hr⟩ := mapM_total (f := fun (m : (MemberData × MemberData) × G × Student P O) => c.model m.1.1 m.1.2 m.2.1 m.2.2)
        (xs := ((first :: rest).zip tests).zip ((c.split k1 n).zip ((c.split k2 n).map (c.init (first.context.take 1)))))
        (fun m hm => by
          obtain ⟨N, hN, hsz⟩ := hsize m.1.1 (List.of_mem_zip (List.of_mem_zip (a := m.1) (b := m.2) hm).1).1
          exact scan_total c hs hp hb hsz hN _ _ _)
      refine ⟨r, hr, ?_⟩
      rw [← (mapM_each hr).length_eq]
      simp only [List.length_zip, h1, h2, hs, List.length_map]
      simp
    | [] => rw [hk] at hl; simp at hl
    | [_] => rw [hk] at hl; simp at hl
    | _ :: _ :: _ :: _ => rw [hk] at hl; simp at hl

/-- C112: with bootstrapping, training on complete data with enough examples for one batch, copies counted, completes. -/
theorem C112_train_completes (c : Training P O G) (hs : ∀ k n, (c.split k n).length = n)
    (hp : ∀ k n, (c.permutation k n).Perm (List.range n)) (hb : 0 < c.batchSize) (draw : G → ℕ → List ℕ)
    (listOfSet : List ℕ → List ℕ) (hset : ∀ l, (listOfSet l).Perm l) (n : ℕ) (hn : 0 < n) (augment : Bool) (fraction : ℝ)
    (d : RateData) (rows : ℕ) (hd : HasSize d rows) (hc : d.context.isSome)
    (hv : ∀ i p, row d i = some p → Valid 3 p) (hdraw : ∀ k, MemberDraw true rows (draw k))
    (hrows : c.batchSize ≤ (if augment then 6 else 1) * rows) (key : G) :
    ∃ rng r, c.train draw listOfSet n true augment fraction d key = .ok (rng, r) ∧ r.length = n := by
  have hl := hs key 3
  match hk : c.split key 3 with
  | [rng, dk, tk] =>
    have hne : (c.split dk n).map draw ≠ [] := by
      intro hc
      have := congrArg List.length hc
      rw [List.length_map, hs] at this
      simp at this
      omega
    obtain ⟨trains, tests, idxs, N, M, e1, e2, e3, e4, e5, e6, e7, e8, e9⟩ :=
      C85_members ((c.split dk n).map draw) hne listOfSet hset true augment fraction (by simp) d rows hd hc hv
        (fun dr hdr => by
          obtain ⟨k, _, rfl⟩ := List.mem_map.1 hdr
          exact hdraw k)
    have hN : N = (if augment then 6 else 1) * rows := by
      obtain ⟨idx, hidx, _⟩ := e8
      rw [(e7 idx hidx).1]
      obtain ⟨j, hj⟩ := List.mem_iff_getElem?.1 hidx
      obtain ⟨dr, hdr, hmr⟩ := (forall₂_get? e4 j).1 idx hj
      rw [(hmr.2.2.1 rfl).1]
      have : dr ∈ (c.split dk n).map draw := List.mem_of_getElem? hdr
      obtain ⟨k, _, rfl⟩ := List.mem_map.1 this
      have := hdraw k
      simp only [MemberDraw, if_true] at this
      rw [this.1]
    obtain ⟨r, hr, hlen⟩ := C112_completes c hs hp hb trains tests n hn (by rw [e2, List.length_map, hs])
      (by rw [e3, List.length_map, hs]) (fun train ht => ⟨N, by rw [hN]; exact hrows, e5 train ht⟩) tk
    refine ⟨rng, r, ?_, hlen⟩
    unfold Training.train
    simp only [hk, e1, hr]
  | [] => rw [hk] at hl; simp at hl
  | [_] => rw [hk] at hl; simp at hl
  | [_, _] => rw [hk] at hl; simp at hl
  | _ :: _ :: _ :: _ :: _ => rw [hk] at hl; simp at hl

/-- A network whose outputs are its parameter, trained by counting the steps, with splitting of keys by numbering. -/
noncomputable def countingTraining : Training ℕ ℕ ℕ where
  net := { batchnorm := true, norm := fun _ => ⟨[], []⟩, layers := fun p _ _ => [p, p, p, p] }
  width := 2
  classWeight := 2
  rateWeight := 1
  batchSize := 2
  epochs := 3
  initParams := fun _ => 0
  initOpt := fun _ => 0
  descend := fun _ p o => (p + 1, o + 1)
  split := fun k n => (List.range n).map (fun i => k + i)
  permutation := fun _ n => List.range n

/-- Two members with two rows each are trained to the end. -/
example : ∃ r, countingTraining.members [⟨[1, 0], [1, 1], [[], []], [[0, 0], [1, 0]]⟩, ⟨[0, 2], [1, 2], [[], []], [[0, 1], [1, 1]]⟩]
    [⟨[1], [1], [[]], [[0, 0]]⟩, ⟨[2], [2], [[]], [[1, 1]]⟩] 2 7 = .ok r ∧ r.length = 2 :=
  C112_completes countingTraining (by simp [countingTraining]) (fun _ n => by simp [countingTraining])
    (by simp [countingTraining]) _ _ 2 (by simp) rfl rfl
    (fun train ht => by
      simp only [List.mem_cons, List.not_mem_nil, or_false] at ht
      rcases ht with rfl | rfl <;> exact ⟨2, by simp [countingTraining], rfl, rfl, rfl, rfl⟩) 7

/-- The report of this training misses the loss by the loss on the neighbour, which is not zero. -/
example : meanLossOn countingTraining.net (⟨0, bnInit 2 [], 0⟩ : Student ℕ ℕ) ⟨[1], [1], [[]], [[0, 0]]⟩ 1 classLossOf ≠ 0 := by
  have : logSoftmax [(0 : ℝ), 0, 0] = [-Real.log 3, -Real.log 3, -Real.log 3] := by
    simp [logSoftmax, listMax, List.max?]
    norm_num
  simp [meanLossOn, classLossOf, classLoss, countingTraining, Mlp.eval, this]
  norm_num

/-- Two data sets that differ in an example that is not drawn; training on either completes. -/
example : let d : RateData := ⟨[1, 0], [1, 1], [[1, 1, 1], [1, 1, 1]], [⟨0, 0⟩, ⟨2, 0⟩], some [[], []]⟩
    let d' : RateData := ⟨[1, 2], [1, 5], [[1, 1, 1], [1, 2, 1]], [⟨0, 0⟩, ⟨1, 1⟩], some [[], []]⟩
    d ≠ d' ∧ (∀ k : ℕ, MemberDraw true 2 ((fun _ n => List.replicate n 0) k)) ∧
    d.take (trainingDraw true 0 d.states.length (fun n => List.replicate n 0)) =
      d'.take (trainingDraw true 0 d.states.length (fun n => List.replicate n 0)) := by
  refine ⟨?_, ?_, rfl⟩
  · intro h
    have := congrArg RateData.states h
    simp at this
  · intro k
    simp only [MemberDraw, if_true]
    exact ⟨rfl, by simp, 1, by simp, by simp⟩

end PD.Props
