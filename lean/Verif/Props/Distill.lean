/- C107: distilling an ensemble. -/
import Verif.Model.Distill
import Verif.Props.BatchNorm

set_option linter.unusedSectionVars false
set_option linter.unusedSimpArgs false

namespace PD.Props
open PD

variable {P O G : Type}

/-! ### Specification -/

/-- The rows a network is trained with: context and position of an example, one after the other. -/
def trainingRows (d : RateData) : List (List ℝ) :=
  List.zipWith (fun c (p : V2 ℝ) => c ++ [p.x, p.y]) (d.context.getD []) d.position

/-- The squared distance of two lists of rates. -/
noncomputable def sqDistance (n : ℕ) (a b : List ℝ) : ℝ := ∑ j ∈ Finset.range n, (a.getD j 0 - b.getD j 0) ^ 2

/-- The students one after the other. -/
noncomputable def studentAt (c : Distilling P O G) (first : Student P O) (keys : ℕ → G) : ℕ → Student P O
  | 0 => first
  | t + 1 => (c.step (studentAt c first keys t) (keys t)).1

/-- The network gives a number for each of the neighbours and the total rate. -/
def Distilling.Shaped (c : Distilling P O G) : Prop := ∀ p k x, (c.net.layers p k x).length = c.states + 1

/-- Neither normalisation nor dropout: training and predicting are the same. -/
def SameInTraining (m : Mlp P G) : Prop :=
  m.batchnorm = false ∧ ∀ p k x, m.layers p (some k) x = m.layers p none x

/-! ### Lemmas -/

theorem perNeighbor_eq (out : List ℝ) : perNeighbor out = splitRates out := by
  simp only [perNeighbor, splitRates, mul_comm]

theorem target_eq (c : Distilling P O G) (x : List ℝ) :
    c.target x = ensembleRates c.net c.states c.ensemble x := by
  simp only [Distilling.target, ensembleRates, applyModel, perNeighbor_eq, List.map_map]
  rfl

theorem squaredGap_eq {n : ℕ} {a b : List ℝ} (ha : a.length = n) (hb : b.length = n) :
    squaredGap a b = sqDistance n a b := by
  subst ha
  unfold squaredGap sqDistance
  induction a generalizing b with
  | nil => simp
  | cons x a ih =>
    cases b with
    | nil => simp at hb
    | cons y b =>
      rw [List.length_cons, Finset.sum_range_succ', List.zipWith_cons_cons, List.sum_cons, ih (by simpa using hb)]
      simp [add_comm]

theorem sqDistance_nonneg (n : ℕ) (a b : List ℝ) : 0 ≤ sqDistance n a b :=
  Finset.sum_nonneg (fun _ _ => sq_nonneg _)

theorem sqDistance_eq_zero {n : ℕ} {a b : List ℝ} (ha : a.length = n) (hb : b.length = n) :
    sqDistance n a b = 0 ↔ a = b := by
  constructor
  · intro h
    unfold sqDistance at h
    rw [Finset.sum_eq_zero_iff_of_nonneg (fun _ _ => sq_nonneg _)] at h
    apply List.ext_getElem (by omega)
    intro i h1 h2
    have := h i (Finset.mem_range.2 (by omega))
    rw [List.getD_eq_getElem?_getD, List.getD_eq_getElem?_getD, List.getElem?_eq_getElem h1,
      List.getElem?_eq_getElem h2] at this
    simp only [Option.getD_some] at this
    have := pow_eq_zero_iff (two_ne_zero) |>.1 this
    linarith
  · rintro rfl
    simp [sqDistance]

theorem ensembleRates_length (net : Mlp P G) (n : ℕ) (e : List (P × BnState)) (x : List ℝ) :
    (ensembleRates net n e x).length = n := by
  simp [ensembleRates, applyModel, columnMeans_length]

theorem columnMeans_one {n : ℕ} {r : List ℝ} (h : r.length = n) : columnMeans n [r] = r := by
  subst h
  simp only [columnMeans, List.map_cons, List.map_nil, List.sum_cons, List.sum_nil, add_zero, List.length_cons,
    List.length_nil, Nat.zero_add, Nat.cast_one, div_one]
  exact map_getD_range r 0

theorem ensembleRates_one {net : Mlp P G} {n : ℕ} (h : ∀ p k x, (net.layers p k x).length = n + 1) (p : P) (s : BnState)
    (x : List ℝ) : ensembleRates net n [(p, s)] x = splitRates (net.eval p s x) := by
  have : (splitRates (net.eval p s x)).length = n := by
    rw [splitRates_length, Mlp.eval]
    split <;> rw [h] <;> rfl
  simp only [ensembleRates, applyModel, List.map_cons, List.map_nil]
  exact columnMeans_one this

theorem train_length (m : Mlp P G) (d : ℕ) (p : P) (s : BnState) (k : G) (rows : List (List ℝ)) :
    (m.train d p s k rows).1.length = rows.length := by
  unfold Mlp.train bnTrain
  split <;> simp

theorem train_shaped {m : Mlp P G} {n : ℕ} (h : ∀ p k x, (m.layers p k x).length = n + 1) (d : ℕ) (p : P) (s : BnState)
    (k : G) (rows : List (List ℝ)) : ∀ o ∈ (m.train d p s k rows).1, o.length = n + 1 := by
  intro o ho
  unfold Mlp.train bnTrain at ho
  split at ho <;> obtain ⟨x, _, rfl⟩ := List.mem_map.1 ho <;> exact h _ _ _

theorem sum_zipWith_range (f : List ℝ → List ℝ → ℝ) (as bs : List (List ℝ)) (h : as.length = bs.length) :
    (List.zipWith f as bs).sum = ∑ i ∈ Finset.range bs.length, f (as.getD i []) (bs.getD i []) := by
  induction as generalizing bs with
  | nil => have : bs = [] := List.length_eq_zero_iff.1 h.symm
           subst this; simp
  | cons a as ih =>
    cases bs with
    | nil => simp at h
    | cons b bs =>
      rw [List.length_cons, Finset.sum_range_succ', List.zipWith_cons_cons, List.sum_cons, ih bs (by simpa using h)]
      simp [add_comm]

theorem loss_eq (c : Distilling P O G) (hs : Distilling.Shaped c) (p : P) (s : BnState) (key : G) :
    (c.loss p s key).1 = (∑ i ∈ Finset.range (drawnContexts c.mean c.scale (c.noise key)).length,
      sqDistance c.states (splitRates ((c.net.train c.mean.length p s (c.dropKey key)
          (drawnContexts c.mean c.scale (c.noise key))).1.getD i []))
        (ensembleRates c.net c.states c.ensemble ((drawnContexts c.mean c.scale (c.noise key)).getD i []))) /
      (drawnContexts c.mean c.scale (c.noise key)).length := by
  simp only [Distilling.loss, vecMean]
  set xs := drawnContexts c.mean c.scale (c.noise key)
  have hl := train_length c.net c.mean.length p s (c.dropKey key) xs
  have hsh := train_shaped hs c.mean.length p s (c.dropKey key) xs
  set outs := (c.net.train c.mean.length p s (c.dropKey key) xs).1
  rw [sum_zipWith_range _ _ _ (by simp [hl])]
  simp only [List.length_zipWith, List.length_map, hl, min_self]
  congr 1
  apply Finset.sum_congr rfl
  intro i hi
  have hi1 : i < xs.length := Finset.mem_range.1 hi
  have hi2 : i < outs.length := by omega
  have e1 : (outs.map perNeighbor).getD i [] = splitRates (outs.getD i []) := by
    rw [List.getD_eq_getElem?_getD, List.getElem?_map, List.getD_eq_getElem?_getD, List.getElem?_eq_getElem hi2]
    simp [perNeighbor_eq]
  have e2 : (xs.map c.target).getD i [] = ensembleRates c.net c.states c.ensemble (xs.getD i []) := by
    rw [List.getD_eq_getElem?_getD, List.getElem?_map, List.getD_eq_getElem?_getD, List.getElem?_eq_getElem hi1]
    simp [target_eq]
  rw [e1, e2]
  apply squaredGap_eq
  · rw [splitRates_length, hsh _ (getD_mem hi2 [])]; rfl
  · exact ensembleRates_length _ _ _ _

/-! ### C107 -/

/-- What a batch of distillation judges: how far the student's rates are, squared and on average over the
drawn contexts, from the rates the ensemble's predictor reports.  It is never negative, and zero exactly if
they agree at every drawn context. -/
theorem C107_loss (c : Distilling P O G) (hs : Distilling.Shaped c) (p : P) (s : BnState) (key : G)
    (hne : c.noise key ≠ []) :
    let xs := drawnContexts c.mean c.scale (c.noise key)
    let student := fun i => splitRates ((c.net.train c.mean.length p s (c.dropKey key) xs).1.getD i [])
    let ensemble := fun i => ensembleRates c.net c.states c.ensemble (xs.getD i [])
    (c.loss p s key).1 =
      (∑ i ∈ Finset.range xs.length, sqDistance c.states (student i) (ensemble i)) / xs.length ∧
    0 ≤ (c.loss p s key).1 ∧
    ((c.loss p s key).1 = 0 ↔ ∀ i < xs.length, student i = ensemble i) := by
  intro xs student ensemble
  have hl : (0 : ℝ) < xs.length := by
    have : 0 < xs.length := by
      simp only [xs, drawnContexts, List.length_map]
      exact List.length_pos_iff.2 hne
    exact_mod_cast this
  have he := loss_eq c hs p s key
  refine ⟨he, ?_, ?_⟩
  · rw [he]
    exact div_nonneg (Finset.sum_nonneg (fun _ _ => sqDistance_nonneg _ _ _)) hl.le
  · rw [he, div_eq_zero_iff, or_iff_left (ne_of_gt hl),
      Finset.sum_eq_zero_iff_of_nonneg (fun _ _ => sqDistance_nonneg _ _ _)]
    have hlen := train_length c.net c.mean.length p s (c.dropKey key) xs
    constructor
    · intro h i hi
      have hi' : i < xs.length := hi
      refine (sqDistance_eq_zero ?_ (ensembleRates_length _ _ _ _)).1 (h i (Finset.mem_range.2 hi))
      rw [splitRates_length, train_shaped hs c.mean.length p s (c.dropKey key) xs _ (getD_mem (by omega) [])]; rfl
    · intro h i hi
      have hi' : i < xs.length := Finset.mem_range.1 hi
      refine (sqDistance_eq_zero ?_ (ensembleRates_length _ _ _ _)).2 (h i hi')
      rw [splitRates_length, train_shaped hs c.mean.length p s (c.dropKey key) xs _ (getD_mem (by omega) [])]; rfl

theorem scan_spec (c : Distilling P O G) (keys : List G) : ∀ (first : Student P O) (ks : ℕ → G),
    (∀ i (h : i < keys.length), ks i = keys[i]) →
    c.scan keys first = (studentAt c first ks keys.length, (List.range keys.length).map (fun j =>
      (c.loss (studentAt c first ks j).params (studentAt c first ks j).state (ks j)).1)) := by
  induction keys with
  | nil => intro first ks _; rfl
  | cons k keys ih =>
    intro first ks h
    have h0 : ks 0 = k := h 0 (by simp)
    have hshift : ∀ t, studentAt c first ks (t + 1) = studentAt c (c.step first k).1 (fun i => ks (i + 1)) t := by
      intro t
      induction t with
      | zero => simp [studentAt, h0]
      | succ t iht => rw [studentAt, iht]; rfl
    have := ih (c.step first k).1 (fun i => ks (i + 1)) (fun i hi => by
      have := h (i + 1) (by simpa using hi)
      simpa using this)
    simp only [Distilling.scan, this, List.length_cons]
    rw [hshift, List.range_succ_eq_map, List.map_cons, List.map_map]
    congr 2
    · simp [Distilling.step, studentAt, h0]
    · apply List.map_congr_left
      intro j _
      simp only [Function.comp_apply, Nat.succ_eq_add_one, hshift]

theorem studentAt_add (c : Distilling P O G) (first : Student P O) (ks : ℕ → G) (a t : ℕ) :
    studentAt c first ks (a + t) = studentAt c (studentAt c first ks a) (fun i => ks (a + i)) t := by
  induction t with
  | zero => rfl
  | succ t ih => rw [← Nat.add_assoc, studentAt, ih]; rfl

theorem studentAt_congr (c : Distilling P O G) (first : Student P O) {ks ks' : ℕ → G} {t : ℕ}
    (h : ∀ i < t, ks i = ks' i) : studentAt c first ks t = studentAt c first ks' t := by
  induction t with
  | zero => rfl
  | succ t ih => rw [studentAt, studentAt, ih (fun i hi => h i (by omega)), h t (by omega)]

theorem sum_range_map (f : ℕ → ℝ) (n : ℕ) : ((List.range n).map f).sum = ∑ j ∈ Finset.range n, f j := by
  induction n with
  | zero => simp
  | succ n ih => rw [List.range_succ, List.map_append, List.sum_append, ih, Finset.sum_range_succ]; simp

theorem epochs_spec (c : Distilling P O G) (hsplit : ∀ k n, (c.split k n).length = n) {batches : ℕ} (hb : 0 < batches)
    (n : ℕ) : ∀ (first : Student P O) (key : G), ∃ (ks : ℕ → G) (key' : G) (losses : List ℝ),
      c.epochs batches n first key = .ok (studentAt c first ks (n * batches), key', losses) ∧ losses.length = n ∧
      ∀ i < n, losses.getD i 0 = (∑ j ∈ Finset.range batches,
        (c.loss (studentAt c first ks (i * batches + j)).params (studentAt c first ks (i * batches + j)).state
          (ks (i * batches + j))).1) / batches := by
  induction n with
  | zero => intro first key; exact ⟨fun _ => key, key, [], by simp [Distilling.epochs, studentAt], rfl, by simp⟩
  | succ n ih =>
    intro first key
    obtain ⟨last, hlast⟩ : ∃ last, (c.split key batches).getLast? = some last := by
      cases h : (c.split key batches).getLast? with
      | some l => exact ⟨l, rfl⟩
      | none =>
        have := List.getLast?_eq_none_iff.1 h
        have hl := hsplit key batches
        rw [this] at hl
        simp at hl
        omega
    have hlen := hsplit key batches
    let k0 : ℕ → G := fun i => (c.split key batches).getD i key
    have hk0 : ∀ i (h : i < (c.split key batches).length), k0 i = (c.split key batches)[i] := by
      intro i h
      simp only [k0, List.getD_eq_getElem?_getD, List.getElem?_eq_getElem h, Option.getD_some]
    have hscan := scan_spec c (c.split key batches) first k0 hk0
    rw [hlen] at hscan
    obtain ⟨ks, key', losses, he, hl, hloss⟩ := ih (studentAt c first k0 batches) last
    let kk : ℕ → G := fun i => if i < batches then k0 i else ks (i - batches)
    have hfirst : ∀ t ≤ batches, studentAt c first kk t = studentAt c first k0 t := by
      intro t ht
      apply studentAt_congr
      intro i hi
      simp only [kk, if_pos (show i < batches by omega)]
    have hrest : ∀ t, studentAt c first kk (batches + t) = studentAt c (studentAt c first k0 batches) ks t := by
      intro t
      rw [studentAt_add, hfirst batches le_rfl]
      apply studentAt_congr
      intro i _
      simp only [kk, if_neg (show ¬ batches + i < batches by omega), Nat.add_sub_cancel_left]
    refine ⟨kk, key', vecMean ((List.range batches).map (fun j => (c.loss (studentAt c first k0 j).params
      (studentAt c first k0 j).state (k0 j)).1)) :: losses, ?_, ?_, ?_⟩
    · simp only [Distilling.epochs, Distilling.epoch, hlast, hscan, he]
      rw [show (n + 1) * batches = batches + n * batches by ring, hrest]
    · simp [hl]
    · intro i hi
      cases i with
      | zero =>
        simp only [List.getD_cons_zero, vecMean, List.length_map, List.length_range, sum_range_map, Nat.zero_mul,
          Nat.zero_add]
        congr 1
        apply Finset.sum_congr rfl
        intro j hj
        have hj' := Finset.mem_range.1 hj
        rw [hfirst j (by omega)]
        simp only [kk, if_pos hj']
      | succ i =>
        rw [List.getD_cons_succ, hloss i (by omega)]
        congr 1
        apply Finset.sum_congr rfl
        intro j _
        have e : (i + 1) * batches + j = batches + (i * batches + j) := by ring
        rw [e, hrest]
        simp only [kk, if_neg (show ¬ batches + (i * batches + j) < batches by omega), Nat.add_sub_cancel_left]

/-- The whole of distillation: there are keys such that the student goes through `epochs · batches` steps from
the initialised network, each step with the loss against the same ensemble, and each epoch reports the mean of
its batches' losses; the last student is the result. -/
theorem C107_run (c : Distilling P O G) (hsplit : ∀ k n, (c.split k n).length = n) (init : G → Student P O)
    (epochs : ℕ) {batches : ℕ} (hb : 0 < batches) (key : G) :
    ∃ (first : Student P O) (ks : ℕ → G) (key' : G) (losses : List ℝ),
      first = init ((c.split key 2).getD 1 key) ∧
      c.run init epochs batches key = .ok (studentAt c first ks (epochs * batches), key', losses) ∧
      losses.length = epochs ∧
      ∀ i < epochs, losses.getD i 0 = (∑ j ∈ Finset.range batches,
        (c.loss (studentAt c first ks (i * batches + j)).params (studentAt c first ks (i * batches + j)).state
          (ks (i * batches + j))).1) / batches := by
  have h2 := hsplit key 2
  match hk : c.split key 2 with
  | [a, b] =>
    obtain ⟨ks, key', losses, h1, h3, h4⟩ := epochs_spec c hsplit hb epochs (init b) a
    exact ⟨init b, ks, key', losses, rfl, by simp only [Distilling.run, hk, h1], h3, h4⟩
  | [] => rw [hk] at h2; simp at h2
  | [_] => rw [hk] at h2; simp at h2
  | _ :: _ :: _ :: _ => rw [hk] at h2; simp at h2

/-- What a step does: parameters and the optimiser's state are those the optimiser gives for the loss of the batch as a
function of the parameters; the running statistics are those after the batch. -/
theorem C107_step (c : Distilling P O G) (hs : Distilling.Shaped c) (st : Student P O) (key : G) :
    let xs := drawnContexts c.mean c.scale (c.noise key)
    let batchLoss := fun p => (∑ i ∈ Finset.range xs.length, sqDistance c.states
      (splitRates ((c.net.train c.mean.length p st.state (c.dropKey key) xs).1.getD i []))
      (ensembleRates c.net c.states c.ensemble (xs.getD i []))) / xs.length
    (c.step st key).1 = ⟨(c.descend batchLoss st.params st.opt).1,
      (c.net.train c.mean.length st.params st.state (c.dropKey key) xs).2, (c.descend batchLoss st.params st.opt).2⟩ ∧
    (c.step st key).2 = batchLoss st.params := by
  intro xs batchLoss
  have he : (fun p => (c.loss p st.state key).1) = batchLoss := by
    funext p
    exact loss_eq c hs p st.state key
  refine ⟨?_, ?_⟩
  · simp only [Distilling.step, he]
    rfl
  · exact loss_eq c hs st.params st.state key

/-- Nothing but the networks and the key is changed: no batches per epoch is the only way to fail once there is
data with contexts. -/
theorem C107_fails (c : Distilling P O G) (init : G → Student P O) (hsplit : ∀ k n, (c.split k n).length = n)
    (w epochs batches : ℕ) (d : RateData) (e : List (P × BnState)) (key : G) :
    (d.context = none → distill c init w epochs batches d e key = .error .attributeError) ∧
    (d.context ≠ none → 0 < epochs → batches = 0 → distill c init w epochs batches d e key = .error .indexError) ∧
    (d.context ≠ none → 0 < batches → ∃ p s key' losses,
      distill c init w epochs batches d e key = .ok ([(p, s)], key', losses) ∧ losses.length = epochs) := by
  refine ⟨?_, ?_, ?_⟩
  · intro h; simp only [distill, dataMoments, h]
  · intro h he hb
    subst hb
    obtain ⟨cs, hcs⟩ := Option.ne_none_iff_exists'.1 h
    obtain ⟨n, rfl⟩ : ∃ n, epochs = n + 1 := ⟨epochs - 1, by omega⟩
    have h0 : ∀ k, c.split k 0 = [] := fun k => List.length_eq_zero_iff.1 (hsplit k 0)
    have h2 := hsplit key 2
    simp only [distill, dataMoments, hcs, Distilling.run]
    match hk : c.split key 2 with
    | [a, b] => simp [Distilling.epochs, Distilling.epoch, h0]
    | [] => rw [hk] at h2; simp at h2
    | [_] => rw [hk] at h2; simp at h2
    | _ :: _ :: _ :: _ => rw [hk] at h2; simp at h2
  · intro h hb
    obtain ⟨cs, hcs⟩ := Option.ne_none_iff_exists'.1 h
    simp only [distill, dataMoments, hcs]
    set c' : Distilling P O G := { c with ensemble := e, mean := _, scale := _ }
    obtain ⟨first, ks, key', losses, _, h1, h2, _⟩ := C107_run c' hsplit init epochs hb key
    rw [h1]
    exact ⟨_, _, _, _, rfl, h2⟩

theorem feature_left {cs : List (List ℝ)} {ps : List (V2 ℝ)} {w j : ℕ} (hlen : cs.length = ps.length)
    (hw : ∀ c ∈ cs, c.length = w) (hj : j < w) :
    feature j (List.zipWith (fun c (p : V2 ℝ) => c ++ [p.x, p.y]) cs ps) = feature j cs := by
  unfold feature
  induction cs generalizing ps with
  | nil => simp
  | cons c cs ih =>
    cases ps with
    | nil => simp at hlen
    | cons p ps =>
      simp only [List.zipWith_cons_cons, List.map_cons]
      rw [ih (by simpa using hlen) (fun c hc => hw c (by simp [hc]))]
      congr 1
      have : j < c.length := by rw [hw c (by simp)]; exact hj
      simp only [List.getD_eq_getElem?_getD, List.getElem?_append_left this]

theorem feature_right {cs : List (List ℝ)} {ps : List (V2 ℝ)} {w j : ℕ} (hlen : cs.length = ps.length)
    (hw : ∀ c ∈ cs, c.length = w) :
    feature (w + j) (List.zipWith (fun c (p : V2 ℝ) => c ++ [p.x, p.y]) cs ps) =
      feature j (ps.map (fun p => [p.x, p.y])) := by
  unfold feature
  induction cs generalizing ps with
  | nil => have : ps = [] := List.length_eq_zero_iff.1 hlen.symm
           subst this; rfl
  | cons c cs ih =>
    cases ps with
    | nil => simp at hlen
    | cons p ps =>
      simp only [List.zipWith_cons_cons, List.map_cons]
      rw [ih (by simpa using hlen) (fun c hc => hw c (by simp [hc]))]
      congr 1
      have hc : c.length = w := hw c (by simp)
      simp only [List.getD_eq_getElem?_getD]
      rw [List.getElem?_append_right (by omega), hc, Nat.add_sub_cancel_left]

theorem columnStds_getD {d j : ℕ} (hj : j < d) (rows : List (List ℝ)) :
    (columnStds d rows).getD j 0 = Real.sqrt (variance (feature j rows)) := by
  simp only [columnStds, List.getD_eq_getElem?_getD, List.getElem?_map, List.getElem?_range hj, Option.map_some,
    Option.getD_some]
  have := columnMeans_getD hj rows
  rw [List.getD_eq_getElem?_getD] at this
  rw [this]
  simp only [variance, vecMean, arithMean, feature, List.map_map]
  rfl

/-- The contexts that are drawn have the layout of the rows the ensemble was trained with, and in each column
the mean and the standard deviation of the training data; a column that never varied keeps its value. -/
theorem C107_contexts {w : ℕ} {d : RateData} {cs : List (List ℝ)} (hcs : d.context = some cs)
    (hlen : cs.length = d.position.length) (hne : cs ≠ []) (hw : ∀ c ∈ cs, c.length = w) {mean scale : List ℝ}
    (hm : dataMoments w d = .ok (mean, scale)) (noise : List (List ℝ)) (hz : ∀ z ∈ noise, z.length = w + 2) :
    (drawnContexts mean scale noise).length = noise.length ∧
    ∀ i < noise.length, ((drawnContexts mean scale noise).getD i []).length = w + 2 ∧
      ∀ j < w + 2,
        ((drawnContexts mean scale noise).getD i []).getD j 0 =
          (noise.getD i []).getD j 0 * Real.sqrt (variance (feature j (trainingRows d))) +
            arithMean (feature j (trainingRows d)) ∧
        ∀ v, (∀ x ∈ feature j (trainingRows d), x = v) → ((drawnContexts mean scale noise).getD i []).getD j 0 = v := by
  simp only [dataMoments, hcs, Except.ok.injEq, Prod.mk.injEq] at hm
  obtain ⟨hmean, hscale⟩ := hm
  have hml : mean.length = w + 2 := by rw [← hmean]; simp [columnMeans_length]
  have hsl : scale.length = w + 2 := by rw [← hscale]; simp [columnStds]
  have hrows : trainingRows d = List.zipWith (fun c (p : V2 ℝ) => c ++ [p.x, p.y]) cs d.position := by
    simp [trainingRows, hcs]
  have hmj : ∀ j < w + 2, mean.getD j 0 = arithMean (feature j (trainingRows d)) := by
    intro j hj
    rw [hrows, ← hmean, List.getD_eq_getElem?_getD]
    by_cases h : j < w
    · rw [List.getElem?_append_left (by rw [columnMeans_length]; exact h), ← List.getD_eq_getElem?_getD,
        columnMeans_getD h, feature_left hlen hw h]
    · obtain ⟨k, rfl⟩ : ∃ k, j = w + k := ⟨j - w, by omega⟩
      rw [List.getElem?_append_right (by rw [columnMeans_length]; omega), columnMeans_length, Nat.add_sub_cancel_left,
        ← List.getD_eq_getElem?_getD, columnMeans_getD (by omega), feature_right hlen hw]
  have hsj : ∀ j < w + 2, scale.getD j 0 = Real.sqrt (variance (feature j (trainingRows d))) := by
    intro j hj
    rw [hrows, ← hscale, List.getD_eq_getElem?_getD]
    have hcl : (columnStds w cs).length = w := by simp [columnStds]
    by_cases h : j < w
    · rw [List.getElem?_append_left (by rw [hcl]; exact h), ← List.getD_eq_getElem?_getD,
        columnStds_getD h, feature_left hlen hw h]
    · obtain ⟨k, rfl⟩ : ∃ k, j = w + k := ⟨j - w, by omega⟩
      rw [List.getElem?_append_right (by rw [hcl]; omega), hcl, Nat.add_sub_cancel_left,
        ← List.getD_eq_getElem?_getD, columnStds_getD (by omega), feature_right hlen hw]
  refine ⟨by simp [drawnContexts], ?_⟩
  intro i hi
  have hzl := hz _ (getD_mem hi [])
  have hrow : (drawnContexts mean scale noise).getD i [] =
      List.zipWith (· + ·) (List.zipWith (· * ·) (noise.getD i []) scale) mean := by
    simp only [drawnContexts, List.getD_eq_getElem?_getD, List.getElem?_map, List.getElem?_eq_getElem hi,
      Option.map_some, Option.getD_some]
  have hval : ∀ j < w + 2, ((drawnContexts mean scale noise).getD i []).getD j 0 =
      (noise.getD i []).getD j 0 * Real.sqrt (variance (feature j (trainingRows d))) +
        arithMean (feature j (trainingRows d)) := by
    intro j hj
    rw [hrow, ← hmj j hj, ← hsj j hj]
    have a1 : j < (noise.getD i []).length := by omega
    have a2 : j < scale.length := by omega
    have a3 : j < mean.length := by omega
    simp only [List.getD_eq_getElem?_getD] at a1 ⊢
    simp only [List.getElem?_zipWith, List.getElem?_eq_getElem a1, List.getElem?_eq_getElem a2,
      List.getElem?_eq_getElem a3, Option.getD_some]
  refine ⟨by rw [hrow]; simp only [List.length_zipWith, hzl, hsl, hml, min_self], ?_⟩
  intro j hj
  refine ⟨hval j hj, ?_⟩
  intro v hv
  have hf : feature j (trainingRows d) ≠ [] := by
    rw [hrows]
    unfold feature
    intro h
    have := congrArg List.length h
    simp only [List.length_map, List.length_zipWith, hlen, min_self, List.length_nil] at this
    rw [← hlen] at this
    exact hne (List.length_eq_zero_iff.1 this)
  have h1 : arithMean (feature j (trainingRows d)) = v :=
    le_antisymm (arithMean_le hf (fun x hx => (hv x hx).le)) (le_arithMean hf (fun x hx => (hv x hx).ge))
  have h2 : variance (feature j (trainingRows d)) = 0 := by
    apply le_antisymm _ (variance_nonneg _)
    have := variance_le hf (lo := v) (hi := v) (fun x hx => ⟨(hv x hx).ge, (hv x hx).le⟩)
    simpa using this
  rw [hval j hj, h1, h2]
  simp

/-- Two examples at 60 kV: positions vary, the voltage does not. -/
example : dataMoments 1 ⟨[1, 0], [1, 1], [[1, 1, 1], [1, 1, 1]], [⟨0, 1⟩, ⟨2, 3⟩], some [[60], [60]]⟩ =
    .ok (columnMeans 1 [[60], [60]] ++ columnMeans 2 [[0, 1], [2, 3]],
      columnStds 1 [[60], [60]] ++ columnStds 2 [[0, 1], [2, 3]]) := rfl

/-- Without normalisation and dropout, the loss of a student is how far the predictions after distillation are
from those before, squared and on average over the drawn contexts; with loss zero they agree at all of them. -/
theorem C107_predictions_partial (c : Distilling P O G) (hs : Distilling.Shaped c) (hm : SameInTraining c.net)
    (p : P) (s : BnState) (key : G) (hne : c.noise key ≠ []) :
    (c.loss p s key).1 = arithMean ((drawnContexts c.mean c.scale (c.noise key)).map (fun x =>
      sqDistance c.states (ensembleRates c.net c.states [(p, s)] x) (ensembleRates c.net c.states c.ensemble x))) ∧
    ((c.loss p s key).1 = 0 → ∀ x ∈ drawnContexts c.mean c.scale (c.noise key),
      ensembleRates c.net c.states [(p, s)] x = ensembleRates c.net c.states c.ensemble x) := by
  obtain ⟨hbn, hdrop⟩ := hm
  obtain ⟨h1, _, h3⟩ := C107_loss c hs p s key hne
  set xs := drawnContexts c.mean c.scale (c.noise key)
  have hst : ∀ i < xs.length, splitRates ((c.net.train c.mean.length p s (c.dropKey key) xs).1.getD i []) =
      ensembleRates c.net c.states [(p, s)] (xs.getD i []) := by
    intro i hi
    rw [ensembleRates_one hs]
    congr 1
    simp only [Mlp.train, hbn, Bool.false_eq_true, if_false, Mlp.eval, List.getD_eq_getElem?_getD, List.getElem?_map,
      List.getElem?_zipIdx, List.getElem?_eq_getElem hi, Option.map_some, Option.getD_some, hdrop]
  constructor
  · rw [h1, arithMean, List.length_map]
    congr 1
    have hsum : ∀ (f : List ℝ → ℝ) (l : List (List ℝ)), (l.map f).sum = ∑ i ∈ Finset.range l.length, f (l.getD i []) := by
      intro f l
      induction l with
      | nil => simp
      | cons a l ih => rw [List.length_cons, Finset.sum_range_succ', List.map_cons, List.sum_cons, ih]; simp [add_comm]
    rw [hsum]
    apply Finset.sum_congr rfl
    intro i hi
    dsimp only
    rw [hst i (Finset.mem_range.1 hi)]
  · intro h x hx
    obtain ⟨i, hi, rfl⟩ := List.getElem_of_mem hx
    have := h3.1 h i hi
    dsimp only at this
    rw [hst i hi] at this
    simpa [List.getD_eq_getElem?_getD, List.getElem?_eq_getElem hi] using this

/-! ### The student is judged as it trains, not as it predicts -/

/-- A network with normalised inputs and no dropout that asks whether the first is below average. -/
noncomputable def belowAverage : Mlp Unit ℕ where
  batchnorm := true
  norm := fun _ => ⟨[1, 1], [0, 0]⟩
  layers := fun _ _ x => if x.getD 0 0 < 0 then [0, 0, 0, 1] else [0, 0, 0, 2]

/-- One network whose running mean is 0.9. -/
noncomputable def oneTeacher : List (Unit × BnState) :=
  [((), ⟨⟨[0, 0], [9 / 10, 0], 1⟩, ⟨[0, 0], [1, 0], 1⟩⟩)]

/-- Two examples, at (0, 0) and (2, 0), without further context. -/
noncomputable def twoExamples : RateData := ⟨[1, 0], [1, 1], [[1, 1, 1], [1, 1, 1]], [⟨0, 0⟩, ⟨2, 0⟩], some [[], []]⟩

/-- Two kinds of batches of two contexts. -/
noncomputable def twoBatches : Distilling Unit Unit ℕ where
  net := belowAverage
  ensemble := oneTeacher
  states := 3
  mean := [1, 0]
  scale := [1, 0]
  noise := fun k => if k = 0 then [[-(6 / 5), 0], [0, 0]] else [[-(1 / 5), 0], [8 / 5, 0]]
  dropKey := id
  descend := fun _ p o => (p, o)
  split := fun _ n => List.range n

theorem map_zipIdx_fst {α β : Type} (f : α → β) (l : List α) : ∀ k, (l.zipIdx k).map (fun xi => f xi.1) = l.map f := by
  induction l with
  | nil => intro k; rfl
  | cons a l ih => intro k; rw [List.zipIdx_cons, List.map_cons, ih, List.map_cons]

theorem below_iff {x m v : ℝ} (hv : 0 ≤ v) : (x - m) * (1 * (1 / Real.sqrt (v + bnEps))) + 0 < 0 ↔ x < m := by
  have hpos : 0 < Real.sqrt (v + bnEps) := by
    apply Real.sqrt_pos.2
    have : (0 : ℝ) < bnEps := by unfold bnEps; norm_num
    linarith
  rw [add_zero, one_mul, mul_one_div, div_lt_iff₀ hpos, zero_mul, sub_lt_zero]

theorem bnNormalise_first (mean var : List ℝ) {x : List ℝ} (hx : x.length = 2) :
    (bnNormalise ⟨[1, 1], [0, 0]⟩ mean var x).getD 0 0 =
      (x.getD 0 0 - mean.getD 0 0) * (1 * (1 / Real.sqrt (var.getD 0 0 + bnEps))) + 0 := by
  simp [bnNormalise, hx, List.range_succ]

theorem belowAverage_train (p : Unit) (s : BnState) (k : ℕ) {rows : List (List ℝ)} (hne : rows ≠ [])
    (hl : ∀ r ∈ rows, r.length = 2) :
    (belowAverage.train 2 p s k rows).1 =
      rows.map (fun x => if x.getD 0 0 < arithMean (feature 0 rows) then [0, 0, 0, 1] else [0, 0, 0, 2]) := by
  simp only [Mlp.train, belowAverage, if_true, bnTrain]
  rw [map_zipIdx_fst (fun x : List ℝ => if x.getD 0 0 < 0 then [0, 0, 0, 1] else [(0 : ℝ), 0, 0, 2]), List.map_map]
  apply List.map_congr_left
  intro r hr
  simp only [Function.comp_apply]
  rw [bnNormalise_first _ _ (hl r hr), columnMeans_getD (by norm_num), columnVars_getD (by norm_num) hne]
  simp only [below_iff (variance_nonneg (feature 0 rows))]

theorem belowAverage_eval (p : Unit) (s : BnState) {x : List ℝ} (hx : x.length = 2) (hv : 0 ≤ s.var.average.getD 0 0) :
    belowAverage.eval p s x = if x.getD 0 0 < s.mean.average.getD 0 0 then [0, 0, 0, 1] else [0, 0, 0, 2] := by
  simp only [Mlp.eval, belowAverage, if_true, bnEval]
  rw [bnNormalise_first _ _ hx]
  simp only [below_iff hv]

theorem twoExamples_moments : dataMoments 0 twoExamples = .ok ([1, 0], [1, 0]) := by
  have h1 : columnMeans 2 [[(0 : ℝ), 0], [2, 0]] = [1, 0] := by
    simp [columnMeans, List.range_succ]
  have h2 : columnStds 2 [[(0 : ℝ), 0], [2, 0]] = [1, 0] := by
    simp only [columnStds, h1, vecMean]
    simp [List.range_succ]
    norm_num
  simp only [dataMoments, twoExamples, List.map_cons, List.map_nil, h1, h2]
  rfl

/-- The contexts of the two kinds of batches. -/
theorem twoBatches_contexts (k : ℕ) : drawnContexts [1, 0] [1, 0] (twoBatches.noise k) =
    if k = 0 then [[-(1 / 5), 0], [1, 0]] else [[4 / 5, 0], [13 / 5, 0]] := by
  simp only [drawnContexts, twoBatches]
  by_cases h : k = 0
  · simp only [h, if_true]; simp; norm_num
  · simp only [h, if_false]; simp; norm_num

theorem twoBatches_shaped : Distilling.Shaped twoBatches := by
  intro p k x
  simp only [twoBatches, belowAverage]
  split <;> rfl

theorem twoBatches_loss (p : Unit) (s : BnState) (k : ℕ) : (twoBatches.loss p s k).1 = 0 := by
  have hne : twoBatches.noise k ≠ [] := by simp only [twoBatches]; split <;> simp
  obtain ⟨_, _, h⟩ := C107_loss twoBatches twoBatches_shaped p s k hne
  rw [h]
  intro i hi
  have hc := twoBatches_contexts k
  have hm : twoBatches.mean = [1, 0] := rfl
  have hs : twoBatches.scale = [1, 0] := rfl
  have hnet : twoBatches.net = belowAverage := rfl
  have hst : twoBatches.states = 3 := rfl
  have hen : twoBatches.ensemble = oneTeacher := rfl
  dsimp only
  rw [hm, hs, hc] at hi ⊢
  rw [hnet, hst, hen, oneTeacher,
    ensembleRates_one (n := 3) (net := belowAverage) (fun p k x => twoBatches_shaped p k x)]
  congr 1
  have hteach : ∀ x : List ℝ, x.length = 2 → belowAverage.eval () ⟨⟨[0, 0], [9 / 10, 0], 1⟩, ⟨[0, 0], [1, 0], 1⟩⟩ x =
      if x.getD 0 0 < 9 / 10 then [0, 0, 0, 1] else [0, 0, 0, 2] := by
    intro x hx
    rw [belowAverage_eval _ _ hx (by simp)]
    simp
  by_cases hk : k = 0
  · simp only [hk, if_true] at hi ⊢
    have hi' : i = 0 ∨ i = 1 := by simp at hi; omega
    rw [show ([1, 0] : List ℝ).length = 2 from rfl, belowAverage_train _ _ _ (by simp) (by simp)]
    rcases hi' with rfl | rfl <;> rw [hteach _ (by simp)] <;> simp [feature, arithMean] <;> norm_num
  · simp only [hk, if_false] at hi ⊢
    have hi' : i = 0 ∨ i = 1 := by simp at hi; omega
    rw [show ([1, 0] : List ℝ).length = 2 from rfl, belowAverage_train _ _ _ (by simp) (by simp)]
    rcases hi' with rfl | rfl <;> rw [hteach _ (by simp)] <;> simp [feature, arithMean] <;> norm_num

/-- Normalisation, which is on by default, breaks the link between the loss and the predictions: two batches with
loss zero, in which the student gave the ensemble's rates at all four contexts, and afterwards the predictor gives
other rates than before at one of them.  In training a batch is normalised with its own mean, in predictions with
the running one. -/
theorem C107_modes_differ :
    Distilling.Shaped twoBatches ∧ (∀ p k x, twoBatches.net.layers p (some k) x = twoBatches.net.layers p none x) ∧
    ∃ (init : ℕ → Student Unit Unit) (nets : List (Unit × BnState)) (key' : ℕ),
      distill twoBatches init 0 1 2 twoExamples oneTeacher 0 = .ok (nets, key', [0]) ∧
      ∃ x ∈ drawnContexts [1, 0] [1, 0] (twoBatches.noise 0),
        ensembleRates belowAverage 3 nets x ≠ ensembleRates belowAverage 3 oneTeacher x := by
  refine ⟨twoBatches_shaped, fun _ _ _ => rfl, fun _ => ⟨(), bnInit 2 [[1, 0]], ()⟩,
    [((), bnAfter 2 ⟨[1, 1], [0, 0]⟩ (bnInit 2 [[1, 0]]) [[[-(1 / 5), 0], [1, 0]], [[4 / 5, 0], [13 / 5, 0]]])], 1, ?_,
    [1, 0], ?_, ?_⟩
  · have hc : ({ twoBatches with ensemble := oneTeacher, mean := [1, 0], scale := [1, 0] } : Distilling Unit Unit ℕ) =
        twoBatches := rfl
    simp only [distill, twoExamples_moments, hc]
    have hstate : ∀ (p : Unit) (s : BnState) (k : ℕ), (twoBatches.loss p s k).2 =
        (bnTrain 2 ⟨[1, 1], [0, 0]⟩ s (if k = 0 then [[-(1 / 5), 0], [1, 0]] else [[4 / 5, 0], [13 / 5, 0]])).2 := by
      intro p s k
      rw [← twoBatches_contexts k]
      rfl
    have hstep : ∀ (st : Student Unit Unit) (k : ℕ), twoBatches.step st k = (⟨(), (twoBatches.loss st.params st.state k).2, ()⟩, 0) := by
      intro st k
      simp only [Distilling.step, twoBatches_loss]
    have hsp : ∀ k n, twoBatches.split k n = List.range n := fun _ _ => rfl
    simp only [Distilling.run, hsp, show List.range 2 = [0, 1] from rfl, Distilling.epochs, Distilling.epoch,
      List.getLast?_cons_cons, List.getLast?_singleton, Distilling.scan, hstep, hstate]
    simp [vecMean, bnAfter]
  · rw [twoBatches_contexts]; simp
  · have hlay : ∀ p k x, (belowAverage.layers p k x).length = 3 + 1 := twoBatches_shaped
    rw [oneTeacher, ensembleRates_one hlay, ensembleRates_one hlay]
    obtain ⟨_, _, _, h⟩ := C108_running (d := 2) ⟨[1, 1], [0, 0]⟩ [[1, 0]]
      (batches := [[[-(1 / 5), 0], [1, 0]], [[4 / 5, 0], [13 / 5, 0]]]) (by simp) (by simp)
    obtain ⟨hm, hv⟩ := h 0 (by norm_num)
    have hv0 := (C108_range (d := 2) ⟨[1, 1], [0, 0]⟩ [[1, 0]]
      (batches := [[[-(1 / 5), 0], [1, 0]], [[4 / 5, 0], [13 / 5, 0]]]) (by simp) (by simp) (j := 0) (by norm_num)
      (lo := -(1 / 5)) (hi := 13 / 5) (by simp [feature]; norm_num)).2.1.1
    have e1 : belowAverage.eval () (bnAfter 2 ⟨[1, 1], [0, 0]⟩ (bnInit 2 [[1, 0]])
        [[[-(1 / 5), 0], [1, 0]], [[4 / 5, 0], [13 / 5, 0]]]) [1, 0] = [0, 0, 0, 1] := by
      rw [belowAverage_eval _ _ (by simp) hv0, hm, if_pos]
      simp [Finset.sum_range_succ, batchWeight, feature, arithMean]
      norm_num
    have e2 : belowAverage.eval () ⟨⟨[0, 0], [9 / 10, 0], 1⟩, ⟨[0, 0], [1, 0], 1⟩⟩ [1, 0] = [0, 0, 0, 2] := by
      rw [belowAverage_eval _ _ (by simp) (by simp), if_neg]
      simp
      norm_num
    rw [e1, e2]
    intro hc
    have h1 := splitRates_sum (out := [0, 0, 0, 1]) (by simp)
    have h2 := splitRates_sum (out := [0, 0, 0, 2]) (by simp)
    rw [hc, h2] at h1
    simp at h1

/-- A network without normalisation and dropout. -/
example : SameInTraining ({ belowAverage with batchnorm := false } : Mlp Unit ℕ) := ⟨rfl, fun _ _ _ => rfl⟩

/-- The keys, batches and shapes of the example meet the hypotheses of `C107_run` and `C107_loss`. -/
example : (∀ k n, (twoBatches.split k n).length = n) ∧ twoBatches.noise 0 ≠ [] ∧ Distilling.Shaped twoBatches :=
  ⟨fun _ n => by simp [twoBatches], by simp [twoBatches], twoBatches_shaped⟩

end PD.Props
