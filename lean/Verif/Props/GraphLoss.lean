/- C98: padding in the loss for graph alignment. -/
import Verif.Model.GraphLoss
import Verif.Props.Geometry

set_option linter.unusedSectionVars false
set_option linter.unusedSimpArgs false

namespace PD.Props
open PD PD.Spec

theorem meanOf_some {n : ℕ} {f : ℕ → Option ℝ} {g : ℕ → ℝ} (hn : n ≠ 0) (h : ∀ i, i < n → f i = some (g i)) :
    meanOf n f = some ((∑ i ∈ Finset.range n, g i) / n) := by
  have hm : (List.range n).mapM f = some ((List.range n).map g) := by
    have : ∀ l : List ℕ, (∀ i ∈ l, f i = some (g i)) → l.mapM f = some (l.map g) := by
      intro l
      induction l with
      | nil => intro _; rfl
      | cons a l ih =>
        intro hl
        rw [List.mapM_cons, hl a (by simp), ih (fun i hi => hl i (by simp [hi]))]
        rfl
    exact this _ (fun i hi => h i (List.mem_range.1 hi))
  rw [meanOf, if_neg hn, hm]
  simp only [Option.map_some, Option.some.injEq]
  congr 1

/-- Some example, some point, and a time step that counts. -/
def Proper (g : GraphBatch) (start : ℕ) : Prop := g.B ≠ 0 ∧ g.N ≠ 0 ∧ start < g.T

theorem localLoss_eq {g : GraphBatch} {start : ℕ} (h : Proper g start) :
    g.localLoss start = some ((∑ t ∈ Finset.range (g.T - start), ((∑ b ∈ Finset.range g.B,
      ((∑ n ∈ Finset.range g.N, squaredError (g.localLabel b (start + t) n) (g.localPred b (start + t) n) *
        g.mask b (start + t) n) / (g.N : ℝ))) / (g.B : ℝ))) / ((g.T - start : ℕ) : ℝ)) := by
  obtain ⟨hB, hN, hT⟩ := h
  unfold GraphBatch.localLoss
  apply meanOf_some (by omega)
  intro t _
  apply meanOf_some hB
  intro b _
  exact meanOf_some hN (fun _ _ => rfl)

theorem globalLoss_eq {g : GraphBatch} {start : ℕ} (hB : g.B ≠ 0) (hT : start < g.T) :
    g.globalLoss start = some ((∑ t ∈ Finset.range (g.T - start), ((∑ b ∈ Finset.range g.B,
      squaredError (g.globalLabel b (start + t)) (g.globalPred b (start + t))) / (g.B : ℝ))) / ((g.T - start : ℕ) : ℝ)) := by
  unfold GraphBatch.globalLoss
  apply meanOf_some (by omega)
  intro t _
  exact meanOf_some hB (fun _ _ => rfl)

/-- The batches agree, but for labels and predictions of points that are padding. -/
structure SameAtoms (g h : GraphBatch) : Prop where
  B : g.B = h.B
  T : g.T = h.T
  N : g.N = h.N
  mask : ∀ b t n, g.mask b t n = h.mask b t n
  atoms : ∀ b t n, g.mask b t n ≠ 0 → g.localLabel b t n = h.localLabel b t n ∧ g.localPred b t n = h.localPred b t n
  globalLabel : ∀ b t, g.globalLabel b t = h.globalLabel b t
  globalPred : ∀ b t, g.globalPred b t = h.globalPred b t

/-- C98: what is predicted for padding, and how padding is labelled, does not enter the loss. -/
theorem C98_masked_partial (g h : GraphBatch) (s : SameAtoms g h) (weight : ℝ) (start : ℕ) :
    g.loss weight start = h.loss weight start := by
  have hl : g.localLoss start = h.localLoss start := by
    unfold GraphBatch.localLoss
    rw [s.B, s.T, s.N]
    congr 1
    funext t
    congr 1
    funext b
    congr 1
    funext n
    rw [← s.mask]
    by_cases hm : g.mask b (start + t) n = 0
    · rw [hm, mul_zero, mul_zero]
    · obtain ⟨e1, e2⟩ := s.atoms _ _ _ hm
      rw [e1, e2]
  have hg : g.globalLoss start = h.globalLoss start := by
    unfold GraphBatch.globalLoss
    rw [s.B, s.T]
    simp only [s.globalLabel, s.globalPred]
  unfold GraphBatch.loss
  rw [hl, hg]

/-- The loss is a number exactly if some time step counts. -/
theorem C98_defined (g : GraphBatch) (weight : ℝ) (start : ℕ) (hB : g.B ≠ 0) (hN : g.N ≠ 0) :
    (∃ x, g.loss weight start = some x ∧ (0 ≤ weight → (∀ b t n, 0 ≤ g.mask b t n) → 0 ≤ x)) ↔ start < g.T := by
  constructor
  · rintro ⟨x, hx, -⟩
    by_contra hT
    have : g.globalLoss start = none := by
      unfold GraphBatch.globalLoss meanOf
      rw [if_pos (by omega)]
    rw [GraphBatch.loss, this] at hx
    cases hx
  · intro hT
    refine ⟨_, by rw [GraphBatch.loss, globalLoss_eq hB hT, localLoss_eq ⟨hB, hN, hT⟩], ?_⟩
    intro hw hm
    have hsq : ∀ p q : V2 ℝ, 0 ≤ squaredError p q := by
      intro p q
      simp only [squaredError, V2.normSq]
      nlinarith [mul_self_nonneg (p - q).x, mul_self_nonneg (p - q).y]
    apply add_nonneg
    · apply div_nonneg (Finset.sum_nonneg fun t _ => div_nonneg (Finset.sum_nonneg fun b _ => hsq _ _) (by positivity))
        (by positivity)
    · apply mul_nonneg hw
      apply div_nonneg (Finset.sum_nonneg fun t _ => div_nonneg (Finset.sum_nonneg fun b _ =>
        div_nonneg (Finset.sum_nonneg fun n _ => mul_nonneg (hsq _ _) (hm _ _ _)) (by positivity)) (by positivity))
        (by positivity)

theorem squaredError_nonneg (p q : V2 ℝ) : 0 ≤ squaredError p q := by
  simp only [squaredError, V2.normSq]
  nlinarith [mul_self_nonneg (p - q).x, mul_self_nonneg (p - q).y]

theorem squaredError_eq_zero (p q : V2 ℝ) : squaredError p q = 0 ↔ p = q := by
  constructor
  · intro h
    simp only [squaredError, V2.normSq, V2.sub_x, V2.sub_y] at h
    ext <;> nlinarith [mul_self_nonneg (p.x - q.x), mul_self_nonneg (p.y - q.y)]
  · rintro rfl
    simp [squaredError, V2.normSq]

/-- C98, what is aimed at: the loss is zero exactly when, from the first time step that counts, every drift and
the displacement of every atom is predicted as labelled. -/
theorem C98_perfect (g : GraphBatch) (weight : ℝ) (start : ℕ) (h : Proper g start) (hw : 0 < weight)
    (hm : ∀ b t n, 0 ≤ g.mask b t n) :
    g.loss weight start = some 0 ↔ ∀ b t, b < g.B → start ≤ t → t < g.T →
      g.globalLabel b t = g.globalPred b t ∧
      ∀ n, n < g.N → g.mask b t n ≠ 0 → g.localLabel b t n = g.localPred b t n := by
  have hB : (0 : ℝ) < g.B := by exact_mod_cast Nat.pos_of_ne_zero h.1
  have hN : (0 : ℝ) < g.N := by exact_mod_cast Nat.pos_of_ne_zero h.2.1
  have hT : (0 : ℝ) < ((g.T - start : ℕ) : ℝ) := by
    have := h.2.2
    exact_mod_cast (by omega : 0 < g.T - start)
  have hs := squaredError_nonneg
  have hG : ∀ t b, 0 ≤ squaredError (g.globalLabel b (start + t)) (g.globalPred b (start + t)) := fun _ _ => hs _ _
  have hL : ∀ t b n, 0 ≤ squaredError (g.localLabel b (start + t) n) (g.localPred b (start + t) n) *
      g.mask b (start + t) n := fun _ _ _ => mul_nonneg (hs _ _) (hm _ _ _)
  have hG' : ∀ t, 0 ≤ (∑ b ∈ Finset.range g.B,
      squaredError (g.globalLabel b (start + t)) (g.globalPred b (start + t))) / (g.B : ℝ) :=
    fun t => div_nonneg (Finset.sum_nonneg fun b _ => hG t b) hB.le
  have hL'' : ∀ t b, 0 ≤ (∑ n ∈ Finset.range g.N, squaredError (g.localLabel b (start + t) n)
      (g.localPred b (start + t) n) * g.mask b (start + t) n) / (g.N : ℝ) :=
    fun t b => div_nonneg (Finset.sum_nonneg fun n _ => hL t b n) hN.le
  have hL' : ∀ t, 0 ≤ (∑ b ∈ Finset.range g.B, ((∑ n ∈ Finset.range g.N, squaredError (g.localLabel b (start + t) n)
      (g.localPred b (start + t) n) * g.mask b (start + t) n) / (g.N : ℝ))) / (g.B : ℝ) :=
    fun t => div_nonneg (Finset.sum_nonneg fun b _ => hL'' t b) hB.le
  rw [GraphBatch.loss, globalLoss_eq h.1 h.2.2, localLoss_eq h]
  simp only [Option.some.injEq]
  rw [add_eq_zero_iff_of_nonneg (div_nonneg (Finset.sum_nonneg fun t _ => hG' t) hT.le)
    (mul_nonneg hw.le (div_nonneg (Finset.sum_nonneg fun t _ => hL' t) hT.le))]
  rw [mul_eq_zero_iff_left hw.ne', div_eq_zero_iff, div_eq_zero_iff, or_iff_left hT.ne', or_iff_left hT.ne',
    Finset.sum_eq_zero_iff_of_nonneg (fun t _ => hG' t), Finset.sum_eq_zero_iff_of_nonneg (fun t _ => hL' t)]
  have e1 : ∀ t, (∑ b ∈ Finset.range g.B,
      squaredError (g.globalLabel b (start + t)) (g.globalPred b (start + t))) / (g.B : ℝ) = 0 ↔
      ∀ b, b < g.B → g.globalLabel b (start + t) = g.globalPred b (start + t) := by
    intro t
    rw [div_eq_zero_iff, or_iff_left hB.ne', Finset.sum_eq_zero_iff_of_nonneg (fun b _ => hG t b)]
    simp only [Finset.mem_range, squaredError_eq_zero]
  have e2 : ∀ t, (∑ b ∈ Finset.range g.B, ((∑ n ∈ Finset.range g.N, squaredError (g.localLabel b (start + t) n)
      (g.localPred b (start + t) n) * g.mask b (start + t) n) / (g.N : ℝ))) / (g.B : ℝ) = 0 ↔
      ∀ b, b < g.B → ∀ n, n < g.N → g.mask b (start + t) n ≠ 0 →
        g.localLabel b (start + t) n = g.localPred b (start + t) n := by
    intro t
    rw [div_eq_zero_iff, or_iff_left hB.ne', Finset.sum_eq_zero_iff_of_nonneg (fun b _ => hL'' t b)]
    simp only [Finset.mem_range]
    refine forall_congr' fun b => imp_congr_right fun _ => ?_
    rw [div_eq_zero_iff, or_iff_left hN.ne', Finset.sum_eq_zero_iff_of_nonneg (fun n _ => hL t b n)]
    simp only [Finset.mem_range, mul_eq_zero, squaredError_eq_zero]
    refine forall_congr' fun n => imp_congr_right fun _ => ?_
    tauto
  simp only [e1, e2, Finset.mem_range]
  constructor
  · rintro ⟨k1, k2⟩ b t hb h1 h2
    obtain ⟨u, rfl⟩ := Nat.exists_eq_add_of_le h1
    exact ⟨k1 u (by omega) b hb, k2 u (by omega) b hb⟩
  · intro k
    exact ⟨fun t ht b hb => (k b (start + t) hb (by omega) (by omega)).1,
      fun t ht b hb => (k b (start + t) hb (by omega) (by omega)).2⟩

/-- `k` more points of padding in each time step. -/
def pad (g : GraphBatch) (k : ℕ) : GraphBatch :=
  { g with N := g.N + k, mask := fun b t n => if n < g.N then g.mask b t n else 0 }

/-- C98 fails for the amount of padding: `k` more points of padding shrink the local loss by `N / (N + k)`, and
leave the global loss. -/
theorem C98_padding_scales (g : GraphBatch) (start k : ℕ) (h : Proper g start) :
    ∃ x, g.localLoss start = some x ∧ (pad g k).localLoss start = some (g.N / ((g.N + k : ℕ) : ℝ) * x) ∧
      (pad g k).globalLoss start = g.globalLoss start := by
  have h' : Proper (pad g k) start := ⟨h.1, by simp only [pad]; have := h.2.1; omega, h.2.2⟩
  refine ⟨_, localLoss_eq h, ?_, rfl⟩
  rw [localLoss_eq h']
  congr 1
  have hN : (g.N : ℝ) ≠ 0 := by exact_mod_cast h.2.1
  have hNk : ((g.N + k : ℕ) : ℝ) ≠ 0 := by
    have : g.N + k ≠ 0 := by have := h.2.1; omega
    exact_mod_cast this
  rw [← mul_div_assoc, Finset.mul_sum]
  simp only [pad]
  congr 1
  apply Finset.sum_congr rfl
  intro t _
  rw [← mul_div_assoc, Finset.mul_sum]
  congr 1
  apply Finset.sum_congr rfl
  intro b _
  have e : ∑ n ∈ Finset.range (g.N + k), squaredError (g.localLabel b (start + t) n) (g.localPred b (start + t) n) *
      (if n < g.N then g.mask b (start + t) n else 0) =
      ∑ n ∈ Finset.range g.N, squaredError (g.localLabel b (start + t) n) (g.localPred b (start + t) n) *
        g.mask b (start + t) n := by
    rw [Finset.sum_range_add]
    have z : ∑ x ∈ Finset.range k, squaredError (g.localLabel b (start + t) (g.N + x)) (g.localPred b (start + t) (g.N + x)) *
        (if g.N + x < g.N then g.mask b (start + t) (g.N + x) else 0) = 0 := by
      apply Finset.sum_eq_zero
      intro x _
      rw [if_neg (by omega), mul_zero]
    rw [z, add_zero]
    apply Finset.sum_congr rfl
    intro n hn
    rw [if_pos (Finset.mem_range.1 hn)]
  rw [e]
  field_simp

/-- One atom at the right place and one point of padding, predicted to be off by `d`. -/
noncomputable def oneAtomOnePad (d : ℝ) : GraphBatch where
  B := 1
  T := 2
  N := 2
  mask := fun _ _ n => if n = 0 then 1 else 0
  localLabel := fun _ _ _ => ⟨0, 0⟩
  localPred := fun _ _ n => if n = 0 then ⟨0, 0⟩ else ⟨d, 0⟩
  globalLabel := fun _ _ => ⟨0, 0⟩
  globalPred := fun _ _ => ⟨0, 0⟩

/-- C98 fails for the reported error of positions: it counts padding like atoms. -/
theorem C98_error_counts_padding (d : ℝ) (hd : 0 ≤ d) :
    SameAtoms (oneAtomOnePad d) (oneAtomOnePad 0) ∧ (oneAtomOnePad d).loss 1 1 = some 0 ∧
    (oneAtomOnePad d).localError = some (d / 2) := by
  refine ⟨⟨rfl, rfl, rfl, fun _ _ _ => rfl, ?_, fun _ _ => rfl, fun _ _ => rfl⟩, ?_, ?_⟩
  · intro b t n hm
    refine ⟨rfl, ?_⟩
    simp only [oneAtomOnePad] at hm ⊢
    by_cases h : n = 0
    · simp [h]
    · simp [h] at hm
  · rw [GraphBatch.loss, globalLoss_eq (by simp [oneAtomOnePad]) (by simp [oneAtomOnePad]),
      localLoss_eq ⟨by simp [oneAtomOnePad], by simp [oneAtomOnePad], by simp [oneAtomOnePad]⟩]
    simp [oneAtomOnePad, squaredError, V2.normSq, Finset.sum_range_succ]
  · unfold GraphBatch.localError
    rw [meanOf_some (g := fun _ => d / 2) (by simp [oneAtomOnePad])]
    · simp [oneAtomOnePad]
    · intro b _
      rw [meanOf_some (g := fun _ => d / 2) (by simp [oneAtomOnePad])]
      · simp [oneAtomOnePad, Finset.sum_range_succ]
      · intro t _
        rw [meanOf_some (g := fun n => if n = 0 then 0 else d) (by simp [oneAtomOnePad])]
        · simp [oneAtomOnePad, Finset.sum_range_succ]
        · intro n _
          by_cases h : n = 0
          · simp [oneAtomOnePad, h, norm2]
          · simp [oneAtomOnePad, h, norm2, Real.sqrt_mul_self hd]

example : Proper (oneAtomOnePad 1) 1 := by
  refine ⟨?_, ?_, ?_⟩ <;> simp [oneAtomOnePad]

/-- In it the atom is predicted as labelled and the padding is not, so the loss is zero. -/
example : (oneAtomOnePad 1).loss 2 1 = some 0 := by
  rw [C98_perfect _ _ _ ⟨by simp [oneAtomOnePad], by simp [oneAtomOnePad], by simp [oneAtomOnePad]⟩ (by norm_num)
    (fun b t n => by simp only [oneAtomOnePad]; split <;> norm_num)]
  intro b t _ _ _
  refine ⟨rfl, fun n _ hn => ?_⟩
  have : n = 0 := by
    by_contra h
    simp [oneAtomOnePad, h] at hn
  simp [oneAtomOnePad, this]

/-- With a single time step, the default start gives no loss at all. -/
example : ({ oneAtomOnePad 1 with T := 1 } : GraphBatch).loss 1 1 = none := by
  simp [GraphBatch.loss, GraphBatch.globalLoss, meanOf]

end PD.Props
