/- Properties C50 (bounded and exact drift estimates) and C51 for `align_latest`. -/
import Verif.Model.AlignLatest
import Verif.Props.DataPoints
import Verif.Props.Merge
import Verif.Lemmas.Argsort
import Mathlib.Analysis.Complex.Norm

set_option linter.unusedSectionVars false
set_option linter.unusedSimpArgs false

namespace PD.Props
open PD PD.Spec Classical

theorem len_complex (p : V2 ℝ) : len p = ‖(⟨p.x, p.y⟩ : ℂ)‖ := by
  rw [Complex.norm_def, Complex.normSq_apply, len]
  congr 1
  ring

theorem len_add_le (p q : V2 ℝ) : len (p + q) ≤ len p + len q := by
  rw [len_complex, len_complex, len_complex]
  exact norm_add_le (⟨p.x, p.y⟩ : ℂ) ⟨q.x, q.y⟩

theorem len_smul (c : ℝ) (p : V2 ℝ) : len (V2.smul c p) = |c| * len p := by
  have e : (V2.smul c p).x ^ 2 + (V2.smul c p).y ^ 2 = c ^ 2 * (p.x ^ 2 + p.y ^ 2) := by
    simp only [V2.smul_x, V2.smul_y]; ring
  rw [len, e, Real.sqrt_mul (sq_nonneg c), Real.sqrt_sq_eq_abs]
  rfl

theorem distSq_lt_iff (p q r s : V2 ℝ) : V2.distSq p q < V2.distSq r s ↔ Spec.dist p q < Spec.dist r s := by
  have h : ∀ a b : V2 ℝ, V2.distSq a b = (a.x - b.x) ^ 2 + (a.y - b.y) ^ 2 := by
    intro a b; simp [V2.distSq, V2.normSq]; ring
  rw [h, h, Spec.dist, Spec.dist, Real.sqrt_lt_sqrt_iff (by positivity)]

/-! ### C50: bound -/

theorem clip_len {m : ℝ} (hm : 0 ≤ m) {d e : V2 ℝ} (h : clipDrift m d = some e) : len e ≤ m := by
  unfold clipDrift at h
  split at h
  · split at h
    · cases h
    · rename_i h1 h2
      simp only [Option.some.injEq] at h
      subst h
      rw [norm2_eq_len] at h1 h2 ⊢
      have : (⟨m * d.x / len d, m * d.y / len d⟩ : V2 ℝ) = V2.smul (m / len d) d := by
        ext <;> simp <;> ring
      rw [this, len_smul, abs_of_nonneg (div_nonneg hm (len_nonneg d)), div_mul_cancel₀ _ h2]
  · rename_i h1
    simp only [Option.some.injEq] at h
    subst h
    rw [norm2_eq_len] at h1
    exact not_lt.1 h1

theorem alignStep_len {a : AlignArgs} (hm : 0 ≤ a.maxShift) {noise : V2 ℝ} {st st' : AlignState}
    (h : alignStep a noise st = .ok st') : ∀ d ∈ st'.drift, len d ≤ a.maxShift := by
  intro d hd
  unfold alignStep at h
  split at h
  · rename_i hn
    split at h
    · cases h
    · cases h; rw [hn] at hd; cases hd
  · split at h
    · cases h
    · cases h; cases hd
    · simp only [Except.ok.injEq] at h
      subst h
      exact clip_len hm hd

theorem foldlM_range_succ {σ : Type} (f : σ → ℕ → Except Err σ) (n : ℕ) (s : σ) :
    (List.range (n + 1)).foldlM f s = (match (List.range n).foldlM f s with
      | .error e => .error e
      | .ok s' => f s' n) := by
  rw [List.range_succ, List.foldlM_append]
  cases (List.range n).foldlM f s with
  | error e => rfl
  | ok s' =>
    change (List.foldlM f s' [n]) = f s' n
    rw [List.foldlM_cons]
    cases f s' n <;> rfl

/-- After at least one iteration the returned shift is not longer than `max_shift`, unless it is not a
number: for every frame, reference, classes, noise and initial shift. -/
theorem C50_bounded_partial (a : AlignArgs) (draw : ℕ → V2 ℝ) (init : Option (V2 ℝ)) (st : AlignState)
    (hi : 1 ≤ a.iterations) (hm : 0 ≤ a.maxShift) (h : alignLatest a draw init = .ok st) :
    ∀ d ∈ st.drift, len d ≤ a.maxShift := by
  obtain ⟨n, hn⟩ : ∃ n, a.iterations = n + 1 := ⟨a.iterations - 1, by omega⟩
  unfold alignLatest at h
  rw [hn, foldlM_range_succ] at h
  split at h
  · cases h
  · exact alignStep_len hm h

/-- The arguments make sense: there is a new atom, every atom has a class, and every class of a new atom
occurs in the reference. -/
structure Alignable (a : AlignArgs) : Prop where
  some_new : a.new ≠ []
  new_classes : a.newClasses.length = a.new.length
  ref_classes : a.refClasses.length = a.ref.length
  classes : ∀ c ∈ a.newClasses, c ∈ a.refClasses

theorem ofClass_length {xs : List (V2 ℝ)} {cl : List ℤ} (h : cl.length = xs.length) (c : ℤ) :
    (ofClass xs cl c).length = cl.count c := by
  induction xs generalizing cl with
  | nil => cases cl with
    | nil => rfl
    | cons _ _ => simp at h
  | cons x xs ih =>
    cases cl with
    | nil => simp at h
    | cons k cl =>
      have := ih (cl := cl) (by simpa using h)
      unfold ofClass at this ⊢
      rw [List.zip_cons_cons, List.filter_cons, List.count_cons]
      by_cases hk : k = c
      · simp only [hk, decide_true, if_true, List.map_cons, List.length_cons, beq_self_eq_true]
        omega
      · have hk' : (k == c) = false := by simpa using hk
        simp only [hk, decide_false, Bool.false_eq_true, if_false, hk']
        omega

theorem ofClass_mem {xs : List (V2 ℝ)} {cl : List ℤ} {c : ℤ} {p : V2 ℝ} :
    p ∈ ofClass xs cl c ↔ (p, c) ∈ xs.zip cl := by
  unfold ofClass
  simp only [List.mem_map, List.mem_filter, decide_eq_true_eq, Prod.exists, exists_and_right,
    exists_eq_right]

theorem ofClass_ne_nil {xs : List (V2 ℝ)} {cl : List ℤ} (h : cl.length = xs.length) {c : ℤ}
    (hc : c ∈ cl) : ofClass xs cl c ≠ [] := by
  intro h0
  have := ofClass_length h c
  rw [h0] at this
  have h2 := List.count_pos_iff.2 hc
  rw [List.length_nil] at this
  rw [← this] at h2
  exact absurd h2 (lt_irrefl 0)

/-- The offsets of one class. -/
noncomputable def classOffsets (a : AlignArgs) (shift : V2 ℝ) (c : ℤ) : List (V2 ℝ) :=
  ((ofClass a.new a.newClasses c).map (· + shift)).filterMap (fun l =>
    match argmin? ((ofClass a.ref a.refClasses c).map (fun r => V2.distSq l r)) with
    | none => none
    | some k =>
      let r := (ofClass a.ref a.refClasses c).getD k 0
      if belowMask a.maskAbove l r then some (r - l) else none)

theorem icpOffset_eq {a : AlignArgs} (ha : Alignable a) (shift : V2 ℝ) :
    icpOffset a shift = .ok (meanOffset (trimOffsets a.trim
      (a.newClasses.dedup.map (classOffsets a shift)).flatten)) := by
  have hne : a.newClasses ≠ [] := by
    intro h0
    have h := ha.new_classes
    rw [h0] at h
    exact ha.some_new (List.length_eq_zero_iff.1 h.symm)
  unfold icpOffset
  rw [if_neg (by simpa using hne), if_neg (by
    rw [not_or]
    exact ⟨not_not.2 ha.new_classes.symm, not_not.2 ha.ref_classes.symm⟩)]
  rw [mapM_pure' (g := classOffsets a shift)]
  intro c hc
  have hc' : c ∈ a.refClasses := ha.classes c (List.mem_dedup.1 hc)
  unfold getOffsets
  rw [if_neg (by simpa using ofClass_ne_nil ha.ref_classes hc')]
  rfl

/-- What it raises: nothing for alignable arguments, whatever the shift. -/
theorem C50_raises (a : AlignArgs) (draw : ℕ → V2 ℝ) (init : Option (V2 ℝ)) (ha : Alignable a) :
    ∃ st, alignLatest a draw init = .ok st := by
  have hstep : ∀ noise st, ∃ st', alignStep a noise st = .ok st' := by
    intro noise st
    unfold alignStep
    cases st.drift with
    | none => simp only [icpOffset_eq ha]; exact ⟨_, rfl⟩
    | some d =>
      simp only [icpOffset_eq ha]
      cases meanOffset _ with
      | none => exact ⟨_, rfl⟩
      | some o => exact ⟨_, rfl⟩
  have key : ∀ (l : List ℕ) (st : AlignState),
      ∃ st', l.foldlM (fun st i => alignStep a (alignNoise a draw i) st) st = .ok st' := by
    intro l
    induction l with
    | nil => intro st; exact ⟨st, rfl⟩
    | cons i l ih =>
      intro st
      obtain ⟨st1, h1⟩ := hstep (alignNoise a draw i) st
      obtain ⟨st', h2⟩ := ih st1
      exact ⟨st', by rw [List.foldlM_cons, h1]; exact h2⟩
  exact key _ _

theorem classOffsets_unmasked {a : AlignArgs} (ha : Alignable a) (hmask : a.maskAbove = none)
    (shift : V2 ℝ) {c : ℤ} (hc : c ∈ a.newClasses) : classOffsets a shift c ≠ [] := by
  have h1 := ofClass_ne_nil ha.new_classes hc
  have h2 := ofClass_ne_nil ha.ref_classes (ha.classes c hc)
  obtain ⟨p, hp⟩ := List.exists_mem_of_ne_nil _ h1
  obtain ⟨k, hk⟩ := argmin?_isSome (l := (ofClass a.ref a.refClasses c).map
    (fun r => V2.distSq (p + shift) r)) (by simpa using h2)
  apply List.ne_nil_of_mem (a := (ofClass a.ref a.refClasses c).getD k 0 - (p + shift))
  unfold classOffsets
  rw [List.mem_filterMap]
  refine ⟨p + shift, List.mem_map_of_mem hp, ?_⟩
  simp [hk, belowMask, hmask]

/-- With the default mask and trimming the result is a number. -/
theorem C50_number (a : AlignArgs) (draw : ℕ → V2 ℝ) (init : Option (V2 ℝ)) (ha : Alignable a)
    (hm : 0 ≤ a.maxShift) (hmask : a.maskAbove = none) (htrim : a.trim ≤ 0) :
    ∃ st d, alignLatest a draw init = .ok st ∧ st.drift = some d := by
  have hicp : ∀ shift, ∃ o, icpOffset a shift = .ok (some o) := by
    intro shift
    rw [icpOffset_eq ha, trimOffsets, if_neg (not_lt.2 htrim)]
    obtain ⟨c, hc⟩ : ∃ c, c ∈ a.newClasses := by
      apply List.exists_mem_of_ne_nil
      intro h0
      have h := ha.new_classes
      rw [h0] at h
      exact ha.some_new (List.length_eq_zero_iff.1 h.symm)
    obtain ⟨o, ho⟩ := List.exists_mem_of_ne_nil _ (classOffsets_unmasked ha hmask shift hc)
    have hne : (a.newClasses.dedup.map (classOffsets a shift)).flatten ≠ [] := by
      apply List.ne_nil_of_mem (a := o)
      rw [List.mem_flatten]
      exact ⟨_, List.mem_map_of_mem (List.mem_dedup.2 hc), ho⟩
    unfold meanOffset
    rw [if_neg (by simpa using hne)]
    exact ⟨_, rfl⟩
  have hclip : ∀ d, ∃ e, clipDrift a.maxShift d = some e := by
    intro d
    unfold clipDrift
    split
    · rename_i h
      rw [if_neg (by intro h0; rw [h0] at h; exact absurd h (not_lt.2 hm))]
      exact ⟨_, rfl⟩
    · exact ⟨_, rfl⟩
  have hstep : ∀ noise st d, st.drift = some d →
      ∃ st' e, alignStep a noise st = .ok st' ∧ st'.drift = some e := by
    intro noise st d hd
    obtain ⟨o, ho⟩ := hicp (d + noise)
    obtain ⟨e, he⟩ := hclip (d + (noise + o))
    unfold alignStep
    simp only [hd, ho]
    exact ⟨_, e, rfl, he⟩
  have key : ∀ (l : List ℕ) (st : AlignState) (d : V2 ℝ), st.drift = some d →
      ∃ st' e, l.foldlM (fun st i => alignStep a (alignNoise a draw i) st) st = .ok st' ∧
        st'.drift = some e := by
    intro l
    induction l with
    | nil => intro st d hd; exact ⟨st, d, rfl, hd⟩
    | cons i l ih =>
      intro st d hd
      obtain ⟨st1, e1, h1, h1'⟩ := hstep (alignNoise a draw i) st d hd
      obtain ⟨st', e, h2, h2'⟩ := ih st1 e1 h1'
      exact ⟨st', e, by rw [List.foldlM_cons, h1]; exact h2, h2'⟩
  cases init with
  | none => exact key _ _ 0 rfl
  | some v => exact key _ _ v rfl

/-! ### C50: exactness -/

/-- The new frame is the reference frame moved by `-d` (possibly with fewer atoms), and `d` is less than
half the distance of any two reference atoms of one class. -/
structure RigidShift (a : AlignArgs) (d : V2 ℝ) : Prop where
  partner : ∀ x ∈ a.new.zip a.newClasses, (x.1 + d, x.2) ∈ a.ref.zip a.refClasses
  spacing : ∀ x ∈ a.ref.zip a.refClasses, ∀ y ∈ a.ref.zip a.refClasses, x.2 = y.2 → x.1 ≠ y.1 →
    2 * len d < Spec.dist x.1 y.1

/-- The frame is shifted by `d` and atoms of one kind are more than `2 ρ` apart in the reference. -/
structure RigidWithin (a : AlignArgs) (d : V2 ℝ) (ρ : ℝ) : Prop where
  partner : ∀ x ∈ a.new.zip a.newClasses, (x.1 + d, x.2) ∈ a.ref.zip a.refClasses
  spacing : ∀ x ∈ a.ref.zip a.refClasses, ∀ y ∈ a.ref.zip a.refClasses, x.2 = y.2 → x.1 ≠ y.1 →
    2 * ρ < Spec.dist x.1 y.1

theorem classOffsets_rigid {a : AlignArgs} {d s : V2 ℝ} {ρ : ℝ} (hr : RigidWithin a d ρ) (hs : len (d - s) ≤ ρ)
    (hmask : ∀ m ∈ a.maskAbove, ρ < m) (c : ℤ) :
    classOffsets a s c = (ofClass a.new a.newClasses c).map (fun _ => d - s) := by
  unfold classOffsets
  rw [List.filterMap_map]
  rw [← List.filterMap_eq_map]
  apply List.filterMap_congr
  intro p hp
  have hpc := ofClass_mem.1 hp
  have hq := hr.partner _ hpc
  simp only at hq
  have hqm : p + d ∈ ofClass a.ref a.refClasses c := ofClass_mem.2 hq
  set rs := ofClass a.ref a.refClasses c with hrs
  have hd1 : Spec.dist (p + s) (p + d) = len (d - s) := by
    rw [Spec.dist, len]; congr 1; simp; ring
  -- any other reference atom is farther
  have hfar : ∀ q ∈ rs, q ≠ p + d → V2.distSq (p + s) (p + d) < V2.distSq (p + s) q := by
    intro q hqr hne
    rw [distSq_lt_iff, hd1]
    have h2 := hr.spacing _ hq _ (ofClass_mem.1 hqr) rfl (Ne.symm hne)
    simp only at h2
    have h3 : Spec.dist (p + d) q ≤ Spec.dist (p + s) (p + d) + Spec.dist (p + s) q := by
      rw [dist_comm' (p + s) (p + d), dist_eq_len, dist_eq_len, dist_eq_len]
      have : (p + d) - q = ((p + d) - (p + s)) + ((p + s) - q) := by ext <;> simp <;> ring
      rw [this]
      exact len_add_le _ _
    rw [hd1] at h3
    linarith
  obtain ⟨k, hk⟩ := argmin?_isSome (l := rs.map (fun r => V2.distSq (p + s) r))
    (by simpa using List.ne_nil_of_mem hqm)
  have hklt := argmin?_lt hk
  rw [List.length_map] at hklt
  obtain ⟨v, hv, hmin, _⟩ := argmin?_eq_some hk
  rw [List.getElem?_map, List.getElem?_eq_getElem hklt, Option.map_some, Option.some.injEq] at hv
  have hkq : rs[k] = p + d := by
    by_contra hne
    have h1 := hfar rs[k] (List.getElem_mem _) hne
    have h2 := hmin _ (List.mem_map_of_mem (f := fun r => V2.distSq (p + s) r) hqm)
    rw [← hv] at h2
    exact absurd h1 (not_lt.2 h2)
  have hg : rs.getD k 0 = p + d := by
    rw [List.getD_eq_getElem?_getD, List.getElem?_eq_getElem hklt, Option.getD_some, hkq]
  have hmask' : belowMask a.maskAbove (p + s) (p + d) = true := by
    unfold belowMask
    cases hma : a.maskAbove with
    | none => rfl
    | some m =>
      have hm := hmask m (by rw [hma]; rfl)
      simp only
      rw [normLt_closer]
      refine ⟨lt_of_le_of_lt ((len_nonneg _).trans hs) hm, ?_⟩
      have h1 : V2.distSq (p + s) (p + d) = len (d - s) ^ 2 := by
        rw [← hd1, Spec.dist, Real.sq_sqrt (by positivity)]
        simp [V2.distSq, V2.normSq]; ring
      rw [h1]
      exact pow_lt_pow_left₀ (lt_of_le_of_lt hs hm) (len_nonneg _) (by norm_num)
  simp only [Function.comp, hk, hg, hmask', if_true]
  congr 1
  ext <;> simp

theorem meanOffset_const {l : List (V2 ℝ)} {v : V2 ℝ} (hne : l ≠ []) (h : ∀ x ∈ l, x = v) :
    meanOffset l = some v := by
  have hl : l = List.replicate l.length v := List.eq_replicate_iff.2 ⟨rfl, h⟩
  unfold meanOffset
  rw [if_neg (by simpa using hne)]
  have hpos : (l.length : ℝ) ≠ 0 := by
    have := List.length_pos_iff.2 hne
    positivity
  rw [hl]
  simp only [List.map_replicate, List.sum_replicate, List.length_replicate, nsmul_eq_mul]
  congr 1
  ext
  · simp only; rw [mul_div_cancel_left₀ _ hpos]
  · simp only; rw [mul_div_cancel_left₀ _ hpos]

theorem pyPrefix_ne_nil {α : Type} {k : ℤ} {l : List α} (hk : 1 ≤ k) (hl : l ≠ []) : pyPrefix k l ≠ [] := by
  unfold pyPrefix
  rw [if_pos (by omega)]
  intro h
  rw [List.take_eq_nil_iff] at h
  rcases h with h | h
  · omega
  · exact hl h

theorem icp_rigid {a : AlignArgs} {d s : V2 ℝ} {ρ : ℝ} (ha : Alignable a) (hr : RigidWithin a d ρ)
    (hs : len (d - s) ≤ ρ) (hmask : ∀ m ∈ a.maskAbove, ρ < m)
    (htrim : 0 < a.trim → 1 ≤ (1 - a.trim) * a.new.length) :
    icpOffset a s = .ok (some (d - s)) := by
  rw [icpOffset_eq ha]
  congr 1
  set offs := (a.newClasses.dedup.map (classOffsets a s)).flatten with hoffs
  have hall : ∀ o ∈ offs, o = d - s := by
    intro o ho
    rw [hoffs, List.mem_flatten] at ho
    obtain ⟨l, hl, hol⟩ := ho
    obtain ⟨c, _, rfl⟩ := List.mem_map.1 hl
    rw [classOffsets_rigid hr hs hmask] at hol
    obtain ⟨_, _, rfl⟩ := List.mem_map.1 hol
    rfl
  have hlen : offs.length = a.new.length := by
    rw [hoffs, List.length_flatten, List.map_map, ← ha.new_classes,
      ← List.sum_map_count_dedup_eq_length a.newClasses]
    congr 1
    apply List.map_congr_left
    intro c _
    simp only [Function.comp]
    rw [classOffsets_rigid hr hs hmask, List.length_map, ofClass_length ha.new_classes]
  have hne : offs ≠ [] := by
    intro h0
    rw [h0] at hlen
    exact ha.some_new (List.length_eq_zero_iff.1 hlen.symm)
  unfold trimOffsets
  split
  · rename_i ht
    have hk := htrim ht
    rw [← hlen] at hk
    have hk' : 1 ≤ pyInt ((1 - a.trim) * (offs.length : ℝ)) := by
      unfold pyInt
      rw [if_pos (by linarith)]
      exact Int.le_floor.2 (by exact_mod_cast hk)
    apply meanOffset_const
    · have h1 : argsort (offs.map norm2) ≠ [] := by
        intro h0
        have := argsort_length (offs.map norm2)
        rw [h0, List.length_map] at this
        exact hne (List.length_eq_zero_iff.1 this.symm)
      simpa using pyPrefix_ne_nil hk' h1
    · intro x hx
      obtain ⟨i, hi, rfl⟩ := List.mem_map.1 hx
      have hi' : i ∈ argsort (offs.map norm2) := by
        unfold pyPrefix at hi
        split at hi <;> exact List.mem_of_mem_take hi
      have := (argsort_perm (offs.map norm2)).mem_iff.1 hi'
      rw [List.mem_range, List.length_map] at this
      rw [List.getD_eq_getElem?_getD, List.getElem?_eq_getElem this]
      exact hall _ (List.getElem_mem _)
  · exact meanOffset_const hne hall

/-- How much of the noise is left in round `i` of `n`: all of it in the first, none in the last. -/
noncomputable def fade (n i : ℕ) : ℝ := if n = 1 then 1 else 1 - (i : ℝ) / ((n : ℝ) - 1)

theorem alignNoise_eq (a : AlignArgs) (draw : ℕ → V2 ℝ) (i : ℕ) (hi : i < a.iterations) :
    alignNoise a draw i = V2.smul (a.noiseScale * fade a.iterations i) (draw i) := by
  have e : (linspace a.noiseScale 0 a.iterations).getD i 0 = a.noiseScale * fade a.iterations i := by
    unfold linspace fade
    rw [List.getD_eq_getElem?_getD, List.getElem?_map, List.getElem?_range hi]
    simp only [Option.map_some, Option.getD_some]
    split
    · rw [mul_one]
    · ring
  unfold alignNoise
  rw [e]
  simp only
  split
  · rename_i h
    rw [h]
    ext <;> simp
  · rfl

theorem len_smul' (c : ℝ) (v : V2 ℝ) : len (V2.smul c v) = |c| * len v := by
  unfold len
  rw [← Real.sqrt_sq_eq_abs, ← Real.sqrt_mul (sq_nonneg c)]
  congr 1
  simp
  ring

/-- A rigid shift is recovered exactly from every initial shift and with every noise such that no round starts
further than `ρ` from it, where atoms of one kind are more than `2 ρ` apart, `ρ` is below the mask and the shift
is not longer than `max_shift`.  The first round starts from the initial shift with all of the noise, and the noise
fades to nothing in the last round. -/
theorem C50_exact_with_noise (a : AlignArgs) (draw : ℕ → V2 ℝ) (d s : V2 ℝ) (ρ : ℝ) (init : Option (V2 ℝ))
    (ha : Alignable a) (hr : RigidWithin a d ρ) (hi : 1 ≤ a.iterations)
    (hmax : len d ≤ a.maxShift) (hmask : ∀ m ∈ a.maskAbove, ρ < m)
    (htrim : 0 < a.trim → 1 ≤ (1 - a.trim) * a.new.length) (h0 : init = some s ∨ (init = none ∧ s = 0))
    (hfirst : len (d - s) + |a.noiseScale| * len (draw 0) ≤ ρ)
    (hlater : ∀ i, 1 ≤ i → i < a.iterations → |a.noiseScale * fade a.iterations i| * len (draw i) ≤ ρ) :
    ∃ st, alignLatest a draw init = .ok st ∧ st.drift = some d := by
  have hclip : clipDrift a.maxShift d = some d := by
    unfold clipDrift
    rw [if_neg (by rw [norm2_eq_len]; exact not_lt.2 hmax)]
  have hstep : ∀ noise v st, st.drift = some v → len (d - (v + noise)) ≤ ρ →
      ∃ st', alignStep a noise st = .ok st' ∧ st'.drift = some d := by
    intro noise v st hst hv
    have e2 : v + (noise + (d - (v + noise))) = d := by ext <;> simp <;> ring
    unfold alignStep
    simp only [hst, icp_rigid ha hr hv hmask htrim, e2, hclip]
    exact ⟨_, rfl, rfl⟩
  have key : ∀ (l : List ℕ) (st : AlignState), st.drift = some d → (∀ i ∈ l, 1 ≤ i ∧ i < a.iterations) →
      ∃ st', l.foldlM (fun st i => alignStep a (alignNoise a draw i) st) st = .ok st' ∧
        st'.drift = some d := by
    intro l
    induction l with
    | nil => intro st hst _; exact ⟨st, rfl, hst⟩
    | cons i l ih =>
      intro st hst hl
      obtain ⟨l1, l2⟩ := hl i (by simp)
      obtain ⟨st1, h1, h1'⟩ := hstep (alignNoise a draw i) d st hst (by
        have : d - (d + alignNoise a draw i) = V2.smul (-(a.noiseScale * fade a.iterations i)) (draw i) := by
          rw [alignNoise_eq a draw i l2]; ext <;> simp
        rw [this, len_smul', abs_neg]
        exact hlater i l1 l2)
      obtain ⟨st', h2, h2'⟩ := ih st1 h1' (fun j hj => hl j (by simp [hj]))
      refine ⟨st', ?_, h2'⟩
      rw [List.foldlM_cons, h1]
      exact h2
  obtain ⟨n, hn⟩ : ∃ n, a.iterations = n + 1 := ⟨a.iterations - 1, by omega⟩
  have hrange : List.range a.iterations = 0 :: (List.range n).map Nat.succ := by
    rw [hn, List.range_succ_eq_map]
  have start : ∀ st : AlignState, st.drift = some s →
      ∃ st', (List.range a.iterations).foldlM (fun st i => alignStep a (alignNoise a draw i) st) st = .ok st' ∧
        st'.drift = some d := by
    intro st hst
    obtain ⟨st1, h1, h1'⟩ := hstep (alignNoise a draw 0) s st hst (by
      have e : d - (s + alignNoise a draw 0) = (d - s) + V2.smul (-a.noiseScale) (draw 0) := by
        have hf : fade a.iterations 0 = 1 := by unfold fade; split <;> simp
        rw [alignNoise_eq a draw 0 (by omega), hf]; ext <;> simp <;> ring
      rw [e]
      refine (len_add_le _ _).trans ?_
      rw [len_smul', abs_neg]
      exact hfirst)
    rw [hrange, List.foldlM_cons, h1]
    apply key _ st1 h1'
    intro i hi
    obtain ⟨j, hj, rfl⟩ := List.mem_map.1 hi
    rw [List.mem_range] at hj
    omega
  unfold alignLatest
  rcases h0 with rfl | ⟨rfl, rfl⟩
  · exact start _ rfl
  · exact start _ rfl

/-- In particular a rigid shift that is small compared with the spacing of the atoms, not longer than `max_shift`
and below the mask is recovered exactly, without noise and starting from no shift. -/
theorem C50_exact (a : AlignArgs) (draw : ℕ → V2 ℝ) (d : V2 ℝ) (init : Option (V2 ℝ))
    (ha : Alignable a) (hr : RigidShift a d) (hi : 1 ≤ a.iterations) (hn : a.noiseScale = 0)
    (hmax : len d ≤ a.maxShift) (hmask : ∀ m ∈ a.maskAbove, len d < m)
    (htrim : 0 < a.trim → 1 ≤ (1 - a.trim) * a.new.length) (h0 : init = none ∨ init = some 0) :
    ∃ st, alignLatest a draw init = .ok st ∧ st.drift = some d := by
  have hz : d - 0 = d := by ext <;> simp
  refine C50_exact_with_noise a draw d 0 (len d) init ha ⟨hr.partner, hr.spacing⟩ hi hmax hmask htrim
    (h0.symm.imp id (fun h => ⟨h, rfl⟩)) ?_ ?_
  · rw [hz, hn]; simp
  · intro i _ _
    rw [hn]
    simp [len_nonneg]

/-- Two reference atoms, one of which is seen half an angstrom off. -/
noncomputable def shifted : AlignArgs :=
  { new := [⟨1, 0⟩], ref := [⟨0, 0⟩, ⟨3 / 2, 0⟩], newClasses := [0], refClasses := [0, 0] }

example : Alignable shifted ∧ RigidShift shifted ⟨1 / 2, 0⟩ ∧ len ⟨1 / 2, 0⟩ ≤ shifted.maxShift := by
  have hl : len ⟨1 / 2, 0⟩ = 1 / 2 := by
    rw [len, show ((1 / 2 : ℝ)) ^ 2 + 0 ^ 2 = (1 / 2) ^ 2 by norm_num, Real.sqrt_sq (by norm_num)]
  have hd : ∀ x y : ℝ, Spec.dist ⟨x, 0⟩ ⟨y, 0⟩ = |x - y| := by
    intro x y
    rw [Spec.dist, show (x - y) ^ 2 + ((0 : ℝ) - 0) ^ 2 = (x - y) ^ 2 by ring, Real.sqrt_sq_eq_abs]
  refine ⟨⟨by simp [shifted], rfl, rfl, by simp [shifted]⟩, ⟨?_, ?_⟩, ?_⟩
  · intro x hx
    simp only [shifted, List.zip_cons_cons, List.zip_nil_right, List.mem_singleton] at hx
    subst hx
    have : (⟨1, 0⟩ : V2 ℝ) + ⟨1 / 2, 0⟩ = ⟨3 / 2, 0⟩ := by ext <;> simp; norm_num
    rw [this]
    simp [shifted]
  · intro x hx y hy _ hne
    simp only [shifted, List.zip_cons_cons, List.zip_nil_right, List.mem_cons, List.not_mem_nil,
      or_false] at hx hy
    rw [hl]
    rcases hx with rfl | rfl <;> rcases hy with rfl | rfl
    · exact absurd rfl hne
    · simp only [hd]; norm_num [abs_of_pos]
    · simp only [hd]; norm_num [abs_of_pos]
    · exact absurd rfl hne
  · rw [hl]; norm_num [shifted]

/-- With noise: the same frame, noise of a tenth and draws of length one. -/
example : ∃ st, alignLatest { shifted with noiseScale := 1 / 10 } (fun _ => ⟨0, 1⟩) (some 0) = .ok st ∧
    st.drift = some ⟨1 / 2, 0⟩ := by
  have hl : len ⟨1 / 2, 0⟩ = 1 / 2 := by
    rw [len, show ((1 / 2 : ℝ)) ^ 2 + 0 ^ 2 = (1 / 2) ^ 2 by norm_num, Real.sqrt_sq (by norm_num)]
  have hl1 : len ⟨0, 1⟩ = 1 := by simp [len]
  have hd : ∀ x y : ℝ, Spec.dist ⟨x, 0⟩ ⟨y, 0⟩ = |x - y| := by
    intro x y
    rw [Spec.dist, show (x - y) ^ 2 + ((0 : ℝ) - 0) ^ 2 = (x - y) ^ 2 by ring, Real.sqrt_sq_eq_abs]
  have hz : (⟨1 / 2, 0⟩ : V2 ℝ) - 0 = ⟨1 / 2, 0⟩ := by ext <;> simp
  refine C50_exact_with_noise _ _ ⟨1 / 2, 0⟩ 0 (7 / 10) _ ⟨by simp [shifted], rfl, rfl, by simp [shifted]⟩ ⟨?_, ?_⟩
    (by simp [shifted]) ?_ (by simp [shifted]) (by simp [shifted]) (Or.inl rfl) ?_ ?_
  · intro x hx
    simp only [shifted, List.zip_cons_cons, List.zip_nil_right, List.mem_singleton] at hx
    subst hx
    have : (⟨1, 0⟩ : V2 ℝ) + ⟨1 / 2, 0⟩ = ⟨3 / 2, 0⟩ := by ext <;> simp; norm_num
    rw [this]
    simp [shifted]
  · intro x hx y hy _ hne
    simp only [shifted, List.zip_cons_cons, List.zip_nil_right, List.mem_cons, List.not_mem_nil,
      or_false] at hx hy
    rcases hx with rfl | rfl <;> rcases hy with rfl | rfl
    · exact absurd rfl hne
    · simp only [hd]; norm_num [abs_of_pos]
    · simp only [hd]; norm_num [abs_of_pos]
    · exact absurd rfl hne
  · rw [hl]; norm_num [shifted]
  · rw [hz, hl, hl1]; norm_num [abs_of_pos]
  · intro i h1 h2
    rw [hl1, abs_mul, abs_of_pos (by norm_num : (0 : ℝ) < 1 / 10)]
    have h20 : ({ shifted with noiseScale := 1 / 10 } : AlignArgs).iterations = 20 := rfl
    rw [h20] at h2 ⊢
    have hi : (i : ℝ) ≤ 19 := by exact_mod_cast Nat.le_of_lt_succ h2
    have hi0 : (0 : ℝ) ≤ i := by positivity
    have : |fade 20 i| ≤ 1 := by
      rw [fade, if_neg (by norm_num), abs_le]
      push_cast
      constructor <;> linarith
    linarith

/-! ### C50: where it fails -/

/-- One atom of one class in each frame, the new one at `p` and the reference at `q`. -/
noncomputable def oneAtom (p q : V2 ℝ) (mask : Option ℝ) : AlignArgs :=
  { new := [p], ref := [q], newClasses := [0], refClasses := [0], iterations := 1, maskAbove := mask }

theorem oneAtom_offset (p q s : V2 ℝ) (mask : Option ℝ) :
    icpOffset (oneAtom p q mask) s = .ok (if belowMask mask (p + s) q then some (q - (p + s)) else none) := by
  rw [icpOffset_eq ⟨by simp [oneAtom], rfl, rfl, by simp [oneAtom]⟩]
  have h : ([V2.distSq (p + s) q] : List ℝ) ≠ [] := by simp
  obtain ⟨k, hk⟩ := argmin?_isSome h
  have hk0 : k = 0 := by have := argmin?_lt hk; simpa using this
  subst hk0
  have hc : classOffsets (oneAtom p q mask) s 0 =
      if belowMask mask (p + s) q then [q - (p + s)] else [] := by
    simp only [classOffsets, oneAtom, ofClass, List.zip_cons_cons, List.zip_nil_right, List.filter_cons,
      decide_true, if_true, List.filter_nil, List.map_cons, List.map_nil, List.filterMap_cons,
      List.filterMap_nil, hk]
    simp only [List.getD_cons_zero]
    split <;> rename_i h1 <;> split at h1 <;> simp_all
  have hdd : (oneAtom p q mask).newClasses.dedup = [0] := rfl
  rw [hdd, List.map_cons, List.map_nil, List.flatten_cons, List.flatten_nil, List.append_nil, hc]
  have ht : ∀ l, trimOffsets (oneAtom p q mask).trim l = l := by
    intro l
    unfold trimOffsets
    rw [if_neg (by simp [oneAtom])]
  rw [ht]
  split
  · rw [meanOffset_const (v := q - (p + s)) (by simp) (by simp)]
  · rfl

theorem oneAtom_align (p q s : V2 ℝ) (mask : Option ℝ) (draw : ℕ → V2 ℝ) :
    alignLatest (oneAtom p q mask) draw (some s) = .ok (if belowMask mask (p + s) q
      then ⟨clipDrift 2 (s + (q - (p + s))), some (s + (q - (p + s))),
        decide (norm2 (s + (q - (p + s))) ≤ 2)⟩
      else ⟨none, none, true⟩) := by
  have hn : alignNoise (oneAtom p q mask) draw 0 = 0 := by
    simp [alignNoise, oneAtom, linspace]
  have e : s + (0 : V2 ℝ) = s := by ext <;> simp
  have e' : ∀ v : V2 ℝ, 0 + v = v := by intro v; ext <;> simp
  unfold alignLatest
  have hr : List.range (oneAtom p q mask).iterations = [0] := rfl
  have hst : alignStep (oneAtom p q mask) 0 ⟨some s, some s, true⟩ = .ok (if belowMask mask (p + s) q
      then ⟨clipDrift 2 (s + (q - (p + s))), some (s + (q - (p + s))),
        decide (norm2 (s + (q - (p + s))) ≤ 2)⟩
      else ⟨none, none, true⟩) := by
    unfold alignStep
    simp only [e, oneAtom_offset]
    by_cases hb : belowMask mask (p + s) q = true
    · simp only [hb, if_true, e', Bool.true_and]
      rfl
    · simp only [hb, Bool.false_eq_true, if_false, if_true]
  rw [hr, List.foldlM_cons, hn]
  simp only
  rw [hst]
  rfl

/-- When no atom is near its reference, the result is not a number. -/
theorem C50_not_a_number : ∃ (a : AlignArgs) (draw : ℕ → V2 ℝ) (st : AlignState),
    Alignable a ∧ 1 ≤ a.iterations ∧ 0 ≤ a.maxShift ∧
    alignLatest a draw (some 0) = .ok st ∧ st.drift = none := by
  refine ⟨oneAtom ⟨10, 0⟩ ⟨0, 0⟩ (some 2), fun _ => 0, ⟨none, none, true⟩,
    ⟨by simp [oneAtom], rfl, rfl, by simp [oneAtom]⟩, le_rfl, by simp [oneAtom], ?_, rfl⟩
  rw [oneAtom_align, if_neg]
  simp [belowMask, normLt, V2.normSq]
  norm_num

/-- Without iterations the initial shift is returned, however long. -/
theorem C50_no_iterations (a : AlignArgs) (draw : ℕ → V2 ℝ) (v : V2 ℝ) (h : a.iterations = 0) :
    ∃ st, alignLatest a draw (some v) = .ok st ∧ st.drift = some v := by
  refine ⟨⟨some v, some v, true⟩, ?_, rfl⟩
  unfold alignLatest
  rw [h]
  rfl

/-! ### C51: `align_latest` -/

/-- Two calls of `align_latest` without `init_shift`: the second one gives a different result for having
been made after the first. -/
theorem C51_align_remembers : ∃ (a b : AlignArgs) (draw : ℕ → V2 ℝ) (st1 st2 st2' : AlignState),
    alignLatest a draw (some 0) = .ok st1 ∧ alignLatest b draw (some 0) = .ok st2 ∧
    alignLatest b draw st1.cell = .ok st2' ∧ st2.drift = some 0 ∧ st2'.drift = none := by
  refine ⟨oneAtom ⟨0, 0⟩ ⟨1, 0⟩ none, oneAtom ⟨5, 0⟩ ⟨5, 0⟩ (some (1 / 2)), fun _ => 0, _, _,
    ⟨none, none, true⟩, oneAtom_align _ _ _ _ _, oneAtom_align _ _ _ _ _, ?_, ?_, rfl⟩
  · have hb : belowMask none ((⟨0, 0⟩ : V2 ℝ) + 0) ⟨1, 0⟩ = true := rfl
    have e : (0 : V2 ℝ) + (⟨1, 0⟩ - (⟨0, 0⟩ + 0)) = ⟨1, 0⟩ := by ext <;> simp
    rw [if_pos hb]
    simp only [e]
    rw [oneAtom_align, if_neg]
    simp [belowMask, normLt, V2.normSq]
    norm_num
  · have hb : belowMask (some (1 / 2)) ((⟨5, 0⟩ : V2 ℝ) + 0) ⟨5, 0⟩ = true := by
      simp [belowMask, normLt, V2.normSq]
    have e : (0 : V2 ℝ) + (⟨5, 0⟩ - (⟨5, 0⟩ + 0)) = 0 := by ext <;> simp
    rw [if_pos hb, e]
    simp [clipDrift, norm2]

/-- With `init_shift=None` every call starts from no shift: its result is that of a first call with the
default. -/
theorem C51_align_none_partial (a : AlignArgs) (draw : ℕ → V2 ℝ) :
    (alignLatest a draw none).map (·.drift) = (alignLatest a draw (some 0)).map (·.drift) := by
  have hstep : ∀ noise (s t : AlignState), s.drift = t.drift →
      (alignStep a noise s).map (·.drift) = (alignStep a noise t).map (·.drift) := by
    intro noise s t h
    unfold alignStep
    rw [h]
    cases t.drift with
    | none =>
      cases icpOffset a 0 with
      | error e => rfl
      | ok o => simpa [Except.map] using h
    | some d =>
      simp only
      cases icpOffset a (d + noise) with
      | error e => rfl
      | ok o => cases o <;> rfl
  have key : ∀ (l : List ℕ) (s t : AlignState), s.drift = t.drift →
      (l.foldlM (fun st i => alignStep a (alignNoise a draw i) st) s).map (·.drift) =
      (l.foldlM (fun st i => alignStep a (alignNoise a draw i) st) t).map (·.drift) := by
    intro l
    induction l with
    | nil => intro s t h; simpa [Except.map, pure, Except.pure] using h
    | cons i l ih =>
      intro s t h
      have h1 := hstep (alignNoise a draw i) s t h
      rw [List.foldlM_cons, List.foldlM_cons]
      cases hs : alignStep a (alignNoise a draw i) s with
      | error e =>
        cases ht : alignStep a (alignNoise a draw i) t with
        | error e' =>
          rw [hs, ht] at h1
          simp only [Except.map, Except.error.injEq] at h1
          rw [h1]
        | ok t' => rw [hs, ht] at h1; cases h1
      | ok s' =>
        cases ht : alignStep a (alignNoise a draw i) t with
        | error e' => rw [hs, ht] at h1; cases h1
        | ok t' =>
          rw [hs, ht] at h1
          simp only [Except.map, Except.ok.injEq] at h1
          exact ih s' t' h1
  exact key _ _ _ rfl

end PD.Props
