/- C95: the filtering aligner follows a rigid specimen exactly. -/
import Verif.Props.Translate
import Verif.Props.AlignLatest
import Verif.Props.Classes

set_option linter.unusedSectionVars false
set_option linter.unusedSimpArgs false

namespace PD.Props
open PD PD.Spec

section
variable {K : Type} [Field K] [LinearOrder K] [IsStrictOrderedRing K]

theorem distSq_zero_iff (p q : V2 K) : V2.distSq p q = 0 ↔ p = q := by
  constructor
  · intro h
    simp only [V2.distSq, V2.normSq, V2.sub_x, V2.sub_y] at h
    have hx : p.x - q.x = 0 := by nlinarith [mul_self_nonneg (p.x - q.x), mul_self_nonneg (p.y - q.y)]
    have hy : p.y - q.y = 0 := by nlinarith [mul_self_nonneg (p.x - q.x), mul_self_nonneg (p.y - q.y)]
    ext <;> linarith
  · rintro rfl
    simp [V2.distSq, V2.normSq]

theorem distSq_nonneg' (p q : V2 K) : 0 ≤ V2.distSq p q :=
  add_nonneg (mul_self_nonneg _) (mul_self_nonneg _)

theorem argmin_self {ps : List (V2 K)} {p : V2 K} (hp : p ∈ ps) :
    ∃ t, argmin? (ps.map (fun q => V2.distSq p q)) = some t ∧ ps[t]? = some p := by
  obtain ⟨t, ht⟩ := argmin?_isSome (l := ps.map (fun q => V2.distSq p q)) (by simpa using List.ne_nil_of_mem hp)
  obtain ⟨v, hv, hmin, -⟩ := argmin?_eq_some ht
  rw [List.getElem?_map] at hv
  cases hq : ps[t]? with
  | none => rw [hq] at hv; cases hv
  | some q =>
    rw [hq, Option.map_some, Option.some.injEq] at hv
    have h0 : v ≤ 0 := hmin 0 (List.mem_map.2 ⟨p, hp, (distSq_zero_iff p p).2 rfl⟩)
    have : V2.distSq p q = 0 := le_antisymm (by rw [hv]; exact h0) (distSq_nonneg' p q)
    exact ⟨t, ht, by rw [hq, (distSq_zero_iff p q).1 this]⟩

theorem normLt_zero {p : V2 K} {r : K} (hr : 0 < r) : normLt (p - p) r = true := by
  simp [normLt, V2.normSq, hr]

theorem mergeTarget_self {cutoff : K} (hc : 0 < cutoff) {ps : List (V2 K)} {p : V2 K} (hp : p ∈ ps) :
    ∃ t, mergeTarget cutoff ps p = .ok (t, true) ∧ ps[t]? = some p := by
  obtain ⟨t, ht, hq⟩ := argmin_self hp
  refine ⟨t, ?_, hq⟩
  have hg : ps.getD t 0 = p := by rw [List.getD_eq_getElem?_getD, hq]; rfl
  simp only [mergeTarget, ht, hg, normLt_zero hc]

theorem mergeOne_self {ps : List (V2 K)} {cs : List K} (h : Counted ps cs) {p : V2 K} {t : ℕ} (ht : ps[t]? = some p) :
    ∃ cs', mergeOne (ps, cs, []) (p, t, true) = (ps, cs', []) ∧ Counted ps cs' := by
  have hlt : t < ps.length := (List.getElem?_eq_some_iff.1 ht).1
  have hg : ps.getD t 0 = p := by rw [List.getD_eq_getElem?_getD, ht]; rfl
  have hpos := h.getD hlt
  have hne : cs.getD t 0 + 1 ≠ 0 := by positivity
  refine ⟨cs.set t (cs.getD t 0 + 1), ?_, ?_⟩
  · simp only [mergeOne, if_true, hg]
    refine Prod.ext ?_ rfl
    simp only
    have : (⟨(p.x * cs.getD t 0 + p.x) / (cs.getD t 0 + 1), (p.y * cs.getD t 0 + p.y) / (cs.getD t 0 + 1)⟩ : V2 K) = p := by
      ext
      · simp only; field_simp
      · simp only; field_simp
    rw [this]
    apply List.ext_getElem?
    intro i
    by_cases e : t = i
    · subst e
      rw [List.getElem?_set_self hlt, ht]
    · rw [List.getElem?_set_ne e]
  · refine ⟨by simp [h.1], ?_⟩
    intro c hmem
    rcases List.mem_or_eq_of_mem_set hmem with h' | rfl
    · exact h.2 _ h'
    · positivity

/-- Merging a frame into itself changes nothing but the counts. -/
theorem mergeFrame_self {cutoff : K} (hc : 0 < cutoff) {ps : List (V2 K)} {cs : List K} (h : Counted ps cs)
    (m : List (V2 K)) (hm : ∀ p ∈ m, p ∈ ps) :
    ∃ cs', mergeFrame cutoff ⟨ps, cs, ps, true⟩ m = .ok ⟨ps, cs', ps, true⟩ ∧ Counted ps cs' := by
  have key : ∃ targets, m.mapM (mergeTarget cutoff ps) = .ok targets ∧
      ∀ x ∈ m.zip targets, ps[x.2.1]? = some x.1 ∧ x.2.2 = true := by
    clear h
    induction m with
    | nil => exact ⟨[], rfl, by simp⟩
    | cons p m ih =>
      obtain ⟨ts, h1, h2⟩ := ih (fun q hq => hm q (by simp [hq]))
      obtain ⟨t, ht, hq⟩ := mergeTarget_self hc (hm p (by simp))
      refine ⟨(t, true) :: ts, by rw [List.mapM_cons, ht, h1]; rfl, ?_⟩
      intro x hx
      rw [List.zip_cons_cons] at hx
      rcases List.mem_cons.1 hx with rfl | hx
      · exact ⟨hq, rfl⟩
      · exact h2 x hx
  obtain ⟨targets, h1, h2⟩ := key
  have fold : ∀ (l : List (V2 K × ℕ × Bool)) (cs : List K), Counted ps cs →
      (∀ x ∈ l, ps[x.2.1]? = some x.1 ∧ x.2.2 = true) →
      ∃ cs', l.foldl mergeOne (ps, cs, []) = (ps, cs', []) ∧ Counted ps cs' := by
    intro l
    induction l with
    | nil => intro cs h _; exact ⟨cs, rfl, h⟩
    | cons x l ih =>
      intro cs h hl
      obtain ⟨p, t, b⟩ := x
      obtain ⟨h3, h4⟩ := hl (p, t, b) (by simp)
      simp only at h3 h4
      subst h4
      obtain ⟨cs1, e1, c1⟩ := mergeOne_self h h3
      rw [List.foldl_cons, e1]
      exact ih cs1 c1 (fun y hy => hl y (by simp [hy]))
  obtain ⟨cs', e, hcs⟩ := fold (m.zip targets) cs h h2
  exact ⟨cs', by simp [mergeFrame, h1, e], hcs⟩

theorem naiveMerge_copies {cutoff : K} (hc : 0 < cutoff) {ps : List (V2 K)} (hps : ps ≠ []) (k : ℕ) :
    ∃ cs, naiveMerge cutoff (List.replicate (k + 1) ps) = .ok ⟨ps, cs, ps, true⟩ := by
  have hf : (List.replicate (k + 1) ps).filter (fun c => !c.isEmpty) = ps :: List.replicate k ps := by
    rw [List.filter_replicate, if_pos (by simpa using hps), List.replicate_succ]
  have loop : ∀ (k : ℕ) (cs : List K), Counted ps cs →
      ∃ cs', (List.replicate k ps).foldlM (mergeFrame cutoff) ⟨ps, cs, ps, true⟩ = .ok ⟨ps, cs', ps, true⟩ := by
    intro k
    induction k with
    | zero => intro cs _; exact ⟨cs, rfl⟩
    | succ k ih =>
      intro cs h
      obtain ⟨cs1, e1, c1⟩ := mergeFrame_self hc h ps (fun p hp => hp)
      obtain ⟨cs2, e2⟩ := ih cs1 c1
      exact ⟨cs2, by rw [List.replicate_succ, List.foldlM_cons, e1]; exact e2⟩
  unfold naiveMerge
  rw [hf]
  exact loop k _ (counted_ones ps)

theorem replaceFirst_copies {ps : List (V2 K)} (hps : ps ≠ []) (k : ℕ) :
    replaceFirst ps (List.replicate (k + 1) ps) = List.replicate (k + 1) ps := by
  rw [List.replicate_succ, replaceFirst, if_neg (by simpa using hps)]

/-- Numbers go to the atoms at the same places. -/
theorem propagate_same {original merged : List (V2 K)} {nums : List ℤ} (hl : nums.length = original.length)
    (ho : original.Nodup) (hm : merged.Nodup) (hsame : ∀ p, p ∈ merged ↔ p ∈ original) (hne : merged ≠ []) :
    ∃ z, propagateAtomicNumbers original merged nums none CARBON (8 / 10) = .ok z ∧ z.length = merged.length ∧
      ∀ (i j : ℕ) (p : V2 K), original[i]? = some p → merged[j]? = some p → z[j]? = nums[i]? := by
  rcases C52_total original merged nums none CARBON (8 / 10) hl (by simp) with ⟨h, -⟩ | ⟨-, z, hz⟩
  · exact absurd h hne
  obtain ⟨h1, h2⟩ := C52_propagated original merged nums none CARBON (8 / 10) z hz
  refine ⟨z, hz, by simpa using h1, ?_⟩
  intro i j p hi hj
  have joins : ∀ (o : V2 K), o ∈ original → JoinsTo (8 / 10) merged o j → o = p := by
    rintro o hom ⟨q, hq, -, hmin, -⟩
    rw [hj, Option.some.injEq] at hq
    subst hq
    have := hmin o ((hsame o).2 hom)
    rw [(distSq_zero_iff o o).2 rfl] at this
    exact (distSq_zero_iff o p).1 (le_antisymm this (distSq_nonneg' o p))
  rcases h2 j with ⟨k, o, e1, e2, ⟨w, e3, e4⟩, -⟩ | ⟨e1, -⟩
  · have hop := joins o (List.mem_of_getElem? e1) e2
    subst hop
    have : i = k := (List.getElem?_inj (List.getElem?_eq_some_iff.1 hi).1 ho).1 (by rw [hi, e1])
    subst this
    rw [e4, e3]
  · exfalso
    have hj' : j < merged.length := (List.getElem?_eq_some_iff.1 hj).1
    refine e1 p (List.mem_of_getElem? hi) ⟨p, hj, ⟨by norm_num, ?_⟩, ?_, ?_⟩
    · rw [(distSq_zero_iff p p).2 rfl]; norm_num
    · intro r _; rw [(distSq_zero_iff p p).2 rfl]; exact distSq_nonneg' p r
    · intro j' hjj r hr
      rw [(distSq_zero_iff p p).2 rfl]
      refine lt_of_le_of_ne (distSq_nonneg' p r) (fun h0 => ?_)
      have : p = r := (distSq_zero_iff p r).1 h0.symm
      subst this
      have : j' = j := (List.getElem?_inj (by omega) hm).1 (by rw [hr, hj])
      omega

/-! ### Cliques of copies -/

/-- Different points are more than `r` apart. -/
def Apart (r : K) (ps : List (V2 K)) : Prop := ∀ p ∈ ps, ∀ q ∈ ps, p ≠ q → r * r < V2.distSq p q

theorem closePair_apart {r : K} (hr : 0 ≤ r) {ps : List (V2 K)} (h : Apart r ps) (i j : ℕ) :
    closePair r ps i j = true ↔ i ≠ j ∧ i < ps.length ∧ j < ps.length ∧ ps.getD i 0 = ps.getD j 0 := by
  have hmem : ∀ k, k < ps.length → ps.getD k 0 ∈ ps := by
    intro k hk
    rw [List.getD_eq_getElem?_getD, List.getElem?_eq_getElem hk]
    exact List.getElem_mem hk
  simp only [closePair, Bool.and_eq_true, decide_eq_true_eq, Bool.not_eq_true', normGt, Bool.or_eq_false_iff,
    decide_eq_false_iff_not, not_lt]
  constructor
  · rintro ⟨⟨⟨h1, h2⟩, h3⟩, -, h5⟩
    refine ⟨h1, h2, h3, ?_⟩
    by_contra hne
    exact absurd (h _ (hmem i h2) _ (hmem j h3) hne) (not_lt.2 h5)
  · rintro ⟨h1, h2, h3, h4⟩
    refine ⟨⟨⟨h1, h2⟩, h3⟩, hr, ?_⟩
    rw [h4]
    simpa [V2.normSq] using mul_self_nonneg r

theorem cliqueLoop_apart (cf : CliqueFinder) {r : K} (hr : 0 ≤ r) (n : ℕ) {ps : List (V2 K)} (cs : List K)
    (h : Apart r ps) (hnd : ps.Nodup) : cliqueLoop cf r n (ps, cs) = (ps, cs) := by
  cases n with
  | zero => rfl
  | succ n =>
    rw [cliqueLoop, if_neg]
    simp only [List.any_eq_true, List.mem_range, not_exists, not_and]
    intro i hi j hj hc
    obtain ⟨h1, h2, h3, h4⟩ := (closePair_apart hr h i j).1 hc
    simp only [List.getD_eq_getElem?_getD, List.getElem?_eq_getElem h2, List.getElem?_eq_getElem h3,
      Option.getD_some] at h4
    exact h1 ((List.Nodup.getElem_inj_iff hnd).1 h4)

theorem cliqueMean_const {ps : List (V2 K)} {cs : List K} {c : List ℕ} {p : V2 K} (hs : sumAt cs c ≠ 0)
    (h : ∀ i ∈ c, ps.getD i 0 = p) : cliqueMean ps cs c = p := by
  have key : ∀ w : K, (c.map (fun i => w * cs.getD i 0 / sumAt cs c)).sum = w := by
    intro w
    have : ∀ l : List ℕ, (l.map (fun i => w * cs.getD i 0 / sumAt cs c)).sum =
        w * (l.map (fun i => cs.getD i 0)).sum / sumAt cs c := by
      intro l
      induction l with
      | nil => simp
      | cons a l ih => simp only [List.map_cons, List.sum_cons, ih]; field_simp
    rw [this, show (c.map (fun i => cs.getD i 0)).sum = sumAt cs c from rfl]
    field_simp
  ext
  · simp only [cliqueMean]
    rw [List.map_congr_left (fun i hi => by rw [h i hi]), key]
  · simp only [cliqueMean]
    rw [List.map_congr_left (fun i hi => by rw [h i hi]), key]

/-- Merging copies of points that are far apart gives every point once. -/
theorem cliqueMerge_copies (cf : CliqueFinder) {r : K} (hr : 0 ≤ r) (n : ℕ) {ps : List (V2 K)} (h : Apart r ps) :
    let joined := (cliqueMerge cf r (n + 1) ps none).1
    joined.Nodup ∧ ∀ p, p ∈ joined ↔ p ∈ ps := by
  intro joined
  have spec := cf.spec ps.length (closePair r ps) (PD.closePair_comm r ps)
  by_cases hany : ((List.range ps.length).any (fun i => (List.range ps.length).any (closePair r ps i))) = true
  · -- one round gives the points once each
    have hone : ∀ c ∈ cf.find ps.length (closePair r ps), ∀ i ∈ c,
        cliqueMean ps (ps.map (fun _ => 1)) c = ps.getD i 0 := by
      intro c hc i hi
      apply cliqueMean_const
      · exact (PD.sumAt_pos (counted_ones ps) (spec.nonempty c hc) (spec.inRange c hc)).ne'
      · intro j hj
        by_cases hij : j = i
        · rw [hij]
        · exact ((closePair_apart hr h j i).1 (spec.clique c hc j hj i hi hij)).2.2.2
    have hround : cliqueRound cf r (ps, ps.map (fun _ => 1)) =
        ((cf.find ps.length (closePair r ps)).map (cliqueMean ps (ps.map (fun _ => 1))),
          (cf.find ps.length (closePair r ps)).map (sumAt (ps.map (fun _ => 1)))) := rfl
    set out := (cf.find ps.length (closePair r ps)).map (cliqueMean ps (ps.map (fun _ => 1))) with hout
    have hmem : ∀ p, p ∈ out ↔ p ∈ ps := by
      intro p
      constructor
      · intro hp
        obtain ⟨c, hc, rfl⟩ := List.mem_map.1 hp
        obtain ⟨i, hi⟩ := List.exists_mem_of_ne_nil c (spec.nonempty c hc)
        rw [hone c hc i hi, List.getD_eq_getElem?_getD, List.getElem?_eq_getElem (spec.inRange c hc i hi)]
        exact List.getElem_mem _
      · intro hp
        obtain ⟨i, hi, rfl⟩ := List.getElem_of_mem hp
        obtain ⟨c, hc, hic⟩ := spec.all [i] (by simp) (by simpa using hi) (by
          intro a ha b hb hab
          simp only [List.mem_singleton] at ha hb
          exact absurd (ha.trans hb.symm) hab)
        refine List.mem_map.2 ⟨c, hc, ?_⟩
        rw [hone c hc i (hic i (by simp)), List.getD_eq_getElem?_getD, List.getElem?_eq_getElem hi]
        rfl
    have hnd : out.Nodup := by
      rw [hout, List.Nodup, List.pairwise_map]
      refine (List.Pairwise.and_mem.1 spec.distinct).imp ?_
      rintro c d ⟨hc, hd, hne⟩ he
      apply hne
      have hcd : ∀ c ∈ cf.find ps.length (closePair r ps), ∀ d ∈ cf.find ps.length (closePair r ps),
          cliqueMean ps (ps.map (fun _ => 1)) c = cliqueMean ps (ps.map (fun _ => 1)) d → ∀ i, i ∈ c → i ∈ d := by
        intro c hc d hd he i hi
        by_contra hid
        obtain ⟨k, hk, hadj⟩ := spec.maximal d hd i (spec.inRange c hc i hi) hid
        have : closePair r ps k i = true := (closePair_apart hr h k i).2
          ⟨fun e => hid (e ▸ hk), spec.inRange d hd k hk, spec.inRange c hc i hi, by
            rw [← hone c hc i hi, ← hone d hd k hk, he]⟩
        rw [this] at hadj
        cases hadj
      exact fun i => ⟨hcd c hc d hd he i, hcd d hd c hc he.symm i⟩
    have hap : Apart r out := fun p hp q hq => h p ((hmem p).1 hp) q ((hmem q).1 hq)
    have hj : joined = out := by
      simp only [joined, cliqueMerge, Option.getD_none]
      rw [cliqueLoop, if_pos hany, hround, cliqueLoop_apart cf hr n _ hap hnd]
    rw [hj]
    exact ⟨hnd, hmem⟩
  · have hj : joined = ps := by
      simp only [joined, cliqueMerge, Option.getD_none]
      rw [cliqueLoop, if_neg hany]
    rw [hj]
    refine ⟨?_, fun _ => Iff.rfl⟩
    rw [List.nodup_iff_injective_get]
    intro a b hab
    by_contra hne
    apply hany
    simp only [List.any_eq_true, List.mem_range]
    refine ⟨a, a.2, b, b.2, (closePair_apart hr h a b).2 ⟨fun e => hne (Fin.ext e), a.2, b.2, ?_⟩⟩
    simp only [List.getD_eq_getElem?_getD, List.getElem?_eq_getElem a.2, List.getElem?_eq_getElem b.2,
      Option.getD_some]
    exact hab

end

/-! ### C95 -/

/-- No two atoms are at the same place, and any two are at least `σ` apart. -/
structure Spaced (g : Grid ℝ) (σ : ℝ) : Prop where
  wf : g.WF
  nodup : g.positions.Nodup
  spacing : ∀ p ∈ g.positions, ∀ q ∈ g.positions, p ≠ q → σ ≤ Spec.dist p q

/-- Settings with which alignment is exact: no noise, at least one iteration, not everything trimmed. -/
structure Exact (ac : AlignCfg) (atoms : ℕ) : Prop where
  noise : ac.noiseScale = 0
  iterations : 1 ≤ ac.iterations
  trim : 0 < ac.trim → 1 ≤ (1 - ac.trim) * atoms

/-- A displacement by less than half the distance of atoms, less than two angstroms, and at most `max_shift`. -/
structure Small (ac : AlignCfg) (σ : ℝ) (w : V2 ℝ) : Prop where
  spacing : 2 * len w < σ
  mask : len w < 2
  shift : len w ≤ ac.maxShift

theorem zip_copies {α β : Type} {a : List α} {b : List β} (h : b.length = a.length) (k : ℕ) :
    (List.replicate k a).flatten.zip (List.replicate k b).flatten = (List.replicate k (a.zip b)).flatten := by
  induction k with
  | zero => rfl
  | succ k ih =>
    simp only [List.replicate_succ, List.flatten_cons]
    rw [List.zip_append h.symm, ih]

theorem mem_copies {α : Type} {a : List α} {k : ℕ} {x : α} : x ∈ (List.replicate (k + 1) a).flatten ↔ x ∈ a := by
  simp only [List.mem_flatten, List.mem_replicate]
  constructor
  · rintro ⟨l, ⟨-, rfl⟩, h⟩; exact h
  · intro h; exact ⟨a, ⟨by omega, rfl⟩, h⟩

theorem len_neg (w : V2 ℝ) : len (-w) = len w := by simp [len]

theorem align_copies {C : Type} (km : KMeans C) {ac : AlignCfg} (draw : ℕ → V2 ℝ) {g : Grid ℝ} {σ : ℝ}
    (hg : Spaced g σ) (hne : g.positions ≠ []) (he : Exact ac g.positions.length) {w : V2 ℝ} (hw : Small ac σ w)
    {cl : List ℤ} (hcl : cl.length = g.positions.length) (k : ℕ) :
    (latticeOps km ac draw).align (moved w g.positions) (List.replicate (k + 1) g.positions).flatten cl
      (List.replicate (k + 1) cl).flatten = .ok (some (-w)) := by
  have hz := zip_copies (a := g.positions) (b := cl) hcl (k + 1)
  have hr : RigidShift ⟨moved w g.positions, (List.replicate (k + 1) g.positions).flatten, cl,
      (List.replicate (k + 1) cl).flatten, ac.iterations, ac.noiseScale, ac.maxShift, some 2, ac.trim⟩ (-w) := by
    refine ⟨?_, ?_⟩
    · intro x hx
      simp only [hz]
      rw [mem_copies]
      simp only [moved, List.zip_map_left] at hx
      obtain ⟨y, hy, rfl⟩ := List.mem_map.1 hx
      have : y.1 + w + -w = y.1 := by ext <;> simp
      simpa [this] using hy
    · intro x hx y hy _ hxy
      simp only [hz] at hx hy
      rw [mem_copies] at hx hy
      rw [len_neg]
      exact lt_of_lt_of_le hw.spacing (hg.spacing _ (List.of_mem_zip hx).1 _ (List.of_mem_zip hy).1 hxy)
  obtain ⟨st, h1, h2⟩ := C50_exact
    ⟨moved w g.positions, (List.replicate (k + 1) g.positions).flatten, cl, (List.replicate (k + 1) cl).flatten,
      ac.iterations, ac.noiseScale, ac.maxShift, some 2, ac.trim⟩ draw (-w) (some 0)
    ⟨by simpa [moved] using hne, by simpa [moved] using hcl, by simp [hcl], fun c hc => mem_copies.2 hc⟩
    hr he.iterations he.noise (by rw [len_neg]; exact hw.shift)
    (by intro m hm; simp only [Option.mem_def, Option.some.injEq] at hm; subst hm; rw [len_neg]; exact hw.mask)
    (by simpa [moved] using he.trim) (Or.inr rfl)
  simp only [latticeOps, h1, h2]

/-- The memory holds copies of one frame. -/
structure Copies {C : Type} (km : KMeans C) (g : Grid ℝ) (s : FilterState ℝ C) : Prop where
  copies : ∃ (k : ℕ) (cl : List ℤ) (c : C), s = ⟨List.replicate (k + 1) g.positions, List.replicate (k + 1) cl, some c⟩ ∧
    classifyTypes km g.positions c = .ok cl ∧ cl.length = g.positions.length

theorem cut_copies {C : Type} {h : ℤ} (hh : 1 ≤ h) (ps : List (V2 ℝ)) (cl : List ℤ) (c : Option C) (k : ℕ) :
    ∃ k', FilterState.cut h (⟨List.replicate (k + 1) ps, List.replicate (k + 1) cl, c⟩ : FilterState ℝ C) =
      ⟨List.replicate (k' + 1) ps, List.replicate (k' + 1) cl, c⟩ := by
  unfold FilterState.cut
  split
  · rename_i hlt
    simp only [List.length_replicate] at hlt
    refine ⟨h.toNat - 1, ?_⟩
    simp only [List.length_replicate, List.drop_replicate]
    congr <;> omega
  · exact ⟨k, rfl⟩

theorem moved_back (w : V2 ℝ) (g : Grid ℝ) : (g.shift w).shift (-w) = g := by
  have : (g.positions.map (fun p => p + w)).map (fun p => p + -w) = g.positions := by
    rw [List.map_map]
    conv_rhs => rw [← List.map_id g.positions]
    apply List.map_congr_left
    intro p _
    ext <;> simp
  simp [Grid.shift, this]

theorem dist_sq (p q : V2 ℝ) : V2.distSq p q = Spec.dist p q ^ 2 := by
  rw [Spec.dist, Real.sq_sqrt (by positivity)]
  simp only [V2.distSq, V2.normSq, V2.sub_x, V2.sub_y]
  ring

theorem classifyTypes_length {C : Type} {km : KMeans C} {ps : List (V2 ℝ)} {c : C} {cl : List ℤ}
    (h : classifyTypes km ps c = .ok cl) : cl.length = ps.length := by
  unfold classifyTypes at h
  split at h
  · cases h
  · rename_i classes _
    have hlen : (centred ps).length = ps.length := by simp [centred]
    by_cases hc : classes.length = (centred ps).length
    · obtain ⟨out, h1, h2, -⟩ := C53_grid classes (centred ps) hc
      rw [h1] at h
      cases h
      rw [h2, hlen]
    · rw [propagateGrapheneClasses, propagateClasses, if_pos hc] at h
      cases h

/-- One more observation of the same specimen. -/
theorem rigid_step {C : Type} (cfg : FilterCfg ℝ) (km : KMeans C) {ac : AlignCfg} (cf : CliqueFinder) (draw : ℕ → V2 ℝ)
    {g : Grid ℝ} {σ : ℝ} (hg : Spaced g σ) (h3 : 3 ≤ g.positions.length) (he : Exact ac g.positions.length)
    (hh : 1 ≤ cfg.historyLength) (hcut : 0 < cfg.mergeCutoff)
    (hcl : cfg.cliqueMerging = true → cfg.mergeCutoff < σ ∧ cfg.accumulateMerged = false) {w : V2 ℝ} (hw : Small ac σ w)
    {s : FilterState ℝ C} (hs : Copies km g s) :
    ∃ m s', FilterState.call cfg (latticeOps km ac draw) cf (g.shift w) s = .ok (m, w) s' ∧ Copies km g s' ∧
      (cfg.cliqueMerging = false → m = g) ∧ m.WF ∧ (m.positions.zip m.numbers).Perm (g.positions.zip g.numbers) := by
  obtain ⟨k, cl, c, rfl, hct, hlen⟩ := hs.copies
  have hne : g.positions ≠ [] := by intro h; rw [h] at h3; simp at h3
  have hclass : classifyLattice (latticeOps km ac draw) g.positions (some c) = .ok cl := by
    simp only [classifyLattice, latticeOps]
    rw [if_neg (by omega), hct]
  have hclass' : classifyLattice (latticeOps km ac draw) (g.shift w).positions (some c) = .ok cl := by
    rw [← hclass]
    exact classifyLattice_moved (latticeOps_originFree km ac draw w) g.positions (some c)
  have hal := align_copies km draw hg hne he hw hlen k
  have happ : List.replicate (k + 1) g.positions ++ [g.positions] = List.replicate (k + 2) g.positions := by
    rw [← List.replicate_succ']
  have happc : List.replicate (k + 1) cl ++ [cl] = List.replicate (k + 2) cl := by
    rw [← List.replicate_succ']
  have hneg : -(-w) = w := by ext <;> simp
  -- the merged positions
  have hmerge : ∃ joined, mergeAll cfg cf (List.replicate (k + 2) g.positions) =
      .ok (joined, List.replicate (k + 2) g.positions) ∧ joined.Nodup ∧ (∀ p, p ∈ joined ↔ p ∈ g.positions) ∧
      (cfg.cliqueMerging = false → joined = g.positions) := by
    unfold mergeAll
    by_cases hc : cfg.cliqueMerging
    · rw [if_pos hc]
      have hap : Apart cfg.mergeCutoff (List.replicate (k + 1 + 1) g.positions).flatten := by
        intro p hp q hq hpq
        rw [mem_copies] at hp hq
        have := hg.spacing p hp q hq hpq
        rw [dist_sq, ← sq]
        exact pow_lt_pow_left₀ (lt_of_lt_of_le (hcl hc).1 this) hcut.le (by norm_num)
      obtain ⟨h1, h2⟩ := cliqueMerge_copies cf hcut.le 99 hap
      refine ⟨_, rfl, h1, ?_, by simp [hc]⟩
      intro p
      rw [h2, mem_copies]
    · rw [if_neg hc]
      obtain ⟨cs, e⟩ := naiveMerge_copies hcut hne (k + 1)
      rw [e]
      simp only [replaceFirst_copies hne (k + 1)]
      exact ⟨_, rfl, hg.nodup, fun _ => Iff.rfl, fun _ => rfl⟩
  obtain ⟨joined, hm, hjn, hjm, hjg⟩ := hmerge
  have hjne : joined ≠ [] := by
    obtain ⟨p, hp⟩ := List.exists_mem_of_ne_nil _ hne
    exact List.ne_nil_of_mem ((hjm p).2 hp)
  obtain ⟨z, hz, hzl, hzs⟩ := propagate_same (nums := g.numbers) hg.wf.symm hg.nodup hjn hjm hjne
  have hzg : joined = g.positions → z = g.numbers := by
    intro e
    subst e
    apply List.ext_getElem?
    intro i
    cases hi : g.positions[i]? with
    | some p => exact hzs i i p hi hi
    | none =>
      have h1 : g.positions.length ≤ i := List.getElem?_eq_none_iff.1 hi
      have h2 := hg.wf
      unfold Grid.WF at h2
      rw [List.getElem?_eq_none (by omega), List.getElem?_eq_none (by omega)]
  have hperm : (joined.zip z).Perm (g.positions.zip g.numbers) := by
    have hgl : g.positions.length = g.numbers.length := hg.wf
    have nd1 : (joined.zip z).Nodup := by
      apply List.Nodup.of_map Prod.fst
      rw [List.map_fst_zip (by omega)]
      exact hjn
    have nd2 : (g.positions.zip g.numbers).Nodup := by
      apply List.Nodup.of_map Prod.fst
      rw [List.map_fst_zip (by omega)]
      exact hg.nodup
    rw [List.perm_ext_iff_of_nodup nd1 nd2]
    rintro ⟨p, y⟩
    constructor
    · intro hpy
      obtain ⟨j, hj⟩ := List.mem_iff_getElem?.1 hpy
      rw [List.getElem?_zip_eq_some] at hj
      obtain ⟨i, hi⟩ := List.mem_iff_getElem?.1 ((hjm p).1 (List.mem_of_getElem? hj.1))
      apply List.mem_of_getElem? (i := i)
      rw [List.getElem?_zip_eq_some]
      refine ⟨hi, ?_⟩
      simp only
      rw [← hzs i j p hi hj.1]
      exact hj.2
    · intro hpy
      obtain ⟨i, hi⟩ := List.mem_iff_getElem?.1 hpy
      rw [List.getElem?_zip_eq_some] at hi
      obtain ⟨j, hj⟩ := List.mem_iff_getElem?.1 ((hjm p).2 (List.mem_of_getElem? hi.1))
      apply List.mem_of_getElem? (i := j)
      rw [List.getElem?_zip_eq_some]
      refine ⟨hj, ?_⟩
      simp only
      rw [hzs i j p hi.1 hj]
      exact hi.2
  obtain ⟨k', hk'⟩ := cut_copies (C := C) hh g.positions cl (some c) (k + 1)
  have hcop : Copies km g (FilterState.cut cfg.historyLength
      ⟨List.replicate (k + 2) g.positions, List.replicate (k + 2) cl, some c⟩) :=
    ⟨⟨k', cl, c, hk', hct, hlen⟩⟩
  refine ⟨⟨joined, z⟩, FilterState.cut cfg.historyLength
      ⟨List.replicate (k + 2) g.positions, List.replicate (k + 2) cl, some c⟩, ?_, hcop, ?_, ?_, hperm⟩
  · have hmv : (g.shift w).positions = moved w g.positions := rfl
    have hlast : (List.replicate (k + 2) g.positions).getLastD [] = g.positions := by
      rw [← happ, List.getLastD_eq_getLast?, List.getLast?_append]
      rfl
    have hdrop : (List.replicate (k + 2) g.positions).dropLast = List.replicate (k + 1) g.positions := by
      rw [← happ, List.dropLast_concat]
    have hemp : (List.replicate (k + 1) g.positions).isEmpty = false := rfl
    have hempc : (List.replicate (k + 1) cl).isEmpty = false := rfl
    simp only [FilterState.call, hemp, Bool.false_eq_true, if_false, hclass', hempc]
    rw [hmv, hal]
    simp only [moved_back, happ, hm, hdrop, hlast]
    by_cases ha : cfg.accumulateMerged
    · have hcm : cfg.cliqueMerging = false := by
        by_contra hc
        have := (hcl (by simpa using hc)).2
        rw [this] at ha
        cases ha
      have hjp := hjg hcm
      subst hjp
      simp only [ha, if_true, hclass, happ, happc, hz, hneg]
    · simp only [ha, if_false, Bool.false_eq_true, happ, happc, hz, hneg]
  · intro hc
    have := hjg hc
    subst this
    rw [hzg rfl]
  · exact hzl.symm

/-- The observations of a specimen at different displacements. -/
def observations (g : Grid ℝ) (ws : List ((ℕ → V2 ℝ) × V2 ℝ)) : List FilterUse :=
  ws.map (fun x => .observe x.1 (g.shift x.2))

theorem rigid_run {C : Type} (cfg : FilterCfg ℝ) (km : KMeans C) {ac : AlignCfg} (cf : CliqueFinder)
    {g : Grid ℝ} {σ : ℝ} (hg : Spaced g σ) (h3 : 3 ≤ g.positions.length) (he : Exact ac g.positions.length)
    (hh : 1 ≤ cfg.historyLength) (hcut : 0 < cfg.mergeCutoff)
    (hcl : cfg.cliqueMerging = true → cfg.mergeCutoff < σ ∧ cfg.accumulateMerged = false)
    (ws : List ((ℕ → V2 ℝ) × V2 ℝ)) (hws : ∀ x ∈ ws, Small ac σ x.2) {s : FilterState ℝ C} (hs : Copies km g s) :
    List.Forall₂ (fun x r => ∃ m : Grid ℝ, r = .ok (m, x.2) ∧ (cfg.cliqueMerging = false → m = g) ∧ m.WF ∧
        (m.positions.zip m.numbers).Perm (g.positions.zip g.numbers))
      ws (FilterState.run cfg km ac cf (observations g ws) s).1 := by
  induction ws generalizing s with
  | nil => exact List.Forall₂.nil
  | cons x ws ih =>
    obtain ⟨m, s', h1, h2, h4, h5, h6⟩ :=
      rigid_step cfg km cf x.1 hg h3 he hh hcut hcl (hws x (by simp)) hs
    simp only [observations, List.map_cons, FilterState.run, h1]
    exact List.Forall₂.cons ⟨m, rfl, h4, h5, h6⟩ (ih (fun y hy => hws y (by simp [hy])) h2)

/-- C95: when the atoms of a specimen are observed again and again at small displacements, and the first
observation is accepted, every observation gives exactly the atoms first seen, with their atomic numbers, and
exactly the displacement from the first observation; for naive merging also in the same order. -/
theorem C95_rigid {C : Type} (cfg : FilterCfg ℝ) (km : KMeans C) (ac : AlignCfg) (cf : CliqueFinder)
    (g : Grid ℝ) (σ : ℝ) (hg : Spaced g σ) (he : Exact ac g.positions.length) (hh : 1 ≤ cfg.historyLength)
    (hcut : 0 < cfg.mergeCutoff)
    (hcl : cfg.cliqueMerging = true → cfg.mergeCutoff < σ ∧ cfg.accumulateMerged = false)
    (draw : ℕ → V2 ℝ) (r : Grid ℝ × V2 ℝ)
    (hfirst : (FilterState.run cfg km ac cf [.observe draw g] FilterState.fresh).1 = [.ok r])
    (ws : List ((ℕ → V2 ℝ) × V2 ℝ)) (hws : ∀ x ∈ ws, Small ac σ x.2) :
    ∃ rs, (FilterState.run cfg km ac cf (.observe draw g :: observations g ws) FilterState.fresh).1 = .ok (g, 0) :: rs ∧
      List.Forall₂ (fun x r => ∃ m : Grid ℝ, r = .ok (m, x.2) ∧ (cfg.cliqueMerging = false → m = g) ∧ m.WF ∧
        (m.positions.zip m.numbers).Perm (g.positions.zip g.numbers)) ws rs := by
  rcases call_first cfg (latticeOps km ac draw) cf g FilterState.fresh rfl with
    ⟨c, cl, h1, h2, h3⟩ | ⟨e, h⟩ | ⟨e, c, h⟩
  · have hlen3 : 3 ≤ g.positions.length := by
      by_contra hlt
      rw [classifyLattice, if_pos (by omega)] at h2
      cases h2
    have hct : classifyTypes km g.positions c = .ok cl := by
      rw [classifyLattice, if_neg (by omega)] at h2
      exact h2
    have hs : Copies km g (⟨[g.positions], (FilterState.fresh : FilterState ℝ C).classes ++ [cl], some c⟩) :=
      ⟨⟨0, cl, c, rfl, hct, classifyTypes_length hct⟩⟩
    refine ⟨_, ?_, rigid_run cfg km cf hg hlen3 he hh hcut hcl ws hws hs⟩
    simp only [FilterState.run, h3]
    have : (-0 : V2 ℝ) = 0 := by ext <;> simp
    rw [this]
  · simp only [FilterState.run, h] at hfirst
    cases hfirst
  · simp only [FilterState.run, h] at hfirst
    cases hfirst

theorem len_x (x : ℝ) (h : 0 ≤ x) : len ⟨x, 0⟩ = x := by
  rw [← norm2_eq_len, norm2]
  simp [Real.sqrt_mul_self h]

/-- The default settings, with naive and with clique merging, and steps of half an angstrom. -/
example (draw : ℕ → V2 ℝ) : Spaced triangle 2 ∧ Exact {} triangle.positions.length ∧ Small {} 2 ⟨1 / 2, 0⟩ ∧
    (FilterState.run ⟨10, 11 / 10, false, true⟩ oneCluster {} someCliques [.observe draw triangle]
      FilterState.fresh).1 = [.ok (triangle, -0)] := by
  refine ⟨⟨rfl, ?_, ?_⟩, ⟨rfl, by norm_num, by intro h; norm_num at h⟩, ⟨?_, ?_, ?_⟩,
    first_accepted _ _ _ _ _ (by simp [triangle])⟩
  · simp [triangle]
  · intro p hp q hq hne
    rw [Spec.dist]
    apply Real.le_sqrt_of_sq_le
    simp only [triangle, List.mem_cons, List.not_mem_nil, or_false] at hp hq
    rcases hp with rfl | rfl | rfl <;> rcases hq with rfl | rfl | rfl <;>
      first | exact absurd rfl hne | norm_num
  all_goals rw [len_x _ (by norm_num)]; norm_num

end PD.Props
