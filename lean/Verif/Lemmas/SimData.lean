/- Helper lemmas for C122: data points from the true sheets. -/
import Verif.Spec.SimData
import Verif.Props.DataPoints
import Verif.Props.Transitions
import Verif.Lemmas.SimHistory

set_option linter.unusedSectionVars false
set_option linter.unusedSimpArgs false

namespace PD
open PD.Spec PD.Props
variable {Img G O P : Type}

/-- Three bonds, in terms of positions. -/
structure Bonded (ps : List (V2 ℝ)) (si : V2 ℝ) (nbrs : List (V2 ℝ)) : Prop where
  mem : si ∈ ps
  three : nbrs.length = 3
  nodup : nbrs.Nodup
  other : si ∉ nbrs
  bonds : ∀ p ∈ nbrs, p ∈ ps ∧ Spec.dist si p < 2
  far : ∀ p ∈ ps, p ≠ si → p ∉ nbrs → 2 < Spec.dist si p

theorem dist_self' (p : V2 ℝ) : Spec.dist p p = 0 := by simp [Spec.dist]

theorem eq_of_dist_zero {p q : V2 ℝ} (h : Spec.dist p q ≤ 0) : p = q := by
  have h1 : (p.x - q.x) ^ 2 + (p.y - q.y) ^ 2 ≤ 0 := Real.sqrt_eq_zero'.1 (le_antisymm h (Real.sqrt_nonneg _))
  have h2 : (p.x - q.x) ^ 2 = 0 := by nlinarith [sq_nonneg (p.x - q.x), sq_nonneg (p.y - q.y)]
  have h3 : (p.y - q.y) ^ 2 = 0 := by nlinarith [sq_nonneg (p.x - q.x), sq_nonneg (p.y - q.y)]
  ext
  · exact sub_eq_zero.1 (pow_eq_zero_iff (two_ne_zero) |>.1 h2)
  · exact sub_eq_zero.1 (pow_eq_zero_iff (two_ne_zero) |>.1 h3)

theorem dist_nonneg' (p q : V2 ℝ) : 0 ≤ Spec.dist p q := Real.sqrt_nonneg _

theorem abs_x_le_dist (p q : V2 ℝ) : |p.x - q.x| ≤ Spec.dist p q := by
  apply Real.le_sqrt_of_sq_le
  rw [sq_abs]; nlinarith [sq_nonneg (p.y - q.y)]

theorem abs_y_le_dist (p q : V2 ℝ) : |p.y - q.y| ≤ Spec.dist p q := by
  apply Real.le_sqrt_of_sq_le
  rw [sq_abs]; nlinarith [sq_nonneg (p.x - q.x)]

theorem Bonded.near {ps : List (V2 ℝ)} {si : V2 ℝ} {nbrs : List (V2 ℝ)} (h : Bonded ps si nbrs)
    {p : V2 ℝ} (hp : p ∈ si :: nbrs) : p ∈ ps ∧ Spec.dist si p < 2 := by
  rcases List.mem_cons.1 hp with rfl | hp
  · exact ⟨h.mem, by rw [dist_self']; norm_num⟩
  · exact h.bonds p hp

theorem Bonded.mem_of_near {ps : List (V2 ℝ)} {si : V2 ℝ} {nbrs : List (V2 ℝ)} (h : Bonded ps si nbrs)
    {p : V2 ℝ} (hp : p ∈ ps) (hd : Spec.dist si p ≤ 2) : p ∈ si :: nbrs := by
  by_contra hc
  rw [List.mem_cons] at hc
  push Not at hc
  linarith [h.far p hp hc.1 hc.2]

/-- Distinct indices carry distinct positions. -/
theorem getElem?_inj {ps : List (V2 ℝ)} (hnd : ps.Nodup) {i j : ℕ} {p : V2 ℝ}
    (hi : ps[i]? = some p) (hj : ps[j]? = some p) : i = j := by
  obtain ⟨h1, h2⟩ := List.getElem?_eq_some_iff.1 hi
  obtain ⟨h3, h4⟩ := List.getElem?_eq_some_iff.1 hj
  exact (List.Nodup.getElem_inj_iff hnd).1 (h2.trans h4.symm)

/-- The positions of distinct valid indices. -/
theorem positions_of {ps : List (V2 ℝ)} (hnd : ps.Nodup) : ∀ {js : List ℕ}, js.Nodup →
    (∀ j ∈ js, j < ps.length) → ∃ qs : List (V2 ℝ), qs.Nodup ∧ qs.length = js.length ∧
      js.map (fun j => ps[j]?) = qs.map some
  | [], _, _ => ⟨[], by simp, rfl, rfl⟩
  | j :: js, h1, h2 => by
    obtain ⟨qs, h3, h4, h5⟩ := positions_of hnd (List.nodup_cons.1 h1).2
      (fun k hk => h2 k (List.mem_cons_of_mem _ hk))
    have hj := h2 j List.mem_cons_self
    refine ⟨ps[j] :: qs, List.nodup_cons.2 ⟨?_, h3⟩, by simp [h4], by simp [h5, hj]⟩
    intro hc
    have : some ps[j] ∈ js.map (fun j => ps[j]?) := by rw [h5]; exact List.mem_map_of_mem hc
    obtain ⟨k, hk, hk'⟩ := List.mem_map.1 this
    have := getElem?_inj hnd hk' (by simp [hj] : ps[j]? = some ps[j])
    exact (List.nodup_cons.1 h1).1 (this ▸ hk)

theorem mem_positions_of {ps : List (V2 ℝ)} {js : List ℕ} {qs : List (V2 ℝ)}
    (h : js.map (fun j => ps[j]?) = qs.map some) :
    (∀ q ∈ qs, ∃ j ∈ js, ps[j]? = some q) ∧ (∀ j ∈ js, ∃ q ∈ qs, ps[j]? = some q) := by
  constructor
  · intro q hq
    have : some q ∈ js.map (fun j => ps[j]?) := by rw [h]; exact List.mem_map_of_mem hq
    obtain ⟨j, hj, hj'⟩ := List.mem_map.1 this
    exact ⟨j, hj, hj'⟩
  · intro j hj
    have : ps[j]? ∈ qs.map some := by rw [← h]; exact List.mem_map_of_mem (f := fun j => ps[j]?) hj
    obtain ⟨q, hq, hq'⟩ := List.mem_map.1 this
    exact ⟨q, hq, hq'.symm⟩

theorem Bonded.threeBonds {ps : List (V2 ℝ)} {si : V2 ℝ} {nbrs : List (V2 ℝ)} (hnd : ps.Nodup)
    (h : Bonded ps si nbrs) {i : ℕ} (hi : ps[i]? = some si) : ThreeBonds ps i si nbrs := by
  have hidx : ∀ qs : List (V2 ℝ), qs.Nodup → (∀ q ∈ qs, q ∈ ps) →
      ∃ js : List ℕ, js.Nodup ∧ js.map (fun j => ps[j]?) = qs.map some := by
    intro qs
    induction qs with
    | nil => intro _ _; exact ⟨[], by simp, rfl⟩
    | cons q qs ih =>
      intro h1 h2
      obtain ⟨js, h3, h4⟩ := ih (List.nodup_cons.1 h1).2 (fun x hx => h2 x (List.mem_cons_of_mem _ hx))
      obtain ⟨j, hj⟩ := List.getElem?_of_mem (h2 q List.mem_cons_self)
      refine ⟨j :: js, List.nodup_cons.2 ⟨?_, h3⟩, by simp [h4, hj]⟩
      intro hc
      obtain ⟨q', hq', he⟩ := (mem_positions_of h4).2 j hc
      rw [hj] at he
      cases he
      exact (List.nodup_cons.1 h1).1 hq'
  obtain ⟨js, h1, h2⟩ := hidx nbrs h.nodup (fun p hp => (h.bonds p hp).1)
  obtain ⟨h3, h4⟩ := mem_positions_of h2
  refine ⟨hi, h.three, js, h1, ?_, h2, ?_⟩
  · intro hc
    obtain ⟨q, hq, he⟩ := h4 i hc
    rw [hi] at he
    cases he
    exact h.other hq
  · intro j p hp hj
    split
    · rename_i hjs
      obtain ⟨q, hq, he⟩ := h4 j hjs
      rw [hp] at he
      cases he
      exact (h.bonds p hq).2
    · rename_i hjs
      refine h.far p (List.mem_of_getElem? hp) ?_ ?_
      · rintro rfl
        exact hj (getElem?_inj hnd hp hi)
      · intro hc
        obtain ⟨k, hk, hk'⟩ := h3 p hc
        exact hjs (getElem?_inj hnd hp hk' ▸ hk)

theorem ThreeBonds.bonded {ps : List (V2 ℝ)} {si : V2 ℝ} {nbrs : List (V2 ℝ)} (hnd : ps.Nodup)
    {i : ℕ} (h : ThreeBonds ps i si nbrs) : Bonded ps si nbrs := by
  obtain ⟨hi, hl, js, h1, hij, h2, hd⟩ := h
  obtain ⟨h3, h4⟩ := mem_positions_of h2
  have hlt : ∀ j ∈ js, j < ps.length := by
    intro j hj
    obtain ⟨q, _, hq⟩ := h4 j hj
    exact (List.getElem?_eq_some_iff.1 hq).1
  obtain ⟨qs, h5, h6, h7⟩ := positions_of hnd h1 hlt
  have hqs : qs = nbrs := List.map_injective_iff.2 (Option.some_injective _) (h7.symm.trans h2)
  subst hqs
  have hso : si ∉ qs := by
    intro hc
    obtain ⟨j, hj, hj'⟩ := h3 si hc
    exact hij (getElem?_inj hnd hj' hi ▸ hj)
  refine ⟨List.mem_of_getElem? hi, hl, h5, hso, ?_, ?_⟩
  · intro p hp
    obtain ⟨j, hj, hj'⟩ := h3 p hp
    have := hd j p hj' (fun e => hij (e ▸ hj))
    rw [if_pos hj] at this
    exact ⟨List.mem_of_getElem? hj', this⟩
  · intro p hp hne hnm
    obtain ⟨j, hj⟩ := List.getElem?_of_mem hp
    have := hd j p hj (by rintro rfl; rw [hj] at hi; cases hi; exact hne rfl)
    rwa [if_neg] at this
    intro hc
    obtain ⟨q, hq, he⟩ := h4 j hc
    rw [hj] at he
    cases he
    exact hnm hq

/-- The three neighbours are determined up to order. -/
theorem Bonded.perm {ps : List (V2 ℝ)} {si : V2 ℝ} {n1 n2 : List (V2 ℝ)} (h1 : Bonded ps si n1)
    (h2 : Bonded ps si n2) : n1.Perm n2 := by
  have hsub : n1 ⊆ n2 := by
    intro p hp
    have hb := h1.bonds p hp
    have := h2.mem_of_near hb.1 hb.2.le
    rcases List.mem_cons.1 this with rfl | h
    · exact absurd hp h1.other
    · exact h
  exact (List.subperm_of_subset h1.nodup hsub).perm_of_length_le (by rw [h1.three, h2.three])

/-- Four atoms less than 2 Å away are the silicon's place and its neighbours. -/
theorem Bonded.covers {ps : List (V2 ℝ)} {si : V2 ℝ} {nbrs : List (V2 ℝ)} (hnd : ps.Nodup)
    (h : Bonded ps si nbrs) {js : List ℕ} (h1 : js.Nodup) (h2 : js.length = 4)
    (h3 : ∀ j ∈ js, ∃ a, ps[j]? = some a ∧ Spec.dist si a ≤ 2) {p : V2 ℝ} (hp : p ∈ si :: nbrs) :
    ∃ j ∈ js, ps[j]? = some p := by
  obtain ⟨qs, h4, h5, h6⟩ := positions_of hnd h1
    (fun j hj => by obtain ⟨a, ha, _⟩ := h3 j hj; exact (List.getElem?_eq_some_iff.1 ha).1)
  obtain ⟨h7, h8⟩ := mem_positions_of h6
  have hsub : qs ⊆ si :: nbrs := by
    intro q hq
    obtain ⟨j, hj, hj'⟩ := h7 q hq
    obtain ⟨a, ha, had⟩ := h3 j hj
    rw [hj'] at ha
    cases ha
    exact h.mem_of_near (List.mem_of_getElem? hj') had
  have hperm := (List.subperm_of_subset h4 hsub).perm_of_length_le (by simp [h.three, h5, h2])
  exact h7 p (hperm.mem_iff.2 hp)

/-- Among the four nearest atoms are all the four places. -/
theorem Bonded.fourNearest {ps : List (V2 ℝ)} {si : V2 ℝ} {nbrs : List (V2 ℝ)} (hnd : ps.Nodup)
    (h : Bonded ps si nbrs) {js : List ℕ} (hj : FourNearest ps si js) {p : V2 ℝ}
    (hp : p ∈ si :: nbrs) : ∃ j ∈ js, ps[j]? = some p := by
  obtain ⟨h1, h2, h3, h4⟩ := hj
  obtain ⟨k, hk⟩ := List.getElem?_of_mem (h.near hp).1
  by_cases hkj : k ∈ js
  · exact ⟨k, hkj, hk⟩
  · refine h.covers hnd h1 h2 (fun j hj => ⟨ps[j]'(h3 j hj), by simp [h3 j hj], ?_⟩) hp
    have := h4 j hj k hkj (ps[j]'(h3 j hj)) p (by simp [h3 j hj]) hk
    linarith [(h.near hp).2]

theorem checkAfter_ok {knn : Knn ℝ} {cutoff : ℝ} {after : Grid ℝ} {si s : V2 ℝ}
    {nbrs : List (V2 ℝ)} (hwf : after.WF)
    (h : checkAfter knn cutoff after si nbrs = .ok (.inr s)) :
    silicons after = [s] ∧ ∃ js, FourNearest after.positions si js ∧ ∃ j ∈ js, IsSiliconAt after j := by
  unfold checkAfter Knn.kneighbors at h
  split at h
  · cases h
  rename_i idx hidx
  split at hidx
  swap
  · cases hidx
  rename_i hl
  simp only [Except.ok.injEq] at hidx
  have hk := knn.spec after.positions si 4 hl
  rw [hidx] at hk
  split at h
  · cases h
  rename_i rows hrows
  split at h
  · cases h
  rename_i nums hnums
  obtain ⟨hr1, hr2⟩ := takeRows_ok hrows
  obtain ⟨hn1, hn2⟩ := takeRows_ok hnums
  rw [getSiliconPositions_eq_silicons hwf] at h
  have hfour : FourNearest after.positions si idx := by
    refine ⟨hk.nodup, hk.length, hk.lt, fun j hj k hk' a b ha hb => ?_⟩
    exact (distSq_le_iff _ _ _).1 (hk.nearest j hj k hk' a b ha hb)
  split at h
  · rename_i siAfter hs
    split at h
    · cases h
    · rename_i hany
      have hsi : s = siAfter := by
        repeat' split at h
        all_goals first | (cases h; done) | (simpa using h.symm)
      subst hsi
      refine ⟨hs, idx, hfour, ?_⟩
      simp only [Bool.not_eq_eq_eq_not, Bool.not_true, Bool.not_eq_false, List.any_eq_true,
        decide_eq_true_eq] at hany
      obtain ⟨n, hn, rfl⟩ := hany
      obtain ⟨k, hk'⟩ := List.getElem?_of_mem hn
      have := hn2 k
      rw [hk'] at this
      obtain ⟨j, hj, hjn⟩ := Option.bind_eq_some_iff.1 this.symm
      exact ⟨j, List.mem_of_getElem? hj, hjn⟩
  · cases h

theorem Spec.Honeycomb.bonded {ps : List (V2 ℝ)} {si : V2 ℝ} {nbrs : List (V2 ℝ)}
    (h : Honeycomb ps si nbrs) : Bonded ps si nbrs :=
  ⟨h.mem, h.three, h.nodup, h.other,
    fun p hp => ⟨(h.bonds p hp).1, by linarith [(h.bonds p hp).2]⟩, h.far⟩

theorem exists_map_eq : ∀ {xs : List (V2 ℝ)} {ys : List ℝ}, xs.Nodup → xs.length = ys.length →
    ∃ f : V2 ℝ → ℝ, ys = xs.map f
  | [], [], _, _ => ⟨fun _ => 0, rfl⟩
  | x :: xs, y :: ys, h, hl => by
    classical
    obtain ⟨f, hf⟩ := exists_map_eq (List.nodup_cons.1 h).2 (by simpa using hl)
    refine ⟨fun p => if p = x then y else f p, ?_⟩
    simp only [List.map_cons, if_true, List.cons.injEq, true_and]
    rw [hf]
    refine List.map_congr_left (fun p hp => ?_)
    rw [if_neg]
    rintro rfl
    exact (List.nodup_cons.1 h).1 hp

theorem len_sq (u : V2 ℝ) : len u * len u = u.x ^ 2 + u.y ^ 2 :=
  Real.mul_self_sqrt (by positivity)

/-- Two vectors at the same angle from a third point in the same direction. -/
theorem same_angle {u p q : V2 ℝ} {θ : ℝ} (hu : len u ≠ 0) (hp : CcwAngle u p θ)
    (hq : CcwAngle u q θ) : cross p q = 0 ∧ 0 ≤ dot p q := by
  obtain ⟨-, hp1, hp2⟩ := hp
  obtain ⟨-, hq1, hq2⟩ := hq
  have hl := len_sq u
  have hpos : 0 < len u := lt_of_le_of_ne (Real.sqrt_nonneg _) (Ne.symm hu)
  have hcs := Real.sin_sq_add_cos_sq θ
  have hc : (len u * len u) * cross p q = dot u p * cross u q - cross u p * dot u q := by
    rw [hl]; simp only [dot, cross]; ring
  have hd : (len u * len u) * dot p q = dot u p * dot u q + cross u p * cross u q := by
    rw [hl]; simp only [dot, cross]; ring
  have hpos2 : 0 < len u * len u := mul_pos hpos hpos
  rw [hp1, hp2, hq1, hq2] at hc hd
  constructor
  · have : (len u * len u) * cross p q = 0 := by rw [hc]; ring
    rcases mul_eq_zero.1 this with h | h
    · exact absurd h hpos2.ne'
    · exact h
  · have h0 : (len u * len u) * dot p q = (len u * len u) * (len p * len q) := by
      rw [hd]
      linear_combination (len u * len u * len p * len q) * hcs
    rw [mul_left_cancel₀ hpos2.ne' h0]
    exact mul_nonneg (Real.sqrt_nonneg _) (Real.sqrt_nonneg _)

theorem Honeycomb.tells {ps : List (V2 ℝ)} {si si' beam : V2 ℝ} {nbrs n2 : List (V2 ℝ)} {c : BeamControl ℝ}
    {d : DataPoint} (h : Honeycomb ps si nbrs) (hperm : n2.Perm nbrs)
    (near : si' = si ∨ si' ∈ nbrs)
    (h1 : d.secondsBetween = (c.dwellTime : ℝ) / 1000000) (h2 : d.current = c.currentNa)
    (h3 : d.voltage = c.voltageKv) {q : V2 ℝ} (hq : q ∈ n2)
    (hnear : ∀ p ∈ n2, Spec.dist beam q ≤ Spec.dist beam p)
    (hbeam : d.beamPos = along (q - si) (beam - si)) {θs : List ℝ}
    (hθ : List.Forall₂ (fun p θ => CcwAngle (q - si) (p - si) θ) n2 θs)
    (hlab : θs.Nodup → IsLabel si si' n2 θs d.nextState) : Tells si nbrs si' c beam d := by
  have hm : ∀ p, p ∈ n2 ↔ p ∈ nbrs := fun p => hperm.mem_iff
  have hnd2 : n2.Nodup := hperm.nodup_iff.2 h.nodup
  obtain ⟨f, rfl⟩ := exists_map_eq hnd2 hθ.length_eq
  have hang : ∀ p ∈ n2, CcwAngle (q - si) (p - si) (f p) := by
    rw [List.forall₂_map_right_iff, List.forall₂_same] at hθ
    exact hθ
  have hqs : len (q - si) ≠ 0 := by
    intro hc
    have : Spec.dist q si = 0 := by simpa [len, Spec.dist] using hc
    exact h.other (eq_of_dist_zero this.le ▸ (hm q).1 hq)
  have hinj : ∀ p ∈ n2, ∀ p' ∈ n2, f p = f p' → p = p' := by
    intro p hp p' hp' he
    by_contra hne
    have ha := same_angle hqs (hang p hp) (he ▸ hang p' hp')
    rcases h.apart p ((hm p).1 hp) p' ((hm p').1 hp') hne with hx | hx
    · exact hx ha.1
    · linarith [ha.2]
  have hl := hlab ((List.nodup_map_iff_inj_on hnd2).2 hinj)
  refine ⟨h1, h2, h3, q, (hm q).1 hq, fun p hp => hnear p ((hm p).2 hp), hbeam, f,
    fun p hp => hang p ((hm p).2 hp), ?_⟩
  have hcount : ∀ θ : ℝ, ((n2.map f).filter (fun t => decide (t < θ))).length =
      (nbrs.filter (fun p => decide (f p < θ))).length := by
    intro θ
    rw [List.filter_map, List.length_map]
    exact (hperm.filter _).length_eq
  rcases hl with ⟨hall, h0⟩ | ⟨k, p, θ, hk, hkθ, hlt, hmin, hn⟩
  · left
    refine ⟨?_, h0⟩
    rcases near with h | h
    · exact h
    · have := hall si' ((hm si').2 h)
      rw [dist_self'] at this
      exact eq_of_dist_zero this
  · right
    have hne : si' ≠ si := by
      rintro rfl
      rw [dist_self'] at hlt
      exact absurd hlt (not_lt.2 (dist_nonneg' _ _))
    have hmem := near.resolve_left hne
    have hp : si' = p := by
      have := hmin si' ((hm si').2 hmem)
      rw [dist_self'] at this
      exact eq_of_dist_zero this
    subst hp
    refine ⟨hmem, ?_⟩
    rw [hn, hcount]
    rw [List.getElem?_map, hk] at hkθ
    cases hkθ
    rfl

theorem datapoint_told (knn : Knn ℝ) {cutoff : ℝ} (hcut : 0 ≤ cutoff) {t : Transition ℝ Img}
    {c : BeamControl ℝ} {si si' : V2 ℝ} {nbrs : List (V2 ℝ)}
    (hb : t.gridBefore.WF) (ha : t.gridAfter.WF)
    (hnd : (placedOn t.fovBefore t.gridBefore).positions.Nodup)
    (hnd' : (placedOn t.fovAfter t.gridAfter).positions.Nodup)
    (hc : t.controls = [c]) (hsi : silicons (placedOn t.fovBefore t.gridBefore) = [si])
    (hsi' : silicons (placedOn t.fovAfter t.gridAfter) = [si'])
    (hH : Honeycomb (placedOn t.fovBefore t.gridBefore).positions si nbrs)
    (hB : Bonded (placedOn t.fovAfter t.gridAfter).positions si nbrs) :
    ∃ r, datapointOf knn cutoff t = .ok r ∧
      (∀ d, r = .inr d → (si' = si ∨ si' ∈ nbrs) ∧
        Tells si nbrs si' c (lerp t.fovBefore.lowerLeft t.fovBefore.upperRight c.position) d) ∧
      (∀ x, r = .inl x → x = .noSiliconNeighbor ∧ si' ≠ si ∧ si' ∉ nbrs) := by
  have hwa := placedOn_wf (f := t.fovAfter) ha
  obtain ⟨i, hi, hip⟩ := silicon_index (g := placedOn t.fovBefore t.gridBefore) (si := si)
    (by rw [hsi]; simp)
  obtain ⟨i', hi', hip'⟩ := silicon_index (g := placedOn t.fovAfter t.gridAfter) (si := si')
    (by rw [hsi']; simp)
  have h10 : 10 ≤ (placedOn t.fovBefore t.gridBefore).positions.length := by
    obtain ⟨qs, hq1, hq2, hq3⟩ := hH.ten
    have := (List.subperm_of_subset hq1 (fun q hq => (hq3 q hq).1)).length_le
    omega
  have h4 : 4 ≤ (placedOn t.fovAfter t.gridAfter).positions.length := by
    have := (List.subperm_of_subset (List.nodup_cons.2 ⟨hB.other, hB.nodup⟩)
      (fun q hq => (hB.near hq).1)).length_le
    simpa [hB.three] using this
  obtain ⟨r, hr⟩ := checkBefore_total knn _ si h10
  have hdp : datapointOf knn cutoff t = match checkBefore knn (placedOn t.fovBefore t.gridBefore) si with
      | .error e => .error e
      | .ok (.inl x) => .ok (.inl x)
      | .ok (.inr nbrs) =>
        match checkAfter knn cutoff (placedOn t.fovAfter t.gridAfter) si nbrs with
        | .error e => .error e
        | .ok (.inl x) => .ok (.inl x)
        | .ok (.inr siAfter) =>
          match makeDataPoint c (lerp t.fovBefore.lowerLeft t.fovBefore.upperRight c.position)
            si siAfter nbrs with
          | .error e => .error e
          | .ok d => .ok (.inr d) := by
    unfold datapointOf
    simp only [hc, gridToMaterial_eq_placedOn, toMaterial_eq_lerp,
      getSiliconPositions_eq_silicons (placedOn_wf hb), hsi]
    rfl
  rw [hr] at hdp
  cases r with
  | inl x =>
    exfalso
    rcases checkBefore_excluded hnd hip hr with ⟨-, hx⟩ | ⟨-, js, h1, h2, h3, h3l, h5⟩
    · exact hx nbrs (hH.bonded.threeBonds hnd hip)
    · obtain ⟨p, hp⟩ : ∃ p, p ∈ nbrs := by
        cases hn : nbrs with
        | nil => have := hH.three; rw [hn] at this; simp at this
        | cons p _ => exact ⟨p, List.mem_cons_self⟩
      obtain ⟨k, hk⟩ := List.getElem?_of_mem (hH.bonds p hp).1
      have hki : k ≠ i := by
        rintro rfl
        rw [hk] at hip
        cases hip
        exact hH.other hp
      obtain ⟨j, hj, hjp⟩ := hH.bonded.covers hnd h1 h2 (fun j hj => ⟨_, List.getElem?_eq_getElem (h3l j hj), by
        have := h5 j hj k hki _ p (List.getElem?_eq_getElem (h3l j hj)) hk
        linarith [(hH.bonds p hp).2]⟩) List.mem_cons_self
      exact h3 (getElem?_inj hnd hjp hip ▸ hj)
  | inr n2 =>
    obtain ⟨ps, rfl, hps⟩ := checkBefore_ok hnd hip hr
    have hpm : ps.Perm nbrs := (ThreeBonds.bonded hnd hps).perm hH.bonded
    have hpn : ps ≠ [] := by rintro rfl; simp [ThreeBonds] at hps
    obtain ⟨r', hr'⟩ := checkAfter_total knn cutoff _ si (si :: ps) hwa h4
    simp only [hr'] at hdp
    cases r' with
    | inl x =>
      refine ⟨_, hdp, by simp, fun y hy => ?_⟩
      cases hy
      have hx : x = .noSiliconNeighbor := by
        rcases checkAfter_excluded hwa (by simp) hr' with ⟨-, h1⟩ | ⟨h1, -⟩ | ⟨-, p, hp, js, hj, h6⟩
        · rw [hsi'] at h1; simp at h1
        · exact h1
        · have hp' : p ∈ si :: nbrs := by
            rcases List.mem_cons.1 hp with rfl | hp
            · exact List.mem_cons_self
            · exact List.mem_cons_of_mem _ (hpm.mem_iff.1 hp)
          obtain ⟨j, hjm, hjp⟩ := hB.fourNearest hnd' hj hp'
          have := h6 j hjm p hjp
          rw [dist_self'] at this
          linarith
      refine ⟨hx, ?_⟩
      by_contra hcon
      have hmem : si' ∈ si :: nbrs := by
        rw [List.mem_cons]; by_contra hh; push Not at hh; exact hcon hh
      rcases checkAfter_excluded hwa (by simp) hr' with ⟨h1, -⟩ | ⟨-, s2, h1, js, h2, h3, h5⟩ | ⟨h1, -⟩
      · rw [hx] at h1; cases h1
      · rw [hsi'] at h1
        cases h1
        have hlt := (hB.near hmem).2
        obtain ⟨j, hj, hjp⟩ := hB.covers hnd' h2 h3 (fun j hj => by
          obtain ⟨-, a, ha, hd⟩ := h5 j hj
          exact ⟨a, ha, by linarith⟩) hmem
        have := getElem?_inj hnd' hjp hip'
        subst this
        exact (h5 j hj).1 hi'
      · rw [hx] at h1; cases h1
    | inr sa =>
      obtain ⟨hsa, js, hjs, j, hj, hjsi⟩ := checkAfter_ok hwa hr'
      rw [hsi'] at hsa
      cases hsa
      obtain ⟨d, hd⟩ := makeDataPoint_total c
        (lerp t.fovBefore.lowerLeft t.fovBefore.upperRight c.position) si si' hpn
      simp only [hd] at hdp
      refine ⟨_, hdp, ?_, by simp⟩
      intro d' hd'
      cases hd'
      have near : si' = si ∨ si' ∈ nbrs := by
        obtain ⟨qs, hq1, hq2, hq3⟩ := positions_of hnd' hjs.1 hjs.2.2.1
        obtain ⟨hq4, hq5⟩ := mem_positions_of hq3
        have hsub : si :: nbrs ⊆ qs := by
          intro p hp
          obtain ⟨k, hk, hkp⟩ := hB.fourNearest hnd' hjs hp
          obtain ⟨q, hq, he⟩ := hq5 k hk
          rw [hkp] at he
          cases he
          exact hq
        have hperm := (List.subperm_of_subset (List.nodup_cons.2 ⟨hB.other, hB.nodup⟩)
          hsub).perm_of_length_le (by rw [hq2, hjs.2.1]; simp [hB.three])
        obtain ⟨q, hq, hjq⟩ := hq5 j hj
        have hqsi : q = si' := by
          have : q ∈ silicons (placedOn t.fovAfter t.gridAfter) := by
            simp only [silicons, atoms, List.mem_map, List.mem_filter, decide_eq_true_eq]
            exact ⟨(q, SILICON), ⟨List.mem_of_getElem? (List.getElem?_zip_eq_some.2 ⟨hjq, hjsi⟩), rfl⟩, rfl⟩
          rw [hsi'] at this
          simpa using this
        exact List.mem_cons.1 (hperm.mem_iff.2 (hqsi ▸ hq))
      refine ⟨near, ?_⟩
      obtain ⟨c2, i2, s2, s2', n3, k1, k2, k3, k4, k5, k6, k7, k8, q, hq, k9, k10, θs, k11, k12⟩ :=
        C42_kept knn cutoff t d hb ha hnd hdp
      rw [hc] at k1
      rw [hsi] at k2
      rw [hsi'] at k3
      cases k1
      cases k2
      cases k3
      exact Honeycomb.tells hH ((ThreeBonds.bonded hnd k5).perm hH.bonded) near k6 k7 k8 hq k9 k10 k11 k12

/-! ### The simulator -/

theorem centredFov_mem {c p : V2 ℝ} {sc : ℝ} (hx : |p.x - c.x| ≤ sc / 2) (hy : |p.y - c.y| ≤ sc / 2) :
    Inside (centredFov c sc).lowerLeft (centredFov c sc).upperRight p := by
  rw [abs_le] at hx hy
  refine ⟨⟨?_, ?_⟩, ?_, ?_⟩ <;> simp [centredFov] <;> linarith

/-- The last observation `o` and the true sheet of a simulator. -/
structure Sees (s : Sim ℝ G O P) (sheet : Grid ℝ) (o : Observation ℝ Img) : Prop where
  inv : SimInv s
  grid : s.ctx.mat.grid = some sheet
  fov : s.fov = some o.fov
  doped : SingleDoped sheet
  wf : o.grid.WF
  atoms : Spec.atoms (placedOn o.fov o.grid) =
    (Spec.atoms sheet).filter (fun a => decide (Inside o.fov.lowerLeft o.fov.upperRight a.1))
  margin : ∀ si, silicons sheet = [si] → ∀ p : V2 ℝ, |p.x - si.x| ≤ 15 / 4 → |p.y - si.y| ≤ 15 / 4 →
    Inside o.fov.lowerLeft o.fov.upperRight p

theorem sees_atoms {s : Sim ℝ G O P} {sheet g : Grid ℝ} {f : Fov ℝ} {sc : ℝ} {c : V2 ℝ}
    (hflag : s.ctx.mat.hasBeenReset = true) (hg : s.ctx.mat.grid = some sheet) (hd : SingleDoped sheet)
    (hf : f = centredFov c sc) (h15 : 15 ≤ sc)
    (ho : s.ctx.mat.getAtomsInBounds f.lowerLeft f.upperRight = .ok g) :
    g.WF ∧ Spec.atoms (placedOn f g) =
      (Spec.atoms sheet).filter (fun a => decide (Inside f.lowerLeft f.upperRight a.1)) := by
  have hsq := centredFov_square c sc
  rw [← hf] at hsq
  obtain ⟨g', hg', hwf, hat, _⟩ := C03_atoms_in_view s.ctx.mat sheet hflag hg hd.wf f
    (by rw [hsq.1]; linarith) (by rw [hsq.2]; linarith)
  rw [ho] at hg'
  cases hg'
  exact ⟨hwf, by rw [← gridToMaterial_eq_placedOn]; exact hat⟩

theorem sees_reset {cfg : SimCfg ℝ G O P Img} (hl : cfg.rng.Lawful) {s s' : Sim ℝ G O P}
    (h : SimInv s) {b : Bool} {o : Observation ℝ Img} (hs : Sim.reset cfg b s = .ok o s') :
    ∃ sheet, Sees s' sheet o ∧ sheet.positions = (cfg.generate s.ctx.g).1 := by
  obtain ⟨sheet, si, sc, hf⟩ := reset_ok hs
  obtain ⟨g, hsc⟩ := hf.scaleDraw
  have hu := hl.uniform_mem 15 30 g (by norm_num)
  rw [← hsc] at hu
  obtain ⟨hwf, hat⟩ := sees_atoms hf.matFlag hf.grid hf.doped hf.ofov hu.1 hf.ogrid
  have hinv := h.reset hl b (cfg := cfg)
  rw [hs] at hinv
  refine ⟨sheet, ⟨hinv, hf.grid, by rw [hf.fov, hf.ofov], hf.doped, hwf, hat, ?_⟩, hf.positions⟩
  intro si' hsi' p hx hy
  rw [← getSiliconPositions_eq_silicons hf.doped.wf, hf.silicon] at hsi'
  cases hsi'
  rw [hf.ofov]
  exact centredFov_mem (by linarith [hu.1]) (by linarith [hu.1])

/-- A reset dopes the generated sheet. -/
theorem reset_dopes {cfg : SimCfg ℝ G O P Img} {s s' : Sim ℝ G O P} {b : Bool} {o : Observation ℝ Img}
    (hs : Sim.reset cfg b s = .ok o s') {sheet : Grid ℝ} (hg : s'.ctx.mat.grid = some sheet) :
    dopeSheet (cfg.generate s.ctx.g).1 = .ok sheet := by
  unfold Sim.reset at hs
  simp only at hs
  cases hm : Material.reset cfg.generate s.ctx with
  | error e c => simp [hm] at hs
  | ok u c =>
    obtain ⟨h1, h2, sheet1, i, si, h3, h4, h5, h6, h7, h8, h9⟩ := materialReset_ok hm
    rw [hm] at hs
    simp only [h9, h3] at hs
    have hat : c.mat.getAtomsInBounds (centredFov si (cfg.rng.uniform 15 30 c.g).1).lowerLeft
        (centredFov si (cfg.rng.uniform 15 30 c.g).1).upperRight =
        .ok ((centredFov si (cfg.rng.uniform 15 30 c.g).1).gridToMicroscope
          ((centredFov si (cfg.rng.uniform 15 30 c.g).1).getAtomsInBounds sheet1 0)) :=
      Props.C04_agrees_with_material c.mat sheet1 h1 h3 _
    simp only [Sim.observe, hat] at hs
    have hs1 : sheet1 = sheet := by
      cases b <;> simp [Sim.maybeImage] at hs
      · obtain ⟨_, rfl⟩ := hs
        simpa [h3] using hg
      · obtain ⟨_, rfl⟩ := hs
        simpa [h3] using hg
    subst hs1
    unfold Material.reset at hm
    simp only at hm
    cases hd : dopeSheet (cfg.generate s.ctx.g).1 with
    | error e => simp [hd] at hm
    | ok g =>
      rw [hd] at hm
      simp only [EStateM.Result.ok.injEq] at hm
      obtain ⟨_, rfl⟩ := hm
      simpa using h3

/-- The doped atom is one nearest the origin. -/
theorem dopeSheet_nearest {ps : List (V2 ℝ)} {g : Grid ℝ} (h : dopeSheet ps = .ok g) :
    ∃ si, silicons g = [si] ∧ si ∈ ps ∧ ∀ p ∈ ps, V2.normSq si ≤ V2.normSq p := by
  obtain ⟨hpos, hd⟩ := dopeSheet_ok h
  unfold dopeSheet at h
  cases ha : argmin? (ps.map V2.normSq) with
  | none => simp [ha] at h
  | some i =>
    simp only [ha, Except.ok.injEq] at h
    obtain ⟨x, hx, l, r, hlr, h1, h2⟩ := argmin?_split ha
    obtain ⟨j, sj, hj, hn, hs⟩ := hd.exists_index
    rw [getSiliconPositions_eq_silicons hd.wf] at hs
    have hsx : x ∈ silicons g := by
      have hlt := (List.getElem?_eq_some_iff.1 hx).1
      simp only [silicons, Spec.atoms, List.mem_map, List.mem_filter, decide_eq_true_eq]
      have hz : (g.positions.zip g.numbers)[i]? = some (x, SILICON) := by
        rw [List.getElem?_zip_eq_some]
        refine ⟨by rw [hpos]; exact hx, ?_⟩
        rw [← h]
        simp [hlt]
      exact ⟨(x, SILICON), ⟨List.mem_of_getElem? hz, rfl⟩, rfl⟩
    rw [hs] at hsx
    have hxs : x = sj := by simpa using hsx
    subst hxs
    refine ⟨x, hs, List.mem_of_getElem? hx, ?_⟩
    intro p hp
    rw [hlr] at hp
    rcases List.mem_append.1 hp with hp | hp
    · exact (h1 p hp).le
    · rcases List.mem_cons.1 hp with rfl | hp
      · exact le_rfl
      · exact h2 p hp

theorem sees_step {cfg : SimCfg ℝ G O P Img} (hk : KeepsDoping cfg.rate) {s s' : Sim ℝ G O P}
    {sheet : Grid ℝ} {o0 o : Observation ℝ Img} (h : Sees s sheet o0)
    {cs : List (BeamControl ℝ)} {b : Bool} (hs : Sim.step cfg cs b s = .ok o s') :
    ∃ sheet', Sees s' sheet' o ∧ sheet'.positions = sheet.positions ∧ o.controls = cs ∧
      ∀ si si', silicons sheet = [si] → silicons sheet' = [si'] → Spec.dist si si' ≤ 11 / 2 →
        ∀ p, Spec.dist si p ≤ 2 → Inside o.fov.lowerLeft o.fov.upperRight p := by
  obtain ⟨fov, sheet1, c, sc, evs, evs', sheet', hfov, hg, hd, hsc, hc, h15, h30, happ, hobs, hmf, hg', hsc',
    hfov', hctl, himg, hatoms, hm⟩ := step_ok h.inv hs
  have : sheet1 = sheet := by rw [h.grid] at hg; cases hg; rfl
  subst this
  have : fov = o0.fov := by rw [h.fov] at hfov; cases hfov; rfl
  subst this
  obtain ⟨hd', hpos⟩ := happ.doped hk hd
  obtain ⟨i, si, hi, hn, hsi⟩ := hd'.exists_index
  have hread : s'.ctx.mat.read = .ok sheet' := by simp [Material.read, hmf, hg']
  have hinv := h.inv.step hk cs b (cfg := cfg)
  rw [hs] at hinv
  have hsi2 : silicons sheet' = [si] := by rw [← getSiliconPositions_eq_silicons hd'.wf, hsi]
  rcases hm with ⟨hsafe, hof, _, hel⟩ | ⟨si', grid1, hat1, hun, hsi', hof, _, hel⟩
  · obtain ⟨p, hp, hin⟩ := outside_false hsafe
    have hoc : o.fov = centredFov c sc := hof.trans hc
    obtain ⟨hwf, hat⟩ := sees_atoms hmf hg' hd' hoc h15 hatoms
    refine ⟨sheet', ⟨hinv, hg', hfov', hd', hwf, hat, ?_⟩, hpos, hctl, ?_⟩
    · intro sj hsj q hx hy
      rw [hsi2] at hsj
      cases hsj
      have hsq := centredFov_square c sc
      rw [← hoc] at hsq
      obtain ⟨_, hv⟩ := observed_silicons hd' hread hsi (f := o.fov)
        (by rw [hsq.1]; linarith) (by rw [hsq.2]; linarith) hatoms
      rw [hp] at hv
      split at hv
      · simp only [List.cons.injEq, and_true] at hv
        have hsc0 : (0 : ℝ) < sc := by linarith
        rw [hoc, centredFov_toMicroscope' c si hsc0] at hv
        subst hv
        obtain ⟨⟨a1, a2⟩, a3, a4⟩ := hin
        simp only at a1 a2 a3 a4
        have b1 : -(1 / 4) ≤ (si.x - c.x) / sc := by linarith
        have b2 : (si.x - c.x) / sc ≤ 1 / 4 := by linarith
        have b3 : -(1 / 4) ≤ (si.y - c.y) / sc := by linarith
        have b4 : (si.y - c.y) / sc ≤ 1 / 4 := by linarith
        rw [le_div_iff₀ hsc0] at b1 b3
        rw [div_le_iff₀ hsc0] at b2 b4
        rw [hoc]
        rw [abs_le] at hx hy
        apply centredFov_mem <;> rw [abs_le] <;> constructor <;> linarith
      · cases hv
    · intro s0 s1 hs0 hs1 _ q hq
      rw [hof]
      exact h.margin s0 hs0 q
        ((abs_x_le_dist q s0).trans (by rw [dist_comm']; linarith))
        ((abs_y_le_dist q s0).trans (by rw [dist_comm']; linarith))
  · have hsi3 : si' = si := by
      simp only [Material.getSiliconPosition, hread, hsi, Except.ok.injEq] at hsi'
      exact hsi'.symm
    subst hsi3
    obtain ⟨hwf, hat⟩ := sees_atoms hmf hg' hd' hof h15 hatoms
    refine ⟨sheet', ⟨hinv, hg', hfov', hd', hwf, hat, ?_⟩, hpos, hctl, ?_⟩
    · intro sj hsj q hx hy
      rw [hsi2] at hsj
      cases hsj
      rw [hof]
      exact centredFov_mem (by linarith) (by linarith)
    · intro s0 s1 hs0 hs1 hd q hq
      rw [hsi2] at hs1
      cases hs1
      rw [hof]
      have e1 := abs_x_le_dist s0 si'
      have e2 := abs_y_le_dist s0 si'
      have e3 := abs_x_le_dist s0 q
      have e4 := abs_y_le_dist s0 q
      rw [abs_le] at e1 e2 e3 e4
      apply centredFov_mem <;> rw [abs_le] <;> constructor <;> linarith [e1.1, e1.2]

theorem view_positions {V sheet : Grid ℝ} {ok : V2 ℝ → Prop} [DecidablePred ok] (hV : V.WF)
    (hS : sheet.WF) (h : Spec.atoms V = (Spec.atoms sheet).filter (fun a => decide (ok a.1))) :
    V.positions = sheet.positions.filter (fun p => decide (ok p)) := by
  have h1 : (Spec.atoms V).map Prod.fst = V.positions := by
    simp only [Spec.atoms]; exact List.map_fst_zip (le_of_eq hV)
  have h2 : (Spec.atoms sheet).map Prod.fst = sheet.positions := by
    simp only [Spec.atoms]; exact List.map_fst_zip (le_of_eq hS)
  rw [← h1, h, ← h2, List.filter_map]
  rfl

theorem view_silicons {V sheet : Grid ℝ} {ok : V2 ℝ → Prop} [DecidablePred ok]
    (h : Spec.atoms V = (Spec.atoms sheet).filter (fun a => decide (ok a.1))) :
    silicons V = (silicons sheet).filter (fun p => decide (ok p)) := by
  simp only [silicons, h, List.filter_map, List.filter_filter]
  congr 1
  apply List.filter_congr
  intro a _
  simp [Bool.and_comm]

theorem Sees.silicon {s : Sim ℝ G O P} {sheet : Grid ℝ} {o : Observation ℝ Img} (h : Sees s sheet o)
    {si : V2 ℝ} (hsi : silicons sheet = [si]) : silicons (placedOn o.fov o.grid) = [si] := by
  have hin := h.margin si hsi si (by simp; norm_num) (by simp; norm_num)
  rw [view_silicons (ok := fun p => Inside o.fov.lowerLeft o.fov.upperRight p) h.atoms, hsi]
  simp [hin]

theorem Sees.positions {s : Sim ℝ G O P} {sheet : Grid ℝ} {o : Observation ℝ Img} (h : Sees s sheet o) :
    (placedOn o.fov o.grid).positions =
      sheet.positions.filter (fun p => decide (Inside o.fov.lowerLeft o.fov.upperRight p)) :=
  view_positions (ok := fun p => Inside o.fov.lowerLeft o.fov.upperRight p) (placedOn_wf h.wf)
    h.doped.wf h.atoms

/-- One recorded step. -/
theorem step_told (knn : Knn ℝ) {cutoff : ℝ} (hcut : 0 ≤ cutoff) {cfg : SimCfg ℝ G O P Img}
    (hk : KeepsDoping cfg.rate) {s s' : Sim ℝ G O P} {sheet sheet' : Grid ℝ} {o0 o : Observation ℝ Img}
    (h : Sees s sheet o0) (hnd : sheet.positions.Nodup) {c : BeamControl ℝ} {b : Bool}
    (hs : Sim.step cfg [c] b s = .ok o s') (hg' : s'.ctx.mat.grid = some sheet')
    (hclean : Clean sheet sheet') {t : Transition ℝ Img} (hj : Joins t o0 o) (hc : t.controls = o.controls) :
    Sees s' sheet' o ∧ sheet'.positions = sheet.positions ∧
    ∃ si si' nbrs r, silicons sheet = [si] ∧ silicons sheet' = [si'] ∧
      Honeycomb sheet.positions si nbrs ∧ datapointOf knn cutoff t = .ok r ∧
      (∀ d, r = .inr d → (si' = si ∨ si' ∈ nbrs) ∧
        Tells si nbrs si' c (lerp o0.fov.lowerLeft o0.fov.upperRight c.position) d) ∧
      (∀ x, r = .inl x → x = .noSiliconNeighbor ∧ si' ≠ si ∧ si' ∉ nbrs) := by
  obtain ⟨sheet1, h1, hpos, hctl, hview⟩ := sees_step hk h hs
  have : sheet1 = sheet' := by have := h1.grid; rw [hg'] at this; cases this; rfl
  subst this
  obtain ⟨i, si, _, _, hsi⟩ := h.doped.exists_index
  obtain ⟨i', si', _, _, hsi'⟩ := h1.doped.exists_index
  rw [getSiliconPositions_eq_silicons h.doped.wf] at hsi
  rw [getSiliconPositions_eq_silicons h1.doped.wf] at hsi'
  obtain ⟨⟨nbrs, hH⟩, hdist⟩ := hclean si si' hsi hsi'
  refine ⟨h1, hpos, si, si', nbrs, ?_⟩
  have hmem : ∀ p, p ∈ (placedOn o0.fov o0.grid).positions ↔ p ∈ sheet.positions ∧
      Inside o0.fov.lowerLeft o0.fov.upperRight p := by
    intro p; rw [h.positions]; simp
  have hmem' : ∀ p, p ∈ (placedOn o.fov o.grid).positions ↔ p ∈ sheet.positions ∧
      Inside o.fov.lowerLeft o.fov.upperRight p := by
    intro p; rw [h1.positions, hpos]; simp
  have hin : ∀ p, Spec.dist si p ≤ 15 / 4 → Inside o0.fov.lowerLeft o0.fov.upperRight p := by
    intro p hp
    exact h.margin si hsi p ((abs_x_le_dist p si).trans (by rw [dist_comm']; exact hp))
      ((abs_y_le_dist p si).trans (by rw [dist_comm']; exact hp))
  have hin' := hview si si' hsi hsi' hdist
  have hHV : Honeycomb (placedOn o0.fov o0.grid).positions si nbrs := by
    refine ⟨(hmem si).2 ⟨hH.mem, hin si (by rw [dist_self']; norm_num)⟩, hH.three, hH.nodup, hH.other,
      fun p hp => ⟨(hmem p).2 ⟨(hH.bonds p hp).1, hin p (by linarith [(hH.bonds p hp).2])⟩, (hH.bonds p hp).2⟩,
      hH.apart, fun p hp => hH.far p ((hmem p).1 hp).1, ?_⟩
    obtain ⟨qs, hq1, hq2, hq3⟩ := hH.ten
    exact ⟨qs, hq1, hq2, fun q hq => ⟨(hmem q).2 ⟨(hq3 q hq).1, hin q (hq3 q hq).2⟩, (hq3 q hq).2⟩⟩
  have hBV : Bonded (placedOn o.fov o.grid).positions si nbrs := by
    have hb := hH.bonded
    exact ⟨(hmem' si).2 ⟨hH.mem, hin' si (by rw [dist_self']; norm_num)⟩, hH.three, hH.nodup, hH.other,
      fun p hp => ⟨(hmem' p).2 ⟨(hb.bonds p hp).1, hin' p (hb.bonds p hp).2.le⟩, (hb.bonds p hp).2⟩,
      fun p hp => hH.far p ((hmem' p).1 hp).1⟩
  have hb : placedOn t.fovBefore t.gridBefore = placedOn o0.fov o0.grid := by
    rw [hj.fovBefore, hj.gridBefore]
  have ha : placedOn t.fovAfter t.gridAfter = placedOn o.fov o.grid := by
    rw [hj.fovAfter, hj.gridAfter]
  obtain ⟨r, hr, hr1, hr2⟩ := datapoint_told knn hcut (t := t) (c := c) (si := si) (si' := si') (nbrs := nbrs)
    (by rw [hj.gridBefore]; exact h.wf) (by rw [hj.gridAfter]; exact h1.wf)
    (by rw [hb, h.positions]; exact hnd.filter _)
    (by rw [ha, h1.positions, hpos]; exact hnd.filter _)
    (by rw [hc, hctl]) (by rw [hb]; exact h.silicon hsi) (by rw [ha]; exact h1.silicon hsi')
    (by rw [hb]; exact hHV) (by rw [ha]; exact hBV)
  rw [hj.fovBefore] at hr1
  exact ⟨r, hsi, hsi', hH, hr, hr1, hr2⟩

end PD
