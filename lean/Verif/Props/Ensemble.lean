/- C85: the data of the members of an ensemble. -/
import Verif.Spec.Ensemble
import Verif.Props.Augment
import Verif.Props.Splits

set_option linter.unusedSectionVars false
set_option linter.unusedSimpArgs false

namespace PD.Props
open PD PD.Spec

theorem mapM_forall₂ {A B C : Type} {P : A → B → Prop} {Q : A → C → Prop} {f : B → Except Err C}
    (hf : ∀ a b, P a b → ∃ c, f b = .ok c ∧ Q a c) {as : List A} {bs : List B} (h : List.Forall₂ P as bs) :
    ∃ cs, bs.mapM f = .ok cs ∧ List.Forall₂ Q as cs := by
  induction h with
  | nil => exact ⟨[], rfl, .nil⟩
  | cons hab _ ih =>
    obtain ⟨c, hc, hq⟩ := hf _ _ hab
    obtain ⟨cs, hcs, hqs⟩ := ih
    refine ⟨c :: cs, ?_, .cons hq hqs⟩
    rw [List.mapM_cons, hc, hcs]
    rfl

theorem forall₂_self {A : Type} {P : A → A → Prop} {l : List A} (h : ∀ a ∈ l, P a a) : List.Forall₂ P l l := by
  induction l with
  | nil => exact .nil
  | cons a l ih => exact .cons (h a (by simp)) (ih (fun b hb => h b (by simp [hb])))

theorem samePhysics_refl (p : RatePoint) : SamePhysics 3 id p p :=
  ⟨Set.bijOn_id _, rfl, rfl, rfl, fun _ _ _ => rfl, fun _ _ => rfl, fun h => h, fun _ _ h => h⟩

/-- `d'` consists of the rows `idx` of `d`. -/
def IsTake (d : RateData) (idx : List ℕ) (d' : RateData) : Prop :=
  HasSize d' idx.length ∧ d'.context.isSome ∧ ∀ r, row d' r = (idx[r]?).bind (row d)

theorem isTake_take {d : RateData} {n : ℕ} (hn : HasSize d n) (hc : d.context.isSome) {idx : List ℕ}
    (hi : ∀ i ∈ idx, i < n) : ∃ d', d.take idx = .ok d' ∧ IsTake d idx d' := by
  obtain ⟨h1, h2, h3, h4, h5⟩ := hn
  obtain ⟨cs, hcs⟩ := Option.isSome_iff_exists.1 hc
  obtain ⟨a, ha⟩ := takeRows_inRange (rows := d.states) (idx := idx) (by rwa [h1])
  obtain ⟨b, hb⟩ := takeRows_inRange (rows := d.position) (idx := idx) (by rwa [h4])
  obtain ⟨e, he⟩ := takeRows_inRange (rows := d.dt) (idx := idx) (by rwa [h2])
  obtain ⟨f, hf⟩ := takeRows_inRange (rows := d.rates) (idx := idx) (by rwa [h3])
  obtain ⟨g, hg⟩ := takeRows_inRange (rows := cs) (idx := idx) (by rwa [h5 cs hcs])
  refine ⟨⟨a, e, f, b, some g⟩, by
    simp only [RateData.take, ha, hb, he, hf, hcs, hg, bind, Except.bind, pure, Except.pure], ?_⟩
  obtain ⟨la, ga⟩ := takeRows_ok ha
  obtain ⟨lb, gb⟩ := takeRows_ok hb
  obtain ⟨le, ge⟩ := takeRows_ok he
  obtain ⟨lf, gf⟩ := takeRows_ok hf
  obtain ⟨lg, gg⟩ := takeRows_ok hg
  refine ⟨⟨la, le, lf, lb, ?_⟩, rfl, ?_⟩
  · intro cs' h
    simp only [Option.some.injEq] at h
    rw [← h, lg]
  · intro r
    simp only [row, ga, gb, ge, gf, gg, hcs]
    cases idx[r]? with
    | none => rfl
    | some i => simp only [Option.bind_some, row, hcs]

theorem isTake_whole {d : RateData} {n : ℕ} (hn : HasSize d n) (hc : d.context.isSome) :
    IsTake d (List.range n) d := by
  refine ⟨by rwa [List.length_range], hc, fun r => ?_⟩
  by_cases hr : r < n
  · simp [hr]
  · have : row d r = none := by
      rw [← Option.not_isSome_iff_eq_none, hasSize_row hn]
      exact hr
    simp [this, hr]

/-- `d'` consists of `c` symmetric copies of each of the rows `idx` of `d`. -/
def IsAug (c : ℕ) (d : RateData) (idx : List ℕ) (d' : RateData) : Prop :=
  HasSize d' (c * idx.length) ∧ d'.context.isSome ∧
  (∀ r p', row d' r = some p' → ∃ i ∈ idx, ∃ p σ, row d i = some p ∧ SamePhysics 3 σ p p') ∧
  (∀ i ∈ idx, ∃ r p' p σ, row d' r = some p' ∧ row d i = some p ∧ SamePhysics 3 σ p p')

theorem augment_context {d d' : RateData} (h : augmentData true 3 d = .ok d') (hc : d.context.isSome) :
    d'.context.isSome := by
  obtain ⟨cs, hcs⟩ := Option.isSome_iff_exists.1 hc
  unfold augmentData at h
  rw [if_pos rfl] at h
  split at h
  · cases h
  · rename_i r hr
    have hrc : r.context = d.context := by
      unfold reflectDataset at hr
      split at hr
      · cases hr
      split at hr
      · cases hr
      rw [Except.ok.injEq] at hr
      rw [← hr]
    unfold rotateDataset at h
    split at h
    · cases h
    split at h
    · cases h
    rw [Except.ok.injEq] at h
    rw [← h]
    simp [RateData.append, hrc, hcs]

theorem isAug_augment {d d' : RateData} {idx : List ℕ} (hi : ∀ i ∈ idx, (row d i).isSome)
    (hv : ∀ i p, row d i = some p → Valid 3 p) (h : IsTake d idx d') :
    ∃ d'', augmentData true 3 d' = .ok d'' ∧ IsAug 6 d idx d'' := by
  obtain ⟨hs, hc, hrow⟩ := h
  have hv' : ∀ r p, row d' r = some p → Valid 3 p := by
    intro r p hp
    rw [hrow, Option.bind_eq_some_iff] at hp
    obtain ⟨i, -, hp⟩ := hp
    exact hv i p hp
  obtain ⟨d'', h1, h2, h3⟩ := C43_augment idx.length d' hs hv'
  refine ⟨d'', h1, h2, augment_context h1 hc, ?_, ?_⟩
  · intro r p' hp'
    have hr : r < 6 * idx.length := (hasSize_row h2 r).1 (by rw [hp']; rfl)
    have hd : 3 * (r / 3) + r % 3 = r := Nat.div_add_mod r 3
    have hm : r % 3 < 3 := Nat.mod_lt _ (by norm_num)
    by_cases hlt : r / 3 < idx.length
    · obtain ⟨p, hp⟩ := Option.isSome_iff_exists.1 ((hasSize_row hs (r / 3)).2 hlt)
      obtain ⟨q, hq, -, hsame⟩ := (h3 (r / 3) p hp (r % 3) hm).1
      rw [hd, hp', Option.some.injEq] at hq
      rw [hrow, Option.bind_eq_some_iff] at hp
      obtain ⟨i, hii, hp⟩ := hp
      exact ⟨i, List.mem_of_getElem? hii, p, _, hp, hq ▸ hsame⟩
    · have hlt' : r / 3 - idx.length < idx.length := by omega
      obtain ⟨p, hp⟩ := Option.isSome_iff_exists.1 ((hasSize_row hs _).2 hlt')
      obtain ⟨q, hq, -, hsame⟩ := (h3 _ p hp (r % 3) hm).2
      rw [show idx.length + (r / 3 - idx.length) = r / 3 by omega, hd, hp', Option.some.injEq] at hq
      rw [hrow, Option.bind_eq_some_iff] at hp
      obtain ⟨i, hii, hp⟩ := hp
      exact ⟨i, List.mem_of_getElem? hii, p, _, hp, hq ▸ hsame⟩
  · intro i hmem
    obtain ⟨r, hr⟩ := List.mem_iff_getElem?.1 hmem
    obtain ⟨p, hp⟩ := Option.isSome_iff_exists.1 (hi i hmem)
    obtain ⟨q, hq, -, hsame⟩ := (h3 r p (by rw [hrow, hr]; exact hp) 0 (by norm_num)).1
    exact ⟨_, q, p, _, hq, hp, hsame⟩

theorem isAug_self {d d' : RateData} {idx : List ℕ} (hi : ∀ i ∈ idx, (row d i).isSome)
    (h : IsTake d idx d') : IsAug 1 d idx d' := by
  obtain ⟨hs, hc, hrow⟩ := h
  refine ⟨by rwa [one_mul], hc, ?_, ?_⟩
  · intro r p hp
    rw [hrow, Option.bind_eq_some_iff] at hp
    obtain ⟨i, hii, hp⟩ := hp
    exact ⟨i, List.mem_of_getElem? hii, p, id, hp, samePhysics_refl p⟩
  · intro i hmem
    obtain ⟨r, hr⟩ := List.mem_iff_getElem?.1 hmem
    obtain ⟨p, hp⟩ := Option.isSome_iff_exists.1 (hi i hmem)
    exact ⟨r, p, p, id, by rw [hrow, hr]; exact hp, hp, samePhysics_refl p⟩

/-- The number of copies of each example. -/
def copies (augment : Bool) : ℕ := if augment then 6 else 1

theorem augmentMembers_ok (augment : Bool) {d : RateData} (hv : ∀ i p, row d i = some p → Valid 3 p)
    {idxs : List (List ℕ)} {ds : List RateData}
    (h : List.Forall₂ (fun idx d' => (∀ i ∈ idx, (row d i).isSome) ∧ IsTake d idx d') idxs ds) :
    ∃ ds', augmentMembers augment ds = .ok ds' ∧ List.Forall₂ (IsAug (copies augment) d) idxs ds' := by
  cases augment with
  | true => exact mapM_forall₂ (fun idx d' hd => isAug_augment hd.1 hv hd.2) h
  | false => exact ⟨ds, rfl, h.imp (fun idx d' hd => isAug_self hd.1 hd.2)⟩

theorem row_truncate (k : ℕ) (d : RateData) (r : ℕ) :
    row (d.truncate k) r = if r < k then row d r else none := by
  by_cases hr : r < k
  · rw [if_pos hr]
    simp only [row, RateData.truncate, List.getElem?_take, hr, if_true]
    cases d.context with
    | none => rfl
    | some cs => simp only [Option.map_some, List.getElem?_take, hr, if_true]
  · rw [if_neg hr]
    simp [row, RateData.truncate, List.getElem?_take, hr]

theorem hasSize_truncate {d : RateData} {n k : ℕ} (hn : HasSize d n) (hk : k ≤ n) : HasSize (d.truncate k) k := by
  obtain ⟨h1, h2, h3, h4, h5⟩ := hn
  refine ⟨?_, ?_, ?_, ?_, ?_⟩
  · simp [RateData.truncate, h1, hk]
  · simp [RateData.truncate, h2, hk]
  · simp [RateData.truncate, h3, hk]
  · simp [RateData.truncate, h4, hk]
  · intro cs hc
    simp only [RateData.truncate, Option.map_eq_some_iff] at hc
    obtain ⟨c, hc, rfl⟩ := hc
    simp [h5 c hc, hk]

theorem sameLength_of {α : Type} {arrays : List (List α)} {n : ℕ} (hne : arrays ≠ [])
    (h : ∀ a ∈ arrays, a.length = n) : sameLength arrays = true := by
  match arrays with
  | [] => exact absurd rfl hne
  | a :: rest =>
    simp only [sameLength, List.all_eq_true, beq_iff_eq]
    intro b hb
    rw [h a (by simp), h b (by simp [hb])]

/-- What a member gets of a data set. -/
def joined (d : RateData) : MemberData where
  states := d.states
  dt := d.dt
  rates := d.rates
  context := List.zipWith (fun c (p : V2 ℝ) => c ++ [p.x, p.y]) (d.context.getD []) d.position

theorem stackMembers_ok {ds : List RateData} {n : ℕ} (hne : ds ≠ [])
    (h : ∀ d ∈ ds, HasSize d n ∧ d.context.isSome) : stackMembers ds = .ok (ds.map joined) := by
  have e : ∀ {α : Type} (f : RateData → List α), (∀ d ∈ ds, (f d).length = n) →
      sameLength (ds.map f) = true := by
    intro α f hf
    apply sameLength_of (n := n) (by simpa using hne)
    intro a ha
    obtain ⟨d, hd, rfl⟩ := List.mem_map.1 ha
    exact hf d hd
  unfold stackMembers
  rw [e _ (fun d hd => (h d hd).1.1), e _ (fun d hd => (h d hd).1.2.1), e _ (fun d hd => (h d hd).1.2.2.1),
    e _ (fun d hd => (h d hd).1.2.2.2.1), e _ (fun d hd => ?_)]
  · rfl
  · obtain ⟨hs, hc⟩ := h d hd
    obtain ⟨cs, hcs⟩ := Option.isSome_iff_exists.1 hc
    rw [hcs]
    exact hs.2.2.2.2 cs hcs

theorem memberSize_joined {d : RateData} {n : ℕ} (hs : HasSize d n) (hc : d.context.isSome) :
    MemberSize (joined d) n := by
  obtain ⟨h1, h2, h3, h4, h5⟩ := hs
  obtain ⟨cs, hcs⟩ := Option.isSome_iff_exists.1 hc
  refine ⟨h1, h2, h3, ?_⟩
  simp [joined, hcs, h5 cs hcs, h4]

theorem memberRow_joined {d : RateData} (hc : d.context.isSome) (r : ℕ) (q : MemberPoint) :
    memberRow (joined d) r = some q ↔ ∃ p c, row d r = some p ∧ p.context = some c ∧
      q = ⟨p.state, p.dt, p.rates, c ++ [p.position.x, p.position.y]⟩ := by
  obtain ⟨cs, hcs⟩ := Option.isSome_iff_exists.1 hc
  simp only [memberRow, joined, row, hcs, Option.getD_some, List.getElem?_zipWith]
  cases d.states[r]? with
  | none => simp
  | some s =>
    cases d.dt[r]? with
    | none => simp
    | some t =>
      cases d.rates[r]? with
      | none => simp
      | some x =>
        cases d.position[r]? with
        | none => cases cs[r]? <;> simp
        | some p =>
          cases cs[r]? with
          | none => simp
          | some c => simp [eq_comm]

theorem memberSplits_ok (draws : List (ℕ → List ℕ)) (listOfSet : List ℕ → List ℕ)
    (hset : ∀ l, (listOfSet l).Perm l) (bootstrap : Bool) (fraction : ℝ)
    (hf : bootstrap = false → 0 ≤ fraction ∧ fraction < 1) {d : RateData} {n : ℕ} (hn : HasSize d n)
    (hc : d.context.isSome) (hdraws : ∀ draw ∈ draws, MemberDraw bootstrap n draw) :
    ∃ pairs idxs, memberSplits draws listOfSet bootstrap fraction d = .ok pairs ∧
      List.Forall₂ (MemberRows bootstrap fraction n) draws idxs ∧
      List.Forall₂ (fun idx pair => IsTake d idx.1 pair.1 ∧ IsTake d idx.2 pair.2) idxs pairs := by
  have lift : ∀ f : (ℕ → List ℕ) → Except Err (RateData × RateData),
      (∀ draw, MemberDraw bootstrap n draw → ∃ idx pair, f draw = .ok pair ∧ MemberRows bootstrap fraction n draw idx ∧
        IsTake d idx.1 pair.1 ∧ IsTake d idx.2 pair.2) → ∀ ds : List (ℕ → List ℕ),
      (∀ draw ∈ ds, MemberDraw bootstrap n draw) →
      ∃ pairs idxs, ds.mapM f = .ok pairs ∧ List.Forall₂ (MemberRows bootstrap fraction n) ds idxs ∧
        List.Forall₂ (fun idx pair => IsTake d idx.1 pair.1 ∧ IsTake d idx.2 pair.2) idxs pairs := by
    intro f hf ds
    induction ds with
    | nil => intro _; exact ⟨[], [], rfl, .nil, .nil⟩
    | cons draw ds ih =>
      intro h
      obtain ⟨idx, pair, h1, h2, h3⟩ := hf draw (h draw (by simp))
      obtain ⟨pairs, idxs, g1, g2, g3⟩ := ih (fun x hx => h x (by simp [hx]))
      refine ⟨pair :: pairs, idx :: idxs, ?_, .cons h2 g2, .cons h3 g3⟩
      rw [List.mapM_cons, h1, g1]
      rfl
  have hl : d.states.length = n := hn.1
  unfold memberSplits
  cases bootstrap with
  | true =>
    rw [if_pos rfl]
    apply lift _ _ draws hdraws
    intro draw hd
    obtain ⟨h1, h2, i, hi, hni⟩ := hd
    have hp := hset ((List.range n).filter (fun i => decide (i ∉ draw n)))
    have hmem : ∀ i, i ∈ listOfSet ((List.range n).filter (fun i => decide (i ∉ draw n))) ↔
        i < n ∧ i ∉ draw n := by
      intro i
      rw [hp.mem_iff]
      simp
    obtain ⟨tr, htr, itr⟩ := isTake_take hn hc h2
    obtain ⟨te, hte, ite⟩ := isTake_take hn hc (fun i hi => ((hmem i).1 hi).1)
    refine ⟨(_, _), (tr, te), ?_, ⟨h2, fun i hi => ((hmem i).1 hi).1, fun _ => ⟨rfl, hmem⟩, ?_, ?_⟩, itr, ite⟩
    · simp only [bootstrapRateData, hl, htr, bind, Except.bind]
      rw [if_neg, hte]
      · rfl
      · intro h0
        have := (hmem i).2 ⟨hi, hni⟩
        rw [h0] at this
        cases this
    · simp
    · simp
  | false =>
    obtain ⟨f0, f1⟩ := hf rfl
    simp only [Bool.false_eq_true, if_false]
    rcases f0.lt_or_eq with hpos | hzero
    · rw [if_pos ⟨f1, hpos⟩]
      apply lift _ _ draws hdraws
      intro draw hd
      have hp : (draw n).Perm (List.range n) := by simpa [MemberDraw] using hd
      have hlen : (draw n).length = n := by simpa using hp.length_eq
      have hlt : ∀ i ∈ draw n, i < n := fun i hi => List.mem_range.1 (hp.mem_iff.1 hi)
      set cut := sliceBound n (pyInt ((n : ℝ) * fraction)) with hcut
      obtain ⟨tr, htr, itr⟩ := isTake_take hn hc (idx := (draw n).drop cut)
        (fun i hi => hlt i (List.mem_of_mem_drop hi))
      obtain ⟨te, hte, ite⟩ := isTake_take hn hc (idx := (draw n).take cut)
        (fun i hi => hlt i (List.mem_of_mem_take hi))
      refine ⟨((draw n).drop cut, (draw n).take cut), (tr, te), ?_,
        ⟨fun i hi => hlt i (List.mem_of_mem_drop hi), fun i hi => hlt i (List.mem_of_mem_take hi), by simp,
          fun _ _ => ⟨?_, ?_⟩, fun _ h0 => absurd h0 hpos.ne'⟩, itr, ite⟩
      · simp only [splitRateData, hl, ← hcut, htr, hte, bind, Except.bind, pure, Except.pure]
      · refine List.perm_append_comm.trans ?_
        rw [List.take_append_drop]
        exact hp
      · have hx : (0 : ℝ) ≤ n * fraction := mul_nonneg (Nat.cast_nonneg n) f0
        have hfl : 0 ≤ ⌊(n : ℝ) * fraction⌋ := Int.floor_nonneg.2 hx
        have hfn : ⌊(n : ℝ) * fraction⌋ ≤ n := by
          have h2 : (n : ℝ) * fraction ≤ n := by
            calc (n : ℝ) * fraction ≤ n * 1 := mul_le_mul_of_nonneg_left f1.le (Nat.cast_nonneg n)
              _ = n := mul_one _
          have := Int.floor_le_floor h2
          rwa [Int.floor_natCast] at this
        have hcv : cut = ⌊(n : ℝ) * fraction⌋.toNat := by
          rw [hcut, sliceBound, pyInt, if_pos hx, if_neg (by omega)]
          omega
        rw [List.length_take, hlen, hcv]
        omega
    · rw [if_neg (by rintro ⟨-, h⟩; exact absurd h (by rw [← hzero]; exact lt_irrefl _)), if_pos hzero.symm]
      have w := isTake_whole hn hc
      clear hdraws
      refine ⟨_, draws.map (fun _ => (List.range n, List.range n)), rfl, ?_, ?_⟩
      · induction draws with
        | nil => exact .nil
        | cons a l ih =>
          refine .cons ⟨by simp, by simp, by simp, fun _ h => absurd h (by rw [← hzero]; exact lt_irrefl _),
            fun _ _ => rfl⟩ ih
      · induction draws with
        | nil => exact .nil
        | cons a l ih => exact .cons ⟨w, w⟩ ih

theorem forall₂_get {A B : Type} {P : A → B → Prop} {as : List A} {bs : List B} (h : List.Forall₂ P as bs)
    {m : ℕ} {b : B} (hb : bs[m]? = some b) : ∃ a, as[m]? = some a ∧ P a b := by
  induction h generalizing m with
  | nil => simp at hb
  | cons hab _ ih =>
    cases m with
    | zero => simp only [List.getElem?_cons_zero, Option.some.injEq] at hb; subst hb; exact ⟨_, rfl, hab⟩
    | succ m => exact ih (by simpa using hb)

/-- With enough data for each member: all members get equally many training rows and equally many test rows
(as many as the member with the fewest has), every row is a symmetric copy of one example chosen for that use,
every example chosen for training appears, and examples are not chosen for both uses when testing on unseen
examples was asked for. -/
theorem C85_members (draws : List (ℕ → List ℕ)) (hne : draws ≠ []) (listOfSet : List ℕ → List ℕ)
    (hset : ∀ l, (listOfSet l).Perm l) (bootstrap augment : Bool) (fraction : ℝ)
    (hf : bootstrap = false → 0 ≤ fraction ∧ fraction < 1) (d : RateData) (n : ℕ) (hn : HasSize d n)
    (hc : d.context.isSome) (hv : ∀ i p, row d i = some p → Valid 3 p)
    (hdraws : ∀ draw ∈ draws, MemberDraw bootstrap n draw) :
    ∃ (trains tests : List MemberData) (idxs : List (List ℕ × List ℕ)) (N M : ℕ),
      createDatasetSplits draws listOfSet bootstrap augment fraction d = .ok (trains, tests) ∧
      trains.length = draws.length ∧ tests.length = draws.length ∧
      List.Forall₂ (MemberRows bootstrap fraction n) draws idxs ∧
      (∀ train ∈ trains, MemberSize train N) ∧ (∀ test ∈ tests, MemberSize test M) ∧
      (∀ idx ∈ idxs, N = (if augment then 6 else 1) * idx.1.length ∧
        M ≤ (if augment then 6 else 1) * idx.2.length) ∧
      (∃ idx ∈ idxs, M = (if augment then 6 else 1) * idx.2.length) ∧
      ∀ (m : ℕ) (idx : List ℕ × List ℕ), idxs[m]? = some idx → ∃ train test, trains[m]? = some train ∧ tests[m]? = some test ∧
        CopiesOf d idx.1 train ∧ CopiesOf d idx.2 test ∧
        (∀ i ∈ idx.1, ∃ r q p, memberRow train r = some q ∧ row d i = some p ∧ IsCopy p q) ∧
        (bootstrap = true ∨ 0 < fraction → ∀ i ∈ idx.1, i ∉ idx.2) := by
  obtain ⟨pairs, idxs, hsplit, hgood, htake⟩ :=
    memberSplits_ok draws listOfSet hset bootstrap fraction hf hn hc hdraws
  have hsome : ∀ {idx : List ℕ}, (∀ i ∈ idx, i < n) → ∀ i ∈ idx, (row d i).isSome :=
    fun h i hi => (hasSize_row hn i).2 (h i hi)
  have hgm : ∀ idx ∈ idxs, ∃ draw ∈ draws, MemberRows bootstrap fraction n draw idx := by
    intro idx hi
    obtain ⟨m, hm⟩ := List.mem_iff_getElem?.1 hi
    obtain ⟨a, ha, hp⟩ := forall₂_get hgood hm
    exact ⟨a, List.mem_of_getElem? ha, hp⟩
  have hl1 : idxs.length = draws.length := hgood.length_eq.symm
  have hl2 : pairs.length = idxs.length := htake.length_eq.symm
  have htr : List.Forall₂ (fun idx d' => (∀ i ∈ idx, (row d i).isSome) ∧ IsTake d idx d')
      (idxs.map Prod.fst) (pairs.map Prod.fst) := by
    rw [List.forall₂_map_left_iff, List.forall₂_map_right_iff]
    refine List.forall₂_iff_get.2 ⟨htake.length_eq, fun i h1 h2 => ?_⟩
    obtain ⟨_, _, hg⟩ := hgm _ (List.get_mem idxs ⟨i, h1⟩)
    exact ⟨hsome hg.1, (htake.get h1 h2).1⟩
  have hte : List.Forall₂ (fun idx d' => (∀ i ∈ idx, (row d i).isSome) ∧ IsTake d idx d')
      (idxs.map Prod.snd) (pairs.map Prod.snd) := by
    rw [List.forall₂_map_left_iff, List.forall₂_map_right_iff]
    refine List.forall₂_iff_get.2 ⟨htake.length_eq, fun i h1 h2 => ?_⟩
    obtain ⟨_, _, hg⟩ := hgm _ (List.get_mem idxs ⟨i, h1⟩)
    exact ⟨hsome hg.2.1, (htake.get h1 h2).2⟩
  obtain ⟨trains, htrains, atr⟩ := augmentMembers_ok augment hv htr
  obtain ⟨tests, htests, ate⟩ := augmentMembers_ok augment hv hte
  have lt1 : trains.length = idxs.length := by simpa using atr.length_eq.symm
  have lt2 : tests.length = idxs.length := by simpa using ate.length_eq.symm
  have hne' : idxs ≠ [] := by
    intro h
    rw [h] at hl1
    exact hne (List.length_eq_zero_iff.1 hl1.symm)
  -- sizes of the test sets
  have hsizes : tests.mapM contextRows = .ok (idxs.map (fun idx => copies augment * idx.2.length)) := by
    obtain ⟨cs, h1, h2⟩ := mapM_forall₂ (f := contextRows)
      (Q := fun (idx : List ℕ) (k : ℕ) => k = copies augment * idx.length) (fun idx d' hd => by
        obtain ⟨c, hcs⟩ := Option.isSome_iff_exists.1 hd.2.1
        exact ⟨c.length, by simp [contextRows, hcs], hd.1.2.2.2.2 c hcs⟩) ate
    rw [h1]
    congr 1
    rw [List.forall₂_map_left_iff] at h2
    clear * - h2
    induction h2 with
    | nil => rfl
    | cons h _ ih => rw [List.map_cons, ih, h]
  obtain ⟨M, hM⟩ : ∃ M, (idxs.map (fun idx => copies augment * idx.2.length)).min? = some M := by
    cases h : (idxs.map (fun idx => copies augment * idx.2.length)).min? with
    | none => rw [List.min?_eq_none_iff, List.map_eq_nil_iff] at h; exact absurd h hne'
    | some M => exact ⟨M, rfl⟩
  obtain ⟨hMmem, hMle⟩ := List.min?_eq_some_iff.1 hM
  -- sizes of the training sets
  obtain ⟨L, hL⟩ : ∃ L, ∀ idx ∈ idxs, idx.1.length = L := by
    cases hb : bootstrap with
    | true =>
      refine ⟨n, fun idx hi => ?_⟩
      obtain ⟨draw, hd, hg⟩ := hgm idx hi
      rw [(hg.2.2.1 hb).1]
      have := hdraws draw hd
      rw [hb] at this
      exact this.1
    | false =>
      rcases (hf hb).1.lt_or_eq with hpos | hzero
      · refine ⟨n - ⌊(n : ℝ) * fraction⌋.toNat, fun idx hi => ?_⟩
        obtain ⟨draw, hd, hg⟩ := hgm idx hi
        obtain ⟨h1, h2⟩ := hg.2.2.2.1 hb hpos
        have := h1.length_eq
        simp only [List.length_append, List.length_range] at this
        omega
      · refine ⟨n, fun idx hi => ?_⟩
        obtain ⟨draw, hd, hg⟩ := hgm idx hi
        rw [hg.2.2.2.2 hb hzero.symm]
        simp
  have htrain_all : ∀ t ∈ trains, HasSize t (copies augment * L) ∧ t.context.isSome := by
    intro t ht
    obtain ⟨m, hm⟩ := List.mem_iff_getElem?.1 ht
    obtain ⟨idx, hidx, ha⟩ := forall₂_get atr hm
    rw [List.getElem?_map, Option.map_eq_some_iff] at hidx
    obtain ⟨pi, hpi, rfl⟩ := hidx
    rw [← hL pi (List.mem_of_getElem? hpi)]
    exact ⟨ha.1, ha.2.1⟩
  have htest_all : ∀ t ∈ tests.map (RateData.truncate M), HasSize t M ∧ t.context.isSome := by
    intro t ht
    obtain ⟨t, ht', rfl⟩ := List.mem_map.1 ht
    obtain ⟨m, hm⟩ := List.mem_iff_getElem?.1 ht'
    obtain ⟨idx, hidx, ha⟩ := forall₂_get ate hm
    rw [List.getElem?_map, Option.map_eq_some_iff] at hidx
    obtain ⟨pi, hpi, rfl⟩ := hidx
    refine ⟨hasSize_truncate ha.1 (hMle _ (List.mem_map.2 ⟨pi, List.mem_of_getElem? hpi, rfl⟩)), ?_⟩
    obtain ⟨c, hcs⟩ := Option.isSome_iff_exists.1 ha.2.1
    simp [RateData.truncate, hcs]
  have ne1 : trains ≠ [] := by
    intro h; rw [h] at lt1; exact hne' (List.length_eq_zero_iff.1 lt1.symm)
  have ne2 : tests.map (RateData.truncate M) ≠ [] := by
    intro h
    rw [List.map_eq_nil_iff] at h
    rw [h] at lt2; exact hne' (List.length_eq_zero_iff.1 lt2.symm)
  refine ⟨trains.map joined, (tests.map (RateData.truncate M)).map joined, idxs, copies augment * L, M, ?_, ?_, ?_,
    hgood, ?_, ?_, ?_, ?_, ?_⟩
  · unfold createDatasetSplits
    simp only [hsplit, htrains, htests, hsizes, hM, stackMembers_ok ne1 htrain_all,
      stackMembers_ok ne2 htest_all, bind, Except.bind, pure, Except.pure]
  · rw [List.length_map, lt1, hl1]
  · rw [List.length_map, List.length_map, lt2, hl1]
  · intro t ht
    obtain ⟨t, ht', rfl⟩ := List.mem_map.1 ht
    exact memberSize_joined (htrain_all t ht').1 (htrain_all t ht').2
  · intro t ht
    obtain ⟨t, ht', rfl⟩ := List.mem_map.1 ht
    exact memberSize_joined (htest_all t ht').1 (htest_all t ht').2
  · intro idx hi
    exact ⟨by rw [hL idx hi]; rfl, hMle _ (List.mem_map.2 ⟨idx, hi, rfl⟩)⟩
  · obtain ⟨idx, hi, he⟩ := List.mem_map.1 hMmem
    exact ⟨idx, hi, he.symm⟩
  · intro m idx hm
    have hml : m < idxs.length := (List.getElem?_eq_some_iff.1 hm).1
    have gtr : trains[m]? = some trains[m] := List.getElem?_eq_getElem (by omega)
    have gte : tests[m]? = some tests[m] := List.getElem?_eq_getElem (by omega)
    obtain ⟨i1, hi1, a1⟩ := forall₂_get atr gtr
    obtain ⟨i2, hi2, a2⟩ := forall₂_get ate gte
    rw [List.getElem?_map, hm, Option.map_some, Option.some.injEq] at hi1 hi2
    subst hi1 hi2
    refine ⟨joined trains[m], joined (tests[m].truncate M), by simp [gtr], by simp [gte], ?_, ?_, ?_, ?_⟩
    · intro r q hq
      obtain ⟨p', c, hp', hctx, rfl⟩ := (memberRow_joined a1.2.1 r q).1 hq
      obtain ⟨i, hi, p, σ, hp, hs⟩ := a1.2.2.1 r p' hp'
      exact ⟨i, hi, p, hp, σ, p', hs, rfl, rfl, rfl, c, hctx, rfl⟩
    · intro r q hq
      have hcs : (tests[m].truncate M).context.isSome := by
        obtain ⟨c, hcs⟩ := Option.isSome_iff_exists.1 a2.2.1
        simp [RateData.truncate, hcs]
      obtain ⟨p', c, hp', hctx, rfl⟩ := (memberRow_joined hcs r q).1 hq
      rw [row_truncate] at hp'
      split at hp'
      · obtain ⟨i, hi, p, σ, hp, hs⟩ := a2.2.2.1 r p' hp'
        exact ⟨i, hi, p, hp, σ, p', hs, rfl, rfl, rfl, c, hctx, rfl⟩
      · cases hp'
    · intro i hi
      obtain ⟨r, p', p, σ, hp', hp, hs⟩ := a1.2.2.2 i hi
      have : ∃ c, p'.context = some c := by
        obtain ⟨cs, hcs⟩ := Option.isSome_iff_exists.1 a1.2.1
        unfold row at hp'
        rw [hcs] at hp'
        split at hp'
        · simp only [Option.map_eq_some_iff] at hp'
          obtain ⟨c, -, rfl⟩ := hp'
          exact ⟨c, rfl⟩
        · cases hp'
      obtain ⟨c, hctx⟩ := this
      exact ⟨r, _, p, (memberRow_joined a1.2.1 r _).2 ⟨p', c, hp', hctx, rfl⟩, hp, σ, p', hs, rfl, rfl, rfl,
        c, hctx, rfl⟩
    · intro hor i h1 h2
      obtain ⟨draw, hd, hg⟩ := hgm idx (List.mem_of_getElem? hm)
      cases hb : bootstrap with
      | true =>
        obtain ⟨e, h⟩ := hg.2.2.1 hb
        rw [e] at h1
        exact ((h i).1 h2).2 h1
      | false =>
        have hpos : 0 < fraction := by
          rcases hor with h | h
          · rw [hb] at h; cases h
          · exact h
        have hnd := (hg.2.2.2.1 hb hpos).1.nodup_iff.2 List.nodup_range
        exact (List.nodup_append.1 hnd).2.2 i h1 i h2 rfl

theorem take_none {d : RateData} (hc : d.context = none) (idx : List ℕ) : ∃ e, d.take idx = .error e := by
  unfold RateData.take
  simp only [hc, bind, Except.bind]
  repeat' first
    | split
    | exact ⟨_, rfl⟩

theorem mapM_all {A B : Type} {f : A → Except Err B} {Q : B → Prop} {as : List A} {bs : List B}
    (h : as.mapM f = .ok bs) (hf : ∀ a ∈ as, ∀ b, f a = .ok b → Q b) : ∀ b ∈ bs, Q b := by
  induction as generalizing bs with
  | nil =>
    simp only [List.mapM_nil, pure, Except.pure, Except.ok.injEq] at h
    subst h
    simp
  | cons a as ih =>
    rw [List.mapM_cons] at h
    cases ha : f a with
    | error e => rw [ha] at h; cases h
    | ok b =>
      cases hm : as.mapM f with
      | error e => rw [ha, hm] at h; cases h
      | ok rest =>
        rw [ha, hm] at h
        simp only [bind, Except.bind, pure, Except.pure, Except.ok.injEq] at h
        subst h
        intro x hx
        rcases List.mem_cons.1 hx with rfl | hx
        · exact hf a (by simp) x ha
        · exact ih hm (fun y hy => hf y (by simp [hy])) x hx

theorem augment_none {d d' : RateData} (h : augmentData true 3 d = .ok d') (hc : d.context = none) :
    d'.context = none := by
  unfold augmentData at h
  rw [if_pos rfl] at h
  split at h
  · cases h
  · unfold rotateDataset at h
    split at h
    · cases h
    split at h
    · cases h
    rw [Except.ok.injEq] at h
    rw [← h]
    simp [RateData.append, hc]

/-- Without a context (neither current nor voltage nor dwell time used) there are no members' data at all,
whatever is drawn. -/
theorem C85_no_context (draws : List (ℕ → List ℕ)) (listOfSet : List ℕ → List ℕ)
    (bootstrap augment : Bool) (fraction : ℝ) (d : RateData) (hc : d.context = none) :
    ∃ e, createDatasetSplits draws listOfSet bootstrap augment fraction d = .error e := by
  unfold createDatasetSplits
  cases hs : memberSplits draws listOfSet bootstrap fraction d with
  | error e => exact ⟨e, rfl⟩
  | ok pairs =>
    have h1 : ∀ p ∈ pairs, p.2.context = none := by
      unfold memberSplits at hs
      split at hs
      · apply mapM_all (Q := fun p => p.2.context = none) hs
        intro draw _ p hp
        obtain ⟨e, he⟩ := take_none hc (draw d.states.length)
        simp [bootstrapRateData, he, bind, Except.bind] at hp
      · split at hs
        · apply mapM_all (Q := fun p => p.2.context = none) hs
          intro draw _ p hp
          obtain ⟨e, he⟩ := take_none hc
            ((draw d.states.length).drop (sliceBound d.states.length (pyInt (d.states.length * fraction))))
          simp [splitRateData, he, bind, Except.bind] at hp
        · split at hs
          · rw [Except.ok.injEq] at hs
            subst hs
            intro p hp
            obtain ⟨_, -, rfl⟩ := List.mem_map.1 hp
            exact hc
          · cases hs
    simp only [bind, Except.bind]
    cases ht : augmentMembers augment (pairs.map Prod.fst) with
    | error e => exact ⟨e, rfl⟩
    | ok trains =>
      cases hu : augmentMembers augment (pairs.map Prod.snd) with
      | error e => exact ⟨e, rfl⟩
      | ok tests =>
        have h2 : ∀ t ∈ tests, t.context = none := by
          cases augment with
          | true =>
            apply mapM_all (Q := fun t => t.context = none) hu
            intro t ht t' ht'
            obtain ⟨p, hp, rfl⟩ := List.mem_map.1 ht
            exact augment_none ht' (h1 p hp)
          | false =>
            simp only [augmentMembers, Bool.false_eq_true, if_false, Except.ok.injEq] at hu
            subst hu
            intro t ht
            obtain ⟨p, hp, rfl⟩ := List.mem_map.1 ht
            exact h1 p hp
        cases tests with
        | nil => exact ⟨.valueError, rfl⟩
        | cons t ts =>
          have : contextRows t = .error .attributeError := by simp [contextRows, h2 t (by simp)]
          exact ⟨.attributeError, by simp [List.mapM_cons, this, bind, Except.bind]⟩

/-- A bootstrap that happens to draw every example for one member raises for the whole ensemble; so do fractions
of 1 and more, negative ones, and an ensemble without members. -/
theorem C85_rejects (draws : List (ℕ → List ℕ)) (listOfSet : List ℕ → List ℕ) (hset : ∀ l, (listOfSet l).Perm l)
    (augment : Bool) (fraction : ℝ) (d : RateData) (n : ℕ) (hn : HasSize d n) :
    ((∃ draw ∈ draws, ∀ i, i < n → i ∈ draw n) →
      ∃ e, createDatasetSplits draws listOfSet true augment fraction d = .error e) ∧
    (fraction < 0 ∨ 1 ≤ fraction →
      createDatasetSplits draws listOfSet false augment fraction d = .error .assertionError) ∧
    (∀ bootstrap, ∃ e, createDatasetSplits [] listOfSet bootstrap augment fraction d = .error e) := by
  refine ⟨?_, ?_, ?_⟩
  · rintro ⟨draw, hd, hall⟩
    have hbad : ∃ e, bootstrapRateData draw listOfSet d = .error e := by
      unfold bootstrapRateData
      cases ht : d.take (draw d.states.length) with
      | error e => exact ⟨e, by simp only [ht, bind, Except.bind]⟩
      | ok tr =>
        have h0 : (List.range d.states.length).filter (fun i => decide (i ∉ draw d.states.length)) = [] := by
          rw [List.filter_eq_nil_iff, hn.1]
          intro i hi
          simpa using hall i (List.mem_range.1 hi)
        have h3 : listOfSet [] = [] := (hset []).eq_nil
        exact ⟨.indexError, by simp only [ht, bind, Except.bind, h0, h3, if_true]⟩
    have : ∃ e, memberSplits draws listOfSet true fraction d = .error e := by
      cases hs : memberSplits draws listOfSet true fraction d with
      | error e => exact ⟨e, rfl⟩
      | ok pairs =>
        exfalso
        obtain ⟨e, he⟩ := hbad
        unfold memberSplits at hs
        rw [if_pos rfl] at hs
        clear hall
        induction draws generalizing pairs with
        | nil => cases hd
        | cons a as ih =>
          rw [List.mapM_cons] at hs
          rcases List.mem_cons.1 hd with rfl | hd
          · rw [he] at hs; cases hs
          · cases ha : bootstrapRateData a listOfSet d with
            | error e => rw [ha] at hs; cases hs
            | ok p =>
              cases hm : as.mapM (fun draw => bootstrapRateData draw listOfSet d) with
              | error e => rw [ha, hm] at hs; cases hs
              | ok rest => exact ih hd rest hm
    obtain ⟨e, he⟩ := this
    exact ⟨e, by simp [createDatasetSplits, he, bind, Except.bind]⟩
  · intro h
    have h1 : ¬ (fraction < 1 ∧ 0 < fraction) := by
      rintro ⟨a, b⟩
      rcases h with h | h <;> linarith
    have h2 : fraction ≠ 0 := by
      rintro rfl
      rcases h with h | h <;> linarith
    simp [createDatasetSplits, memberSplits, h1, h2, bind, Except.bind]
  · intro bootstrap
    unfold createDatasetSplits
    cases hs : memberSplits [] listOfSet bootstrap fraction d with
    | error e => exact ⟨e, rfl⟩
    | ok pairs =>
      have : pairs = [] := by
        unfold memberSplits at hs
        split at hs
        · simp only [List.mapM_nil, pure, Except.pure, Except.ok.injEq] at hs
          exact hs.symm
        · split at hs
          · simp only [List.mapM_nil, pure, Except.pure, Except.ok.injEq] at hs
            exact hs.symm
          · split at hs
            · simp only [List.map_nil, Except.ok.injEq] at hs
              exact hs.symm
            · cases hs
      subst this
      refine ⟨.valueError, ?_⟩
      cases augment <;> rfl

/-- Two examples with a context, and two draws of them that leave one out. -/
example : HasSize { augmentExample with context := some [[1], [2]] } 2 ∧
    (∀ draw ∈ [fun _ => [0, 0], fun _ => [1, 1]], MemberDraw true 2 draw) ∧
    (∀ draw ∈ [fun _ => [0, 1], fun _ => [1, 0]], MemberDraw false 2 draw) := by
  refine ⟨⟨rfl, rfl, rfl, rfl, ?_⟩, ?_, ?_⟩
  · intro cs h
    simp only [Option.some.injEq] at h
    subst h
    rfl
  · intro draw h
    simp only [List.mem_cons, List.not_mem_nil, or_false] at h
    rcases h with rfl | rfl
    · exact ⟨rfl, by simp, 1, by norm_num, by simp⟩
    · exact ⟨rfl, by simp, 0, by norm_num, by simp⟩
  · intro draw h
    simp only [List.mem_cons, List.not_mem_nil, or_false] at h
    rcases h with rfl | rfl <;> simp only [MemberDraw, Bool.false_eq_true, if_false] <;> decide

end PD.Props
