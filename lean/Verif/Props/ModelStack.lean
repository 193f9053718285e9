/- Property C161: the networks of a predictor stay what they are. -/
import Verif.Spec.ModelStack
import Verif.Props.Learn

set_option linter.unusedSectionVars false
set_option linter.unusedSimpArgs false

namespace PD.Props
open PD PD.Spec

/-- An index that stands for a network is the row that JAX reads. -/
theorem jaxIndex_stands {n : ℕ} {i : ℤ} {k : ℕ} (hn : 0 < n) (h : StandsFor n i k) : k < n ∧ jaxIndex n i = k := by
  unfold jaxIndex
  cases h with
  | inside h => refine ⟨h, ?_⟩; dsimp only; split_ifs <;> omega
  | fromEnd h => refine ⟨h, ?_⟩; dsimp only; split_ifs <;> omega
  | beyond h last => refine ⟨by omega, ?_⟩; dsimp only; split_ifs <;> omega
  | before h => refine ⟨hn, ?_⟩; dsimp only; split_ifs <;> omega

/-- A part of equal parts laid end to end. -/
theorem flatten_part {α : Type} (size : ℕ) : ∀ (parts : List (List α)), (∀ p ∈ parts, p.length = size) → ∀ (k : ℕ) (hk : k < parts.length),
    (parts.flatten.drop (k * size)).take size = parts[k]
  | [], _, k, hk => absurd hk (by simp)
  | p :: ps, h, 0, _ => by
    have := h p (by simp)
    simp [← this]
  | p :: ps, h, k + 1, hk => by
    have hp := h p (by simp)
    have := flatten_part size ps (fun q hq => h q (by simp [hq])) k (by simpa using hk)
    rw [List.flatten_cons, List.getElem_cons_succ, ← this]
    congr 1
    rw [List.drop_append]
    have e : (k + 1) * size = p.length + k * size := by rw [hp]; ring
    rw [e, List.drop_eq_nil_of_le (by omega)]
    simp

theorem stackArrays_ok {as : List NdArray} {sh : List ℕ} (hne : as ≠ []) (hs : ∀ a ∈ as, a.shape = sh)
    (hf : ∀ a ∈ as, a.data.length = a.shape.prod) :
    ∃ A, stackArrays as = .ok A ∧ A.shape = as.length :: sh ∧
      ∀ (i : ℤ) (k : ℕ) (hk : k < as.length), jaxIndex as.length i = k → A.row i = .ok as[k] := by
  cases as with
  | nil => exact absurd rfl hne
  | cons a as =>
    have ha := hs a (by simp)
    have hall : as.all (fun b => decide (b.shape = a.shape)) = true := by
      rw [List.all_eq_true]
      intro b hb
      rw [hs b (by simp [hb]), ha]
      simp
    refine ⟨_, by rw [stackArrays, if_pos hall], by simp [ha], fun i k hk hi => ?_⟩
    simp only [NdArray.row, hi, Except.ok.injEq]
    have hp := flatten_part a.shape.prod ((a :: as).map NdArray.data) (by
      intro p hp
      obtain ⟨b, hb, rfl⟩ := List.mem_map.1 hp
      rw [hf b hb, hs b hb, ha]) k (by simpa using hk)
    rw [hp]
    apply NdArray.ext
    · rw [ha]; exact (hs _ (List.getElem_mem hk)).symm
    · rw [List.getElem_map]

theorem stackLeaves_ok : ∀ (names : List (String × String)) (trees : List (List NdArray)) (shapes : List (List ℕ)),
    names.length = shapes.length → trees ≠ [] → (∀ t ∈ trees, t.map NdArray.shape = shapes) →
    (∀ t ∈ trees, ∀ a ∈ t, a.data.length = a.shape.prod) →
    ∃ T, stackLeaves names trees = .ok T ∧ T.length = names.length ∧ (∀ l ∈ T, l.2.shape.head? = some trees.length) ∧
      ∀ (i : ℤ) (k : ℕ) (hk : k < trees.length), jaxIndex trees.length i = k → pickModel i T = .ok (names.zip trees[k])
  | [], trees, shapes, _, _, _, _ => ⟨[], rfl, rfl, by simp, fun i k hk _ => by simp [pickModel]⟩
  | name :: names, trees, [], hl, _, _, _ => absurd hl (by simp)
  | name :: names, trees, sh :: shapes, hl, hne, hs, hf => by
    have hcons : ∀ t ∈ trees, ∃ a u, t = a :: u ∧ a.shape = sh ∧ u.map NdArray.shape = shapes := by
      intro t ht
      have := hs t ht
      cases t with
      | nil => cases this
      | cons a u =>
        simp only [List.map_cons, List.cons.injEq] at this
        exact ⟨a, u, rfl, this.1, this.2⟩
    have hheads : ∀ ts : List (List NdArray), (∀ t ∈ ts, ∃ a u, t = a :: u ∧ a.shape = sh ∧ u.map NdArray.shape = shapes) →
        (ts.filterMap List.head?).length = ts.length ∧
        ∀ (k : ℕ) (h1 : k < (ts.filterMap List.head?).length) (h2 : k < ts.length),
          (ts.filterMap List.head?)[k] :: ts[k].tail = ts[k] := by
      intro ts
      induction ts with
      | nil => intro _; exact ⟨rfl, fun k h1 => absurd h1 (by simp)⟩
      | cons t ts ih =>
        intro h
        obtain ⟨a, u, rfl, _⟩ := h t (by simp)
        obtain ⟨e1, e2⟩ := ih (fun t ht => h t (by simp [ht]))
        refine ⟨by simp [e1], fun k h1 h2 => ?_⟩
        cases k with
        | zero => simp
        | succ k => simpa using e2 k (by simpa using h1) (by simpa using h2)
    obtain ⟨e1, e2⟩ := hheads trees hcons
    have hmem : ∀ a ∈ trees.filterMap List.head?, ∃ t ∈ trees, ∃ u, t = a :: u ∧ a.shape = sh := by
      intro a ha
      obtain ⟨t, ht, hta⟩ := List.mem_filterMap.1 ha
      obtain ⟨b, u, rfl, hb, _⟩ := hcons t ht
      simp only [List.head?_cons, Option.some.injEq] at hta
      subst hta
      exact ⟨_, ht, u, rfl, hb⟩
    obtain ⟨A, a1, a2, a3⟩ := stackArrays_ok (as := trees.filterMap List.head?) (sh := sh)
      (by intro h; rw [h] at e1; exact hne (List.length_eq_zero_iff.1 e1.symm))
      (fun a ha => by obtain ⟨_, _, _, _, h⟩ := hmem a ha; exact h)
      (fun a ha => by obtain ⟨t, ht, u, rfl, _⟩ := hmem a ha; exact hf _ ht a (by simp))
    obtain ⟨T, t1, t2, t3, t4⟩ := stackLeaves_ok names (trees.map List.tail) shapes (by simpa using hl) (by simpa using hne)
      (by
        intro t ht
        obtain ⟨t', ht', rfl⟩ := List.mem_map.1 ht
        obtain ⟨a, u, rfl, _, h⟩ := hcons t' ht'
        exact h)
      (by
        intro t ht b hb
        obtain ⟨t', ht', rfl⟩ := List.mem_map.1 ht
        exact hf t' ht' b (List.mem_of_mem_tail hb))
    rw [List.length_map] at t3
    refine ⟨(name, A) :: T, by simp only [stackLeaves, a1, t1], by simp [t2], ?_, fun i k hk hi => ?_⟩
    · intro l hl
      rcases List.mem_cons.1 hl with rfl | hl
      · rw [a2, e1]; rfl
      · exact t3 l hl
    · have h1 := a3 i k (by rw [e1]; exact hk) (by rw [e1]; exact hi)
      have h2 := t4 i k (by rw [List.length_map]; exact hk) (by rw [List.length_map]; exact hi)
      rw [List.getElem_map] at h2
      have h3 := e2 k (by rw [e1]; exact hk) hk
      simp only [pickModel, h1, h2]
      rw [← h3]
      simp

theorem layout_parts {t u : NetTree} (h : SameLayout t u) :
    u.map Prod.fst = t.map Prod.fst ∧ (u.map Prod.snd).map NdArray.shape = (t.map Prod.snd).map NdArray.shape := by
  induction h with
  | nil => exact ⟨rfl, rfl⟩
  | cons h _ ih => simp [h.1, h.2, ih.1]; simpa using ih.2

theorem parts_layout : ∀ (t u : NetTree), u.map Prod.fst = t.map Prod.fst →
    (u.map Prod.snd).map NdArray.shape = (t.map Prod.snd).map NdArray.shape → SameLayout t u
  | [], [], _, _ => .nil
  | [], _ :: _, h, _ => by cases h
  | _ :: _, [], h, _ => by cases h
  | a :: t, b :: u, h1, h2 => by
    simp only [List.map_cons, List.cons.injEq] at h1 h2
    exact .cons ⟨h1.1.symm, h2.1.symm⟩ (parts_layout t u h1.2 h2.2)

/-- Trees of the same layout are stacked, and each can be taken out again. -/
theorem treeStack_ok {trees : List NetTree} (hne : trees ≠ []) (hl : ∀ t ∈ trees, ∀ u ∈ trees, SameLayout t u)
    (hf : ∀ t ∈ trees, FullArrays t) :
    ∃ T, treeStack trees = .ok T ∧ (∀ t ∈ trees, T.length = t.length) ∧ (∀ l ∈ T, l.2.shape.head? = some trees.length) ∧
      ∀ (i : ℤ) (k : ℕ) (hk : k < trees.length), jaxIndex trees.length i = k → pickModel i T = .ok trees[k] := by
  cases trees with
  | nil => exact absurd rfl hne
  | cons t ts =>
    have hall : ts.all (fun u => decide (u.map Prod.fst = t.map Prod.fst)) = true := by
      rw [List.all_eq_true]
      intro u hu
      simpa using (layout_parts (hl t (by simp) u (by simp [hu]))).1
    obtain ⟨T, t1, t2, t3, t4⟩ := stackLeaves_ok (t.map Prod.fst) ((t :: ts).map (fun u => u.map Prod.snd))
      ((t.map Prod.snd).map NdArray.shape) (by simp) (by simp)
      (by
        intro c hc
        obtain ⟨u, hu, rfl⟩ := List.mem_map.1 hc
        exact (layout_parts (hl t (by simp) u hu)).2)
      (by
        intro c hc a ha
        obtain ⟨u, hu, rfl⟩ := List.mem_map.1 hc
        obtain ⟨l, hl', rfl⟩ := List.mem_map.1 ha
        exact hf u hu l hl')
    rw [List.length_map] at t3
    refine ⟨T, by rw [treeStack, if_pos hall]; exact t1, fun u hu => ?_, t3, fun i k hk hi => ?_⟩
    · rw [t2, List.length_map]; exact (hl t (by simp) u hu).length_eq
    · rw [t4 i k (by rw [List.length_map]; exact hk) (by rw [List.length_map]; exact hi)]
      have hu := (layout_parts (hl t (by simp) _ (List.getElem_mem hk))).1
      rw [List.getElem_map, ← hu]
      congr 1
      exact (List.zip_of_prod rfl rfl).symm

/-- C161.  The networks of a predictor can be kept in one tree.  Choosing a network by an index gives the rates of that network
alone, never of parts of several; and an index out of range is not refused. -/
theorem C161_chosen (members : List (NetTree × NetTree)) (h : OneMake members) :
    ∃ params state, treeStack (members.map Prod.fst) = .ok params ∧ treeStack (members.map Prod.snd) = .ok state ∧
      ∀ (net : NetTree → NetTree → List ℝ → List ℝ) (states : ℕ) (x : List ℝ) (i : ℤ) (k : ℕ),
        StandsFor members.length i k → ∃ m, members[k]? = some m ∧
          applyChosen net states params state x (some i) = .ok (applyModel states [net m.1 m.2 x]) := by
  obtain ⟨P, p1, _, _, p4⟩ := treeStack_ok (trees := members.map Prod.fst) (by simpa using h.some_member)
    (by
      intro t ht u hu
      obtain ⟨m, hm, rfl⟩ := List.mem_map.1 ht
      obtain ⟨m', hm', rfl⟩ := List.mem_map.1 hu
      exact h.params m hm m' hm')
    (by intro t ht; obtain ⟨m, hm, rfl⟩ := List.mem_map.1 ht; exact (h.full m hm).1)
  obtain ⟨S, s1, _, _, s4⟩ := treeStack_ok (trees := members.map Prod.snd) (by simpa using h.some_member)
    (by
      intro t ht u hu
      obtain ⟨m, hm, rfl⟩ := List.mem_map.1 ht
      obtain ⟨m', hm', rfl⟩ := List.mem_map.1 hu
      exact h.states m hm m' hm')
    (by intro t ht; obtain ⟨m, hm, rfl⟩ := List.mem_map.1 ht; exact (h.full m hm).2)
  refine ⟨P, S, p1, s1, fun net states x i k hik => ?_⟩
  obtain ⟨hk, hi⟩ := jaxIndex_stands (List.length_pos_iff.2 h.some_member) hik
  have hp := p4 i k (by simpa using hk) (by simpa using hi)
  have hs := s4 i k (by simpa using hk) (by simpa using hi)
  rw [List.getElem_map] at hp hs
  exact ⟨members[k], List.getElem?_eq_getElem hk, by simp only [applyChosen, callSingle, hp, hs]⟩

theorem callEach_ok (net : NetTree → NetTree → List ℝ → List ℝ) (params state : NetTree) (x : List ℝ) (f : ℕ → List ℝ) :
    ∀ is : List ℕ, (∀ i ∈ is, callSingle net i params state x = .ok (f i)) → callEach net params state x is = .ok (is.map f)
  | [], _ => rfl
  | i :: is, h => by
    simp only [callEach, h i (by simp), callEach_ok net params state x f is (fun j hj => h j (by simp [hj])), List.map_cons]

/-- C161.  Without an index the rates are the averages of those of the networks, chosen one by one. -/
theorem C161_average (members : List (NetTree × NetTree)) (h : OneMake members) (hp : ∀ m ∈ members, m.1 ≠ [])
    (params state : NetTree) (h1 : treeStack (members.map Prod.fst) = .ok params)
    (h2 : treeStack (members.map Prod.snd) = .ok state) (net : NetTree → NetTree → List ℝ → List ℝ) (states : ℕ) (x : List ℝ) :
    ∃ rates : List (List ℝ), rates.length = members.length ∧
      (∀ (k : ℕ) (hk : k < rates.length), applyChosen net states params state x (some k) = .ok rates[k]) ∧
      applyChosen net states params state x none = .ok (averageRates states rates) := by
  obtain ⟨P, p1, p2, p3, p4⟩ := treeStack_ok (trees := members.map Prod.fst) (by simpa using h.some_member)
    (by
      intro t ht u hu
      obtain ⟨m, hm, rfl⟩ := List.mem_map.1 ht
      obtain ⟨m', hm', rfl⟩ := List.mem_map.1 hu
      exact h.params m hm m' hm')
    (by intro t ht; obtain ⟨m, hm, rfl⟩ := List.mem_map.1 ht; exact (h.full m hm).1)
  obtain ⟨S, s1, _, s3, s4⟩ := treeStack_ok (trees := members.map Prod.snd) (by simpa using h.some_member)
    (by
      intro t ht u hu
      obtain ⟨m, hm, rfl⟩ := List.mem_map.1 ht
      obtain ⟨m', hm', rfl⟩ := List.mem_map.1 hu
      exact h.states m hm m' hm')
    (by intro t ht; obtain ⟨m, hm, rfl⟩ := List.mem_map.1 ht; exact (h.full m hm).2)
  rw [p1] at h1
  rw [s1] at h2
  cases h1
  cases h2
  have hpos := List.length_pos_iff.2 h.some_member
  have hcall : ∀ (k : ℕ) (hk : k < members.length), callSingle net k params state x = .ok (net members[k].1 members[k].2 x) := by
    intro k hk
    obtain ⟨_, hi⟩ := jaxIndex_stands hpos (StandsFor.inside hk)
    have hp := p4 k k (by simpa using hk) (by simpa using hi)
    have hs := s4 k k (by simpa using hk) (by simpa using hi)
    rw [List.getElem_map] at hp hs
    simp only [callSingle, hp, hs]
  have hsize : vmapSize (params ++ state) = .ok members.length := by
    have hne : params ≠ [] := by
      intro hP
      have h0 : members[0].1 = [] := by
        have := p2 members[0].1 (List.mem_map_of_mem (List.getElem_mem hpos))
        rw [hP] at this
        exact List.length_eq_zero_iff.1 this.symm
      exact hp _ (List.getElem_mem hpos) h0
    have hall : ∀ l ∈ params ++ state, l.2.shape.head? = some members.length := by
      intro l hl
      rcases List.mem_append.1 hl with hl | hl
      · simpa using p3 l hl
      · simpa using s3 l hl
    cases hPS : params ++ state with
    | nil => exact absurd (List.append_eq_nil_iff.1 hPS).1 hne
    | cons l ls =>
      rw [hPS] at hall
      simp only [vmapSize, List.map_cons, hall l (by simp)]
      rw [if_pos]
      rw [List.all_eq_true]
      intro m hm
      obtain ⟨l', hl', rfl⟩ := List.mem_map.1 hm
      simpa using hall l' (by simp [hl'])
  set outs := members.map (fun m => net m.1 m.2 x) with houts
  have hbatch : batchCall net params state x = .ok outs := by
    simp only [batchCall, hsize]
    rw [callEach_ok net params state x (fun k => outs.getD k []) _ (by
      intro k hk
      have hk := List.mem_range.1 hk
      rw [hcall k hk, houts]
      simp [hk])]
    congr 1
    apply List.ext_getElem
    · simp [houts]
    · intro k h1 h2
      simp [List.getD_eq_getElem?_getD, List.getElem?_eq_getElem h2]
  refine ⟨outs.map (fun out => applyModel states [out]), by simp [houts], fun k hk => ?_, ?_⟩
  · have hk' : k < members.length := by simpa [houts] using hk
    simp only [applyChosen, hcall k hk']
    simp [houts]
  · simp only [applyChosen, hbatch, applyModel, columnMeans, averageRates, Except.ok.injEq]
    apply List.map_congr_left
    intro j hj
    have hj := List.mem_range.1 hj
    clear_value outs
    congr 1
    · congr 1
      rw [List.map_map, List.map_map]
      apply List.map_congr_left
      intro out _
      simp [hj]
    · simp

theorem stackArrays_shapes {as : List NdArray} : (∃ A, stackArrays as = .ok A ∧ ∀ a ∈ as, ∀ b ∈ as, a.shape = b.shape) ∨
    stackArrays as = .error .valueError := by
  cases as with
  | nil => exact .inr rfl
  | cons a as =>
    by_cases hall : as.all (fun b => decide (b.shape = a.shape)) = true
    · refine .inl ⟨_, by rw [stackArrays, if_pos hall], ?_⟩
      rw [List.all_eq_true] at hall
      have : ∀ b ∈ a :: as, b.shape = a.shape := by
        intro b hb
        rcases List.mem_cons.1 hb with rfl | hb
        · rfl
        · simpa using hall b hb
      intro b hb c hc
      rw [this b hb, this c hc]
    · exact .inr (by rw [stackArrays, if_neg hall])

theorem stackLeaves_shapes : ∀ (names : List (String × String)) (trees : List (List NdArray)),
    (∀ t ∈ trees, t.length = names.length) →
    (∃ T, stackLeaves names trees = .ok T ∧ ∀ t ∈ trees, ∀ u ∈ trees, t.map NdArray.shape = u.map NdArray.shape) ∨
      stackLeaves names trees = .error .valueError
  | [], trees, h => .inl ⟨[], rfl, fun t ht u hu => by
      rw [List.length_eq_zero_iff.1 (h t ht), List.length_eq_zero_iff.1 (h u hu)]⟩
  | name :: names, trees, h => by
    rcases stackArrays_shapes (as := trees.filterMap List.head?) with ⟨A, a1, a2⟩ | e
    · rcases stackLeaves_shapes names (trees.map List.tail) (by
        intro t ht
        obtain ⟨u, hu, rfl⟩ := List.mem_map.1 ht
        rw [List.length_tail, h u hu]
        simp) with ⟨T, t1, t2⟩ | e
      · refine .inl ⟨(name, A) :: T, by simp only [stackLeaves, a1, t1], fun t ht u hu => ?_⟩
        cases t with
        | nil => exact absurd (h _ ht) (by simp)
        | cons a t =>
          cases u with
          | nil => exact absurd (h _ hu) (by simp)
          | cons b u =>
            have h1 := a2 a (List.mem_filterMap.2 ⟨_, ht, rfl⟩) b (List.mem_filterMap.2 ⟨_, hu, rfl⟩)
            have h2 := t2 t (List.mem_map.2 ⟨_, ht, rfl⟩) u (List.mem_map.2 ⟨_, hu, rfl⟩)
            rw [List.map_cons, List.map_cons, h1, h2]
      · exact .inr (by simp only [stackLeaves, a1, e])
    · exact .inr (by simp only [stackLeaves, e])

/-- C161.  Networks of different makes are refused, and so is an ensemble without networks. -/
theorem C161_refused : treeStack [] = .error .typeError ∧
    ∀ (trees : List NetTree) (t u : NetTree), t ∈ trees → u ∈ trees → ¬ SameLayout t u →
      treeStack trees = .error .valueError := by
  refine ⟨rfl, fun trees t u ht hu hno => ?_⟩
  cases trees with
  | nil => cases ht
  | cons a as =>
    by_cases hall : as.all (fun u => decide (u.map Prod.fst = a.map Prod.fst)) = true
    · rw [treeStack, if_pos hall]
      rw [List.all_eq_true] at hall
      have hnames : ∀ b ∈ a :: as, b.map Prod.fst = a.map Prod.fst := by
        intro b hb
        rcases List.mem_cons.1 hb with rfl | hb
        · rfl
        · simpa using hall b hb
      rcases stackLeaves_shapes (a.map Prod.fst) ((a :: as).map (fun u => u.map Prod.snd)) (by
        intro c hc
        obtain ⟨b, hb, rfl⟩ := List.mem_map.1 hc
        have := congrArg List.length (hnames b hb)
        simpa using this) with ⟨T, _, t2⟩ | e
      · refine absurd (parts_layout t u ?_ ?_) hno
        · rw [hnames t ht, hnames u hu]
        · exact t2 _ (List.mem_map.2 ⟨u, hu, rfl⟩) _ (List.mem_map.2 ⟨t, ht, rfl⟩)
      · exact e
    · rw [treeStack, if_neg hall]

/-- Two networks with a matrix and a number each. -/
def twoNetworks : List (NetTree × NetTree) :=
  [([(("mlp", "b"), ⟨[], [1]⟩), (("mlp", "w"), ⟨[2, 2], [1, 2, 3, 4]⟩)], [(("norm", "mean"), ⟨[1], [7]⟩)]),
   ([(("mlp", "b"), ⟨[], [5]⟩), (("mlp", "w"), ⟨[2, 2], [6, 7, 8, 9]⟩)], [(("norm", "mean"), ⟨[1], [8]⟩)])]

theorem twoNetworks_make : OneMake twoNetworks := by
  refine ⟨by simp [twoNetworks], ?_, ?_, ?_⟩
  · intro m hm m' hm'
    simp only [twoNetworks, List.mem_cons, List.not_mem_nil, or_false] at hm hm'
    rcases hm with rfl | rfl <;> rcases hm' with rfl | rfl <;> exact .cons ⟨rfl, rfl⟩ (.cons ⟨rfl, rfl⟩ .nil)
  · intro m hm m' hm'
    simp only [twoNetworks, List.mem_cons, List.not_mem_nil, or_false] at hm hm'
    rcases hm with rfl | rfl <;> rcases hm' with rfl | rfl <;> exact .cons ⟨rfl, rfl⟩ .nil
  · intro m hm
    simp only [twoNetworks, List.mem_cons, List.not_mem_nil, or_false] at hm
    rcases hm with rfl | rfl <;> constructor <;> intro l hl <;>
      simp only [List.mem_cons, List.not_mem_nil, or_false] at hl
    · rcases hl with rfl | rfl <;> simp
    · subst hl; simp
    · rcases hl with rfl | rfl <;> simp
    · subst hl; simp

/-- Index 9 of two networks is the second one, and so is -1; index -9 is the first. -/
example : ∃ params state, treeStack (twoNetworks.map Prod.fst) = .ok params ∧ treeStack (twoNetworks.map Prod.snd) = .ok state ∧
    ∀ net states x,
      (∃ m, twoNetworks[1]? = some m ∧ applyChosen net states params state x (some 9) = .ok (applyModel states [net m.1 m.2 x])) ∧
      (∃ m, twoNetworks[1]? = some m ∧ applyChosen net states params state x (some (-1)) = .ok (applyModel states [net m.1 m.2 x])) ∧
      ∃ m, twoNetworks[0]? = some m ∧ applyChosen net states params state x (some (-9)) = .ok (applyModel states [net m.1 m.2 x]) := by
  obtain ⟨params, state, h1, h2, h⟩ := C161_chosen twoNetworks twoNetworks_make
  exact ⟨params, state, h1, h2, fun net states x => ⟨h net states x 9 1 (.beyond (by simp [twoNetworks]) rfl),
    h net states x (-1) 1 (.fromEnd (k := 1) (n := 2) (by norm_num)), h net states x (-9) 0 (.before (by simp [twoNetworks]))⟩⟩

/-- The networks of the example have parameters. -/
example : ∀ m ∈ twoNetworks, m.1 ≠ [] := by simp [twoNetworks]

/-- A network with a longer vector does not go with one with a number. -/
example : treeStack [[(("mlp", "b"), ⟨[], [1]⟩)], [(("mlp", "b"), ⟨[2], [1, 2]⟩)]] = .error .valueError := by
  refine C161_refused.2 _ _ _ (List.mem_cons_self ..) (List.mem_cons_of_mem _ (List.mem_cons_self ..)) ?_
  intro h
  cases h with
  | cons h _ => exact absurd h.2 (by simp)

end PD.Props
