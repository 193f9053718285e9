/- C106: the graph network looks at points as a set, and only at where they are relative to each other. -/
import Verif.Model.GraphNet
import Mathlib.Data.List.Perm.Lattice
import Mathlib.Algebra.Order.Floor.Ring

set_option linter.unusedSectionVars false
set_option linter.unusedSimpArgs false

namespace PD.Props
open PD
variable {F V : Type} [AddCommMonoid V]

/-! ### Order -/

/-- Points of each time step renamed. -/
def rename (perm : ℕ → Equiv.Perm ℕ) (p : Point) : Point := (p.1, perm p.1 p.2)

/-- A renaming of the first `N` points of each time step. -/
def Renames (N : ℕ) (perm : ℕ → Equiv.Perm ℕ) : Prop := ∀ t n, n < N → perm t n < N

theorem rename_injective (perm : ℕ → Equiv.Perm ℕ) : Function.Injective (rename perm) := by
  rintro ⟨t, n⟩ ⟨u, m⟩ h
  simp only [rename, Prod.mk.injEq] at h
  obtain ⟨rfl, h⟩ := h
  rw [(perm t).injective h]

theorem range_map_perm {N : ℕ} {f : ℕ → ℕ} (hf : Function.Injective f) (h : ∀ n, n < N → f n < N) :
    ((List.range N).map f).Perm (List.range N) := by
  apply List.Subperm.perm_of_length_le
  · apply List.subperm_of_subset (List.nodup_range.map hf)
    intro x hx
    obtain ⟨n, hn, rfl⟩ := List.mem_map.1 hx
    exact List.mem_range.2 (h n (List.mem_range.1 hn))
  · simp

theorem points_perm {T N : ℕ} {perm : ℕ → Equiv.Perm ℕ} (h : Renames N perm) :
    ((points T N).map (rename perm)).Perm (points T N) := by
  unfold points
  rw [List.map_flatMap]
  apply List.Perm.flatMap_left
  intro t _
  rw [List.map_map]
  have : (rename perm ∘ fun n => (t, n)) = (fun n => (t, n)) ∘ perm t := rfl
  rw [this, ← List.map_map]
  exact (range_map_perm (perm t).injective (h t)).map _

/-- Both ends renamed. -/
def renameEdge (perm : ℕ → Equiv.Perm ℕ) (e : Edge) : Edge := (rename perm e.1, rename perm e.2)

theorem closePairs_perm (cfg : GraphCfg) {T N : ℕ} {perm : ℕ → Equiv.Perm ℕ} (h : Renames N perm) (ps : Point → V3) :
    ((closePairs cfg T N (fun p => ps (rename perm p))).map (renameEdge perm)).Perm (closePairs cfg T N ps) := by
  unfold closePairs
  have e : ((fun e : Edge => decide ((displacement cfg.side (ps (rename perm e.1)) (ps (rename perm e.2))).normSq <
      cfg.cutoff ^ 2))) =
      (fun e : Edge => decide ((displacement cfg.side (ps e.1) (ps e.2)).normSq < cfg.cutoff ^ 2)) ∘ renameEdge perm := rfl
  rw [e, ← List.filter_map]
  apply List.Perm.filter
  have hm : ((points T N).product (points T N)).map (renameEdge perm) =
      ((points T N).map (rename perm)).product ((points T N).map (rename perm)) := by
    simp only [List.product, List.map_flatMap, List.flatMap_map, List.map_map]
    rfl
  rw [hm]
  exact (points_perm h).product (points_perm h)

/-- Latents of the renamed example. -/
def Renamed (perm : ℕ → Equiv.Perm ℕ) (a b : Latents V) : Prop :=
  (∀ e, a.edge e = b.edge (renameEdge perm e)) ∧ (∀ p, a.node p = b.node (rename perm p)) ∧ a.glob = b.glob

theorem filter_sum_perm {perm : ℕ → Equiv.Perm ℕ} {E E' : List Edge} (hE : (E'.map (renameEdge perm)).Perm E)
    (f f' : Edge → V) (hf : ∀ e, f' e = f (renameEdge perm e)) (q q' : Edge → Bool)
    (hq : ∀ e, q' e = q (renameEdge perm e)) : ((E'.filter q').map f').sum = ((E.filter q).map f).sum := by
  have h1 : ((E'.map (renameEdge perm)).filter q).map f = (E'.filter q').map f' := by
    rw [List.filter_map, List.map_map]
    have a : q ∘ renameEdge perm = q' := by funext e; exact (hq e).symm
    have b : f ∘ renameEdge perm = f' := by funext e; exact (hf e).symm
    rw [a, b]
  rw [← h1]
  exact ((hE.filter q).map f).sum_eq

theorem apply_renamed {perm : ℕ → Equiv.Perm ℕ} {T N : ℕ} (h : Renames N perm) {E E' : List Edge}
    (hE : (E'.map (renameEdge perm)).Perm E) (l : Propagation V) {enc enc' out out' : Latents V}
    (he : Renamed perm enc' enc) (ho : Renamed perm out' out) :
    Renamed perm (l.apply T N E' enc' out') (l.apply T N E enc out) := by
  obtain ⟨e1, e2, e3⟩ := he
  obtain ⟨o1, o2, o3⟩ := ho
  have hedge : ∀ e, (l.apply T N E' enc' out').edge e = (l.apply T N E enc out).edge (renameEdge perm e) := by
    intro e
    simp only [Propagation.apply, e1, e2, e3, o1, o2, o3]
    rfl
  have hnode : ∀ p, (l.apply T N E' enc' out').node p = (l.apply T N E enc out).node (rename perm p) := by
    intro p
    have s1 := filter_sum_perm hE _ _ hedge (fun e => decide (e.1 = rename perm p)) (fun e => decide (e.1 = p)) (by
      intro e
      simp only [renameEdge, (rename_injective perm).eq_iff])
    have s2 := filter_sum_perm hE _ _ hedge (fun e => decide (e.2 = rename perm p)) (fun e => decide (e.2 = p)) (by
      intro e
      simp only [renameEdge, (rename_injective perm).eq_iff])
    simp only [Propagation.apply] at s1 s2 ⊢
    rw [s1, s2, o2, e2, o3, e3]
  refine ⟨hedge, hnode, ?_⟩
  have s := filter_sum_perm hE _ _ hedge (fun _ => true) (fun _ => true) (fun _ => rfl)
  have n : ((points T N).map (l.apply T N E' enc' out').node).sum = ((points T N).map (l.apply T N E enc out).node).sum := by
    have : (l.apply T N E' enc' out').node = (l.apply T N E enc out).node ∘ rename perm := funext hnode
    rw [this, ← List.map_map]
    exact ((points_perm h).map _).sum_eq
  simp only [List.filter_true, Propagation.apply] at s n ⊢
  rw [n, s, o3, e3]

theorem latents_renamed {perm : ℕ → Equiv.Perm ℕ} {T N : ℕ} (h : Renames N perm) (net : GraphNet F V) (cfg : GraphCfg)
    {E E' : List Edge} (hE : (E'.map (renameEdge perm)).Perm E) (ps : Point → V3) (fs : Point → F) :
    Renamed perm (net.latents cfg T N E' (fun p => ps (rename perm p)) (fun p => fs (rename perm p)))
      (net.latents cfg T N E ps fs) := by
  have henc : Renamed perm (net.encode cfg (fun p => ps (rename perm p)) (fun p => fs (rename perm p)))
      (net.encode cfg ps fs) := ⟨fun _ => rfl, fun _ => rfl, rfl⟩
  unfold GraphNet.latents
  suffices ∀ (ls : List (Propagation V)) (o o' : Latents V), Renamed perm o' o →
      Renamed perm (ls.foldl (fun out l => l.apply T N E' (net.encode cfg (fun p => ps (rename perm p))
        (fun p => fs (rename perm p))) out) o') (ls.foldl (fun out l => l.apply T N E (net.encode cfg ps fs) out) o) from
    this _ _ _ henc
  intro ls
  induction ls with
  | nil => intro o o' ho; exact ho
  | cons l ls ih => intro o o' ho; exact ih _ _ (apply_renamed h hE l henc ho)

/-! ### Places -/

theorem wrap_zero {side : ℝ} (h : 0 < side) : wrap side 0 = 0 := by
  have : ⌊(0 + side / 2) / side⌋ = 0 := by
    rw [Int.floor_eq_zero_iff]
    constructor
    · positivity
    · rw [div_lt_one h]; linarith
  rw [wrap, pyMod, this]
  simp

theorem wrap_add {side : ℝ} (h : 0 < side) (d : ℝ) (k : ℤ) : wrap side (d + side * k) = wrap side d := by
  have e : (d + side * k + side / 2) / side = (d + side / 2) / side + k := by
    field_simp
    ring
  unfold wrap pyMod
  rw [e, Int.floor_add_intCast]
  push_cast
  ring

theorem displacement_self {side : ℝ} (h : 0 < side) (a : V3) : displacement side a a = ⟨0, 0, 0⟩ := by
  simp [displacement, wrap_zero h]

theorem needsUpdate_self (strict : Bool) {cfg : GraphCfg} (h : 0 < cfg.side) {T N : ℕ} (hT : 0 < T) (hN : 0 < N)
    (ps : Point → V3) : needsUpdate strict cfg T N ps ps = !strict := by
  unfold needsUpdate
  simp only [displacement_self h]
  cases strict with
  | true => simp [V3.normSq]
  | false =>
    simp only [V3.normSq, Bool.false_eq_true, if_false, Bool.not_false, List.any_eq_true]
    refine ⟨(0, 0), ?_, by simp⟩
    simp only [points, List.mem_flatMap, List.mem_map, List.mem_range]
    exact ⟨0, hT, 0, hN, rfl⟩

theorem graphEdges_rebuilt {cfg : GraphCfg} (h : 0 < cfg.side) {T N : ℕ} (hT : 0 < T) (hN : 0 < N) (ps : Point → V3) :
    graphEdges false cfg T N ps = (closePairs cfg T N ps).take cfg.capacity := by
  rw [graphEdges, needsUpdate_self false h hT hN]
  rfl

/-! ### C106 -/

/-- C106, order: if the neighbour list is long enough for all pairs, and they are looked for, then giving the points
of each time step in another order gives the same drifts, and the displacements in that order. -/
theorem C106_order_partial (net : GraphNet F V) (cfg : GraphCfg) (hside : 0 < cfg.side) (T N : ℕ) (hT : 0 < T)
    (hN : 0 < N) (ps : Point → V3) (fs : Point → F) (perm : ℕ → Equiv.Perm ℕ) (hp : Renames N perm)
    (hcap : (closePairs cfg T N ps).length ≤ cfg.capacity) (t n : ℕ) :
    let a := net.predict false cfg T N ps fs
    let b := net.predict false cfg T N (fun p => ps (rename perm p)) (fun p => fs (rename perm p))
    b.drift t = a.drift t ∧ b.displacement t n = a.displacement t (perm t n) := by
  intro a b
  have hc := closePairs_perm cfg (T := T) hp ps
  have hlen : (closePairs cfg T N (fun p => ps (rename perm p))).length = (closePairs cfg T N ps).length := by
    rw [← hc.length_eq, List.length_map]
  have hE : ((graphEdges false cfg T N (fun p => ps (rename perm p))).map (renameEdge perm)).Perm
      (graphEdges false cfg T N ps) := by
    rw [graphEdges_rebuilt hside hT hN, graphEdges_rebuilt hside hT hN, List.take_of_length_le hcap,
      List.take_of_length_le (by omega)]
    exact hc
  obtain ⟨-, hnode, hglob⟩ := latents_renamed hp net cfg hE ps fs (T := T)
  refine ⟨?_, ?_⟩
  · have sums : ∀ f : V → ℝ, ((List.range N).map (fun n => f ((net.latents cfg T N
        (graphEdges false cfg T N (fun p => ps (rename perm p))) (fun p => ps (rename perm p))
        (fun p => fs (rename perm p))).node (t, n)))).sum =
        ((List.range N).map (fun n => f ((net.latents cfg T N (graphEdges false cfg T N ps) ps fs).node (t, n)))).sum := by
      intro f
      simp only [hnode]
      have := ((range_map_perm (perm t).injective (hp t)).map
        (fun n => f ((net.latents cfg T N (graphEdges false cfg T N ps) ps fs).node (t, n)))).sum_eq
      rw [List.map_map] at this
      exact this
    simp only [a, b, GraphNet.predict, hglob]
    rw [sums (fun v => (net.decodePool v).x), sums (fun v => (net.decodePool v).y)]
  · simp only [a, b, GraphNet.predict, hnode]
    rfl

/-- Everything moved by `v`, and each point by some lengths of the box. -/
def movedPoints (side : ℝ) (v : V3) (k : Point → ℤ × ℤ × ℤ) (ps : Point → V3) (p : Point) : V3 :=
  ⟨(ps p).x + v.x + side * (k p).1, (ps p).y + v.y + side * (k p).2.1, (ps p).z + v.z + side * (k p).2.2⟩

theorem displacement_shifted {side : ℝ} (h : 0 < side) (v : V3) (k : Point → ℤ × ℤ × ℤ) (ps : Point → V3) (p q : Point) :
    displacement side (movedPoints side v k ps p) (movedPoints side v k ps q) = displacement side (ps p) (ps q) := by
  have one : ∀ (a b w : ℝ) (i j : ℤ), wrap side (a + w + side * i - (b + w + side * j)) = wrap side (a - b) := by
    intro a b w i j
    rw [← wrap_add h (a - b) (i - j)]
    push_cast
    ring_nf
  simp only [displacement, movedPoints, one]

/-- C106, places: moving all points by one vector, and any of them by whole lengths of the box, changes nothing. -/
theorem C106_places (net : GraphNet F V) (strict : Bool) (cfg : GraphCfg) (hside : 0 < cfg.side) (T N : ℕ)
    (ps : Point → V3) (fs : Point → F) (v : V3) (k : Point → ℤ × ℤ × ℤ) :
    net.predict strict cfg T N (movedPoints cfg.side v k ps) fs = net.predict strict cfg T N ps fs := by
  have hu : needsUpdate strict cfg T N (movedPoints cfg.side v k ps) (movedPoints cfg.side v k ps) =
      needsUpdate strict cfg T N ps ps := by
    simp only [needsUpdate, displacement_shifted hside]
  have hc : closePairs cfg T N (movedPoints cfg.side v k ps) = closePairs cfg T N ps := by
    simp only [closePairs, displacement_shifted hside]
  have he : graphEdges strict cfg T N (movedPoints cfg.side v k ps) = graphEdges strict cfg T N ps := by
    simp only [graphEdges, hu, hc]
  have henc : net.encode cfg (movedPoints cfg.side v k ps) fs = net.encode cfg ps fs := by
    simp only [GraphNet.encode, displacement_shifted hside]
  simp only [GraphNet.predict, GraphNet.latents, he, henc]

theorem wrap_shift {side : ℝ} (d : ℝ) : ∃ k : ℤ, wrap side d = d + side * k := by
  refine ⟨-⌊(d + side / 2) / side⌋, ?_⟩
  unfold wrap pyMod
  push_cast
  ring

theorem wrap_le {side : ℝ} (h : 0 < side) (d : ℝ) (k : ℤ) : wrap side d * wrap side d ≤ (d + side * k) * (d + side * k) := by
  obtain ⟨j, hj⟩ := wrap_shift (side := side) d
  have hr : -(side / 2) ≤ wrap side d ∧ wrap side d < side / 2 := by
    unfold wrap pyMod
    have h1 := Int.floor_le ((d + side / 2) / side)
    have h2 := Int.lt_floor_add_one ((d + side / 2) / side)
    rw [le_div_iff₀ h] at h1
    rw [div_lt_iff₀ h] at h2
    constructor <;> nlinarith
  have e : d + side * k = wrap side d + side * ((k - j : ℤ) : ℝ) := by rw [hj]; push_cast; ring
  rw [e]
  set w := wrap side d
  set m := k - j
  rcases lt_trichotomy m 0 with hm | hm | hm
  · have : (m : ℝ) ≤ -1 := by exact_mod_cast Int.le_sub_one_of_lt hm
    have h3 : side * (m : ℝ) ≤ -side := by nlinarith
    nlinarith
  · rw [hm]; simp
  · have : (1 : ℝ) ≤ m := by exact_mod_cast hm
    have h3 : side ≤ side * (m : ℝ) := by nlinarith
    nlinarith

theorem mem_points {T N : ℕ} {p : Point} : p ∈ points T N ↔ p.1 < T ∧ p.2 < N := by
  obtain ⟨t, n⟩ := p
  simp [points]

/-- C106: if the neighbour list is long enough and looked for again, the pairs that exchange messages are those with
distance below the cutoff, counting the copies of the points in the other boxes. -/
theorem C106_messages_partial (cfg : GraphCfg) (hside : 0 < cfg.side) (T N : ℕ) (hT : 0 < T) (hN : 0 < N) (ps : Point → V3)
    (hcap : (closePairs cfg T N ps).length ≤ cfg.capacity) (a b : Point) :
    (a, b) ∈ graphEdges false cfg T N ps ↔ (a.1 < T ∧ a.2 < N) ∧ (b.1 < T ∧ b.2 < N) ∧ ∃ i j k : ℤ,
      ((ps a).x - (ps b).x + cfg.side * i) ^ 2 + ((ps a).y - (ps b).y + cfg.side * j) ^ 2 +
        ((ps a).z - (ps b).z + cfg.side * k) ^ 2 < cfg.cutoff ^ 2 := by
  rw [graphEdges_rebuilt hside hT hN, List.take_of_length_le hcap, closePairs, List.mem_filter,
    List.pair_mem_product, mem_points, mem_points, and_assoc, decide_eq_true_iff]
  refine and_congr_right (fun _ => and_congr_right (fun _ => ?_))
  simp only [displacement, V3.normSq]
  constructor
  · intro h
    obtain ⟨i, hi⟩ := wrap_shift (side := cfg.side) ((ps a).x - (ps b).x)
    obtain ⟨j, hj⟩ := wrap_shift (side := cfg.side) ((ps a).y - (ps b).y)
    obtain ⟨k, hk⟩ := wrap_shift (side := cfg.side) ((ps a).z - (ps b).z)
    refine ⟨i, j, k, ?_⟩
    rw [← hi, ← hj, ← hk, pow_two, pow_two, pow_two]
    exact h
  · rintro ⟨i, j, k, h⟩
    refine lt_of_le_of_lt ?_ h
    have h1 := wrap_le hside ((ps a).x - (ps b).x) i
    have h2 := wrap_le hside ((ps a).y - (ps b).y) j
    have h3 := wrap_le hside ((ps a).z - (ps b).z) k
    nlinarith

/-- Latents that agree but for edges that are not in the list. -/
def AgreeOn (E : List Edge) (a b : Latents V) : Prop :=
  (∀ e ∈ E, a.edge e = b.edge e) ∧ (∀ p, a.node p = b.node p) ∧ a.glob = b.glob

theorem apply_agree {T N : ℕ} {E : List Edge} (l : Propagation V) {enc enc' out out' : Latents V}
    (he : AgreeOn E enc' enc) (ho : AgreeOn E out' out) :
    AgreeOn E (l.apply T N E enc' out') (l.apply T N E enc out) := by
  obtain ⟨e1, e2, e3⟩ := he
  obtain ⟨o1, o2, o3⟩ := ho
  have hedge : ∀ e ∈ E, (l.apply T N E enc' out').edge e = (l.apply T N E enc out).edge e := by
    intro e he
    simp only [Propagation.apply, e1 e he, e2, e3, o1 e he, o2, o3]
  have hsum : ∀ q : Edge → Bool, ((E.filter q).map (l.apply T N E enc' out').edge).sum =
      ((E.filter q).map (l.apply T N E enc out).edge).sum := by
    intro q
    congr 1
    exact List.map_congr_left fun e he => hedge e (List.mem_of_mem_filter he)
  have hnode : ∀ p, (l.apply T N E enc' out').node p = (l.apply T N E enc out).node p := by
    intro p
    have s1 := hsum (fun e => decide (e.1 = p))
    have s2 := hsum (fun e => decide (e.2 = p))
    simp only [Propagation.apply] at s1 s2 ⊢
    rw [s1, s2, o2, e2, o3, e3]
  refine ⟨hedge, hnode, ?_⟩
  have s := hsum (fun _ => true)
  have n : (l.apply T N E enc' out').node = (l.apply T N E enc out).node := funext hnode
  simp only [List.filter_true, Propagation.apply] at s n ⊢
  rw [n, s, o3, e3]

/-- C106 fails if an update that finds nothing moved does nothing: then the predictions do not depend on where the
points are. -/
theorem C106_blind (net : GraphNet F V) (cfg : GraphCfg) (hside : 0 < cfg.side) (T N : ℕ) (hT : 0 < T) (hN : 0 < N)
    (ps qs : Point → V3) (fs : Point → F) : net.predict true cfg T N ps fs = net.predict true cfg T N qs fs := by
  have hE : ∀ rs, graphEdges true cfg T N rs = List.replicate cfg.capacity ((0, 0), (0, 0)) := by
    intro rs
    rw [graphEdges, needsUpdate_self true hside hT hN]
    rfl
  have henc : AgreeOn (List.replicate cfg.capacity ((0, 0), (0, 0))) (net.encode cfg ps fs) (net.encode cfg qs fs) := by
    refine ⟨?_, fun _ => rfl, rfl⟩
    intro e he
    rw [List.eq_of_mem_replicate he]
    simp only [GraphNet.encode, displacement_self hside]
  have key : ∀ (ls : List (Propagation V)) (o o' : Latents V),
      AgreeOn (List.replicate cfg.capacity ((0, 0), (0, 0))) o' o →
      AgreeOn (List.replicate cfg.capacity ((0, 0), (0, 0)))
        (ls.foldl (fun out l => l.apply T N (List.replicate cfg.capacity ((0, 0), (0, 0))) (net.encode cfg ps fs) out) o')
        (ls.foldl (fun out l => l.apply T N (List.replicate cfg.capacity ((0, 0), (0, 0))) (net.encode cfg qs fs) out) o) := by
    intro ls
    induction ls with
    | nil => intro o o' ho; exact ho
    | cons l ls ih => intro o o' ho; exact ih _ _ (apply_agree l henc ho)
  obtain ⟨-, hn, hg⟩ := key net.layers _ _ henc
  simp only [GraphNet.predict, GraphNet.latents, hE, hn, hg]

/-! ### Cases -/

/-- A network whose displacements count the edges that come in. -/
def countingNet : GraphNet Unit ℝ where
  encodeEdge := fun _ => 0
  encodeNode := fun _ => 0
  encodeGlob := 0
  layers := [⟨fun _ _ _ _ => 1, fun _ _ received _ => received, fun _ _ _ => 0⟩]
  decodeGlob := fun _ _ => ⟨0, 0⟩
  decodeLocal := fun v => ⟨v, 0⟩
  decodePool := fun _ => ⟨0, 0⟩

/-- Two points three apart, in one time step. -/
noncomputable def twoPoints (p : Point) : V3 := if p.2 = 0 then ⟨0, 0, 0⟩ else ⟨3, 0, 0⟩

/-- A box with sides of 10, edges up to 1 and a list of the given length. -/
noncomputable def smallCfg (capacity : ℕ) : GraphCfg := ⟨10, 1, capacity⟩

/-- The two points exchanged. -/
def exchange (_ : ℕ) : Equiv.Perm ℕ := Equiv.swap 0 1

theorem exchange_renames : Renames 2 exchange := by
  intro t n hn
  have : n = 0 ∨ n = 1 := by omega
  rcases this with rfl | rfl <;> simp [exchange]

theorem wrap_ten (d : ℝ) (h1 : -5 ≤ d) (h2 : d < 5) : wrap 10 d = d := by
  have : ⌊(d + 10 / 2) / 10⌋ = 0 := by
    rw [Int.floor_eq_zero_iff]
    constructor
    · apply div_nonneg <;> linarith
    · rw [div_lt_one (by norm_num)]; linarith
  rw [wrap, pyMod, this]
  push_cast
  ring

theorem twoPoints_close (c : ℕ) : closePairs (smallCfg c) 1 2 twoPoints = [((0, 0), (0, 0)), ((0, 1), (0, 1))] := by
  have e : (points 1 2).product (points 1 2) =
      [((0, 0), (0, 0)), ((0, 0), (0, 1)), ((0, 1), (0, 0)), ((0, 1), (0, 1))] := rfl
  have w0 : wrap 10 0 = 0 := wrap_ten 0 (by norm_num) (by norm_num)
  have w1 : wrap 10 3 = 3 := wrap_ten 3 (by norm_num) (by norm_num)
  have w2 : wrap 10 (-3) = -3 := wrap_ten (-3) (by norm_num) (by norm_num)
  rw [closePairs, e]
  simp only [List.filter_cons, List.filter_nil, smallCfg, displacement, twoPoints, V3.normSq]
  norm_num [w0, w1, w2]

theorem twoPoints_close' (c : ℕ) : closePairs (smallCfg c) 1 2 (fun p => twoPoints (rename exchange p)) =
    [((0, 0), (0, 0)), ((0, 1), (0, 1))] := by
  have e : (points 1 2).product (points 1 2) =
      [((0, 0), (0, 0)), ((0, 0), (0, 1)), ((0, 1), (0, 0)), ((0, 1), (0, 1))] := rfl
  have w0 : wrap 10 0 = 0 := wrap_ten 0 (by norm_num) (by norm_num)
  have w1 : wrap 10 3 = 3 := wrap_ten 3 (by norm_num) (by norm_num)
  have w2 : wrap 10 (-3) = -3 := wrap_ten (-3) (by norm_num) (by norm_num)
  rw [closePairs, e]
  simp only [List.filter_cons, List.filter_nil, smallCfg, displacement, twoPoints, V3.normSq, rename, exchange]
  norm_num [w0, w1, w2]

/-- C106 fails if the list is too short for the pairs: two points, far from each other, are each their own
neighbour, and only the one that comes first gets an edge.  Nothing is raised. -/
theorem C106_overflow :
    let a := countingNet.predict false (smallCfg 1) 1 2 twoPoints (fun _ => ())
    let b := countingNet.predict false (smallCfg 1) 1 2 (fun p => twoPoints (rename exchange p)) (fun _ => ())
    Renames 2 exchange ∧ (closePairs (smallCfg 1) 1 2 twoPoints).length = 2 ∧
      a.displacement 0 0 = ⟨1, 0⟩ ∧ a.displacement 0 1 = ⟨0, 0⟩ ∧
      b.displacement 0 0 ≠ a.displacement 0 (exchange 0 0) := by
  intro a b
  have ha : a.displacement 0 0 = ⟨1, 0⟩ ∧ a.displacement 0 1 = ⟨0, 0⟩ := by
    simp only [a, GraphNet.predict]
    rw [graphEdges_rebuilt (by simp [smallCfg]) (by norm_num) (by norm_num), twoPoints_close]
    simp [smallCfg, GraphNet.latents, countingNet, Propagation.apply]
  have hb : b.displacement 0 0 = ⟨1, 0⟩ := by
    simp only [b, GraphNet.predict]
    rw [graphEdges_rebuilt (by simp [smallCfg]) (by norm_num) (by norm_num), twoPoints_close']
    simp [smallCfg, GraphNet.latents, countingNet, Propagation.apply]
  refine ⟨exchange_renames, by rw [twoPoints_close]; rfl, ha.1, ha.2, ?_⟩
  have : exchange 0 0 = 1 := by simp [exchange]
  rw [this, ha.2, hb]
  simp

/-- With a list of length 2 the hypotheses of `C106_order_partial` hold, and each point gets its edge. -/
example : (closePairs (smallCfg 2) 1 2 twoPoints).length ≤ (smallCfg 2).capacity ∧
    (countingNet.predict false (smallCfg 2) 1 2 twoPoints (fun _ => ())).displacement 0 1 = ⟨1, 0⟩ := by
  refine ⟨by rw [twoPoints_close]; rfl, ?_⟩
  simp only [GraphNet.predict]
  rw [graphEdges_rebuilt (by simp [smallCfg]) (by norm_num) (by norm_num), twoPoints_close]
  simp [smallCfg, GraphNet.latents, countingNet, Propagation.apply]

/-- If nothing is looked for, the first point gets all the edges. -/
example : (countingNet.predict true (smallCfg 7) 1 2 twoPoints (fun _ => ())).displacement 0 0 = ⟨7, 0⟩ ∧
    (countingNet.predict true (smallCfg 7) 1 2 twoPoints (fun _ => ())).displacement 0 1 = ⟨0, 0⟩ := by
  have h : graphEdges true (smallCfg 7) 1 2 twoPoints = List.replicate 7 ((0, 0), (0, 0)) := by
    rw [graphEdges, needsUpdate_self true (by simp [smallCfg]) (by norm_num) (by norm_num)]
    rfl
  simp only [GraphNet.predict, h]
  simp [GraphNet.latents, countingNet, Propagation.apply]

end PD.Props
