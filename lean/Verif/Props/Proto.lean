/- C58, C59, C60: writing objects to protocol buffers and reading them back. -/
import Verif.Model.Proto
import Verif.Spec.Proto
import Verif.Lemmas.Float32
import Verif.Props.Merge

set_option linter.unusedSectionVars false
set_option linter.unusedSimpArgs false

namespace PD.Props
open PD PD.Spec
variable {K : Type} [Field K] [LinearOrder K] [IsStrictOrderedRing K] [FloorRing K]

/-! ### Rounding -/

theorem roundHalfEven_nearest (x : K) (n : ℤ) : |(roundHalfEven x : K) - x| ≤ |(n : K) - x| := by
  by_cases h : |x - n| < 1 / 2
  · rw [roundHalfEven_eq_of_abs_lt h]
  · have := abs_roundHalfEven_sub_le x
    rw [abs_sub_comm (n : K) x]
    linarith

/-- A float32 number is a whole number of the units of `x`, or at most as large as the power of two below `x`. -/
theorem float_cases (x z : K) (hx : x ≠ 0) (hz : IsFloat32 z) :
    (∃ n : ℤ, z = n * ulp32 x) ∨ |z| ≤ 2 ^ Int.log 2 |x| ∧ -126 ≤ Int.log 2 |x| := by
  obtain ⟨m, k, rfl, hm, hk⟩ := hz
  by_cases h : max (Int.log 2 |x|) (-126) - 23 ≤ k
  · left
    obtain ⟨d, hd⟩ : ∃ d : ℕ, k = (max (Int.log 2 |x|) (-126) - 23) + d :=
      ⟨(k - (max (Int.log 2 |x|) (-126) - 23)).toNat, by omega⟩
    refine ⟨m * 2 ^ d, ?_⟩
    unfold ulp32
    conv_lhs => rw [hd, zpow_add₀ (by norm_num)]
    push_cast
    rw [zpow_natCast]
    ring
  · right
    have hl : -126 ≤ Int.log 2 |x| := by omega
    refine ⟨?_, hl⟩
    rw [abs_mul, abs_of_pos (show (0 : K) < 2 ^ k by positivity)]
    have h1 : |(m : K)| ≤ 2 ^ (24 : ℤ) := by exact_mod_cast hm
    calc |(m : K)| * 2 ^ k ≤ 2 ^ (24 : ℤ) * 2 ^ k := mul_le_mul_of_nonneg_right h1 (by positivity)
      _ = 2 ^ (24 + k) := by rw [zpow_add₀ (by norm_num)]
      _ ≤ 2 ^ Int.log 2 |x| := zpow_le_zpow_right₀ (by norm_num) (by omega)

theorem ulp_nearest (x : K) (n : ℤ) : |f32 x - x| ≤ |n * ulp32 x - x| := by
  have hu := ulp32_pos x
  have h := roundHalfEven_nearest (x / ulp32 x) n
  have e : ∀ a : K, a * ulp32 x - x = (a - x / ulp32 x) * ulp32 x := by
    intro a; field_simp
  unfold f32
  rw [e, e, abs_mul, abs_mul]
  exact mul_le_mul_of_nonneg_right h (abs_nonneg _)

theorem f32_zero : f32 (0 : K) = 0 := by
  have := f32_int (K := K) 0 (by norm_num)
  simpa using this

theorem f32_rounded (x : K) : Rounded x (f32 x) := by
  obtain ⟨m, k, h, hm, hk, _⟩ := f32_form x
  refine ⟨⟨m, k, h, hm, hk⟩, ?_⟩
  intro z hz
  by_cases hx : x = 0
  · subst hx
    rw [f32_zero]; simp
  rcases float_cases x z hx hz with ⟨n, rfl⟩ | ⟨hz', hl⟩
  · exact ulp_nearest x n
  · -- the power of two below `x` is nearer than `z`
    have hP := zpow_log_le x hx
    have hu : ulp32 x * 2 ^ 23 = 2 ^ Int.log 2 |x| := by
      unfold ulp32
      rw [max_eq_left hl, zpow_sub₀ (by norm_num)]
      norm_cast
      field_simp
    rcases lt_or_gt_of_ne hx with hn | hp
    · have := ulp_nearest x (-2 ^ 23)
      refine this.trans ?_
      push_cast
      rw [abs_of_neg hn] at *
      have e : -8388608 * ulp32 x = - 2 ^ Int.log 2 (-x) := by rw [← hu]; ring
      rw [e]
      have := neg_abs_le z
      rw [abs_of_nonneg (by linarith), abs_of_nonneg (by linarith)]
      linarith
    · have := ulp_nearest x (2 ^ 23)
      refine this.trans ?_
      push_cast
      rw [abs_of_pos hp] at *
      have e : 8388608 * ulp32 x = 2 ^ Int.log 2 x := by rw [← hu]; ring
      rw [e]
      have := le_abs_self z
      rw [abs_of_nonpos (by linarith), abs_of_nonpos (by linarith)]
      linarith

/-! ### Times -/

/-- The time read back. -/
def keptTime (K : Type) [Field K] [LinearOrder K] [FloorRing K] (t : Timedelta) : Timedelta :=
  ofSeconds (f32 (totalSeconds t : K))

theorem keptTime_small (t : Timedelta) (ht : |t| < 16000000) : keptTime K t = t := by
  unfold keptTime ofSeconds
  apply roundHalfEven_eq_of_abs_lt
  set x : K := totalSeconds t with hx
  have ht' : |(t : K)| < 16000000 := by exact_mod_cast ht
  have hx16 : |x| < 2 ^ (4 : ℤ) := by
    rw [hx]; unfold totalSeconds
    rw [abs_div, abs_of_pos (show (0 : K) < 1000000 by norm_num), div_lt_iff₀ (by norm_num)]
    norm_num; linarith
  have hl : Int.log 2 |x| ≤ 3 := by
    by_cases h0 : x = 0
    · rw [h0]; simp
    have := lt_of_le_of_lt (zpow_log_le x h0) hx16
    have := (zpow_lt_zpow_iff_right₀ (show (1 : K) < 2 by norm_num)).1 this
    omega
  have hu : ulp32 x ≤ 1 / 2 ^ 20 := by
    unfold ulp32
    have : (1 : K) / 2 ^ 20 = 2 ^ (-20 : ℤ) := by norm_num
    rw [this]
    exact zpow_le_zpow_right₀ (by norm_num) (by omega)
  have h1 := abs_f32_sub_le_ulp x
  have e : f32 x * 1000000 - (t : K) = (f32 x - x) * 1000000 := by
    rw [hx]; unfold totalSeconds; ring
  rw [e, abs_mul, abs_of_pos (show (0 : K) < 1000000 by norm_num)]
  have h2 : |f32 x - x| ≤ 1 / 2 ^ 20 / 2 := by linarith
  calc |f32 x - x| * 1000000 ≤ 1 / 2 ^ 20 / 2 * 1000000 := mul_le_mul_of_nonneg_right h2 (by norm_num)
    _ < 1 / 2 := by norm_num

theorem timeKept (t : Timedelta) : TimeKept K t (keptTime K t) :=
  ⟨keptTime_small t, f32 (totalSeconds t), f32_rounded _, abs_roundHalfEven_sub_le _⟩

theorem f32_pow (j : ℤ) (hj : -149 ≤ j) : f32 ((2 : K) ^ j) = 2 ^ j ∧ f32 (-(2 : K) ^ j) = -2 ^ j := by
  have h1 := f32_of_mul (K := K) 1 j (by norm_num) hj
  have h2 := f32_of_mul (K := K) (-1) j (by norm_num) hj
  simpa using And.intro h1 h2

/-- A time that was read is written and read unchanged. -/
theorem keptTime_read (y : K) (hy : IsFloat32 y) : keptTime K (ofSeconds y) = ofSeconds y := by
  set T := ofSeconds y with hT
  by_cases hs : |T| < 16000000
  · exact keptTime_small T hs
  have hz16 : (16000000 : K) ≤ |(T : K)| := by
    rw [not_lt] at hs; exact_mod_cast hs
  set z : K := totalSeconds T with hz
  have hTz : (T : K) = z * 1000000 := by rw [hz]; unfold totalSeconds; field_simp
  have hza : (2 : K) ^ (4 : ℤ) ≤ |z| := by
    rw [hTz, abs_mul, abs_of_pos (show (0 : K) < 1000000 by norm_num)] at hz16
    norm_num; linarith
  have hz0 : z ≠ 0 := by
    intro h; rw [h] at hza; norm_num at hza
  have hl : 4 ≤ Int.log 2 |z| := by
    by_contra hc
    have h1 := lt_zpow_log z
    have h2 : (2 : K) ^ (Int.log 2 |z| + 1) ≤ 2 ^ (4 : ℤ) := zpow_le_zpow_right₀ (by norm_num) (by omega)
    linarith
  have hTy : |(T : K) - y * 1000000| ≤ 1 / 2 := abs_roundHalfEven_sub_le _
  have hu := ulp32_pos z
  have hu19 : 1 / 2 ^ 19 ≤ ulp32 z := by
    unfold ulp32
    have : (1 : K) / 2 ^ 19 = 2 ^ (-19 : ℤ) := by norm_num
    rw [this]
    exact zpow_le_zpow_right₀ (by norm_num) (by omega)
  show ofSeconds (f32 z) = T
  rcases float_cases z y hz0 hy with ⟨n, hn⟩ | ⟨hyP, _⟩
  · -- `z` rounds to `y`
    have : f32 z = y := by
      unfold f32
      rw [hn]
      congr 2
      apply roundHalfEven_eq_of_abs_lt
      have e : z / ulp32 z - n = ((T : K) - y * 1000000) / (1000000 * ulp32 z) := by
        rw [hTz, hn]; field_simp
      rw [e, abs_div, abs_of_pos (show 0 < 1000000 * ulp32 z by positivity), div_lt_iff₀ (by positivity)]
      have : (1000000 : K) * (1 / 2 ^ 19) ≤ 1000000 * ulp32 z := by linarith
      norm_num at this
      linarith
    rw [this]
  · -- `z` is a power of two
    obtain ⟨j, hj⟩ : ∃ j : ℕ, Int.log 2 |z| = j := ⟨(Int.log 2 |z|).toNat, by omega⟩
    have hPle := zpow_log_le z hz0
    have hup : (T : K) ≤ (2 : K) ^ Int.log 2 |z| * 1000000 := by
      have h1 : y * 1000000 ≤ (((2 : ℤ) ^ j * 1000000 : ℤ) : K) := by
        have := (le_abs_self y).trans hyP
        rw [hj] at this
        push_cast
        rw [zpow_natCast] at this
        linarith
      have h2 := roundHalfEven_mono h1
      rw [roundHalfEven_intCast] at h2
      have h3 : (T : K) ≤ (((2 : ℤ) ^ j * 1000000 : ℤ) : K) := by exact_mod_cast h2
      push_cast at h3
      rw [hj, zpow_natCast]; exact h3
    have hlo : -((2 : K) ^ Int.log 2 |z| * 1000000) ≤ (T : K) := by
      have h1 : (((-((2 : ℤ) ^ j * 1000000)) : ℤ) : K) ≤ y * 1000000 := by
        have := neg_le_of_neg_le ((neg_le_abs y).trans hyP)
        rw [hj] at this
        push_cast
        rw [zpow_natCast] at this
        linarith
      have h2 := roundHalfEven_mono h1
      rw [roundHalfEven_intCast] at h2
      have h3 : (((-((2 : ℤ) ^ j * 1000000)) : ℤ) : K) ≤ (T : K) := by exact_mod_cast h2
      push_cast at h3
      rw [hj, zpow_natCast]; exact h3
    rw [hTz] at hup hlo
    have hzP : |z| = 2 ^ Int.log 2 |z| := by
      apply le_antisymm _ hPle
      rw [abs_le]
      constructor <;> linarith
    have hfix : f32 z = z := by
      have hp := f32_pow (K := K) (Int.log 2 |z|) (by omega)
      rcases abs_choice z with h | h
      · rw [h] at hzP
        have := hp.1
        rw [h] at this
        rw [← hzP] at this
        exact this
      · have h' : z = -(2 : K) ^ Int.log 2 |z| := by rw [← hzP, h]; ring
        have := hp.2
        rw [← h'] at this
        exact this
    rw [hfix]
    unfold ofSeconds
    rw [← hTz, roundHalfEven_intCast]

/-! ### Points, grids, controls -/

/-- The point read back. -/
def keptPoint (p : V2 K) : V2 K := ⟨f32 p.x, f32 p.y⟩

theorem pointFrom_to (p : V2 K) : pointFromProto (pointToProto p) = keptPoint p := rfl

theorem keptPoint_idem (p : V2 K) : keptPoint (keptPoint p) = keptPoint p := by
  simp [keptPoint, f32_idem]

theorem pointKept (p : V2 K) : PointKept p (keptPoint p) := ⟨f32_rounded _, f32_rounded _⟩

theorem mapM_each {α β : Type} {f : α → Except Err β} {xs : List α} {ys : List β}
    (h : xs.mapM f = .ok ys) : List.Forall₂ (fun x y => f x = .ok y) xs ys := by
  induction xs generalizing ys with
  | nil =>
    have : ys = [] := by
      have : (Except.ok [] : Except Err (List β)) = .ok ys := h
      cases this; rfl
    subst this; exact .nil
  | cons x xs ih =>
    rw [List.mapM_cons] at h
    cases hx : f x with
    | error e => rw [hx] at h; cases h
    | ok y =>
      rw [hx] at h
      cases hxs : xs.mapM f with
      | error e => rw [hxs] at h; cases h
      | ok zs =>
        rw [hxs] at h
        have : (Except.ok (y :: zs) : Except Err (List β)) = .ok ys := h
        cases this
        exact .cons hx (ih hxs)

theorem isInt32_iff (n : ℤ) : isInt32 n = true ↔ -2 ^ 31 ≤ n ∧ n < 2 ^ 31 := by
  simp [isInt32]

/-- When a grid can be written. -/
def CanWrite (g : Grid K) : Prop :=
  ∀ i, i < g.positions.length → ∃ n, g.numbers[i]? = some n ∧ -2 ^ 31 ≤ n ∧ n < 2 ^ 31

/-- The grid read back. -/
def keptGrid (g : Grid K) : Grid K := ⟨g.positions.map keptPoint, g.numbers.take g.positions.length⟩

theorem gridToProto_ok (g : Grid K) (h : CanWrite g) :
    ∃ m, gridToProto g = .ok m ∧ gridFromProto m = keptGrid g := by
  have hlen : g.positions.length ≤ g.numbers.length := by
    by_contra hc
    push Not at hc
    obtain ⟨n, hn, _⟩ := h g.numbers.length hc
    simp at hn
  have h1 : (List.range g.positions.length).mapM (atomToProto g) =
      .ok ((List.range g.positions.length).map (fun i =>
        (⟨some (g.numbers.getD i 0), some (pointToProto (g.positions.getD i 0))⟩ : PAtom K))) := by
    apply mapM_pure'
    intro i hi
    rw [List.mem_range] at hi
    obtain ⟨n, hn, hb⟩ := h i hi
    have hp : g.positions[i]? = some g.positions[i] := List.getElem?_eq_getElem hi
    unfold atomToProto
    rw [hn, hp]
    simp only [(isInt32_iff n).2 hb, if_true, List.getD_eq_getElem?_getD, hn, hp, Option.getD_some]
  refine ⟨_, by unfold gridToProto; rw [h1], ?_⟩
  unfold gridFromProto keptGrid
  congr 1
  · apply List.ext_getElem?
    intro i
    by_cases hi : i < g.positions.length
    · simp [hi, pointFrom_to]
    · simp [hi]
  · apply List.ext_getElem?
    intro i
    by_cases hi : i < g.positions.length
    · have hi' : i < g.numbers.length := by omega
      simp [hi, hi', List.getElem?_take]
    · simp [hi, List.getElem?_take]

theorem canWrite_of_ok (g : Grid K) (m : PGrid K) (h : gridToProto g = .ok m) : CanWrite g := by
  unfold gridToProto at h
  cases hm : (List.range g.positions.length).mapM (atomToProto g) with
  | error e => rw [hm] at h; cases h
  | ok atoms =>
    have hf := mapM_each hm
    intro i hi
    have hi2 : i < atoms.length := by rw [← hf.length_eq]; simpa using hi
    have hget := hf.get (i := i) (by simpa using hi) hi2
    simp only [List.get_eq_getElem, List.getElem_range] at hget
    unfold atomToProto at hget
    split at hget
    · rename_i n p hn hp
      split at hget
      · rename_i hb
        exact ⟨n, hn, (isInt32_iff n).1 hb⟩
      · cases hget
    · cases hget

theorem gridToProto_ok_iff (g : Grid K) (m : PGrid K) (h : gridToProto g = .ok m) :
    gridFromProto m = keptGrid g := by
  obtain ⟨m', h1, h2⟩ := gridToProto_ok g (canWrite_of_ok g m h)
  rw [h] at h1
  cases h1
  exact h2

theorem canWrite_kept (g : Grid K) (h : CanWrite g) : CanWrite (keptGrid g) := by
  intro i hi
  have hi' : i < g.positions.length := by simpa [keptGrid] using hi
  obtain ⟨n, hn, hb⟩ := h i hi'
  exact ⟨n, by simp [keptGrid, List.getElem?_take, hi', hn], hb⟩

theorem keptGrid_idem (g : Grid K) : keptGrid (keptGrid g) = keptGrid g := by
  unfold keptGrid
  congr 1
  · simp [keptPoint_idem, Function.comp_def]
  · simp

theorem canWrite_of_fits (g : Grid K) (h : GridFits g) : CanWrite g := by
  intro i hi
  have hi' : i < g.numbers.length := by rw [h.1]; exact hi
  exact ⟨g.numbers[i], List.getElem?_eq_getElem hi', h.2 _ (List.getElem_mem hi')⟩

theorem forall₂_map_self {α β : Type} {R : α → β → Prop} {f : α → β} {xs : List α}
    (h : ∀ x ∈ xs, R x (f x)) : List.Forall₂ R xs (xs.map f) := by
  induction xs with
  | nil => exact .nil
  | cons x xs ih => exact .cons (h x (by simp)) (ih (fun y hy => h y (List.mem_cons_of_mem _ hy)))

theorem gridKept (g : Grid K) (h : GridFits g) : GridKept g (keptGrid g) := by
  refine ⟨forall₂_map_self (fun p _ => pointKept p), ?_⟩
  simp [keptGrid, ← h.1]

/-- The control read back. -/
def keptControl (c : BeamControl K) : BeamControl K :=
  ⟨keptPoint c.position, keptTime K c.dwellTime, some ((c.voltageKv.map f32).getD 0),
    some ((c.currentNa.map f32).getD 0)⟩

theorem controlFrom_to (c : BeamControl K) : controlFromProto (controlToProto c) = keptControl c := rfl

theorem keptTime_idem (t : Timedelta) : keptTime K (keptTime K t) = keptTime K t :=
  keptTime_read _ (f32_rounded (totalSeconds t)).1

theorem keptControl_idem (c : BeamControl K) : keptControl (keptControl c) = keptControl c := by
  have h : ∀ v : Option K, ((some ((v.map f32).getD 0)).map f32).getD 0 = (v.map f32).getD 0 := by
    intro v
    cases v with
    | none => simp [f32_zero]
    | some v => simp [f32_idem]
  unfold keptControl
  simp only [keptPoint_idem, keptTime_idem, h]

theorem controlKept (c : BeamControl K) (h : ControlFull c) : ControlKept c (keptControl c) := by
  obtain ⟨hv, hc⟩ := h
  refine ⟨pointKept _, timeKept _, ?_, ?_⟩
  · obtain ⟨v, hv⟩ := Option.ne_none_iff_exists'.1 hv
    rw [hv]
    simp only [keptControl, hv, Option.map_some, Option.getD_some]
    exact .some (f32_rounded v)
  · obtain ⟨v, hv⟩ := Option.ne_none_iff_exists'.1 hc
    rw [hv]
    simp only [keptControl, hv, Option.map_some, Option.getD_some]
    exact .some (f32_rounded v)

/-- The field of view read back. -/
def keptFov (f : Fov K) : Fov K := ⟨keptPoint f.lowerLeft, keptPoint f.upperRight⟩

theorem fovFrom_to (f : Fov K) : fovFromProto (fovToProto f) = keptFov f := rfl

theorem keptFov_idem (f : Fov K) : keptFov (keptFov f) = keptFov f := by
  simp [keptFov, keptPoint_idem]

theorem fovKept (f : Fov K) : FovKept f (keptFov f) := ⟨pointKept _, pointKept _⟩

variable {Img : Type}

/-- The observation read back. -/
def keptObservation (o : Observation K Img) : Observation K Img :=
  ⟨keptGrid o.grid, keptFov o.fov, o.controls.map keptControl, keptTime K o.elapsedTime, o.image, o.labelImage⟩

theorem observationFrom_to (o : Observation K Img) (m : PObservation K Img)
    (h : observationToProto o = .ok m) :
    observationFromProto m = keptObservation o ∧ CanWrite o.grid := by
  unfold observationToProto at h
  cases hg : gridToProto o.grid with
  | error e => rw [hg] at h; cases h
  | ok g =>
    rw [hg] at h
    simp only [Except.ok.injEq] at h
    subst h
    refine ⟨?_, canWrite_of_ok _ _ hg⟩
    simp only [observationFromProto, keptObservation, Option.getD_some, gridToProto_ok_iff _ _ hg,
      fovFrom_to, List.map_map]
    rfl

theorem observationTo (o : Observation K Img) (h : CanWrite o.grid) :
    ∃ m, observationToProto o = .ok m ∧ observationFromProto m = keptObservation o := by
  obtain ⟨g, hg, _⟩ := gridToProto_ok o.grid h
  have : ∃ m, observationToProto o = .ok m := by
    unfold observationToProto; rw [hg]; exact ⟨_, rfl⟩
  obtain ⟨m, hm⟩ := this
  exact ⟨m, hm, (observationFrom_to o m hm).1⟩

theorem map_idem {α : Type} {f : α → α} (h : ∀ x, f (f x) = f x) (xs : List α) :
    (xs.map f).map f = xs.map f := by
  rw [List.map_map]; exact List.map_congr_left (fun x _ => h x)

theorem keptObservation_idem (o : Observation K Img) :
    keptObservation (keptObservation o) = keptObservation o := by
  simp only [keptObservation, keptGrid_idem, keptFov_idem, keptTime_idem, map_idem keptControl_idem]

theorem observationKept (o : Observation K Img) (hg : GridFits o.grid) (hc : ∀ c ∈ o.controls, ControlFull c) :
    ObservationKept o (keptObservation o) :=
  ⟨gridKept _ hg, fovKept _, forall₂_map_self (fun c h => controlKept c (hc c h)), timeKept _, rfl, rfl⟩

theorem trajectoryTo (os : List (Observation K Img)) (h : ∀ o ∈ os, CanWrite o.grid) :
    ∃ ms, trajectoryToProto os = .ok ms ∧ trajectoryFromProto ms = os.map keptObservation := by
  induction os with
  | nil => exact ⟨[], rfl, rfl⟩
  | cons o os ih =>
    obtain ⟨m, hm, hf⟩ := observationTo o (h o (by simp))
    obtain ⟨ms, hms, hfs⟩ := ih (fun p hp => h p (List.mem_cons_of_mem _ hp))
    refine ⟨m :: ms, ?_, ?_⟩
    · unfold trajectoryToProto at *
      rw [List.mapM_cons, hm, hms]; rfl
    · unfold trajectoryFromProto at *
      rw [List.map_cons, List.map_cons, hf, hfs]

theorem trajectoryFrom_to (os : List (Observation K Img)) (ms : List (PObservation K Img))
    (h : trajectoryToProto os = .ok ms) :
    trajectoryFromProto ms = os.map keptObservation ∧ ∀ o ∈ os, CanWrite o.grid := by
  have hf := mapM_each h
  clear h
  induction hf with
  | nil => exact ⟨rfl, by simp⟩
  | cons h1 h2 ih =>
    obtain ⟨a, b⟩ := observationFrom_to _ _ h1
    refine ⟨?_, ?_⟩
    · unfold trajectoryFromProto at *
      rw [List.map_cons, List.map_cons, a, ih.1]
    · intro p hp
      rcases List.mem_cons.1 hp with rfl | hp
      · exact b
      · exact ih.2 p hp

/-! ### C58 -/

/-- C58: what is written and read of a grid, a control, a field of view, an observation and a trajectory.
Missing from the full claim: controls without voltage or current, see `C58_none_becomes_zero`. -/
theorem C58_kept_partial :
    (∀ g : Grid K, GridFits g → ∃ m, gridToProto g = .ok m ∧ GridKept g (gridFromProto m)) ∧
    (∀ c : BeamControl K, ControlFull c → ControlKept c (controlFromProto (controlToProto c))) ∧
    (∀ f : Fov K, FovKept f (fovFromProto (fovToProto f))) ∧
    (∀ o : Observation K Img, GridFits o.grid → (∀ c ∈ o.controls, ControlFull c) →
      ∃ m, observationToProto o = .ok m ∧ ObservationKept o (observationFromProto m)) ∧
    (∀ os : List (Observation K Img), (∀ o ∈ os, GridFits o.grid ∧ ∀ c ∈ o.controls, ControlFull c) →
      ∃ m, trajectoryToProto os = .ok m ∧ List.Forall₂ ObservationKept os (trajectoryFromProto m)) := by
  refine ⟨?_, ?_, fun f => fovKept f, ?_, ?_⟩
  · intro g hg
    obtain ⟨m, h1, h2⟩ := gridToProto_ok g (canWrite_of_fits g hg)
    exact ⟨m, h1, h2 ▸ gridKept g hg⟩
  · intro c hc
    exact controlKept c hc
  · intro o hg hc
    obtain ⟨m, h1, h2⟩ := observationTo o (canWrite_of_fits _ hg)
    exact ⟨m, h1, h2 ▸ observationKept o hg hc⟩
  · intro os h
    obtain ⟨m, h1, h2⟩ := trajectoryTo os (fun o ho => canWrite_of_fits _ (h o ho).1)
    exact ⟨m, h1, h2 ▸ forall₂_map_self (fun o ho => observationKept o (h o ho).1 (h o ho).2)⟩

/-- C58: rounding to float32 moves a number by at most a part in 2^24 (or, for tiny numbers, by at most
2^-150). -/
theorem C58_precision (x y : K) (h : Rounded x y) : |y - x| ≤ max (|x| / 2 ^ 24) (2 ^ (-150 : ℤ)) := by
  have h1 := h.2 (f32 x) (f32_rounded x).1
  by_cases hx : (2 : K) ^ (-126 : ℤ) ≤ |x|
  · exact (h1.trans (abs_f32_sub_le x hx)).trans (le_max_left _ _)
  · exact (h1.trans (abs_f32_sub_le_small x (not_le.1 hx))).trans (le_max_right _ _)

/-- C58: a second round trip changes nothing, whatever the first one read (of any object that could be
written, also with missing voltages). -/
theorem C58_second_trip :
    (∀ (g : Grid K) m, gridToProto g = .ok m →
      ∃ m', gridToProto (gridFromProto m) = .ok m' ∧ gridFromProto m' = gridFromProto m) ∧
    (∀ c : BeamControl K, let d := controlFromProto (controlToProto c)
      controlFromProto (controlToProto d) = d) ∧
    (∀ f : Fov K, let d := fovFromProto (fovToProto f)
      fovFromProto (fovToProto d) = d) ∧
    (∀ (o : Observation K Img) m, observationToProto o = .ok m →
      ∃ m', observationToProto (observationFromProto m) = .ok m' ∧
        observationFromProto m' = observationFromProto m) ∧
    (∀ (os : List (Observation K Img)) m, trajectoryToProto os = .ok m →
      ∃ m', trajectoryToProto (trajectoryFromProto m) = .ok m' ∧
        trajectoryFromProto m' = trajectoryFromProto m) := by
  refine ⟨?_, ?_, ?_, ?_, ?_⟩
  · intro g m h
    rw [gridToProto_ok_iff g m h]
    obtain ⟨m', h1, h2⟩ := gridToProto_ok (keptGrid g) (canWrite_kept g (canWrite_of_ok g m h))
    exact ⟨m', h1, by rw [h2, keptGrid_idem]⟩
  · intro c
    simp only [controlFrom_to, keptControl_idem]
  · intro f
    simp only [fovFrom_to, keptFov_idem]
  · intro o m h
    obtain ⟨a, b⟩ := observationFrom_to o m h
    rw [a]
    obtain ⟨m', h1, h2⟩ := observationTo (keptObservation o) (canWrite_kept _ b)
    exact ⟨m', h1, by rw [h2, keptObservation_idem]⟩
  · intro os m h
    obtain ⟨a, b⟩ := trajectoryFrom_to os m h
    rw [a]
    obtain ⟨m', h1, h2⟩ := trajectoryTo (os.map keptObservation) (by
      intro o ho
      obtain ⟨p, hp, rfl⟩ := List.mem_map.1 ho
      exact canWrite_kept _ (b p hp))
    exact ⟨m', h1, by rw [h2, map_idem keptObservation_idem]⟩

/-- C58: exactly which grids can be written: there must be a number for every atom, and it must fit. -/
theorem C58_writable (g : Grid K) :
    (∃ m, gridToProto g = .ok m) ↔
      ∀ i, i < g.positions.length → ∃ n, g.numbers[i]? = some n ∧ -2 ^ 31 ≤ n ∧ n < 2 ^ 31 :=
  ⟨fun ⟨m, h⟩ => canWrite_of_ok g m h, fun h => let ⟨m, h1, _⟩ := gridToProto_ok g h; ⟨m, h1⟩⟩

/-- C58, false in general: a control without voltage (or current) is read back with voltage (current) 0. -/
theorem C58_none_becomes_zero (c : BeamControl K) (h : c.voltageKv = none ∨ c.currentNa = none) :
    (c.voltageKv = none → (controlFromProto (controlToProto c)).voltageKv = some 0) ∧
    (c.currentNa = none → (controlFromProto (controlToProto c)).currentNa = some 0) ∧
    ¬ ControlKept c (controlFromProto (controlToProto c)) := by
  refine ⟨fun hv => ?_, fun hv => ?_, ?_⟩
  · simp [controlToProto, controlFromProto, hv]
  · simp [controlToProto, controlFromProto, hv]
  · rintro ⟨_, _, hv, hc⟩
    rcases h with h | h
    · rw [h] at hv; cases hv
    · rw [h] at hc; cases hc

/-- An observation of two atoms, with one control and an image. -/
def sampleObservation : Observation ℚ ℕ where
  grid := ⟨[⟨1/3, 1/2⟩, ⟨2/3, 1/7⟩], [6, 14]⟩
  fov := ⟨⟨-10, -10⟩, ⟨10, 10⟩⟩
  controls := [⟨⟨1/3, 1/3⟩, 1500000, some 60, some (1/10)⟩]
  elapsedTime := 12345678
  image := some 7
  labelImage := none

example : GridFits sampleObservation.grid ∧ ∀ c ∈ sampleObservation.controls, ControlFull c := by
  refine ⟨⟨rfl, by decide⟩, ?_⟩
  intro c hc
  simp only [sampleObservation, List.mem_singleton] at hc
  subst hc
  simp [ControlFull]

example : Rounded (1/3 : ℚ) (f32 (1/3)) ∧ f32 (1/3 : ℚ) ≠ 1/3 := by
  refine ⟨f32_rounded _, ?_⟩
  obtain ⟨m, k, h, _, _⟩ := (f32_rounded (1/3 : ℚ)).1
  rw [h]
  intro hc
  have hk : (2 : ℚ) ^ k ≠ 0 := by positivity
  rcases le_or_gt 0 k with h0 | h0
  · obtain ⟨n, rfl⟩ := Int.eq_ofNat_of_zero_le h0
    rw [zpow_natCast] at hc
    have : (3 * (m * 2 ^ n) : ℤ) = 1 := by
      have : (3 * (m * 2 ^ n) : ℚ) = 1 := by linarith
      exact_mod_cast this
    omega
  · obtain ⟨n, hn⟩ := Int.eq_ofNat_of_zero_le (show 0 ≤ -k by omega)
    have hk' : k = -(n : ℤ) := by omega
    rw [hk', zpow_neg, zpow_natCast, ← div_eq_mul_inv, div_eq_div_iff (by positivity) (by norm_num)] at hc
    have h3 : m * 3 = 1 * 2 ^ n := by exact_mod_cast hc
    have h2 : ∀ n : ℕ, (2 : ℤ) ^ n % 3 ≠ 0 := by
      intro n
      induction n with
      | zero => norm_num
      | succ n ih => rw [pow_succ]; omega
    have := h2 n
    omega

/-! ### C59 -/

/-- The transition read back. -/
def keptTransition (t : Transition K Img) : Transition K Img :=
  ⟨keptGrid t.gridBefore, keptGrid t.gridAfter, keptFov t.fovBefore, keptFov t.fovAfter,
    t.controls.map keptControl, t.imageBefore, t.imageAfter, t.labelImageBefore, t.labelImageAfter⟩

theorem labelToProto_same (i l : Option Img) (h : i.isSome = l.isSome) : labelToProto i l = .ok l := by
  cases i <;> cases l <;> simp_all [labelToProto]

/-- C59: a transition survives if each of its label images is present exactly when the image is.
Missing from the full claim: the other combinations, see `C59_label_lost` and `C59_label_missing`. -/
theorem C59_kept_partial (t : Transition K Img) (hb : GridFits t.gridBefore) (ha : GridFits t.gridAfter)
    (hc : ∀ c ∈ t.controls, ControlFull c)
    (h1 : t.imageBefore.isSome = t.labelImageBefore.isSome)
    (h2 : t.imageAfter.isSome = t.labelImageAfter.isSome) :
    ∃ m, transitionToProto t = .ok m ∧ TransitionKept t (transitionFromProto m) ∧
      ∃ m', transitionToProto (transitionFromProto m) = .ok m' ∧
        transitionFromProto m' = transitionFromProto m := by
  obtain ⟨gb, hgb, hgb'⟩ := gridToProto_ok t.gridBefore (canWrite_of_fits _ hb)
  obtain ⟨ga, hga, hga'⟩ := gridToProto_ok t.gridAfter (canWrite_of_fits _ ha)
  obtain ⟨gb2, hgb2, hgb2'⟩ := gridToProto_ok _ (canWrite_kept _ (canWrite_of_fits _ hb))
  obtain ⟨ga2, hga2, hga2'⟩ := gridToProto_ok _ (canWrite_kept _ (canWrite_of_fits _ ha))
  refine ⟨_, by unfold transitionToProto; rw [labelToProto_same _ _ h1, labelToProto_same _ _ h2, hgb, hga], ?_, ?_⟩
  · simp only [transitionFromProto, Option.getD_some, hgb', hga', fovFrom_to, List.map_map]
    exact ⟨gridKept _ hb, gridKept _ ha, fovKept _, fovKept _,
      forall₂_map_self (fun c h => controlKept c (hc c h)), rfl, rfl, rfl, rfl⟩
  · refine ⟨_, by
      unfold transitionToProto
      simp only [transitionFromProto, Option.getD_some, hgb', hga']
      rw [labelToProto_same _ _ h1, labelToProto_same _ _ h2, hgb2, hga2], ?_⟩
    simp only [transitionFromProto, Option.getD_some, hgb2', hga2', hgb', hga', keptGrid_idem, fovFrom_to,
      keptFov_idem]
    congr 1
    have : ∀ cs : List (BeamControl K), (cs.map controlToProto).map controlFromProto = cs.map keptControl := by
      intro cs; rw [List.map_map]; rfl
    rw [this, this, map_idem keptControl_idem]

/-- C59, false in general: without an image, the label image is lost. -/
theorem C59_label_lost (t : Transition K Img) (m : PTransition K Img) (h : transitionToProto t = .ok m)
    (hi : t.imageBefore = none) (hl : t.labelImageBefore ≠ none) :
    (transitionFromProto m).labelImageBefore = none ∧ ¬ TransitionKept t (transitionFromProto m) := by
  have : (transitionFromProto m).labelImageBefore = none := by
    unfold transitionToProto at h
    rw [hi] at h
    simp only [labelToProto] at h
    split at h
    · cases h
    · split at h
      · cases h
      · split at h
        · cases h
        · cases h; rfl
  refine ⟨this, ?_⟩
  rintro ⟨_, _, _, _, _, _, _, hk, _⟩
  exact hl (by rw [← hk, this])

/-- C59, false in general: a transition with an image but no label image cannot be written at all. -/
theorem C59_label_missing (t : Transition K Img)
    (h : (t.imageBefore ≠ none ∧ t.labelImageBefore = none) ∨ (t.imageAfter ≠ none ∧ t.labelImageAfter = none)) :
    transitionToProto t = .error .valueError := by
  have key : ∀ i l : Option Img, i ≠ none → l = none → labelToProto i l = .error .valueError := by
    rintro (_ | i) l h1 rfl
    · exact absurd rfl h1
    · rfl
  have key2 : ∀ i l : Option Img, labelToProto i l = .error .valueError ∨ ∃ x, labelToProto i l = .ok x := by
    rintro (_ | i) (_ | l) <;> simp [labelToProto]
  unfold transitionToProto
  rcases h with ⟨h1, h2⟩ | ⟨h1, h2⟩
  · rw [key _ _ h1 h2]
  · rw [key _ _ h1 h2]
    rcases key2 t.imageBefore t.labelImageBefore with h | ⟨x, h⟩ <;> rw [h]

/-- A transition of an observation to itself, with chosen images. -/
def sampleTransition (i l : Option ℕ) : Transition ℚ ℕ :=
  ⟨sampleObservation.grid, sampleObservation.grid, sampleObservation.fov, sampleObservation.fov,
    sampleObservation.controls, i, none, l, none⟩

example : (∃ m, transitionToProto (sampleTransition none (some 3)) = .ok m) ∧
    (sampleTransition none (some 3)).labelImageBefore ≠ none := by
  obtain ⟨g, hg, _⟩ := gridToProto_ok sampleObservation.grid (canWrite_of_fits _ ⟨rfl, by decide⟩)
  exact ⟨⟨_, by unfold transitionToProto; simp only [sampleTransition, labelToProto]; rw [hg]⟩, by simp [sampleTransition]⟩

example : (sampleTransition (some 1) none).imageBefore ≠ none ∧ (sampleTransition (some 1) none).labelImageBefore = none :=
  ⟨by simp [sampleTransition], rfl⟩

/-! ### C60 -/

theorem truncate_int (n : ℤ) : truncate (n : K) = n := by
  unfold truncate; split <;> simp

theorem driftKept (d : Drift K) (i j : ℤ) (hd : d.drift = ⟨i, j⟩) (hi : |i| ≤ 2 ^ 24) (hj : |j| ≤ 2 ^ 24) :
    driftFromProto (driftToProto d) = ⟨d.jitter.map keptPoint, d.drift⟩ := by
  simp only [driftFromProto, driftToProto, hd, Option.getD_some, pointFrom_to, keptPoint, f32_int _ hi, f32_int _ hj,
    truncate_int, List.map_map]
  rfl

/-- C60: drifts of whole numbers (up to 2^24) survive, and the jitter always does.
Missing from the full claim: all other drifts, see `C60_fraction_lost`. -/
theorem C60_kept_partial (d : Drift K) :
    List.Forall₂ PointKept d.jitter (driftFromProto (driftToProto d)).jitter ∧
    (∀ i j : ℤ, d.drift = ⟨i, j⟩ → |i| ≤ 2 ^ 24 → |j| ≤ 2 ^ 24 →
      (driftFromProto (driftToProto d)).drift = d.drift ∧ DriftKept d (driftFromProto (driftToProto d))) := by
  refine ⟨?_, ?_⟩
  · simp only [driftFromProto, driftToProto, List.map_map]
    exact forall₂_map_self (fun p _ => pointKept p)
  · intro i j hd hi hj
    rw [driftKept d i j hd hi hj]
    refine ⟨rfl, forall₂_map_self (fun p _ => pointKept p), ?_⟩
    rw [hd]
    have h1 := f32_rounded (i : K)
    have h2 := f32_rounded (j : K)
    rw [f32_int _ hi] at h1
    rw [f32_int _ hj] at h2
    exact ⟨h1, h2⟩

/-- C60, false in general: a drift is read back with whole-number components towards zero, so a drift
whose components are below 1 (in Å, larger than most) is read back as zero. -/
theorem C60_fraction_lost (d : Drift K) :
    (∃ i j : ℤ, (driftFromProto (driftToProto d)).drift = ⟨i, j⟩) ∧
    (|f32 d.drift.x| < 1 → |f32 d.drift.y| < 1 → (driftFromProto (driftToProto d)).drift = 0) := by
  refine ⟨⟨_, _, rfl⟩, ?_⟩
  have key : ∀ x : K, |x| < 1 → truncate x = 0 := by
    intro x hx
    rw [abs_lt] at hx
    unfold truncate
    split
    · rename_i h; exact Int.floor_eq_zero_iff.2 ⟨h, hx.2⟩
    · rename_i h; exact Int.ceil_eq_zero_iff.2 ⟨hx.1, (not_le.1 h).le⟩
  intro hx hy
  simp only [driftFromProto, driftToProto, Option.getD_some, pointFrom_to, keptPoint, key _ hx, key _ hy]
  ext <;> simp

/-- C60, false: half an ångström is exactly representable in the message and yet lost. -/
theorem C60_witness : ∃ d : Drift ℚ, ¬ DriftKept d (driftFromProto (driftToProto d)) := by
  have hf : f32 (1 / 2 : ℚ) = 1 / 2 := by
    have := f32_of_mul (K := ℚ) 1 (-1) (by norm_num) (by norm_num)
    norm_num at this ⊢
    exact this
  refine ⟨⟨[], ⟨1/2, 0⟩⟩, ?_⟩
  have h0 := (C60_fraction_lost (⟨[], ⟨1/2, 0⟩⟩ : Drift ℚ)).2 (by simp only; rw [hf]; norm_num [abs_lt])
    (by simp only; rw [f32_zero]; norm_num)
  rintro ⟨_, hx, _⟩
  rw [h0] at hx
  have := hx.2 (1 / 2) ⟨1, -1, by norm_num, by norm_num, by norm_num⟩
  norm_num at this

/-- C60: the labelled trajectory reads back the trajectory and the drifts, each as above. -/
theorem C60_labeled (l : LabeledTrajectory K Img)
    (h : ∀ o ∈ l.trajectory, GridFits o.grid ∧ ∀ c ∈ o.controls, ControlFull c) :
    ∃ m, labeledToProto l = .ok m ∧
      List.Forall₂ ObservationKept l.trajectory (labeledFromProto m).trajectory ∧
      (labeledFromProto m).drifts = l.drifts.map (fun d => driftFromProto (driftToProto d)) := by
  obtain ⟨m, h1, h2⟩ := (C58_kept_partial (K := K) (Img := Img)).2.2.2.2 l.trajectory h
  refine ⟨⟨some m, l.drifts.map driftToProto⟩, by unfold labeledToProto; rw [h1], h2, ?_⟩
  simp [labeledFromProto, Function.comp_def]

example : ∃ d : Drift ℚ, ∃ i j : ℤ, d.drift = ⟨i, j⟩ ∧ |i| ≤ 2 ^ 24 ∧ |j| ≤ 2 ^ 24 ∧ d.jitter ≠ [] :=
  ⟨⟨[⟨1, 2⟩], ⟨3, -4⟩⟩, 3, -4, by norm_num, by norm_num, by norm_num, by simp⟩

end PD.Props
