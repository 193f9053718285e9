/- Property C147: the environment with floating point numbers. -/
import Verif.Lemmas.FloatPlay
import Verif.Props.FloatRates

set_option linter.unusedSectionVars false
set_option linter.unusedSimpArgs false

namespace PD.Props
open PD PD.Spec
variable {G O P Img F : Type}

/-! ### Where the beam is aimed -/

theorem clip_lipschitz {u z ε : ℝ} (h : |u - z| ≤ ε) : |clip u 0 1 - clip z 0 1| ≤ ε := by
  have h0 : 0 ≤ ε := (abs_nonneg _).trans h
  unfold clip
  rw [abs_le] at h ⊢
  rcases le_total u 0 with a | a <;> rcases le_total z 0 with b | b <;> rcases le_total u 1 with c | c <;>
    rcases le_total z 1 with d | d <;> simp only [max_def, min_def] <;> split_ifs <;> constructor <;> linarith [h.1, h.2]

theorem clip_within {lo hi p : ℝ} (h : lo < hi) :
    lo + clip ((p - lo) / (hi - lo)) 0 1 * (hi - lo) = within lo hi p := by
  have hw : 0 < hi - lo := by linarith
  unfold clip within
  by_cases h1 : p ≤ lo
  · have : (p - lo) / (hi - lo) ≤ 0 := div_nonpos_of_nonpos_of_nonneg (by linarith) hw.le
    simp only [max_def, min_def]
    split_ifs <;> first | linarith | nlinarith
  · push Not at h1
    have h2 : 0 < (p - lo) / (hi - lo) := div_pos (by linarith) hw
    have h4 : (p - lo) / (hi - lo) * (hi - lo) = p - lo := div_mul_cancel₀ _ hw.ne'
    by_cases h3 : p ≤ hi
    · have : (p - lo) / (hi - lo) ≤ 1 := (div_le_one hw).2 (by linarith)
      simp only [max_def, min_def]
      split_ifs <;> first | linarith | nlinarith
    · push Not at h3
      have : 1 < (p - lo) / (hi - lo) := (one_lt_div hw).2 (by linarith)
      simp only [max_def, min_def]
      split_ifs <;> first | linarith | nlinarith

/-- A position that is off by little, clipped to the image, is a place that is off by little, clipped to the view. -/
theorem aim_coord {lo hi u p m ε δ : ℝ} (h : 0 < hi - lo) (he : |u * (hi - lo) - (p - lo)| ≤ ε)
    (hm : |m - (lo + clip u 0 1 * (hi - lo))| ≤ δ) : |m - within lo hi p| ≤ ε + δ := by
  have h1 : |u - (p - lo) / (hi - lo)| ≤ ε / (hi - lo) := by
    rw [le_div_iff₀ h]
    have : (u - (p - lo) / (hi - lo)) * (hi - lo) = u * (hi - lo) - (p - lo) := by field_simp
    rw [← abs_of_pos h, ← abs_mul, abs_of_pos h, this]
    exact he
  have h2 := clip_lipschitz h1
  rw [← clip_within (by linarith : lo < hi)]
  have e : m - (lo + clip ((p - lo) / (hi - lo)) 0 1 * (hi - lo)) =
      (clip u 0 1 - clip ((p - lo) / (hi - lo)) 0 1) * (hi - lo) + (m - (lo + clip u 0 1 * (hi - lo))) := by ring
  rw [e]
  refine (abs_add_le _ _).trans (add_le_add ?_ hm)
  rw [abs_mul, abs_of_pos h]
  have := mul_le_mul_of_nonneg_right h2 h.le
  rwa [div_mul_cancel₀ _ h.ne'] at this

theorem f64_near {x b : ℝ} (hx : |x| ≤ b) : |f64 x - x| ≤ b / 10 ^ 15 + 1 / 10 ^ 40 :=
  (f64_rel x).trans (by gcongr)

/-- The position relative to the silicon, as part of the view. -/
theorem relative_err {lo hi D si t : ℝ} (h1 : 14 ≤ hi - lo) (h2 : hi - lo ≤ 31) (hD : |D| ≤ 1000) (hs : 0 ≤ si ∧ si ≤ 1)
    (ht : |t| ≤ 1) :
    |f64 (si + f64 (t * f64 (D / f64 (hi - lo)))) * (hi - lo) - (lo + si * (hi - lo) + t * D - lo)| ≤ 1 / 10 ^ 10 := by
  obtain ⟨w, hw⟩ : ∃ w, w = hi - lo := ⟨_, rfl⟩
  rw [← hw] at h1 h2 ⊢
  have ew := f64_near (x := w) (b := 31) (by rw [abs_le]; constructor <;> linarith)
  obtain ⟨v, hv⟩ : ∃ v, v = f64 w := ⟨_, rfl⟩
  rw [← hv] at ew ⊢
  have hv0 : 13 < v := by rw [abs_le] at ew; norm_num at ew; linarith [ew.1]
  obtain ⟨ρ, hρ⟩ : ∃ ρ, ρ = D / v := ⟨_, rfl⟩
  have hρv : ρ * v = D := by rw [hρ]; exact div_mul_cancel₀ _ (by linarith)
  have hρb : |ρ| ≤ 80 := by
    rw [hρ, abs_div, abs_of_pos (by linarith : 0 < v), div_le_iff₀ (by linarith)]
    linarith
  rw [← hρ]
  have er := f64_near hρb
  generalize f64 ρ = r at er ⊢
  have hr : |r| ≤ 81 := by
    have h3 := abs_add_le (r - ρ) ρ
    rw [sub_add_cancel] at h3
    norm_num at er
    linarith
  have htr : |t * r| ≤ 81 := by
    rw [abs_mul]
    calc |t| * |r| ≤ 1 * 81 := mul_le_mul ht hr (abs_nonneg _) (by norm_num)
      _ = 81 := by norm_num
  have ex := f64_near htr
  generalize f64 (t * r) = x at ex ⊢
  have hx : |si + x| ≤ 83 := by
    rw [abs_le] at htr ex ⊢
    norm_num at ex
    constructor <;> linarith [htr.1, htr.2, ex.1, ex.2]
  have eu := f64_near hx
  generalize f64 (si + x) = u at eu ⊢
  have e : u * w - (lo + si * w + t * D - lo) =
      ((u - (si + x)) + (x - t * r) + t * (r - ρ)) * w + t * ρ * (w - v) := by
    rw [← hρv]; ring
  rw [e]
  have b1 : |t * (r - ρ)| ≤ 1 / 10 ^ 12 := by
    rw [abs_mul]
    have := mul_le_mul ht er (abs_nonneg _) (by norm_num)
    refine this.trans ?_
    norm_num
  have b2 : |(u - (si + x)) + (x - t * r) + t * (r - ρ)| ≤ 2 / 10 ^ 12 := by
    refine (abs_add_le _ _).trans ?_
    have := abs_add_le (u - (si + x)) (x - t * r)
    norm_num at eu ex b1 ⊢
    linarith
  have b3 : |((u - (si + x)) + (x - t * r) + t * (r - ρ)) * w| ≤ 2 / 10 ^ 12 * 31 := by
    rw [abs_mul, abs_of_pos (by linarith : 0 < w)]
    exact mul_le_mul b2 h2 (by linarith) (by norm_num)
  have b4 : |t * ρ| ≤ 80 := by
    rw [abs_mul]
    calc |t| * |ρ| ≤ 1 * 80 := mul_le_mul ht hρb (abs_nonneg _) (by norm_num)
      _ = 80 := by norm_num
  have b5 : |t * ρ * (w - v)| ≤ 80 * (31 / 10 ^ 15 + 1 / 10 ^ 40) := by
    rw [abs_mul, abs_sub_comm w v]
    exact mul_le_mul b4 ew (abs_nonneg _) (by norm_num)
  refine (abs_add_le _ _).trans ((add_le_add b3 b5).trans ?_)
  norm_num

/-- The position moved from the silicon by Ångströms, as part of the view. -/
theorem material_err {lo hi m P a : ℝ} (h1 : 14 ≤ hi - lo) (h2 : hi - lo ≤ 31) (hlo : |lo| ≤ 60020)
    (hP : lo ≤ P ∧ P ≤ hi) (hm : |m - P| ≤ 1 / 10 ^ 10) (ha : |a| ≤ 1000) :
    |floatNormalise lo hi (f64 (m + a)) * (hi - lo) - (P + a - lo)| ≤ 5 / 10 ^ 10 := by
  unfold floatNormalise
  obtain ⟨w, hw⟩ : ∃ w, w = hi - lo := ⟨_, rfl⟩
  have hP2 : P - lo ≤ w := by rw [hw]; linarith [hP.2]
  rw [← hw] at h1 h2 ⊢
  have ew := f64_near (x := w) (b := 31) (by rw [abs_le]; constructor <;> linarith)
  generalize f64 w = v at ew ⊢
  have hv0 : 13 < v := by rw [abs_le] at ew; norm_num at ew; linarith [ew.1]
  rw [abs_le] at hlo ha
  have es := f64_near (x := m + a) (b := 62000) (by
    rw [abs_le] at hm ⊢
    norm_num at hm
    constructor <;> linarith [hm.1, hm.2, hlo.1, hlo.2, ha.1, ha.2, hP.1])
  generalize f64 (m + a) = s at es ⊢
  have hsl : |s - lo| ≤ 1040 := by
    rw [abs_le] at hm es ⊢
    norm_num at hm es
    constructor <;> linarith [hm.1, hm.2, es.1, es.2, ha.1, ha.2, hP.1]
  have ed := f64_near hsl
  generalize f64 (s - lo) = d at ed ⊢
  obtain ⟨κ, hκ⟩ : ∃ κ, κ = d / v := ⟨_, rfl⟩
  have hκv : κ * v = d := by rw [hκ]; exact div_mul_cancel₀ _ (by linarith)
  have hdb : |d| ≤ 1041 := by
    have h3 := abs_add_le (d - (s - lo)) (s - lo)
    rw [sub_add_cancel] at h3
    norm_num at ed
    linarith
  have hκb : |κ| ≤ 100 := by
    rw [hκ, abs_div, abs_of_pos (by linarith : 0 < v), div_le_iff₀ (by linarith)]
    linarith
  rw [← hκ]
  have eu := f64_near hκb
  generalize f64 κ = u at eu ⊢
  have e : u * w - (P + a - lo) = (u - κ) * w + κ * (w - v) + (d - (s - lo)) + (s - (m + a)) + (m - P) := by
    linear_combination hκv
  have b1 : |(u - κ) * w| ≤ (100 / 10 ^ 15 + 1 / 10 ^ 40) * 31 := by
    rw [abs_mul, abs_of_pos (by linarith : 0 < w)]
    exact mul_le_mul eu h2 (by linarith) (by norm_num)
  have b2 : |κ * (w - v)| ≤ 100 * (31 / 10 ^ 15 + 1 / 10 ^ 40) := by
    rw [abs_mul, abs_sub_comm w v]
    exact mul_le_mul hκb ew (abs_nonneg _) (by norm_num)
  rw [e]
  have c1 := abs_add_le ((u - κ) * w) (κ * (w - v))
  have c2 := abs_add_le ((u - κ) * w + κ * (w - v)) (d - (s - lo))
  have c3 := abs_add_le ((u - κ) * w + κ * (w - v) + (d - (s - lo))) (s - (m + a))
  have c4 := abs_add_le ((u - κ) * w + κ * (w - v) + (d - (s - lo)) + (s - (m + a))) (m - P)
  refine c4.trans ((add_le_add (c3.trans (add_le_add (c2.trans (add_le_add (c1.trans (add_le_add b1 b2)) ed)) es)) hm).trans ?_)
  norm_num

theorem clip_within_unit (x : ℝ) : clip x 0 1 = within 0 1 x := by
  unfold clip within
  simp only [max_def, min_def]
  split_ifs <;> linarith

/-- The position moved from the last one, as part of the view. -/
theorem delta_err {lo hi m b x : ℝ} (h1 : 14 ≤ hi - lo) (h2 : hi - lo ≤ 31) (hb : |b| ≤ 1000) (hx : |x| ≤ 1000)
    (hm : |m - (lo + clip (f64 (b + x)) 0 1 * (hi - lo))| ≤ 1 / 10 ^ 10) :
    |m - (lo + within 0 1 (b + x) * (hi - lo))| ≤ 1 / 10 ^ 9 := by
  have e := f64_near (x := b + x) (b := 2000) ((abs_add_le _ _).trans (by linarith))
  have e2 := clip_lipschitz e
  rw [clip_within_unit (b + x)] at e2
  have : m - (lo + within 0 1 (b + x) * (hi - lo)) = (m - (lo + clip (f64 (b + x)) 0 1 * (hi - lo))) +
      (clip (f64 (b + x)) 0 1 - within 0 1 (b + x)) * (hi - lo) := by ring
  rw [this]
  refine (abs_add_le _ _).trans ?_
  rw [abs_mul, abs_of_pos (by linarith : 0 < hi - lo)]
  have e3 := mul_le_mul e2 h2 (by linarith) (by norm_num)
  refine (add_le_add hm e3).trans ?_
  norm_num

theorem within_clip (a : ℝ) : |clip a (-1) 1| ≤ 1 ∧ clip a (-1) 1 = within (-1) 1 a := by
  unfold clip within
  constructor
  · rw [abs_le]
    simp only [max_def, min_def]
    split_ifs <;> constructor <;> linarith
  · simp only [max_def, min_def]
    split_ifs <;> linarith

/-- An adapter aims the beam at the place the action names, up to a billionth of an Å. -/
theorem floatAim_named {f : Fov ℝ} (hf : SoundView f) (hc : CornersWithin 60020 f) (v : NumpyVersion) (p : Precision)
    {a : Adapter ℝ} (hD : ∀ lo hi D, a = .relative lo hi D → |D| ≤ 1000)
    {o : Observation ℝ Img} (ho : o.fov = f) (hw : o.grid.WF) {q : V2 ℝ} (hq : silicons o.grid = [q]) (hu : InUnit q)
    {x y : ℝ} {rest : List ℝ} (hx : |x| ≤ 1000) (hy : |y| ≤ 1000) {beam beam' : V2 ℝ}
    (hb : a = .delta → |beam.x| ≤ 1000 ∧ |beam.y| ≤ 1000) {c : BeamControl ℝ}
    (h : a.floatGetAction v p o (x :: y :: rest) beam = .ok [c] beam') :
    |(f.floatToMaterial c.position).x - aimedAt a f.lowerLeft.x f.upperRight.x q.x beam.x x| ≤ 1 / 10 ^ 9 ∧
    |(f.floatToMaterial c.position).y - aimedAt a f.lowerLeft.y f.upperRight.y q.y beam.y y| ≤ 1 / 10 ^ 9 := by
  have hone : oneSilicon o.grid = .ok q := by simp [oneSilicon, getSiliconPositions_eq_silicons hw, hq]
  have beamErr : ∀ r : V2 ℝ, InUnit r →
      |(f.floatToMaterial r).x - (lerp f.lowerLeft f.upperRight r).x| ≤ 1 / 10 ^ 10 ∧
      |(f.floatToMaterial r).y - (lerp f.lowerLeft f.upperRight r).y| ≤ 1 / 10 ^ 10 := by
    intro r hr
    have := C139_beam f hf.rect 60020 (by
      have : (2 : ℝ) ^ (-900 : ℤ) ≤ 2 ^ (0 : ℤ) := zpow_le_zpow_right₀ (by norm_num) (by norm_num)
      rw [zpow_zero] at this
      linarith) hc r hr
    have e : (60020 : ℝ) * 2 ^ (-50 : ℤ) ≤ 1 / 10 ^ 10 := by norm_num
    exact ⟨this.1.trans e, this.2.trans e⟩
  have wx : 14 ≤ f.upperRight.x - f.lowerLeft.x ∧ f.upperRight.x - f.lowerLeft.x ≤ 31 :=
    ⟨by linarith [hf.width.1], by linarith [hf.width.2]⟩
  have wy : 14 ≤ f.upperRight.y - f.lowerLeft.y ∧ f.upperRight.y - f.lowerLeft.y ≤ 31 :=
    ⟨by linarith [hf.height.1], by linarith [hf.height.2]⟩
  unfold Adapter.floatGetAction at h
  subst ho
  cases a with
  | direct =>
    cases rest with
    | cons z rest => simp [action2] at h
    | nil =>
      simp only [action2, EStateM.Result.ok.injEq, List.cons.injEq, and_true] at h
      rw [← h.1]
      have hb := beamErr (clip2 ⟨x, y⟩ 0 1) ⟨clip_unit _, clip_unit _⟩
      simp only [aimedAt, ← clip_within_unit]
      exact ⟨hb.1.trans (by norm_num), hb.2.trans (by norm_num)⟩
  | delta =>
    cases rest with
    | cons z rest => simp [action2] at h
    | nil =>
      simp only [action2, EStateM.Result.ok.injEq, List.cons.injEq, and_true] at h
      rw [← h.1]
      have hb' := beamErr (clip2 ⟨f64 (beam.x + x), f64 (beam.y + y)⟩ 0 1) ⟨clip_unit _, clip_unit _⟩
      exact ⟨delta_err wx.1 wx.2 (hb rfl).1 hx hb'.1, delta_err wy.1 wy.2 (hb rfl).2 hy hb'.2⟩
  | relative lo hi D =>
    simp only [hone, actionPrefix2] at h
    split_ifs at h
    cases hd : floatDwell v p lo hi (x :: y :: rest) with
    | error e => simp [hd] at h
    | ok d =>
      simp only [hd, EStateM.Result.ok.injEq, List.cons.injEq, and_true] at h
      rw [← h.1]
      have hb := beamErr ⟨floatRelative o.fov.lowerLeft.x o.fov.upperRight.x D q.x x,
        floatRelative o.fov.lowerLeft.y o.fov.upperRight.y D q.y y⟩ ⟨clip_unit _, clip_unit _⟩
      have hD' := hD lo hi D rfl
      have e1 := relative_err wx.1 wx.2 hD' hu.1 (within_clip x).1
      have e2 := relative_err wy.1 wy.2 hD' hu.2 (within_clip y).1
      have k1 := aim_coord (by linarith [wx.1]) e1 hb.1
      have k2 := aim_coord (by linarith [wy.1]) e2 hb.2
      rw [(within_clip x).2] at k1
      rw [(within_clip y).2] at k2
      exact ⟨k1.trans (by norm_num), k2.trans (by norm_num)⟩
  | materialFrame lo hi D =>
    simp only [hone, actionPrefix2] at h
    cases hd : floatDwell v p lo hi (x :: y :: rest) with
    | error e => simp [hd] at h
    | ok d =>
      simp only [hd, EStateM.Result.ok.injEq, List.cons.injEq, and_true] at h
      rw [← h.1]
      have hb := beamErr ⟨floatMaterialRelative o.fov.lowerLeft.x o.fov.upperRight.x q.x x,
        floatMaterialRelative o.fov.lowerLeft.y o.fov.upperRight.y q.y y⟩ ⟨clip_unit _, clip_unit _⟩
      have hs := beamErr q hu
      have inx : o.fov.lowerLeft.x ≤ (lerp o.fov.lowerLeft o.fov.upperRight q).x ∧
          (lerp o.fov.lowerLeft o.fov.upperRight q).x ≤ o.fov.upperRight.x := by
        simp only [lerp]
        constructor <;> nlinarith [hu.1.1, hu.1.2, wx.1]
      have iny : o.fov.lowerLeft.y ≤ (lerp o.fov.lowerLeft o.fov.upperRight q).y ∧
          (lerp o.fov.lowerLeft o.fov.upperRight q).y ≤ o.fov.upperRight.y := by
        simp only [lerp]
        constructor <;> nlinarith [hu.2.1, hu.2.2, wy.1]
      have e1 := material_err wx.1 wx.2 hc.1.1 inx hs.1 hx
      have e2 := material_err wy.1 wy.2 hc.1.2 iny hs.2 hy
      have k1 := aim_coord (by linarith [wx.1]) e1 hb.1
      have k2 := aim_coord (by linarith [wy.1]) e2 hb.2
      exact ⟨k1.trans (by norm_num), k2.trans (by norm_num)⟩

/-! ### What a caller sees -/

/-- A reset, after any history, that returns: the sheet has one silicon, the observation shows the sheet, and the goal is
within a billionth of an Å of an atom in view other than the silicon, less than 52 Å from it.  The time step is a first
one, with reward 0 and the discount for the imaging. -/
theorem C147_goal (T : FloatTrig) (S : Summation) (k : DotKind) (n : ℕ) (cfg : FloatEnvCfg G O P Img F)
    (hc : FloatWorld T S k n cfg) (g : G) (ga : Option G) (beam : V2 ℝ) (ops : List (EnvOp ℝ O))
    (s : Env ℝ G O P Img) (hs : s = Env.floatAfter cfg (Env.fresh g ga beam GoalState.floatFresh) ops)
    (t : TimeStep F) (s' : Env ℝ G O P Img) (h : Env.floatReset cfg s = .ok t s') :
    ∃ sheet si b, s'.sim.ctx.mat.grid = some sheet ∧ SingleDoped sheet ∧ FloatShows sheet s'.last ∧ silicons sheet = [si] ∧
      b ∈ sheet.positions ∧ b ≠ si ∧ Spec.dist si b < 52 ∧ Inside s'.last.fov.lowerLeft s'.last.fov.upperRight b ∧
      Spec.dist s'.goal.goal b ≤ 1 / 10 ^ 9 ∧ s'.requiresReset = false ∧ t.stepType = .first ∧ t.reward = 0 ∧
      t.discount = gammaPow cfg.sim.imageDuration ∧ s'.last.image.isSome = cfg.requiresImage := by
  have hp : FloatPlaying n s := by rw [hs]; exact floatAfter_playing hc ops (floatFresh_playing n g ga beam)
  obtain ⟨s3, sheet, b, si, h1, h2, h3, h4, h5, h6, h7, h8, h9, h10, h11, he⟩ := envFloatReset hc hp
  rw [he] at h
  cases hf : cfg.features s3.last (.singleSilicon s3.goal) with
  | error e => simp [hf] at h
  | ok f =>
    simp only [hf, EStateM.Result.ok.injEq] at h
    obtain ⟨rfl, rfl⟩ := h
    exact ⟨sheet, si, b, h4.ready.grid, h4.ready.doped, h4.shows, h5, h9.1, h6, h7, h8, h9.near, h1, rfl, rfl,
      by rw [h11], h10⟩

/-- A step within an episode, after any history, that returns: the atoms and the goal stay where they are, the observation
shows the sheet, and there is one atom within a billionth of an Å of the goal.  The episode ends if and only if that atom
is the silicon, with a reward that is the discount for the time the step took; otherwise the reward is 0. -/
theorem C147_ends (T : FloatTrig) (S : Summation) (k : DotKind) (n : ℕ) (cfg : FloatEnvCfg G O P Img F)
    (hc : FloatWorld T S k n cfg) (g : G) (ga : Option G) (beam : V2 ℝ) (ops : List (EnvOp ℝ O))
    (s : Env ℝ G O P Img) (hs : s = Env.floatAfter cfg (Env.fresh g ga beam GoalState.floatFresh) ops)
    (hq : s.requiresReset = false) (a : List ℝ) (t : TimeStep F) (s' : Env ℝ G O P Img)
    (h : Env.floatStep cfg a s = .ok t s') :
    ∃ sheet sheet' si b, s.sim.ctx.mat.grid = some sheet ∧ s'.sim.ctx.mat.grid = some sheet' ∧
      sheet'.positions = sheet.positions ∧ s'.goal.goal = s.goal.goal ∧ FloatShows sheet' s'.last ∧
      silicons sheet' = [si] ∧ b ∈ sheet'.positions ∧ Spec.dist s'.goal.goal b ≤ 1 / 10 ^ 9 ∧
      (∀ b' ∈ sheet'.positions, Spec.dist s'.goal.goal b' ≤ 1 / 10 ^ 9 → b' = b) ∧
      (si = b → t.stepType = .last ∧ t.reward = gammaPow s'.last.elapsedTime ∧ t.discount = 0 ∧
        s'.requiresReset = true) ∧
      (si ≠ b → t.stepType = .mid ∧ t.reward = 0 ∧ t.discount = gammaPow s'.last.elapsedTime ∧
        s'.requiresReset = false) := by
  have hp : FloatPlaying n s := by rw [hs]; exact floatAfter_playing hc ops (floatFresh_playing n g ga beam)
  obtain ⟨sheet, hlive⟩ := hp.live hq
  obtain ⟨b, hb⟩ := hlive.goal
  rcases envFloatStep hc hp hq a hlive hb with ⟨e, bm, _, he⟩ | ⟨cs, bm, _, ⟨e, sim, sheet', c, _, _, he, hl, _⟩ |
    ⟨o, sim, sheet', si, s3, goal, _, k1, k2, k3, _, _, _, _, k4, k5, _, _, he⟩⟩
  · rw [he] at h; cases h
  · rw [he] at h; cases h
  · have hb' : GoalOn sheet' goal.goal b := ⟨by rw [k2]; exact hb.1, by rw [k4]; exact hb.2⟩
    have huniq : ∀ b' ∈ sheet'.positions, Spec.dist goal.goal b' ≤ 1 / 10 ^ 9 → b' = b := by
      intro b' hb1 hb2
      obtain ⟨offset, angle, hx, hy, hD⟩ := hlive.laid
      rw [← k2] at hD
      by_contra hne
      obtain ⟨i, hi⟩ := List.mem_iff_getElem?.1 hb1
      obtain ⟨j, hj⟩ := List.mem_iff_getElem?.1 hb'.1
      have := displaced_apart n offset angle (hD.imp fun _ _ h => h.trans (by norm_num)) hi hj (by
        rintro rfl
        rw [hi] at hj
        exact hne (Option.some.inj hj))
      have h2 := hb'.near
      have h3 := dist_tri b' goal.goal b
      rw [dist_comm' b' goal.goal] at h3
      norm_num at this h2 h3 hb2
      linarith
    rw [he] at h
    cases hf : cfg.features o (.singleSilicon s.goal) with
    | error e => simp [hf] at h
    | ok f =>
      simp only [hf] at h
      split_ifs at h with hsb
      · cases h
        refine ⟨sheet, sheet', si, b, hlive.ready.grid, ?_, k2, ?_, ?_, k3, hb'.1, ?_, ?_, fun _ => ⟨rfl, ?_, rfl, rfl⟩,
          fun hne => absurd hsb hne⟩ <;> subst k5
        · exact k1.ready.grid
        · exact k4
        · exact k1.shows
        · exact hb'.near
        · exact huniq
        · rfl
      · cases h
        refine ⟨sheet, sheet', si, b, hlive.ready.grid, ?_, k2, ?_, ?_, k3, hb'.1, ?_, ?_, fun e => absurd e hsb,
          fun _ => ⟨rfl, rfl, ?_, ?_⟩⟩ <;> subst k5
        · exact k1.ready.grid
        · exact k4
        · exact k1.shows
        · exact hb'.near
        · exact huniq
        · rfl
        · exact hq

/-- A step within an episode, after any history, that returns: the sheet was exposed once, for a time in the range of dwell
times, at the place that the action names as seen from where the last observation showed the silicon, up to a billionth
of an Å along each axis. -/
theorem C147_beam (T : FloatTrig) (S : Summation) (k : DotKind) (n : ℕ) (cfg : FloatEnvCfg G O P Img F)
    (hc : FloatWorld T S k n cfg) (hch : Chooses cfg.sim.rng)
    (hD : ∀ lo hi D, cfg.adapter = .relative lo hi D → |D| ≤ 1000) (h0 : 0 ≤ (dwellRange cfg.adapter).1)
    (hm : (dwellRange cfg.adapter).1 ≤ (dwellRange cfg.adapter).2) (h1 : (dwellRange cfg.adapter).2 ≤ 86400000000)
    (g : G) (ga : Option G) (beam : V2 ℝ) (ops : List (EnvOp ℝ O))
    (s : Env ℝ G O P Img) (hs : s = Env.floatAfter cfg (Env.fresh g ga beam GoalState.floatFresh) ops)
    (hq : s.requiresReset = false) (hb : cfg.adapter = .delta → |s.beam.x| ≤ 1000 ∧ |s.beam.y| ≤ 1000)
    (x y : ℝ) (hx : |x| ≤ 1000) (hy : |y| ≤ 1000) (rest : List ℝ) (t : TimeStep F)
    (s' : Env ℝ G O P Img) (h : Env.floatStep cfg (x :: y :: rest) s = .ok t s') :
    ∃ sheet sheet' q p dwell evs evs', s.sim.ctx.mat.grid = some sheet ∧ s'.sim.ctx.mat.grid = some sheet' ∧
      silicons s.last.grid = [q] ∧ (dwellRange cfg.adapter).1 ≤ dwell ∧ dwell ≤ (dwellRange cfg.adapter).2 ∧
      ExposedAll cfg.sim.rate [(p, dwell)] sheet evs sheet' ∧
      s'.sim.ctx.obs = s.sim.ctx.obs.map (observeAll cfg.sim.handle
        (evs ++ .takeImage cfg.sim.imageDuration s.last.fov :: evs')) ∧
      |p.x - aimedAt cfg.adapter s.last.fov.lowerLeft.x s.last.fov.upperRight.x q.x s.beam.x x| ≤ 1 / 10 ^ 9 ∧
      |p.y - aimedAt cfg.adapter s.last.fov.lowerLeft.y s.last.fov.upperRight.y q.y s.beam.y y| ≤ 1 / 10 ^ 9 := by
  have hp : FloatPlaying n s := by rw [hs]; exact floatAfter_playing hc ops (floatFresh_playing n g ga beam)
  obtain ⟨sheet, hlive⟩ := hp.live hq
  obtain ⟨b, hgoal⟩ := hlive.goal
  obtain ⟨q, hsi, hu⟩ := hlive.silicon
  rcases envFloatStep hc hp hq (x :: y :: rest) hlive hgoal with ⟨e, bm, _, he⟩ |
    ⟨cs, bm, hact, ⟨e, sim, sheet', c, _, _, he, hl, _⟩ |
    ⟨o, sim, sheet', si, s3, goal, hst, k1, k2, k3, _, _, _, _, k4, k5, _, _, he⟩⟩
  · rw [he] at h; cases h
  · rw [he] at h; cases h
  obtain ⟨c, rfl, hcu, d1, d2⟩ := floatAction_mem _ _ h0 hm h1 hact
  obtain ⟨ax, ay⟩ := floatAim_named hlive.ready.sound (sound_corners hlive.ready) _ _ hD rfl hlive.wf hsi hu hx hy hb
    hact
  have hsim : s'.sim = sim := by
    rw [he] at h
    cases hf : cfg.features o (.singleSilicon s.goal) with
    | error e => simp [hf] at h
    | ok f =>
      simp only [hf] at h
      split_ifs at h with hsb <;> cases h <;> subst k5 <;> rfl
  obtain ⟨el, c2, evs', hcc, ho, _, _⟩ := floatStep_told cfg.sim hlive.ready.fov hst
  obtain ⟨m, evs, sheet2, _, happ, hg', hobs, hall⟩ := floatApplyControls_trace cfg.sim hc.lawful hch hc.doped.nonneg
    s.last.fov [c] 0 _ sheet hlive.ready.grid
  have := hall el c2 hcc
  subst this
  rw [List.take_length] at happ
  rw [hcc] at hg' hobs
  have hsheet : sim.ctx.mat.grid = some sheet2 := by
    rcases floatStep_cases cfg.sim hc.doped.keepsDoping [c] cfg.requiresImage hlive.ready with
      ⟨e, s2, _, _, j1, _⟩ | ⟨o2, s2, _, j1, _, _, _, _, el2, c3, j2, j3⟩
    · rw [hst] at j1; cases j1
    · rw [hst] at j1
      cases j1
      rw [hcc] at j2
      cases j2
      rw [j3]
      exact hg'
  refine ⟨sheet, sheet2, q, s.last.fov.floatToMaterial c.position, c.dwellTime, evs,
    evs' ++ (o.image.map Event.generatedImage).toList, hlive.ready.grid,
    by rw [hsim]; exact hsheet, hsi, d1, d2, happ, ?_, ax, ay⟩
  simp only [endState] at hobs
  rw [hsim, ho, hobs]
  simp [observeAll, Function.comp_def]

/-- The adapter for moves of the beam keeps where it put the beam: after a step within an episode that returns, the next
move starts from where this one led, which is in the image. -/
theorem C147_kept (cfg : FloatEnvCfg G O P Img F) (ha : cfg.adapter = .delta) (s : Env ℝ G O P Img)
    (hq : s.requiresReset = false) (hb : |s.beam.x| ≤ 1000 ∧ |s.beam.y| ≤ 1000) (x y : ℝ) (hx : |x| ≤ 1000)
    (hy : |y| ≤ 1000) (t : TimeStep F) (s' : Env ℝ G O P Img) (h : Env.floatStep cfg [x, y] s = .ok t s') :
    InUnit s'.beam ∧ |s'.beam.x - max 0 (min 1 (s.beam.x + x))| ≤ 1 / 10 ^ 9 ∧
      |s'.beam.y - max 0 (min 1 (s.beam.y + y))| ≤ 1 / 10 ^ 9 := by
  have hbeam : s'.beam = clip2 ⟨f64 (s.beam.x + x), f64 (s.beam.y + y)⟩ 0 1 := by
    simp only [Env.floatStep, hq, Bool.false_eq_true, if_false, ha, Adapter.floatGetAction, action2] at h
    repeat' split at h
    all_goals first
      | (cases h; done)
      | (cases h; rfl)
  have one : ∀ b a : ℝ, |b| ≤ 1000 → |a| ≤ 1000 → |clip (f64 (b + a)) 0 1 - max 0 (min 1 (b + a))| ≤ 1 / 10 ^ 9 := by
    intro b a hb ha
    have h1 := f64_err_rel (b + a)
    have h2 : |b + a| ≤ 2000 := (abs_add_le b a).trans (by linarith)
    have h3 : |f64 (b + a) - (b + a)| ≤ 1 / 10 ^ 9 := h1.trans (by norm_num at h2 ⊢; linarith)
    have h4 : |clip (f64 (b + a)) 0 1 - max 0 (min 1 (b + a))| ≤ |f64 (b + a) - (b + a)| := by
      have e : max 0 (min 1 (b + a)) = clip (b + a) 0 1 := by
        unfold clip
        rcases le_total (b + a) 0 with h | h
        · rw [min_eq_right (by linarith), max_eq_left h, max_eq_right h, min_eq_right (by norm_num)]
        · rw [max_eq_left h, max_eq_right (le_min (by norm_num) h)]
      rw [e]
      unfold clip
      have h5 := abs_min_sub_min_le_max 1 (max (f64 (b + a)) 0) 1 (max (b + a) 0)
      have h6 := abs_max_sub_max_le_max (f64 (b + a)) 0 (b + a) 0
      rw [sub_self, abs_zero, max_eq_right (abs_nonneg (max (f64 (b + a)) 0 - max (b + a) 0))] at h5
      rw [sub_self (0 : ℝ), abs_zero, max_eq_left (abs_nonneg (f64 (b + a) - (b + a)))] at h6
      exact h5.trans h6
    exact h4.trans h3
  rw [hbeam]
  exact ⟨clip2_inUnit _, one _ _ hb.1 hx, one _ _ hb.2 hy⟩

/-- The adapter for moves of the beam starts an episode with the beam in the image. -/
theorem C147_starts (cfg : FloatEnvCfg G O P Img F) (ha : cfg.adapter = .delta) (hl : cfg.sim.rng.Lawful)
    (s : Env ℝ G O P Img) (t : TimeStep F) (s' : Env ℝ G O P Img) (h : Env.floatReset cfg s = .ok t s') :
    InUnit s'.beam := by
  have key : ∀ s0 : Env ℝ G O P Img, InUnit (Env.resetAdapter cfg.plain s0).beam := by
    intro s0
    unfold Env.resetAdapter
    split
    all_goals
      simp only [FloatEnvCfg.plain, ha, Adapter.reset]
      exact ⟨hl.uniform_mem 0 1 _ zero_le_one, hl.uniform_mem 0 1 _ zero_le_one⟩
  simp only [Env.floatReset] at h
  repeat' split at h
  all_goals first
    | (cases h; done)
    | (cases h; exact key _)

/-- Without an atom in the range of goals, resetting the goal raises `RuntimeError`. -/
theorem C147_no_goal (rng : Rng ℝ G) (o : Observation ℝ Img) (goal : GoalState ℝ) (g : G) (si : V2 ℝ)
    (hsi : getSingleSiliconPosition o.grid = .ok si)
    (hnone : ∀ p ∈ o.grid.positions, ¬ (goal.rangeMin < floatGoalRange o.fov si p ∧
      floatGoalRange o.fov si p < goal.rangeMax)) : goal.floatReset rng o g = .error .runtimeError := by
  have h0 : o.grid.positions.filter (fun p => decide (floatGoalRange o.fov si p < goal.rangeMax) &&
      decide (goal.rangeMin < floatGoalRange o.fov si p)) = [] := by
    rw [List.filter_eq_nil_iff]
    intro p hp hd
    simp only [Bool.and_eq_true, decide_eq_true_eq] at hd
    exact hnone p hp ⟨hd.2, hd.1⟩
  simp only [GoalState.floatReset, hsi, maskSelect_map_self, h0, List.length_nil, if_true]

/-- Where a control that lies in the image puts the beam. -/
theorem beam_near16 {sim : Sim ℝ G O P} {sheet : Grid ℝ} {f : Fov ℝ} (h : FloatReady sim sheet f) {p : V2 ℝ}
    (hp : InUnit p) : Near16 (f.floatToMaterial p) := by
  obtain ⟨u1, u2⟩ := id hp
  have hcor := sound_corners h
  obtain ⟨e1, e2⟩ := C139_beam f h.sound.rect 60020 (by
    have : (2 : ℝ) ^ (-900 : ℤ) ≤ 2 ^ (0 : ℤ) := zpow_le_zpow_right₀ (by norm_num) (by norm_num)
    rw [zpow_zero] at this
    linarith) hcor p hp
  obtain ⟨⟨c1, c2⟩, c3, c4⟩ := hcor
  have mix : ∀ {lo hi t : ℝ}, |lo| ≤ 60020 → |hi| ≤ 60020 → 0 ≤ t → t ≤ 1 → |lo + t * (hi - lo)| ≤ 60020 := by
    intro lo hi t h1 h2 h3 h4
    rw [abs_le] at *
    constructor <;> nlinarith
  have b1 : |(lerp f.lowerLeft f.upperRight p).x| ≤ 60020 := by simpa [lerp] using mix c1 c3 u1.1 u1.2
  have b2 : |(lerp f.lowerLeft f.upperRight p).y| ≤ 60020 := by simpa [lerp] using mix c2 c4 u2.1 u2.2
  constructor
  · rw [abs_le] at *
    norm_num at e1 ⊢
    constructor <;> linarith [e1.1, e1.2, b1.1, b1.2]
  · rw [abs_le] at *
    norm_num at e2 ⊢
    constructor <;> linarith [e2.1, e2.2, b2.1, b2.2]

theorem sound_view_ne {f : Fov ℝ} (h : SoundView f) : f.width ≠ 0 ∧ f.height ≠ 0 := by
  constructor
  · have := h.width.1
    unfold Fov.width
    intro e
    linarith
  · have := h.height.1
    unfold Fov.height
    intro e
    linarith

/-- After any history a reset returns. -/
theorem C147_reset (T : FloatTrig) (S : Summation) (k : DotKind) (n : ℕ) (cfg : FloatEnvCfg G O P Img F)
    (hc : FloatWorld T S k n cfg) (hfeat : FeaturesDefined cfg.features cfg.requiresImage)
    (g : G) (ga : Option G) (beam : V2 ℝ) (ops : List (EnvOp ℝ O))
    (s : Env ℝ G O P Img) (hs : s = Env.floatAfter cfg (Env.fresh g ga beam GoalState.floatFresh) ops) :
    ∃ t s', Env.floatReset cfg s = .ok t s' := by
  have hp : FloatPlaying n s := by rw [hs]; exact floatAfter_playing hc ops (floatFresh_playing n g ga beam)
  obtain ⟨s3, sheet, b, si, h1, h2, h3, h4, h5, h6, h7, h8, h9, h10, h11, he⟩ := envFloatReset hc hp
  obtain ⟨offset, angle, hx, hy, hD⟩ := h3.laid
  obtain ⟨_, hnd⟩ := displaced_good hc.wide hx hy hD
  obtain ⟨r4, rnd, _⟩ := viewing_regular (by have := hc.wide; omega : 5 ≤ n) h4 hD hnd
  obtain ⟨q, hq1, _⟩ := h4.silicon
  obtain ⟨w1, w2⟩ := sound_view_ne h4.ready.sound
  obtain ⟨f, hf⟩ := hfeat s3.last s3.goal h4.wf rnd r4 ⟨q, hq1⟩ w1 w2 h10
  exact ⟨_, s3, by rw [he, hf]⟩

/-- After any history a reset returns, and so does a step with an action of the right size, unless a control takes more
rounds than the model allows; this does not happen if the model allows 3.6 billion and every waiting time is at least a
microsecond. -/
theorem C147_plays_partial (T : FloatTrig) (S : Summation) (k : DotKind) (n : ℕ) (cfg : FloatEnvCfg G O P Img F)
    (hc : FloatWorld T S k n cfg) (hst : FloatSteps cfg) (hfeat : FeaturesDefined cfg.features cfg.requiresImage)
    (g : G) (ga : Option G) (beam : V2 ℝ) (ops : List (EnvOp ℝ O))
    (s : Env ℝ G O P Img) (hs : s = Env.floatAfter cfg (Env.fresh g ga beam GoalState.floatFresh) ops) :
    (∃ t s', Env.floatReset cfg s = .ok t s') ∧
    ∀ a : List ℝ, a.length = actionSize cfg.adapter →
      (∃ t s', Env.floatStep cfg a s = .ok t s') ∨
      ((∃ s', Env.floatStep cfg a s = .error .diverges s') ∧
        ((∀ scale g, 1 / 1000000 ≤ (cfg.sim.rng.exponential scale g).1) → cfg.sim.fuel < 3600000000)) := by
  have hp : FloatPlaying n s := by rw [hs]; exact floatAfter_playing hc ops (floatFresh_playing n g ga beam)
  have hreset := C147_reset T S k n cfg hc hfeat g ga beam ops s hs
  refine ⟨hreset, fun a hlen => ?_⟩
  by_cases hq : s.requiresReset = true
  · left
    have : Env.floatStep cfg a s = Env.floatReset cfg s := by unfold Env.floatStep; rw [if_pos hq]
    rw [this]
    exact hreset
  simp only [Bool.not_eq_true] at hq
  obtain ⟨sheet, hlive⟩ := hp.live hq
  obtain ⟨b, hb⟩ := hlive.goal
  obtain ⟨q, hsi, hu⟩ := hlive.silicon
  obtain ⟨offset, angle, hx, hy, hD⟩ := hlive.laid
  obtain ⟨h4, hnd⟩ := displaced_good hc.wide hx hy hD
  rcases envFloatStep hc hp hq a hlive hb with ⟨e, bm, hact, he⟩ |
    ⟨cs, bm, hact, ⟨e, sim, sheet', c2, _, happ, he, hl, _⟩ |
    ⟨o, sim, sheet', si, s3, goal, _, k1, k2, k3, kimg, _, r4, rnd, k4, k5, _, _, he⟩⟩
  · obtain ⟨cs, bm', hok⟩ := floatAction_total (v := cfg.sim.numpy) (p := cfg.actions) hst.seconds hlive.wf hsi
      hlive.ready.sound.rect hlen s.beam
    rw [hok] at hact
    cases hact
  · obtain ⟨c, rfl, hcu, d1, d2⟩ := floatAction_mem _ _ hst.dwellPos hst.dwellOrder
      (hst.dwellHour.le.trans (by norm_num)) hact
    rcases floatControls_return cfg.sim hst.accepted hc.lawful hst.chooses hc.doped s.last.fov [c] (by
        intro c' hc'
        rw [List.mem_singleton] at hc'
        subst hc'
        refine ⟨lt_of_le_of_lt d2 hst.dwellHour, hst.rates _ _ h4 hnd (fun p hpm => ?_) (beam_near16 hlive.ready hcu)⟩
        obtain ⟨m1, m2⟩ := hlive.ready.within p hpm
        exact ⟨m1.trans (by norm_num), m2.trans (by norm_num)⟩) 0 _ sheet hlive.ready.matFlag hlive.ready.grid
        hlive.ready.doped rfl with ⟨el, c', hr⟩ | ⟨⟨c', hr⟩, hfuel⟩
    · rw [happ] at hr; cases hr
    · rw [happ] at hr
      cases hr
      exact .inr ⟨⟨_, he⟩, hfuel⟩
  · left
    obtain ⟨q', hq1, _⟩ := k1.silicon
    obtain ⟨w1, w2⟩ := sound_view_ne k1.ready.sound
    obtain ⟨f, hf⟩ := hfeat o s.goal k1.wf rnd r4 ⟨q', hq1⟩ w1 w2 kimg
    rw [he, hf]
    dsimp only
    split_ifs
    · exact ⟨_, _, rfl⟩
    · exact ⟨_, _, rfl⟩

/-- With numpy 2, float32 actions and a dwell time that is part of the action, no step within an episode returns: every
action of the right size is refused with TypeError. -/
theorem C147_refused (T : FloatTrig) (S : Summation) (k : DotKind) (n : ℕ) (cfg : FloatEnvCfg G O P Img F)
    (hc : FloatWorld T S k n cfg) (lo hi : Timedelta) (hne : lo ≠ hi) (D : ℝ) (ha : cfg.adapter = .relative lo hi D)
    (h2 : cfg.sim.numpy = .two) (h32 : cfg.actions = .single)
    (g : G) (ga : Option G) (beam : V2 ℝ) (ops : List (EnvOp ℝ O))
    (s : Env ℝ G O P Img) (hs : s = Env.floatAfter cfg (Env.fresh g ga beam GoalState.floatFresh) ops)
    (hq : s.requiresReset = false) (a : List ℝ) (hlen : a.length = actionSize cfg.adapter) :
    Env.floatStep cfg a s = .error .typeError s := by
  have hp : FloatPlaying n s := by rw [hs]; exact floatAfter_playing hc ops (floatFresh_playing n g ga beam)
  obtain ⟨sheet, hlive⟩ := hp.live hq
  obtain ⟨q, hsi, hu⟩ := hlive.silicon
  have hone : oneSilicon s.last.grid = .ok q := by simp [oneSilicon, getSiliconPositions_eq_silicons hlive.wf, hsi]
  have h3 : a.length = 3 := by rw [hlen, ha]; simp [actionSize, hne]
  obtain ⟨x, y, z, rfl⟩ := List.length_eq_three.1 h3
  obtain ⟨px, py⟩ := hlive.ready.sound.rect.pos
  unfold Env.floatStep
  rw [if_neg (by rw [hq]; exact Bool.false_ne_true)]
  have : cfg.adapter.floatGetAction cfg.sim.numpy cfg.actions s.last [x, y, z] s.beam = .error .typeError s.beam := by
    rw [ha, h2, h32]
    unfold Adapter.floatGetAction
    simp only [hone, actionPrefix2, C137_refused lo hi hne]
    rw [if_neg (by rintro (e | e) <;> linarith)]
  rw [this]

/-! ### The hypotheses can be met -/

/-- An environment with the simple rates and actions in double precision. -/
noncomputable def floatEnvPlay : FloatEnvCfg Unit Unit Unit Unit (List ℝ) where
  sim := simplePlay
  adapter := .relative 1500000 10000000 (f64 BOND)
  features := pristineFeatures Witness.knn
  requiresImage := false
  seedRng := fun _ => ()
  actions := .double
  dots := .fusedFirst

theorem floatEnvPlay_world : FloatWorld roundedTrig inOrder .fusedFirst 50 floatEnvPlay :=
  ⟨by norm_num, by norm_num, rfl, Witness.rng_lawful zero_le_one, floatPristine_doped _⟩

theorem floatEnvPlay_steps : FloatSteps floatEnvPlay :=
  ⟨chooses_witness 1, fun _ _ h4 _ hbox hq => floatPristine_at _ h4 hbox hq, .inr rfl, by norm_num [floatEnvPlay, dwellRange],
    by norm_num [floatEnvPlay, dwellRange], by norm_num [floatEnvPlay, dwellRange], .inr (.inl rfl)⟩

/-- After a reset, which has the goal on an atom, a step with the beam half a bond from the silicon returns, with the beam
where it was aimed. -/
example : ∃ t s t' s', Env.floatReset floatEnvPlay (Env.fresh () none ⟨0, 0⟩ GoalState.floatFresh) = .ok t s ∧
    Env.floatStep floatEnvPlay [1 / 2, 0, 0] s = .ok t' s' ∧ s.requiresReset = false ∧
    (∃ sheet b, s.sim.ctx.mat.grid = some sheet ∧ b ∈ sheet.positions ∧ Spec.dist s.goal.goal b ≤ 1 / 10 ^ 9) ∧
    (∃ sheet sheet' q p dwell, ∃ evs : List (Event ℝ Unit), s.sim.ctx.mat.grid = some sheet ∧ s'.sim.ctx.mat.grid = some sheet' ∧
      silicons s.last.grid = [q] ∧ ExposedAll simplePlay.rate [(p, dwell)] sheet evs sheet' ∧
      |p.x - aimedAt floatEnvPlay.adapter s.last.fov.lowerLeft.x s.last.fov.upperRight.x q.x s.beam.x (1 / 2)| ≤
        1 / 10 ^ 9) := by
  have hfeat : FeaturesDefined floatEnvPlay.features floatEnvPlay.requiresImage :=
    (C69_features_defined (Img := Unit) Witness.knn (fun i => i)).1 false
  obtain ⟨⟨t, s, h1⟩, _⟩ := C147_plays_partial _ _ _ _ floatEnvPlay floatEnvPlay_world floatEnvPlay_steps hfeat () none
    ⟨0, 0⟩ [] _ rfl
  have h1' : Env.floatReset floatEnvPlay (Env.fresh () none ⟨0, 0⟩ GoalState.floatFresh) = .ok t s := h1
  have hs : s = Env.floatAfter floatEnvPlay (Env.fresh () none ⟨0, 0⟩ GoalState.floatFresh) [.reset] := by
    simp only [Env.floatAfter, List.foldl, Env.floatExec, h1']
  obtain ⟨sheet, si, b, g1, _, _, _, g2, _, _, _, g3, g4, _⟩ := C147_goal _ _ _ _ floatEnvPlay floatEnvPlay_world () none
    ⟨0, 0⟩ [] _ rfl t s h1
  obtain ⟨_, hstep⟩ := C147_plays_partial _ _ _ _ floatEnvPlay floatEnvPlay_world floatEnvPlay_steps hfeat () none
    ⟨0, 0⟩ [.reset] s hs
  rcases hstep [1 / 2, 0, 0] (by simp [floatEnvPlay, actionSize]) with ⟨t', s', h2⟩ | ⟨_, h2⟩
  · have hB : |f64 (BOND : ℝ)| ≤ 1000 := by
      have := f64_near (x := (BOND : ℝ)) (b := 142 / 100) (by rw [abs_le]; unfold BOND; norm_num)
      rw [abs_le] at this ⊢
      unfold BOND at this ⊢
      norm_num at this ⊢
      constructor <;> linarith [this.1, this.2]
    obtain ⟨sh, sh', q, p, dwell, evs, evs', b1, b2, b3, _, _, b4, _, b5, _⟩ := C147_beam _ _ _ _ floatEnvPlay
      floatEnvPlay_world floatEnvPlay_steps.chooses (by
        rintro lo hi D ⟨⟩
        exact hB) floatEnvPlay_steps.dwellPos floatEnvPlay_steps.dwellOrder
      (floatEnvPlay_steps.dwellHour.le.trans (by norm_num)) () none ⟨0, 0⟩ [.reset] s hs g4 (by intro h; cases h) (1 / 2) 0
      (by norm_num) (by norm_num) [0] t' s' h2
    exact ⟨t, s, t', s', h1, h2, g4, ⟨sheet, b, g1, g2, g3⟩, sh, sh', q, p, dwell, evs, b1, b2, b3, b4, b5⟩
  · have := h2 (by
      intro scale g
      show (1 : ℝ) / 1000000 ≤ 1
      norm_num)
    exact absurd this (by show ¬ (3600000000 < 3600000000); norm_num)

/-- The same environment with numpy 2 and float32 actions: the reset returns, and no step does. -/
example : ∃ cfg : FloatEnvCfg Unit Unit Unit Unit (List ℝ), ∃ t s,
    Env.floatReset cfg (Env.fresh () none ⟨0, 0⟩ GoalState.floatFresh) = .ok t s ∧
    Env.floatStep cfg [1 / 2, 0, 0] s = .error .typeError s := by
  let cfg : FloatEnvCfg Unit Unit Unit Unit (List ℝ) :=
    { floatEnvPlay with sim := { simplePlay with numpy := .two }, actions := .single }
  have hw : FloatWorld roundedTrig inOrder .fusedFirst 50 cfg :=
    ⟨by norm_num, by norm_num, rfl, Witness.rng_lawful zero_le_one, floatPristine_doped _⟩
  have hfeat : FeaturesDefined cfg.features cfg.requiresImage :=
    (C69_features_defined (Img := Unit) Witness.knn (fun i => i)).1 false
  obtain ⟨t, s, h1⟩ := C147_reset _ _ _ _ cfg hw hfeat () none ⟨0, 0⟩ [] _ rfl
  have h1' : Env.floatReset cfg (Env.fresh () none ⟨0, 0⟩ GoalState.floatFresh) = .ok t s := h1
  obtain ⟨_, _, _, _, _, _, _, _, _, _, _, _, hq, _⟩ := C147_goal _ _ _ _ cfg hw () none ⟨0, 0⟩ [] _ rfl t s h1
  refine ⟨cfg, t, s, h1, ?_⟩
  exact C147_refused _ _ _ _ cfg hw 1500000 10000000 (by norm_num) (f64 BOND) rfl rfl rfl () none ⟨0, 0⟩ [.reset] s
    (by simp only [Env.floatAfter, List.foldl, Env.floatExec, h1']) hq _ (by
      show 3 = _
      simp [cfg, floatEnvPlay, actionSize])

/-- An environment with moves of the beam: after a reset, a move to the right by a tenth of the image returns, and the
beam stays where it led. -/
example : ∃ cfg : FloatEnvCfg Unit Unit Unit Unit (List ℝ), ∃ t s t' s',
    Env.floatReset cfg (Env.fresh () none ⟨0, 0⟩ GoalState.floatFresh) = .ok t s ∧ InUnit s.beam ∧
    Env.floatStep cfg [1 / 10, 0] s = .ok t' s' ∧
    |s'.beam.x - max 0 (min 1 (s.beam.x + 1 / 10))| ≤ 1 / 10 ^ 9 := by
  let cfg : FloatEnvCfg Unit Unit Unit Unit (List ℝ) := { floatEnvPlay with adapter := .delta }
  have hw : FloatWorld roundedTrig inOrder .fusedFirst 50 cfg :=
    ⟨by norm_num, by norm_num, rfl, Witness.rng_lawful zero_le_one, floatPristine_doped _⟩
  have hsteps : FloatSteps cfg :=
    ⟨chooses_witness 1, fun _ _ h4 _ hbox hq => floatPristine_at _ h4 hbox hq, .inr rfl,
      by norm_num [cfg, dwellRange], by norm_num [cfg, dwellRange], by norm_num [cfg, dwellRange], .inr (.inl rfl)⟩
  have hfeat : FeaturesDefined cfg.features cfg.requiresImage :=
    (C69_features_defined (Img := Unit) Witness.knn (fun i => i)).1 false
  obtain ⟨⟨t, s, h1⟩, _⟩ := C147_plays_partial _ _ _ _ cfg hw hsteps hfeat () none ⟨0, 0⟩ [] _ rfl
  have h1' : Env.floatReset cfg (Env.fresh () none ⟨0, 0⟩ GoalState.floatFresh) = .ok t s := h1
  have hs : s = Env.floatAfter cfg (Env.fresh () none ⟨0, 0⟩ GoalState.floatFresh) [.reset] := by
    simp only [Env.floatAfter, List.foldl, Env.floatExec, h1']
  obtain ⟨_, _, _, _, _, _, _, _, _, _, _, _, hq, _⟩ := C147_goal _ _ _ _ cfg hw () none ⟨0, 0⟩ [] _ rfl t s h1
  obtain ⟨_, hstep⟩ := C147_plays_partial _ _ _ _ cfg hw hsteps hfeat () none ⟨0, 0⟩ [.reset] s hs
  have hu : InUnit s.beam := C147_starts cfg rfl (Witness.rng_lawful zero_le_one) _ t s h1'
  have hb : |s.beam.x| ≤ 1000 ∧ |s.beam.y| ≤ 1000 := by
    obtain ⟨⟨u1, u2⟩, u3, u4⟩ := hu
    constructor <;> rw [abs_le] <;> constructor <;> linarith
  rcases hstep [1 / 10, 0] (by simp [cfg, actionSize]) with ⟨t', s', h2⟩ | ⟨_, h2⟩
  · exact ⟨cfg, t, s, t', s', h1', hu, h2,
      (C147_kept cfg rfl s hq hb (1 / 10) 0 (by norm_num) (by norm_num) t' s' h2).2.1⟩
  · have := h2 (by
      intro scale g
      show (1 : ℝ) / 1000000 ≤ 1
      norm_num)
    exact absurd this (by show ¬ (3600000000 < 3600000000); norm_num)

/-- A silicon that is the only atom in view: it is no goal, so there is none. -/
example (f : Fov ℝ) : GoalState.floatFresh.floatReset (Witness.rng (1 : ℝ))
    (⟨⟨[⟨1 / 2, 1 / 2⟩], [14]⟩, f, [], 0, none, none⟩ : Observation ℝ Unit) () = .error .runtimeError := by
  refine C147_no_goal _ _ _ _ ⟨1 / 2, 1 / 2⟩ (by simp [getSingleSiliconPosition, getSiliconPositions, maskSelect, SILICON]) ?_
  intro p hp
  rw [List.mem_singleton.1 hp]
  rintro ⟨h1, _⟩
  have : floatGoalRange f ⟨1 / 2, 1 / 2⟩ ⟨1 / 2, 1 / 2⟩ = 0 := by
    simp [floatGoalRange, floatNorm, floatDot, f64_zero]
  rw [this] at h1
  exact absurd h1 (not_lt.2 (f64_nonneg (by norm_num)))

end PD.Props
