/- C92: the networks give scores for each pixel, from its surroundings. -/
import Verif.Model.UNet
import Mathlib.Tactic.Linarith
import Mathlib.Tactic.Ring
import Mathlib.Algebra.BigOperators.Group.Finset.Basic
import Mathlib.Algebra.Order.Field.Rat

set_option linter.unusedSectionVars false
set_option linter.unusedSimpArgs false

namespace PD.Props
open PD
variable {K : Type} [Field K] [LinearOrder K]

/-! ### Sizes -/

theorem pow_succ_dvd_iff (n h : ℕ) : 2 ^ (n + 1) ∣ h ↔ 2 * (h / 2) = h ∧ 2 ^ n ∣ h / 2 := by
  constructor
  · rintro ⟨k, rfl⟩
    have : 2 ^ (n + 1) * k / 2 = 2 ^ n * k := by
      rw [pow_succ, Nat.mul_right_comm, Nat.mul_div_cancel _ (by norm_num)]
    rw [this]
    exact ⟨by ring, Dvd.intro _ rfl⟩
  · rintro ⟨h1, k, h2⟩
    exact ⟨k, by rw [← h1, h2]; ring⟩

/-- The output has the size of the input, and the features at the greatest depth are `2 ^ n` times smaller. -/
theorem unetRecurse_size (n : ℕ) (levels : List (Level K)) (hl : levels.length = n + 1) (x : Img K) :
    (2 ^ n ∣ x.h ∧ 2 ^ n ∣ x.w →
      ∃ y b, unetRecurse levels x = .ok (y, b) ∧ y.h = x.h ∧ y.w = x.w ∧ 2 ^ n * b.h = x.h ∧ 2 ^ n * b.w = x.w) ∧
    (¬ (2 ^ n ∣ x.h ∧ 2 ^ n ∣ x.w) → unetRecurse levels x = .error .typeError) := by
  induction n generalizing levels x with
  | zero =>
    obtain ⟨l, rfl⟩ := List.length_eq_one_iff.1 hl
    refine ⟨fun _ => ⟨_, _, rfl, rfl, rfl, ?_, ?_⟩, fun h => absurd ?_ h⟩
    · simp [convolve]
    · simp [convolve]
    · simp
  | succ n ih =>
    match levels, hl with
    | l :: l' :: rest, hl =>
      obtain ⟨ih1, ih2⟩ := ih (l' :: rest) (by simpa using hl) (maxPool (convolve 1 l.down x))
      have eh : (maxPool (convolve 1 l.down x)).h = x.h / 2 := rfl
      have ew : (maxPool (convolve 1 l.down x)).w = x.w / 2 := rfl
      rw [eh, ew] at ih1 ih2
      simp only [pow_succ_dvd_iff, unetRecurse]
      by_cases hin : 2 ^ n ∣ x.h / 2 ∧ 2 ^ n ∣ x.w / 2
      · obtain ⟨y, b, hy, h1, h2, h3, h4⟩ := ih1 hin
        rw [hy]
        simp only [joinFeatures]
        have e1 : (upsample l.up y).h = 2 * (x.h / 2) := by simp [upsample, h1]
        have e2 : (upsample l.up y).w = 2 * (x.w / 2) := by simp [upsample, h2]
        have e3 : (convolve 1 l.down x).h = x.h := rfl
        have e4 : (convolve 1 l.down x).w = x.w := rfl
        rw [e1, e2, e3, e4]
        constructor
        · rintro ⟨⟨k1, -⟩, k2, -⟩
          rw [if_pos ⟨k1, k2⟩]
          refine ⟨_, _, rfl, k1, k2, ?_, ?_⟩
          · rw [← k1, ← h3]; ring
          · rw [← k2, ← h4]; ring
        · intro hn
          rw [if_neg (fun k => hn ⟨⟨k.1, hin.1⟩, k.2, hin.2⟩)]
      · rw [ih2 hin]
        exact ⟨fun k => absurd ⟨k.1.2, k.2.2⟩ hin, fun _ => rfl⟩

/-- C92, sizes: the detection network with `n + 1` depths takes exactly the images whose height and width are
multiples of `2 ^ n`, and gives each pixel one score for each class; for other images it raises. -/
theorem C92_scores (n : ℕ) (levels : List (Level K)) (hl : levels.length = n + 1) (output : Layer K) (x : Img K) :
    (2 ^ n ∣ x.h ∧ 2 ^ n ∣ x.w → ∃ y, unet levels output x = .ok y ∧ y.h = x.h ∧ y.w = x.w ∧
      ∀ r c, (y.px r c).length = output.out) ∧
    (¬ (2 ^ n ∣ x.h ∧ 2 ^ n ∣ x.w) → unet levels output x = .error .typeError) := by
  obtain ⟨h1, h2⟩ := unetRecurse_size n levels hl x
  constructor
  · intro h
    obtain ⟨y, b, hy, k1, k2, -, -⟩ := h1 h
    exact ⟨convolve 0 output y, by rw [unet, hy], k1, k2, fun r c => output.len _⟩
  · intro h
    rw [unet, h2 h]

/-- C92, sizes, for the alignment network: besides the scores of each pixel it gives one estimate of the drift. -/
theorem C92_aligner_scores (n : ℕ) (net : AlignerNet K) (hl : net.levels.length = n + 1) (x : Img K) :
    (2 ^ n ∣ x.h ∧ 2 ^ n ∣ x.w → ∃ y g, globalLocalUNet net x = .ok (y, g) ∧ y.h = x.h ∧ y.w = x.w ∧
      (∀ r c, (y.px r c).length = net.localOut.out) ∧ g.length = net.globalOut) ∧
    (¬ (2 ^ n ∣ x.h ∧ 2 ^ n ∣ x.w) → globalLocalUNet net x = .error .typeError) := by
  obtain ⟨h1, h2⟩ := unetRecurse_size n net.levels hl (convolve 3 net.input x)
  constructor
  · intro h
    obtain ⟨y, b, hy, k1, k2, -, -⟩ := h1 h
    exact ⟨convolve 3 net.localOut y, _, by rw [globalLocalUNet, hy], k1, k2, fun r c => net.localOut.len _, net.denseLen _⟩
  · intro h
    rw [globalLocalUNet, h2 h]

theorem sum_flatMap_range (h w : ℕ) (f : ℕ → ℕ → K) :
    ((List.range h).flatMap (fun r => (List.range w).map (f r))).sum =
      ∑ r ∈ Finset.range h, ∑ c ∈ Finset.range w, f r c := by
  induction h with
  | zero => simp
  | succ h ih =>
    rw [List.range_succ, List.flatMap_append, List.sum_append, ih, Finset.sum_range_succ]
    simp only [List.flatMap_cons, List.flatMap_nil, List.append_nil]
    rfl

/-- C92, drift: the estimate of the drift is made from the averages, for each feature, over all pixels of the
features at the greatest depth, of which there is one for each square of `2ⁿ` by `2ⁿ` pixels of the image. -/
theorem C92_aligner_drift (n : ℕ) (net : AlignerNet K) (hl : net.levels.length = n + 1) (x y : Img K) (g : List K)
    (h : globalLocalUNet net x = .ok (y, g)) :
    ∃ d bottom, unetRecurse net.levels (convolve 3 net.input x) = .ok (d, bottom) ∧
      2 ^ n * bottom.h = x.h ∧ 2 ^ n * bottom.w = x.w ∧
      ∃ means : List K, means.length = net.globalConv.out ∧ g = net.dense means ∧
        ∀ i, i < means.length → means.getD i 0 =
          (∑ r ∈ Finset.range bottom.h, ∑ c ∈ Finset.range bottom.w,
            ((convolve 0 net.globalConv bottom).px r c).getD i 0) / (bottom.h * bottom.w) := by
  obtain ⟨h1, h2⟩ := unetRecurse_size n net.levels hl (convolve 3 net.input x)
  by_cases hd : 2 ^ n ∣ (convolve 3 net.input x).h ∧ 2 ^ n ∣ (convolve 3 net.input x).w
  · obtain ⟨d, b, hdb, -, -, k3, k4⟩ := h1 hd
    rw [globalLocalUNet, hdb] at h
    simp only [Except.ok.injEq, Prod.mk.injEq] at h
    refine ⟨d, b, hdb, k3, k4, _, ?_, h.2.symm, ?_⟩
    · simp [meanFeatures]
    · intro i hi
      simp only [meanFeatures, List.length_map, List.length_range] at hi
      rw [meanFeatures, List.getD_eq_getElem?_getD, List.getElem?_map, List.getElem?_range hi, Option.map_some,
        Option.getD_some, sum_flatMap_range]
      simp [convolve]
  · rw [globalLocalUNet, h2 hd] at h
    cases h

/-! ### Surroundings -/

/-- Two images of the same size have the same pixels in a window. -/
def SameOn (r0 r1 c0 c1 : ℤ) (a b : Img K) : Prop :=
  a.h = b.h ∧ a.w = b.w ∧ ∀ r c : ℕ, r < a.h → c < a.w → r0 ≤ r → (r : ℤ) ≤ r1 → c0 ≤ c → (c : ℤ) ≤ c1 →
    a.px r c = b.px r c

theorem SameOn.mono {r0 r1 c0 c1 s0 s1 t0 t1 : ℤ} {a b : Img K} (h : SameOn r0 r1 c0 c1 a b) (h0 : r0 ≤ s0)
    (h1 : s1 ≤ r1) (h2 : c0 ≤ t0) (h3 : t1 ≤ c1) : SameOn s0 s1 t0 t1 a b :=
  ⟨h.1, h.2.1, fun r c hr hc k0 k1 k2 k3 => h.2.2 r c hr hc (h0.trans k0) (k1.trans h1) (h2.trans k2) (k3.trans h3)⟩

theorem SameOn.at? {r0 r1 c0 c1 : ℤ} {a b : Img K} (h : SameOn r0 r1 c0 c1 a b) {r c : ℤ} (h0 : r0 ≤ r)
    (h1 : r ≤ r1) (h2 : c0 ≤ c) (h3 : c ≤ c1) : a.at? r c = b.at? r c := by
  unfold Img.at?
  rw [← h.1, ← h.2.1]
  split_ifs with hin
  · obtain ⟨k0, k1, k2, k3⟩ := hin
    rw [h.2.2 r.toNat c.toNat (by omega) (by omega) (by omega) (by omega) (by omega) (by omega)]
  · rfl

theorem SameOn.convolve {r0 r1 c0 c1 : ℤ} {a b : Img K} (k : ℕ) (l : Layer K)
    (h : SameOn (r0 - k) (r1 + k) (c0 - k) (c1 + k) a b) : SameOn r0 r1 c0 c1 (convolve k l a) (convolve k l b) := by
  refine ⟨h.1, h.2.1, ?_⟩
  intro r c _ _ k0 k1 k2 k3
  simp only [PD.convolve]
  congr 1
  funext dr dc
  split_ifs with hd
  · have := abs_le.1 hd.1
    have := abs_le.1 hd.2
    exact h.at? (by omega) (by omega) (by omega) (by omega)
  · rfl

theorem SameOn.maxPool {r0 r1 c0 c1 : ℤ} {a b : Img K} (h : SameOn (2 * r0) (2 * r1 + 1) (2 * c0) (2 * c1 + 1) a b) :
    SameOn r0 r1 c0 c1 (maxPool a) (maxPool b) := by
  refine ⟨by simp [PD.maxPool, h.1], by simp [PD.maxPool, h.2.1], ?_⟩
  intro r c hr hc k0 k1 k2 k3
  simp only [PD.maxPool] at hr hc ⊢
  rw [h.2.2 (2 * r) (2 * c) (by omega) (by omega) (by push_cast; omega) (by push_cast; omega) (by push_cast; omega)
      (by push_cast; omega),
    h.2.2 (2 * r) (2 * c + 1) (by omega) (by omega) (by push_cast; omega) (by push_cast; omega)
      (by push_cast; omega) (by push_cast; omega),
    h.2.2 (2 * r + 1) (2 * c) (by omega) (by omega) (by push_cast; omega) (by push_cast; omega)
      (by push_cast; omega) (by push_cast; omega),
    h.2.2 (2 * r + 1) (2 * c + 1) (by omega) (by omega) (by push_cast; omega) (by push_cast; omega)
      (by push_cast; omega) (by push_cast; omega)]

theorem SameOn.upsample {q0 q1 p0 p1 r0 r1 c0 c1 : ℤ} {a b : Img K} (l : Bool → Bool → Layer K)
    (h : SameOn q0 q1 p0 p1 a b) (h0 : 2 * q0 ≤ r0 - 1) (h1 : r1 ≤ 2 * q1 + 1) (h2 : 2 * p0 ≤ c0 - 1)
    (h3 : c1 ≤ 2 * p1 + 1) : SameOn r0 r1 c0 c1 (upsample l a) (upsample l b) := by
  refine ⟨by simp [PD.upsample, h.1], by simp [PD.upsample, h.2.1], ?_⟩
  intro r c _ _ k0 k1 k2 k3
  simp only [PD.upsample]
  congr 1
  funext dr dc
  split_ifs with hd
  · simp only [seesRow, Bool.and_eq_true, decide_eq_true_eq] at hd
    obtain ⟨⟨d1, d2⟩, d3, d4⟩ := hd
    exact h.at? (by omega) (by omega) (by omega) (by omega)
  · rfl

/-- Rows above (columns to the left) that the recursion with `n + 1` depths sees. -/
def reachBefore (n : ℕ) : ℕ := 5 * 2 ^ n - 4
/-- Rows below (columns to the right) that the recursion with `n + 1` depths sees. -/
def reachAfter (n : ℕ) : ℕ := 4 * 2 ^ n - 3

theorem reachBefore_succ (n : ℕ) : (reachBefore (n + 1) : ℤ) = 2 * reachBefore n + 4 := by
  have : 1 ≤ 2 ^ n := Nat.one_le_two_pow
  simp only [reachBefore, pow_succ]
  omega

theorem reachAfter_succ (n : ℕ) : (reachAfter (n + 1) : ℤ) = 2 * reachAfter n + 3 := by
  have : 1 ≤ 2 ^ n := Nat.one_le_two_pow
  simp only [reachAfter, pow_succ]
  omega

theorem unetRecurse_local (n : ℕ) (levels : List (Level K)) (hl : levels.length = n + 1) (a b : Img K)
    (r0 r1 c0 c1 : ℤ)
    (h : SameOn (r0 - reachBefore n) (r1 + reachAfter n) (c0 - reachBefore n) (c1 + reachAfter n) a b)
    (ya ba yb bb : Img K) (ha : unetRecurse levels a = .ok (ya, ba)) (hb : unetRecurse levels b = .ok (yb, bb)) :
    SameOn r0 r1 c0 c1 ya yb := by
  induction n generalizing levels a b r0 r1 c0 c1 ya ba yb bb with
  | zero =>
    obtain ⟨l, rfl⟩ := List.length_eq_one_iff.1 hl
    simp only [unetRecurse, Except.ok.injEq, Prod.mk.injEq] at ha hb
    rw [← ha.1, ← hb.1]
    exact SameOn.convolve 1 l.down (by simpa [reachBefore, reachAfter] using h)
  | succ n ih =>
    match levels, hl with
    | l :: l' :: rest, hl =>
      simp only [unetRecurse] at ha hb
      cases hda : unetRecurse (l' :: rest) (maxPool (convolve 1 l.down a)) with
      | error e => simp [hda] at ha
      | ok pa =>
        cases hdb : unetRecurse (l' :: rest) (maxPool (convolve 1 l.down b)) with
        | error e => simp [hdb] at hb
        | ok pb =>
          obtain ⟨da, ba'⟩ := pa
          obtain ⟨db, bb'⟩ := pb
          simp only [hda, hdb, joinFeatures] at ha hb
          rw [reachBefore_succ, reachAfter_succ] at h
          have hx : SameOn (r0 - 3 - 2 * reachBefore n) (r1 + 2 + 2 * reachAfter n) (c0 - 3 - 2 * reachBefore n)
              (c1 + 2 + 2 * reachAfter n) (convolve 1 l.down a) (convolve 1 l.down b) := by
            apply SameOn.convolve
            exact h.mono (by push_cast; omega) (by push_cast; omega) (by push_cast; omega) (by push_cast; omega)
          have hd : SameOn ((r0 - 2) / 2) ((r1 + 1) / 2) ((c0 - 2) / 2) ((c1 + 1) / 2) da db := by
            refine ih (l' :: rest) (by simpa using hl) _ _ _ _ _ _ ?_ da ba' db bb' hda hdb
            apply SameOn.maxPool
            exact hx.mono (by omega) (by omega) (by omega) (by omega)
          have hu : SameOn (r0 - 1) (r1 + 1) (c0 - 1) (c1 + 1) (upsample l.up da) (upsample l.up db) :=
            hd.upsample l.up (by omega) (by omega) (by omega) (by omega)
          have hx' : SameOn (r0 - 1) (r1 + 1) (c0 - 1) (c1 + 1) (convolve 1 l.down a) (convolve 1 l.down b) :=
            hx.mono (by omega) (by omega) (by omega) (by omega)
          by_cases ka : (upsample l.up da).h = (convolve 1 l.down a).h ∧
              (upsample l.up da).w = (convolve 1 l.down a).w
          · by_cases kb : (upsample l.up db).h = (convolve 1 l.down b).h ∧
                (upsample l.up db).w = (convolve 1 l.down b).w
            · rw [if_pos ka] at ha
              rw [if_pos kb] at hb
              simp only [Except.ok.injEq, Prod.mk.injEq] at ha hb
              rw [← ha.1, ← hb.1]
              apply SameOn.convolve
              refine ⟨hu.1, hu.2.1, ?_⟩
              intro r c hr hc k0 k1 k2 k3
              simp only at hr hc ⊢
              rw [hu.2.2 r c hr hc (by simpa using k0) (by simpa using k1) (by simpa using k2) (by simpa using k3),
                hx'.2.2 r c (ka.1 ▸ hr) (ka.2 ▸ hc) (by simpa using k0) (by simpa using k1) (by simpa using k2)
                  (by simpa using k3)]
            · rw [if_neg kb] at hb; simp at hb
          · rw [if_neg ka] at ha; simp at ha

/-- Two images of the same size do not differ at pixels at most `before` rows above (columns to the left of) and
`after` rows below (columns to the right of) a pixel. -/
def SameAround (before after r c : ℕ) (a b : Img K) : Prop :=
  a.h = b.h ∧ a.w = b.w ∧ ∀ r' c', r' < a.h → c' < a.w → r ≤ r' + before → r' ≤ r + after → c ≤ c' + before →
    c' ≤ c + after → a.px r' c' = b.px r' c'

/-- C92, surroundings: whatever the weights of the detection network, with `n + 1` depths, the scores of a pixel
depend only on the image up to `5 · 2ⁿ - 4` rows above and columns to the left, and `4 · 2ⁿ - 3` rows below and
columns to the right of it. -/
theorem C92_local (n : ℕ) (levels : List (Level K)) (hl : levels.length = n + 1) (output : Layer K) (a b : Img K)
    (r c : ℕ) (hr : r < a.h) (hc : c < a.w) (h : SameAround (5 * 2 ^ n - 4) (4 * 2 ^ n - 3) r c a b) (ya yb : Img K)
    (ha : unet levels output a = .ok ya) (hb : unet levels output b = .ok yb) : ya.px r c = yb.px r c := by
  simp only [unet] at ha hb
  cases hra : unetRecurse levels a with
  | error e => simp [hra] at ha
  | ok pa =>
    cases hrb : unetRecurse levels b with
    | error e => simp [hrb] at hb
    | ok pb =>
      obtain ⟨da, ba⟩ := pa
      obtain ⟨db, bb⟩ := pb
      simp only [hra, hrb, Except.ok.injEq] at ha hb
      have hs : SameOn (r - reachBefore n) (r + reachAfter n) (c - reachBefore n) (c + reachAfter n) a b := by
        refine ⟨h.1, h.2.1, fun r' c' h1 h2 h3 h4 h5 h6 => h.2.2 r' c' h1 h2 ?_ ?_ ?_ ?_⟩ <;>
          simp only [reachBefore, reachAfter] at * <;> omega
      have hd := unetRecurse_local n levels hl a b r r c c hs da ba db bb hra hrb
      rw [← ha, ← hb]
      have hsz : da.h = a.h ∧ da.w = a.w := by
        obtain ⟨k1, k2⟩ := unetRecurse_size n levels hl a
        by_cases hdiv : 2 ^ n ∣ a.h ∧ 2 ^ n ∣ a.w
        · obtain ⟨y, b', hy, e1, e2, -, -⟩ := k1 hdiv
          rw [hra] at hy
          simp only [Except.ok.injEq, Prod.mk.injEq] at hy
          rw [hy.1]; exact ⟨e1, e2⟩
        · rw [k2 hdiv] at hra; simp at hra
      have := SameOn.convolve (r0 := r) (r1 := r) (c0 := c) (c1 := c) 0 output (by simpa using hd)
      exact this.2.2 r c (by simpa [PD.convolve, hsz.1] using hr) (by simpa [PD.convolve, hsz.2] using hc) le_rfl le_rfl
        le_rfl le_rfl

/-- C92, surroundings, for the alignment network: its first and last convolutions see three pixels more on each
side. -/
theorem C92_aligner_local (n : ℕ) (net : AlignerNet K) (hl : net.levels.length = n + 1) (a b : Img K) (r c : ℕ)
    (hr : r < a.h) (hc : c < a.w) (h : SameAround (5 * 2 ^ n + 2) (4 * 2 ^ n + 3) r c a b) (ya yb : Img K)
    (ga gb : List K) (ha : globalLocalUNet net a = .ok (ya, ga)) (hb : globalLocalUNet net b = .ok (yb, gb)) :
    ya.px r c = yb.px r c := by
  have hpow : 1 ≤ 2 ^ n := Nat.one_le_two_pow
  simp only [globalLocalUNet] at ha hb
  cases hra : unetRecurse net.levels (convolve 3 net.input a) with
  | error e => simp [hra] at ha
  | ok pa =>
    cases hrb : unetRecurse net.levels (convolve 3 net.input b) with
    | error e => simp [hrb] at hb
    | ok pb =>
      obtain ⟨da, ba⟩ := pa
      obtain ⟨db, bb⟩ := pb
      simp only [hra, hrb, Except.ok.injEq, Prod.mk.injEq] at ha hb
      have hs : SameOn (r - 3 - reachBefore n) (r + 3 + reachAfter n) (c - 3 - reachBefore n)
          (c + 3 + reachAfter n) (convolve 3 net.input a) (convolve 3 net.input b) := by
        apply SameOn.convolve
        refine ⟨h.1, h.2.1, fun r' c' h1 h2 h3 h4 h5 h6 => h.2.2 r' c' h1 h2 ?_ ?_ ?_ ?_⟩ <;>
          simp only [reachBefore, reachAfter] at * <;> omega
      have hd := unetRecurse_local n net.levels hl _ _ (r - 3) (r + 3) (c - 3) (c + 3) hs da ba db bb hra hrb
      rw [← ha.1, ← hb.1]
      have hsz : da.h = a.h ∧ da.w = a.w := by
        obtain ⟨k1, k2⟩ := unetRecurse_size n net.levels hl (convolve 3 net.input a)
        by_cases hdiv : 2 ^ n ∣ (convolve 3 net.input a).h ∧ 2 ^ n ∣ (convolve 3 net.input a).w
        · obtain ⟨y, b', hy, e1, e2, -, -⟩ := k1 hdiv
          rw [hra] at hy
          simp only [Except.ok.injEq, Prod.mk.injEq] at hy
          rw [hy.1]; exact ⟨e1, e2⟩
        · rw [k2 hdiv] at hra; simp at hra
      have := SameOn.convolve (r0 := r) (r1 := r) (c0 := c) (c1 := c) 3 net.localOut (by simpa using hd)
      exact this.2.2 r c (by simpa [PD.convolve, hsz.1] using hr) (by simpa [PD.convolve, hsz.2] using hc) le_rfl le_rfl
        le_rfl le_rfl

/-! ### Cases -/

/-- A layer that adds up the first features it sees. -/
def sumLayer : Layer ℚ where
  out := 1
  f x := [([-1, 0, 1] : List ℤ).foldl (fun s dr => ([-1, 0, 1] : List ℤ).foldl
    (fun s dc => s + ((x dr dc).getD []).sum) s) 0]
  len _ := rfl

def sumLevel : Level ℚ := ⟨sumLayer, fun _ _ => sumLayer, sumLayer⟩

/-- An image that is 1 at one pixel and 0 elsewhere. -/
def dot (h w r c : ℕ) : Img ℚ := ⟨h, w, fun r' c' => if r' = r ∧ c' = c then [1] else [0]⟩

/-- Sizes 2 and 4 work with two depths and 3 does not; the scores of pixel (1, 0) see a pixel 5 rows below (the
reach) but not one 6 rows below. -/
example : (∃ y, unet [sumLevel, sumLevel] sumLayer (dot 4 2 0 0) = .ok y) ∧
    unet [sumLevel, sumLevel] sumLayer (dot 3 2 0 0) = .error .typeError ∧
    (∃ ya yb yc, unet [sumLevel, sumLevel] sumLayer (dot 8 2 6 0) = .ok ya ∧
      unet [sumLevel, sumLevel] sumLayer (dot 8 2 7 0) = .ok yb ∧
      unet [sumLevel, sumLevel] sumLayer (dot 8 2 8 0) = .ok yc ∧
      ya.px 1 0 ≠ yc.px 1 0 ∧ yb.px 1 0 = yc.px 1 0) := by
  refine ⟨⟨_, rfl⟩, rfl, _, _, _, rfl, rfl, rfl, ?_, ?_⟩ <;> decide +kernel

/-- An alignment network that adds up what it sees. -/
def sumNet : AlignerNet ℚ := ⟨sumLayer, [sumLevel, sumLevel], sumLayer, sumLayer, 1, fun x => [x.sum], fun _ => rfl⟩

/-- Its estimate for an image of two by eight pixels is an average over four. -/
example : ∃ y g d bottom, globalLocalUNet sumNet (dot 2 8 0 0) = .ok (y, g) ∧
    unetRecurse sumNet.levels (convolve 3 sumNet.input (dot 2 8 0 0)) = .ok (d, bottom) ∧
    bottom.h = 1 ∧ bottom.w = 4 ∧ g = [7 / 2] ∧
    (List.range 4).map (fun c => (convolve 0 sumNet.globalConv bottom).px 0 c) = [[6], [6], [2], [0]] := by
  refine ⟨_, _, _, _, rfl, rfl, rfl, rfl, ?_, ?_⟩ <;> decide +kernel

end PD.Props
