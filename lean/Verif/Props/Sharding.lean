/- C160: batches on several devices. -/
import Verif.Model.Sharding
import Verif.Spec.Sharding
import Mathlib.Order.Interval.Finset.Nat

set_option linter.unusedSectionVars false
set_option linter.unusedSimpArgs false

namespace PD.Props
open PD PD.Spec

theorem whole_piece (d k : ℕ) (shape : List ℕ) :
    arrayPiece d k (List.replicate shape.length .whole) shape = .ok (shape.map (fun n => (0, n))) := by
  induction shape with
  | nil => rfl
  | cons n shape ih => simp only [List.length_cons, List.replicate_succ, arrayPiece, axisPiece, ih, List.map_cons]

theorem whole_has {shape index : List ℕ} (h : IndexOf shape index) : HasEntry (shape.map (fun n => (0, n))) index := by
  unfold IndexOf at h
  unfold HasEntry
  induction h with
  | nil => exact .nil
  | cons hn _ ih => exact .cons ⟨Nat.zero_le _, hn⟩ ih

theorem piece_iff {d k b i : ℕ} (hd : d ∣ b) (hi : i < b) :
    (k * (b / d) ≤ i ∧ i < (k + 1) * (b / d)) ↔ i / (b / d) = k := by
  obtain ⟨m, rfl⟩ := hd
  rcases Nat.eq_zero_or_pos d with rfl | hd
  · simp at hi
  rw [Nat.mul_div_cancel_left m hd]
  have hm : 0 < m := by
    rcases Nat.eq_zero_or_pos m with rfl | h
    · simp at hi
    · exact h
  rw [Nat.div_eq_iff hm]
  constructor
  · rintro ⟨h1, h2⟩
    rw [Nat.add_mul, Nat.one_mul] at h2
    constructor <;> omega
  · rintro ⟨h1, h2⟩
    rw [Nat.add_mul, Nat.one_mul]
    constructor <;> omega

/-- C160.  When the number of examples is a multiple of the number of devices, the batch is put on the devices, and of every
array of it each device has exactly the entries of its own examples: example `i` of `b` is on device `i / (b / devices)` and on no
other. -/
theorem C160_examples (devices b : ℕ) (hd : devices ∣ b) (k : ℕ) (shapes : List (List ℕ))
    (hs : ∀ shape ∈ shapes, ∃ rest, shape = b :: rest) :
    ∃ pieces, putBatch devices k shapes = .ok pieces ∧
      List.Forall₂ (fun shape piece => ∀ i rest, IndexOf shape (i :: rest) →
        (HasEntry piece (i :: rest) ↔ i / (b / devices) = k)) shapes pieces := by
  induction shapes with
  | nil => exact ⟨[], rfl, .nil⟩
  | cons shape shapes ih =>
    obtain ⟨pieces, hp, hall⟩ := ih (fun s h => hs s (List.mem_cons_of_mem _ h))
    obtain ⟨rest, rfl⟩ := hs shape List.mem_cons_self
    have h1 : arrayPiece devices k (batchParts (b :: rest).length) (b :: rest) =
        .ok ((k * (b / devices), (k + 1) * (b / devices)) :: rest.map (fun n => (0, n))) := by
      simp [batchParts, arrayPiece, axisPiece, Nat.mod_eq_zero_of_dvd hd, whole_piece]
    refine ⟨((k * (b / devices), (k + 1) * (b / devices)) :: rest.map (fun n => (0, n))) :: pieces, by
      rw [putBatch, h1, hp], .cons ?_ hall⟩
    intro i index hin
    cases hin with
    | cons hi hrest =>
      rw [← piece_iff hd hi]
      constructor
      · intro h
        cases h with
        | cons h _ => exact h
      · intro h
        exact .cons h (whole_has hrest)

/-- C160.  Every device gets the same number of examples. -/
theorem C160_even (devices b : ℕ) (hpos : 0 < b) (hd : devices ∣ b) (k : ℕ) (hk : k < devices) :
    ((Finset.range b).filter (fun i => i / (b / devices) = k)).card = b / devices ∧
    ∀ i < b, i / (b / devices) < devices := by
  have hdp : 0 < devices := by omega
  have hq : b / devices * devices = b := Nat.div_mul_cancel hd
  have hle : (k + 1) * (b / devices) ≤ b := by
    calc (k + 1) * (b / devices) ≤ devices * (b / devices) := Nat.mul_le_mul_right _ hk
      _ = b := by rw [Nat.mul_comm]; exact hq
  constructor
  · have : (Finset.range b).filter (fun i => i / (b / devices) = k) = Finset.Ico (k * (b / devices)) ((k + 1) * (b / devices)) := by
      ext i
      simp only [Finset.mem_filter, Finset.mem_range, Finset.mem_Ico]
      constructor
      · rintro ⟨h1, h2⟩
        exact (piece_iff hd h1).2 h2
      · rintro ⟨h1, h2⟩
        have hi : i < b := by omega
        exact ⟨hi, (piece_iff hd hi).1 ⟨h1, h2⟩⟩
    rw [this, Nat.card_Ico, Nat.add_mul, Nat.one_mul, Nat.add_sub_cancel_left]
  · intro i hi
    refine Nat.div_lt_of_lt_mul ?_
    rwa [hq]

/-- C160.  A batch with an array without axes, or one whose examples cannot be shared out evenly, is rejected. -/
theorem C160_rejected (devices k : ℕ) (shapes : List (List ℕ))
    (h : [] ∈ shapes ∨ ∃ b rest, (b :: rest) ∈ shapes ∧ ¬ devices ∣ b) : putBatch devices k shapes = .error .valueError := by
  have herr : ∀ parts shape e, arrayPiece devices k parts shape = .error e → e = .valueError := by
    intro parts
    induction parts with
    | nil => intro shape e h; simp [arrayPiece] at h
    | cons part parts ih =>
      intro shape e h
      cases shape with
      | nil => simp only [arrayPiece, Except.error.injEq] at h; exact h.symm
      | cons n shape =>
        simp only [arrayPiece] at h
        split at h
        · rename_i e' he
          cases part with
          | data =>
            simp only [axisPiece] at he
            split_ifs at he
            simp only [Except.error.injEq] at h he
            rw [← h, ← he]
          | whole => simp [axisPiece] at he
        · split at h
          · rename_i e' he
            simp only [Except.error.injEq] at h
            rw [← h]
            exact ih _ _ he
          · cases h
  have hall : ∀ shapes e, putBatch devices k shapes = .error e → e = .valueError := by
    intro shapes
    induction shapes with
    | nil => intro e h; simp [putBatch] at h
    | cons shape shapes ih =>
      intro e h
      simp only [putBatch] at h
      split at h
      · rename_i e' he
        simp only [Except.error.injEq] at h
        rw [← h]
        exact herr _ _ _ he
      · split at h
        · rename_i e' he
          simp only [Except.error.injEq] at h
          rw [← h]
          exact ih _ he
        · cases h
  have hbad : ∀ shape, shape = [] ∨ (∃ b rest, shape = b :: rest ∧ ¬ devices ∣ b) → ∃ e,
      arrayPiece devices k (batchParts shape.length) shape = .error e := by
    rintro shape (rfl | ⟨b, rest, rfl, hb⟩)
    · exact ⟨_, rfl⟩
    · refine ⟨.valueError, ?_⟩
      have : ¬ b % devices = 0 := fun h => hb (Nat.dvd_of_mod_eq_zero h)
      simp only [batchParts, arrayPiece, axisPiece, if_neg this]
  have hex : ∃ shape ∈ shapes, shape = [] ∨ (∃ b rest, shape = b :: rest ∧ ¬ devices ∣ b) := by
    rcases h with h | ⟨b, rest, h, hb⟩
    · exact ⟨_, h, .inl rfl⟩
    · exact ⟨_, h, .inr ⟨b, rest, rfl, hb⟩⟩
  have : ∃ e, putBatch devices k shapes = .error e := by
    obtain ⟨shape, hm, hs⟩ := hex
    obtain ⟨e, he⟩ := hbad shape hs
    clear h hall herr hbad hs
    induction shapes with
    | nil => cases hm
    | cons s shapes ih =>
      rcases List.mem_cons.1 hm with rfl | hm
      · exact ⟨e, by simp only [putBatch, he]⟩
      · obtain ⟨e', he'⟩ := ih hm
        simp only [putBatch, he']
        split
        · exact ⟨_, rfl⟩
        · exact ⟨_, rfl⟩
  obtain ⟨e, he⟩ := this
  rw [he, hall _ _ he]

/-- C160.  The state of the training is on every device as a whole, whatever its shapes. -/
theorem C160_state (devices k : ℕ) (shapes : List (List ℕ)) :
    ∃ pieces, putState devices k shapes = .ok pieces ∧
      List.Forall₂ (fun shape piece => ∀ index, IndexOf shape index → HasEntry piece index) shapes pieces := by
  induction shapes with
  | nil => exact ⟨[], rfl, .nil⟩
  | cons shape shapes ih =>
    obtain ⟨pieces, hp, hall⟩ := ih
    have h1 : arrayPiece devices k (stateParts shape.length) shape = .ok (shape.map (fun n => (0, n))) := by
      cases shape with
      | nil => rfl
      | cons n shape =>
        have : ¬ (n :: shape).length = 0 := by simp
        simp only [stateParts, if_neg this]
        exact whole_piece devices k (n :: shape)
    exact ⟨shape.map (fun n => (0, n)) :: pieces, by rw [putState, h1, hp], .cons (fun index h => whole_has h) hall⟩

/-- A batch of 128 images with labels on eight devices, and what is on the last one. -/
example : putBatch 8 7 [[128, 256, 256, 1], [128, 256, 256]] =
    .ok [[(112, 128), (0, 256), (0, 256), (0, 1)], [(112, 128), (0, 256), (0, 256)]] ∧ 8 ∣ 128 := by decide

/-- On six devices it is rejected. -/
example : putBatch 6 0 [[128, 256, 256, 1], [128, 256, 256]] = .error .valueError := by decide

end PD.Props
