/- C62: record files. -/
import Verif.Model.Records
import Verif.Props.Proto

set_option linter.unusedSectionVars false
set_option linter.unusedSimpArgs false

namespace PD.Props
open PD PD.Spec

theorem takeWhile_append_dropWhile_rev (name : List Char) :
    name = (name.reverse.dropWhile (fun c => c ≠ '.')).reverse ++
      (name.reverse.takeWhile (fun c => c ≠ '.')).reverse := by
  rw [← List.reverse_append, List.takeWhile_append_dropWhile, List.reverse_reverse]

theorem dropWhile_head (l : List Char) (c : Char) (rest : List Char)
    (h : l.dropWhile (fun c => c ≠ '.') = c :: rest) : c = '.' := by
  induction l with
  | nil => simp at h
  | cons a l ih =>
    rw [List.dropWhile_cons] at h
    split at h
    · exact ih h
    · rename_i hc
      simp only [ne_eq, decide_not, Bool.not_eq_true', decide_eq_false_iff_not, not_not] at hc
      rw [List.cons.injEq] at h
      rw [← h.1]; exact hc

theorem fileSuffix_iff (name : List Char) :
    fileSuffix name = tfrecords ↔ ∃ stem, stem ≠ [] ∧ name = stem ++ tfrecords := by
  constructor
  · intro h
    unfold fileSuffix at h
    cases hd : name.reverse.dropWhile (fun c => c ≠ '.') with
    | nil => simp only [hd] at h; exact absurd h (by decide)
    | cons c stem =>
      simp only [hd] at h
      split at h
      · exact absurd h (by decide)
      · rename_i hs
        simp only [Bool.or_eq_true, not_or, Bool.not_eq_true] at hs
        refine ⟨stem.reverse, by simpa using hs.1, ?_⟩
        have hc := dropWhile_head _ _ _ hd
        have e := takeWhile_append_dropWhile_rev name
        rw [hd] at e
        rw [e]
        conv_rhs => rw [← h]
        simp [hc]
  · rintro ⟨stem, hs, rfl⟩
    have e : tfrecords.reverse = ['s', 'd', 'r', 'o', 'c', 'e', 'r', 'f', 't', '.'] := by decide
    have ht : tfrecords = ['.', 't', 'f', 'r', 'e', 'c', 'o', 'r', 'd', 's'] := by decide
    unfold fileSuffix
    rw [List.reverse_append, e]
    simp [hs, ht]

theorem writeAll_ok {R B : Type} (ser : R → Except Err B) (rs : List R) (done bs : List B)
    (h : List.Forall₂ (fun r b => ser r = .ok b) rs bs) : writeAll ser done rs = (done ++ bs, none) := by
  induction h generalizing done with
  | nil => simp [writeAll]
  | cons h1 h2 ih =>
    unfold writeAll
    rw [h1]
    simp only
    rw [ih]
    simp

theorem readAll_ok {B A : Type} (de : B → Except Err A) (bs : List B) (as : List A)
    (h : List.Forall₂ (fun b a => de b = .ok a) bs as) : readAll de bs = (as, none) := by
  induction h with
  | nil => rfl
  | cons h1 h2 ih => unfold readAll; rw [h1]; simp only; rw [ih]

theorem writeAll_fails {R B : Type} (ser : R → Except Err B) (pre : List R) (bs done : List B) (bad : R)
    (e : Err) (post : List R) (h : List.Forall₂ (fun r b => ser r = .ok b) pre bs) (hb : ser bad = .error e) :
    writeAll ser done (pre ++ bad :: post) = (done ++ bs, some e) := by
  induction h generalizing done with
  | nil => simp [writeAll, hb]
  | cons h1 h2 ih =>
    rw [List.cons_append]
    unfold writeAll
    rw [h1]
    simp only
    rw [ih]
    simp

variable {R A B : Type}

/-- C62: records written to a file with the right extension are read back, in order and none missing: of
records of any type, serialised by `ser` and parsed by `de`. Other files are untouched. -/
theorem C62_roundtrip (ser : R → Except Err B) (de : B → Except Err A) (back : R → A → Prop)
    (rs : List R) (hser : ∀ r ∈ rs, ∃ b a, ser r = .ok b ∧ de b = .ok a ∧ back r a)
    (fs : Files B) (stem : List Char) (hs : stem ≠ []) :
    ∃ fs', writeRecords ser fs (stem ++ ".tfrecords".toList) rs = (fs', none) ∧
      (∀ n, n ≠ stem ++ ".tfrecords".toList → fs' n = fs n) ∧
      ∃ as, readRecords de fs' (stem ++ ".tfrecords".toList) = (as, none) ∧ List.Forall₂ back rs as := by
  have hsuf : fileSuffix (stem ++ ".tfrecords".toList) = tfrecords := (fileSuffix_iff _).2 ⟨stem, hs, rfl⟩
  obtain ⟨bs, as, h1, h2, h3⟩ : ∃ bs as, List.Forall₂ (fun r b => ser r = .ok b) rs bs ∧
      List.Forall₂ (fun b a => de b = .ok a) bs as ∧ List.Forall₂ back rs as := by
    clear hsuf
    induction rs with
    | nil => exact ⟨[], [], .nil, .nil, .nil⟩
    | cons r rs ih =>
      obtain ⟨b, a, h1, h2, h3⟩ := hser r (by simp)
      obtain ⟨bs, as, g1, g2, g3⟩ := ih (fun q hq => hser q (List.mem_cons_of_mem _ hq))
      exact ⟨b :: bs, a :: as, .cons h1 g1, .cons h2 g2, .cons h3 g3⟩
  generalize stem ++ ".tfrecords".toList = name at hsuf ⊢
  unfold writeRecords
  rw [if_pos hsuf, writeAll_ok ser rs [] bs h1]
  refine ⟨_, rfl, ?_, as, ?_, h3⟩
  · intro n hn
    simp [Files.put, hn]
  · unfold readRecords
    rw [if_pos hsuf]
    simp only [Files.put, if_true, List.nil_append]
    exact readAll_ok de bs as h2

/-- C62: raw records, which are neither serialised nor parsed, are read back exactly. -/
theorem C62_raw (rs : List B) (fs : Files B) (stem : List Char) (hs : stem ≠ []) :
    readRecords .ok (writeRecords .ok fs (stem ++ ".tfrecords".toList) rs).1 (stem ++ ".tfrecords".toList)
      = (rs, none) := by
  obtain ⟨fs', hw, _, as, h1, h2⟩ := C62_roundtrip (R := B) (A := B) .ok .ok (fun r a => a = r) rs
    (fun r _ => ⟨r, r, rfl, rfl, rfl⟩) fs stem hs
  rw [hw]
  simp only
  rw [h1]
  congr 1
  clear h1 hw
  induction h2 with
  | nil => rfl
  | cons h _ ih => subst h; rw [ih]

/-- C62: trajectories written to a file are read back, up to float32. -/
theorem C62_trajectories {K Img : Type} [Field K] [LinearOrder K] [IsStrictOrderedRing K] [FloorRing K]
    (ts : List (List (Observation K Img)))
    (h : ∀ t ∈ ts, ∀ o ∈ t, GridFits o.grid ∧ ∀ c ∈ o.controls, ControlFull c)
    (fs : Files (List (PObservation K Img))) (stem : List Char) (hs : stem ≠ []) :
    ∃ ts', readRecords (fun m => .ok (trajectoryFromProto m))
        (writeRecords trajectoryToProto fs (stem ++ ".tfrecords".toList) ts).1 (stem ++ ".tfrecords".toList)
        = (ts', none) ∧ List.Forall₂ (List.Forall₂ ObservationKept) ts ts' := by
  obtain ⟨fs', hw, _, as, h1, h2⟩ := C62_roundtrip (trajectoryToProto (K := K) (Img := Img))
    (fun m => .ok (trajectoryFromProto m)) (List.Forall₂ ObservationKept) ts (by
      intro t ht
      obtain ⟨m, h1, h2⟩ := (C58_kept_partial (K := K) (Img := Img)).2.2.2.2 t (h t ht)
      exact ⟨m, _, h1, rfl, h2⟩) fs stem hs
  exact ⟨as, by rw [hw]; exact h1, h2⟩

/-- C62: a name with any other extension is rejected with `ValueError`, and nothing is written or read. -/
theorem C62_rejects (ser : R → Except Err B) (de : B → Except Err A) (fs : Files B) (name : List Char)
    (h : ∀ stem, stem ≠ [] → name ≠ stem ++ ".tfrecords".toList) (rs : List R) :
    writeRecords ser fs name rs = (fs, some .valueError) ∧ readRecords de fs name = ([], some .valueError) := by
  have hsuf : fileSuffix name ≠ tfrecords := by
    intro hc
    obtain ⟨stem, h1, h2⟩ := (fileSuffix_iff name).1 hc
    exact h stem h1 h2
  simp [writeRecords, readRecords, hsuf]

/-- C62: a record that cannot be serialised leaves the file with the records before it. -/
theorem C62_interrupted (ser : R → Except Err B) (fs : Files B) (stem : List Char) (hs : stem ≠ [])
    (pre : List R) (bs : List B) (bad : R) (post : List R) (e : Err)
    (hpre : List.Forall₂ (fun r b => ser r = .ok b) pre bs) (hbad : ser bad = .error e) :
    writeRecords ser fs (stem ++ ".tfrecords".toList) (pre ++ bad :: post) =
      (fs.put (stem ++ ".tfrecords".toList) bs, some e) := by
  have hsuf : fileSuffix (stem ++ ".tfrecords".toList) = tfrecords := (fileSuffix_iff _).2 ⟨stem, hs, rfl⟩
  generalize stem ++ ".tfrecords".toList = name at hsuf ⊢
  unfold writeRecords
  rw [if_pos hsuf, writeAll_fails ser pre bs [] bad e post hpre hbad]
  simp

theorem recordio_rejected (name : List Char) (h : matchesRecordio name = true) :
    fileSuffix name ≠ tfrecords := by
  intro hc
  obtain ⟨stem, _, h2⟩ := (fileSuffix_iff name).1 hc
  unfold matchesRecordio at h
  rw [List.isSuffixOf_iff_suffix] at h
  obtain ⟨pre, hp⟩ := h
  have e1 : ".recordio".toList = ".recordi".toList ++ ['o'] := by decide
  have e2 : tfrecords = ".tfrecord".toList ++ ['s'] := by decide
  rw [h2, e1, e2, ← List.append_assoc, ← List.append_assoc] at hp
  have := congrArg List.getLast? hp
  simp at this

/-- C62, false of the pipeline: every file it lists in a directory is rejected, so from a directory it
either raises `ValueError` and writes nothing, or finds no file and aligns nothing at all. -/
theorem C62_directory_unreadable (ser : A → Except Err B) (de : B → Except Err A)
    (align : List A → Except Err (List A)) (fs : Files B) (source target : List Char) (names : List (List Char)) :
    (∀ f ∈ sourceFiles source (some names), readRecords de fs f = ([], some .valueError)) ∧
    ((∃ f ∈ names, ∃ pre, f = pre ++ ".recordio".toList) →
      alignMain ser de align fs source (some names) target = (fs, some .valueError)) ∧
    ((∀ f ∈ names, ∀ pre, f ≠ pre ++ ".recordio".toList) →
      readSources de fs (sourceFiles source (some names)) = .ok []) := by
  have key : ∀ f ∈ sourceFiles source (some names), readRecords de fs f = ([], some .valueError) := by
    intro f hf
    have hm := (List.mem_filter.1 hf).2
    simp [readRecords, recordio_rejected f hm]
  have hmatch : ∀ f : List Char, matchesRecordio f = true ↔ ∃ pre, f = pre ++ ".recordio".toList := by
    intro f
    unfold matchesRecordio
    rw [List.isSuffixOf_iff_suffix]
    constructor
    · rintro ⟨pre, h⟩; exact ⟨pre, h.symm⟩
    · rintro ⟨pre, h⟩; exact ⟨pre, h.symm⟩
  refine ⟨key, ?_, ?_⟩
  · rintro ⟨f, hf, hpre⟩
    have hmem : f ∈ sourceFiles source (some names) := List.mem_filter.2 ⟨hf, (hmatch f).2 hpre⟩
    unfold alignMain
    cases hs : sourceFiles source (some names) with
    | nil => rw [hs] at hmem; cases hmem
    | cons g rest =>
      have := key g (by rw [hs]; simp)
      simp only [readSources, this]
  · intro h
    have : sourceFiles source (some names) = [] := by
      simp only [sourceFiles, List.filter_eq_nil_iff]
      intro f hf hm
      obtain ⟨pre, hp⟩ := (hmatch f).1 hm
      exact h f hf pre hp
    rw [this]; rfl

/-- C62: the records of several readable files are all read, file after file. -/
theorem C62_several (de : B → Except Err A) (fs : Files B) (files : List (List Char × List A))
    (h : ∀ f ∈ files, readRecords de fs f.1 = (f.2, none)) :
    readSources de fs (files.map Prod.fst) = .ok (files.map Prod.snd).flatten := by
  induction files with
  | nil => rfl
  | cons f files ih =>
    simp only [List.map_cons, readSources, h f (by simp), ih (fun g hg => h g (by simp [hg])), List.flatten_cons]

/-- C62: a single file with the right extension works: the aligned trajectories are in the target.
Missing from the full claim: directories, see `C62_directory_unreadable`. -/
theorem C62_single_file_partial (ser : A → Except Err B) (de : B → Except Err A) (back : A → A → Prop)
    (align : List A → Except Err (List A)) (fs : Files B) (s t : List Char) (hs : s ≠ []) (ht : t ≠ [])
    (bs : List B) (as aligned : List A) (hfile : fs (s ++ ".tfrecords".toList) = some bs)
    (hde : List.Forall₂ (fun b a => de b = .ok a) bs as) (hal : align as = .ok aligned)
    (hser : ∀ r ∈ aligned, ∃ b a, ser r = .ok b ∧ de b = .ok a ∧ back r a) :
    ∃ fs', alignMain ser de align fs (s ++ ".tfrecords".toList) none (t ++ ".tfrecords".toList) = (fs', none) ∧
      (∀ n, n ≠ t ++ ".tfrecords".toList → fs' n = fs n) ∧
      ∃ out, readRecords de fs' (t ++ ".tfrecords".toList) = (out, none) ∧ List.Forall₂ back aligned out := by
  have hsuf : fileSuffix (s ++ ".tfrecords".toList) = tfrecords := (fileSuffix_iff _).2 ⟨s, hs, rfl⟩
  have hread : readSources de fs [s ++ ".tfrecords".toList] = .ok as := by
    simp only [readSources, readRecords, hsuf, if_true, hfile, readAll_ok de bs as hde, List.append_nil]
  unfold alignMain
  simp only [sourceFiles, hread, hal]
  exact C62_roundtrip ser de back aligned hser fs t ht

example : ("run.1".toList ≠ []) ∧ fileSuffix "run.1.tfrecords".toList = ".tfrecords".toList ∧
    fileSuffix ".tfrecords".toList = [] ∧ fileSuffix "run.recordio".toList = ".recordio".toList ∧
    fileSuffix "run.".toList = [] := by decide

example : ∀ stem, stem ≠ [] → "a.recordio".toList ≠ stem ++ ".tfrecords".toList := by
  intro stem _ h
  have := congrArg List.getLast? h
  have e2 : ".tfrecords".toList = ".tfrecord".toList ++ ['s'] := by decide
  rw [e2, ← List.append_assoc] at this
  simp at this

/-- A message that fails to serialise, after one that does not. -/
example : let ser : ℕ → Except Err ℕ := fun n => if n = 0 then .error .valueError else .ok n
    List.Forall₂ (fun r b => ser r = .ok b) [3] [3] ∧ ser 0 = .error .valueError := by
  exact ⟨.cons rfl .nil, rfl⟩

end PD.Props
