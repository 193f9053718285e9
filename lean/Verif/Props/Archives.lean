/- C91: a trained model that was packed is the model that is loaded. -/
import Verif.Model.Archives
import Mathlib.Data.List.Basic

set_option linter.unusedSectionVars false
set_option linter.unusedSimpArgs false

namespace PD.Props
open PD
variable {B : Type}

theorem read_write (d : FileTree B) (p q : DiskPath) (b : B) :
    (d.write p b).read q = if q = p then some b else d.read q := by
  simp only [FileTree.write, FileTree.read, List.lookup_cons]
  by_cases h : q = p
  · simp [h]
  · simp [h, beq_eq_false_iff_ne.2 h]

theorem read_mkdir (d : FileTree B) (p q : DiskPath) : (d.mkdir p).read q = d.read q := rfl

/-- Reading after unpacking: the last member with that path, else what was there. -/
theorem read_extractAll (base : DiskPath) (members : List (DiskPath × B)) (d : FileTree B) (q : DiskPath) :
    (extractAll base members d).read q =
      match (members.map (fun f => (base ++ f.1, f.2))).reverse.lookup q with
      | some b => some b
      | none => d.read q := by
  induction members generalizing d with
  | nil => simp [extractAll]
  | cons f l ih =>
    have h := ih (d.write (base ++ f.1) f.2)
    simp only [extractAll, List.foldl_cons] at h ⊢
    rw [h]
    simp only [List.map_cons, List.reverse_cons, List.lookup_append]
    cases hl : (l.map (fun f => (base ++ f.1, f.2))).reverse.lookup q with
    | some b => simp
    | none =>
      simp only [Option.none_or, read_write, List.lookup_cons, List.lookup_nil]
      by_cases hq : q = base ++ f.1
      · simp [hq]
      · simp [hq, beq_eq_false_iff_ne.2 hq]

theorem lookup_reverse {α β : Type} [BEq α] [LawfulBEq α] {l : List (α × β)} (h : (l.map Prod.fst).Nodup) (a : α) :
    l.reverse.lookup a = l.lookup a := by
  induction l with
  | nil => rfl
  | cons x l ih =>
    obtain ⟨x1, x2⟩ := x
    simp only [List.map_cons, List.nodup_cons] at h
    simp only [List.reverse_cons, List.lookup_append, ih h.2, List.lookup_cons, List.lookup_nil]
    by_cases ha : a = x1
    · have : l.lookup a = none := by
        rw [List.lookup_eq_none_iff]
        intro p hp
        rw [bne_iff_ne]
        intro hap
        exact h.1 (List.mem_map.2 ⟨p, hp, hap.symm.trans ha⟩)
      subst ha
      simp [this]
    · simp [beq_eq_false_iff_ne.2 ha]

theorem lookup_prefixed (base q : DiskPath) (l : List (DiskPath × B)) :
    (l.map (fun f => (base ++ f.1, f.2))).lookup (base ++ q) = l.lookup q := by
  induction l with
  | nil => rfl
  | cons x l ih =>
    obtain ⟨x1, x2⟩ := x
    simp only [List.map_cons, List.lookup_cons, ih]
    by_cases h : q = x1
    · simp [h]
    · have : ¬ base ++ q = base ++ x1 := fun hh => h (List.append_cancel_left hh)
      simp [beq_eq_false_iff_ne.2 h, beq_eq_false_iff_ne.2 this]

/-- A saved model: files at different paths, one of which is `saved_model.pb`. -/
structure IsModel (model : List (DiskPath × B)) : Prop where
  distinct : (model.map Prod.fst).Nodup
  main : ∃ b, (["saved_model.pb"], b) ∈ model

theorem IsModel.lookup_main {model : List (DiskPath × B)} (h : IsModel model) :
    ∃ b, model.lookup ["saved_model.pb"] = some b := by
  obtain ⟨b, hb⟩ := h.main
  cases hl : model.lookup ["saved_model.pb"] with
  | some b => exact ⟨b, rfl⟩
  | none =>
    rw [List.lookup_eq_none_iff] at hl
    exact absurd (hl _ hb) (by simp)

/-- The model loaded from `path` is `model`: every file has the contents it had when it was saved, and there are
no others. -/
def Loads (d : FileTree B) (path : DiskPath) (model : List (DiskPath × B)) : Prop :=
  ∃ m, loadModel d path = .ok m ∧ ∀ rel, m rel = model.lookup rel

theorem alignerArchive_eq (tmpdir : DiskPath) (model : List (DiskPath × B)) :
    alignerArchive tmpdir model = model.map (fun f => ("image-alignment-model" :: f.1, f.2)) := by
  simp only [alignerArchive, walkSaved, List.map_map]
  refine List.map_congr_left fun f _ => ?_
  simp [withoutDir]

/-- What is read below the aligner's directory after unpacking an archive of a model. -/
theorem read_aligner (base tmpdir : DiskPath) (model : List (DiskPath × B)) (h : (model.map Prod.fst).Nodup)
    (d : FileTree B) (rel : DiskPath) :
    (extractAll base (alignerArchive tmpdir model) d).read (base ++ ["image-alignment-model"] ++ rel) =
      match model.lookup rel with
      | some b => some b
      | none => d.read (base ++ ["image-alignment-model"] ++ rel) := by
  rw [read_extractAll, alignerArchive_eq, List.map_map]
  have e : ((fun f : DiskPath × B => (base ++ f.1, f.2)) ∘ fun (f : DiskPath × B) => ("image-alignment-model" :: f.1, f.2)) =
      fun (f : DiskPath × B) => (base ++ ["image-alignment-model"] ++ f.1, f.2) := by
    funext f; simp
  rw [e, lookup_reverse, lookup_prefixed]
  rw [List.map_map]
  have e2 : (Prod.fst ∘ fun f : DiskPath × B => (base ++ ["image-alignment-model"] ++ f.1, f.2)) =
      (fun p => base ++ ["image-alignment-model"] ++ p) ∘ Prod.fst := by
    funext f; rfl
  rw [e2, ← List.map_map]
  exact h.map (fun a b hab => List.append_cancel_left hab)

theorem read_none_of_not_exists {d : FileTree B} {p : DiskPath} (h : d.exists p = false) (rel : DiskPath) :
    d.read (p ++ rel) = none := by
  simp only [FileTree.exists, Bool.or_eq_false_iff, List.any_eq_false] at h
  rw [FileTree.read, List.lookup_eq_none_iff]
  intro f hf
  rw [bne_iff_ne]
  intro hf1
  refine h.2 f hf (List.isPrefixOf_iff_prefix.2 (hf1 ▸ List.prefix_append _ _))

/-- C91, where nothing was unpacked before: packing any model and reading the archive gives the aligner exactly
that model. -/
theorem C91_aligner_partial (tmpdir workdir : DiskPath) (model : List (DiskPath × B)) (hm : IsModel model)
    (reload : Bool) (d : FileTree B)
    (hnew : d.exists (workdir ++ ["model_weights"] ++ ["image-alignment-model"]) = false) :
    ∃ path d', alignerFromPath workdir (.complete (alignerArchive tmpdir model)) reload d = (.ok path, d') ∧
      Loads d' path model := by
  refine ⟨_, _, by simp only [alignerFromPath, fetchModel, hnew]; rfl, ?_⟩
  have key := fun rel => read_aligner (workdir ++ ["model_weights"]) tmpdir model hm.distinct
    (d.mkdir (workdir ++ ["model_weights"] ++ ["image-alignment-model"])) rel
  simp only [read_mkdir, read_none_of_not_exists hnew] at key
  have key' : ∀ rel, (extractAll (workdir ++ ["model_weights"]) (alignerArchive tmpdir model)
      (d.mkdir (workdir ++ ["model_weights"] ++ ["image-alignment-model"]))).read
        (workdir ++ ["model_weights"] ++ ["image-alignment-model"] ++ rel) = model.lookup rel := by
    intro rel
    rw [key rel]
    cases model.lookup rel <;> rfl
  obtain ⟨b, hb⟩ := hm.lookup_main
  have h0 := key' ["saved_model.pb"]
  rw [hb] at h0
  simp only [List.append_assoc, List.cons_append, List.nil_append] at h0 key' ⊢
  refine ⟨fun rel => _, ?_, key'⟩
  simp only [loadModel, List.append_assoc, List.cons_append, List.nil_append, h0]

/-- C91 fails for the detector: the archive made from any model, in any temporary directory, does not contain it
where the detector looks for it. -/
theorem C91_detector_unloadable (tmpdir package : DiskPath) (model : List (DiskPath × B))
    (hfiles : ∀ f ∈ model, f.1 ≠ []) (d : FileTree B)
    (hnew : d.exists (package ++ ["model_weights"] ++ ["atom-detection-model"]) = false) :
    ∃ path d', detectorFromUrl package (.complete (detectorArchive tmpdir model)) d = (.ok path, d') ∧
      loadModel d' path = .error .notFound := by
  refine ⟨_, _, by simp only [detectorFromUrl, fetchModel, hnew]; rfl, ?_⟩
  have hread : (extractAll (package ++ ["model_weights"]) (detectorArchive tmpdir model)
      (d.mkdir (package ++ ["model_weights"] ++ ["atom-detection-model"]))).read
        (package ++ ["model_weights"] ++ ["atom-detection-model"] ++ ["saved_model.pb"]) = none := by
    rw [read_extractAll, read_mkdir, read_none_of_not_exists hnew]
    have : List.lookup (package ++ ["model_weights"] ++ ["atom-detection-model"] ++ ["saved_model.pb"])
        ((detectorArchive tmpdir model).map
          (fun f => (package ++ ["model_weights"] ++ f.1, f.2))).reverse = none := by
      rw [List.lookup_eq_none_iff]
      intro p hp
      rw [bne_iff_ne]
      rw [List.mem_reverse] at hp
      obtain ⟨g, hg, rfl⟩ := List.mem_map.1 hp
      obtain ⟨f, hf, rfl⟩ := List.mem_map.1 hg
      intro hh
      simp only [List.append_assoc] at hh
      have h1 := List.append_cancel_left (List.append_cancel_left hh)
      have h2 := hfiles f hf
      have hlen := congrArg List.length h1
      simp only [List.length_append, List.length_cons, List.length_nil] at hlen
      have hf1 : f.1.length ≠ 0 := fun h => h2 (List.length_eq_zero_iff.1 h)
      have : tmpdir = [] := List.length_eq_zero_iff.1 (by omega)
      rw [this] at h1
      simp at h1
    rw [this]
  simp only [List.append_assoc, List.cons_append, List.nil_append] at hread ⊢
  simp only [loadModel, List.append_assoc, List.cons_append, List.nil_append, hread]

/-- C91 fails with history: once there is something where the model belongs, no archive is looked at unless the
caller insists.  The path returned and the disk are the same for every archive. -/
theorem C91_first_stays (workdir : DiskPath) (fetch : Fetch B) (d : FileTree B)
    (hold : d.exists (workdir ++ ["model_weights"] ++ ["image-alignment-model"]) = true) :
    alignerFromPath workdir fetch false d =
      (.ok (workdir ++ ["model_weights"] ++ ["image-alignment-model"]), d) := by
  simp only [alignerFromPath, fetchModel, hold]
  rfl

theorem exists_mkdir (d : FileTree B) (p : DiskPath) : (d.mkdir p).exists p = true := by
  simp [FileTree.exists, FileTree.mkdir, List.mem_inits]

/-- C91 fails after a failure: if the archive could not be opened at the first attempt, every later attempt, with
whatever archive, succeeds and gives an aligner that cannot be used. -/
theorem C91_failure_sticks (workdir : DiskPath) (d : FileTree B)
    (hnew : d.exists (workdir ++ ["model_weights"] ++ ["image-alignment-model"]) = false) (later : Fetch B) :
    ∃ e d', alignerFromPath workdir .fails false d = (.error e, d') ∧
      ∃ path, alignerFromPath workdir later false d' = (.ok path, d') ∧ loadModel d' path = .error .notFound := by
  refine ⟨.notFound, d.mkdir (workdir ++ ["model_weights"] ++ ["image-alignment-model"]),
    by simp only [alignerFromPath, fetchModel, hnew]; rfl, _, C91_first_stays workdir later _ (exists_mkdir _ _), ?_⟩
  simp only [loadModel, read_mkdir, read_none_of_not_exists hnew]

theorem exists_extractAll (base p : DiskPath) (members : List (DiskPath × B)) (d : FileTree B)
    (h : p ∈ d.dirs) : (extractAll base members d).exists p = true := by
  induction members generalizing d with
  | nil => simp [extractAll, FileTree.exists, h]
  | cons f l ih => exact ih (d.write (base ++ f.1) f.2) h

/-- C91 fails after an interruption: if unpacking stopped after some files, every later attempt, with whatever
archive, succeeds and gives an aligner with these files and no others. -/
theorem C91_interruption_sticks (tmpdir workdir : DiskPath) (model : List (DiskPath × B))
    (hm : (model.map Prod.fst).Nodup) (done : ℕ) (d : FileTree B)
    (hnew : d.exists (workdir ++ ["model_weights"] ++ ["image-alignment-model"]) = false) (later : Fetch B) :
    ∃ e d', alignerFromPath workdir (.interrupted (alignerArchive tmpdir model) done) false d = (.error e, d') ∧
      ∃ path, alignerFromPath workdir later false d' = (.ok path, d') ∧
        ∀ rel, d'.read (path ++ rel) = (model.take done).lookup rel := by
  have ht : (alignerArchive tmpdir model).take done = alignerArchive tmpdir (model.take done) := by
    simp only [alignerArchive_eq, List.map_take]
  refine ⟨.runtimeError, extractAll (workdir ++ ["model_weights"]) (alignerArchive tmpdir (model.take done))
      (d.mkdir (workdir ++ ["model_weights"] ++ ["image-alignment-model"])),
    by simp only [alignerFromPath, fetchModel, hnew, ht]; rfl, _, C91_first_stays workdir later _
      (exists_extractAll _ _ _ _ (by simp [FileTree.mkdir, List.mem_inits])), ?_⟩
  intro rel
  rw [read_aligner _ _ _ (by rw [List.map_take]; exact hm.sublist (List.take_sublist _ _)), read_mkdir,
    read_none_of_not_exists hnew]
  cases (model.take done).lookup rel <;> rfl

/-- The same for the detector, which has no way to insist: it stays unusable for good. -/
theorem C91_detector_failure_sticks (package : DiskPath) (d : FileTree B)
    (hnew : d.exists (package ++ ["model_weights"] ++ ["atom-detection-model"]) = false) (later : List (Fetch B)) :
    let d' := (detectorFromUrl package .fails d).2
    let final := later.foldl (fun d f => (detectorFromUrl package f d).2) d'
    final = d' ∧ loadModel final (package ++ ["model_weights"] ++ ["atom-detection-model"]) = .error .notFound := by
  intro d' final
  have hd' : d' = d.mkdir (package ++ ["model_weights"] ++ ["atom-detection-model"]) := by
    simp only [d', detectorFromUrl, fetchModel, hnew]; rfl
  have hfinal : final = d' := by
    have : ∀ f, (detectorFromUrl package f d').2 = d' := by
      intro f
      simp only [detectorFromUrl, fetchModel, hd', exists_mkdir]
      rfl
    simp only [final]
    induction later with
    | nil => rfl
    | cons f l ih => rw [List.foldl_cons, this f]; exact ih
  refine ⟨hfinal, ?_⟩
  rw [hfinal, hd']
  simp only [loadModel, read_mkdir, read_none_of_not_exists hnew]

/-- C91 when the caller insists: every file of the new model has its contents; what the old one had besides
stays.  So exactly the new model is loaded if it has all the files of the one before, and not otherwise. -/
theorem C91_reload (tmpdir workdir : DiskPath) (model : List (DiskPath × B)) (hm : IsModel model) (d : FileTree B) :
    ∃ path d', alignerFromPath workdir (.complete (alignerArchive tmpdir model)) true d = (.ok path, d') ∧
      (Loads d' path model ↔ ∀ rel, d.read (path ++ rel) ≠ none → model.lookup rel ≠ none) := by
  refine ⟨_, _, by simp only [alignerFromPath, fetchModel, Bool.or_true, if_true]; rfl, ?_⟩
  have key := fun rel => read_aligner (workdir ++ ["model_weights"]) tmpdir model hm.distinct
    (d.mkdir (workdir ++ ["model_weights"] ++ ["image-alignment-model"])) rel
  simp only [read_mkdir, List.append_assoc, List.cons_append, List.nil_append] at key ⊢
  obtain ⟨b, hb⟩ := hm.lookup_main
  have h0 := key ["saved_model.pb"]
  rw [hb] at h0
  simp only at h0
  constructor
  · rintro ⟨m, hload, hm'⟩ rel hrel hnone
    simp only [loadModel, List.append_assoc, List.cons_append, List.nil_append, h0, Except.ok.injEq] at hload
    have := hm' rel
    rw [← hload] at this
    simp only at this
    rw [key rel, hnone] at this
    exact hrel this
  · intro hall
    refine ⟨_, by simp only [loadModel, List.append_assoc, List.cons_append, List.nil_append, h0]; rfl, ?_⟩
    intro rel
    rw [key rel]
    cases hl : model.lookup rel with
    | some b => rfl
    | none =>
      by_contra hne
      exact hall rel hne hl

/-- C91 fails for two aligners: the model is read from disk at the first use.  An aligner made from one archive
and not used yet has the second model after another aligner was made with `reload`. -/
theorem C91_other_model (tmpdir tmpdir' workdir : DiskPath) (first second : List (DiskPath × B))
    (h1 : IsModel first) (h2 : IsModel second) (hsame : ∀ rel, first.lookup rel ≠ none → second.lookup rel ≠ none)
    (d : FileTree B) (hnew : d.exists (workdir ++ ["model_weights"] ++ ["image-alignment-model"]) = false) :
    ∃ path d' d'',
      alignerFromPath workdir (.complete (alignerArchive tmpdir first)) true d = (.ok path, d') ∧
      Loads d' path first ∧
      alignerFromPath workdir (.complete (alignerArchive tmpdir' second)) true d' = (.ok path, d'') ∧
      Loads d'' path second := by
  obtain ⟨p, d', hp, hl⟩ := C91_aligner_partial tmpdir workdir first h1 true d hnew
  obtain ⟨p', d'', hp', hl'⟩ := C91_reload tmpdir' workdir second h2 d'
  have e : p = workdir ++ ["model_weights"] ++ ["image-alignment-model"] := by
    simp [alignerFromPath, fetchModel] at hp; simp [← hp.1]
  have e' : p' = workdir ++ ["model_weights"] ++ ["image-alignment-model"] := by
    simp [alignerFromPath, fetchModel] at hp'; simp [← hp'.1]
  have ee : p' = p := e'.trans e.symm
  subst ee
  refine ⟨p', d', d'', hp, hl, hp', hl'.2 ?_⟩
  intro rel hrel
  obtain ⟨m, hload, hm⟩ := hl
  have : m rel = d'.read (p' ++ rel) := by
    simp only [loadModel] at hload
    split at hload
    · simp at hload
    · simp only [Except.ok.injEq] at hload
      rw [← hload]
  exact hsame rel (by rw [← hm rel, this]; exact hrel)

/-- An archive of two files of which one was unpacked: the second is missing for good. -/
example : let model := [(["saved_model.pb"], 1), (["variables", "variables.index"], 2)]
    let d := (alignerFromPath ["tmp"] (.interrupted (alignerArchive ["tmp", "a1"] model) 1) false
      (FileTree.mk (B := ℕ) [] [])).2
    (model.map Prod.fst).Nodup ∧
    (alignerFromPath ["tmp"] (.complete (alignerArchive ["tmp", "a1"] model)) false d).2.read
      ["tmp", "model_weights", "image-alignment-model", "variables", "variables.index"] = none := by
  decide

/-- The hypotheses hold for a model of two files and an empty disk. -/
example : IsModel [(["saved_model.pb"], 1), (["variables", "variables.index"], 2)] ∧
    (FileTree.mk (B := ℕ) [] []).exists (["tmp"] ++ ["model_weights"] ++ ["image-alignment-model"]) = false ∧
    Loads (alignerFromPath ["tmp"] (.complete (alignerArchive ["tmp", "a1"]
      [(["saved_model.pb"], 1), (["variables", "variables.index"], 2)])) false (FileTree.mk (B := ℕ) [] [])).2
      ["tmp", "model_weights", "image-alignment-model"]
      [(["saved_model.pb"], 1), (["variables", "variables.index"], 2)] := by
  have h : IsModel [(["saved_model.pb"], 1), (["variables", "variables.index"], 2)] := ⟨by decide, 1, by simp⟩
  refine ⟨h, by decide, ?_⟩
  obtain ⟨path, d', hp, hl⟩ := C91_aligner_partial ["tmp", "a1"] ["tmp"] _ h false (FileTree.mk (B := ℕ) [] []) (by decide)
  rw [hp]
  have : path = ["tmp", "model_weights", "image-alignment-model"] := by
    simp [alignerFromPath, fetchModel, FileTree.exists] at hp; exact hp.1.symm
  exact this ▸ hl

end PD.Props
