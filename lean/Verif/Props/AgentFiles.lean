/- C111: the trained agents of the registry. -/
import Verif.Model.AgentFiles
import Verif.Props.Archives

set_option linter.unusedSectionVars false
set_option linter.unusedSimpArgs false

namespace PD.Spec
open PD
variable {B : Type}

/-- The archive of an agent: the files of its model in a directory with its name. -/
def agentArchive (name : String) (model : List (DiskPath × B)) : List (DiskPath × B) :=
  model.map (fun f => (name :: f.1, f.2))

/-- An archive that unpacks into the directory with this name only. -/
def Under (name : String) : Fetch B → Prop
  | .fails => True
  | .interrupted members _ => ∀ f ∈ members, ∃ rel, f.1 = name :: rel
  | .complete members => ∀ f ∈ members, ∃ rel, f.1 = name :: rel

/-- An agent asked for: its name, the download and what becomes of it. -/
structure Asked (B : Type) where
  name : String
  zip : B
  fetch : Fetch B

/-- The disk after agents were asked for. -/
def afterAsking (package : DiskPath) (asked : List (Asked B)) (d : FileTree B) : FileTree B :=
  asked.foldl (fun d a => (createTfAgent package a.name a.zip a.fetch d).2) d

end PD.Spec

namespace PD.Props
open PD PD.Spec
variable {B : Type}

theorem read_unlink (d : FileTree B) (p q : DiskPath) : (d.unlink p).read q = if q = p then none else d.read q := by
  simp only [FileTree.unlink, FileTree.read]
  induction d.files with
  | nil => simp
  | cons f l ih =>
    obtain ⟨f1, f2⟩ := f
    by_cases hf : f1 = p
    · rw [List.filter_cons_of_neg (by simpa using hf), ih, List.lookup_cons]
      by_cases hq : q = p
      · simp [hq]
      · rw [if_neg hq, if_neg hq, beq_eq_false_iff_ne.2 (by rw [hf]; exact hq)]
    · rw [List.filter_cons_of_pos (by simpa using hf), List.lookup_cons, List.lookup_cons, ih]
      by_cases hq : q = f1
      · have : ¬ q = p := by rw [hq]; exact hf
        simp [hq, hf]
      · rw [beq_eq_false_iff_ne.2 hq]

/-- Below a directory nothing changes while others are unpacked. -/
theorem read_extract_other {base : DiskPath} {name other : String} (hne : other ≠ name) {members : List (DiskPath × B)}
    (hm : ∀ f ∈ members, ∃ rel, f.1 = other :: rel) (d : FileTree B) (rel : DiskPath) :
    (extractAll base members d).read (base ++ [name] ++ rel) = d.read (base ++ [name] ++ rel) := by
  rw [read_extractAll]
  have : List.lookup (base ++ [name] ++ rel) (members.map (fun f => (base ++ f.1, f.2))).reverse = none := by
    rw [List.lookup_eq_none_iff]
    intro p hp
    rw [bne_iff_ne]
    rw [List.mem_reverse] at hp
    obtain ⟨f, hf, rfl⟩ := List.mem_map.1 hp
    obtain ⟨r, hr⟩ := hm f hf
    intro h
    rw [List.append_assoc] at h
    have := List.append_cancel_left h
    rw [hr] at this
    simp only [List.cons_append, List.nil_append, List.cons.injEq] at this
    exact hne this.1.symm
  rw [this]

theorem read_extract_own (base : DiskPath) (name : String) (model : List (DiskPath × B)) (hm : (model.map Prod.fst).Nodup)
    (d : FileTree B) (rel : DiskPath) :
    (extractAll base (agentArchive name model) d).read (base ++ [name] ++ rel) =
      match model.lookup rel with
      | some b => some b
      | none => d.read (base ++ [name] ++ rel) := by
  rw [read_extractAll, agentArchive, List.map_map]
  have e : ((fun f : DiskPath × B => (base ++ f.1, f.2)) ∘ fun (f : DiskPath × B) => (name :: f.1, f.2)) =
      fun (f : DiskPath × B) => (base ++ [name] ++ f.1, f.2) := by
    funext f; simp
  rw [e, lookup_reverse, lookup_prefixed]
  · cases model.lookup rel <;> rfl
  show (List.map Prod.fst (List.map _ model)).Nodup
  rw [List.map_map]
  have e2 : (Prod.fst ∘ fun f : DiskPath × B => (base ++ [name] ++ f.1, f.2)) =
      (fun p => base ++ [name] ++ p) ∘ Prod.fst := by
    funext f; rfl
  rw [e2, ← List.map_map]
  exact hm.map (fun a b hab => List.append_cancel_left hab)

theorem zip_elsewhere {base : DiskPath} {name : String} (hn : name ≠ tmpZip) (rel : DiskPath) :
    base ++ [name] ++ rel ≠ base ++ [tmpZip] := by
  intro h
  rw [List.append_assoc] at h
  have := List.append_cancel_left h
  simp only [List.cons_append, List.nil_append, List.cons.injEq] at this
  exact hn this.1

theorem read_write_zip {base : DiskPath} {name : String} (hn : name ≠ tmpZip) (zip : B) (d : FileTree B) (rel : DiskPath) :
    (d.write (base ++ [tmpZip]) zip).read (base ++ [name] ++ rel) = d.read (base ++ [name] ++ rel) := by
  rw [read_write, if_neg (zip_elsewhere hn rel)]

theorem read_unlink_zip {base : DiskPath} {name : String} (hn : name ≠ tmpZip) (d : FileTree B) (rel : DiskPath) :
    (d.unlink (base ++ [tmpZip])).read (base ++ [name] ++ rel) = d.read (base ++ [name] ++ rel) := by
  rw [read_unlink, if_neg (zip_elsewhere hn rel)]

theorem exists_of_read {d : FileTree B} {p rel : DiskPath} {b : B} (h : d.read (p ++ rel) = some b) : d.exists p = true := by
  by_contra hne
  rw [Bool.not_eq_true] at hne
  rw [read_none_of_not_exists hne] at h
  cases h

theorem loads_read {d : FileTree B} {p : DiskPath} {model : List (DiskPath × B)} (h : Loads d p model) (rel : DiskPath) :
    d.read (p ++ rel) = model.lookup rel := by
  obtain ⟨m, hm, hall⟩ := h
  unfold loadModel at hm
  split at hm
  · simp at hm
  · rw [Except.ok.injEq] at hm
    rw [← hall rel, ← hm]

theorem loads_main {d : FileTree B} {p : DiskPath} {model : List (DiskPath × B)} (h : Loads d p model) :
    ∃ b, d.read (p ++ ["saved_model.pb"]) = some b := by
  obtain ⟨m, hm, hall⟩ := h
  unfold loadModel at hm
  split at hm
  · simp at hm
  · exact ⟨_, by assumption⟩

theorem loads_of_read {d : FileTree B} {p : DiskPath} {model : List (DiskPath × B)}
    (h : ∀ rel, d.read (p ++ rel) = model.lookup rel) (hmain : ∃ b, model.lookup ["saved_model.pb"] = some b) :
    Loads d p model := by
  obtain ⟨b, hb⟩ := hmain
  refine ⟨fun rel => d.read (p ++ rel), ?_, h⟩
  unfold loadModel
  rw [h, hb]

/-- One call leaves the files below an existing agent's directory alone. -/
theorem read_unchanged {package : DiskPath} {name : String} (hn : name ≠ tmpZip) {d : FileTree B} {rel0 : DiskPath} {b : B}
    (hb : d.read (package ++ ["model_weights"] ++ [name] ++ rel0) = some b) (a : Asked B) (ha : Under a.name a.fetch)
    (rel : DiskPath) :
    (createTfAgent package a.name a.zip a.fetch d).2.read (package ++ ["model_weights"] ++ [name] ++ rel) =
      d.read (package ++ ["model_weights"] ++ [name] ++ rel) := by
  unfold createTfAgent
  simp only
  split
  · rename_i hex
    have hne : a.name ≠ name := by
      intro he
      rw [he] at hex
      have : (d.mkdir (package ++ ["model_weights"])).exists (package ++ ["model_weights"] ++ [name]) = true :=
        exists_of_read (rel := rel0) (b := b) (by rw [read_mkdir]; exact hb)
      rw [this] at hex
      simp at hex
    cases hf : a.fetch with
    | fails => simp only [read_mkdir]
    | interrupted members done =>
      rw [hf] at ha
      simp only
      rw [read_extract_other hne (fun f hf => ha f (List.mem_of_mem_take hf)), read_write_zip hn, read_mkdir]
    | complete members =>
      rw [hf] at ha
      simp only
      rw [read_unlink_zip hn, read_extract_other hne ha, read_write_zip hn, read_mkdir]
  · simp only [read_mkdir]

theorem read_afterAsking {package : DiskPath} {name : String} (hn : name ≠ tmpZip) (asked : List (Asked B))
    (hu : ∀ a ∈ asked, Under a.name a.fetch) (d : FileTree B) {rel0 : DiskPath} {b : B}
    (hb : d.read (package ++ ["model_weights"] ++ [name] ++ rel0) = some b) (rel : DiskPath) :
    (afterAsking package asked d).read (package ++ ["model_weights"] ++ [name] ++ rel) =
      d.read (package ++ ["model_weights"] ++ [name] ++ rel) := by
  unfold afterAsking
  induction asked generalizing d with
  | nil => rfl
  | cons a l ih =>
    have := read_unchanged hn hb a (hu a (by simp))
    rw [List.foldl_cons, ih (fun b hb => hu b (by simp [hb])) _ (by rw [this]; exact hb), this]

/-- C111, if nothing was interrupted before: where an agent's directory does not exist, asking for it gives exactly
the model of the archive, and the downloaded file is removed. -/
theorem C111_loads_partial (package : DiskPath) (name : String) (hn : name ≠ tmpZip) (zip : B)
    (model : List (DiskPath × B)) (hm : IsModel model) (d : FileTree B)
    (hnew : d.exists (package ++ ["model_weights"] ++ [name]) = false) :
    ∃ agent d', createTfAgent package name zip (.complete (agentArchive name model)) d = (.ok agent, d') ∧
      (∀ rel, agent rel = model.lookup rel) ∧ Loads d' (package ++ ["model_weights"] ++ [name]) model ∧
      d'.read (package ++ ["model_weights"] ++ [tmpZip]) = none := by
  have hnew' : (d.mkdir (package ++ ["model_weights"])).exists (package ++ ["model_weights"] ++ [name]) = false := by
    simp only [FileTree.exists, FileTree.mkdir, Bool.or_eq_false_iff, decide_eq_false_iff_not, List.mem_append,
      List.mem_inits, not_or] at hnew ⊢
    refine ⟨⟨?_, hnew.1⟩, hnew.2⟩
    intro hp
    have := hp.length_le
    simp at this
  set d' := (extractAll (package ++ ["model_weights"]) (agentArchive name model)
    ((d.mkdir (package ++ ["model_weights"])).write (package ++ ["model_weights"] ++ [tmpZip]) zip)).unlink
      (package ++ ["model_weights"] ++ [tmpZip]) with hd'
  have hread : ∀ rel, d'.read (package ++ ["model_weights"] ++ [name] ++ rel) = model.lookup rel := by
    intro rel
    rw [hd', read_unlink_zip hn, read_extract_own _ _ _ hm.distinct, read_write_zip hn, read_mkdir,
      read_none_of_not_exists hnew]
    cases model.lookup rel <;> rfl
  have hloads := loads_of_read hread hm.lookup_main
  obtain ⟨agent, ha, hall⟩ := hloads
  refine ⟨agent, d', ?_, hall, ⟨agent, ha, hall⟩, ?_⟩
  · unfold createTfAgent
    simp only [hnew', Bool.not_false, if_true]
    rw [← hd', ha]
  · rw [hd', read_unlink, if_pos rfl]

/-- C111: once an agent was loaded, it stays the same: after any history of asking for agents, whatever became of their
downloads, asking for it gives the same model without looking at the download. -/
theorem C111_kept (package : DiskPath) (name : String) (hn : name ≠ tmpZip) (model : List (DiskPath × B)) (d : FileTree B)
    (h : Loads d (package ++ ["model_weights"] ++ [name]) model) (asked : List (Asked B))
    (hu : ∀ a ∈ asked, Under a.name a.fetch) (zip : B) (fetch : Fetch B) :
    ∃ agent d', createTfAgent package name zip fetch (afterAsking package asked d) = (.ok agent, d') ∧
      ∀ rel, agent rel = model.lookup rel := by
  have hkeep : Loads (afterAsking package asked d) (package ++ ["model_weights"] ++ [name]) model := by
    obtain ⟨b, hb⟩ := loads_main h
    exact loads_of_read (fun rel => by rw [read_afterAsking hn asked hu d hb, loads_read h])
      ⟨b, by rw [← loads_read h, hb]⟩
  set e := afterAsking package asked d
  obtain ⟨b, hb⟩ := loads_main hkeep
  have hex : (e.mkdir (package ++ ["model_weights"])).exists (package ++ ["model_weights"] ++ [name]) = true :=
    exists_of_read (rel := ["saved_model.pb"]) (b := b) (by rw [read_mkdir]; exact hb)
  obtain ⟨agent, ha, hall⟩ := loads_of_read (d := e.mkdir (package ++ ["model_weights"])) (model := model)
    (p := package ++ ["model_weights"] ++ [name]) (fun rel => by rw [read_mkdir]; exact loads_read hkeep rel)
    ⟨b, by rw [← loads_read hkeep, hb]⟩
  refine ⟨agent, e.mkdir (package ++ ["model_weights"]), ?_, hall⟩
  unfold createTfAgent
  simp only [hex, Bool.not_true]
  rw [ha]
  rfl

/-- C111: a failed download is an error and is made up for by the next call. -/
theorem C111_retried (package : DiskPath) (name : String) (hn : name ≠ tmpZip) (zip zip' : B)
    (model : List (DiskPath × B)) (hm : IsModel model) (d : FileTree B)
    (hnew : d.exists (package ++ ["model_weights"] ++ [name]) = false) :
    ∃ d', createTfAgent package name zip .fails d = (.error .notFound, d') ∧
      ∃ agent d'', createTfAgent package name zip' (.complete (agentArchive name model)) d' = (.ok agent, d'') ∧
        ∀ rel, agent rel = model.lookup rel := by
  have hnew' : (d.mkdir (package ++ ["model_weights"])).exists (package ++ ["model_weights"] ++ [name]) = false := by
    simp only [FileTree.exists, FileTree.mkdir, Bool.or_eq_false_iff, decide_eq_false_iff_not, List.mem_append,
      List.mem_inits, not_or] at hnew ⊢
    refine ⟨⟨?_, hnew.1⟩, hnew.2⟩
    intro hp
    have := hp.length_le
    simp at this
  refine ⟨d.mkdir (package ++ ["model_weights"]), ?_, ?_⟩
  · unfold createTfAgent
    simp only [hnew', Bool.not_false, if_true]
  · obtain ⟨agent, d'', h1, h2, _⟩ := C111_loads_partial package name hn zip' model hm _ hnew'
    exact ⟨agent, d'', h1, h2⟩

/-- C111 fails after an interruption: if unpacking stopped after some files of the model, every later call, after any
history and with any download, takes these files for the agent: without `saved_model.pb` it raises for good, with it
there is an agent without the other files. -/
theorem C111_interruption_sticks (package : DiskPath) (name : String) (hn : name ≠ tmpZip) (zip : B)
    (model : List (DiskPath × B)) (hm : IsModel model) (done : ℕ) (hdone : 0 < done) (d : FileTree B)
    (hnew : d.exists (package ++ ["model_weights"] ++ [name]) = false) (later : List (Asked B))
    (hl : ∀ a ∈ later, Under a.name a.fetch) (zip' : B) (fetch : Fetch B) :
    ∃ e d', createTfAgent package name zip (.interrupted (agentArchive name model) done) d = (.error e, d') ∧
      let r := (createTfAgent package name zip' fetch (afterAsking package later d')).1
      ((model.take done).lookup ["saved_model.pb"] = none → r = .error .notFound) ∧
      ((model.take done).lookup ["saved_model.pb"] ≠ none →
        ∃ agent, r = .ok agent ∧ ∀ rel, agent rel = (model.take done).lookup rel) := by
  have hnew' : (d.mkdir (package ++ ["model_weights"])).exists (package ++ ["model_weights"] ++ [name]) = false := by
    simp only [FileTree.exists, FileTree.mkdir, Bool.or_eq_false_iff, decide_eq_false_iff_not, List.mem_append,
      List.mem_inits, not_or] at hnew ⊢
    refine ⟨⟨?_, hnew.1⟩, hnew.2⟩
    intro hp
    have := hp.length_le
    simp at this
  have ht : (agentArchive name model).take done = agentArchive name (model.take done) := by
    simp only [agentArchive, List.map_take]
  set d' := extractAll (package ++ ["model_weights"]) (agentArchive name (model.take done))
    ((d.mkdir (package ++ ["model_weights"])).write (package ++ ["model_weights"] ++ [tmpZip]) zip) with hd'
  have hread : ∀ rel, d'.read (package ++ ["model_weights"] ++ [name] ++ rel) = (model.take done).lookup rel := by
    intro rel
    rw [hd', read_extract_own _ _ _ (by rw [List.map_take]; exact hm.distinct.sublist (List.take_sublist _ _)),
      read_write_zip hn, read_mkdir, read_none_of_not_exists hnew]
    cases (model.take done).lookup rel <;> rfl
  -- some file is there
  have hsome : ∃ rel b, (model.take done).lookup rel = some b := by
    obtain ⟨b, hb⟩ := hm.main
    cases model with
    | nil => simp at hb
    | cons f l =>
      obtain ⟨k, rfl⟩ : ∃ k, done = k + 1 := ⟨done - 1, by omega⟩
      refine ⟨f.1, f.2, ?_⟩
      obtain ⟨f1, f2⟩ := f
      rw [List.take_succ_cons, List.lookup_cons]
      simp
  obtain ⟨rel0, b0, h0⟩ := hsome
  -- later calls do not change what is read
  have hkeep : ∀ rel, (afterAsking package later d').read (package ++ ["model_weights"] ++ [name] ++ rel) =
      (model.take done).lookup rel := by
    intro rel
    rw [read_afterAsking hn later hl d' (by rw [hread, h0]), hread]
  refine ⟨.runtimeError, d', ?_, ?_⟩
  · unfold createTfAgent
    simp only [hnew', Bool.not_false, if_true]
    rw [ht]
  · set D := afterAsking package later d'
    have hex : (D.mkdir (package ++ ["model_weights"])).exists (package ++ ["model_weights"] ++ [name]) = true :=
      exists_of_read (rel := rel0) (b := b0) (by rw [read_mkdir, hkeep, h0])
    have hr : (createTfAgent package name zip' fetch D).1 =
        loadModel (D.mkdir (package ++ ["model_weights"])) (package ++ ["model_weights"] ++ [name]) := by
      unfold createTfAgent
      simp only [hex, Bool.not_true]
      rfl
    simp only
    rw [hr]
    unfold loadModel
    simp only [read_mkdir, hkeep]
    constructor
    · intro hnone
      rw [hnone]
    · intro hne
      obtain ⟨b, hb⟩ := Option.ne_none_iff_exists'.1 hne
      rw [hb]
      exact ⟨_, rfl, fun rel => rfl⟩

/-- C111: an archive that does not contain the directory of the agent is an error, not some other agent. -/
theorem C111_misnamed (package : DiskPath) (name other : String) (hn : name ≠ tmpZip) (hne : other ≠ name) (zip : B)
    (members : List (DiskPath × B)) (hm : Under other (.complete members)) (d : FileTree B)
    (hnew : d.exists (package ++ ["model_weights"] ++ [name]) = false) :
    (createTfAgent package name zip (.complete members) d).1 = .error .notFound := by
  have hread : ∀ rel, ((extractAll (package ++ ["model_weights"]) members
    ((d.mkdir (package ++ ["model_weights"])).write (package ++ ["model_weights"] ++ [tmpZip]) zip)).unlink
      (package ++ ["model_weights"] ++ [tmpZip])).read (package ++ ["model_weights"] ++ [name] ++ rel) = none := by
    intro rel
    rw [read_unlink_zip hn, read_extract_other hne hm, read_write_zip hn, read_mkdir, read_none_of_not_exists hnew]
  unfold createTfAgent
  simp only
  split
  · unfold loadModel
    rw [hread]
  · unfold loadModel
    simp only [read_mkdir, read_none_of_not_exists hnew]

/-- An agent of two files; complete, and interrupted after one file. -/
example : IsModel [(["saved_model.pb"], 1), (["variables", "variables.index"], 2)] ∧
    (FileTree.mk (B := ℕ) [] []).exists (["pkg"] ++ ["model_weights"] ++ ["ppo_simple_images_tf"]) = false ∧
    (let d := (createTfAgent ["pkg"] "ppo_simple_images_tf" 9 (.interrupted (agentArchive "ppo_simple_images_tf"
        [(["saved_model.pb"], 1), (["variables", "variables.index"], 2)]) 1) (FileTree.mk (B := ℕ) [] [])).2;
      (match (createTfAgent ["pkg"] "ppo_simple_images_tf" 9 (.complete (agentArchive "ppo_simple_images_tf"
        [(["saved_model.pb"], 1), (["variables", "variables.index"], 2)])) d).1 with
      | .ok agent => (agent ["saved_model.pb"], agent ["variables", "variables.index"])
      | .error _ => (none, none)) = (some 1, none)) := by
  refine ⟨⟨by decide, 1, by simp⟩, by decide, by decide⟩

end PD.Props
