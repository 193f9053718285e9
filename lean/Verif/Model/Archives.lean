/- Model of packing trained models into archives and of unpacking and loading them
(atom_detection/save_model.py:105-117, image_alignment/save_model.py:122-136, alignment.py:461-489 and
atom_detector.py:90-121). -/
import Verif.Model.Basic

namespace PD

/-- A path, from the root, by its components. -/
abbrev DiskPath := List String

variable {B : Type}

/-- What is on disk: directories and the contents of files (the first entry for a path counts). -/
structure FileTree (B : Type) where
  dirs : List DiskPath
  files : List (DiskPath × B)

/-- The contents of a file. -/
def FileTree.read (d : FileTree B) (p : DiskPath) : Option B := d.files.lookup p

/-- `path.exists()`: it is a directory that was made, or there is a file there or below it. -/
def FileTree.exists (d : FileTree B) (p : DiskPath) : Bool :=
  decide (p ∈ d.dirs) || d.files.any (fun f => p.isPrefixOf f.1)

/-- `path.mkdir(parents=True, exist_ok=True)`. -/
def FileTree.mkdir (d : FileTree B) (p : DiskPath) : FileTree B := { d with dirs := p.inits ++ d.dirs }

/-- Writing a file, over what may be there. -/
def FileTree.write (d : FileTree B) (p : DiskPath) (b : B) : FileTree B := { d with files := (p, b) :: d.files }

/-- `tf.saved_model.load`: what it finds below the path, provided there is a saved model. -/
def loadModel (d : FileTree B) (p : DiskPath) : Except Err (DiskPath → Option B) :=
  match d.read (p ++ ["saved_model.pb"]) with
  | none => .error .notFound
  | some _ => .ok (fun rel => d.read (p ++ rel))

/-- `tf.saved_model.save(module, path)` followed by `os.walk(path)`: the files of the model with their full
paths. -/
def walkSaved (path : DiskPath) (model : List (DiskPath × B)) : List (DiskPath × B) :=
  model.map (fun f => (path ++ f.1, f.2))

/-- `dirname.replace(tmpdir + '/', '')`, where `tmpdir` occurs once, at the beginning. -/
def withoutDir (tmpdir p : DiskPath) : DiskPath := if tmpdir.isPrefixOf p then p.drop tmpdir.length else p

/-- image_alignment/save_model.py:122-135: the members of the archive.  (`zipfile` drops the leading slash;
paths here have none.) -/
def alignerArchive (tmpdir : DiskPath) (model : List (DiskPath × B)) : List (DiskPath × B) :=
  (walkSaved (tmpdir ++ ["image-alignment-model"]) model).map (fun f => (withoutDir tmpdir f.1, f.2))

/-- atom_detection/save_model.py:105-116: the members of the archive. -/
def detectorArchive (tmpdir : DiskPath) (model : List (DiskPath × B)) : List (DiskPath × B) :=
  walkSaved (tmpdir ++ ["packaged"]) model

/-- What happens when the archive is opened, or downloaded, and unpacked. -/
inductive Fetch (B : Type) where
  /-- It cannot be opened, or is not an archive. -/
  | fails
  /-- It is unpacked up to some member; then something goes wrong, or the program is stopped. -/
  | interrupted (members : List (DiskPath × B)) (done : ℕ)
  /-- It is unpacked. -/
  | complete (members : List (DiskPath × B))

/-- `extractall(base)` -/
def extractAll (base : DiskPath) (members : List (DiskPath × B)) (d : FileTree B) : FileTree B :=
  members.foldl (fun d f => d.write (base ++ f.1) f.2) d

/-- alignment.py:480-488 and atom_detector.py:103-115: the path of the model, and the disk afterwards.  `base`
is `model_weights`. -/
def fetchModel (base : DiskPath) (name : String) (fetch : Fetch B) (reload : Bool) (d : FileTree B) :
    Except Err DiskPath × FileTree B :=
  let path := base ++ [name]
  if !d.exists path || reload then
    let d := d.mkdir path
    match fetch with
    | .fails => (.error .notFound, d)
    | .interrupted members done => (.error .runtimeError, extractAll base (members.take done) d)
    | .complete members => (.ok path, extractAll base members d)
  else (.ok path, d)

/-- alignment.py:461-489 `ImageAligner.from_path` -/
def alignerFromPath (workdir : DiskPath) (fetch : Fetch B) (reload : Bool) (d : FileTree B) :
    Except Err DiskPath × FileTree B :=
  fetchModel (workdir ++ ["model_weights"]) "image-alignment-model" fetch reload d

/-- atom_detector.py:90-116 `AtomDetector.from_url` -/
def detectorFromUrl (package : DiskPath) (fetch : Fetch B) (d : FileTree B) : Except Err DiskPath × FileTree B :=
  fetchModel (package ++ ["model_weights"]) "atom-detection-model" fetch false d

end PD
