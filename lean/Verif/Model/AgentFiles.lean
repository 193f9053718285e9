/- Model of fetching and loading the trained agents of the registry (experiments/registry.py:72-112,
agents/tf_eval_agent.py:23-29). -/
import Verif.Model.Archives

namespace PD
variable {B : Type}

/-- `path.unlink()` -/
def FileTree.unlink (d : FileTree B) (p : DiskPath) : FileTree B :=
  { d with files := d.files.filter (fun f => decide (f.1 ≠ p)) }

/-- The name of the downloaded file (experiments/registry.py:94). -/
def tmpZip : String := "tmp.zip"

/-- experiments/registry.py:72-112 `_TfAgentCreator.__call__`: the agent, which is the model loaded at once
(agents/tf_eval_agent.py:25-26), and the disk afterwards.  `package` is the directory of the module; `zip` are the
bytes downloaded, `fetch` what happens to the download and to unpacking it.  A download that fails may leave a part
of the file behind; it is left out, since the next download begins by writing over it. -/
def createTfAgent (package : DiskPath) (name : String) (zip : B) (fetch : Fetch B) (d : FileTree B) :
    Except Err (DiskPath → Option B) × FileTree B :=
  let base := package ++ ["model_weights"]
  let d := d.mkdir base
  let path := base ++ [name]
  if !d.exists path then
    match fetch with
    | .fails => (.error .notFound, d)
    | .interrupted members done =>
      (.error .runtimeError, extractAll base (members.take done) (d.write (base ++ [tmpZip]) zip))
    | .complete members =>
      let d := (extractAll base members (d.write (base ++ [tmpZip]) zip)).unlink (base ++ [tmpZip])
      (loadModel d path, d)
  else (loadModel d path, d)

end PD
