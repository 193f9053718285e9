/- Model of record files (io.py) and of the files of the alignment pipeline
(pipeline/align_trajectories.py).  A file is the list of its records; the bytes on disk are TensorFlow's. -/
import Verif.Model.Basic

namespace PD

/-- `pathlib.PurePath.suffix` of a file name: from its last dot on, unless the dot is the first or the
last character. -/
def fileSuffix (name : List Char) : List Char :=
  let ext := (name.reverse.takeWhile (fun c => c ≠ '.')).reverse
  match name.reverse.dropWhile (fun c => c ≠ '.') with
  | [] => []
  | _ :: stem => if stem.isEmpty || ext.isEmpty then [] else '.' :: ext

/-- The extension of io.py:53 and io.py:72. -/
def tfrecords : List Char := ".tfrecords".toList

/-- The files by name, of records of type `B`. -/
abbrev Files (B : Type) := List Char → Option (List B)

/-- The files with one of them replaced. -/
def Files.put {B : Type} (fs : Files B) (name : List Char) (rs : List B) : Files B :=
  fun n => if n = name then some rs else fs n

/-- io.py:76-82: serialise and write the records one after the other; what was written before an
exception stays. -/
def writeAll {R B : Type} (ser : R → Except Err B) : List B → List R → List B × Option Err
  | done, [] => (done, none)
  | done, r :: rs =>
    match ser r with
    | .error e => (done, some e)
    | .ok b => writeAll ser (done ++ [b]) rs

/-- io.py:65-82 `write_records`: the files afterwards, and the exception.  Opening the writer empties the
file; leaving the `with` closes it in any case. -/
def writeRecords {R B : Type} (ser : R → Except Err B) (fs : Files B) (name : List Char) (rs : List R) :
    Files B × Option Err :=
  if fileSuffix name = tfrecords then
    let (done, e) := writeAll ser [] rs
    (fs.put name done, e)
  else (fs, some .valueError)

/-- io.py:57-61: the generator's items until it ends or raises. -/
def readAll {B A : Type} (de : B → Except Err A) : List B → List A × Option Err
  | [] => ([], none)
  | b :: bs =>
    match de b with
    | .error e => ([], some e)
    | .ok a =>
      let (as, e) := readAll de bs
      (a :: as, e)

/-- io.py:45-62 `read_records`: the items it yields, and the exception it ends with.  A missing file is
TensorFlow's `NotFoundError`. -/
def readRecords {B A : Type} (de : B → Except Err A) (fs : Files B) (name : List Char) : List A × Option Err :=
  if fileSuffix name = tfrecords then
    match fs name with
    | none => ([], some .notFound)
    | some bs => readAll de bs
  else ([], some .valueError)

/-- `glob('*.recordio')` on a file name (align_trajectories.py:97). -/
def matchesRecordio (name : List Char) : Bool := ".recordio".toList.isSuffixOf name

/-- align_trajectories.py:94-100: the files to read.  `listing` is what the source directory contains,
`none` if the source is not a directory. -/
def sourceFiles (source : List Char) (listing : Option (List (List Char))) : List (List Char) :=
  match listing with
  | some names => names.filter matchesRecordio
  | none => [source]

/-- align_trajectories.py:99-100: all trajectories of the files. -/
def readSources {B A : Type} (de : B → Except Err A) (fs : Files B) : List (List Char) → Except Err (List A)
  | [] => .ok []
  | f :: rest =>
    match readRecords de fs f with
    | (_, some e) => .error e
    | (as, none) =>
      match readSources de fs rest with
      | .error e => .error e
      | .ok more => .ok (as ++ more)

/-- align_trajectories.py:94-113 `main`, with the alignment of the trajectories left open: the files
afterwards, and the exception. -/
def alignMain {B A : Type} (ser : A → Except Err B) (de : B → Except Err A)
    (align : List A → Except Err (List A)) (fs : Files B) (source : List Char)
    (listing : Option (List (List Char))) (target : List Char) : Files B × Option Err :=
  match readSources de fs (sourceFiles source listing) with
  | .error e => (fs, some e)
  | .ok trajectories =>
    match align trajectories with
    | .error e => (fs, some e)
    | .ok aligned => writeRecords ser fs target aligned

end PD
