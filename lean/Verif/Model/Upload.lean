/- Model of the conversion of recorded microscope data (pipeline/upload_microscope_data.py:44-191). -/
import Verif.Model.Simulator

namespace PD
variable {K Img : Type} [Field K] [LinearOrder K] [FloorRing K]

/-- What a frame records about shooting at a dopant (upload_microscope_data.py:101-110); the five entries are
used only when all are there. -/
structure Shot (K : Type) where
  dopants : List (V2 K)
  beam : List (V2 K)
  dwell : K
  pixelShift : V2 K

/-- The record of a frame (upload_microscope_data.py:92-119): coordinates in label pixels (the first two
columns), the size of the field of view in nanometres. -/
structure RawFrame (K : Type) where
  coords : List (V2 K)
  fovSize : K
  shot : Option (Shot K)

/-- A recorded data set: the image stack and its shape, the height of the label images, whether some frame has a
readout time, and the frames, numbered from 0. -/
structure RawData (K Img : Type) where
  height : ℕ
  width : ℕ
  channels : Option ℕ
  images : List Img
  labelHeight : ℕ
  hasReadout : Bool
  frames : List (RawFrame K)

/-- What `load_dataset` returns, apart from readouts, which are not used. -/
structure LoadedData (K Img : Type) where
  height : ℕ
  width : ℕ
  channels : Option ℕ
  images : List Img
  frames : List (RawFrame K)

/-- upload_microscope_data.py:96-110: coordinates in pixels of the images. -/
def RawFrame.rescale (factor : K) (f : RawFrame K) : RawFrame K where
  coords := f.coords.map (V2.smul factor)
  fovSize := f.fovSize
  shot := f.shot.map (fun s => ⟨s.dopants.map (V2.smul factor), s.beam.map (V2.smul factor), s.dwell, s.pixelShift⟩)

/-- upload_microscope_data.py:44-122 `load_dataset`. -/
def loadDataset (r : RawData K Img) : Except Err (LoadedData K Img) :=
  if r.labelHeight = 0 then .error .zeroDivision
  else if !r.hasReadout then .error .valueError
  else
    .ok { height := r.height, width := r.width, channels := r.channels
          images := r.images.take r.frames.length
          frames := r.frames.map (RawFrame.rescale ((r.height : K) / (r.labelHeight : K))) }

/-- upload_microscope_data.py:151-154: carbons, then silicon for every atom within 10⁻⁶ of a dopant.  Distances
are compared as squares. -/
def markDopants (grid dopants : List (V2 K)) : List ℤ :=
  dopants.foldl (fun numbers dopant =>
    List.zipWith (fun p Z => if V2.distSq p dopant < (1 / 1000000) ^ 2 then 14 else Z) grid numbers)
    (grid.map (fun _ => 6))

/-- upload_microscope_data.py:142-189: one round of the loop, from the corners so far.  `none` is the `break`.
An empty list of coordinates has no columns, an empty list of dopants no shape to divide, and colour images have
three sizes, which do not go with two coordinates.  A missing shot is a dopant that is not a number, which is near
nothing. -/
def convertFrame (d : LoadedData K Img) (corners : V2 K × V2 K) (f : RawFrame K) (image : Img) :
    Except Err (Option ((V2 K × V2 K) × Observation K Img)) :=
  let size : V2 K := ⟨d.height, d.width⟩
  if f.coords = [] then .error .indexError
  else if d.channels.isSome then .error .valueError
  else if d.frames.length ≤ 3 then .ok none
  else
    let grid := f.coords.map (fun p => p / size)
    match f.shot with
    | none =>
      .ok (some (corners, {
        grid := ⟨grid, grid.map (fun _ => 6)⟩
        fov := ⟨corners.1, corners.2⟩
        controls := []
        elapsedTime := ofSeconds (2 : K)
        image := some image
        labelImage := none }))
    | some s =>
      if s.dopants = [] then .error .valueError
      else
        let shift := V2.smul (10 * f.fovSize) s.pixelShift / size
        let fov : Fov K := ⟨corners.1 + shift, corners.2 + shift⟩
        match s.beam with
        | [] => .error .indexError
        | b :: _ =>
          .ok (some ((fov.lowerLeft, fov.upperRight), {
            grid := ⟨grid, markDopants grid (s.dopants.map (fun p => p / size))⟩
            fov := fov
            controls := [BeamControl.mk' (fov.toMaterial (b / size)) (ofSeconds s.dwell)]
            elapsedTime := ofSeconds (s.dwell + 2)
            image := some image
            labelImage := none }))

/-- upload_microscope_data.py:142-190: the loop. -/
def convertFrames (d : LoadedData K Img) : V2 K × V2 K → List (RawFrame K × Img) →
    Except Err (List (Observation K Img))
  | _, [] => .ok []
  | corners, (f, image) :: rest =>
    match convertFrame d corners f image with
    | .error e => .error e
    | .ok none => .ok []
    | .ok (some (corners', o)) =>
      match convertFrames d corners' rest with
      | .error e => .error e
      | .ok os => .ok (o :: os)

/-- upload_microscope_data.py:125-191 `convert_dataset_to_proto`: the observations of the trajectory. -/
def convertDataset (d : LoadedData K Img) : Except Err (List (Observation K Img)) :=
  match d.frames with
  | [] => .error .notFound
  | f :: _ => convertFrames d (⟨0, 0⟩, ⟨10 * f.fovSize, 10 * f.fovSize⟩) (d.frames.zip d.images)

/-- upload_microscope_data.py:223-236: from a recorded data set to the trajectory to upload. -/
def convertRaw (r : RawData K Img) : Except Err (List (Observation K Img)) :=
  match loadDataset r with
  | .error e => .error e
  | .ok d => convertDataset d

end PD
