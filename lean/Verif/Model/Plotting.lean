/- Model of the time stamps and videos of plotting_utils.py.  Drawing itself is matplotlib's; what is
modelled are the frames it is given and whether their data can be drawn. -/
import Verif.Model.Simulator

namespace PD

/-- `int(x)` for a number of seconds given in microseconds: towards zero. -/
def wholeSeconds (t : Timedelta) : ℤ := Int.tdiv t 1000000

/-- plotting_utils.py:35-39: minutes, seconds and hundredths.  Python's `//` and `%` round down. -/
def timeParts (t : Timedelta) : ℤ × ℤ × ℤ :=
  let minutes := wholeSeconds t / 60
  let seconds := wholeSeconds t % 60
  let remainder := roundHalfEven ((totalSeconds t - (wholeSeconds t : ℚ)) * 100)
  (minutes, seconds, remainder)

/-- `f'{n:02d}'`: at least two characters, filled with zeros after the sign. -/
def pad2 (n : ℤ) : List Char :=
  if 0 ≤ n ∧ n < 10 then '0' :: (Nat.repr n.toNat).toList
  else if n < 0 then '-' :: (Nat.repr n.natAbs).toList
  else (Nat.repr n.toNat).toList

/-- plotting_utils.py:35-40 `format_timedelta`. -/
def formatTimedelta (t : Timedelta) : List Char :=
  let (m, s, c) := timeParts t
  pad2 m ++ [':'] ++ pad2 s ++ [':'] ++ pad2 c

/-- plotting_utils.py:227-233: the data of a frame. -/
structure VideoFrame (K Img : Type) where
  grid : Option (Grid K)
  fov : Option (Fov K)
  controlPosition : Option (V2 K)
  timedelta : Timedelta
  image : Option Img

/-- plotting_utils.py:213-244: one event; the second component are the frames so far.  The variables
of the loop are kept in the form of the frame they would give. -/
def videoEvent {K Img : Type} (st : VideoFrame K Img × List (VideoFrame K Img)) (e : LogEvent K Img) :
    VideoFrame K Img × List (VideoFrame K Img) :=
  let (cur, frames) := st
  match e with
  | .reset g f => ({ cur with grid := some g, fov := some f }, frames)
  | .applyControl dwell p =>
    let cur := { cur with controlPosition := some p }
    ({ cur with timedelta := cur.timedelta + dwell }, frames ++ [cur])
  | .transition _ g => ({ cur with grid := some g }, frames)
  | .takeImage d f => ({ cur with fov := some f, timedelta := cur.timedelta + d }, frames)
  | .generatedImage i => ({ cur with image := some i }, frames)

/-- plotting_utils.py:156-260 `generate_video_from_simulator_events`: the frames of the animation. -/
def videoFrames {K Img : Type} (events : List (LogEvent K Img)) : List (VideoFrame K Img) :=
  let (cur, frames) := events.foldl videoEvent (⟨none, none, none, 0, none⟩, [])
  frames ++ [cur]

/-- plotting_utils.py:177-209 `plot_frame`, called when the animation is drawn: what it needs of a frame.
Attributes of `None` do not exist, `np.min` of no atoms and `np.stack` of an array with `None` raise
`ValueError`. -/
def plotFrame {K Img : Type} (f : VideoFrame K Img) : Except Err Unit :=
  match f.grid with
  | none => .error .attributeError
  | some g =>
    if g.positions.isEmpty then .error .valueError
    else
      match f.fov with
      | none => .error .attributeError
      | some _ =>
        match f.controlPosition with
        | none => .error .valueError
        | some _ => .ok ()

end PD
