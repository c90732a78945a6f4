import Mathlib.Data.List.Basic
import Mathlib.Data.List.Infix
import Mathlib.Data.Real.Basic

/-! Model of /repo/hexrd/hedm/preprocess/preprocessors.py: which frames of which file are stored under which name, with which angles and
with which options. The operations on a frame, the dark frame and the storage of a cache are parameters or are left out; reading the
files and the log are not modelled. -/

namespace Hexrd.Preprocess

/-- The arguments (profiles.py:75-79): frames asked for, frames to leave out at the beginning, angles. -/
structure Args where
  (frames start : ℕ)
  (omeStart omeEnd : ℝ)

/-- What a panel needs: its name and its operations, in order (profiles.py:172-181). -/
structure Panel (F : Type) where
  key : List Char
  ops : List (F → F)

/-- A file: its path and its frames. -/
structure Raw (F : Type) where
  path : List Char
  frames : List F

/-- A frame of a cache with the angles at its beginning and its end. -/
structure Shot (F : Type) where
  image : F
  (lo hi : ℝ)

/-- `PP_Base.omegas` (preprocessors.py:55-57; OmegaWedges with one wedge, imageseries/omega.py:153-170): the angles of frame `i`. -/
noncomputable def omegaLo (a : Args) (i : ℕ) : ℝ := a.omeStart + i * ((a.omeEnd - a.omeStart) / a.frames)

/-- The angle where frame `i` ends (imageseries/omega.py:153-170). -/
noncomputable def omegaHi (a : Args) (i : ℕ) : ℝ := omegaLo a (i + 1)

/-- `PP_Dexela.dark` (preprocessors.py:217-229): the median of the first 100 frames of the file, or of as many as are asked for. -/
def darkFrames {F : Type} (a : Args) (raw : List F) : List F := raw.take (min 100 a.frames)

/-- `PP_Base.framelist` and `processed` (preprocessors.py:47-49, 59-63, with `use_frame_list` of 114 and 194-196): the numbers of the
frames; the list of numbers is used only if the number of frames differs from that of the file. -/
def numbers {F : Type} (a : Args) (raw : List F) : List ℕ :=
  if a.frames ≠ raw.length then (List.range a.frames).map (a.start + ·) else List.range raw.length

/-- `PP_Dexela.save_processed` (preprocessors.py:68-88, 213-215; process.py:51-74): every frame with the dark frame taken away and the
operations applied, with its angles; `none` is a frame that does not exist. -/
noncomputable def processed {F : Type} (sub : List F → F → F) (a : Args) (ops : List (F → F)) (raw : List F) : Option (List (Shot F)) :=
  (numbers a raw).zipIdx.mapM fun p =>
    raw[p.1]?.map fun img => ⟨ops.foldl (fun x f => f x) (sub (darkFrames a raw) img), omegaLo a p.2, omegaHi a p.2⟩

/-- Lower case. -/
def lower (s : List Char) : List Char := s.map Char.toLower

/-- The test of preprocessors.py:250: the name of the panel in lower case is somewhere in the path. -/
def hits {F : Type} (p : Panel F) (path : List Char) : Bool := decide (lower p.key <:+: path)

/-- The name after the last slash, up to its first dot (preprocessors.py:267). -/
def stem (path : List Char) : List Char := (path.reverse.takeWhile (· ≠ '/')).reverse.takeWhile (· ≠ '.')

/-- The name of the cache (preprocessors.py:260-268). -/
def outName (samp scan : List Char) (path : List Char) : List Char := samp ++ ['_'] ++ scan ++ ['_'] ++ stem path

/-- The caches, by name. -/
abbrev Store (F : Type) := List Char → Option (List (Shot F))

/-- The pairs of a file and a panel that are processed, in order (preprocessors.py:248-250). -/
def jobs {F : Type} (panels : List (Panel F)) (files : List (Raw F)) : List (Raw F × Panel F) :=
  files.flatMap fun r => (panels.filter fun p => hits p r.path).map fun p => (r, p)

/-- One file for one panel: the cache is written, over an earlier one if there is one. -/
noncomputable def job {F : Type} (sub : List F → F → F) (a : Args) (samp scan : List Char) (st : Option (Store F)) (j : Raw F × Panel F) :
    Option (Store F) :=
  st.bind fun s => (processed sub a j.2.ops j.1.frames).map fun shots => fun n => if n = outName samp scan j.1.path then some shots else s n

/-- `preprocess` for the Dexela detectors (preprocessors.py:245-269). -/
noncomputable def preprocess {F : Type} (sub : List F → F → F) (a : Args) (samp scan : List Char) (panels : List (Panel F))
    (files : List (Raw F)) : Option (Store F) :=
  (jobs panels files).foldl (job sub a samp scan) (some fun _ => none)

end Hexrd.Preprocess
