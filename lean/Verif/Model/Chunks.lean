import Verif.Model.Detector
import Verif.Model.Angles
import Verif.Model.Transforms

/-!
# Model of composite detectors cut into chips

`hexrd/core/instrument/hedm_instrument.py`: `generate_chunks`, `chunk_instrument`, `_parse_imgser_dict`,
`angle_in_range` and `centers_of_edge_vec`. Numbers are real, names are lists of characters. Panels are planar and have no
distortion; buffers known by name and bounds below zero in slices are left out.
-/
namespace Hexrd.Chunks
open Hexrd.Transforms

/-- A name of a detector, of a label or of images. -/
abbrev Name := List Char

/-! ### Chips -/

/-- `[[row_start, row_stop], [col_start, col_stop]]` (hedm_instrument.py:158-162). -/
structure Rect where
  r0 : ℤ
  r1 : ℤ
  c0 : ℤ
  c1 : ℤ
  deriving DecidableEq

/-- The indices of the double loop (hedm_instrument.py:170-171). -/
def cells (nrows ncols : ℕ) : List (ℕ × ℕ) :=
  (List.range nrows).flatMap fun i : ℕ => (List.range ncols).map fun j : ℕ => (i, j)

/-- The rectangle in row `i` and column `j` (hedm_instrument.py:164-167, 172). -/
def rectAt (br bc rg cg : ℤ) (ij : ℕ × ℕ) : Rect where
  r0 := ij.1 * (br + rg)
  r1 := ij.1 * (br + rg) + br
  c0 := ij.2 * (bc + cg)
  c1 := ij.2 * (bc + cg) + bc

/-- The label `'%d_%d' % (i, j)` (hedm_instrument.py:174). -/
def labelAt (ij : ℕ × ℕ) : Name := Nat.toDigits 10 ij.1 ++ '_' :: Nat.toDigits 10 ij.2

/-- hedm_instrument.py:132-175 `generate_chunks`. -/
def generateChunks (nrows ncols : ℕ) (br bc rg cg : ℤ) : List Rect × List Name :=
  ((cells nrows ncols).map (rectAt br bc rg cg), (cells nrows ncols).map labelAt)

/-- A panel buffer: `None`, a border in mm or a mask. -/
inductive Buffer
  | none
  | border (x y : ℝ)
  | mask (m : List (List Bool))

/-- What a configuration says about a panel (detector.py:801-951 `config_dict`): the pixels, the rotation as a matrix, the
translation, where the region of interest starts, the buffer. -/
structure Panel where
  pix : Detector.Panel
  rmat : M
  tvec : V
  roi : Option (ℤ × ℤ)
  buffer : Buffer

/-- `a[i:j]` for bounds that are not negative. -/
def slice {α : Type} (l : List α) (i j : ℤ) : List α := (l.take j.toNat).drop i.toNat

/-- `a[r0:r1, c0:c1]` for an array of rows (hedm_instrument.py:240, 326). -/
def crop {α : Type} (a : List (List α)) (r : Rect) : List (List α) :=
  (slice a r.r0 r.r1).map fun row => slice row r.c0 r.c1

/-- The position in the laboratory of a point of a panel given in pixels. -/
noncomputable def position (p : Panel) (ij : ℝ × ℝ) : V :=
  let xy := Detector.pixelToCart p.pix ij
  mulV p.rmat ![xy.1, xy.2, 0] + p.tvec

/-- One chip of a panel (hedm_instrument.py:210-241): `shape` and `center` from the rectangle, the translation from the position
of `center`; the region of interest is set if asked for, a mask is cropped, everything else is copied. -/
noncomputable def chip (p : Panel) (useRoi : Bool) (r : Rect) : Panel where
  pix := { rows := (r.r1 - r.r0).toNat, cols := (r.c1 - r.c0).toNat, psr := p.pix.psr, psc := p.pix.psc }
  rmat := p.rmat
  tvec := position p (r.r0 + 1 / 2 * ((r.r1 - r.r0 : ℤ) : ℝ), r.c0 + 1 / 2 * ((r.c1 - r.c0 : ℤ) : ℝ))
  roi := if useRoi then some (r.r0, r.c0) else p.roi
  buffer := match p.buffer with
    | .mask m => .mask (crop m r)
    | b => b

/-- The name of a chip (hedm_instrument.py:208). -/
def chipName (panel label : Name) : Name := panel ++ '_' :: label

/-- `d[k] = v`. -/
def put {α : Type} (d : List (Name × α)) (k : Name) (v : α) : List (Name × α) :=
  if d.any (fun e => e.1 = k) then d.map fun e => if e.1 = k then (k, v) else e else d ++ [(k, v)]

/-- hedm_instrument.py:178-242 `chunk_instrument`, the entry `detectors`; the beam and the stage are copied. -/
noncomputable def chunkInstrument (panels : List (Name × Panel)) (rects : List Rect) (labels : List Name) (useRoi : Bool) :
    List (Name × Panel) :=
  (panels.flatMap fun e => (rects.zip labels).map fun rl => (chipName e.1 rl.2, chip e.2 useRoi rl.1)).foldl
    (fun d e => put d e.1 e.2) []

/-- The region of interest of a panel made from a configuration (detector.py:292-299). -/
def roiOf (p : Panel) : Option Rect :=
  p.roi.map fun s => { r0 := s.1, r1 := s.1 + p.pix.rows, c0 := s.2, c1 := s.2 + p.pix.cols }

/-! ### The images of a detector -/

/-- `multi_ims_key` (hedm_instrument.py:121, core/constants.py:117). -/
def sharedKey : Name := "SHARED-IMAGES".toList

/-- Images: an image series with or without omega metadata, a two-dimensional array, a stack of images, an array of another
dimension. -/
inductive Images (α : Type)
  | series (omega : Option (List (ℝ × ℝ))) (frames : List (List (List α)))
  | image (a : List (List α))
  | stack (a : List (List (List α)))
  | other

/-- `d[k]`. -/
def get {α : Type} (d : List (Name × α)) (k : Name) : Option α := (d.find? fun e => e.1 = k).map Prod.snd

/-- The images of a region (hedm_instrument.py:310-337). Frames of a stack are unpacked as pairs, which raises if they do not
have two rows, and then the first row is an index, which raises for numbers that are not integers. -/
def cropImages {α : Type} (r : Rect) : Images α → Option (Images α)
  | .series om fs => some (.series om (fs.map fun f => crop f r))
  | .image a => some (.image (crop a r))
  | .stack [] => some (.stack [])
  | .stack _ => none
  | .other => none

open Classical in
/-- hedm_instrument.py:245-338 `_parse_imgser_dict`; raising gives `none`. -/
noncomputable def imagesOf {α : Type} (d : List (Name × Images α)) (key : Name) (roi : Option Rect) (group : Option Name) :
    Option (Images α) :=
  match get d key with
  | some ims => some ims
  | none =>
    let found : Option (Images α) :=
      match get d sharedKey with
      | some ims => some ims
      | none =>
        match d.filter fun e => decide (key <:+: e.1) with
        | [e] => some e.2
        | _ :: _ :: _ => none
        | [] => group.bind (get d)
    match found, roi with
    | some ims, some r => cropImages r ims
    | _, _ => none

/-! ### Wedges and edges -/

/-- hedm_instrument.py:379-396 `angle_in_range`; `none` for NaN. -/
noncomputable def angleInRange (angle : ℝ) (ranges : List (ℝ × ℝ)) (radians : Bool) : Option ℕ :=
  ranges.findIdx? fun w =>
    decide (w.1 + Angles.npMod (angle - w.1) (if radians then 2 * Real.pi else 360) < w.2)

/-- hedm_instrument.py:400-403 `centers_of_edge_vec`; fewer than two edges raise. -/
noncomputable def centersOfEdgeVec (edges : List ℝ) : Option (List ℝ) :=
  if edges.length < 2 then none
  else some (List.zipWith (fun a b => (a + b) / 2) edges.dropLast edges.tail)

end Hexrd.Chunks
