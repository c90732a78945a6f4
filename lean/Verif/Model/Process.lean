import Verif.Model.FrameCache

/-!
# Model of `hexrd/core/imageseries/process.py`, `baseclass.py`, `load/__init__.py`
and of the region readers of the loaders
-/
namespace Hexrd.Process

/-- A two-dimensional image: a value at exactly the positions inside the shape. -/
structure Img (V : Type) where
  rows : Nat
  cols : Nat
  px : Nat → Nat → Option V
  inb : ∀ r c, (px r c).isSome = true ↔ r < rows ∧ c < cols

variable {V : Type}

/-- Image from a function. -/
def Img.ofFn (rows cols : Nat) (f : Nat → Nat → V) : Img V where
  rows := rows
  cols := cols
  px r c := if r < rows ∧ c < cols then some (f r c) else none
  inb r c := by split <;> simp_all

/-- Image whose pixel `(r, c)` is pixel `s r c` of `im`. -/
def Img.reindex (im : Img V) (rows cols : Nat) (s : Nat → Nat → Nat × Nat)
    (h : ∀ r c, r < rows → c < cols → (s r c).1 < im.rows ∧ (s r c).2 < im.cols) : Img V where
  rows := rows
  cols := cols
  px r c := if r < rows ∧ c < cols then im.px (s r c).1 (s r c).2 else none
  inb r c := by
    split
    · rename_i hrc
      have := (im.inb (s r c).1 (s r c).2).2 (h r c hrc.1 hrc.2)
      simp [this, hrc]
    · rename_i hrc; simp [hrc]

/-- `img[:, ::-1]` -/
def revCols (im : Img V) : Img V :=
  im.reindex im.rows im.cols (fun r c => (r, im.cols - 1 - c)) (by intro r c h1 h2; simp only; omega)
/-- `img[::-1, :]` -/
def revRows (im : Img V) : Img V :=
  im.reindex im.rows im.cols (fun r c => (im.rows - 1 - r, c)) (by intro r c h1 h2; simp only; omega)
/-- `img.T` -/
def transpose (im : Img V) : Img V :=
  im.reindex im.cols im.rows (fun r c => (c, r)) (by intro r c h1 h2; simp only; omega)

/-- `_flip` (process.py:140-155). -/
def flip (im : Img V) (f : String) : Img V :=
  if f = "y" ∨ f = "v" then revCols im
  else if f = "x" ∨ f = "h" then revRows im
  else if f = "vh" ∨ f = "hv" ∨ f = "r180" then revCols (revRows im)
  else if f = "t" ∨ f = "T" then transpose im
  else if f = "ccw90" ∨ f = "r90" then revRows (transpose im)
  else if f = "cw90" ∨ f = "r270" then revCols (transpose im)
  else im

/-- Python's normalisation of a slice bound for a sequence of length `n`. -/
def clampBound (n : Nat) (x : Int) : Nat :=
  if x < 0 then (x + n).toNat else min x.toNat n

/-- Region `((r0, r1), (c0, c1))` (imageseriesabc.py:6). -/
structure Region where
  r0 : Int
  r1 : Int
  c0 : Int
  c1 : Int

/-- `_rectangle`: `img[r0:r1, c0:c1]` (process.py:136-138), with Python's slice
semantics (negative bounds count from the end, everything is clamped). -/
def crop (im : Img V) (r : Region) : Img V :=
  im.reindex (clampBound im.rows r.r1 - clampBound im.rows r.r0)
    (clampBound im.cols r.c1 - clampBound im.cols r.c0)
    (fun i j => (clampBound im.rows r.r0 + i, clampBound im.cols r.c0 + j))
    (by
      intro i j h1 h2
      have a : clampBound im.rows r.r1 ≤ im.rows := by unfold clampBound; split <;> omega
      have b : clampBound im.cols r.c1 ≤ im.cols := by unfold clampBound; split <;> omega
      simp only; omega)

/-- `np.insert(img, k, 0, axis=0)` for `k ≤ rows` (process.py:167-169). -/
def insertRow (zero : V) (im : Img V) (k : Nat) (hk : k ≤ im.rows) : Img V where
  rows := im.rows + 1
  cols := im.cols
  px r c := if r < k then im.px r c
    else if r = k then (if c < im.cols then some zero else none)
    else im.px (r - 1) c
  inb r c := by
    by_cases h1 : r < k
    · rw [if_pos h1, im.inb]; omega
    · rw [if_neg h1]
      by_cases h2 : r = k
      · rw [if_pos h2]; split <;> simp_all; omega
      · rw [if_neg h2, im.inb]; omega

/-- `_add_row` (process.py:167-169): a negative index counts from the end; `none` is
the IndexError of `np.insert`. -/
def addRow (zero : V) (im : Img V) (index : Int) : Option (Img V) :=
  let k := if index < 0 then index + im.rows else index
  if h : 0 ≤ k ∧ k ≤ im.rows then some (insertRow zero im k.toNat (by omega)) else none

/-- `_add_col` (process.py:171-173), as `_add_row` of the transpose. -/
def addCol (zero : V) (im : Img V) (index : Int) : Option (Img V) :=
  (addRow zero (transpose im) index).map transpose

/-- Operations of the list (process.py:46-52). `other` is any operation that maps an
image to an image or raises: dark subtraction, add, gauss_laplace, and operations
added by the user with `addop`. -/
inductive Op (V : Type) where
  | rect (r : Region)
  | flip (f : String)
  | addRow (i : Int)
  | addCol (i : Int)
  | other (f : Img V → Option (Img V))

/-- `func = self._opdict[k]; img = func(img, d)` (process.py:106-108). -/
def Op.apply (zero : V) : Op V → Img V → Option (Img V)
  | .rect r, im => some (crop im r)
  | .flip f, im => some (Process.flip im f)
  | .addRow i, im => Process.addRow zero im i
  | .addCol i, im => Process.addCol zero im i
  | .other f, im => f im

/-- The loop over the operations (process.py:106-108). -/
def applyOps (zero : V) (ops : List (Op V)) (im : Img V) : Option (Img V) :=
  ops.foldl (fun o op => o.bind (op.apply zero)) (some im)

/-- A frame list entry as Python sees it: a plain `int` or a numpy integer, which is
not an instance of `int`. -/
structure Key where
  val : Int
  isInt : Bool

/-- Python indexing of a sequence: negative indices from the end. -/
def pyIndex {α : Type} (l : List α) (k : Int) : Option α :=
  if 0 ≤ k then l[k.toNat]? else if -(l.length : Int) ≤ k then l[(l.length + k).toNat]? else none

/-- The kinds of image series that can be read or processed. -/
inductive Series (V : Type) where
  /-- frames held in memory or read whole (array.py:59-60 and the other adapters that
  inherit `get_region` from load/__init__.py:34-36) -/
  | frames (l : List (Img V))
  /-- frame cache: shape and sparse frames (framecache.py:192-196, 244-261) -/
  | cache (w h : Nat) (add : V → V → V) (l : List (List (FrameCache.Entry V)))
  /-- hdf5 file with a two-dimensional dataset (load/hdf5.py:66-84) -/
  | h5flat (im : Img V)
  /-- `ProcessedImageSeries` over another series, with operations and frame list -/
  | processed (src : Series V) (ops : List (Op V)) (fl : Option (List Key))

/-- `csr_array(...).toarray()` (framecache.py:329, 261). -/
def toImg (add : V → V → V) (zero : V) (w h : Nat) (es : List (FrameCache.Entry V)) : Img V :=
  Img.ofFn w h fun r c => FrameCache.readPixel add zero es r c

/-- `csr_frame[r0:r1, c0:c1]` (framecache.py:196): the entries inside the region,
with shifted indices; the shape of the result is that of the slice. -/
def csrSlice (w h : Nat) (es : List (FrameCache.Entry V)) (r : Region) : List (FrameCache.Entry V) :=
  (es.filter fun e => decide (clampBound w r.r0 ≤ e.row ∧ e.row < clampBound w r.r1 ∧
      clampBound h r.c0 ≤ e.col ∧ e.col < clampBound h r.c1)).map
    fun e => ⟨e.row - clampBound w r.r0, e.col - clampBound h r.c0, e.val⟩

mutual

/-- `ims[key]` for an integer key: `none` where Python raises. -/
def getItem (zero : V) : Series V → Key → Option (Img V)
  | .frames l, k => pyIndex l k.val
  | .cache w h add l, k => (pyIndex l k.val).map (toImg add zero w h)
  -- load/hdf5.py:66-80: a key that is not an `int` is subscripted, which raises
  | .h5flat im, k => if k.isInt ∧ k.val = 0 then some im else none
  -- process.py:54-71, 79-114: `_get_index`, then `_process_frame`; a key that is not an
  -- instance of `int` is subscripted (`key[0]`), which raises for a number
  | .processed src ops fl, k =>
    if k.isInt then
      match (match fl with | none => some k | some l => pyIndex l k.val) with
      | none => none
      | some idx =>
        if idx.isInt then
          match ops with
          | .rect r :: rest => (getRegion zero src idx r).bind (applyOps zero rest)
          | ops => (getItem zero src idx).bind (applyOps zero ops)
        else none
    else none

/-- `ims.get_region(idx, region)`. -/
def getRegion (zero : V) : Series V → Key → Region → Option (Img V)
  -- load/__init__.py:34-36
  | .frames l, k, r => (pyIndex l k.val).map fun im => crop im r
  -- framecache.py:192-196
  | .cache w h add l, k, r => (pyIndex l k.val).map fun es =>
      toImg add zero (clampBound w r.r1 - clampBound w r.r0) (clampBound h r.c1 - clampBound h r.c0)
        (csrSlice w h es r)
  -- load/hdf5.py:82-84: `dataset[idx]` of a 2-d dataset is one row, `row[a:b, c:d]` raises
  | .h5flat _, _, _ => none
  -- baseclass.py:47-48 uses `self._adapter`, which `ProcessedImageSeries.__init__`
  -- (process.py:33-52) never sets: AttributeError
  | .processed _ _ _, _, _ => none

end

/-- `__len__` (process.py:73-74, framecache/array/hdf5 lengths). -/
def seriesLen : Series V → Nat
  | .frames l => l.length
  | .cache _ _ _ l => l.length
  | .h5flat _ => 1
  | .processed src _ fl => match fl with | none => seriesLen src | some l => l.length

/-- `_update_omega` (process.py:175-179): `omega[frames]`. -/
def updateOmega {Ω : Type} (omega : List Ω) (fl : Option (List Key)) : Option (List Ω) :=
  match fl with
  | none => some omega
  | some l => l.mapM fun k => pyIndex omega k.val

/-! ## dark subtraction (process.py:116-132) -/

/-- `ret = img - dark; ret[ret < 0] = 0` for an unsigned image and dark of the same
width: the subtraction is modular and no element is negative. -/
def darkUnsigned {w : Nat} (img dark : BitVec w) : BitVec w := img - dark

/-- The same for signed integers of the same width. -/
def darkSigned {w : Nat} (img dark : BitVec w) : BitVec w :=
  let ret := img - dark
  if ret.slt 0#w then 0#w else ret

/-- The same when numpy promotes to a type in which the difference is exact (e.g. a
floating point dark image), over the integers. -/
def darkExact (img dark : Int) : Int :=
  let ret := img - dark
  if ret < 0 then 0 else ret

end Hexrd.Process
