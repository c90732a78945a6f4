/-!
# Model of `hexrd/core/imageseries/load/imagefiles.py` and of the byte layout of
`hexrd/core/imageseries/load/rawimage.py`
-/
namespace Hexrd.ImageFiles

/-- The options of the series (imagefiles.py:112-115); 0 is the default of each. -/
structure Opts where
  empty : Nat
  maxTot : Nat
  maxFile : Nat

/-- `FileInfo.__init__` (imagefiles.py:240-255): `imgframes` is the number of
images fabio finds in the file. Returns the value of `FileInfo.nframes`
(289-291), or `none` where the constructor raises ValueError. -/
def fileInfo (o : Opts) (imgframes : Nat) : Option Nat :=
  let maxframes := if o.maxFile = 0 then imgframes else o.maxFile
  if o.empty ≥ imgframes then none
  else some (min maxframes (imgframes - o.empty))

/-- `_process_files` (imagefiles.py:125-151): the list of frame counts per file.
Shape, dtype and fabio-class consistency checks are not modelled. -/
def processFiles (o : Opts) (files : List Nat) : Option (List Nat) :=
  files.mapM (fileInfo o)

/-- `singleframes` (imagefiles.py:131, 144-145). -/
def singleframes (infos : List Nat) : Bool := infos.all fun nf => !decide (nf > 1)

/-- `__len__` (imagefiles.py:32-36). -/
def length (o : Opts) (infos : List Nat) : Nat :=
  if o.maxTot > 0 then min infos.sum o.maxTot else infos.sum

/-- The loop of `_file_and_frame` (imagefiles.py:176-186); `k` is already
non-negative. The result is (file number, frame); the Python fallback
`frame = -nf - 1` for an exhausted loop is `none`. -/
def locate (empty : Nat) : (infos : List Nat) → (k fnum : Nat) → Option (Nat × Nat)
  | [], _, _ => none
  | nf :: rest, k, fnum =>
    if k < nf then some (fnum, k + empty) else locate empty rest (k - nf) (fnum + 1)

/-- `__getitem__` with an integer key (imagefiles.py:38-50, 167-174): which frame
of which file is loaded. `none` stands for LookupError / IndexError. In the
single-frame case `frame = None` makes `_load_data` use `img.data`, the first
image of the file (frame 0), and the list indexing `self._files[key]` accepts
negative keys from `-len(files)`. -/
def getitem (o : Opts) (infos : List Nat) (key : Int) : Option (Nat × Nat) :=
  if singleframes infos then
    if 0 ≤ key ∧ key < infos.length then some (key.toNat, 0)
    else if -(infos.length : Int) ≤ key ∧ key < 0 then some ((infos.length + key).toNat, 0)
    else none
  else
    let nf : Int := length o infos
    if key < -nf ∨ key ≥ nf then none
    else
      let k := if key ≥ 0 then key else nf + key
      locate o.empty infos k.toNat 0

end Hexrd.ImageFiles

namespace Hexrd.RawImage

/-- The YAML description reduced to sizes (rawimage.py:31-36): bytes of a frame and
of the header. -/
structure Raw where
  frameBytes : Nat
  skip : Nat

/-- `_get_length` (rawimage.py:56-69); `none` is the ValueError. -/
def getLength (r : Raw) (nbytes : Nat) : Option Nat :=
  if nbytes % r.frameBytes = r.skip then some ((nbytes - r.skip) / r.frameBytes) else none

/-- `__getitem__` (rawimage.py:114-127): seek offset; `none` where `seek` raises
because the offset is negative. There is no check of the key against the length. -/
def offset (r : Raw) (key : Int) : Option Nat :=
  let count : Int := key * r.frameBytes + r.skip
  if count < 0 then none else some count.toNat

/-- `typechars` (rawimage.py:72-106). The two-character result string is given as
its two characters; `none` is the KeyError. -/
def typechars (numtype : Char) (bytes : Nat) (signed little : Bool) : Option (Char × Char) :=
  let intbytes : Option Char :=
    match bytes with
    | 1 => some 'b' | 2 => some 'h' | 4 => some 'i' | 8 => some 'l' | _ => none
  let char : Option Char :=
    if numtype = 'i' then intbytes.map fun c => if signed then c else c.toUpper
    else if numtype = 'f' then some 'f'
    else if numtype = 'd' then some 'd'
    else if numtype = 'b' then some '?'
    else none
  char.map fun c => if little then ('<', c) else ('>', c)

end Hexrd.RawImage
