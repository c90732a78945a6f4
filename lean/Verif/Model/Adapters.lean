import Mathlib.Data.Rat.Defs
import Mathlib.Data.List.Basic
/-!
# Model of image series adapters

`hexrd/core/imageseries/imageseriesiter.py`, `__init__.py` (opening a series), and of `load/`: `eiger_stream_v1.py`,
`eiger_stream_v2.py`, `function.py`, `registry.py`, `trivial.py` and `metadata.py`.
-/
namespace Hexrd.Adapters

/-! ## Iterating -/

/-- What asking for a frame gives: the frame, `IndexError`, or another exception. -/
inductive Res (F : Type)
  | ok (f : F)
  | index
  | other
deriving DecidableEq

/-- `list(iter(series))` with `ImageSeriesIterator` (imageseriesiter.py:11-22): the indices that remain are taken from
the front; an `IndexError`, from the empty list or from the series, ends the iteration, and another exception is passed on
(`none`). -/
def drain {F : Type} (get : Nat → Res F) : List Nat → Option (List F)
  | [] => some []
  | i :: rest =>
    match get i with
    | .ok f => (drain get rest).map (f :: ·)
    | .index => some []
    | .other => none

/-- Iterating over a series of `n` frames (imageseriesiter.py:11-13). -/
def iterate {F : Type} (n : Nat) (get : Nat → Res F) : Option (List F) := drain get (List.range n)

/-! ## Opening a series -/

/-- The registry of adapters (load/registry.py:7-13): a class registered for a format replaces the one before it; the
base class is not registered. -/
def register {C : Type} (reg : List (Option String × C)) (isBase : Bool) (fmt : Option String) (c : C) :
    List (Option String × C) :=
  if isBase then reg else (fmt, c) :: reg.filter (·.1 ≠ fmt)

/-- `imageseries.open` (core/imageseries/__init__.py:17-24): `make` gives the adapter of a class for a file, with its number of
frames; an unknown format and a series without frames raise. -/
def openSeries {C S : Type} (reg : List (Option String × C)) (make : C → Option S) (len : S → Nat)
    (fmt : Option String) : Option S := do
  let c ← (reg.find? (·.1 = fmt)).map (·.2)
  let s ← make c
  if len s = 0 then none else some s

/-! ## Eiger streams -/

/-- An image. -/
abbrev Frame := List (List ℚ)

/-- `data[r0:r1, c0:c1]` for bounds that are not negative (load/__init__.py:34-36). -/
def region (f : Frame) (r0 r1 c0 c1 : Nat) : Frame :=
  ((f.take r1).drop r0).map fun row => (row.take c1).drop c0

/-- Which image of a frame is asked for (load/eiger_stream_v2.py:65-69). -/
inductive Setting
  | one
  | two
  | diff
deriving DecidableEq

/-- `threshold_setting` (load/eiger_stream_v2.py:65-79); `none` is NotImplementedError. -/
def parseSetting (s : String) : Option Setting :=
  if s = "threshold_1" then some .one
  else if s = "threshold_2" then some .two
  else if s = "man_diff" then some .diff
  else none

/-- The name of a setting. -/
def Setting.name : Setting → String
  | .one => "threshold_1"
  | .two => "threshold_2"
  | .diff => "man_diff"

/-- A file: the images of the two thresholds by the name of the frame, and its metadata (load/eiger_stream_v2.py:174-189).
Decompressing is not modelled: the images are those that `decompress_frame` gives (load/eiger.py:22-42). -/
structure File (M : Type) where
  frames : List (String × Frame × Frame)
  metadata : M

/-- The adapter (load/eiger_stream_v2.py:19-37). -/
structure Stream (M : Type) where
  file : File M
  setting : Setting
  multiplier : ℚ
  metadata : M

/-- Opening a file (load/eiger_stream_v2.py:19-37). -/
def openStream {M : Type} (f : File M) (setting : String) (multiplier : ℚ) : Option (Stream M) :=
  (parseSetting setting).map fun s => ⟨f, s, multiplier, f.metadata⟩

/-- `threshold_1_data - self.multiplier * threshold_2_data` (load/eiger_stream_v2.py:132). -/
def minus (m : ℚ) (a b : Frame) : Frame := List.zipWith (List.zipWith fun x y => x - m * y) a b

/-- `__getitem__` for an index (load/eiger_stream_v2.py:121-136, 210-215): frames are found by the digits of the index, and
a frame that is not there is a `KeyError`. -/
def getFrame {M : Type} (s : Stream M) (i : Int) : Res Frame :=
  match s.file.frames.find? (·.1 = toString i) with
  | none => .other
  | some (_, a, b) =>
    match s.setting with
    | .one => .ok a
    | .two => .ok b
    | .diff => .ok (minus s.multiplier a b)

/-- `__len__` (load/eiger_stream_v2.py:144-145). -/
def Stream.len {M : Type} (s : Stream M) : Nat := s.file.frames.length

/-- The value given for an option. -/
inductive OptVal
  | text (s : String)
  | num (x : ℚ)
deriving DecidableEq

/-- `set_option` (load/eiger_stream_v2.py:217-228, 54-79, 94-103); `none` is an exception. A text given for the multiplier
is taken not to be a number. -/
def setOption {M : Type} (s : Stream M) (key : String) (v : OptVal) : Option (Stream M) :=
  if key = "threshold_setting" then
    match v with
    | .text t => (parseSetting t).map fun x => { s with setting := x }
    | .num _ => none
  else if key = "multiplier" then
    match v with
    | .num x => some { s with multiplier := x }
    | .text _ => none
  else none

/-- `option_values` (load/eiger_stream_v2.py:230-235). -/
def optionValues {M : Type} (s : Stream M) : List (String × OptVal) :=
  [("threshold_setting", .text s.setting.name), ("multiplier", .num s.multiplier)]

/-- Setting options one after the other; one that raises leaves the adapter as it is. -/
def setAll {M : Type} (s : Stream M) (opts : List (String × OptVal)) : Stream M :=
  opts.foldl (fun s o => (setOption s o.1 o.2).getD s) s

/-- `__getstate__` and `__setstate__` (load/eiger_stream_v2.py:147-172), as when an adapter is sent to another process: the
attributes are kept, the file is opened again and the metadata read from it again. -/
def pickle {M : Type} (s : Stream M) : Stream M := { s with metadata := s.file.metadata }

/-! ## Series given by a function -/

/-- The arguments of the function adapter (load/function.py:35-39); `meta` and `metadata` are the keyword arguments of these
names, if given. -/
structure FuncArgs (F M : Type) where
  func : Int → F
  numFrames : Nat
  metaArg : Option M
  metadataArg : Option M

/-- `__getitem__` (load/function.py:66-71). -/
def funcGet {F M : Type} (a : FuncArgs F M) (i : Int) : Res F := .ok (a.func i)

/-- `metadata` (load/function.py:39, 46-48); `none` is the empty dictionary. -/
def funcMetadata {F M : Type} (a : FuncArgs F M) : Option M := a.metaArg

/-! ## Metadata -/

/-- A string. -/
abbrev Text := List Char

/-- `str.split`, with the characters of the word before. -/
def wordsFrom : Text → Text → List Text
  | cur, [] => if cur = [] then [] else [cur]
  | cur, c :: l =>
    if c.isWhitespace then (if cur = [] then wordsFrom [] l else cur :: wordsFrom [] l)
    else wordsFrom (cur ++ [c]) l

/-- `str.split()`. -/
def words (t : Text) : List Text := wordsFrom [] t

/-- A value in the metadata: a string, an array, or another value. -/
inductive Val (α : Type)
  | text (t : Text)
  | arr (a : α)
  | value (n : Nat)
deriving DecidableEq

/-- A dictionary, in order. -/
abbrev Dict (α : Type) := List (Text × Val α)

/-- `d[k] = v`. -/
def put {α : Type} (d : Dict α) (k : Text) (v : Val α) : Dict α :=
  if d.any (·.1 = k) then d.map fun e => if e.1 = k then (k, v) else e else d ++ [(k, v)]

/-- `d.pop(k)`, what remains. -/
def erase {α : Type} (d : Dict α) (k : Text) : Dict α := d.filter (·.1 ≠ k)

/-- `d[k]`. -/
def lookup {α : Type} (d : Dict α) (k : Text) : Option (Val α) := (d.find? (·.1 = k)).map (·.2)

/-- `np.array` of a value: an array is taken as it is, and `toArr` makes one of the others. -/
def npArray {α : Type} (toArr : Val α → α) : Val α → Val α
  | .arr a => .arr a
  | v => .arr (toArr v)

/-- One turn of the loop of `yamlmeta` (load/metadata.py:30-46): `d` is the dictionary given, from which items are popped, and
`acc` is `metad`; the result is both afterwards. `files` gives the arrays in files by name, relative to the directory of
`path`. `none` is an exception. -/
def metaStep {α : Type} (files : Text → Option α) (toArr : Val α → α) (k : Text) (v : Val α) (d acc : Dict α) :
    Option (Dict α × Dict α) :=
  match v with
  | .text t =>
    match words t with
    | [] => none
    | w :: ws =>
      if t = "++np.array".toList then
        let newk := k ++ "-array".toList
        match lookup d newk with
        | none => none
        | some x => some (erase d newk, erase (put acc k (npArray toArr x)) newk)
      else if w = "!".toList then
        match ws with
        | [] => some (d, put acc k v)
        | cmd :: args =>
          if cmd = "load-numpy-array".toList then
            match args with
            | [] => none
            | f :: _ => (files f).map fun a => (d, put acc k (.arr a))
          else some (d, acc)
      else some (d, put acc k v)
  | v => some (d, put acc k v)

/-- The loop of `yamlmeta` over the items the dictionary had at the start (load/metadata.py:30). -/
def metaLoop {α : Type} (files : Text → Option α) (toArr : Val α → α) : Dict α → Dict α → Dict α → Option (Dict α)
  | [], _, acc => some acc
  | (k, v) :: rest, d, acc => do
    let (d', acc') ← metaStep files toArr k v d acc
    metaLoop files toArr rest d' acc'

/-- `yamlmeta` (load/metadata.py:10-48). -/
def yamlmeta {α : Type} (files : Text → Option α) (toArr : Val α → α) (m : Dict α) : Option (Dict α) :=
  metaLoop files toArr m m []

/-- What the writer puts in the metadata for an array it saved in the file `f` (save.py:305). -/
def trigger (f : Text) : Text := "! load-numpy-array ".toList ++ f

end Hexrd.Adapters
