/-!
# Model of `hexrd/core/utils/json.py` and `hexrd/core/utils/hdf5.py`
-/
namespace Hexrd.Codec

/-! ## The `raw_unicode_escape` codec used by json.py:29 and json.py:43

Bytes and code points are natural numbers.  CPython's decoder: a byte other than a backslash stands for itself; a
backslash followed by `u` (`U`) must be followed by four (eight) hexadecimal digits and stands for that code point; a
backslash followed by any other byte stands for itself, and so does that byte; a final backslash stands for itself. -/

/-- Value of a hexadecimal digit, upper or lower case. -/
def hexVal (c : Nat) : Option Nat :=
  if 48 ≤ c ∧ c ≤ 57 then some (c - 48)
  else if 97 ≤ c ∧ c ≤ 102 then some (c - 87)
  else if 65 ≤ c ∧ c ≤ 70 then some (c - 55)
  else none

/-- The number written by `digits`, or `none`. -/
def hexNum : Nat → List Nat → Option Nat
  | acc, [] => some acc
  | acc, c :: l => match hexVal c with
    | some v => hexNum (16 * acc + v) l
    | none => none

/-- `bytes.decode('raw_unicode_escape')`; `none` is UnicodeDecodeError. -/
def decodeRaw : List Nat → Option (List Nat)
  | [] => some []
  | [c] => some [c]
  | c :: d :: rest =>
    if c ≠ 92 then (decodeRaw (d :: rest)).map (c :: ·)
    else if d = 117 then
      if rest.length < 4 then none
      else do
        let v ← hexNum 0 (rest.take 4)
        let out ← decodeRaw (rest.drop 4)
        some (v :: out)
    else if d = 85 then
      if rest.length < 8 then none
      else do
        let v ← hexNum 0 (rest.take 8)
        if v > 1114111 then none
        else do
          let out ← decodeRaw (rest.drop 8)
          some (v :: out)
    else (decodeRaw rest).map fun out => 92 :: d :: out
termination_by l => l.length
decreasing_by all_goals simp_all <;> omega

/-- Lower-case hexadecimal digit. -/
def hexDigit (v : Nat) : Nat := if v < 10 then v + 48 else v + 87

/-- The last `k` hexadecimal digits of `v`. -/
def hexDigits : Nat → Nat → List Nat
  | 0, _ => []
  | k + 1, v => hexDigits k (v / 16) ++ [hexDigit (v % 16)]

/-- `str.encode('raw_unicode_escape')`, one character. -/
def encodeChar (v : Nat) : List Nat :=
  if v < 256 then [v] else if v < 65536 then 92 :: 117 :: hexDigits 4 v else 92 :: 85 :: hexDigits 8 v

/-- `str.encode('raw_unicode_escape')`. -/
def encodeRaw (s : List Nat) : List Nat := s.flatMap encodeChar

/-- json.py:21-31 and 41-46: the bytes of the `.npy` file are decoded into the string in the JSON document, and encoded
again when it is read.  `np.save`, `np.load` and JSON itself are not modelled: they are taken to give back the array for
the same bytes, and the same string. -/
def jsonBytes (data : List Nat) : Option (List Nat) := (decodeRaw data).map encodeRaw

/-! ## Dictionaries in HDF5 files (hdf5.py) -/

/-- Values in a dictionary that are not dictionaries: `None`, a number, a string, an array of numbers with its shape (the
list of sizes) and entries, and an array of strings. -/
inductive Val | none | num (x : Int) | str (s : Nat) | arr (shape : List Nat) (data : List Int) | strArr (s : List Nat)
deriving DecidableEq

/-- A nested dictionary with keys in `K`, in insertion order. -/
inductive Dict (K V : Type) | nil | leaf (k : K) (v : V) (rest : Dict K V) | sub (k : K) (d : Dict K V) (rest : Dict K V)

/-- What a dataset holds: a numeric array with its shape, or a string (`'O'` type). -/
inductive Data | arr (shape : List Nat) (data : List Int) | str (s : Nat)
deriving DecidableEq

/-- The string that `str(item)` makes of an array of strings (hdf5.py:49); nothing is assumed about it. -/
opaque strOf : List Nat → Nat

/-- hdf5.py:35-51 for one value with `asattr=False`: `none` means nothing is written.  `np.atleast_1d` turns a number into
an array with one element; a string, whose array HDF5 refuses, is written as such; an array of strings is written as the
string `str(item)`. -/
def store : Val → Option Data
  | .none => none
  | .num x => some (.arr [1] [x])
  | .str s => some (.str s)
  | .arr [] data => some (.arr [1] data)
  | .arr sh data => some (.arr sh data)
  | .strArr s => some (.str (strOf s))

/-- hdf5.py:79-89 for one dataset. -/
def load : Data → Val
  | .str s => .str s
  | .arr [1] [x] => .num x
  | .arr sh data => .arr sh data

variable {K : Type}

/-- hdf5.py:6-52 `unwrap_dict_to_h5` with `asattr=False`: the contents of the group.  The items are popped from the end;
the order of the keys is kept here, since neither groups nor dictionaries are compared by order.  Keys are plain names:
a key with a slash would create further groups. -/
def unwrapToH5 : Dict K Val → Dict K Data
  | .nil => .nil
  | .leaf k v rest => match store v with
    | some x => .leaf k x (unwrapToH5 rest)
    | none => unwrapToH5 rest
  | .sub k d rest => .sub k (unwrapToH5 d) (unwrapToH5 rest)

/-- An entry of a dictionary object: a value, or a reference to another dictionary object. -/
inductive Item | val (v : Val) | ref (j : Nat)
deriving DecidableEq

/-- The dictionary objects in memory, each with its entries in insertion order. -/
abbrev Heap (K : Type) := Nat → List (K × Item)

/-- Change of one object. -/
def Heap.set (h : Heap K) (o : Nat) (l : List (K × Item)) : Heap K := fun o' => if o' = o then l else h o'

/-- hdf5.py:25-52 on objects: the loop `while len(d) > 0` with `popitem`, which removes the last entry, and the recursive
calls; what is in memory afterwards and the group written.  `none` when the number of steps `fuel` does not suffice (a
dictionary that contains itself would never end). -/
def popAll : Nat → Heap K → Nat → Option (Heap K × Dict K Data)
  | 0, _, _ => none
  | fuel + 1, h, o => match (h o).getLast? with
    | none => some (h, .nil)
    | some (k, .val v) => do
      let (h', g) ← popAll fuel (h.set o (h o).dropLast) o
      match store v with
      | some x => some (h', .leaf k x g)
      | none => some (h', g)
    | some (k, .ref j) => do
      let (h1, g1) ← popAll fuel (h.set o (h o).dropLast) j
      let (h2, g) ← popAll fuel h1 o
      some (h2, .sub k g1 g)

/-- `d.copy()` of the object `o` into the new object `c`: the entries are the same, so nested dictionaries are shared. -/
def Heap.copy (h : Heap K) (o c : Nat) : Heap K := h.set c (h o)

/-- hdf5.py:55-89 `unwrap_h5_to_dict` into an empty dictionary. -/
def unwrapToDict : Dict K Data → Dict K Val
  | .nil => .nil
  | .leaf k x rest => .leaf k (load x) (unwrapToDict rest)
  | .sub k d rest => .sub k (unwrapToDict d) (unwrapToDict rest)

end Hexrd.Codec
