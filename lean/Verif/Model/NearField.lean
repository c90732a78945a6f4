import Mathlib.Data.Real.Basic
import Mathlib.Data.Nat.Notation
import Mathlib.Algebra.Order.Floor.Ring
import Mathlib.Algebra.Order.Archimedean.Real.Basic

/-! The orientation test of near-field grain mapping (hexrd/hedm/grainmap/nfutil.py): how the coordinates are divided among chunks,
processes and ranks, and how the confidence of one orientation at one coordinate is counted. -/

namespace Hexrd.NearField

/-- `confidence[:, a:b] = vals` of an array whose columns are `buf` (numpy slicing, nfutil.py:774, 793): the bounds are cut at the
number of columns, one column is repeated, any other number of columns but that of the slice raises. -/
def setSlice {β : Type} (buf : List β) (a b : ℕ) (vals : List β) : Option (List β) :=
  let hi := min b buf.length
  let lo := min a hi
  if vals.length = hi - lo then some (buf.take lo ++ vals ++ buf.drop hi)
  else match vals with
    | [v] => some (buf.take lo ++ List.replicate (hi - lo) v ++ buf.drop hi)
    | _ => none

/-- `ProcessController.limit('coords', n)` (nfutil.py:136-144): without a limit function the number itself, and also when the
function raises (`none`). -/
def limit (lim : Option (ℕ → Option ℕ)) (n : ℕ) : ℕ :=
  match lim with
  | none => n
  | some f => (f n).getD n

/-- The limit that `build_controller` installs (nfutil.py:1688-1689). -/
def builtLimit (l : Option ℕ) : Option (ℕ → Option ℕ) := l.map fun m => fun x => some (min x m)

/-- `get_offset_size` (nfutil.py:643-654) on rank `rank` of `world`; MPI is used when there are several (nfutil.py:40-49). -/
def offsetSize (world rank n : ℕ) : ℕ × ℕ :=
  if 1 < world then
    let per := n / world
    let offset := rank * per
    (offset, if rank + 1 = world then n - offset else per)
  else (0, n)

/-- `range(offset, offset + size, chunk)` (nfutil.py:740): a step of zero raises. Only natural chunk sizes are modelled. -/
def chunkStarts (offset size chunk : ℕ) : Option (List ℕ) :=
  if chunk = 0 then none
  else some ((List.range ((size + chunk - 1) / chunk)).map fun i => offset + i * chunk)

/-- The confidences of every grain at one coordinate (the columns of nfutil.py:896-919). -/
def column {γ κ : Type} (conf : γ → κ → ℝ) (grains : List γ) (c : κ) : List ℝ := grains.map fun g => conf g c

/-- `_grand_loop_inner` (nfutil.py:847-951): the slice and its columns; an array with a negative dimension raises. The detector
projection and the count are `conf`. -/
def inner {γ κ : Type} (conf : γ → κ → ℝ) (grains : List γ) (coords : List κ) (start stop : ℕ) :
    Option ((ℕ × ℕ) × List (List ℝ)) :=
  let stop := min stop coords.length
  if stop < start then none
  else some ((start, stop), ((coords.drop start).take (stop - start)).map (column conf grains))

/-- `multiproc_inner_loop` (nfutil.py:975-985): the rank's part is that of all the coordinates, whatever the limit. -/
def poolTask {γ κ : Type} (conf : γ → κ → ℝ) (grains : List γ) (coords : List κ) (world rank chunk start : ℕ) :
    Option ((ℕ × ℕ) × List (List ℝ)) :=
  let os := offsetSize world rank coords.length
  inner conf grains coords start (min (os.1 + os.2) (start + chunk))

/-- One round of the loops of `test_orientations` (nfutil.py:770-776, 779-795). -/
def store (offset : ℕ) (buf : List (List ℝ)) (r : (ℕ × ℕ) × List (List ℝ)) : Option (List (List ℝ)) :=
  setSlice buf (r.1.1 - offset) (r.1.2 - offset) r.2

/-- `test_orientations` on one rank (nfutil.py:684-797) up to the gathering. `junk` is what `np.empty` holds and `order` the order in
which the pool finishes the chunks. `none` is an exception: `finish` divides by the number of items (nfutil.py:110-118), so a run
without grains or without coordinates raises. -/
def testOrientations {γ κ : Type} (conf : γ → κ → ℝ) (grains : List γ) (coords : List κ)
    (lim : Option (ℕ → Option ℕ)) (chunk ncpus world rank : ℕ) (junk : List (List ℝ)) (order : List ℕ) :
    Option (List (List ℝ)) := do
  if grains = [] then none else
  let n := limit lim coords.length
  let os := offsetSize world rank n
  let chunks ← chunkStarts os.1 os.2 chunk
  let out ←
    if 1 < min ncpus chunks.length then
      order.foldlM (fun buf c => (poolTask conf grains coords world rank chunk c).bind (store os.1 buf)) junk
    else
      chunks.foldlM (fun buf c => (inner conf grains coords c (min n (c + chunk))).bind (store os.1 buf)) junk
  if n = 0 then none else pure out

/-- `send_counts` (nfutil.py:664-666). -/
def sendCounts (world n grains : ℕ) : List ℕ :=
  List.replicate (world - 1) (n / world * grains) ++ [(n - n / world * (world - 1)) * grains]

/-- `reshape(n_coords, n_grains)` of a flat array of the right length, row by row. -/
def reshape (w : ℕ) : ℕ → List ℝ → List (List ℝ)
  | 0, _ => []
  | n + 1, l => l.take w :: reshape w n (l.drop w)

/-- What rank 0 hands to the result handler (nfutil.py:657-678, 800-803): every rank sends its columns one after another. A rank that
sends another number of values than announced, or too few values, is an error. `parts` are the columns of the ranks in order. -/
def gather (n grains : ℕ) (parts : List (List (List ℝ))) : Option (List (List ℝ)) :=
  let sent := parts.map List.flatten
  if sent.map List.length = sendCounts parts.length n grains ∧ sent.flatten.length = n * grains
  then some (reshape grains n sent.flatten) else none

end Hexrd.NearField
