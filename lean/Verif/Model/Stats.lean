/-!
# Model of `hexrd/core/imageseries/stats.py`

Images are elements of an arbitrary type; `np.maximum`, `np.minimum` and `+` are
an arbitrary binary operation `op`. Float rounding is not modelled.
-/
namespace Hexrd.Stats

/-- `_nframes(ims, nframes)` (stats.py:247-250). -/
def nFrames (len nframes : Nat) : Nat := if nframes > 0 then min len nframes else len

/-- `np.cumsum`. -/
def cumsum : Nat → List Nat → List Nat
  | _, [] => []
  | a, x :: xs => (a + x) :: cumsum (a + x) xs

/-- `_chunk_stops(n, nchunks)` (stats.py:253-267). `none` is the `ValueError`
for `nchunks > n` or the division by zero for `nchunks = 0`. `pieces[0] += -1`
is natural subtraction: `pieces[0] ≥ 1` because `nchunks ≤ n`. -/
def chunkStops (n nchunks : Nat) : Option (List Nat) :=
  if nchunks > n then none
  else if nchunks = 0 then none
  else
    let csize := n / nchunks
    let rem := n % nchunks
    let pieces := (List.range nchunks).map fun i => if i < rem then csize + 1 else csize
    let pieces := match pieces with
      | [] => []
      | p :: ps => (p - 1) :: ps
    some (cumsum 0 pieces)

/-- `max(ims)`, `min(ims)`, `_accumulate(ims)` (stats.py:48-54, 80-86, 231-244):
fold the operation over frames 1..nf-1 starting from frame 0. `frame i` is
`ims[i]`. -/
def full {I : Type} (op : I → I → I) (frame : Nat → I) (nf : Nat) : I :=
  (List.range' 1 (nf - 1)).foldl (fun img i => op img (frame i)) (frame 0)

/-- The loop `for i in range(1, nf)` of `max_iter`/`min_iter`/`sum_iter`/
`average_iter` (stats.py:71-77, 102-108, 138-144, 169-175): `k` iterations left,
`img` the running image, `s0`/`stop` the chunk counters. Returns the yielded
`(i, img)` pairs and the final running image; `none` is an `IndexError` from
`stops[s0]`. -/
def iterLoop {I : Type} (op : I → I → I) (frame : Nat → I) (nf : Nat) (stops : List Nat) :
    Nat → Nat → I → Nat → Nat → Option (List (Nat × I) × I)
  | 0, _, img, _, _ => some ([], img)
  | k+1, i, img, s0, stop =>
    let img := op img (frame i)
    if i ≥ stop then
      if i + 1 < nf then
        match stops[s0 + 1]? with
        | none => none
        | some stop' => do
          let r ← iterLoop op frame nf stops k (i+1) img (s0 + 1) stop'
          some ((i, img) :: r.1, r.2)
      else do
        let r ← iterLoop op frame nf stops k (i+1) img s0 stop
        some ((i, img) :: r.1, r.2)
    else iterLoop op frame nf stops k (i+1) img s0 stop

/-- The generators `max_iter`, `min_iter`, `sum_iter`, `average_iter`
(stats.py:57-77, 89-108, 121-144, 153-175): the `(last frame index, running
image)` at each yield and the running image at the end. -/
def accIter {I : Type} (op : I → I → I) (frame : Nat → I) (nf nchunk : Nat) :
    Option (List (Nat × I) × I) :=
  match chunkStops nf nchunk with
  | none => none
  | some stops =>
    match stops[0]? with
    | none => none
    | some stop =>
      let img := frame 0
      if stop = 0 then
        if nf > 1 then
          match stops[1]? with
          | none => none
          | some stop' => do
            let r ← iterLoop op frame nf stops (nf - 1) 1 img 1 stop'
            some ((0, img) :: r.1, r.2)
        else do
          let r ← iterLoop op frame nf stops (nf - 1) 1 img 0 stop
          some ((0, img) :: r.1, r.2)
      else iterLoop op frame nf stops (nf - 1) 1 img 0 stop

/-- What a consumer of `average_iter` sees if it uses each item as it is
yielded (stats.py:153-175): the running sum divided by the number of frames.
The first item, when yielded before the loop, is the running image itself. -/
def averageIterLive {I : Type} (add : I → I → I) (divBy : I → Nat → I) (frame : Nat → I)
    (nf nchunk : Nat) : Option (List I) :=
  (accIter add frame nf nchunk).map fun r =>
    r.1.map fun p => if p.1 = 0 then p.2 else divBy p.2 (p.1 + 1)

/-- What a consumer sees that first collects all items, as `list(average_iter(..))`:
the item yielded before the loop (stats.py:167) is the accumulator array itself,
which `img += ims[i]` (line 170) goes on changing in place; all other items are
new arrays (line 175). -/
def averageIterCollected {I : Type} (add : I → I → I) (divBy : I → Nat → I) (frame : Nat → I)
    (nf nchunk : Nat) : Option (List I) :=
  (accIter add frame nf nchunk).map fun r =>
    r.1.map fun p => if p.1 = 0 then r.2 else divBy p.2 (p.1 + 1)

/-! ## Percentile by row chunks

A frame is a function from row index to row; the percentile over frames is taken
per pixel, hence per row: `rowStat` maps the list of the frames' versions of one
row to the row of the result. -/

/-- Frame buffer: number of frames it holds and their contents. -/
structure Buffer (Row : Type) where
  nbf : Nat
  data : Nat → Nat → Row

/-- `_alloc_buffer(ims, nf)` (stats.py:315-322): room for as many frames as fit
into `budget` bytes; `np.empty` contents are arbitrary (`junk`). -/
def allocBuffer {Row : Type} (budget framesize nf : Nat) (junk : Nat → Nat → Row) : Buffer Row :=
  ⟨min nf (budget / framesize), junk⟩

/-- `_toarray(ims, nframes, rows=(r0, r1), buffer)` (stats.py:270-312): the array
`a[i][r]` for `r < r1 - r0`, as a list over frames, and the buffer afterwards. -/
def toArray {Row : Type} (frame : Nat → Nat → Row) (nf r0 : Nat) (buf : Option (Buffer Row)) :
    List (Nat → Row) × Option (Buffer Row) :=
  match buf with
  | none => ((List.range nf).map fun i r => frame i (r0 + r), none)
  | some b =>
    let b : Buffer Row := if r0 = 0 then
        { b with data := fun i => if i < b.nbf then frame i else b.data i } else b
    ((List.range nf).map fun i => if i < b.nbf then fun r => b.data i (r0 + r)
        else fun r => frame i (r0 + r), some b)

/-- `np.percentile(_toarray(ims, nf), pctl, axis=0)` (stats.py:178-188). -/
def percentile {Row O : Type} (rowStat : List Row → O) (frame : Nat → Nat → Row) (nf : Nat) :
    Nat → O :=
  fun r => rowStat ((toArray frame nf 0 none).1.map fun a => a r)

/-- Loop of `percentile_iter` (stats.py:203-211) over the chunk stops. The image
is a function of the row; `zero` is a row of zeros. -/
def pctlLoop {Row O : Type} (rowStat : List Row → O) (frame : Nat → Nat → Row) (nf : Nat) :
    List Nat → Nat → (Nat → O) → Option (Buffer Row) → List (Nat → O)
  | [], _, _, _ => []
  | s :: ss, r0, img, buf =>
    let r1 := s + 1
    let (a, buf) := toArray frame nf r0 buf
    let img' : Nat → O := fun r => if r0 ≤ r ∧ r < r1 then rowStat (a.map fun x => x (r - r0)) else img r
    img' :: pctlLoop rowStat frame nf ss r1 img' buf

/-- `percentile_iter(ims, pctl, nchunks, nframes, use_buffer)` (stats.py:191-211). -/
def percentileIter {Row O : Type} (rowStat : List Row → O) (zero : O) (frame : Nat → Nat → Row)
    (nf nr nchunks : Nat) (buf : Option (Buffer Row)) : Option (List (Nat → O)) :=
  (chunkStops nr nchunks).map fun stops => pctlLoop rowStat frame nf stops 0 (fun _ => zero) buf

end Hexrd.Stats
