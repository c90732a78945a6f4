/-!
# Model of the frame cache: `hexrd/core/imageseries/save.py` (`WriteFrameCache`)
and `hexrd/core/imageseries/load/framecache.py`

Pixel values are of an arbitrary type `V` with an addition and a zero (used by
`csr_array.toarray()`); "above threshold" is an arbitrary test `above`.
-/
namespace Hexrd.FrameCache

variable {V : Type}

/-- One stored nonzero: row and column as `uint16`, value. -/
structure Entry (V : Type) where
  row : Nat
  col : Nat
  val : V

/-- `extract_ijv` (core/matrixutil.py:739-751) on a `w × h` image: the pixels above
threshold in row-major order. The output index buffers are `uint16`
(save.py:350-351, 438), so indices are stored modulo 65536. The output counter
`n` is the length of the list. -/
def extract (above : V → Bool) (w h : Nat) (im : Nat → Nat → V) : List (Entry V) :=
  (List.range w).flatMap fun i => (List.range h).filterMap fun j =>
    if above (im i j) then some ⟨i % 65536, j % 65536, im i j⟩ else none

/-- `csr_array((data, (row, col)), shape).toarray()[r, c]` (framecache.py:329,
380): values with equal indices are summed. -/
def readPixel (add : V → V → V) (zero : V) (es : List (Entry V)) (r c : Nat) : V :=
  (es.filter fun e => decide (e.row = r ∧ e.col = c)).foldl (fun a e => add a e.val) zero

/-! ## fch5 writer threads (save.py:390-498) -/

/-- Program counter of one worker thread inside `single_array_write_thread`
(save.py:440-464). -/
inductive Pc where
  | idle
  | extracted (i : Nat)
  | reserved (i s e : Nat)
  | wroteData (i s e : Nat)
  | wroteIdx (i s e : Nat)
  | wroteStart (i s e : Nat)
deriving DecidableEq

/-- Shared and per-thread state of the writer. `buf t` is thread `t`'s
`thread_local` buffer (its first `count` elements); `data`, `idx` are the two
datasets, `fid` is `frame_indices`, `next` the next task of the executor. -/
structure St (V : Type) where
  pc : Nat → Pc
  buf : Nat → List (Entry V)
  next : Nat
  filePos : Nat
  total : Nat
  data : Nat → Option V
  idx : Nat → Option (Nat × Nat)
  fid : Nat → Nat

def upd {β : Type} (f : Nat → β) (a : Nat) (b : β) : Nat → β := fun x => if x = a then b else f x

/-- Write `vals` into the array from position `s` (slice assignment
`dataset[s:e] = vals`). -/
def writeSlice {β : Type} (f : Nat → Option β) (s : Nat) (vals : List β) : Nat → Option β :=
  fun x => if s ≤ x ∧ x < s + vals.length then vals[x - s]? else f x

/-- One step of thread `t` (save.py:440-464). `ents i` is the result of
`extract_ijv` on frame `i`. The reservation (lines 453-457) is one step because
it runs under `common_lock`. The other lines may interleave arbitrarily. Tasks
are taken from the executor's queue in order by whichever thread is idle. -/
def step (n : Nat) (ents : Nat → List (Entry V)) (s : St V) (t : Nat) : St V :=
  match s.pc t with
  | .idle =>
    if s.next < n then
      { s with pc := upd s.pc t (.extracted s.next), buf := upd s.buf t (ents s.next),
               next := s.next + 1 }
    else s
  | .extracted i =>
    let start := s.filePos
    let stop := s.filePos + (s.buf t).length
    { s with filePos := stop, total := s.total + (stop - start),
             pc := upd s.pc t (.reserved i start stop) }
  | .reserved i st e =>
    { s with data := writeSlice s.data st ((s.buf t).map Entry.val),
             pc := upd s.pc t (.wroteData i st e) }
  | .wroteData i st e =>
    { s with idx := writeSlice s.idx st ((s.buf t).map fun x => (x.row, x.col)),
             pc := upd s.pc t (.wroteIdx i st e) }
  | .wroteIdx i st e =>
    { s with fid := upd s.fid (2 * i) st, pc := upd s.pc t (.wroteStart i st e) }
  | .wroteStart i _ e =>
    { s with fid := upd s.fid (2 * i + 1) e, pc := upd s.pc t .idle }

/-- Initial state (save.py:410-415): all threads idle, `np.empty` contents of
`frame_indices` arbitrary, datasets unwritten. -/
def initSt (junk : Nat → Nat) : St V :=
  { pc := fun _ => .idle, buf := fun _ => [], next := 0, filePos := 0, total := 0,
    data := fun _ => none, idx := fun _ => none, fid := junk }

/-- Run a schedule: a list of thread numbers. -/
def runSched (n : Nat) (ents : Nat → List (Entry V)) (s : St V) (sched : List Nat) : St V :=
  sched.foldl (step n ents) s

/-- The executor has finished (`with ThreadPoolExecutor` exits, save.py:483-487):
all tasks taken and all threads idle. -/
def Finished (n : Nat) (s : St V) : Prop := s.next = n ∧ ∀ t, s.pc t = .idle

/-- `read_list_arrays_method_thread(i)` (framecache.py:373-384), with the datasets
truncated to `total` elements (save.py:491-492): the entries of frame `i`;
unwritten elements read as `dflt`. -/
def readFrame (dflt : Entry V) (s : St V) (i : Nat) : List (Entry V) :=
  (List.range' (s.fid (2*i)) (min (s.fid (2*i+1)) s.total - s.fid (2*i))).map fun x =>
    match s.data x, s.idx x with
    | some v, some (r, c) => ⟨r, c, v⟩
    | _, _ => dflt

/-! ## npz writer (save.py:343-388) -/

/-- Keys of the npz archive. The formatted names `f'{i}_row'` etc. are
represented structurally; any other string is `other`. -/
inductive NKey where
  | row (i : Nat)
  | col (i : Nat)
  | data (i : Nat)
  | shape
  | nframes
  | dtype
  | other (s : String)
deriving DecidableEq

/-- Values stored under the keys. -/
inductive NVal (V : Type) where
  | nats (l : List Nat)
  | vals (l : List V)
  | nat (n : Nat)
  | str (s : String)

/-- The dictionary `arrd` after all frames were extracted and the header was
added (save.py:360-386). Each frame's task writes only its own three keys, so
the dictionary before the metadata does not depend on the schedule; see
`npzStep` for the step-by-step version. -/
def npzBase (n : Nat) (w h : Nat) (ents : Nat → List (Entry V)) : NKey → Option (NVal V)
  | .row i => if i < n then some (.nats ((ents i).map Entry.row)) else none
  | .col i => if i < n then some (.nats ((ents i).map Entry.col)) else none
  | .data i => if i < n then some (.vals ((ents i).map Entry.val)) else none
  | .shape => some (.nats [w, h])
  | .nframes => some (.nat n)
  | .dtype => some (.str "dtype")
  | .other _ => none

/-- `arrd.update(self._process_meta())` (save.py:387): later keys replace. -/
def npzUpdate (d : NKey → Option (NVal V)) (md : List (NKey × NVal V)) : NKey → Option (NVal V) :=
  md.foldl (fun d kv => fun k => if k = kv.1 then some kv.2 else d k) d

/-- `_load_framecache_npz` for frame `i` (framecache.py:326-334): `none` if a key
is missing or has the wrong kind. -/
def npzReadFrame (d : NKey → Option (NVal V)) (i : Nat) : Option (List (Entry V)) :=
  match d (.row i), d (.col i), d (.data i) with
  | some (.nats r), some (.nats c), some (.vals v) =>
    if r.length = v.length ∧ c.length = v.length then
      some ((r.zip (c.zip v)).map fun p => ⟨p.1, p.2.1, p.2.2⟩)
    else none
  | _, _, _ => none

/-- Thread state of the npz writer (save.py:360-373). -/
inductive NPc where
  | idle
  | extracted (i : Nat)
  | wroteRow (i : Nat)
  | wroteCol (i : Nat)
deriving DecidableEq

structure NSt (V : Type) where
  pc : Nat → NPc
  buf : Nat → List (Entry V)
  next : Nat
  arrd : NKey → Option (NVal V)

def updK (f : NKey → Option (NVal V)) (k : NKey) (v : NVal V) : NKey → Option (NVal V) :=
  fun x => if x = k then some v else f x

/-- One step of thread `t` of the npz writer (save.py:360-373): each thread has
its own row of the buffers (`buffer_ids`). -/
def npzStep (n : Nat) (ents : Nat → List (Entry V)) (s : NSt V) (t : Nat) : NSt V :=
  match s.pc t with
  | .idle =>
    if s.next < n then
      { s with pc := fun x => if x = t then .extracted s.next else s.pc x,
               buf := upd s.buf t (ents s.next), next := s.next + 1 }
    else s
  | .extracted i =>
    { s with arrd := updK s.arrd (.row i) (.nats ((s.buf t).map Entry.row)),
             pc := fun x => if x = t then .wroteRow i else s.pc x }
  | .wroteRow i =>
    { s with arrd := updK s.arrd (.col i) (.nats ((s.buf t).map Entry.col)),
             pc := fun x => if x = t then .wroteCol i else s.pc x }
  | .wroteCol i =>
    { s with arrd := updK s.arrd (.data i) (.vals ((s.buf t).map Entry.val)),
             pc := fun x => if x = t then .idle else s.pc x }

def npzInit : NSt V := { pc := fun _ => .idle, buf := fun _ => [], next := 0, arrd := fun _ => none }

def npzRun (n : Nat) (ents : Nat → List (Entry V)) (s : NSt V) (sched : List Nat) : NSt V :=
  sched.foldl (npzStep n ents) s

/-! ## Double-checked locking (framecache.py:232-242) -/

/-- Program counter of a thread in `_load_framelist_if_needed`, then using the
frame list. -/
inductive LPc where
  | start      -- before the first test
  | wait       -- wants the lock
  | locked     -- holds the lock, before the second test
  | loading    -- inside `_load_framelist`
  | loaded     -- `_framelist` assigned, flag not yet set
  | release    -- about to release the lock
  | use        -- past the call: reads `_framelist`
  | failed     -- `_load_framelist` raised
deriving DecidableEq

structure LSt (F : Type) where
  pc : Nat → LPc
  lock : Option Nat
  flag : Bool
  frames : Option F
  loads : Nat

def setPc {F : Type} (s : LSt F) (t : Nat) (p : LPc) : LSt F :=
  { s with pc := fun x => if x = t then p else s.pc x }

/-- One step of thread `t`; `ok` says whether the load succeeds, if this step is
a load. `content` is what the file contains. -/
def lockStep {F : Type} (content : F) (s : LSt F) (ev : Nat × Bool) : LSt F :=
  let t := ev.1
  match s.pc t with
  | .start => if s.flag then setPc s t .use else setPc s t .wait
  | .wait => match s.lock with
    | none => { setPc s t .locked with lock := some t }
    | some _ => s
  | .locked => if s.flag then setPc s t .release else setPc s t .loading
  | .loading =>
    if ev.2 then { setPc s t .loaded with frames := some content, loads := s.loads + 1 }
    else { setPc s t .failed with lock := none }
  | .loaded => { setPc s t .release with flag := true }
  | .release => { setPc s t .use with lock := none }
  | .use => s
  | .failed => s

def lockInit {F : Type} : LSt F :=
  { pc := fun _ => .start, lock := none, flag := false, frames := none, loads := 0 }

def lockRun {F : Type} (content : F) (evs : List (Nat × Bool)) : LSt F :=
  evs.foldl (lockStep content) lockInit

end Hexrd.FrameCache
