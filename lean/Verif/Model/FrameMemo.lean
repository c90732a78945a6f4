import Mathlib.Data.List.Basic

/-!
# Model of the shared loading of frame-cache files (`hexrd/core/imageseries/load/framecache.py`)

Processes save and remove files while several image series read them; a read is two steps, so that other events may come between them.
What a file holds, what is known of it from opening it (number of frames, shape and type) and how frames are made of both are parameters:
`C`, `H` and `frames`, which is `none` if an exception is raised.
-/
namespace Hexrd.FrameMemo

variable {P R H C F : Type} [DecidableEq P] [DecidableEq R] [DecidableEq H]

/-- `save` writes a file with a time of modification, `stat` is the begin of a read by an image series that was opened on `path` with
header `h`, `_stat_identity` (framecache.py:182, 291-306), and `load` its end, the memoized call (framecache.py:183-190), taken as one step. -/
inductive Event (P R H C : Type)
  | save (path : P) (time : ℕ) (content : C)
  | remove (path : P)
  | stat (reader : R) (path : P) (h : H)
  | load (reader : R)

/-- The arguments of the memoized function, which are its key (framecache.py:313-321); shape and type belong to `h`. -/
structure Key (P H : Type) where
  path : P
  h : H
  ident : ℕ × ℕ
  deriving DecidableEq

/-- The files with their contents and times of modification, the cache, the reads that have begun and the last result of every reader,
where the inner `none` is an exception. -/
structure State (P R H C F : Type) where
  files : P → Option (C × ℕ)
  cache : List (Key P H × F)
  pending : R → Option (Key P H)
  result : R → Option (Option F)

/-- `_stat_identity` (framecache.py:291-306): time of modification and size, or zeros for a file that is not there. -/
def identity (size : C → ℕ) : Option (C × ℕ) → ℕ × ℕ
  | some (c, t) => (t, size c)
  | none => (0, 0)

/-- The body of `_load_framecache_npz` (framecache.py:323-336): `none` is an exception. -/
def body (frames : H → C → Option F) (files : P → Option (C × ℕ)) (k : Key P H) : Option F :=
  match files k.path with
  | some (c, _) => frames k.h c
  | none => none

/-- `functools.lru_cache(maxsize=2)` (framecache.py:313): the value found or computed and the new cache, most recently used first.
An exception is not stored. -/
def memo (frames : H → C → Option F) (files : P → Option (C × ℕ)) (cache : List (Key P H × F)) (k : Key P H) :
    Option F × List (Key P H × F) :=
  match cache.find? (fun e => decide (e.1 = k)) with
  | some e => (some e.2, e :: cache.filter fun x => !decide (x.1 = k))
  | none =>
    match body frames files k with
    | some f => (some f, ((k, f) :: cache).take 2)
    | none => (none, cache)

/-- One event (framecache.py:169-190, 313-336). -/
def step (size : C → ℕ) (frames : H → C → Option F) (s : State P R H C F) : Event P R H C → State P R H C F
  | .save p t c => { s with files := fun q => if q = p then some (c, t) else s.files q }
  | .remove p => { s with files := fun q => if q = p then none else s.files q }
  | .stat r p h => { s with pending := fun q => if q = r then some ⟨p, h, identity size (s.files p)⟩ else s.pending q }
  | .load r =>
    match s.pending r with
    | none => s
    | some k =>
      let m := memo frames s.files s.cache k
      { s with cache := m.2, pending := fun q => if q = r then none else s.pending q, result := fun q => if q = r then some m.1 else s.result q }

/-- No files, an empty cache and no reads. -/
def initial : State P R H C F := ⟨fun _ => none, [], fun _ => none, fun _ => none⟩

/-- The state after a history of events. -/
def run (size : C → ℕ) (frames : H → C → Option F) (es : List (Event P R H C)) : State P R H C F := es.foldl (step size frames) initial

end Hexrd.FrameMemo
