/-!
# Model of `memoize` in `hexrd/core/utils/decorators.py`
-/
namespace Hexrd.Memo

/-- Closure variables of one decorated function (decorators.py:42-45):
`entries` is the `OrderedDict` from least to most recently used. -/
structure Cache (K V : Type) where
  entries : List (K × V)
  hits : Nat
  misses : Nat
  maxsize : Nat

/-- The closure right after decoration (decorators.py:42-44). -/
def init {K V : Type} (maxsize : Nat) : Cache K V := ⟨[], 0, 0, maxsize⟩

/-- What a call can do: return, raise the wrapped function's exception, or raise
the `KeyError` of `popitem` on an empty `OrderedDict`. -/
inductive Res (E V : Type) where
  | val (v : V)
  | raised (e : E)
  | keyError
deriving DecidableEq

/-- `while len(cache) >= maxsize: cache.popitem(last=False)` (decorators.py:74-76).
`none` as second component = no exception; otherwise the cache was emptied and
`popitem` raised. -/
def evict {K V : Type} (maxsize : Nat) : List (K × V) → List (K × V) × Bool
  | [] => if 0 ≥ maxsize then ([], false) else ([], true)
  | e :: es => if (e :: es).length ≥ maxsize then evict maxsize es else (e :: es, true)

/-- `cache[key]`. -/
def lookup {K V : Type} [DecidableEq K] (k : K) : List (K × V) → Option V
  | [] => none
  | (k', v) :: es => if k' = k then some v else lookup k es

/-- `cache.move_to_end(key)` for a key that is present with value `v`. -/
def moveToEnd {K V : Type} [DecidableEq K] (k : K) (v : V) (es : List (K × V)) : List (K × V) :=
  es.filter (fun e => decide (e.1 ≠ k)) ++ [(k, v)]

/-- `wrapped(*args, **kwargs)` (decorators.py:66-93). `key` is
`_make_hashable(list(args) + sorted(kwargs.items()))`, `f` the wrapped function,
taken to be a function of its arguments (no side effects). Marking a returned
array read-only (lines 79-83) is not modelled. -/
def call {A K V E : Type} [DecidableEq K] (key : A → K) (f : A → Except E V)
    (c : Cache K V) (a : A) : Cache K V × Res E V :=
  match lookup (key a) c.entries with
  | some v =>
    ({ c with entries := moveToEnd (key a) v c.entries, hits := c.hits + 1 }, .val v)
  | none =>
    let (es, ok) := evict c.maxsize c.entries
    if ok then
      match f a with
      | .ok v => ({ c with entries := es ++ [(key a, v)], misses := c.misses + 1 }, .val v)
      | .error e => ({ c with entries := es }, .raised e)
    else ({ c with entries := es }, .keyError)

/-- `set_cache_maxsize(x)` (decorators.py:54-60): the loop
`while len(cache) > maxsize: popitem(last=False)`. -/
def shrink {K V : Type} (maxsize : Nat) : List (K × V) → List (K × V)
  | [] => []
  | e :: es => if (e :: es).length > maxsize then shrink maxsize es else e :: es

def setMaxsize {K V : Type} (c : Cache K V) (x : Nat) : Cache K V :=
  { c with entries := shrink x c.entries, maxsize := x }

/-- Operations a user can perform on a memoised function. -/
inductive Op (A : Type) where
  | call (a : A)
  | setMax (n : Nat)

/-- Run a history, collecting the outcome of each call together with its
argument (decorators.py:66-93 and 54-60). -/
def run {A K V E : Type} [DecidableEq K] (key : A → K) (f : A → Except E V) :
    Cache K V → List (Op A) → Cache K V × List (A × Res E V)
  | c, [] => (c, [])
  | c, .call a :: ops =>
    let r := call key f c a
    let rest := run key f r.1 ops
    (rest.1, (a, r.2) :: rest.2)
  | c, .setMax n :: ops => run key f (setMaxsize c n) ops

/-! ## The key -/

/-- Argument values, as far as `_make_hashable` distinguishes them. Numbers are
integers; `True == 1 == 1.0` and other cross-type equalities are not modelled. -/
inductive PyVal where
  | int (n : Int)
  | str (s : String)
  | arr (dtype : String) (shape : List Nat) (bytes : List UInt8)
  | list (xs : List PyVal)
  | tup (xs : List PyVal)

/-- Hashable keys: atoms and tuples. -/
inductive Key where
  | int (n : Int)
  | str (s : String)
  | digest (d : List UInt8)
  | tup (xs : List Key)

/-- `_make_hashable` (decorators.py:103-122). The xxh3-128 hex digest of the
bytes is modelled as the bytes themselves (no hash collisions), so every
collision proved here is one of the key construction, not of the hash. A
dictionary is handled by the code as the sorted list of its items and is
represented here by that list of pairs. -/
def convert : PyVal → Key
  | .int n => .int n
  | .str s => .str s
  | .arr _ shape bytes =>
    .tup [.str "__type_np.ndarray", .tup (shape.map fun n : Nat => Key.int (Int.ofNat n)), .digest bytes]
  | .list xs => .tup (convertAll xs)
  | .tup xs => .tup (convertAll xs)
where
  convertAll : List PyVal → List Key
  | [] => []
  | x :: xs => convert x :: convertAll xs

/-- A call's arguments: positional, and keyword arguments sorted by name. -/
structure Args where
  pos : List PyVal
  kw : List (String × PyVal)

/-- `_make_hashable(list(args) + sorted(kwargs.items()))` (decorators.py:70-71);
`kw` is taken to be sorted already. -/
def keyOf (a : Args) : Key :=
  .tup (convert.convertAll (a.pos ++ a.kw.map fun p => .tup [.str p.1, p.2]))

end Hexrd.Memo
