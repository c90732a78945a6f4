import Mathlib.Data.Int.Notation
import Mathlib.Data.Nat.Notation

/-!
# Model of the options of the HDF5 writer (`hexrd/core/imageseries/save.py`, `WriteH5`)

The options of the writer are a dictionary from which they are taken out when they are read. The file itself is not modelled here.
-/
namespace Hexrd.H5Opts

/-- The options of the writer that `h5opts` looks at (save.py:126-142, 192-206); an option that was not given is `none`. `C` is the type of
the explicit specifications of compression. -/
structure Opts (C : Type) where
  compression : Option C
  shuffle : Option Bool
  gzip : Option ℤ
  chunkRows : Option ℤ

/-- How the data are compressed (save.py:192-201). -/
inductive Comp (C : Type) where
  | explicit (c : C)
  | gzip (level : ℤ)
  | off
  deriving DecidableEq

/-- What `create_dataset` is called with (save.py:169-171, 187-209). -/
structure DataSet (C : Type) where
  comp : Comp C
  shuffle : Option Bool
  chunks : ℤ × ℤ × ℤ
  deriving DecidableEq

/-- `dflt_gzip` (save.py:149). -/
def dfltGzip : ℤ := 1

/-- `dflt_chrows` (save.py:150). -/
def dfltRows : ℤ := 0

/-- `dflt_shuffle` (save.py:151). -/
def dfltShuffle : Bool := true

/-- The number of rows in a chunk (save.py:204-207). -/
def chunkRows (s0 : ℤ) (o : Option ℤ) : ℤ :=
  let r := o.getD dfltRows
  if r < 1 ∨ r > s0 then s0 else r

/-- `h5opts` (save.py:187-209) for images of the shape `(s0, s1)`: what it gives, and the options that are left. -/
def h5opts {C : Type} (s0 s1 : ℤ) (o : Opts C) : DataSet C × Opts C :=
  match o.compression with
  | some c => (⟨.explicit c, none, (1, chunkRows s0 o.chunkRows, s1)⟩, ⟨none, o.shuffle, o.gzip, none⟩)
  | none =>
    let level := o.gzip.getD dfltGzip
    (⟨if level > 0 then .gzip level else .off, some (o.shuffle.getD dfltShuffle), (1, chunkRows s0 o.chunkRows, s1)⟩,
      ⟨none, none, none, none⟩)

/-- What the writer makes of its options when it writes `n` times (save.py:161-171). -/
def writes {C : Type} (s0 s1 : ℤ) : ℕ → Opts C → List (DataSet C)
  | 0, _ => []
  | n + 1, o => (h5opts s0 s1 o).1 :: writes s0 s1 n (h5opts s0 s1 o).2

end Hexrd.H5Opts
