import Verif.Model.H5Opts

/-!
# What the options of the HDF5 writer mean

From the description of the class: `gzip` is 0 to 9, 0 turns compression off, 1 is used if it is not given; `chunk_rows` is the number of
rows in a chunk, all if it is not given; an explicit compression is used as it is and overrides `gzip` and `shuffle`.
-/
namespace Hexrd.H5Opts.Spec

/-- A request for the rows of a chunk that can be met. -/
def Possible (s0 : ℤ) (r : ℤ) : Prop := 1 ≤ r ∧ r ≤ s0

/-- What the data set should be made with. -/
structure Means {C : Type} (s0 s1 : ℤ) (o : Opts C) (d : DataSet C) : Prop where
  explicit : ∀ c, o.compression = some c → d.comp = .explicit c ∧ d.shuffle = none
  level : ∀ g, o.compression = none → o.gzip = some g → 0 < g → d.comp = .gzip g
  off : o.compression = none → o.gzip = some 0 → d.comp = .off
  default : o.compression = none → o.gzip = none → d.comp = .gzip 1
  shuffle : ∀ b, o.compression = none → o.shuffle = some b → d.shuffle = some b
  shuffled : o.compression = none → o.shuffle = none → d.shuffle = some true
  rows : ∀ r, o.chunkRows = some r → Possible s0 r → d.chunks = (1, r, s1)
  allRows : (∀ r, o.chunkRows = some r → ¬ Possible s0 r) → d.chunks = (1, s0, s1)

end Hexrd.H5Opts.Spec
