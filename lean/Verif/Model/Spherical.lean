import Mathlib.Data.Real.Basic

/-!
# Model of spherical views (`hexrd/core/projections/spherical.py`)

A view warps an image by a map that is fitted to pairs of points: pixels of the image and pixels of the projection. The pairs are
modelled; `zproject_sph_angles` is a parameter (it is modelled in `Model/Xrdutil.lean`), the fit and the warp of skimage are not
modelled. The coordinates of an image are functions of the row and of the column.
-/
namespace Hexrd.Spherical

/-- A view (spherical.py:19-36). -/
structure View where
  mapping : String
  vectorType : String
  invertZ : Option Bool
  dim : ℕ

/-- `__init__` (spherical.py:19-36); the attribute `invert_z` is set for two types of vectors only. -/
def mk (mapping vectorType : String) (dim : ℕ) : View :=
  { mapping := mapping, vectorType := vectorType,
    invertZ := if vectorType = "d" then some false else if vectorType = "q" then some true else none, dim := dim }

/-- `mapping.setter` (spherical.py:42-45); `none` is RuntimeError. -/
def setMapping (v : View) (s : String) : Option View := if s ∈ ["stereographic", "equal-area"] then some v else none

/-- `vector_type.setter` (spherical.py:51-54). -/
def setVectorType (v : View) (s : String) : Option View := if s ∈ ["d", "q"] then some v else none

/-- `np.arange(n)[::skip]` (spherical.py:95-96, 172): the multiples of `skip` below `n`. -/
def every (skip n : ℕ) : List ℕ := (List.range n).filter fun i => i % skip = 0

/-- First result of `np.meshgrid(x, y, indexing='ij')`, flat (spherical.py:91, 94-98). -/
def gridIJ₁ {α β : Type} (x : List α) (y : List β) : List α := x.flatMap fun a => y.map fun _ => a

/-- Second result of `np.meshgrid(x, y, indexing='ij')`, flat (spherical.py:91, 94-98). -/
def gridIJ₂ {α β : Type} (x : List α) (y : List β) : List β := x.flatMap fun _ => y

/-- First result of `np.meshgrid(x, y)`, flat (spherical.py:171-172). -/
def gridXY₁ {α β : Type} (x : List α) (y : List β) : List α := y.flatMap fun _ => x

/-- Second result of `np.meshgrid(x, y)`, flat (spherical.py:171-172). -/
def gridXY₂ {α β : Type} (x : List α) (y : List β) : List β := y.flatMap fun b => x.map fun _ => b

/-- `rp` and `cp` (spherical.py:100, 127-128, 186-190): the column and the row in the output image. -/
noncomputable def outPixel (dim : ℕ) (p : ℝ × ℝ) : ℝ × ℝ :=
  (p.1 / (3 / dim) + 1 / 2 * dim, 1 / 2 * dim - p.2 / (3 / dim))

/-- The pairs of points of `warp_polar_image` (spherical.py:166-204), for `nrows` and `ncols`: column and row of the image, and of the
output image. -/
noncomputable def polarPairs (dim skip nrows ncols : ℕ) (tth eta : ℕ → ℝ) (project : ℝ × ℝ → ℝ × ℝ) : List ((ℕ × ℕ) × (ℝ × ℝ)) :=
  let cols := every skip ncols
  let rows := every skip nrows
  let angs := (gridXY₁ (cols.map tth) (rows.map eta)).zip (gridXY₂ (cols.map tth) (rows.map eta))
  ((gridXY₁ cols rows).zip (gridXY₂ cols rows)).zip (angs.map fun a => outPixel dim (project a))

/-- The pairs of points of one map in `warp_eta_ome_map` (spherical.py:80-143): the points that are not on the lower hemisphere are
left out of the projections, and of these only. -/
noncomputable def etaOmePairs (dim skip netas nomes : ℕ) (eta ome : ℕ → ℝ) (project : ℝ × ℝ → Option (ℝ × ℝ)) :
    List ((ℕ × ℕ) × (ℝ × ℝ)) :=
  let etas := (every skip netas).map eta
  let omes := (every skip nomes).map ome
  let angs := (gridIJ₂ omes etas).zip (gridIJ₁ omes etas)
  let oc := gridIJ₁ (every skip netas) (every skip nomes)
  let ec := gridIJ₂ (every skip netas) (every skip nomes)
  (ec.zip oc).zip ((angs.filterMap project).map (outPixel dim))

/-- What `warp_eta_ome_map` returns (spherical.py:105-154): `.inl` is a single image, `none` an exception. -/
def warpMaps {I : Type} (w : ℕ → I) (ids : List ℕ) : Option (I ⊕ List I) :=
  match ids with
  | [] => some (.inr [])
  | [i] => some (.inl (w i))
  | _ :: _ :: _ => none

end Hexrd.Spherical
