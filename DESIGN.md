# Formal model of HEXRD/hexrd in Lean 4

## Layout

- `properties.jsonl` – the English properties (C01, C02, ...).
- `lean/Verif/Model/*.lean` – the model: executable (or, for real arithmetic,
  noncomputable) definitions. Every definition cites the file and lines it
  models and states each simplification.
- `lean/Verif/Lemmas/*.lean` – helper lemmas.
- `lean/Verif/Spec/*.lean` – specifications that theorems of several files use.
- `lean/Verif/Props/*.lean` – the property theorems, with the small
  specification definitions they are stated with, and an `example` beside each
  that shows that a concrete case meets the hypotheses.
- `MANIFEST.json` – property → theorem names and status.
- `seeded/LOG.jsonl` – log of seeded-bug experiments.

## Trusted base

- Lean 4.33.0's kernel. No axioms beyond `propext`, `Classical.choice` and
  `Quot.sound`. No `sorry`, `native_decide` or `bv_decide`.
- `decide +kernel` is used only on *complete* finite tables (for example, all
  230 space groups), where kernel evaluation is the proof.
- The correspondence between the Python/C/C++ source and the model is by
  inspection: it is not checked by a machine. Each definition cites its lines.

## Modelling conventions

- Python integers are `Int`/`Nat`; numpy unsigned pixels are `Nat` modulo
  `2^w` (or an arbitrary ordered type where wrap-around cannot occur).
- Floating point numbers are modelled as exact real or rational numbers.
  Rounding error is not modelled; comparisons with a tolerance are modelled
  with the tolerance as a parameter, or as exact equality where stated.
- NumPy arrays are lists or functions on index ranges; exceptions are
  `Except`/`Option` values.
- Threads are step machines with an arbitrary schedule.
- SciPy's rotation conversions used in calibration enter as a parameter
  (`RotLib`) with the law that the returned vector or angles describe the
  given rotation (`RotLib.Lawful`); `exists_lawful` shows that such
  conversions exist, so no theorem about them is vacuous.
- File formats (npz, HDF5, YAML) are modelled as finite maps, the codec
  libraries themselves are not modelled.

## Plan per property

- **C01** Task distribution is a partition into balanced contiguous chunks — Lists of (start,stop) over Nat, function by function; induction on the list of chunks.
- **C02** Memoised functions return what the undecorated function returns, within the cache bound — State machine: ordered association list + counters, parametric in key function and pure wrapped function; invariant by induction over call histories. Key collisions: model of the argument language and `_make_hashable`; negation witnesses.
- **C03** Chunked image statistics end with the full-series statistic — Chunk stops over Nat (np.linspace+astype modelled exactly as floor of rational), accumulate loop as a list transducer; induction on frames.
- **C04** Percentile by blocks equals percentile of the whole stack — Row blocks as list splits, statistic per pixel an arbitrary function; blocks concatenation lemma.
- **C05** Frame-cache files reproduce the thresholded images under every writer schedule — COO sparse extraction and reconstruction as functions on pixel functions; fch5 as a step machine (reserve under lock / write slice) with an arbitrary schedule; invariant by induction over steps.
- **C06** Metadata written to a frame cache never alters the image data — Dictionary update model; expected false, negation with a metadata key equal to a reserved one; partial: metadata keys disjoint from reserved.
- **C07** Lazy frame-cache loading happens exactly once under concurrency — Step machine of threads with program counters and a lock; invariant by induction over steps.
- **C08** Image-file series index frames by a bijection onto (file, frame) pairs — Lists of Nat frame counts; cumulative sums; bijection by induction over files.
- **C09** Raw image frames are disjoint byte ranges that exhaust the file — Nat arithmetic for byte ranges.
- **C10** Omega wedges partition the frames and reproduce the omega ranges — Omega array as list of pairs over a linearly ordered field (rationals / integers in a fixed unit, exact arithmetic in place of isclose); recursion over frames.
- **C11** Omega lookup returns the frame that contains the angle — Same model; modular arithmetic over Int/Rat.
- **C12** Image flips are symmetries of the rectangle — Images as functions Nat x Nat with shape; flips as index maps; dihedral laws for all shapes.
- **C13** Region-of-interest processing gives the same pixels whichever path is taken — Process pipeline over images as functions; fast path = generic path.
- **C14** Dark subtraction never wraps around — Unsigned pixels as BitVec/Nat mod 2^w; expected false in one branch: negation + partial.
- **C15** Reflection exclusions set by the user are the ones applied — Permutations of Fin n as functions; setters/getters; negation with a 3-cycle, partial for involutions, full statement for the mask setter/getter.
- **C16** Limit-based exclusion keeps exactly the reflections within all limits — Boolean filters over a linear order.
- **C17** Merged two-theta ranges group overlapping rings exactly once — Recursive scan over sorted list of ranges; induction.
- **C18** Generated space-group operators form a group for all 230 space groups — Integer 3x3 matrices with translations in 1/24; the generation loop modelled with fuel; all 230 x settings checked by the kernel (`decide +kernel` on the complete finite table) plus general lemmas that lift the boolean check to the Prop statement.
- **C19** Allowed reflections agree with the space group's operators — For all (h,k,l) in Z^3: rules as linear congruences; comparison with the operators; per group proof by reduction to finitely many residue/sign classes, or negation with witness where the tables disagree.
- **C20** Space-group number tables are total and mutually consistent — Tables copied; complete finite check over 1..230, plus rejection outside for all integers.
- **C21** Reflections generated within dmin are complete — Index limits, candidates, absence filter, family choice and sort of getHKLs over the reals; the limits cover orthogonal cells directly and hexagonal ones up to a threefold rotation; extinction and length are the same for equivalent reflections.
- **C22** Sum-of-squares reflection enumeration is exact — Nested loops over lists; Nat.sqrt.
- **C23** One representative per symmetry-equivalent reflection family — Mask loop as the list of cleared rows, invariant over the loop: cleared exactly if a different equivalent row was kept.
- **C24** Exclusions survive changes of the reflection list — PlaneData of any length in a structure; the mapping by equal reflections; invariants over histories of list changes.
- **C25** Reduced lattice parameters determine the full set and back — Case analysis per crystal system over an arbitrary type of values.
- **C26** Miller index conversions are inverse to each other — Rationals for index conversions, reals for lattice parameters; identities by ring, signs of np.mod.
- **C27** Direct and reciprocal cell matrices are dual — Matrices over reals built from a,b,c and cos/sin; algebraic identities under sin^2+cos^2=1 and volume non-zero.
- **C28** Atom orbits list each equivalent position once — Positions over the reals, modf by floor and ceiling; loop invariant of the collecting loop; images mod the lattice; closure from C18.
- **C29** Stiffness matrices are symmetric, obey the Laue class and survive storage — Index tuples, constraint functions and lower fill as written; invariance of the energy form by the 6x6 action of rotations, polynomial identities in 21 unknowns over the reals.
- **C30** Unit conversions are reciprocal and composable — The table as a function on unit names, reals with pi; against a specification by SI sizes.
- **C31** Angle mapping lands in the range and stays congruent — np.mod by the floor; interval from the minimum and maximum of the range list.
- **C32** Angular difference is the distance on the circle — Minimum over all integers as specification; both versions against it.
- **C33** Quaternions and rotation matrices agree — Quaternions as structures over the reals, product matrices and rotation matrix entry by entry; polynomial identities.
- **C34** Reduction to the fundamental region — argmax over the list of products; specification by equivalence under a rotation group.
- **C35** Laue symmetry quaternions form groups of the right order — The angle and axis tables as real numbers; compared with tables of double components in Z[sqrt 2] and Z[sqrt 3], where closure is decided in the kernel over the complete tables.
- **C36** Symmetric-tensor vectorisations are isometric round trips — 3x3 matrices of reals, entry by entry.
- **C37** Duplicate-vector detection keeps one of each cluster — The double loop over column numbers with a master list; uniqueVectors by label loops over the permutations of argsort and lexsort.
- **C38** Grid connectivity covers the grid — Node numbers as natural numbers, the three loops as nested lists.
- **C39** Cell areas are polygon areas — Points as pairs of reals; the triangle sum compared with the shoelace sum by induction on the vertices.
- **C40** Polygon clipping stays inside both polygons — The two loops with the previous-vertex variables as state; vertices characterised by the sides that emit them; exactness by following the result's sides round the polygon.
- **C41** Tolerance grids are symmetric and uniform — Floor and ceiling over the reals.
- **C42** Bin lookup returns the bin containing the point — Floor and ceiling over the reals, with the shift by the tolerance.
- **C43** Nested dictionaries survive HDF5 storage — Nested dictionaries as an inductive type and, for the effect on the caller, a heap of dictionaries emptied by popitem; induction over nesting and over the run.
- **C44** NumPy data survive JSON encoding — raw-unicode-escape decoding and encoding on byte lists; induction over the list.
- **C45** Parallel execution returns results in argument order — Labelled transition system of caller, queue of size one, workers and unbounded result queue; an invariant that each argument is in exactly one place, a measure for termination, and progress.
- **C46** Panel buffers mask exactly the border — NumPy slices with integer bounds; comparison with clipping at points inside pixels.
- **C47** Angle-range validation accepts exactly the angles in a range — Model/Transforms `inRange`, `validateAngleRanges` (with the two `while` loops as well-founded recursions). Spec: arcs on the circle. Proved for all ranges whose ends differ; two refutations with witnesses.
- **C48** Diffraction geometry obeys the law of reflection and round-trips — Model/Transforms `anglesToGvec`, `anglesToDvec`, `gvecToXY`, `xyToGvec` over the reals. Spec: mirror law, a ray meeting a plane. Linear algebra with rotation matrices.
- **C49** Predicted oscillation angles satisfy the Bragg condition — Model/Transforms `oscillAngles`. Spec: Ewald's construction. The harmonic equation is solved completely.
- **C50** Frame matrices are proper rotations — Model/Transforms `sampleRmat`, `detectorRmat`, `beamRmat`, `eigenBeamFrame`, `expmapRmat`, `binaryRmat`, `rotateVec`. Spec: orthogonal of determinant one, products of elementary rotations.
- **C51** Misorientation distance is a symmetric, symmetry-invariant quantity — The C loop as a fold; specification by the smallest arccos over the group; triangle inequality from the addition theorem.
- **C52** Instrument parameters survive the fit-parameter round trip — Parameters as a list of named values; names as character lists; round trip through create/update proved by showing which names the substring search for distortion parameters finds. Rotation conversions of SciPy enter through `RotLib`, whose law `Lawful` is shown to be satisfiable.
- **C53** Constrained detector motion is rigid — Induction over the history of updates; each update multiplies all poses by one rotation and adds one shift.
- **C54** Colliding parameter names are made unique — Induction over the list of names; the numbering search ends because numbered names are different.
- **C55** Engineering constraints hold after they are applied — Case analysis over the reals.
- **C56** Background estimation never exceeds the signal — Rows as functions on positions with masks; the background is a pointwise minimum; scaling and unscaling are monotone and inverse to each other.
- **C57** Inserted rows and columns are blank and shift the rest — Images as functions with shape; index arithmetic for np.insert.
- **C58** Symmetry operators in reciprocal and Cartesian space — Operators conjugated by the cell matrices over the reals; invariance of the metric under the point group from C25; monoclinic groups reduced to four diagonal rotations.
- **C59** Removal of duplicate atoms — The loop over kept atoms with its early exits as a recursive decision; induction over the list of atoms.
- **C60** Misorientation angle agrees with the orientation distance — Product matrices reduce misorientation to the same maximum as the C loop.
- **C61** Symmetric equivalents of a vector — applySym on top of the rotation matrices (C33) and the duplicate search (C37).
- **C62** Pixel and Cartesian coordinates are inverse — The formulas over the reals; floor, and round half to even.
- **C63** Clipping keeps exactly the points on the panel — The Boolean conditions over the reals; filter.
- **C64** Nearest-neighbour interpolation takes the value of the pixel hit — `cellIndices` on the pixel centres, negative indices as NumPy wraps them.
- **C65** Bilinear interpolation is the bilinear interpolant — `cellIndices` on the pixel centres, clamped indices; one lemma per direction that covers interior, borders and the shift by the tolerance.
- **C66** Planar-detector conversions between angles, points and directions agree — Model/Transforms `anglesToCart`, `cartToDvec`, `beamPosition`; reuses C48.
- **C67** A constrained fit is a function of its parameters — Two consecutive updates are shown to be equal to the second one alone; induction over the history; witnesses for the other centers.
- **C68** Distortion maps invert each other — Each model is one function on points; case analysis on the quadrants, linear algebra, trigonometric solution of the cubic.
- **C69** Material lattice parameters survive the fit-parameter round trip — Look-up of names in an arbitrary list of other parameters.
- **C70** Eta and omega ranges select exactly the angles they contain — Model: `_normalize_ranges` with its comparison of unsorted arrays and NumPy broadcasting, `_find_in_range` as a loop, `_map_angle`. Proof: the loop counts the entries not above the value; in a sorted list of pairs the count is odd inside a pair; for ranges disjoint on the circle only the last sorted pair can wrap.
- **C71** Completeness is the fraction of predicted reflections that are seen — Model: the nested loops as a scan of a list of pixels, the filters in their order, the loop over all reflections with its moving family index. Proof: membership in the window, induction over families.
- **C72** Scores do not depend on multiprocessing — Model: CPython `Pool.map` with a chunk size, results written batch by batch in any order. Proof: invariant over the batches that have come back.
- **C73** Cylindrical detector projection and angles — Model `Cylinder`: the sheet, the ray/cylinder intersection, clipping and unrolling, the angles of a direction. Spec: a flat sheet bent to an arc, rays from a point. Proved by solving the quadratic and showing uniqueness of the forward root, then round trips.
- **C74** Polar view of an instrument — Model `Polar`: grid, extent, projection per detector, coordinate mapping, in-place interpolation, NaN mask, cache, binning. Proved by fold invariants over the detectors and the indices; projections reduce to C48 (planar) and C73 (cylindrical).
- **C75** Peak functions have the height, centre and widths of their parameters — Parameter vectors are functions from indices to reals; each peak function is written out term by term. A pseudo-Voigt is rewritten as a decreasing function of the squared scaled offset, which is one half at one; the shape follows. The ellipse follows by taking logarithms.
- **C76** Analytic derivatives of the peak functions are exact — `HasDerivAt` of the function with one parameter replaced, for each of the five indices.
- **C77** A multi-peak model is the sum of its peaks and its background — Induction over the list of peaks shows that the slices of the concatenated vector are the single parameter vectors.
- **C78** Initial guesses of peak fits are admissible starts — `argmin`/`argmax` are the first extremal positions; guesses and bounds are lists written out per peak type; the background line is an argument. Feasibility is decided entry by entry and lifted to lists of peaks by induction.
- **C79** Residuals of bounded fits vanish exactly at admissible exact fits — Induction over the data and parameter lists.
- **C80** Value of a spectrum model is the sum of its peaks and background — Pointwise equality of the peak functions; Chebyshev polynomials via cosines; induction over the parameter list of the peaks.
- **C81** Constraints keep the peaks of a spectrum apart — Parameters are an ordered set of names with value, bounds, flag and expression; an assignment is admissible if it respects each. Induction over the loop that adds the separations.
- **C82** A fitted ring is accepted as a whole, and only within its limits — Case distinction on the two tests over the lists of fitted values; NaN is the absent value.
- **C83** Angular filter of a simulated series — Model `_filter_hkls_eta_ome` with the direction flag as loop state and the masks as list selections. Prove by induction on the ranges that the flag is right when increasing ranges come first, reduce the ranges to C47, and show that the four lists are images of one list of entries; refute the general order with a witness.
- **C84** Simulated spots are the diffraction spots — Model the body of the loop over grains: two triplets per reflection (C49), filter, period map (C31), projection (C48), clipping (C63). Prove that an entry is a spot in Ewald's sense, and that every spot is an entry, from the exactness of the omegas, the uniqueness of polar angles and the completeness of the projection.
- **C85** When a simulation fails, and the energy correction — Expand the harmonic coefficients: the assertion of the C code fails exactly when both vanish, which is the constancy of the component along the beam. The correction is algebra on E = c / lambda.
- **C86** Angular pixel sizes are the largest differences along the sides of the pixel — Model `_expand_pixels`, `_compute_max` and `angularPixelSize` for one point on top of the model of `xy_to_gvec`. Prove that the pair is the greatest two-theta difference and the greatest circle distance over the four sides, for any polar angles of the corner directions in the beam frame. The detector method is a call with the two pixel sizes exchanged: proved for square pixels, refuted by a witness for others.
- **C87** Sphere projections are the stereographic and the equal-area projection — Model the selection of the source, the change of basis, the inversion, the mask and the two projections. Stereographic projection: line through the pole, existence and uniqueness of the preimage, disk. Equal-area: azimuth kept, squared radius twice the height, injectivity. Closed forms for diffraction angles.
- **C88** Angular patches tile the tolerance about a reflection — Model the tolerance grids, the mesh of vertices, the cell connectivity and centroids, and the index edges. Closed forms of vertices and centres from those of the grids (C38, C39, C42). Not modelled: the projection of the patch to the detector (C48) and distortion.
- **C89** Later documents of a configuration file inherit from earlier ones, setting by setting — `Model/Config`: documents as trees of sections, `_merge_dicts` and `open` as written. `Spec/Config`: value at a path, a document silent about a path. Induction on the path over a one-level description of the merge; the failure case by induction on the size of the document.
- **C90** Saving configurations and opening the file again gives the same configurations — The merge of a configuration with what it was merged from changes nothing (`merge_absorb`), by induction on the path, for the previous configuration up to the order of keys; then induction on the documents.
- **C91** A setting that was set is found again, and setting it changes no other setting — `get` and `set` as written, with the throw-away dictionary of a missing section. Induction on the path.
- **C92** The number of processes is between one and the number of processors — All branches of getter and setter over the number of processors.
- **C93** The azimuth mask and the fiber step of the orientation search mean what they say — Ranges against the distance from 90 + 180k degrees for every k; floor of 360/step.
- **C94** Transmission corrections follow the law of absorption along the path of the beam — `Model/Transmission`: one pixel, from the secants of the entry and exit angles. `Spec/Transmission`: the mean over the scattering depth and the phosphor signal as integrals. Fundamental theorem of calculus; bounds from 1 + x < exp x; monotonicity of the integral for the disagreement.
- **C95** The effective pinhole area is the overlap of the two faces of the pinhole — Area of the lens as an integral of the chord, evaluated with the derivative of arccos.
- **C96** Compton energies, polarization and Lorentz factors are the physical ones — Closed formulas against the direction of the diffracted beam and the Compton shift.
- **C97** Absorption lengths of compounds follow the mixture rule, and layer standoffs add up — Interpolation in the logarithms as a recursion over the table; mass fractions as weights of a mean; standoff by unfolding the range.
- **C98** Orientation fibres contain the orientations they should — `Model/Fiber.lean` models `discreteFiber`; `Props/Fiber.lean` proves by quaternion algebra that each column carries the direction, and by rounding the angle that the fibre is pi/ndiv-dense, also up to symmetry.
- **C99** Eta-omega maps hold each frame in its own omega bin — `Model/EtaOme.lean` models the panel sum, the omega grid, the frame mask and the placement of rows, on top of the omega model (C06). `Props/EtaOme.lean`: induction over wedges and bins.
- **C100** Cleaning and filtering of eta-omega maps — `Model/EtaOme.lean` models the median, cleaning, filtering and loading of maps; `Props/EtaOme.lean` proves the pixelwise effect and the invariances. The Gauss-Laplace filter is an argument.
- **C101** Choice of reflections for the eta-omega maps — `selectHkls` in `Model/EtaOme.lean`; `select_spec` characterises exactly when a list is accepted.
- **C102** Clusters of orientations — `Model/Cluster.lean` models `run_cluster` with the clustering libraries and the average as arguments. `Props/Cluster.lean` relates the result to the groups of equal labels.
- **C103** Every pulled spot is a real connected spot inside its search window, and every predicted reflection is reported once — Model the loop over patches with the labelled groups of lit voxels as sets; prove by induction over patches and panels that ids count the found spots and that each found spot is a component (Spec: reflexive-transitive closure of touching). Witnesses for the biased centre and the narrow window.
- **C104** Completeness is the fraction of the predicted reflections that were found, and the fit gets exactly the usable spots — Model both functions on lists of spots; prove equality with a specification by filters and counts; the omega criterion is the distance on the circle. Witnesses for overlap tables, negative steps and saturated spots in the count.
- **C105** The refinement of a grain stops with infinite chi squared exactly when too few spots are found, and otherwise reports the last fit — Model the loop over tolerances with search, solver and chi squared as arguments; an inductive relation `Rounds` is the specification; induction over the list of tolerances.
- **C106** Fitting all grains gives each grain the fit of its own parameters, however the work is shared out — Model a process as a fold of tasks over its own table with in-place update, a pool as a schedule; invariant: rows of tasks not yet done are the original ones. Witnesses for subsets.
- **C107** Calculated omegas are matched with the nearest solution, and chi squared is zero exactly for a perfect fit — Model the choice with the angular difference of the code; nearest means circle distance. Witness: series 0..360 degrees without a period.
- **C108** The fundamental-zone test accepts exactly the orientations of least rotation angle — Model the type and order tables, the cyclic, dihedral and cubic tests on axis and tangent (half turns as `none`). Specification: no equivalent quaternion has a larger absolute scalar part. Proof: one condition per symmetry operation from the tables of C35, compared with the faces of the test; coverage from C34.
- **C109** The orientation sample is the set of grid points in the zone, whatever the schedule — Model the index of a cell, one step of the triple loop, the conversions ax2ro, ro2ax, ax2qu, cu2ho with its pyramids, ho2ax with the fit as a parameter. Proof: the index is injective on the grid, steps on different cells commute, induction over the schedule; the identity |Lambda|² = (pref z)² and bounds on the cosine for the cube.
- **C110** Volume and pressure of the equation of state are inverse, and the lattice parameters follow — Model vt, kt, ktp, the pressure, the polynomial, the mask and the maximum as a relation between pressure and volume, and the lattice parameters. Specification: the third-order Birch–Murnaghan pressure. Proof: substitute x³ = vt/V, strict monotonicity for K' ≥ 4, intermediate value theorem.
- **C111** The variants of a phase transformation are complete, distinct and as many as expected — Model the frames, the greedy loop with its tolerance, the counter of common symmetries and removeinversion. Specification: finite groups of orthogonal matrices, variants equal up to a symmetry of the child. Proof: invariant of the loop, every class has as many elements as the common subgroup (bijection), double counting.
- **C112** A JCPDS card gives the cell that it states, and a material takes it over exactly — Model both readers on split lines, the completion by symmetry, the volume formula, the comparison and the write. Specification: restrictions of the crystal systems, last value of a keyword. Proof: case analysis over the symmetries, induction over the lines, determinant of the metric tensor.
- **C113** Structure factors obey the symmetry of the crystal — `Model/StructFac.lean`: form factor, displacement factor, phase and structure factor of xtal.py as complex numbers; the sums are lists. A symmetry of the arrangement (`Keeps`) multiplies the sum of phases by a phase factor, from which absences and equivalences follow; the orbits of C28 satisfy it because an operator of the group permutes them.
- **C114** Each reflection in the window gets its own intensity — `Model/Rietveld.lean`: angles, selection of the range, Lorentz and polarization factor, product of the truncated arrays. Specification: Bragg's law and the intensity of a reflection. The list in decreasing spacing splits into below, inside and beyond, by induction.
- **C115** Extinction and absorption are attenuations — `Model/Rietveld.lean`: the closed formulas. Monotonicity by factoring differences of the polynomials; the mean transmission as an integral from C94's specification.
- **C116** Anisotropic broadening respects the symmetry of the crystal — `Model/Stephens.lean`: the fifteen-term form, the table of parameters and constraints, the filling. Invariance for the rotations of the generators of each lattice type by ring, for the point group by induction over products (generators from C18), for the Laue group by evenness; completeness by evaluating the invariance at points.
- **C117** Lines of the powder pattern are peaks of unit area — `Model/PowderPeak.lean`: widths, profile, split profiles, slit functions, sum over reflections, trapezoid. The profile is rewritten as a pseudo-Voigt of C75 with another mixing; areas by the Gaussian and arctangent integrals of Mathlib with bounds on log 2 and pi; slit angles by the inverse cosine.
- **C118** The extraction of intensities shares out the measured pattern — `Model/LeBail.lean`: trapezoid, simulated pattern, shares, residuals, loop. Sums are exchanged by linearity of the trapezoid; the residual by cases on its two guards; the loop by induction on the cycles left.
- **C119** Masked powder patterns are taken apart and put together without loss — `Model/LeBail.lean`: changes of the mask, pairs, slices, assignment to slices. Induction over the mask for both values of the previous point, giving the covered points and the maximality of the runs; the assignments by an invariant of the fold.
- **C120** Operations on powder patterns keep or combine the measured points — `Model/Pattern.lean`: points, scaling, offset, two background attributes, interpolation, overlap, arange, bins. Interpolation by induction on the points with uniqueness at the knots; bins by rounding to the nearest multiple and its monotonicity, with the two halves meeting at the edge; totals by exchanging sums over a partition.
- **C121** Default refinement parameters and a material are the same information — `Model/Params.lean`: all entries in order, adding with clipping and replacement, reading back. Names are unique because the key can be read off the name; the number of an atom is determined by its count. Induction over phases and entries.
- **C122** Amorphous and thermal diffuse signals have the shape and scale they are given — `Model/Diffuse.lean`: interpolation with shift, peaks, parameters, contributions of the rings, bracket, loop over elements. The logarithm of the code is the integral over the cosine of the strength of the zone, by the fundamental theorem of calculus on the part of the sphere inside the zone; the bracket by 1 + x ≤ exp x.
- **C123** Densities and scattering factors depend on a composition only through its proportions — `Model/Composition.lean`: folds over the dictionary. Specification: means over the atoms of a formula, the tabulated Gaussians. Sums by linearity; the comparison of the exponentials by s² < s for 0 < s < 1.
- **C124** The harmonic texture model has the symmetry of the crystal and of the sample — `sph_harm_y` is modelled by Rodrigues' formula with Mathlib polynomials; on a unit vector a harmonic is a polynomial in `x + i y` and `z`, so a rotation about z by the fold multiplies it by a root of unity and half a turn conjugates it. The rotations are those of `quatOfLaueGroup` (C35), classified with its exact tables; families are chains of rotations and inversions. The cubic tables are generated from the source; degree 4 is compared through `x⁴ + y⁴ + z⁴`.
- **C125** The March-Dollase factor is the family mean of a normalised function of the angle to the axis — `Model/MarchDollase.lean` has the setters, the constructor, the factors and the parameter functions as a state machine over an abstract phase (cell, reciprocal operators, reflections). The angle is tied to Cartesian vectors by `rsm0`; family mean by `star_spec`; bounds by monotonicity of the power; the integral by an explicit antiderivative; histories by induction over calls. `spacegroup_operators` shows that every space group meets the hypotheses.
- **C126** Pole figure data keeps directions, weights and order, and the fit minimises the relative squared deviation — `Model/PoleFigure.lean` has the data setter row by row (in place on the caller's arrays), weights, residual with NaN as `none`, projection, densest grid, and the dictionary `sph_c_rings` as a map filled only for unknown keys. Angles by `sin_angles`/`cos_angles` of C124; lists by induction; the kept harmonics by induction over calculations.
- **C127** A texture component is a normalised, symmetric bell around its modes — Model of kernels.py and unimodal_odf.py on real 3x3 matrices with the quaternion groups of C34/C35; the Beta function is its integral. Mean 1 by the substitution t = sin^2(w/2); invariance by permuting the group; the fast path by doubling the rotation of largest angle.
- **C128** Batches, texture index and norm of an ODF agree with its values — Chunks as slices of a list, flattened back to the list by induction; the index bounds are Cauchy-Schwarz for sums and for the integral over the angle.
- **C129** A simulated Laue pattern holds exactly the reflections that diffract onto the detector — Model `Model/LaueSim`: the sign filter of plane data, the stretched and normalised reciprocal vectors, the projection (Model/Transforms), the filters on panel and energy and the output rows with their NaN padding. Specification `Spec/LaueSim`: Laue's equation, the reciprocal vector in the laboratory frame, photon energy and wavelength. Props/LaueSim, Props/LaueResidual.
- **C130** The residual of the Laue calibration compares each pick with the predicted point of its own reflection — Model `Model/LaueSim`: `_evaluate`, the objective scene (sample rotation and stage translation left at their defaults, widened window), removal of NaN predictions, NumPy subtraction with broadcasting. Props/LaueResidual.
- **C131** Calibration picks survive being stored in a calibrator — Model `Model/Picks`: characters, `str.split`, `int`, `str(list)` with the brackets removed, ordered dictionaries, both setters and getters, the eight-column rows. Proofs by induction on numerals, words and dictionaries (`Lemmas/Picks`), `Props/Picks`.
- **C132** The parameters of several calibrators neither collide nor leak — Model `Model/GrainCalib`: the grain parameter names and values, creation with renaming, reading back, forcing and fixing, and the loop over calibrators. By induction on the list of calibrators: the names are those of the instrument followed by each calibrator's own, all distinct; hence every look-up finds the intended parameter. Fixing is shown to be one pass over the parameters.
- **C133** Powder calibration residuals measure the deviation from Bragg's law — Models `Model/PowderCalib`: both residual loops, the ring angle from the lattice, the ring parameters and their names. Bragg's law is stated with the spacing and the sine of half the angle; angles of picks are those of C65/C66 (`AnglesOf`, direction in the beam frame). Names: the last underscore separates prefix and number. Means and sums by induction on picks.
- **C134** The residual of a grain is zero exactly at the grains that explain the spots — Model of the two objective functions down to the C routines already modelled (C48, C49) and the choice of omega (C107). `IsSpot` states Ewald's condition and the intersection with the detector in the laboratory, without angles or mirror images. Soundness (a predicted place is a spot) and completeness (a spot is predicted where it is) give the equivalence row by row, then for the stacked lists. For the calibration: two unit rays from one point to the same place are equal and the mirror image is injective, so with another beam the two predictions never agree.
- **C135** Colours of inverse pole figures convert there and back — Model/ColorSpace follows both conversions, with the array the caller is left with. Spec/ColorSpace describes the colour of a hue as a point on the edge of the hexagon of six corners, without case distinctions on the hue in the code's form. The proof shows that a hue has one pure colour, a pure colour one hue up to full turns, and that each conversion produces the colour of the specification; the round trips follow from uniqueness.
- **C136** Operators generated for a point group — Model/Ipf `generatePG` (with the loop of Model/SpaceGroup). Closure is checked by the kernel for products with a generator on the left only; induction over products of generators (Props/PointGroups) gives all products and inverses. The list without repetition and inside the products of the generators is `outer_spec` of Lemmas/SGClosure.
- **C137** Reduction of directions to the sector of a supergroup — Model/Ipf `reduce`, `inside`, `sector`, `superSyms`. An invariant of the loop (what is left, what is done, with which index) gives that the result is the first image in the sector, row by row (Props/Reduce). Lemmas/IpfOps: the Cartesian operators of right-angled and hexagonal cells. Lemmas/IpfSector: the determinants of the four sectors as linear conditions; completeness by reflections in the walls, uniqueness by enumeration of the operators with linear arithmetic.
- **C138** Colours of directions in inverse pole figures — Model/Ipf `getColor`, `hue`, `rho`, `theta`, `pointOnBoundary`, `filletRegion`, `colorDirections`. Props/IpfColor: the trapezoidal sum over 999 steps is monotone in its upper end (derivative of the sum, with a Lipschitz bound of the speed), so hues are in [0, 1]. Lemmas/IpfTriangle: a spherical triangle without obtuse angles; the foot of a direction on the nearest edge lies between the two vertices and farther from the centre than the direction. Lemmas/IpfRegion: one of the three fillets is always found; azimuth in [0, 2π], polar angle in [0, π/2]; the four sectors are such triangles. With C135 and C137: no array is refused, and equivalent directions have equal colours.
- **C139** The near-field confidence matrix does not depend on how the work is divided — Work division of `test_orientations` (chunks, processes in any completion order, MPI shares, gather) as writes of columns into a matrix with arbitrary old content; proved equal to the matrix of confidences by an invariant over any permutation of the chunks.
- **C140** The near-field confidence is the fraction of the visible reflections that light up — `_quant_and_clip_confidence`, dilation and drawing over stacks of bits; the confidence is proved equal to a fraction given by a separate specification of visible and lit spots.
- **C141** The test grid covers the volume with one voxel for each place — `np.arange` with its ceiling and `meshgrid` flattened in C order; proved equal to the list of centres.
- **C142** The grain map holds the best grain and its confidence — argmax, threshold and remap of `process_raw_confidence` over columns of confidences; proved against a specification of the best grain.
- **C143** Stitched volumes and VTK cells keep every layer in its place — Layers of stitched volumes and numbers of VTK points; proved by index arithmetic over all shapes.
- **C144** The near-field trial orientations surround the far-field ones and know their grain — Selection, grid of misorientations, expansion and id map of `gen_trial_exp_data`.
- **C145** The layer correction of a pinhole camera is the change of the scattering angle — `tth_corr_layer` and its map over real vectors; the arctangent is proved to be the difference of two angles between vectors.
- **C146** The angle seen through a thick pinhole is an average of scattering angles on its wall — The grid of the pinhole, the angles, the masks and the weights of `_compute_vi_qq_i`, element by element; the specification is in terms of straight rays in a cylinder.
- **C147** Source and detector points have their places in the frame of the pinhole — `calc_phi_x`, `azimuth` and the four reports; proved against a frame that is a rotation of the laboratory.
- **C148** The fit-grains and find-orientations commands overwrite nothing unasked and start from the right grains — Model/Commands.lean: a file system as a function, the two commands as state transformers with an outcome, the search and the refinement as parameters. Induction over the sections; the cases of the options against a specification of the source.
- **C149** Tables of grains are selected and stored without loss — Model/Commands.lean: a grain as a record, selection as a filter, writing as printing, reading with the failure of `loadtxt` on one row.
- **C150** Preprocessing stores the frames that were asked for under the right panel — Model/Preprocess.lean: files as paths with lists of frames, the list of frame numbers, the jobs of a file and a panel in order, the caches as a map that later jobs overwrite. Theorems by induction over the jobs.
- **C151** The special functions behind the pink-beam peaks keep their exact identities — Model/Special.lean: the functions over the reals and complex numbers. The four quadrants against the symmetries of the rules; the poles of a rule against the choice between the rules; the loop of the series and that of Lentz by induction against the recurrence of the convergents.
- **C152** A material saved to a file is read back as it was, and other materials in the file are kept — A file as a map from names to groups, a group as the record of its datasets; conversions of units over the reals, rounding to single precision a parameter, reflections of a cell a parameter. Round trip by computation and induction on the list of reflections; frame property by induction on the dictionary; dialogue by cases.
- **C153** The shape of the sample from tomography: attenuation, centring, cleaning and cropping — Images as functions on pixels, layers as lists of rows, slices of Python as take and drop with negative bounds; labels of connected parts are given. Real analysis for the attenuation, integer arithmetic for the slices, induction over the loop for the cleaning, and the coordinates of C141 for the mask.
- **C154** Documents with numpy arrays keep them when written and read — Documents as containers of keyed values, arrays by identity; path lookup, file names with the suffix replaced, files as what was saved last. Induction over documents; a characterization of round trips by equality of file names.
- **C155** Series of images: iterating, opening, the options of streams and metadata — Iteration as a loop over the remaining indices with results that are frames or one of two kinds of exception; the registry as a list; a stream as file, setting and multiplier; options folded over a history; metadata as a loop over a dictionary that is changed while it is read. Induction over lists.
- **C156** The state of a powder pattern fit follows what is assigned to it — pieces, index and shape as a state; Chebyshev series with Mathlib polynomials and the two domains of the code; names as lists of characters; parameters as an association list. Proved by induction over parameters and regions and by the affine map between the domains.
- **C157** The object that runs a calibration: its parameters, its constraint and its result — The calibrator object as detectors, constraint, centre and stored parameters (Model/Calibrator.lean), on top of the steps of C67; what is read from new parameters is derived from the parameter list, poses by the composition of steps. Residuals as lists of reals, options as lists of keyword arguments.
- **C158** Instruments written to a file and read again, and the beams of an instrument in use — Configurations as records with optional entries, dictionaries as lists in order of insertion (Model/InstrFile.lean). Reading, writing and what the two file formats do to numbers and to the order of keys are functions; the round trip is an equation for each detector and beam, lifted to the lists. The setters are a transition function that also gives the state after an exception; the invariant is by induction over the setters.
- **C159** Cutting a composite detector into chips — Rectangles with integer bounds, panels with a matrix, a translation and pixel sizes, images as lists of rows, dictionaries as lists; induction over the list of chips for the names, algebra for the positions, the floor for wedges.
- **C160** Asymmetric peaks are the foldings they are said to be — The formulas as real functions with the special functions as parameters; the foldings are Lebesgue integrals in a separate specification, and completing the square with a change of variables turns them into the formulas.
- **C161** Old names of moved modules stand for the right new modules — Model of module_map.py: the table is a list of lines, the map a fold, the namespaces association lists. Refinement of the map to the table, of the selection to a first-in-core specification, and of the merge to first-wins lookup, by induction.
- **C162** Block diagonal and rank-one matrices have every entry in its place — Reshape and tile as div/mod arithmetic on the flat index; the sparse matrix as the sum over the triplets. Refinement to the block diagonal specification by uniqueness of the triplet at each place.
- **C163** nullSpace returns an orthonormal basis of the null space — The decomposition as a hypothesis (Spec.IsSvd), the mask as a filter. Linear algebra over Mathlib matrices; a 2 by 1 matrix as witness against the claim for tall matrices.
- **C164** Spherical views pair every pixel with the projection of its own angles — Meshgrids as flat lists, the pairs as zips. Refinement to the set of pairs (pixel, projection of its angles) by list lemmas; real arithmetic for the output positions; witnesses for the failing cases.
- **C165** Calibration by azimuthal line-outs uses every row once and exactly the parameters that vary — The image as a list of rows with masked pixels; the cutting by bounds refined to 'rows k*npix to (k+1)*npix'; folds over detectors refined to pointwise specifications by induction; the leak between phases, the wrong getter and the residual by witnesses.
- **C166** Stacking faults shift and widen the peaks by the published factors — Model/StackFault.lean: sums over the equivalents, both factors, the selection of reflections. Against the published sums over the broadened equivalents; signs by arithmetic modulo three.
- **C167** The options of the HDF5 writer mean what is documented — Model/H5Opts.lean: `h5opts` as a function from the options to the arguments of the data set and the options that are left. Case analysis; induction over the number of writes.
- **C168** The profiler instruments the functions that are named — Model/Profiler.lean: the loop of imports, attributes, entries of a file, over any set of modules and objects. Induction over the parts of the name and over the entries.
- **C169** Temporary settings are undone — Programs as a tree of prints, work, exceptions, handlers, limits and logged blocks, run on a state with the threads, the output and the log; induction over the program.
- **C170** The angular range and resolution of an instrument are those of its pixels — The detectors as lists of pixels with given angles and sizes; the loops over the detectors are proved by induction to give the extremes of all pixels.
- **C171** The near-field code diffracts as the library does — The kernels over the reals, compared with the models of the functions of the library in C01-C03; algebra of the reflection of the beam.
- **C172** The summary of a crystal counts its atoms, reflections and axes correctly — The sums over the entries of the asymmetric unit are compared with sums over atoms; the mask of exclusions reflection by reflection; an axis is specified by a rotation, with integer entries, that preserves every metric of the system.
- **C173** A named mask of a detector is cut to its region of interest — Arrays as shape and entries, with the rules of numpy for the bounds of slices; all integer starts of the region are considered by cases.
- **C174** A run is compared faithfully with a reference — Arrays as shape and entries; the verdict is characterised by agreement of the common entries and the numbers of results.
- **C175** Frames that image series share are those of the file as it is — Events of saving, removing, beginning and ending a read on a state with files, the cache of two entries and the reads under way; an invariant gives every entry a moment at which its key was made and a later one at which its frames were read; equal identities imply that the file did not change in between.
- **C176** A material and its unit cell agree on the atoms — The data of the material and of the cell as lists; the assignments in their order, with the exceptions that end them.
- **C177** A rotation given by Euler angles is the same in all units — The elementary rotations as matrices; the object as a record with its setters; induction over the sequence of changes of units. `as_euler` of scipy is a parameter with its contract.
- **C178** Attributes of a physics package and of its layers agree — the layer values and the dictionary of the package are two maps from (layer, attribute) to values; an invariant says the dictionary never disagrees with the layer, by induction on the history; the round trip follows from the effect of a list of settings with consistent values.
- **C179** Every detector gets the images its configuration names — the dictionary is a list of pairs with assignment; what is under a key is characterised by the last entry with it, and this is composed with the model of the search by detectors (`Chunks.lean`), for single names, lists of names and shared images.
- **C180** The size of clusters fits the reflections of the grains — the counts are folds over detectors, shown to be lengths of filtered lists; floor and rounding are characterised by order.
- **C181** Files of different analyses and materials do not overwrite each other — paths are lists of characters; a path is cut at its last slash, and an identifier at its last underscore, in one way only, and the kinds differ in their first or last letters or in their lengths.

## Which parts of the code are modelled

Per source file: the lines cited by definitions of the model (in brackets the model files). Generated from the
citations. Lines not listed are not modelled.

- `core/config/__init__.py`: 29-40, 43-50 [Config]
- `core/config/config.py`: 34-50, 52-62 [Config]
- `core/config/dumper.py`: 6-20, 42-54, 57-59 [Include]
- `core/config/loader.py`: 17-22 [Include]
- `core/config/root.py`: 22-84, 126-162, 164-174, 176-201 [Config, ImsConfig, OutFiles]
- `core/config/utils.py`: 34-47 [Config]
- `core/constants.py`: 62-63, 66-68, 91-92, 117, 131-140, 149-184, 186-221, 237-248, 276-291, 307-308, 364, 3764-3878, 3883-3959, 3966-4205, 4220-4377, 4388-4470, 4472-4485, 4503-4536 [Absences, Chunks, ColorSpace, Composition, EtaOme, Fiber, GrainFit, Grid, InstrFile, Ipf, Params, Peaks, Quat, RFZ, Simulate, SpaceGroup, Special, Spectrum, UnitCell, Units, Xrdutil]
- `core/convolution/convolve.py`: 91-93, 236-396 [Snip]
- `core/convolution/src/convolve.c`: 248-287 [Snip]
- `core/distortion/__init__.py`: 38-59 [InstrFile]
- `core/distortion/dexela_2923.py`: 32-34, 36-42, 44-50, 66-83, 86-103 [Distortion]
- `core/distortion/dexela_2923_quad.py`: 29-36, 38-45, 61-72, 75-84 [Distortion]
- `core/distortion/ge_41rt.py`: 16, 49-76, 123-125, 127-134, 136-144 [Distortion]
- `core/distortion/identity.py`: 12-15 [InstrFile]
- `core/fitting/calibration/abstract_grain.py`: 32-42, 49-60, 62-67, 69-75, 77-82, 84-88, 102-112, 114-129, 139-153, 155-166, 181-193 [GrainCalib, LaueSim, Picks]
- `core/fitting/calibration/instrument.py`: 24-25, 76-80, 91-101, 107-109, 111-112, 118-136, 144-163, 169-175, 181-184, 186-187, 189-191, 193-217 [Calibrator, GrainCalib]
- `core/fitting/calibration/laue.py`: 419-426, 437-446, 454-468, 490-541 [LaueSim]
- `core/fitting/calibration/lmfit_param_handling.py`: 40-112, 115-165, 168-212, 248-258, 285-398, 401-453, 456-476, 479-500, 503-519, 527-549, 552-559, 562-599, 602-621, 627-649, 652-669, 672-711, 718-728, 731-735, 755-769, 772-793 [Calib, Calibrator, GrainCalib, PowderCalib]
- `core/fitting/calibration/powder.py`: 100-111, 121-124, 126-129, 142-156, 158-176, 236-284, 309-313, 315-380, 382-386, 388-392 [GrainCalib, Picks, PowderCalib]
- `core/fitting/calibration/relative_constraints.py`: 20-30, 75-82, 147-158, 160-166 [Calib, Calibrator]
- `core/fitting/calibration/structureless.py`: 82-114, 249-268 [PowderCalib]
- `core/fitting/fitpeak.py`: 91-94, 102-181, 232-233, 241-242, 342-654, 667-714, 717-747, 787-793, 795, 902-926 [PeakFit]
- `core/fitting/peakfunctions.py`: 36-37, 44-52, 60-75, 78-90, 93-108, 111-138, 141-157, 163-178, 181-194, 197-212, 215-243, 246-262, 270-283, 286-298, 301-316, 324-352, 355-371, 416-448, 451-493, 932-939, 947-960, 963-986, 989-1005, 1008-1024, 1032-1079, 1082-1105, 1108-1126, 1134-1153, 1156-1174, 1182-1222, 1225-1253 [Peaks]
- `core/fitting/special.py`: 18-20, 26-39, 42-51, 73-93, 96-127, 243-257, 260-268, 271-314, 317-334, 337-342, 345-362, 365-383, 386-434 [Special]
- `core/fitting/spectrum.py`: 41-78, 118-150, 153-154, 157-158, 161-164, 167-175, 236-380, 388-420, 534-539, 665-686 [Spectrum]
- `core/fitting/utils.py`: 18-20, 23-29, 32-43, 46-64, 67-74, 77-119, 139-171, 290-298 [Peaks, Spectrum]
- `core/gridutil.py`: 35-90, 93-129, 132-184, 187-204, 207-305 [Detector, Grid]
- `core/imageseries/__init__.py`: 17-24 [Adapters]
- `core/imageseries/baseclass.py`: 47-48 [Process]
- `core/imageseries/imageseriesabc.py`: 6 [Process]
- `core/imageseries/imageseriesiter.py`: 11-22 [Adapters]
- `core/imageseries/load/__init__.py`: 34-36 [Adapters, Process]
- `core/imageseries/load/array.py`: 59-60 [Process]
- `core/imageseries/load/eiger.py`: 22-42 [Adapters]
- `core/imageseries/load/eiger_stream_v2.py`: 19-37, 54-79, 94-103, 121-136, 144-145, 147-172, 174-189, 210-215, 217-228, 230-235 [Adapters]
- `core/imageseries/load/framecache.py`: 169-190, 192-196, 232-242, 244-261, 291-306, 313-336, 373-384 [FrameCache, FrameMemo, Process]
- `core/imageseries/load/function.py`: 35-39, 46-48, 66-71 [Adapters]
- `core/imageseries/load/hdf5.py`: 66-84 [Process]
- `core/imageseries/load/imagefiles.py`: 32-36, 38-50, 112-115, 125-151, 167-174, 176-186, 240-255 [ImageFiles]
- `core/imageseries/load/metadata.py`: 10-48 [Adapters]
- `core/imageseries/load/rawimage.py`: 31-36, 56-69, 72-106, 114-127 [ImageFiles]
- `core/imageseries/load/registry.py`: 7-13 [Adapters]
- `core/imageseries/omega.py`: 35-70, 94-108, 110-133, 152-172, 198, 208-212 [Omega, Preprocess]
- `core/imageseries/process.py`: 33-74, 79-114, 116-132, 136-138, 140-155, 167-169, 171-173, 175-179 [Preprocess, Process]
- `core/imageseries/save.py`: 126-142, 149-151, 161-171, 187-209, 305, 343-388, 390-498 [Adapters, FrameCache, H5Opts]
- `core/imageseries/stats.py`: 48-54, 57-77, 80-86, 89-108, 121-144, 153-175, 178-188, 191-211, 231-244, 247-250, 253-267, 270-312, 315-322 [Stats]
- `core/imageutil.py`: 45, 47, 50-65, 68-105, 108-131, 134-162, 165-233 [Snip]
- `core/instrument/cylindrical_detector.py`: 28-30, 32-34, 36-68, 122-139, 150-170, 172-216, 258-261, 263-266, 278-284, 317-321, 335-339 [Cylinder, InstrFile, Transmission]
- `core/instrument/detector.py`: 61, 198-200, 278-325, 347-350, 419-433, 435-437, 439-441, 443-445, 451-453, 459-461, 463-465, 504-520, 592-613, 615-642, 729-777, 801-951, 953-994, 996-1006, 1008-1054, 1056-1096, 1098-1126, 1128-1169, 1182-1218, 1580-1719, 1738-1778, 1780-1823, 1825-1869, 1871-1887, 1889-1902, 1904-1940, 1942-1951, 1953-1969, 1971-2009, 2011-2021, 2023-2038, 2046-2052, 2055-2056, 2059-2060, 2077, 2095-2121 [Chunks, Detector, InstrFile, NamedBuffer, Polar, Simulate, Transmission, Xrdutil]
- `core/instrument/detector_coatings.py`: 8-188 [Transmission]
- `core/instrument/hedm_instrument.py`: 121, 132-175, 178-242, 245-338, 341-351, 354-363, 379-396, 400-403, 406-424, 427-462, 465-493, 535-708, 736-744, 746-754, 807-810, 817-818, 824-834, 850-858, 869-874, 880-897, 903-907, 911-926, 929-940, 971-1023, 1025-1043, 1693-2058, 2327-2355, 2829-2841 [Calib, Chunks, Commands, InstrFile, PullSpots, Resolution]
- `core/instrument/physics_package.py`: 10-27, 69-70, 72-75, 77-83, 85-92, 94-100, 106-107, 109-111, 114-190, 199-204 [LayerAttrs, Transmission]
- `core/instrument/planar_detector.py`: 22-24, 26-94, 96-99, 143-190, 192-201 [InstrFile, PowderCalib, Transforms, Transmission]
- `core/material/crystallography.py`: 97-112, 578-705, 743-792, 794-821, 899-908, 911-932, 934-944, 975-1007, 1106-1132, 1224-1247, 1326-1334, 1379-1426, 1445-1448, 1466-1469, 1507-1540, 1542-1623, 2208-2230, 2233-2269 [EtaOme, Material, MaterialFile, Miller, Picks, PlaneData, Transmission]
- `core/material/jcpds.py`: 7-12, 21, 53-140, 152-260, 268-277, 287-292, 294-297, 311-322 [Jcpds]
- `core/material/material.py`: 225-231, 241-259, 261-279, 297-343, 345-346, 348-370, 372-404, 427-437, 439-451, 453-462, 464-473, 475-477, 479-488, 490-503, 505-536, 538-545, 547-560, 810-973, 975-1039, 1288-1298, 1303, 1309-1319, 1329-1346, 1369-1372, 1412-1472, 1507-1531, 1534-1537, 1540-1548, 1551-1562 [AtomData, CellSummary, EOS, Hkls, Jcpds, Material, MaterialFile, SGTables]
- `core/material/mksupport.py`: 21-43, 46-87, 90-232, 263-282, 343, 499-608 [MaterialFile]
- `core/material/spacegroup.py`: 94-186, 212-235, 238-239, 295-296, 299-332, 347-359, 368-377, 380-431, 434-882, 890-923 [Absences, CellSummary, Hkls, SGTables]
- `core/material/symbols.py`: 118-135, 239-770, 772-1303 [SGTables]
- `core/material/symmetry.py`: 85-123, 126-140, 143-202, 205-229, 232-281, 284-290, 293-310, 313-327, 330-371 [Absences, Ipf, SGTables, SpaceGroup]
- `core/material/unitcell.py`: 35-60, 87-97, 124-130, 154-164, 169-176, 184, 189-197, 202-214, 231-261, 265-275, 277-291, 325-389, 391-411, 413-497, 503, 505-514, 516-567, 607-689, 698-726, 740-759, 944-972, 974-1002, 1004-1069, 1079-1106, 1108-1180, 1202-1291, 1295-1336, 1338-1379, 1381-1393, 1409-1418, 1420-1433, 1440-1456, 1466-1560, 1590-1623, 1663-1671, 1764-1773, 1775, 1777-1787, 1812-1813, 1820-1874, 1885-2016 [AtomData, Calib, CellSummary, Hkls, Ipf, Jcpds, MaterialFile, Orbit, SGTables, Stiffness, UnitCell]
- `core/material/utils.py`: 39-49, 60-63, 66-128, 131-191, 194-208, 211-230, 233-242, 263-276, 279-292, 295-308 [Composition, Transmission]
- `core/matrixutil.py`: 41-43, 46, 76-93, 96-114, 117-159, 162-178, 181-201, 204-229, 232-280, 283-332, 335-364, 367-394, 397-420, 423-462, 465-476, 480-550, 563-572, 575-586, 589-598, 601-614, 647-664, 667-684, 739-751 [ApplySym, DupVectors, Fiber, FrameCache, Laue, MatArrays, Quat, Spectrum, Tensors, Xrdutil]
- `core/projections/polar.py`: 66-95, 179-182, 184-187, 193-205, 207-217, 219-254, 259-303, 305-355, 357-392, 394-438, 440-444, 447-479 [Cylinder, Polar]
- `core/projections/spherical.py`: 19-36, 42-45, 51-54, 80-154, 166-204 [Spherical]
- `core/rotations.py`: 57-58, 63-76, 78-80, 89-97, 113-117, 120-138, 141-151, 154-251, 254-275, 314-355, 357, 361-376, 561-627, 675-681, 696-729, 785-825, 862-871, 873-890, 892-915, 1020-1100, 1108-1177, 1180-1203, 1211-1292, 1295-1339, 1342-1529 [Angles, ApplySym, Calib, EulerClass, Fiber, Laue, Odf, Quat, SGTables]
- `core/transforms/cpp_sublibrary/src/inverse_distortion.cpp`: 13-36 [Distortion]
- `core/transforms/cpp_sublibrary/src/transforms.cpp`: 15-19, 21-24, 26-50, 66-70, 164-230 [Transforms]
- `core/transforms/new_capi/gvec_to_xy.c`: 24-51, 142-161, 221-287, 466-566, 568-588, 602-636, 735-757 [Transforms]
- `core/transforms/new_capi/make_beam_rmat.c`: 1-48 [Transforms]
- `core/transforms/new_capi/make_detector_rmat.c`: 1-20 [Transforms]
- `core/transforms/new_capi/make_sample_rmat.c`: 1-21 [Transforms]
- `core/transforms/new_capi/oscill_angles_of_HKLs.c`: 1-168 [Transforms]
- `core/transforms/new_capi/quat_distance.c`: 1-35 [Quat]
- `core/transforms/new_capi/rotate_vecs_about_axis.c`: 14-46 [Transforms]
- `core/transforms/new_capi/transforms_types.h`: 31, 34 [Transforms]
- `core/transforms/new_capi/unit_row_vector.c`: 1-24 [Transforms]
- `core/transforms/new_capi/validate_angle_ranges.c`: 1-72 [Simulate, Transforms]
- `core/transforms/new_capi/xy_to_gvec.c`: 1-87 [Transforms]
- `core/transforms/xfcapi.py`: 38-90, 93-143, 175-270, 273-348, 351-448, 508-541, 605-636 [GrainFit, Transforms]
- `core/utils/concurrent.py`: 4-30 [Tasks]
- `core/utils/decorators.py`: 42-45, 54-60, 66-93, 103-122, 126-139 [Memoize, Scoped]
- `core/utils/hdf5.py`: 6-89 [Codec, InstrFile]
- `core/utils/hkl.py`: 6-9, 12-13 [Picks]
- `core/utils/json.py`: 21-31, 43 [Codec]
- `core/utils/logger.py`: 7-30 [Scoped]
- `core/utils/multiprocess_generic.py`: 31, 33-58 [Multiproc]
- `core/utils/panel_buffer.py`: 15-45, 49-76, 89-102 [Detector, NamedBuffer]
- `core/utils/profiler.py`: 28-73, 76-96, 99-101 [Profiler]
- `core/valunits.py`: 59-80, 84-107, 132-145, 148-160, 162-206, 220-241 [Units]
- `hed/xrdutil/phutil.py`: 170-232, 243-246, 249-304, 355-375, 417-419, 426-437, 440-461, 552-584, 592-616, 627-642, 645, 649, 651-658, 737-752, 781-790, 792-796, 799-810, 814-821, 824, 861-873, 895, 910-921 [Pinhole]
- `hed/xrdutil/utils.py`: 66-104, 107-153, 156-214, 217-284, 287-326, 329-369, 372-420 [Cylinder, Polar, Simulate]
- `hedm/cli/find_orientations.py`: 65-80, 83-160 [Commands]
- `hedm/cli/fit_grains.py`: 24-34, 66-81, 83-90, 124-151, 215-418 [Commands]
- `hedm/config/findorientations.py`: 34-35, 37-48, 50-66, 145-157, 176-181, 222-224, 251-278, 282-293 [Commands, Config, OutFiles]
- `hedm/config/fitgrains.py`: 51-52, 68-77 [Commands]
- `hedm/findorientations.py`: 74-81, 118-119, 140-141, 206-370, 403-428, 431-445, 482-532, 587-594, 606-676 [Cluster, ClusterParams, EtaOme]
- `hedm/fitgrains.py`: 33-51, 62-215, 218-313, 316-371, 421-422, 448-494 [FitGrains]
- `hedm/fitting/calibration/grain.py`: 73-83, 106-110, 112-220 [GrainFit]
- `hedm/fitting/grains.py`: 135-139, 213-216, 227-233, 241-368, 372-380, 384-442 [FitGrains, GrainFit]
- `hedm/grainmap/nfutil.py`: 40-49, 74, 110-118, 136-144, 235-270, 299-310, 314-329, 338-360, 393-421, 427-483, 511-517, 590-609, 623-640, 643-654, 657-678, 684-797, 800-803, 847-951, 957-958, 975-985, 1065-1091, 1094-1114, 1266, 1272-1283, 1285-1290, 1352-1363, 1425-1428, 1430-1433, 1438-1463, 1688-1689, 1703-1775, 1825-1845 [CheckRun, Confidence, GrainMap, NearField, NfKernels]
- `hedm/grainmap/tomoutil.py`: 27, 57, 72-107, 122, 125, 127-129, 131-138, 167-173, 175-182, 203-209, 219-225, 227, 229-236 [Tomo]
- `hedm/grainmap/vtkutil.py`: 105-124 [GrainMap]
- `hedm/indexer.py`: 254-255, 298, 309-316, 342-353, 390-467, 500-506, 523-590, 593-675, 679-722, 726-842, 846-966, 970-988 [Angles, Indexer]
- `hedm/instrument/generate_eta_omega_maps.py`: 67-102, 122-133, 136-144, 148-155, 167-168 [EtaOme]
- `hedm/ipfcolor/colorspace.py`: 32, 35-104, 107-167 [ColorSpace]
- `hedm/ipfcolor/sphere_sector.py`: 66-284, 346-376, 402-449, 451-503, 505-542, 544-595, 597-643, 645-662, 667-698, 700-717, 719-746, 748-771 [Ipf]
- `hedm/preprocess/preprocessors.py`: 47-49, 55-57, 59-63, 68-88, 213-215, 217-229, 245-269 [Preprocess]
- `hedm/preprocess/profiles.py`: 75-79, 172-181 [Preprocess]
- `hedm/sampleOrientations/conversions.py`: 9-30, 33-36, 39-88, 91-94, 97-113, 116-125, 128-131, 134-143, 146-153 [RFZ]
- `hedm/sampleOrientations/rfz.py`: 8-12, 15-31, 34-75, 78-89, 92-116 [RFZ]
- `hedm/sampleOrientations/sampleRFZ.py`: 10-35, 100-104 [RFZ]
- `hedm/xrdutil/utils.py`: 133-231, 481-482, 505-544, 547-571, 711-727, 731-747, 750-803, 854-864, 893-936, 952-953, 1024-1069 [Cylinder, Simulate, Xrdutil]
- `laue/simulation.py`: 16-25, 31-41, 57-69, 77-82, 93-171 [LaueSim]
- `module_map.py`: 12-26, 30-39, 41-56, 107-122, 124-196 [Aliases]
- `phase_transition/texture/evaluation.py`: 43-59, 142-153, 186-188 [Odf]
- `phase_transition/texture/kernels.py`: 13, 19-23, 28-48, 51-64, 178-204, 238-244, 296-303, 319-320, 347-354, 356-383, 385-388, 390-443 [Odf]
- `phase_transition/texture/uniform_odf.py`: 119, 197-214 [Odf]
- `phase_transition/texture/unimodal_odf.py`: 96-131, 192-240, 258-259, 282-289 [Odf]
- `phase_transition/variants.py`: 17-30, 33-53, 56-61, 64-73, 104-122 [Variants]
- `powder/wppf/LeBailCalibration.py`: 166, 170-183, 192, 207-211, 213-217, 335-354, 356-373, 441-449, 483-495, 497-499, 501-511, 517-527 [LeBailCalib]
- `powder/wppf/WPPF.py`: 139-150, 185-189, 198-207, 209-222, 224-244, 267-284, 309-314, 317-321, 342-480, 495-499, 508-509, 613-694, 775-800, 812-847, 849-862, 900-917, 1088-1097, 1140-1287, 1681-1682, 1684-1765, 1770-1780, 1791, 1831, 1851-1855, 1857-1883, 2626-2639, 2642-2659, 2813-2822 [Diffuse, LeBail, Params, PatternFit, Rietveld, StackFault]
- `powder/wppf/amorphous.py`: 151-156, 190-195, 287-304, 307-336, 345-349 [Diffuse]
- `powder/wppf/peakfunctions.py`: 56-80, 84-107, 127-155, 179-195, 202-217, 221-231, 239-268, 277-330, 334-365, 369-387, 391-394, 398-413, 445-447, 450-452, 454-466, 489-491, 495-497, 501-527, 531-554, 558-564, 568-570, 574-602, 606-633, 637-657, 714-719, 721, 756-761, 763, 798-803, 805, 851-875, 1095-1120, 1335-1336, 1345, 1347-1350, 1357-1368, 1372-1378, 1381-1386 [Convolved, LeBail, PowderPeak, Stephens]
- `powder/wppf/phase.py`: 255-273, 284-302, 352-365, 769-817 [MarchDollase, Rietveld, StackFault]
- `powder/wppf/spectrum.py`: 27-40, 61-62, 70-82, 128-160, 162-168, 180-182, 204-209, 211-216, 218-248, 266-312, 314-316 [Pattern]
- `powder/wppf/tds.py`: 137-143, 145-193, 195-212, 214-263, 271, 295-301 [Diffuse]
- `powder/wppf/texture.py`: 42-58, 71-405, 435-438, 444-455, 458-591, 594-625, 628-800, 919-926, 946-956, 959-970, 985-994, 996-1020, 1022-1038, 1117-1130, 1200-1216, 1238-1247, 1249-1264, 1306-1316, 1493-1519, 1540-1551, 1670-1675, 1803-1844, 1870-1878, 2023 [HarmonicTable, Harmonics, MarchDollase, PoleFigure]
- `powder/wppf/wppfsupport.py`: 59-83, 86-108, 111-168, 171-186, 189-198, 201-237, 240-260, 263-302, 305-386, 404-416, 418-432, 434-438, 445-481, 499-526, 530-534, 541-558, 561-580, 583-614, 617-623, 675-691 [Diffuse, LeBailCalib, Params, Stephens]
- `powder/wppf/xtal.py`: 20-36, 53-55, 96-102, 108-126, 133-173, 175-176, 185-187, 190-193, 196-208, 217-220, 225-251, 255, 262-264, 267-268, 270-272 [Rietveld, StackFault, StructFac]

### Not modelled

Files of which nothing is modelled:

- `hexrd/`: copyright.py
- `hexrd/core/`: deprecation.py
- `hexrd/core/config/`: beam.py, imageseries.py, instrument.py, material.py
- `hexrd/core/convolution/`: utils.py
- `hexrd/core/convolution/src/`: convolve.h
- `hexrd/core/distortion/`: distortionabc.py, nyi.py, registry.py, utils.py
- `hexrd/core/fitting/calibration/`: calibrator.py
- `hexrd/core/imageseries/load/`: eiger_stream_v1.py, trivial.py
- `hexrd/core/instrument/`: constants.py
- `hexrd/core/transforms/new_capi/`: module.c, ndargs_helper.c, ndargs_helper.h, transforms_prototypes.h, transforms_utils.h
- `hexrd/core/utils/`: compatibility.py, progressbar.py, warnings.py, yaml.py
- `hexrd/hedm/cli/`: documentation.py, help.py, main.py, pickle23.py, preprocess.py, test.py
- `hexrd/hedm/preprocess/`: argument_classes_factory.py, yaml_internals.py
- `hexrd/laue/fitting/calibration/`: laue.py
- `hexrd/powder/fitting/calibration/`: instrument.py, powder.py, structureless.py
- `hexrd/powder/wppf/`: RietveldHEDM.py, derivatives.py

Also outside the model: NumPy, SciPy, lmfit, fabio, h5py, numba and Eigen themselves (their documented behaviour is
modelled where it is used), the file system, floating-point rounding, memory use and timing.

## Axioms of each claimed theorem

From `#print axioms`, for every theorem of `MANIFEST.json`.

- none (19): FrameCache: npz_metadata_can_change_length; ImageFiles: single_reads_skipped single_ignores_total; Process: dark_unsigned_wraps; PlaneData: recalc_ready; SpaceGroup: class_determined crystal_system_code; Grid: conn_ll; Config: multiprocessing_invalid; EtaOme: load_filtered_partial; Params: sanitize_fails; Adapters: pickle_metadata_fails func_metadata_fails; PatternFit: shape_back_fails; LeBailCalib: getTranslation_fails; Scoped: logged_silent; FrameMemo: tick_fails removed_fails header_fails
- `propext` (45): Memo: memo_key_ignores_dtype memo_key_list_tuple memo_key_kwarg; Stats: averageIter_collected_wrong; FrameCache: npz_metadata_can_change_frames; PlaneData: relative_spec; SpaceGroup: expand_reduce reduce_expand material_expands material_six_unchecked; Codec: h5_roundtrip_partial h5_single_element h5_zero_dim h5_none_dropped h5_string_array; Multiproc: args_dropped; Calib: rename_steals rename_mapping_duplicate; Texture: blmn_shape tables_orthonormal; Ipf: kinds_order; GrainMap: id_map_partial; Commands: fit_keeps_files fit_writes_grains fit_runs fit_after_find_fails find_keeps_accepted find_runs find_overwrites_fails; Aliases: exLines_map alias_two_paths_fails; Spherical: set_refuses set_stores_fails; LeBailCalib: bounds_none; StackFault: select_eq; H5Opts: left second_read_fails second_explicit_fails; Profiler: parse_each_partial; Scoped: limit_restores plain_run logged_record_partial logged_lost_fails; AtomData: cellKeep_atoms; LayerAttrs: after_layer
- `propext`, `Quot.sound` (104): Tasks: distribute_tiles; Memo: memo_returns_func memo_size_bound memo_counts memo_lru memo_lru_histories memo_failure_evicts memo_key_faithful_partial memo_maxsize_zero_always_raises; Stats: full_is_last_prefix full_is_sup percentile_def toArray_spec; FrameCache: fch5_can_finish npz_metadata_separate_partial reader_sees_content mutual_exclusion no_deadlock; ImageFiles: getitem_served served_in_range refused_iff getitem_single_partial; RawImage: offset_first_byte whole_frames_accepted_partial long_header_refused negative_index typechars_int; Process: omega_follows_frames dark_exact dark_unsigned_iff_partial dark_unsigned_grows; PlaneData: mask_roundtrip mask_follows_reflections indices_read_back_wrong mask_lists_wrong full_length_indices_refused tthmax_listed exclude_spec applyLimit_outside tthmax_exclusion_sticks; SpaceGroup: other_numbers_refused other_integers_refused every_symbol_found latticeType_below_one; Hkls: repeated_kept_twice; Grid: conn_length conn_hex_length; Codec: h5_emptied h5_copy_emptied json_roundtrip_partial json_no_backslash escape_inside; Config: get_spec set_get_partial set_lost; EtaOme: select_all select_override select_spec; FitGrains: serial_spec; Picks: grain_missing; Ipf: generated_kinds_partial generated_group_fails; Confidence: dilate_iff; GrainMap: cells_eq cells_valid number_lt; Commands: fit_source force_after_find later_section_fails own_orientations_fails; Adapters: words_each iterate_all iterate_fails open_registered open_other open_no_format; PatternFit: shape_change shape_back; Chunks: rects_labels; Aliases: findSpec_iff load_get load_keeps load_again exLines_candidates load_leaves_new_fails; Spherical: warpMaps_one; Profiler: imports_longest longest_unique raised_iff parse_stops_fails; Scoped: limit_refused; NamedBuffer: fromStr_shape fromStr_whole; FrameMemo: run_files result_quiet cache_bounded; AtomData: setAtomdata_half_fails cellKeep_valid; LayerAttrs: set_get misspelt_fails; ClusterParams: reflections_eq seedReflections_partial seedIds_spec twice_fails
- `propext`, `Classical.choice`, `Quot.sound` (1323): Tasks: distribute_each_task_once; Memo: memo_wrong_value; Stats: frames_used chunkStops_good accIter_prefixes accIter_last_is_full averageIter_live averageIter_collected_first percentileIter_spec percentileIter_last; FrameCache: fch5_roundtrip fch5_within_dataset npz_roundtrip npz_schedule_independent tall_image_loses_pixels loaded_at_most_once; ImageFiles: served_nodup; RawImage: frames_tile; Omega: wedges_partition wedge_uniform rebuilt_close rebuilt_exact accepted_increasing_partial last_frame_not_checked example_wedges omega_to_frame_found omega_to_frame_absent range_in_wedge_partial range_across_wedges range_within_one_frame_empty; Process: flip_pixels flip_bijective flip_relations getRegion_plain processed_frame_partial rectangle_pixels no_frame_beyond_length frames_below_length nested_rectangle_raises flat_hdf5_rectangle_raises numpy_frame_list_raises dark_signed_partial add_row_spec add_col_spec; PlaneData: indices_roundtrip_partial indices_listed ranges_listed mask_listed_iff merged_groups merged_partition merged_intervals list_change same_list included_stays excluded_stays; SpaceGroup: operators_form_group operators_generated pointGroup_forms_group laueGroup_forms_group comp_is_composition allowed_iff_not_extinct_partial extinct_never_allowed allowed_205 allowed_205_wrong tables_consistent ranges_disjoint symbols_roundtrip reset_conditions assign_parameter; Hkls: reflections_sound reflections_complete_partial reflections_incomplete bySS_exact one_per_family unitcell_operators_form_group; UnitCell: metric_fits_operators operators_force_metric volume_positive metrics_inverse structure_dual trans_roundtrip trans_compose length_invariant cross_invariant clearing_breaks_dot orbit_distinct orbit_exact orbit_of_copy outside_counted_twice outside_sample reciprocal_operators reciprocal_operators_isometric cartesian_orthogonal monoclinic_axis_partial monoclinic_2m_axis_wrong rounding_absorbs removed_collides kept_apart_partial kept_apart three_halves; Miller: rhomb_hex_rhomb hex_rhomb_hex rhomb_integral_iff rhomb_params direction_roundtrip direction_roundtrip_partial direction_reversed four_index_wrong cartesian_of_four_index cartesian_of_three_index_wrong; Stiffness: stiffness_of_class stiffness_complete wrong_number_rejected constants_count compliance_roundtrip stored_thousandfold stored_not_built; Units: convert_size convert_exists convert_back way_back convert_via photon_involution add_sub_size nanometre_stuck; Angles: mapAngle_spec mapAngle_default mapAngle_idempotent mapAngle_rejects reversed_accepted width_not_period indexerMapAngle_spec angularDifferenceOrig_spec angularDifference_partial angularDifference_negative circleDist_facts circleDist_triangle; Rotations: rotMat_acts rotMat_rotation rotMat_mul rotMat_eq_iff product_matrices fixQuat_spec invertQuat_spec quatProduct_spec_partial product_half_turn fundamental_spec fundamental_class fundamental_idempotent halfTurns_group laue_group laue_generators laue_scalar laue_distance_zero distance_spec distance_symm distance_equivalent distance_zero distance_triangle misorientation_eq_distance fundamental_angle fiber_carries fiber_covers fiber_spacing fiberSym_spec perp_exists; Tensors: mv_roundtrip mv_isometry strain_roundtrip stress_roundtrip stress_strain_work vecds_roundtrip vecds_isometry vecds_trace skew_cross skew_roundtrip symm_skew normal_projection argument_reshaped; DupVectors: kept_apart dropped_near_earlier groups_sound dropped_near_kept_partial chain_dropped unique_apart unique_covers applySym_sound applySym_apart applySym_complete applySym_orbit; Grid: conn_cell corners_distinct share_side conn_hex areas_partial areas_two_triangles areas_wrong areas_translate area_shoelace area_translate area_additive area_reverse centroid_mean centroid_translate clip_sound clip_inside clip_empty clip_exact grid_two_sided grid_step grid_one_sided window_adjusted bin_up_partial bin_up_outside bin_down_partial bin_down_first bin_narrow bin_integers; Codec: json_escape_lost json_escape_fails; Multiproc: results_in_order step_todo never_stuck call_values_partial stuck_after_log_error; Detector: buffer_border buffer_rounded buffer_agree_partial buffer_disagree buffer_negative pixel_cart_inverse pixel_centre pixel_index pixel_index_only pixel_edge clip_points clip_plain clip_mm clip_mask nearest_partial nearest_floor nearest_wrap nearest_centre nearest_points bilinear_value bilinear_constant bilinear_centre bilinear_bounds bilinear_reproduces bilinear_integer single_row; Transforms: marked_lies_in_a_range in_range_marked_partial full_circle_marks_everything first_end_a_turn_later_is_rejected short_range_accepts_everything anglesToGvec_bragg anglesToDvec_twoTheta dvec_is_reflection gvecToXY_hits gvecToXY_complete normalizeBeam_close gvecToXYSingle_eq gvecToXYMulti_eq xyToGvec_reflects angles_gvec_xy_round_trip xy_gvec_xy_round_trip gvecToXY_neg oscill_exact oscill_nan oscill_assert oscill_angles_describe sampleRmat_isRotation sampleRmat_eq sampleRmats_spec detectorRmat_isRotation detectorRmat_eq beamRmat_isBeamFrame isBeamFrame_unique beamRmat_refused_iff eigenBeamFrame_isBeamFrame eigenBeamFrame_eq_beamRmat beamRmat_of_columns expmapRmat_isRotation expmapRmat_axis expmapRmat_eq_rotateVec expmapRmat_x binaryRmat_isRotation_iff binaryRmat_spec rotateVec_spec anglesToCart_hits_partial cart_angles_round_trip_partial anglesToCart_negative_omega cartToDvec_eq beamPosition_spec beamPosition_none_iff; Calib: round_trip update_applies update_isolated beam_round_trip suffix_fails eleven_sorted mangle_refused round_trip_example system_rigid system_arrangement system_defined group_rigid constraint_round_trip renameOne_spec rename_unique rename_append_nodup rename_keeps rename_mapping validate_iff tardis_distance_partial tardis_distance tardis_unchanged tardis_lopsided tardis_exchanged history_independent history_defined history_independent_group origin_history group_instrument_history material_round_trip material_update params_distinct grain_reads_own grain_round_trip force_spec fix_strain fix_translation fix_y holds_created same_material; Snip: snip_bounds toInt_le snip_parallel snip_clips snip_antitone snip_masked snip_masked_irrelevant snip_shift fast_bounds quad_bounds snip2d_bounds linKernel2_sum quadKernel2_sum quadKernel_even quadKernel_odd peak_clipped; Distortion: dexela_inverse_partial dexela_apply_partial dexela_outward dexela_overlap quad_inverse quad_apply quad_singular ge_apply_inverse ge_inverse_apply ge_example ge_enlarging ge_origin ge_exponents trivial_identity; Indexer: ranges_partial ranges_offset_irrelevant ranges_accepted ranges_three ranges_four ranges_four_example ranges_nested ranges_unsorted ranges_overlap_missed bin_lookup dilated_spec dilated_nan dilated_nan_order hit_spec hit_noNaN score_spec score_range score_one score_example dpix_nearest paintGrid_partial poolMap_order paintGrid_few paintGrid_example; Cylinder: cartToDvec_is_sheet dvecToXY_value projection_exact projection_miss dvecToAngs_spec dvecToAngs_of_angles cartToAngles_direction cart_angles_cart angles_cart_angles localNormal_radial secb_ge_one projectAngles_tilted_stage axis_direction_marked_valid backward_ray_reported; Polar: grid_entry grid_length grid_covers extent_eq extent_window tthToPixel_centre warp_value contribution_constant sees_no_buffer cached_warp planar_point planar_complete cylinder_point_partial bin_rows bin_value bin_count evec_ignored cylinder_ignores_sample bin_wraps; Peaks: splitPvoigt_isPeak pvoigt_isPeak gaussian_isPeak lorentzian_isPeak with_background mixing_width mixing_width_bounds mixing_fraction gaussian2dRot_ellipse gaussian2dRot_zero splitPvoigt2dRot_product gaussian3d_ellipsoid with_background_nd pink_not_symmetric gaussian1d_deriv_exact lorentzian1d_deriv_exact mpeak_value mpeak_order mpeak_cubic_ignored; PeakFit: amplitude_guess nearest_spec nearest_mono nearest_in_window width_guess width_half_height width_first_sample height_nonneg guess_within_pvoigt guess_within_split_partial estimate_exists multi_feasible multi_pvoigt_refused multi_feasible_pvoigt_partial multi_guess_value multi_guess_cubic multi_start plane_centred_partial plane_not_removed residual_zero residual_squares split_exact_penalised goodness_zero; Spectrum: pvoigt1d_eq peakAt_eq splitPvoigt1d_sorted splitPvoigt1d_unsorted cheb_cos bkg_low bkg_bound composite_value start_value equal_all width_mixing box_bounds centres_separated centres_accepted two_close_peaks dcs_slopes_equal_intercepts dcs_runs acceptRing_iff acceptRing_nan; Simulate: rowMask_sound rowMask_complete lists_aligned series_per_grain simulate_entries sticky_direction entries_are_spots spots_are_entries listed_sound listed_complete gvec_ray scattered_reflected simulate_succeeds_iff oscill_none_iff correct_trivial correct_energy scene_energy; Xrdutil: pixel_size etaGap_circle detector_pixel_size_partial detector_pixel_size_swapped spherePoint_unit stereo_iff stereo_bijective stereo_disk equalArea_point equalArea_zone equalArea_injective equalArea_poles stereo_twoTheta equalArea_twoTheta zproject_mask zproject_all mask_forward mask_lower input_kept_partial input_changed patch_grid patch_pixel_partial patch_pixel_swapped; Config: merge_value merge_fails_iff merge_wellFormed open_value merge_absorb save_open_partial save_one_lost set_lost_case multiprocessing_partial setMultiprocessing_spec etaRange_spec omegaPeriod_iff etaRange_case fiberNdiv_spec; Transmission: generic_spec generic_absent exp_integral meanTransmission_bounds sample_spec exitSec_spec package_partial package_case comptonLayer_spec comptonFromSample_spec comptonFromWindow_value comptonFromWindow_wrong phosphor_coefficient filterCoating_layers filterCoating_phosphor_value filterCoating_phosphor_wrong lens_value pinhole_partial lens_range pinhole_axis comptonEnergy_spec pixelQ_transfer polarization_spec panelPolarization_isSome lorentz_spec massAttenuation_partial massAttenuation_outside absorptionLength_bounds absorptionLength_scale absorptionLength_case layerStandoff_spec; EtaOme: combine_spec expand_spec spot_omega spot_eta clean_spec clean_background clean_empty filter_spec filter_streak filter_requested load_clean_unfiltered; Cluster: above_spec cluster_few cluster_spherical cluster_hierarchical cluster_euclidean groups_partition labels_of_clusters; PullSpots: labels_exist window_outside not_found found_spec found_inside pull_ids signal_spec signal_bilinear nearest_partial nearest_biased narrow_window; FitGrains: valid_spec valid_inv completeness_range overlap_fails count_saturated refine_spec refine_backwards fit_infinite fit_finite fit_total pool_spec subset_partial subset_fails subset_swaps other_numbers_fail match_partial match_period match_wrong chi_zero chi_nonneg_partial chi_negative; RFZ: inside_exact_partial inside_hexagonal_partial inside_cubic_partial inside_covers_partial inside_43m inside_orthorhombic inside_trigonal_gap inside_hexagonal_boundary sample_perm sample_order sample_reduced_partial ro2qu_represents ro2qu_ax2ro cu2ho_norm cu2ho_ball radius; EOS: pressure_bm3 volume_spec volume_inverse_partial volume_total volume_tension volume_no_root lparms0_volume lp_volume lp_volume_iff lp_no_expansion; Variants: variants_spec variants_count rmats_orthogonal variants_parallel removeInversion_spec; Jcpds: readOld_spec readOld_onto readNew_spec resetLat_spec volume_cell matches_spec matches_silent old_trigonal write_spec write_valid; StructFac: crystal_absent crystal_equivalent absent_zero equivalent_equal origin_free lattice_free friedel friedel_needs_no_absorption raw_bound temperature_bounds intensity_zero_iff orbit_keeps anisotropic_differs; Rietveld: getTth_bragg bragg_antitone calctth_spec sorted_splits intensity_pairs aligned_partial aligned_iff misaligned extinction_spec laueCoefficient_spec laueCoefficient_jump absorption_flat absorption_tilted absorption_amplifies; Stephens: broadening_invariant_partial parameters_complete_partial gammaSqr_quartic fill_spec hexagonal_fails hexagonal_sample required_fails tetragonal_incomplete; PowderPeak: pvoight_isPeak pvoight_area line_isPeak gaussianFwhm_pos lorentzianFwhm_nonneg spectrum_area spectrum_order spectrum_append slit_angles funcW_partial mixed_area_partial strain_widths split_centre funcW_fails fact_fails mixed_area_fails; LeBail: extraction_shares extraction_total extraction_fixed extraction_nonneg extraction_fails iobsArray_fails errvec_squares rwp_spec rwpb_gof_spec rwp_scale perfect_fit extraction_ends extraction_none regions_spec join_separate join_map resizeBkg_spec updateShkl_first tthStep_fails updateShkl_leaks; Pattern: interp_spec linAt_unique data_plain data_background setBackground_fails setData_data setScaling_nonneg combine_spec combine_fails add_sub limit_spec limit_limit rmul_rmul extend_right extend_left extend_fails rebin_grid rebin_one rebin_total rebin_missing; Params: atomName_inj qual_inj getNumber_spec entries_unique own_value setLp_same setAtom_same setBack_same fraction_values setFractions_sum setFractions_same collision_fails outside_fails recalculated_partial recalculated_none recalculated_fails demo_ok; Diffuse: agm_volume zone_mean warren_mean contribution_mean contribution_zero contribution_zero_fails bracket_spec exp2M_temperature calcTDS_nonneg calcTDS_partial calcTDS_fails expTerm_spec lineout_same scale_fails regrid_spec gauss_lineout gauss_half case_fails fwhm_fails doc_spec am_unique amSet_same; Composition: normalize_spec numberDensity_spec densities_agree numberDensity_fails factor_means variance coherent_partial coherent_fails incoherent_fails; Texture: harmonics_family_partial intensity_family_partial intensity_sample columns_count d3d_fails harmonics_exist th_degree_fails names_nodup random_texture textureIndex_ge_one textureFactor_bounds cubic_fails third_mem monoclinic_fails cubic_four_partial; MarchDollase: cos2_angle factor_mean factor_family factor_bounds factor_one factor_axis_scale factor_axis_family spacegroup_operators march_integral setHKL_current step_current run_current calc_result rings_constant setMaterial_stale lattice_change_fails parameters_reset_fails; PoleFigure: pole_spec pole_again pole_scale weight_spec weights_aligned entry_none residual_chi residual_unusable stereo_bounds stereo_opposite stereo_inverse densest_spec ring_intensity rotation_stale_fails cache_first_fails degree_raise_fails; Odf: symmetry_accepted label_groups halfwidth_range kernel_shape kernel_mean kernel_rotations kernel_swap kernel_invariant kernel_bounds fast_path label_symmetry symmetric_mean reduced_angle eval_reference eval_batch eval_arrays_refused odf_made odf_eval odf_bounds odf_invariant odf_mean estimated_max estimated_max_fails array_symmetry_fails cubic_example mean_example batch_eval batch_odf batch_refused sampled_index analytic_index closed_index; LaueSim: reported_spot every_spot_reported reported_order label_unrotated friedel_reported label_fails residual_pairs residual_zero_iff residual_one_predicted residual_lost residual_misassigned_fails stage_fails demo_predicted demo_backscatter; Picks: hkl_string_round_trip hkl_string_injective grain_picks grain_round_trip grain_spelling_fails powder_picks powder_round_trip powder_transfer powder_order_fails powder_single_index; PowderCalib: residual_iff residual_zero_iff residual_nan_iff model_on_ring evaluate_spec evaluate_missing all_zero_iff tth_tol_fails ring_names_inj tth_params structureless_residual initial_residual empty_ring_fails; GrainFit: predict_spot predict_truth row_zero_iff fit_zero_iff fit_length calibration_zero_partial calibration_tilted_fails missing_last missing_first_fails; ColorSpace: hsl2rgb_color refused_iff rgb2hsl_color rgb_round_trip near_grey hsl_round_trip hue_periodic argument_changed_fails; Ipf: generated_group_partial generated_products reduce_first reduce_lost reduce_empty sector_reducible reduce_super image_unique reduce_equivalent null_row_lost trigonal_lost_fails c3v_lost_fails hue_range color_row center_white directions_colored equivalent_color; NearField: any_schedule raising_limit limited limited_fails rank_run rank_single_fails shares_all gathered root_return_fails run_eq; Confidence: confidence_fraction confidence_range early_spot_fails confidence_one confidence_mono dilated_confidence writePixel_bits drawn_bits own_confidence simulated_wide_fails packed_confidence_fails; GrainMap: grid_axis grid_voxels one_voxel layers_eq centres_nodup flatGrid_get flatGrid_length tomo_shift best_iff grain_map remap_partial remap_highest_fails stitched stitched_offsets stitch_zero_spacing ravel_get cut_iff ori_axis trial_orientations id_map_fails id_map_short; Pinhole: layer_angle passes_iff layer_reported pinhole_reported layer_mono jhe_origin scatter_eq seen_iff weight_pos axialCount_rows elements_eq elements_onWall mean_angle azimuth_frame source_azimuth_iff source_azimuth_fails camera_places frame_scattering lab_angle panel_first reports map_sign_fails; Commands: select_iff select_select written_read_partial written_read_one_fails; Preprocess: processed_frames_partial processed_iff_partial processed_start_fails omega_covers preprocess_stores_partial two_panels preprocess_panel_fails no_panel preprocess_capitals_fails; Special: correction_plus correction_minus first_no_pole wofz_neg wofz_conj wofz_real wofz_imag wofz_zero erfc_reflect erfc_zero erfc_strictAnti exp1Series_partial_sum exp1_deriv exp1_deriv_limit lentz_state lentz_convergent lentz_real; MaterialFile: load_dump dump_stable write_frame read_write saveAll_read dialogue_partial dialogue_fits none_enabled_fails keys_fail same_name_fails no_atoms_fails orthorhombic_fails mk_fails rhombohedral_fails; Tomo: imageNumbers_each axisPos_near attenuation_law attenuation_antitone radiographs_each no_dark_fails angles_even cutRow_symmetric_partial wide_sample_fails noise_partial last_part_fails holes_partial holes_keep last_hole_fails newRows_size crop_size_partial crop_exact_fails mask_coordinates mask_middle_fails; Include: stem_dotted stem_outer array_file round_trip_iff round_trip round_trip_fails round_trip_case; Adapters: iterate_raises frame_setting options_last options_copy pickle_frames stream_iterate trigger_read trigger_blank_fails metadata_read metadata_empty_fails metadata_unknown_fails metadata_marker_order metadata_case stream_case; PatternFit: shift_region offset_last offset_fails read_array spectrum_fails spectrum_stale background_stretched background_is_fit background_linear_iff background_masked_fails update_follows reset_keeps smaller_degree_raises phase_name_fails shape_number initial_intensity; Calibrator: make_read remake_still reset_remake_still reset_moves_again reset_fails reset_center_fails calibration_result residual_mean improved_iff options_spec engineering_spec; InstrFile: scalar_buffer region_span panel_round_trip beams_round_trip round_trip written_fails unwritable_fails unwritable_read named_beam_fails correction_fails beams_followed switch_restores read_follow foreign_distance_fails int_distance_fails; Chunks: rects_disjoint rects_cover names_inj chips_all chips_lost_fails chip_position_half chip_position_off chip_position_fails chips_relative chip_buffer chip_roi own_images shared_image shared_series pixel_mismatch_fails images_from no_region substring_fails stack_fails angle_in_range_spec centers_spec edges_needed; Convolved: exponential_is_fold exponential_error heating_is_half_fold fold_backToBack pink_excess pink_fold_iff pink_fold_fails lorentzian_is_minus_fold lorentzian_sign_fails pink_lorentzian fold_symmetric pink_lorentzian_fails width_fails erfc_zero erfc_pos; Aliases: alias_target alias_total alias_exact fileMap_eq candidates_mem candidates_eq; MatArrays: blockSparse_eq blockSparse_entry blockSparse_mult rankOne_entry rankOne_apply nullRows_unit nullRows_orthogonal nullRows_small nullRows_complete nullSpace_wide svd_row svd_row_null nullSpace_tall_fails; Spherical: polarPairs_mem etaOmePairs_square_partial outPixel_inside outPixel_affine etaOmePairs_shape_fails etaOmePairs_hidden_fails warpMaps_several_fails; LeBailCalib: mean_none lineouts_each cut_rows cut_flatten full_lineout refineTranslation_spec refineTilt_spec refineInstrument_spec updateInstrument_dets updateInstrument_flag updateShkl_valid updateShkl_zero_partial errvec_squares rwp_perfect updateShkl_leak_fails rwp_fails; StackFault: lfact_eq shift_published factors_perm shift_order friedel factors_each select_aligned faults_linear faults_widen shift_known width_order_fails published_width_order width_fails; H5Opts: first_read chunk_fits later_reads; Profiler: replaced_iff; Scoped: limit_result noSet_run limit_respected; Resolution: maxTth_spec runMin_spec runMax_spec resolution1_spec pixelResolution_spec mem_counted maxResolution_spec highest_agree maxResolution_fails; NfKernels: binary_half_turn gvec_library gvecs_library normalized_direction toXY_scale toXY_some_iff toXY_library_partial library_toXY_partial backwards_fails; CellSummary: density_mass avA_mean density_split avA_bounds avZ_mean_partial avZ_fails below_file below_partial below_first_fails below_mono primary_axis secondary_axis tertiary_axis_partial orthorhombic_fails; NamedBuffer: fromStr_region fromStr_refused_partial negative_fails stale_fails; CheckRun: handle_spec handle_error handle_self empty_fails; FrameMemo: read_fresh_partial read_current_partial; AtomData: setAtomdata_iff setAtomdata_refused_partial removeDuplicates_partial removeDuplicates_fails; EulerClass: create_iff rot_sense extrinsic_turns rot_rotation makeRmat_rotation intrinsic_extrinsic rot_turn makeRmat_inverse units_keep_partial setUnits_iff setRmat_getRmat create_rmat_partial letters_fails list_fails; LayerAttrs: serialize_deserialize; ImsConfig: images_last images_each_partial own_entry_partial listed_entry_partial shared_entry_partial overwritten_fails joined_fails; ClusterParams: minSamples_iff minSamples_some complete_enough minSamples_mono meanRpg_spec meanRpg_tie parameters_partial parameters_perm; OutFiles: kinds_distinct new_injective old_injective_partial spaces_ends maps_named underscore_fails space_fails grains_shared_fails

## Disagreements between the code and the properties

Where a property is false of the unchanged code, the negation is proved with a
concrete witness, and the part that holds is proved as `..._partial`.

- **C02** `memoize(maxsize=0)` raises on every call; the key ignores dtype, does
  not separate lists from tuples, nor a keyword from a positional pair.
- **C03** the first image of `average_iter` is the live accumulator.
- **C05** images taller or wider than 65536 lose pixels (16-bit indices).
- **C06** metadata keys can overwrite the frames of an npz frame cache.
- **C08** series of single-frame files ignore `empty-frames` and `max-total-frames`.
- **C09** a raw file whose header is longer than a frame is refused.
- **C10** the last omega range is not validated.
- **C11** an omega range inside a single frame gives no frames.
- **C13** a rectangle as the first operation raises for nested processed series and
  for two-dimensional hdf5 datasets; frame lists of numpy integers raise.
- **C14** unsigned dark subtraction wraps around below zero.
- **C15** after a mask assignment the listings (`getHKLs`, `getTTh`) are right exactly when
  the sort order is its own inverse; after an index-list assignment the read-back of
  `exclusions` is right only then. An index list as long as the number of reflections is
  taken for a mask and refused.
- **C19** in Pa-3 (205) `Allowed_HKLs` also drops `0kl` with odd `l` and `h0l` with odd `h`,
  which no operator of the group extinguishes; (0 2 1) is the witness.
- **C20** `symmetry.latticeType` takes every number below 1 for triclinic; `SpaceGroup` and the
  unit cell do refuse such numbers.
- **C25** `Material.latticeParameters = six values` does not check the conditions of the
  crystal system.
- **C27** entries of the structure matrices below 2^-26 are cleared, so a cell with an angle
  very close to 90 degrees has Cartesian scalar products that differ from the direct ones.
- **C58** for point group 2/m (10-15) `SYM_PG_c` and `SYM_PG_c_laue` are one array, turned
  twice, so the twofold axis is along y instead of z.
- **C21** the largest `h` is taken from the spacing of (h 0 0) alone; in an oblique cell a
  reflection with larger `h` can have a smaller reciprocal length. P2/m, a = b = c = 1,
  beta = 120: (8 0 -4) has d = 1/8 and is not listed for dmin = 1/8.
- **C24** what `tThMax` hides while the reflection list changes is stored as excluded and stays so when `tThMax` is lifted (`tthmax_exclusion_sticks`).
- **C26** three-index directions come back reversed for some inputs, e.g. `[1 -1 -2]` (`direction_reversed`); the four-index form has `U+V+T = 1-W` instead of 0 and three or more rows raise (`four_index_wrong`); `convert_Miller_direction_to_cartesian` is right for four-index, not three-index, directions (`cartesian_of_four_index`, `cartesian_of_three_index_wrong`).
- **C28** `CalcOrbit` starts the list with the position as given, not reduced to the cell. A position outside [0, 1) is listed in addition to its reduced copy, so the number of atoms is one too large (`outside_counted_twice`, `outside_sample`).
- **C59** `remove_duplicate_atoms` accepts an atom as sharing a site as soon as its occupancy and that of one kept atom sum to at most 1, and stops comparing. Three half-occupied atoms on one site are all kept, with total occupancy 1.5 (`three_halves`).
- **C29** `MakeStiffnessMatrix` assigns the stiffness and then `self.compliance = inv(C)`; the setter of `compliance` overwrites the stiffness with `1000 * C` (`stored_thousandfold`).
- **C30** the table has no entries out of `nm`: a length in nanometres cannot be converted to anything (`nanometre_stuck`).
- **C31** `mapAngle` takes the minimum and maximum of the range, so a range in the wrong order is accepted (`reversed_accepted`); the width is compared with `np.allclose` and then used as the period (`width_not_period`: 720 degrees in [0, 360.001] becomes 359.999).
- **C32** `angularDifference` is `min(d, period - d)`, negative for angles more than a period apart (`angularDifference_negative`).
- **C33** `_scipy_rotation_to_quat` multiplies by `np.sign` of the scalar part, which is 0 for exact half turns: `quatProduct` (and `quatOfRotMat`, `quatOfExpMap`, which share it) then returns the zero quaternion (`product_half_turn`).
- **C36** `symm`, `skew` and `vectorOfSkewMatrix` call `A.resize(1, m, n)` on the caller's array, so a square matrix passed in has three dimensions afterwards (`argument_reshaped`).
- **C37** `findDuplicateVectors` lets dropped vectors drop others: for 0, 2/3, 4/3 with tolerance 1 only the first is kept although the last is 4/3 away (`chain_dropped`). `uniqueVectors` links values by steps in each row, with the same effect.
- **C39** `compute_areas` adds the triangles 0 1 2 and 0 1 3 where the second should be 0 2 3 (the first edge vector is not updated in the loop): for (0,0), (1,0), (3,3), (0,1) it gives 2, the area is 3 (`areas_wrong`). It is right exactly when side 1-2 is parallel to 0-3 (`areas_partial`).
- **C42** `cellIndices` gives -1 for the first edge of a descending grid (`bin_down_first`), the wrong bin near the end when bins are narrower than twice the tolerance (`bin_narrow`), and wrong bins for integer points, where the shift is truncated to 1 or 0 (`bin_integers`).
- **C43** `unwrap_dict_to_h5` empties the caller's dictionary with `popitem` (`h5_emptied`); a shallow copy, as made by the frame-cache writer, does not protect nested dictionaries (`h5_copy_emptied`). One-element arrays come back as scalars, `None` entries are lost and string arrays come back as one string.
- **C44** `NumpyEncoder` passes the bytes through `raw_unicode_escape`, which interprets `\\uXXXX` in the data: such data changes (`json_escape_lost`) or raises (`json_escape_fails`).
- **C45** `parallelise_function` ignores its extra positional arguments (`args_dropped`). The worker formats `res[2]` for its log message after putting the result: if that raises, the worker dies and the caller waits for ever (`stuck_after_log_error`).
- **C46** A two-element panel buffer means different regions in `clip_to_panel` (mm) and `panel_buffer_as_2d_array` (rounded to pixels): `buffer_disagree`. Negative widths select the last rows (`buffer_negative`).
- **C64** `interpolate_nearest` looks the point up among pixel *centres*, so it returns the pixel above and to the left (`nearest_floor`), even at pixel centres (`nearest_centre`), and for the outer half of the first row or column the value from the opposite edge of the detector (`nearest_wrap`).
- **C62** On the lower or right edge of a panel with an even number of rows or columns `cartToPixel(pixels=True)` gives an index beyond the panel, as NumPy rounds halves to even (`pixel_edge`).
- **C65** The bilinear value of an integer image is truncated to an integer (`bilinear_integer`).
- **C47** The first end of a range given one turn (or more) later is rejected, although the other end and all interior angles are accepted modulo turns (`first_end_a_turn_later_is_rejected`: range [-180°, 0°], angle 180°). A range shorter than `sqrt_epsf` is taken as a full circle (`short_range_accepts_everything`).
- **C48** `gvec_to_xy` documents NaN for vectors that cannot satisfy a Bragg condition; the code gives `g` and `-g` the same point (`gvecToXY_neg`).
- **C66** `PlanarDetector.angles_to_cart` recovers chi and omega with arccosines, losing their signs: for omega = -90° the point returned is on the wrong side of the beam (`anglesToCart_negative_omega`).
- **C52** A detector whose name is the end of another detector's name reads the distortion parameters of both (`suffix_fails`); eleven or more distortion parameters are read in lexicographic order of their names (`eleven_sorted`).
- **C54** `rename_to_avoid_collision` renames a name that collides with nothing if an earlier rename produced it (`rename_steals`); of repeated old names the mapping keeps only the last (`rename_mapping_duplicate`).
- **C55** The TARDIS constraint does not hold after it is applied if the plates are lopsided or exchanged (`tardis_lopsided`, `tardis_exchanged`).
- **C67** With the laboratory origin as center, or a group constraint about the instrument center, the detector positions depend on the history of the parameters, so the residual is not a function of the parameters (`origin_history`, `group_instrument_history`).
- **C56** For odd windows the quadratic kernel of `snip1d_quad` is not symmetric: straight lines are shifted by two thirds of their slope (`quadKernel_odd`), so a mirrored image does not give the mirrored background. `snip1d` of an integer image with a threshold stores NaN in an integer array (not modelled).
- **C68** `Dexela_2923` decides the quadrant of the inverse by the distorted point and its map can send two points to one (`dexela_overlap`). `GE_41RT.apply_inverse` ignores the exponents (`ge_exponents`), returns NaN at the origin (`ge_origin`) and wherever the distortion enlarges (`ge_enlarging`).
- **C70** `_normalize_ranges` compares `starts[1:]` with `stops[0:-2]` of the unsorted arrays. One or two ranges are never checked, so a range inside another silently removes angles (`ranges_nested`); three disjoint ranges not in order raise "overlap" (`ranges_unsorted`); an overlap of the second and third is missed (`ranges_overlap_missed`); with four or more the shapes do not fit and it always raises (`ranges_four`).
- **C71** The documentation of `paintGrid` says that bins with NaN are excluded. A window with a NaN counts as a hit if a bright pixel comes before the NaN in scan order (`dilated_nan_order`).
- **C72** `paintGrid` with `doMultiProc` and fewer orientations than processes calls `pool.map` with chunk size 0, which returns a list of `None` without testing anything (`paintGrid_few`).
- **C73** `CylindricalDetector.angles_to_cart` and `beam_position` call `_project_on_detector_cylinder` and friends through `hexrd.hedm.xrdutil.utils`, which does not define them, so they raise AttributeError; `_project_on_detector_cylinder` leaves the direction in the sample frame (`projectAngles_tilted_stage`); directions along the axis give NaN marked valid (`axis_direction_marked_valid`); a sample outside the cylinder sees hits behind it (`backward_ray_reported`).
- **C74** the azimuth reference of the instrument is not passed to the projection of the polar view (`evec_ignored`); for a cylindrical detector the sample position is not either (`cylinder_ignores_sample`); `bin_polar_view` with a range larger than the interval gives NaN bins (`bin_wraps`). A polar pixel is masked when any of its four neighbours is in the buffer, even with weight zero, and overlapping detectors are summed.
- **C75** `_gaussian_pink_beam` multiplies only the first of the two exponential terms by the normalising factor, so a profile with equal rise and decay is not symmetric about its centre.
- **C77** `estimate_mpk_parms_1d` accepts a cubic background and allocates four coefficients, `mpeak_1d` ignores them.
- **C78** `fit_pk_parms_1d` bounds the background intercept of a split pseudo-Voigt by `2*p0[4]`, twice the mixing parameter of the guess (one), in place of `2*p0[6]`: the guess is penalised by its own bounds for every intercept above one.
- **C78** `estimate_mpk_parms_1d` subtracts the smallest data value from the upper bound of pseudo-Voigt amplitudes although the amplitude guess is already above the background: with a high background the start is above its bound and `least_squares` raises.
- **C78** `estimate_pk_parms_2d` uses the mean of the corners as the value of the background at the origin of the coordinates: a planar background is not removed unless the patch is centred there. `estimate_pk_parms_1d` takes a quarter of the range as width whenever the first sample is the largest.
- **C80** `split_pvoigt_1d` concatenates the values left of the centre and those right of it: for positions that are not increasing the result is in another order (`splitPvoigt1d_unsorted`).
- **C81** `_set_peak_center_bounds` takes `len` of what `np.squeeze` leaves of the unique centres. If two peaks merge into one value this raises a `TypeError`, which `SpectrumModel.fit` does not handle: it handles `RuntimeError` (`two_close_peaks`).
- **C81** In the second stage of `pink_beam_dcs` fits the constraint on the pattern `alpha` matches `alpha0` and `alpha1` (and `beta` both slopes): the slope of each edge is tied to the intercept (`dcs_slopes_equal_intercepts`).
- **C82** Comparisons with NaN are false, so that a ring with NaN centres is accepted (`acceptRing_nan`).
- **C83** `_filter_hkls_eta_ome`: `ccw` is set to false by the first decreasing omega range and never reset, so every later increasing range is taken clockwise, that is, its complement is accepted (`sticky_direction`). The same loop is in `simulateOmeEtaMaps`.
- **C84** `simulate_rotation_series` is defined once for all detectors and always projects on a plane, so for a cylindrical detector the simulated points are those of the tangent plane; it also measures eta from the default reference whatever the `evec` of the detector is. `simulateGVecs` (hedm/xrdutil/utils.py:574-707) calls `xfcapi.mapAngle`, a stub that raises, so it fails whenever a reflection passes the filter.
- **C86** `Detector.angularPixelSize` passes `(pixel_size_row, pixel_size_col)` as (width, height): wrong for pixels that are not square (`detector_pixel_size_swapped`).
- **C87** `zproject_sph_angles`: the equal-area projection of the upper pole is the origin (`equalArea_poles`); the mask keeps the lower half sphere (`mask_lower`); `invert_z` with `source='g'` negates the caller's array in place (`input_changed`).
- **C88** `make_reflection_patches` builds `row_edges` with the column size and `col_edges` with the row size (`patch_pixel_swapped`).
- **C90** `save` of one configuration writes a YAML list of one mapping; `open` then makes a configuration out of the list, and every lookup raises (`save_one_lost`).
- **C91** `Config.set` walks through `temp.get(arg, {})`: for a missing or empty section the value is written into a dictionary that is not stored, and the configuration is marked dirty (`set_lost`).
- **C92** An invalid multiprocessing value gives `ncpus - 1` processes, zero on one processor (`multiprocessing_invalid`); the setter rejects -2, -3, ... although the getter understands them (`setMultiprocessing_spec`).
- **C94** `calc_transmission_sample` and `calc_compton_transmission` divide by the difference of the optical paths; where it is zero (for example the pixel in the direct beam) the result is not a number, although the mean exists (`package_partial`, `comptonLayer_spec`).
- **C94** `calc_compton_transmission` for the window uses `sample_absorption_length` (`comptonFromWindow_wrong`).
- **C94** `calc_transmission_phosphor(secb, t_p, al_p, L, ...)` has readout and absorption length exchanged, and multiplies lengths where a coefficient is needed (`filterCoating_phosphor_value`, `filterCoating_phosphor_wrong`).
- **C95** no pinhole gives the area 1, a pinhole of any thickness above 1e-8 gives pi/4 on the axis (`pinhole_axis`).
- **C97** `np.interp(..., left=0.0, right=0.0)` is in logarithms: outside the table the coefficient is exp(0) = 1 (`massAttenuation_outside`).
- **C100** `load_eta_ome_maps(..., clean=True)` returns the freshly computed maps without the filter that the configuration asks for; without the option, computed or loaded maps are filtered. The same data and configuration give different maps (`load_clean_unfiltered`).
- **C101** `generate_eta_ome_maps(hkls=array)`: the annotation allows arrays, but `if hkls:` raises ValueError for an array with more than one entry, and takes a one-entry array holding reflection 0 as absent. The model covers lists.
- **C102** `run_cluster` returns as second value the labels of the clustered orientations, but after the second pass of the Euclidean variants it returns labels of the cluster averages instead (`labels_of_clusters`). The log message says ">=" where the code uses ">" for the threshold.
- **C103** The centre of a patch is taken as half its shape, not half of shape minus one (hedm_instrument.py), so of two spots the farther one can be reported. An omega tolerance that gives one frame per window makes the labelling fail because the structure is 2-D and the data 3-D. Not modelled: `output_format="hdf5"` always fails (`filename + ".hdf5"` on a Path).
- **C104** A saved overlap table makes determine_valid_reflections raise NameError (`grain_id`, fitgrains.py:285). With a negative omega step refine_valid_reflections rejects every spot. The count compared with the twelve parameters includes saturated spots that the fit does not use. Not modelled: with a distortion the raw measured places are compared with ideal calculated ones.
- **C106** `ids_to_refine` (`hexrd fit-grains -g`) selects rows but the tasks look rows up by grain number in the selected table: an IndexError or the parameters of another grain. fit_grains with one process overwrites the caller's table with the fitted parameters.
- **C107** fitGrain passes no omega period (and raises if one is given), so for a series from 0 to 360 degrees a spot past 180 degrees can be matched with the wrong solution. chi squared divides by 3n-13, negative for n <= 4. Flag 1 returns the sum of absolute residuals although the comment says squares (not modelled).
- **C108** `insideDihedralFZ` has no return value for order 2, so no orientation at all is accepted for the point groups 222, mm2 and mmm and their sample is empty (`inside_orthorhombic`).
- **C108** The zone for 32, 3m and -3m is turned by 30° against the two-fold axes of `quatOfLaueGroup`; some orientations have no accepted equivalent (`inside_trigonal_gap`).
- **C108** For 622 and the other groups of the class 6/mmm four faces are tested with `<`, so both copies of a face are lost (`inside_hexagonal_boundary`); for -43m the zone of 23 is used, twice the zone of its Laue class (`inside_43m`).
- **C110** `calc_volume` keeps only roots under compression, and returns the volume at zero pressure when there is none: negative pressures are ignored (`volume_tension`), and so are pressures above about a fifth of the bulk modulus with the default `k0p = 0` (`volume_no_root`).
- **C110** `calc_lp_factor` divides by the volume at the temperature, not by `v0`, so thermal expansion cancels: lattice parameters at zero pressure do not depend on temperature (`lp_no_expansion`, `lp_volume_iff`).
- **C111** `get_rmats` does not check that the direction lies in the plane; otherwise the frames are not rotations and neither are the variants (`rmats_orthogonal`).
- **C112** `matches_material` returns `None`, which is falsy, when every parameter agrees (`matches_silent`).
- **C112** Cards of version 2, 3 and 4 call trigonal crystals hexagonal, so a trigonal material is refused (`old_trigonal`).
- **C113** `_calcxrsf` multiplies the phases of all equivalent atoms by the displacement factor of one tensor; the tensors of equivalent atoms should be turned with them. Equivalent reflections get different intensities (`anisotropic_differs`).
- **C114** `compute_intensities` cuts `sf`, which has an entry for every reflection, and `tth` and `LP`, which have entries for the reflections in the range, to the same length; with k reflections below the range each one gets the structure factor of the reflection k places earlier (`misaligned`).
- **C115** `_calc_laue_factor` uses `(2/pi/x)**2` for large crystallites where Sabine's formula has the square root: the factor drops from 0.68 to below 0.41 at x = 1 (`laueCoefficient_jump`). `_calc_absorption_factor` divides by the cosine of the exit angle for a tilted plate and not for a plate at a right angle, and can exceed one (`absorption_amplifies`).
- **C116** `_rqd_shkl` applies the weights of Stephens' hexagonal and trigonal constraints (2, 3, 1.5) to coefficients that `_anisotropic_peak_broadening` multiplies by 2, 3 and 4 again: equivalent reflections of hexagonal and trigonal crystals get different widths (`hexagonal_fails`). `"haxagonal"` is not a key: all trigonal groups with a primitive lattice raise KeyError (`required_fails`).
- **C117** `_gaussian_fwhm` converts the square of an angle with `np.degrees`: strain attributed to the Gaussian part is more than seven times too narrow (`strain_widths`). `_split_unit_gaussian` and `_split_unit_pv` count the centre on both sides: 2 in place of 1 (`split_centre`). `_func_W` adds the height of the beam where it is to be subtracted (`funcW_fails`), and `pvfcj` divides by the cosine of the difference from the line in place of the angle (`fact_fails`). Parts with an area below 1e-6 are not normalised (`mixed_area_fails`).
- **C118** `calc_Iobs_*` evaluate the profile at the masked points and mask it again: where the simulated pattern is zero somewhere the lengths differ (`extraction_fails`); `Iobs` is `np.empty` beyond the number of former intensities (`iobsArray_fails`). `calc_rwp` gives infinity for a perfect fit (`perfect_fit`). `single_azimuthal_extraction` starts with `rel_error = 1.0`, so a limit of one percent or more runs no cycle and `L.Iobs` does not exist (`extraction_none`).
- **C119** `tth_step` divides by the number of points (`tthStep_fails`). `_update_shkl` keeps one dictionary for all phases: parameters of anisotropic broadening of a phase of low symmetry act on the phases after it (`updateShkl_leaks`).
- **C120** `Spectrum.set_background` and `reset_background` assign `bkg_spectrum`, while `data` reads `bkg_Spectrum`, so a background that is set is never subtracted (setBackground_fails). `__add__` and `__sub__` compare the number of points, not the positions: two patterns of equal length on different, even disjoint, positions are combined point by point (combine_fails). `extend_to` builds the new pattern from the raw values, so the scaling and the offset of the pattern are lost (extend_fails).
- **C121** (1) The stacking-fault parameters of a phase `X` are called `X_sf_alpha` and `X_twin_beta`, which are also the angles of phases called `X_sf` and `X_twin` (`collision_fails`). (2) Hyphens in names become underscores, so `a-b` and `a_b` share all parameters (`sanitize_fails`). (3) Coordinates outside [0, 1] are clipped instead of reduced (`outside_fails`). (4) `atominfo_vary` is assigned anew for each atom (WPPF.py:1743), so refining an atom other than the last does not recalculate the structure factors (`recalculated_fails`). Not modelled but seen: the March-Dollase parameter is read for the last phase only (WPPF.py:1786-1789), and `asym_pos` is not recomputed from refined positions.
- **C122** (1) In the measured amorphous model the scale multiplies only what exceeds the minimum of the signal; the minimum is added unscaled once per component (`scale_fails`). (2) `calcTDS` assigns instead of adding, so only the last element contributes (`calcTDS_fails`), and `formfactor` uses the scattering factors of the first element and the corrections of the last for all. (3) The term of the direct beam is not cut off at its zone; the cut-off is commented out (`contribution_zero_fails`). (4) `model_type` is compared without regard to case when it is set, with case everywhere else (`case_fails`). (5) A wrong number of widths is ignored without a message (`fwhm_fails`). Not modelled but seen: `TDS_material` with the experimental model never uses its data, and needs a material and a wavelength.
- **C123** `calculate_coherent_scattering_factor` puts s = Q/4π in the exponent where the table is for s² (compare `xtal.py:96-102`, modelled in C113): the factor is too small for all 0 < Q < 4π (`coherent_fails`). `calculate_incoherent_scattering` squares the weighted factors (`incoherent_fails`). `calculate_number_density` is the number of formula units, although documented as atoms (`numberDensity_fails`).
- **C124** Texture: for cubic crystals the tables contain a harmonic of degree 2 (`Y₂₀`), which no cubic group has: (001) and (100) get different pole figures (`cubic_fails`). For monoclinic crystals the harmonics have the twofold axis z, and the Laue group y (`monoclinic_fails`; a comment in the source says this needs attention). `get_num_sym_harm` names `d3h` for `d3d`, so crystals of that group cannot have a texture at all (`d3d_fails`). `check_degrees` names `td` for `th` (`th_degree_fails`).
- **C125** `MarchDollaseModel` stores the length of the axis when HKL is set. If the lattice parameters of its phase are refined afterwards, `cos2_alpha` is scaled by the square of the ratio of the lengths (texture.py:672-678, 751-756): 1/4 instead of 1 for a cube whose edge doubles. `get_parameters` always adds the value 1 without variation (texture.py:732-745), ignoring `P_MD` and `vary`, so that the next calculation resets the texture.
- **C126** `sph_c_rings` is filled once per reflection and never refreshed (texture.py:1117-1130): after the lattice parameters have changed the harmonics belong to the old direction, and after `ell_max` has been raised the next calculation ends in a `KeyError`. The `sample_rmat` setter does not recompute the rotated angles of the data. The `pfdata` setter overwrites the arrays of the caller, and negative intensities get negative weights, whose NaN residuals are dropped without notice.
- **C127** `UnimodalODF.estimated_max_value` evaluates the ODF at its modes only. For two modes the maximum lies between them: with half-width 90 degrees and two equal modes 90 degrees apart, the value half way is 14 % larger (`estimated_max_fails`).
- **C127** `_symmetrized_eval` takes the first operand as the reference if it is a single orientation. A single query is therefore symmetrised itself, a longer array has the mode symmetrised. Both agree only if the operators form a group; a quaternion array given by the user is not checked (`array_symmetry_fails`).
- **C129** `simulate_laue_pattern_on_panel` keeps the reflections of plane data with `B h · beam ≤ 0` in the crystal frame (simulation.py:38), before the crystal orientation is applied. For a rotated crystal the row is labelled by the opposite reflection (label_fails).
- **C130** In the Laue objective function predictions that are NaN are removed on one side only, so with exactly one prediction left all picks are compared with it (laue.py:540; residual_one_predicted). The stage translation is not passed on (laue.py:513-520; stage_fails). A detector without picks raises IndexError (laue.py:442).
- **C131** The getter of grain picks raises KeyError when a detector of the instrument has no entry (abstract_grain.py:147; grain_missing), and collapses two spellings of a reflection (grain_spelling_fails). A powder key with one index is taken as three equal indices (powder.py:173; powder_single_index).
- **C133** `PowderCalibrator.tth_tol = x` ignores `x` (`powder.py:126-129`): it writes back the old width, and raises a TypeError when there is none (`tth_tol_fails`). A ring with panels but no points gives a NaN parameter in `create_tth_parameters` (`empty_ring_fails`).
- **C134** `sxcal_obj_func` passes `beamVec=bvec` to `matchOmegas` but calls `gvec_to_xy` without `beam_vec` (calibration/grain.py:165-182), so the place is the one of a beam along -z: `calibration_tilted_fails`.
- **C134** `objFuncFitGrain` looks for NaN in `calc_xy`, the array of the last panel in the loop, instead of `calc_xy_all` (fitting/grains.py:345): `missing_first_fails`.
- **C135** `hsl2rgb` (colorspace.py:49-50) sets values next to 0 and 1 in the array it was given, so the array of the caller changes (`argument_changed_fails`).
- **C136** `GeneratePGSYM` (symmetry.py:330-371) multiplies an operator only with itself and with later ones and stops when the list is exhausted; for `d4`, `d2d`, `d3` and `c3v` this leaves out one of the operators (7 of 8, 5 of 6), so the list is not a group (`generated_group_fails`). `c3v` is the supergroup used for the colours of the space groups 143 to 146 and 156 to 161.
- **C137** a null direction in an array with others passes the check of `reduce_dirvector` (unitcell.py:1220-1228: the norm is that of the whole array), becomes NaN and disappears from the result (`null_row_lost`).
- **C137** the sector of the Laue group `d3d` has its walls at ±30° from the first axis. The space groups 149, 151, 153, 157, 159, 162 and 163 have the Laue class -31m with mirrors at 0° and 60°: directions such as (1, 1, 1) have no image in the sector and are lost (`trigonal_lost_fails`); a single such direction raises an exception.
- **C137** with the point groups instead of the Laue groups, the missing operator of `c3v` loses directions (`c3v_lost_fails`).
- **C139** `multiproc_inner_loop` (nfutil.py:975-985) takes the end of a chunk from the length of all coordinates, so with several processes a limit on the coordinates that cuts a chunk raises; with several MPI ranks and a single process the last chunk of a rank runs past its share (nfutil.py:779-780); the gathered matrix goes to the result handler, but rank 0 returns its own share.
- **C140** `simulate_diffractions` makes an array with rows and columns exchanged (nfutil.py:511-517), so on a detector that is wider than high it writes outside; its frames are packed but the orientation test reads them as unpacked ones.
- **C141** `gen_nf_test_grid_tomo` starts at the lower bound where `gen_nf_test_grid` starts half a voxel above it.
- **C142** `process_raw_confidence` remaps `np.arange(max_grain_no)` (nfutil.py:1458), so the grain with the greatest number keeps its number.
- **C144** `gen_trial_exp_data` tiles the ids (nfutil.py:1430-1433) while the trials are listed grain by grain, and tiles them 27 times the number of steps, not (2 steps + 1) cubed times.
- **C145** `tth_corr_pinhole` multiplies the half thickness by the radius (phutil.py:365-367), so its origin is at the back face only for a radius of 1; `tth_corr_map_pinhole` uses a name that is not defined (phutil.py:402) and always raises.
- **C147** `calc_phi_x` is an arccosine (phutil.py:437): the sign of the azimuth of the source is lost. `tth_corr_map_rygg_pinhole` reports nominal less seen, `polar_tth_corr_map_rygg_pinhole` seen less nominal.
- **C148** `fit-grains` without options after `find-orientations` always stops with "analysis already exists", because the search writes `grains.out` where the fit looks for earlier results (find_orientations.py:65-80, fit_grains.py:243-247). `find-orientations` checks only the accepted orientations and overwrites a table of fitted grains (`find_overwrites_fails`). With several sections the accepted orientations are loaded once, from the first (fit_grains.py:253-266), so a later section uses those of the first, or raises `NameError` if the first did not need any.
- **C149** `GrainData.from_grains_out` raises `IndexError` on a table of one grain, since `np.loadtxt` without `ndmin=2` gives a vector (fit_grains.py:66-68); `fit-grains` itself reads with `ndmin=2` (fit_grains.py:382).
- **C150** The list of frames is used only if the number of frames asked for differs from the length of the file (preprocessors.py:114, 194-196), so with equal numbers `start_frame` is ignored in silence instead of raising (`processed_start_fails`). `key.lower() in file_name` looks in the whole path (preprocessors.py:250): a sample or directory with a panel name in it gives the file of one panel the operations of another (`preprocess_panel_fails`), and a file name in capital letters is skipped (`preprocess_capitals_fails`). `save_processed` makes `output_dir` but writes to the current directory (preprocessors.py:68-88; not modelled).
- **C152** Materials: with every reflection excluded the file has no `hkls` and the first five are enabled after loading (mksupport.py:571-574, material.py:348-370). `mk` always raises `KeyError: 'pressure'` after deleting the group of that name (mksupport.py:343, 515, 541). The dialogue sets b to c for orthorhombic cells (mksupport.py:141) and gives numbers above 230 for the rhombohedral setting (mksupport.py:269-282), which unitcell.py:1596 refuses. `save_materials_hdf5` ignores the keys of the dictionary.
- **C153** Tomography: `len(tdf) == None` raises for the default `tdf=None` (tomoutil.py:88). The loops over labels end before the last one, so a single speck is never removed and the last hole never closed (tomoutil.py:170, 178). `a[c:-c]` is empty for `c = 0` (tomoutil.py:138, 227). The circular mask is centred on `nx / 2`, half a voxel off the middle (tomoutil.py:230-234), which agrees with the coordinates of the test grid.
- **C154** `dumper.py:48` replaces what follows the last dot of a key by `.npy`, so arrays under `dark.0` and `dark.1` are saved in the same file `dark.npy` and both are read back as the one saved last (`round_trip_fails`). The check for a missing path at line 45 comes after the path was used.
- **C155** `ImageSeriesIterator.__next__` turns every `IndexError` of the series into the end of the iteration (`iterate_fails`). `EigerStreamV2ImageSeriesAdapter.__setstate__` reads the metadata again and loses changes to them (`pickle_metadata_fails`). `FunctionImageSeriesAdapter` documents `metadata` but reads `meta` (`func_metadata_fails`). `yamlmeta` raises for an empty string (`metadata_empty_fails`), drops values with an unknown trigger (`metadata_unknown_fails`), and reads file names up to the first blank (`trigger_blank_fails`).
- **C156** `spectrum_expt` documents a `Spectrum` as input, but `global_shape` is set only for arrays and files (WPPF.py:347-358), so a new object given a `Spectrum` raises when the pattern, background or weights are read (`spectrum_fails`), and an object that held a longer array reads a pattern that is too long (`spectrum_stale`).
- **C156** the Chebyshev background is fitted with the range of the used points as its domain (WPPF.py:799) but evaluated with the range of all points (WPPF.py:187-189); with masked ends the background at the start is a stretched copy of the fit (`background_stretched`, `background_masked_fails`).
- **C156** `_update_bkg` takes every parameter with "bkg" in its name for a coefficient (WPPF.py:217-219): a phase named bkg_1 changes the background and one named bkgd makes every calculation raise (`phase_name_fails`). A smaller degree given to an existing object raises as soon as the parameters are taken over (`smaller_degree_raises`).
- **C156** the lists of offsets are made empty for every region (WPPF.py:474-476), so only the shift of the last region is remembered, and regions are moved by different amounts (`offset_last`, `offset_fails`).
- **C157** `reset_relative_constraint_params` sets the constraint to zero and leaves the parameters: taking these over again moves the detectors by the whole constraint a second time (`reset_fails`). It also sets the centre of rotation back to the mean centre, though the comment only says "set them back to zero" (`reset_center_fails`). `minimize` with another method than least squares raises if the options contain `max_nfev` (`options_spec`), and an invalid engineering constraint raises TypeError from `map(valid_settings, str)` instead of the message (`engineering_spec`).
- **C158** `write_config` does not write filters, coatings, phosphors and the active beam, and clobbers masks in YAML (`written_fails`); `distortion.params` does not exist for the identity and `float(None)` raises (`unwritable_fails`). With `active_beam_name` given, a configuration with one beam gets a second, default one (`named_beam_fails`). With style hdf5 the corrections in the dictionary are those of the instrument and `unwrap_dict_to_h5` empties them (`correction_fails`). `source_distance` is stored before the detectors refuse it if it is not a Python float or int (`foreign_distance_fails`), and `active_beam_name` and the other setters then raise (`int_distance_fails`).
- **C159** `chunk_instrument` takes the middle of a rectangle in units where a pixel starts at an integer and passes it to `pixelToCart`, which takes the index of a pixel and adds half a pixel itself; every chip is placed half a pixel too far down and to the right (`chip_position_half`, `chip_position_fails`). `_parse_imgser_dict` gives a detector without images those of a detector whose name contains its name (`substring_fails`) and raises for stacks of images, whose loop lacks an `enumerate` (`stack_fails`). With labels of another form than those of `generate_chunks` two chips may share a name and one is lost (`chips_lost_fails`).
- **C160** In `_gaussian_pink_beam` (wppf/peakfunctions.py:522 and core/fitting/peakfunctions.py) the factor `0.5 * alpha * beta / (alpha + beta)` multiplies the first of two terms only (`pink_excess`, `pink_fold_iff`). `_lorentzian_pink_beam` uses `-alpha * del_tth` where the exponential before the centre needs `alpha * del_tth`, so both exponentials come after the centre (`pink_lorentzian`, `pink_lorentzian_fails`). `_lorentzian_exponential` lacks a minus sign and is negative everywhere; the division by its area repairs this (`lorentzian_sign_fails`). The argument called `fwhm_g` is used as a standard deviation (`width_fails`).
- **C161** `load_module` writes the merged names into the new module itself (module_map.py:193), and takes them from every module below the old name as well (module_map.py:144): importing an old package changes what its new package exports (`load_leaves_new_fails`).
- **C163** For a matrix with more rows than columns `nullSpace` (matrixutil.py:104-105) returns the transposed basis of the null space of the transpose, not a basis of the null space (`nullSpace_tall_fails`).
- **C164** `warp_eta_ome_map` pairs pixels and projections wrongly unless as many etas as omegas are used (spherical.py:91-98, `etaOmePairs_shape_fails`) and unless all points are on the lower hemisphere (spherical.py:118-143, `etaOmePairs_hidden_fails`); `append[...]` raises for several maps (spherical.py:153, `warpMaps_several_fails`); the setters of `mapping` and `vector_type` store nothing (spherical.py:42-54, `set_stores_fails`).
- **C165** `update_shkl` keeps one dictionary for all phases (LeBailCalibration.py:342-354): a broadening parameter that is not valid for a phase has the value of a phase before it (`updateShkl_leak_fails`); `refine_translation` returns `_refine_tilt` (LeBailCalibration.py:499, `getTranslation_fails`); the residual takes the integral of the roots, not of the squares (LeBailCalibration.py:208-217, `rwp_fails`).
- **C166** the width by stacking faults: `_get_sf_hkl_factors` (xtal.py:268-271) sums |L0| over all equivalents, not only the broadened ones, and returns h0² (u + b) / Σ|L0|, where Σ|L0| / (h0 (u + b)) is the published factor of 1/D. 111 and 200 get the same width, and 222 twice that of 111 (`width_fails`, `width_order_fails`, `published_width_order`).
- **C167** reading `WriteH5.h5opts` removes the options (save.py:192-204), so a writer that writes a second time compresses with the defaults even if it was told not to compress (`second_read_fails`, `second_explicit_fails`).
- **C168** an entry whose first part cannot be imported, or without a dot, leaves the variable for the module unbound (profiler.py:53-64); the exception is not the one that is caught there, and the remaining entries of the file are skipped (`parse_stops_fails`).
- **C169** what is printed in a block whose output goes to the log is neither logged nor printed if the block raises an exception: the record is made after the `with` body only (logger.py:26-30). The output that would explain the exception is lost.
- **C170** a single detector without a pixel of nonzero size in both angles makes `max_resolution` raise an exception, whatever the other detectors are (hedm_instrument.py:484-492: `np.min` of an empty selection).
- **C171** for a detector in front of the grain the near-field code gives a position, where the ray continued backwards meets the plane, and the library gives none (nfutil.py:411-419 has no test of the sign of the distance).
- **C172** the mean atomic number weights the entries by their number of positions only, while the mean atomic weight and the density count occupations (unitcell.py:719, 726): for partly occupied positions it is wrong.
- **C172** `enable_hkls_below_tth` enables the first reflection whatever its angle (material.py:403), and raises an exception if there are no reflections.
- **C172** the third symmetry direction of orthorhombic crystals is `[1,0,1]` (spacegroup.py:411), which is no axis of symmetry; `[0,0,1]` is.
- **C173** a region of interest that ends at a negative row or column is taken from the other end of the named mask instead of being refused (panel_buffer.py:66).
- **C173** changing the number of rows of a detector leaves the size of its region of interest as it was (detector.py:347-350, 419-433).
- **C174** a run that gave fewer results than the reference, even none, is reported as a full pass (nfutil.py:254-266: only the common part is compared, and only extra results are noticed). A result that is not in the reference is reported as an error, not as the documented FAIL.
- **C175** a file saved twice within the resolution of the clock and with the same size gives the frames of the first (documented in framecache.py:300-302); a file that is not there has the identity `(0, 0)` (framecache.py:306), under which frames can be kept and given for the removed file.
- **C175** the number of frames and the shape are read when a series is opened, the frames at the first access (framecache.py:52-57, 232-242): saving the file in between mixes both.
- **C176** `_set_atomdata` assigns the atomic numbers, positions and displacement parameters before the charges are checked (core/material/material.py:1466-1469): a refused charge leaves a material with the new atoms and the old charges, beside the old cell.
- **C176** `Material.remove_duplicate_atoms` takes over the positions, numbers and charges from the cell but not the displacement parameters (core/material/material.py:433-436): the next unit cell, made for instance when the space group is set, gives the parameters of removed atoms to others.
- **C177** `RotMatEuler` accepts units in any letters (rotations.py:823-825) but compares them with `degrees` exactly (rotations.py:867, 887): with `Degrees` the angles are taken as radians, and setting `degrees` multiplies them by 180/pi.
- **C177** `RotMatEuler` keeps a list of angles as a list; in degrees its matrix then raises an exception, a float times a list (rotations.py:820, 888).
- **C178** A misspelt attribute of a physics package, for instance sample_thicknes, is accepted by the constructor and by deserialize: it becomes a new attribute and the field keeps its default (`misspelt_fails`).
- **C179** entries of `image_series:data` with the same key overwrite each other silently (root.py:199), as do lists of panels whose joined names agree (`overwritten_fails`, `joined_fails`).
- **C180** a seed that is listed twice in `hkl_seeds` is counted twice (findorientations.py:669-671), which doubles the number of reflections a cluster seems to have (`twice_fails`).
- **C181** in the old placement analysis a_b of material c and analysis a of material b_c have the same files, so that one reads the maps of the other (root.py:69-76; `underscore_fails`); the materials "x y" and "x-y" always share their files (`space_fails`); grains.out is one file for all materials of an analysis (`grains_shared_fails`).
