{"id": "C01", "title": "Task distribution is a partition into balanced contiguous chunks", "statement": "distribute_tasks(n, w) returns half-open ranges that, in order, tile [0, n) exactly: every task index lies in exactly one range, ranges never overlap or leave a gap, there are at most w of them, none is empty when n > 0, and any two range sizes differ by at most one.", "quantifier": "every number of tasks n and every worker count w >= 1", "why_tests_cant": "Pairs (n, w) are unbounded; rounding errors show up only for particular remainders.", "anchors": ["hexrd/core/utils/concurrent.py:distribute_tasks"]}
{"id": "C02", "title": "Memoised functions return what the undecorated function returns, within the cache bound", "statement": "After any history of calls to a @memoize function, each call returns the value the wrapped function computes for these arguments; the number of cached entries never exceeds maxsize (maxsize >= 1); the entry evicted is the least recently used; hits + misses counts the calls. This holds when the key distinguishes the arguments; the key ignores array dtype and container kind, so two calls that differ only in these share an entry.", "quantifier": "every finite history of calls, every maxsize, every pure wrapped function", "why_tests_cant": "Correctness depends on the whole call history and on which distinct arguments collide in the key.", "anchors": ["hexrd/core/utils/decorators.py:memoize", "hexrd/core/utils/decorators.py:_make_hashable"]}
{"id": "C03", "title": "Chunked image statistics end with the full-series statistic", "statement": "For max_iter, min_iter, sum_iter and average_iter, the sequence of yielded images has exactly nchunks items and the last one equals the statistic over all frames (max, min, sum, average); chunk ends are strictly increasing and the last is n-1; every intermediate item is the statistic of the prefix of frames processed so far.", "quantifier": "every image series length n, every chunk count 1 <= nchunks <= n, all pixel values", "why_tests_cant": "Off-by-one errors in chunk stops or accumulation appear only for particular (n, nchunks) pairs.", "anchors": ["hexrd/core/imageseries/stats.py:max_iter", "hexrd/core/imageseries/stats.py:average_iter", "hexrd/core/imageseries/stats.py:_chunk_stops", "hexrd/core/imageseries/stats.py:_accumulate"]}
{"id": "C04", "title": "Percentile by blocks equals percentile of the whole stack", "statement": "The percentile image computed row block by row block within a memory budget equals the percentile image computed on the whole stack at once, whatever block height the budget gives; the iterator version yields an image after each block whose finished rows are final.", "quantifier": "every image shape, number of frames, buffer size and per-pixel statistic", "why_tests_cant": "The block decomposition depends on the size arithmetic of shape, dtype and budget; any missing or repeated row is a silent error.", "anchors": ["hexrd/core/imageseries/stats.py:percentile", "hexrd/core/imageseries/stats.py:percentile_iter", "hexrd/core/imageseries/stats.py:_toarray", "hexrd/core/imageseries/stats.py:_alloc_buffer"]}
{"id": "C05", "title": "Frame-cache files reproduce the thresholded images under every writer schedule", "statement": "Writing an image series to a frame cache (npz or fch5) with some threshold and reading it back gives, for each frame, the image whose pixels above threshold are unchanged and whose other pixels are 0 - regardless of the order in which writer threads reserve and fill their part of the file. Frames are read back under their own index.", "quantifier": "all images (dimensions below 2**16), all thresholds >= 0, all interleavings of writer threads", "why_tests_cant": "Thread interleavings cannot be enumerated by tests; a lost or overlapping slice corrupts a few pixels of one frame.", "anchors": ["hexrd/core/imageseries/save.py:WriteFrameCache._write_frames_fch5", "hexrd/core/imageseries/save.py:WriteFrameCache._write_frames_npz", "hexrd/core/imageseries/load/framecache.py:FrameCacheImageSeriesAdapter.__getitem__", "hexrd/core/matrixutil.py:extract_ijv"]}
{"id": "C06", "title": "Metadata written to a frame cache never alters the image data", "statement": "Whatever metadata dictionary the image series carries, the frames read back from an npz frame cache are those written: metadata keys cannot replace the arrays that hold pixels, shape or frame count.", "quantifier": "every metadata dictionary", "why_tests_cant": "The set of user-chosen keys is unbounded; the property is about all of them.", "anchors": ["hexrd/core/imageseries/save.py:WriteFrameCache._write_frames_npz", "hexrd/core/imageseries/save.py:WriteFrameCache._process_meta"]}
{"id": "C07", "title": "Lazy frame-cache loading happens exactly once under concurrency", "statement": "When several threads ask for frames of a not-yet-loaded frame cache, the file is loaded at most once and every thread that returns data sees the fully loaded frame list.", "quantifier": "every number of threads and every interleaving of their steps", "why_tests_cant": "Race conditions depend on schedules a test cannot force.", "anchors": ["hexrd/core/imageseries/load/framecache.py:FrameCacheImageSeriesAdapter._load_framelist_if_needed"]}
{"id": "C08", "title": "Image-file series index frames by a bijection onto (file, frame) pairs", "statement": "For an image-file series over files with given frame counts, skipped leading frames and per-file / total maxima, index k of the series is served by the k-th usable (file, frame) pair in order: distinct indices give distinct pairs, no pair outside the usable ones is read, and the length is the number of pairs served.", "quantifier": "every list of file frame counts, every empty-frames / max-file-frames / max-total-frames setting, every index", "why_tests_cant": "The mapping is arithmetic over arbitrary lists; boundary cases at file joints are where it breaks.", "anchors": ["hexrd/core/imageseries/load/imagefiles.py:ImageFilesImageSeriesAdapter._file_and_frame", "hexrd/core/imageseries/load/imagefiles.py:ImageFilesImageSeriesAdapter.__getitem__", "hexrd/core/imageseries/load/imagefiles.py:FileInfo"]}
{"id": "C09", "title": "Raw image frames are disjoint byte ranges that exhaust the file", "statement": "For a raw image file that is accepted, frame i is read from bytes [skip + i*framebytes, skip + (i+1)*framebytes); these ranges are pairwise disjoint, lie inside the file, and together with the header cover it; every file consisting of a header of `skip` bytes and a whole number of frames is accepted.", "quantifier": "every file size, header size, frame shape and pixel width, every index", "why_tests_cant": "Requires all combinations of sizes; acceptance for header >= frame size is a corner a test suite misses.", "anchors": ["hexrd/core/imageseries/load/rawimage.py:RawImageSeriesAdapter._get_length", "hexrd/core/imageseries/load/rawimage.py:RawImageSeriesAdapter.__getitem__"]}
{"id": "C10", "title": "Omega wedges partition the frames and reproduce the omega ranges", "statement": "The wedges derived from a per-frame omega array cover every frame exactly once, in order; within a wedge the omega step is constant and adjacent ranges abut; the omega array rebuilt from the wedges equals the original; a frame whose omega range is empty or decreasing is rejected.", "quantifier": "every omega array (any number of frames, any steps)", "why_tests_cant": "Wedge splitting depends on the whole array; the last frame is handled by a different branch.", "anchors": ["hexrd/core/imageseries/omega.py:OmegaImageSeries._make_wedges", "hexrd/core/imageseries/omega.py:OmegaWedges.omegas"]}
{"id": "C11", "title": "Omega lookup returns the frame that contains the angle", "statement": "omega_to_frame(om) returns a frame whose half-open omega range contains om modulo 360 whenever one exists, and reports absence otherwise; omegarange_to_frames returns exactly the frames that meet the requested range when both ends lie in one wedge.", "quantifier": "every wedge list, every angle and angle range", "why_tests_cant": "Modular arithmetic near branch cuts; all real angles.", "anchors": ["hexrd/core/imageseries/omega.py:OmegaImageSeries.omega_to_frame", "hexrd/core/imageseries/omega.py:OmegaImageSeries.omegarange_to_frames"]}
{"id": "C12", "title": "Image flips are symmetries of the rectangle", "statement": "Every flip option moves pixels as documented: mirrors reverse columns or rows, t transposes, r90/r180/r270 turn counter-clockwise. No pixel is lost or duplicated, mirrors and transpose are their own inverses, r90 and r270 undo each other, two quarter turns or two mirrors make the half turn; an unknown option leaves the image unchanged.", "quantifier": "every image of every shape, every pair of flip options", "why_tests_cant": "All shapes and all pixel positions; tests check a few arrays.", "anchors": ["hexrd/core/imageseries/process.py:ProcessedImageSeries._flip"]}
{"id": "C13", "title": "Region-of-interest processing gives the same pixels whichever path is taken", "statement": "For a processed image series whose first operation is a rectangle crop, a loader that supports reading only the region and one that does not return the same final image; frame lists select frames and omega in the same order, so processed frame j with frame_list f is the processed original frame f[j] and its omega is omega[f[j]].", "quantifier": "every image, rectangle, operation list and frame list", "why_tests_cant": "The fast path and generic path must agree on all inputs.", "anchors": ["hexrd/core/imageseries/process.py:ProcessedImageSeries.__getitem__", "hexrd/core/imageseries/process.py:ProcessedImageSeries._process_frame", "hexrd/core/imageseries/process.py:ProcessedImageSeries.omega"]}
{"id": "C14", "title": "Dark subtraction never wraps around", "statement": "A dark-subtracted pixel equals max(pixel - dark, 0) as integers; it is never larger than the raw pixel.", "quantifier": "every pair of pixel and dark values of the image type", "why_tests_cant": "Modular wrap occurs only for particular pairs of dtypes and values.", "anchors": ["hexrd/core/imageseries/process.py:ProcessedImageSeries._subtract_dark"]}
{"id": "C15", "title": "Reflection exclusions set by the user are the ones applied", "statement": "After exclusions are set on a PlaneData by mask, by index list or by ranges, reading exclusions back gives what was set, and getHKLs / getTTh / getMultiplicity list exactly the reflections that are not excluded, whatever order the reflections sort into by two-theta.", "quantifier": "every reflection list, every sort permutation, every mask / index list / range list", "why_tests_cant": "Two permutations (sorted to original and inverse) agree unless the permutation is not an involution, which small tests do not reach.", "anchors": ["hexrd/core/material/crystallography.py:PlaneData.exclusions", "hexrd/core/material/crystallography.py:PlaneData._thisHKL", "hexrd/core/material/crystallography.py:PlaneData.getHKLs"]}
{"id": "C16", "title": "Limit-based exclusion keeps exactly the reflections within all limits", "statement": "PlaneData.exclude with any combination of d-spacing, two-theta, structure-factor and powder-intensity limits excludes exactly the reflections outside at least one given limit.", "quantifier": "every reflection list and every combination of limits", "why_tests_cant": "Combinations of limits and boundary equality cases.", "anchors": ["hexrd/core/material/crystallography.py:PlaneData.exclude"]}
{"id": "C17", "title": "Merged two-theta ranges group overlapping rings exactly once", "statement": "getMergedRanges partitions the (included) reflections into consecutive groups; each reflection appears in exactly one group, consecutive groups are separated (the ranges do not overlap), neighbours in a group overlap, and each merged range contains the ranges of its members.", "quantifier": "every ascending list of two-theta ranges", "why_tests_cant": "Chain merging across an unbounded number of rings.", "anchors": ["hexrd/core/material/crystallography.py:PlaneData.getMergedRanges"]}
{"id": "C18", "title": "Generated space-group operators form a group for all 230 space groups", "statement": "For every space group number and setting the generated operator list contains the identity, has no duplicates, is closed under composition modulo lattice translations and contains inverses; its rotation parts form the point group with the documented order, and the Laue list is the point group with inversion added.", "quantifier": "all 230 space groups, both settings, all pairs of operators", "why_tests_cant": "Tests cover a handful of groups; closure must hold for all products of all operators.", "anchors": ["hexrd/core/material/symmetry.py:GenerateSGSym", "hexrd/core/material/symmetry.py:GeneratePGSym", "hexrd/core/material/symmetry.py:GeneratePGSym_Laue", "hexrd/core/constants.py:SYM_GL"]}
{"id": "C19", "title": "Allowed reflections agree with the space group's operators", "statement": "Allowed_HKLs keeps a reflection (h,k,l) exactly when no operator of the space group extinguishes it (no operator leaves hkl fixed while shifting its phase by a non-integer).", "quantifier": "all 230 space groups and all integer triples (h,k,l)", "why_tests_cant": "Infinitely many reflections; special classes hit different rules in each group.", "anchors": ["hexrd/core/material/spacegroup.py:Allowed_HKLs", "hexrd/core/material/spacegroup.py:omitscrewaxisabsences", "hexrd/core/material/spacegroup.py:omitglideplaneabsences", "hexrd/core/material/unitcell.py:unitcell.getHKLs"]}
{"id": "C20", "title": "Space-group number tables are total and mutually consistent", "statement": "Every space group number 1..230 has exactly one point group, one Laue group and one lattice type; the Laue group, lattice type and required lattice parameters reported by different modules agree with the crystal system given by the number.", "quantifier": "all space group numbers; all other integers are rejected", "why_tests_cant": "Table entries are independent; tests sample a few.", "anchors": ["hexrd/core/material/spacegroup.py:_pgDict", "hexrd/core/material/spacegroup.py:_ltDict", "hexrd/core/material/unitcell.py:_pgDict", "hexrd/core/material/symmetry.py:latticeType"]}
{"id": "C21", "title": "Reflections generated within dmin are complete", "statement": "unitcell.getHKLs(dmin) lists one reflection of every family of equivalent reflections that the space group does not extinguish and whose d-spacing is at least dmin, and no other, in order of increasing length of the reciprocal vector; it fails only if there is none.", "quantifier": "every space group, every cell geometry that fits it and every dmin", "why_tests_cant": "The bound is a geometric inequality over all real cells.", "anchors": ["hexrd/core/material/unitcell.py:unitcell.CalcMaxGIndex", "hexrd/core/material/unitcell.py:unitcell.getHKLs"]}
{"id": "C22", "title": "Sum-of-squares reflection enumeration is exact", "statement": "_getHKLsBySS(ss) lists each triple of integers (h, k, l), of any signs, with h^2+k^2+l^2 = ss exactly once, and nothing else.", "quantifier": "every natural number ss", "why_tests_cant": "Unbounded ss; loop bounds use square roots.", "anchors": ["hexrd/core/material/spacegroup.py:_getHKLsBySS"]}
{"id": "C23", "title": "One representative per symmetry-equivalent reflection family", "statement": "ChooseSymmetric keeps exactly one member of each family of symmetry-equivalent reflections: no two kept reflections are equivalent, and each input is equivalent to a kept one.", "quantifier": "every finite reflection list and every finite group of integer matrices", "why_tests_cant": "Depends on all orbits of all groups.", "anchors": ["hexrd/core/material/unitcell.py:unitcell.ChooseSymmetric", "hexrd/core/material/unitcell.py:unitcell.CalcStar"]}
{"id": "C24", "title": "Exclusions survive changes of the reflection list", "statement": "When a material's reflection list changes (dmin, energy, space group), a reflection present before and after keeps its included/excluded state; new reflections start excluded; if nothing would remain included the defaults are applied.", "quantifier": "every old and new reflection list, every exclusion state, every history of changes", "why_tests_cant": "Needs all histories of list changes.", "anchors": ["hexrd/core/material/material.py:Material._newPdata", "hexrd/core/material/material.py:map_hkls_to_new", "hexrd/core/material/material.py:hkls_match"]}
{"id": "C25", "title": "Reduced lattice parameters determine the full set and back", "statement": "For every crystal system, expanding the reduced lattice parameters to six and reducing again is the identity, and the six satisfy the metric constraints of the system; parameters the user may edit are exactly the reduced ones.", "quantifier": "every space group number, all parameter values", "why_tests_cant": "All space groups and all reals.", "anchors": ["hexrd/core/material/unitcell.py:_rqpDict", "hexrd/core/material/unitcell.py:unitcell.is_editable", "hexrd/core/material/unitcell.py:unitcell.fill_correct_lp_vals", "hexrd/core/material/spacegroup.py:_rqpDict"]}
{"id": "C26", "title": "Miller index conversions are inverse to each other", "statement": "Hexagonal/rhombohedral and three-/four-index plane and direction conversions round-trip: converting and converting back gives the original indices (directions up to a common positive factor).", "quantifier": "all integer index triples", "why_tests_cant": "Unbounded indices; divisibility matters.", "anchors": ["hexrd/core/material/crystallography.py:hexagonalIndicesFromRhombohedral", "hexrd/core/material/crystallography.py:rhombohedralIndicesFromHexagonal", "hexrd/core/material/crystallography.py:millerBravaisDirectionToVector"]}
{"id": "C27", "title": "Direct and reciprocal cell matrices are dual", "statement": "For every cell with non-zero volume, the reciprocal matrix is the inverse transpose of the direct matrix, the reciprocal metric is the inverse of the direct metric, and transforming a vector between direct, reciprocal and Cartesian space and back is the identity; lengths computed in any space agree.", "quantifier": "every non-degenerate cell and every vector", "why_tests_cant": "Identity over all reals.", "anchors": ["hexrd/core/material/unitcell.py:unitcell.calcmatrices", "hexrd/core/material/unitcell.py:unitcell.TransSpace", "hexrd/core/material/unitcell.py:unitcell.CalcLength"]}
{"id": "C28", "title": "Atom orbits list each equivalent position once", "statement": "CalcOrbit of a position returns pairwise distinct positions in the unit cell, contains the images of the position under all operators modulo lattice translations, and its size does not depend on which equivalent copy of the atom the user entered.", "quantifier": "every fractional position and every space group", "why_tests_cant": "All positions including those outside [0,1).", "anchors": ["hexrd/core/material/unitcell.py:unitcell.CalcOrbit"]}
{"id": "C29", "title": "Stiffness matrices are symmetric, obey the Laue class and survive storage", "statement": "MakeStiffnessMatrix builds a symmetric 6x6 matrix that satisfies the equalities of the Laue class, from which the input constants can be read back; the stored stiffness equals the matrix built and the stored compliance is its inverse in consistent units.", "quantifier": "every Laue class and all constants", "why_tests_cant": "All reals in all classes; unit factors interact in setters.", "anchors": ["hexrd/core/material/unitcell.py:unitcell.MakeStiffnessMatrix", "hexrd/core/material/unitcell.py:unitcell.compliance", "hexrd/core/material/unitcell.py:_StiffnessDict"]}
{"id": "C30", "title": "Unit conversions are reciprocal and composable", "statement": "Converting a value to another unit of the same kind and back gives the original value; converting via an intermediate unit equals converting directly; energy-wavelength conversion is an involution.", "quantifier": "all values and all unit pairs for which a conversion is offered", "why_tests_cant": "All pairs and chains of units; all reals.", "anchors": ["hexrd/core/valunits.py:valWUnit._convert", "hexrd/core/valunits.py:cv_dict"]}
{"id": "C31", "title": "Angle mapping lands in the range and stays congruent", "statement": "mapAngle(a, range, units) returns an angle in the requested interval that differs from a by a whole number of periods; with no range it maps into the default interval; mapping twice changes nothing; out-of-order or wrong-width ranges are rejected.", "quantifier": "all real angles and all ranges", "why_tests_cant": "Boundary values and all multiples of the period.", "anchors": ["hexrd/core/rotations.py:mapAngle"]}
{"id": "C32", "title": "Angular difference is the distance on the circle", "statement": "angularDifference(a, b) is the minimum of |a - b + k*period| over integers k; it is symmetric, at most half a period, zero only for congruent angles and satisfies the triangle inequality.", "quantifier": "all pairs of real angles", "why_tests_cant": "All reals, any number of turns apart.", "anchors": ["hexrd/core/rotations.py:angularDifference_orig", "hexrd/core/rotations.py:angularDifference_opt"]}
{"id": "C33", "title": "Quaternions and rotation matrices agree", "statement": "The rotation matrix of a unit quaternion is orthogonal with determinant 1; the matrix of a quaternion product is the product of matrices; q and -q give the same matrix; the product with the inverse is the identity; product matrices for left and right multiplication act as documented.", "quantifier": "all unit quaternions", "why_tests_cant": "Continuum of inputs; degenerate half-turns are the corner.", "anchors": ["hexrd/core/rotations.py:quatProduct", "hexrd/core/rotations.py:rotMatOfQuat", "hexrd/core/rotations.py:quatProductMatrix", "hexrd/core/rotations.py:invertQuat", "hexrd/core/rotations.py:fixQuat"]}
{"id": "C34", "title": "Reduction to the fundamental region", "statement": "toFundamentalRegion returns a quaternion symmetry-equivalent to its input with the largest absolute scalar part in its class; two equivalent orientations reduce to the same misorientation angle; reducing twice changes nothing about that angle.", "quantifier": "all unit quaternions and every crystal symmetry group", "why_tests_cant": "Continuum of orientations; argmax over group.", "anchors": ["hexrd/core/rotations.py:toFundamentalRegion"]}
{"id": "C35", "title": "Laue symmetry quaternions form groups of the right order", "statement": "quatOfLaueGroup(tag) returns unit quaternions that represent a rotation group: closed under products up to sign, containing inverses and identity, with the crystallographic order for each tag.", "quantifier": "all eleven Laue tags and all products", "why_tests_cant": "Closure for all products.", "anchors": ["hexrd/core/rotations.py:quatOfLaueGroup", "hexrd/core/rotations.py:ltypeOfLaueGroup"]}
{"id": "C36", "title": "Symmetric-tensor vectorisations are isometric round trips", "statement": "Mandel-Voigt vectors, six-component strain/stress vectors and deviatoric-spherical vectors convert to symmetric matrices and back without change, and the Mandel-Voigt and deviatoric vectors preserve the inner product; skew/vector conversion represents the cross product.", "quantifier": "all symmetric matrices and vectors", "why_tests_cant": "Identity over all reals.", "anchors": ["hexrd/core/matrixutil.py:symmToVecMV", "hexrd/core/matrixutil.py:vecMVToSymm", "hexrd/core/matrixutil.py:symmToVecds", "hexrd/core/matrixutil.py:vecdsToSymm", "hexrd/core/matrixutil.py:skewMatrixOfVector"]}
{"id": "C37", "title": "Duplicate-vector detection keeps one of each cluster", "statement": "findDuplicateVectors / uniqueVectors keep vectors that are pairwise farther apart than the tolerance, and every dropped vector is within tolerance of a kept one.", "quantifier": "every list of vectors and every tolerance", "why_tests_cant": "Non-transitive chains of nearby vectors.", "anchors": ["hexrd/core/matrixutil.py:findDuplicateVectors", "hexrd/core/matrixutil.py:_findduplicatevectors", "hexrd/core/matrixutil.py:uniqueVectors"]}
{"id": "C38", "title": "Grid connectivity covers the grid", "statement": "cellConnectivity(m, n) gives m*n cells in row-major order; each cell lists the four distinct corner nodes of that cell in cyclic order, every node index is within the (m+1)(n+1) grid, and two cells share an edge exactly when adjacent; with layers it gives the hexahedra between successive layers.", "quantifier": "all m, n, p", "why_tests_cant": "All sizes.", "anchors": ["hexrd/core/gridutil.py:cellConnectivity", "hexrd/core/gridutil.py:_fill_connectivity"]}
{"id": "C39", "title": "Cell areas are polygon areas", "statement": "compute_areas returns the signed area of each quadrilateral cell; computeArea returns the signed area of an ordered polygon: both are invariant under translation, change sign with orientation and are additive.", "quantifier": "all vertex coordinates", "why_tests_cant": "Identity over all reals; regular test grids hide errors.", "anchors": ["hexrd/core/gridutil.py:compute_areas", "hexrd/core/gridutil.py:computeArea"]}
{"id": "C40", "title": "Polygon clipping stays inside both polygons", "statement": "sutherlandHodgman(subject, clip) returns vertices that lie inside every half-plane of the clip polygon, and lie in the convex hull of the subject; a subject entirely inside is returned unchanged.", "quantifier": "all polygons with any number of vertices", "why_tests_cant": "Unbounded vertex counts and all coordinates.", "anchors": ["hexrd/core/gridutil.py:sutherlandHodgman", "hexrd/core/gridutil.py:isinside", "hexrd/core/gridutil.py:computeIntersection"]}
{"id": "C41", "title": "Tolerance grids are symmetric and uniform", "statement": "make_tolerance_grid returns ndiv+1 uniformly spaced points, symmetric about zero, spanning the window.", "quantifier": "all bin widths, window widths and subdivisions", "why_tests_cant": "All reals.", "anchors": ["hexrd/core/gridutil.py:make_tolerance_grid"]}
{"id": "C42", "title": "Bin lookup returns the bin containing the point", "statement": "cellIndices(edges, x) returns i with x in bin i for every x inside a uniform grid (ascending or descending), the last edge belonging to the last bin.", "quantifier": "all uniform edge arrays and points", "why_tests_cant": "Boundary equalities for all reals, both directions.", "anchors": ["hexrd/core/gridutil.py:cellIndices"]}
{"id": "C43", "title": "Nested dictionaries survive HDF5 storage", "statement": "Writing a nested dictionary with unwrap_dict_to_h5 and reading it with unwrap_h5_to_dict gives the same dictionary; writing does not modify the dictionary supplied by the caller.", "quantifier": "all nested dictionaries", "why_tests_cant": "Recursion over arbitrary nesting.", "anchors": ["hexrd/core/utils/hdf5.py:unwrap_dict_to_h5", "hexrd/core/utils/hdf5.py:unwrap_h5_to_dict"]}
{"id": "C44", "title": "NumPy data survive JSON encoding", "statement": "An array encoded with NumpyEncoder and decoded with NumpyDecoder is the same array, whatever bytes it contains.", "quantifier": "all byte strings", "why_tests_cant": "Only specific byte sequences fail.", "anchors": ["hexrd/core/utils/json.py:NumpyEncoder", "hexrd/core/utils/json.py:NumpyDecoder"]}
{"id": "C45", "title": "Parallel execution returns results in argument order", "statement": "GenericMultiprocessing.parallelise_function returns the result of the function for each argument in order, whatever order workers finish in.", "quantifier": "every number of workers, arguments and completion order", "why_tests_cant": "Schedules.", "anchors": ["hexrd/core/utils/multiprocess_generic.py:GenericMultiprocessing.parallelise_function"]}
{"id": "C46", "title": "Panel buffers mask exactly the border", "statement": "A panel buffer given as border widths marks exactly the pixels within the border as unusable; widths given in mm and the equivalent pixel mask agree.", "quantifier": "all panel sizes and border widths", "why_tests_cant": "All sizes, including borders wider than the panel.", "anchors": ["hexrd/core/utils/panel_buffer.py:panel_buffer_as_2d_array"]}
{"id": "C47", "title": "Angle-range validation accepts exactly the angles in a range", "statement": "validate_angle_ranges marks an angle valid exactly when it lies (within tolerance, modulo full turns) on the arc from start to stop of at least one range, in the requested direction; full-circle ranges accept everything.", "quantifier": "all angles, all lists of ranges, both directions", "why_tests_cant": "Modular arithmetic for all reals.", "anchors": ["hexrd/core/transforms/new_capi/validate_angle_ranges.c:validate_angle_ranges"]}
{"id": "C48", "title": "Diffraction geometry obeys the law of reflection and round-trips", "statement": "The unit scattering vector produced from (2theta, eta, omega) has unit length and makes the Bragg angle with the beam; the diffracted direction computed from it is unit and makes angle 2theta with the beam; converting angles to a detector point and that point back to angles gives the original angles.", "quantifier": "all angles, detector poses, sample rotations and positions for which the ray hits the detector", "why_tests_cant": "Continuum of geometries.", "anchors": ["hexrd/core/transforms/xfcapi.py:angles_to_gvec", "hexrd/core/transforms/xfcapi.py:angles_to_dvec", "hexrd/core/transforms/xfcapi.py:gvec_to_xy", "hexrd/core/transforms/xfcapi.py:xy_to_gvec"]}
{"id": "C49", "title": "Predicted oscillation angles satisfy the Bragg condition", "statement": "Each omega returned by oscill_angles_of_hkls rotates the reflection into the Bragg condition; both solutions are returned, and NaN is returned only if there is no solution.", "quantifier": "all reflections, orientations, beam directions and wavelengths", "why_tests_cant": "Continuum; existence and completeness of both roots.", "anchors": ["hexrd/core/transforms/xfcapi.py:oscill_angles_of_hkls", "hexrd/core/transforms/new_capi/oscill_angles_of_HKLs.c:oscill_angles_of_HKLs"]}
{"id": "C50", "title": "Frame matrices are proper rotations", "statement": "Sample, detector, exponential-map and, for a unit axis, half-turn matrices are orthogonal with determinant 1; the beam-frame matrix is the only rotation with its third column against the beam and its first column in the half-plane of the azimuth reference, and it is refused exactly when beam and reference are collinear or zero within machine precision; rotating a vector about a non-zero axis preserves its length and its component on the axis.", "quantifier": "all angles and axes", "why_tests_cant": "Continuum.", "anchors": ["hexrd/core/transforms/xfcapi.py:make_sample_rmat", "hexrd/core/transforms/xfcapi.py:make_detector_rmat", "hexrd/core/transforms/xfcapi.py:make_beam_rmat", "hexrd/core/transforms/xfcapi.py:make_rmat_of_expmap", "hexrd/core/transforms/xfcapi.py:make_binary_rmat", "hexrd/core/transforms/xfcapi.py:rotate_vecs_about_axis"]}
{"id": "C51", "title": "Misorientation distance is a symmetric, symmetry-invariant quantity", "statement": "quat_distance(q1, q2, sym) is symmetric in q1 and q2, zero for equivalent orientations, unchanged when either orientation is replaced by an equivalent one, and never NaN for unit quaternions.", "quantifier": "all unit quaternions and symmetry groups", "why_tests_cant": "Continuum of inputs.", "anchors": ["hexrd/core/transforms/new_capi/quat_distance.c:quat_distance", "hexrd/core/transforms/xfcapi.py:quat_distance"]}
{"id": "C52", "title": "Instrument parameters survive the fit-parameter round trip", "statement": "Creating fit parameters from an instrument and updating the instrument from the unchanged parameters leaves the instrument unchanged; each parameter updates the detector it was created from.", "quantifier": "all instruments (any number of detectors, names and distortion parameters)", "why_tests_cant": "Name mangling collides only for particular detector names or parameter counts.", "anchors": ["hexrd/core/fitting/calibration/lmfit_param_handling.py:create_instr_params", "hexrd/core/fitting/calibration/lmfit_param_handling.py:update_instrument_from_params"]}
{"id": "C53", "title": "Constrained detector motion is rigid", "statement": "Under relative constraints, any sequence of parameter updates moves the constrained detectors as one rigid body: distances and relative orientations between detectors never change.", "quantifier": "all sequences of updates and all detector configurations", "why_tests_cant": "History property over unbounded update sequences.", "anchors": ["hexrd/core/fitting/calibration/lmfit_param_handling.py:_update_constrained_detector_parameters"]}
{"id": "C54", "title": "Colliding parameter names are made unique", "statement": "rename_to_avoid_collision gives names distinct from each other and from all existing names, leaving non-colliding names unchanged, and the mapping sends each old name to its new name.", "quantifier": "all name lists", "why_tests_cant": "Unbounded lists with adversarial names.", "anchors": ["hexrd/core/fitting/calibration/lmfit_param_handling.py:rename_to_avoid_collision"]}
{"id": "C55", "title": "Engineering constraints hold after they are applied", "statement": "After add_engineering_constraints for TARDIS the plate separation lies within the allowed interval.", "quantifier": "all plate positions", "why_tests_cant": "All reals including reversed plates.", "anchors": ["hexrd/core/fitting/calibration/lmfit_param_handling.py:add_engineering_constraints"]}
{"id": "C56", "title": "Background estimation never exceeds the signal", "statement": "The SNIP background of an image row never exceeds the row at any unmasked pixel, whatever the number of iterations; computing rows in parallel gives the same image as computing them one after the other.", "quantifier": "all rows, widths, iteration counts, thread schedules", "why_tests_cant": "All signals.", "anchors": ["hexrd/core/imageutil.py:snip1d", "hexrd/core/imageutil.py:fast_snip1d"]}
{"id": "C57", "title": "Inserted rows and columns are blank and shift the rest", "statement": "Adding a row or column at a position in range inserts zeros there, leaves everything before it unchanged and moves everything after it by one; a position out of range is refused.", "quantifier": "all images and positions", "why_tests_cant": "All shapes and positions, including both ends.", "anchors": ["hexrd/core/imageseries/process.py:ProcessedImageSeries._add_row", "hexrd/core/imageseries/process.py:ProcessedImageSeries._add_col"]}
{"id": "C58", "title": "Symmetry operators in reciprocal and Cartesian space", "statement": "For every space group and every cell that fits it, the reciprocal-space operators are the integer inverse transposes of the direct ones, so they do not depend on the lattice parameters and preserve the lengths of reciprocal vectors; the Cartesian operators are orthogonal matrices, and for monoclinic groups the unique axis is along z.", "quantifier": "all space groups, settings and cells", "why_tests_cant": "All cells and all operators.", "anchors": ["hexrd/core/material/unitcell.py:unitcell.GenerateRecipPGSym", "hexrd/core/material/unitcell.py:unitcell.GenerateCartesianPGSym"]}
{"id": "C59", "title": "Removal of duplicate atoms", "statement": "remove_duplicate_atoms keeps the first atom and the order; every atom removed generates an atom closer than the tolerance to one generated by a kept atom; the kept atoms generate atoms that are pairwise at least the tolerance apart, except atoms that share a site with total occupancy at most 1.", "quantifier": "all lists of atoms, occupancies, cells and space groups", "why_tests_cant": "The loop exits early in several ways; all lists, orders and occupancies matter.", "anchors": ["hexrd/core/material/unitcell.py:unitcell.remove_duplicate_atoms", "hexrd/core/material/unitcell.py:unitcell.CalcOrbit"]}
{"id": "C60", "title": "Misorientation angle agrees with the orientation distance", "statement": "misorientation(q1, q2, (sym,)) returns the same angle as quat_distance(q1, q2, sym), and the rotation angle left after toFundamentalRegion is the distance to the identity.", "quantifier": "all unit quaternions and every rotation group", "why_tests_cant": "Three implementations in two languages must agree for every pair of orientations and every group.", "anchors": ["hexrd/core/rotations.py:misorientation", "hexrd/core/transforms/new_capi/quat_distance.c:quat_distance", "hexrd/core/rotations.py:toFundamentalRegion"]}
{"id": "C61", "title": "Symmetric equivalents of a vector", "statement": "applySym(v, sym, ...) returns only images of v under the symmetries (and their opposites with the centrosymmetry flag), no two within the tolerance (up to sign with cullPM); when distinct images are farther apart than the tolerance it returns each image exactly once, so its length is the multiplicity.", "quantifier": "all symmetry lists, vectors, tolerances and flags", "why_tests_cant": "The result depends on every pair of images and on the order of removal.", "anchors": ["hexrd/core/rotations.py:applySym", "hexrd/core/matrixutil.py:findDuplicateVectors"]}
{"id": "C62", "title": "Pixel and Cartesian coordinates are inverse", "statement": "Detector.cartToPixel and Detector.pixelToCart are inverse to each other; pixel indices are converted to the centre of the pixel, as listed by row_pixel_vec and col_pixel_vec, halfway between the listed edges; a point inside a pixel is converted to the indices of that pixel.", "quantifier": "all panel shapes, pixel sizes and points", "why_tests_cant": "Sign and half-pixel errors show only for particular points and shapes.", "anchors": ["hexrd/core/instrument/detector.py:Detector.cartToPixel", "hexrd/core/instrument/detector.py:Detector.pixelToCart", "hexrd/core/instrument/detector.py:Detector.row_pixel_vec", "hexrd/core/instrument/detector.py:Detector.col_pixel_vec"]}
{"id": "C63", "title": "Clipping keeps exactly the points on the panel", "statement": "Detector.clip_to_panel returns, in order, the points on the usable part of the panel and no others: the rectangle without a buffer, the rectangle inside the border widths with a two-element buffer, and the pixels for which it is true with a mask; the second result says for each point whether it was kept.", "quantifier": "all panels, buffers and lists of points", "why_tests_cant": "Boundary cases and all lists.", "anchors": ["hexrd/core/instrument/detector.py:Detector.clip_to_panel"]}
{"id": "C64", "title": "Nearest-neighbour interpolation takes the value of the pixel hit", "statement": "Detector.interpolate_nearest gives for each point on the panel the value of the pixel that contains it.", "quantifier": "all panels of at least two rows and columns, images and points", "why_tests_cant": "Wrong only for points in certain parts of a pixel.", "anchors": ["hexrd/core/instrument/detector.py:Detector.interpolate_nearest"]}
{"id": "C65", "title": "Bilinear interpolation is the bilinear interpolant", "statement": "Detector.interpolate_bilinear gives for each point on the panel the linear interpolation in both directions between the four pixels around it, with the outermost pixels continued outside their centres; it equals the pixel value at centres, is constant for constant images, reproduces bilinear functions, and stays between the extreme pixel values. Points off the panel are NaN or 0 as requested.", "quantifier": "all panels of at least two rows and columns, images and points", "why_tests_cant": "All positions within pixels and at the borders.", "anchors": ["hexrd/core/instrument/detector.py:Detector.interpolate_bilinear"]}
{"id": "C66", "title": "Planar-detector conversions between angles, points and directions agree", "statement": "On a planar detector angles_to_cart returns the point where the ray with the given two-theta and eta leaving the crystal meets the detector, cart_to_angles returns the angles of that point, cart_to_dvecs its laboratory position, and beam_position the point where the direct beam meets the detector (NaN exactly if it does not reach the front face).", "quantifier": "all detector poses, beam directions, sample and crystal positions and rotations", "why_tests_cant": "Continuum of geometries and sample rotations.", "anchors": ["hexrd/core/instrument/planar_detector.py:PlanarDetector.angles_to_cart", "hexrd/core/instrument/planar_detector.py:PlanarDetector.cart_to_angles", "hexrd/core/instrument/planar_detector.py:PlanarDetector.cart_to_dvecs", "hexrd/core/instrument/planar_detector.py:PlanarDetector.beam_position"]}
{"id": "C67", "title": "A constrained fit is a function of its parameters", "statement": "Updating an instrument under relative constraints leaves the detectors where the values of the last update put them; the values tried before do not matter, so the fit residual is a function of the fit parameters.", "quantifier": "all histories of parameter values, all detector configurations, both constraint types, all rotation centers", "why_tests_cant": "The effect of an update depends on what the minimiser tried before it; a test fixes one history.", "anchors": ["hexrd/core/fitting/calibration/lmfit_param_handling.py: update_unconstrained_detector_parameters, update_system_constrained_detector_parameters, update_group_constrained_detector_parameters", "hexrd/core/fitting/calibration/relative_constraints.py"]}
{"id": "C68", "title": "Distortion maps invert each other", "statement": "For every distortion model, apply_inverse undoes apply and apply undoes apply_inverse on detector points; trivial parameters leave points unchanged; points are treated independently of each other.", "quantifier": "all parameters, all points and any number of them", "why_tests_cant": "The maps are continuous families; a test samples a few points, and quadrant borders and degenerate parameters are easily missed.", "anchors": ["hexrd/core/distortion/dexela_2923.py", "hexrd/core/distortion/dexela_2923_quad.py", "hexrd/core/distortion/ge_41rt.py", "hexrd/core/distortion/identity.py", "hexrd/core/transforms/cpp_sublibrary/src/inverse_distortion.cpp"]}
{"id": "C69", "title": "Material lattice parameters survive the fit-parameter round trip", "statement": "Updating a material from the fit parameters made from it leaves its lattice parameters unchanged, whatever other parameters are present; an update changes exactly the lattice parameters that the symmetry leaves free, to the fitted values with lengths converted from angstrom to nm and angles in degrees.", "quantifier": "all materials, lattice parameters, other fit parameters", "why_tests_cant": "Names are made from the material name and compared with the names of all other parameters.", "anchors": ["hexrd/core/fitting/calibration/lmfit_param_handling.py: create_material_params, update_material_from_params"]}
{"id": "C70", "title": "Eta and omega ranges select exactly the angles they contain", "statement": "When map-based indexing is given several non-overlapping eta or omega ranges, in any order and with any whole turns added, a predicted angle is used exactly if it lies, up to whole turns, in one of the ranges, whatever the period of omega; ranges that overlap are reported as an error.", "quantifier": "all lists of ranges, all offsets, all angles", "why_tests_cant": "Ranges may wrap around, touch the ends of the period or come in any order; a test covers a few layouts.", "anchors": ["hexrd/hedm/indexer.py: _normalize_ranges, _find_in_range, _map_angle, _angle_is_hit"]}
{"id": "C71", "title": "Completeness is the fraction of predicted reflections that are seen", "statement": "The score of an orientation is the number of predictions with a pixel above the threshold of their family within the tolerance, divided by the number of predictions inside the ranges and the map; it is between 0 and 1, 0 if nothing can be predicted, and 1 exactly if every usable prediction is seen.", "quantifier": "all maps, thresholds, ranges, edges, tolerances, families of reflections and predicted angles", "why_tests_cant": "The loop walks through all families with a moving family index and boundary; an error in one bin, boundary or family shifts scores slightly and is not visible in examples.", "anchors": ["hexrd/hedm/indexer.py: paintGridThis, _filter_and_count_hits, _angle_is_hit, _check_dilated"]}
{"id": "C72", "title": "Scores do not depend on multiprocessing", "statement": "The list of scores is in the order of the trial orientations and is the same with one process or many, whatever the order in which the processes finish.", "quantifier": "all numbers of orientations and processes, all completion orders", "why_tests_cant": "Completion orders cannot be enumerated by tests, and the chunk size depends on both numbers.", "anchors": ["hexrd/hedm/indexer.py: paintGrid"]}
{"id": "C73", "title": "Cylindrical detector projection and angles", "statement": "For a crystal inside the cylinder of a curved detector, projecting a direction (not along the cylinder axis) returns a point marked valid exactly when that point of the bent sheet lies on the ray ahead of the crystal; the angles of a point are those of the direction from the crystal to the point of the sheet, point to angles to point and angles to point to angles are the identity, the local normal is radial and the obliquity factor is at least one.", "quantifier": "every rotation, translation, radius, panel size not wider than the full circumference, sample rotation and position inside the cylinder, every direction and every point", "why_tests_cant": "a panel and a handful of directions do not show that no ray is dropped, doubled or given to the wrong half of the sheet; the statement is an equivalence over a continuum", "anchors": ["hexrd/core/instrument/cylindrical_detector.py: CylindricalDetector.cart_to_angles, cart_to_dvecs, local_normal, calc_filter_coating_transmission", "hexrd/hed/xrdutil/utils.py: _project_on_detector_cylinder, _unitvec_to_cylinder, _clip_to_cylindrical_detector, _dewarp_from_cylinder, _warp_to_cylinder", "hexrd/hedm/xrdutil/utils.py: _dvec_to_angs"]}
{"id": "C74", "title": "Polar view of an instrument", "statement": "Pixel (i, j) of the polar view stands for the centre of cell (i, j) of the angular window; its value is the sum over the detectors of the bilinearly interpolated intensity at the point where the ray with those angles meets the detector, and it is masked exactly when no detector sees the angles; caching the coordinate map does not change the result; the extent is the outline of the cells and binning averages the rows whose upper edge lies in the bin.", "quantifier": "every window, pixel size, list of detectors and images, every pixel, tilt and sample position for planar detectors, every bin", "why_tests_cant": "an example image compares finitely many pixels of one instrument; mis-indexed or dropped contributions occur at panel edges, at masked borders and where panels overlap", "anchors": ["hexrd/core/projections/polar.py: PolarView.angular_grid, extent, tth_to_pixel, warp_image, _generate_coordinate_mapping, _generate_nan_mask, _warp_image_from_coordinate_map, bin_polar_view", "hexrd/core/instrument/detector.py: _interpolate_bilinear_in_place", "hexrd/hed/xrdutil/utils.py: _project_on_detector_plane"]}
{"id": "C75", "title": "Peak functions have the height, centre and widths of their parameters", "statement": "For positive amplitude and widths and mixing parameters between 0 and 1, the Gaussian, Lorentzian, pseudo-Voigt and split pseudo-Voigt functions are continuous and positive, have their largest value, the amplitude, at the centre parameter, rise strictly before it and fall strictly after it, and are at least half the amplitude exactly within half a width of the centre (half the left width to the left and half the right width to the right for the split function). The rotated two-dimensional Gaussian is above half height exactly in the ellipse whose axes are turned by the angle parameter; the three-dimensional one exactly in the ellipsoid. The Thompson-Cox-Hastings formula gives a total width between the larger of the two widths and their sum and a mixing fraction between 0 and 1.", "quantifier": "all parameter vectors in the admissible region and all real positions", "why_tests_cant": "The half-height set and monotonicity are claims about a continuum of positions and parameters", "anchors": ["hexrd/core/fitting/peakfunctions.py: _gaussian1d_no_bg, _lorentzian1d_no_bg, _pvoigt1d_no_bg, _split_pvoigt1d_no_bg, gaussian2d_rot, split_pvoigt2d_rot, gaussian3d, _mixing_factor_pv"]}
{"id": "C76", "title": "Analytic derivatives of the peak functions are exact", "statement": "Each of the five rows of the derivative arrays returned for the Gaussian and the Lorentzian with linear background is the derivative of the corresponding function with respect to that parameter.", "quantifier": "all parameter vectors with nonzero width, all positions, all five parameters", "why_tests_cant": "A finite-difference test checks an approximation at sampled points; exactness is an identity for all points", "anchors": ["hexrd/core/fitting/peakfunctions.py: gaussian1d_deriv, lorentzian1d_deriv, _gaussian1d_no_bg_deriv, _lorentzian1d_no_bg_deriv"]}
{"id": "C77", "title": "A multi-peak model is the sum of its peaks and its background", "statement": "With the parameters of the peaks one after another followed by the background coefficients, lowest order first, the multi-peak function is the sum of the single peaks and the background polynomial; the order of the peaks does not matter.", "quantifier": "all peak types, numbers of peaks, parameter lists of the right length, constant, linear and quadratic backgrounds, positions", "why_tests_cant": "The slicing of one flat vector has to be right for every number of peaks and every type", "anchors": ["hexrd/core/fitting/peakfunctions.py: mpeak_1d, _mpeak_1d_no_bg, mpeak_nparams_dict"]}
{"id": "C78", "title": "Initial guesses of peak fits are admissible starts", "statement": "For increasing positions, the initial guess of a single-peak fit exists, has its centre and height at a sample with the largest value above the background line, a positive width within the range of the data, and satisfies the bounds of the fit it is made for. For several peaks, the amplitude guess of each peak is a data value at least as large as the one nearest to its position, the guess has the layout that the multi-peak function reads, and it lies within bounds whose lower ends are below the upper ones, so that the optimizer accepts it. A planar background of a two-dimensional patch is removed exactly.", "quantifier": "all increasing position lists, data lists, peak lists, peak types (Gaussian, Lorentzian, pseudo-Voigt, split), background types and limits multipliers on either side of one", "why_tests_cant": "Whether a start is accepted depends on data, background level and peak type together", "anchors": ["hexrd/core/fitting/fitpeak.py: estimate_pk_parms_1d, _amplitude_guess, fit_pk_parms_1d, estimate_mpk_parms_1d, estimate_pk_parms_2d"]}
{"id": "C79", "title": "Residuals of bounded fits vanish exactly at admissible exact fits", "statement": "The residual of a bounded single-peak fit is zero exactly when the peak reproduces the data and every bounded parameter is within its bounds; its sum of squares is never smaller than the unbounded one and equal exactly within the bounds. The goodness-of-fit measures are not negative and the first is zero exactly for equal arrays.", "quantifier": "all parameter vectors, bounds, weights, data", "why_tests_cant": "The equivalence is about the zero set of a function of all parameters", "anchors": ["hexrd/core/fitting/fitpeak.py: fit_pk_obj_1d_bnded, fit_pk_obj_1d, goodness_of_fit"]}
{"id": "C80", "title": "Value of a spectrum model is the sum of its peaks and background", "statement": "A spectrum model built from several peaks and a Chebyshev background evaluates, at every position, to the sum of the peak functions (the same functions as in single-peak fits) and the background; the background is bounded on its window by the sum of the absolute coefficients; the automatic start has the peaks at the given positions with the given widths, amplitudes of at least the minimum, and the estimated line as background whatever the background order.", "quantifier": "every peak type, any number of peaks, any coefficients, any positions", "why_tests_cant": "The model sums an arbitrary number of parametrised functions over real positions; tests evaluate a few spectra.", "anchors": ["hexrd/core/fitting/spectrum.py: SpectrumModel, _initial_guess, _build_composite_model", "hexrd/core/fitting/utils.py: gaussian_1d, lorentzian_1d, pvoigt_1d, split_pvoigt_1d"]}
{"id": "C81", "title": "Constraints keep the peaks of a spectrum apart", "statement": "When a spectrum model accepts its start values, every set of values that satisfies the constraints keeps the peaks in their order, neighbours at least the minimum separation apart, the first centre inside the window, widths and mixing in their ranges and parameters tied by pattern equal; starts whose neighbouring centres are not more than the separation apart are refused.", "quantifier": "any number of peaks, any start values, every assignment the optimiser may try", "why_tests_cant": "The optimiser explores real assignments that no test enumerates.", "anchors": ["hexrd/core/fitting/utils.py: _set_peak_center_bounds, _set_width_mixing_bounds, _set_equality_constraints, _set_bound_constraints", "hexrd/core/fitting/spectrum.py: SpectrumModel.fit"]}
{"id": "C82", "title": "A fitted ring is accepted as a whole, and only within its limits", "statement": "The peaks of a fitted ring are returned together or not at all; they are returned only when every amplitude reaches the cutoff and every centre lies within the relative tolerance of its prediction.", "quantifier": "any number of peaks, any fitted values, cutoffs and tolerances", "why_tests_cant": "The conjunction ranges over all fitted values, including the exact limits and NaN.", "anchors": ["hexrd/core/fitting/utils.py: fit_ring"]}
{"id": "C83", "title": "Angular filter of a simulated series", "statement": "The reflections kept by simulate_rotation_series are those whose azimuth lies in one of the eta ranges and whose omega lies in one of the omega ranges (each range in its own direction, modulo whole turns, up to the stated tolerance); ids, indices, angles and detector points of a grain stay aligned, there are at most two entries for each reflection, and the result of a grain does not depend on the other grains in the list.", "quantifier": "All reflection lists, all lists of eta and omega ranges whose ranges are whole turns or have separate ends, all angles, all grains", "why_tests_cant": "The loops carry a flag from one range to the next and four arrays are masked three times; a test sees one list of ranges and cannot see that every combination and order is handled.", "anchors": ["hexrd/core/instrument/detector.py:simulate_rotation_series", "hexrd/hedm/xrdutil/utils.py:_filter_hkls_eta_ome"]}
{"id": "C84", "title": "Simulated spots are the diffraction spots", "statement": "Each entry of simulate_rotation_series is a diffraction spot of the grain: at the listed omega the strained, oriented reciprocal lattice vector satisfies Ewald's condition for the (corrected) wavelength, the listed two-theta and eta are the polar and azimuthal angle of the scattered ray in the beam frame, the listed point is where that ray, leaving the grain's position, meets the detector plane, on the panel, with omega in the requested period. Conversely every such spot inside the ranges and on the panel is listed.", "quantifier": "All planar panels (position, tilt, size, buffer), beams, grains (orientation, position, strain), wavelengths, stage tilts and reflections under the stated non-degeneracy conditions", "why_tests_cant": "It is a statement over a continuum of geometries and an if-and-only-if: a test compares a few numbers with stored ones and cannot show that no spot is missing.", "anchors": ["hexrd/core/instrument/detector.py:simulate_rotation_series", "hexrd/hed/xrdutil/utils.py:_project_on_detector_plane"]}
{"id": "C85", "title": "When a simulation fails, and the energy correction", "statement": "Under the standing conditions the simulation of a grain fails only at a reflection whose component along the beam does not change when the stage turns; the energy correction changes the photon energy by slope times the distance of the grain from the intercept along the chosen axis, and does nothing without a correction, with slope zero or at the intercept.", "quantifier": "All grains, reflections, beams, wavelengths, slopes, intercepts and positions", "why_tests_cant": "The failing set is a measure-zero set of geometries that random tests do not meet, and the correction is a statement about all positions.", "anchors": ["hexrd/core/instrument/detector.py:simulate_rotation_series", "hexrd/hedm/xrdutil/utils.py:apply_correction_to_wavelength"]}
{"id": "C86", "title": "Angular pixel sizes are the largest differences along the sides of the pixel", "statement": "The angular size of the pixel about a point is the largest change of two-theta, and the largest distance on the circle of the azimuths, between two neighbouring corners of the pixel, seen from the crystal; it does not jump where the azimuth wraps around.", "quantifier": "every point, pixel size, detector position and tilt, sample rotation and translation, beam direction and azimuth reference, for corners off the beam", "why_tests_cant": "the wrap-around lies on one line of the detector and the mixed-up width and height show only for pixels that are not square", "anchors": ["hexrd/hedm/xrdutil/utils.py:angularPixelSize", "hexrd/hedm/xrdutil/utils.py:_compute_max", "hexrd/hedm/xrdutil/utils.py:_expand_pixels", "hexrd/core/instrument/detector.py:Detector.angularPixelSize"]}
{"id": "C87", "title": "Sphere projections are the stereographic and the equal-area projection", "statement": "Unit vectors are projected stereographically from the pole, one-to-one onto the plane with the lower half sphere in the unit disk, or by Lambert's equal-area projection, which keeps azimuths and areas; two-theta becomes tan(tth/2) or 2 sin(tth/2); a mask keeps the half sphere that is asked for; the arguments are not changed.", "quantifier": "every unit vector, or every two-theta, azimuth and omega, every tilt, rotation and choice of options", "why_tests_cant": "areas, bijectivity and behaviour at the poles are statements about all points of the sphere", "anchors": ["hexrd/hedm/xrdutil/utils.py:zproject_sph_angles", "hexrd/core/matrixutil.py:unitVector"]}
{"id": "C88", "title": "Angular patches tile the tolerance about a reflection", "statement": "The patch of a reflection is a grid of cells centred on its two-theta and azimuth that spans the two tolerances in even steps no larger than the angular pixel size divided by the subdivisions; the evaluation points are the middles of the cells, in row-major order; and the pixel indices of an evaluation point are those of the pixel that contains it.", "quantifier": "every reflection, angular pixel size, pair of tolerances, number of subdivisions and panel", "why_tests_cant": "the number of cells depends on a ceiling of a ratio of reals, and the wrong index edges are hidden as long as pixels are square", "anchors": ["hexrd/hedm/xrdutil/utils.py:make_reflection_patches", "hexrd/core/gridutil.py:make_tolerance_grid", "hexrd/core/gridutil.py:cellConnectivity", "hexrd/core/gridutil.py:cellCentroids"]}
{"id": "C89", "title": "Later documents of a configuration file inherit from earlier ones, setting by setting", "statement": "hexrd.core.config.open returns one configuration per document of the file. For every file that opens and every setting, the i-th configuration has the value v for it exactly if one of the first i documents gives v and no later one (up to the i-th) says anything about it, i.e. gives a value neither there nor in place of a section containing it. A section head or value left empty says nothing. Opening fails exactly when a document has a non-empty section where the configuration so far has a plain value.", "quantifier": "all numbers of documents, all nesting depths, all keys and values, all orders of keys", "why_tests_cant": "Tests open a few fixed files; the inheritance rule ranges over every nesting depth, every mixture of empty sections, overrides and type clashes, and every number of documents.", "anchors": ["hexrd/core/config/utils.py: merge_dicts, _merge_dicts", "hexrd/core/config/__init__.py: open", "hexrd/hedm/config/__init__.py: open"]}
{"id": "C90", "title": "Saving configurations and opening the file again gives the same configurations", "statement": "For every list of configurations obtained by opening a file, hexrd.core.config.save followed by open gives the same number of configurations with the same settings.", "quantifier": "all files that open, any number of documents", "why_tests_cant": "The rule that each document is merged into the previous one applies again to the saved file; that it then changes nothing must hold for every content.", "anchors": ["hexrd/core/config/__init__.py: open, save", "hexrd/core/config/utils.py: merge_dicts"]}
{"id": "C91", "title": "A setting that was set is found again, and setting it changes no other setting", "statement": "Config.get returns the value at the key path if the configuration has one, else the default, else it raises. After Config.set of a value, Config.get of the same key returns it, and settings at unrelated paths keep their values.", "quantifier": "all configurations, all key paths, all values and defaults", "why_tests_cant": "Which intermediate sections exist, are empty, or are replaced by a plain value varies with the file; tests fix a few.", "anchors": ["hexrd/core/config/config.py: Config.get, Config.set"]}
{"id": "C92", "title": "The number of processes is between one and the number of processors", "statement": "For every number of processors and every value of the multiprocessing setting the number of processes used is at least 1 and at most the number of processors; all means all, half means half rounded down, a positive number means that many as far as available, a negative one leaves that many processors free. Every value the setter accepts is stored as given.", "quantifier": "all numbers of processors, all values of the setting", "why_tests_cant": "The number of processors of the test machine is fixed; the boundary cases depend on it.", "anchors": ["hexrd/core/config/root.py: RootConfig.multiprocessing"]}
{"id": "C93", "title": "The azimuth mask and the fiber step of the orientation search mean what they say", "statement": "An azimuth lies in one of the ranges of find_orientations:eta, up to whole turns, exactly if it is at least eta:mask degrees away from both +90 and -90 degrees. A fiber step up to 360 degrees gives at least one division and divisions of the full turn that are at least the step and exceed it by less than one part in their number. An omega period is accepted exactly if it is a full turn in either direction.", "quantifier": "all masks from zero up, all azimuths, all positive steps", "why_tests_cant": "The claim is over a continuum of azimuths and masks and is about coverage of the circle.", "anchors": ["hexrd/hedm/config/findorientations.py: EtaConfig.range, SeedSearchConfig.fiber_ndiv"]}
{"id": "C94", "title": "Transmission corrections follow the law of absorption along the path of the beam", "statement": "For every thickness, absorption length and direction: a filter, coating or window transmits exp(-thickness/(absorption length * cos)); two layers of one material act as one; the transmission of the sample (and of a Compton-scattering layer) is the mean of the transmission over the depth at which the photon is scattered; all transmissions lie in (0, 1]; pixels whose beam leaves backwards or nearly along the surface have no number, all others have one; the phosphor signal is the absorbed energy weakened over the readout length.", "quantifier": "all thicknesses, absorption lengths, entry and exit directions, with and without window", "why_tests_cant": "The law is over a continuum of geometries and materials; tests compare single stored images.", "anchors": ["hexrd/core/instrument/detector.py: calc_physics_package_transmission, calc_transmission_sample, calc_transmission_window, calc_compton_transmission, calc_transmission_generic, calc_transmission_phosphor", "hexrd/core/instrument/planar_detector.py: calc_filter_coating_transmission", "hexrd/core/instrument/cylindrical_detector.py: calc_filter_coating_transmission"]}
{"id": "C95", "title": "The effective pinhole area is the overlap of the two faces of the pinhole", "statement": "For every pinhole and direction the effective area is the area, in units of the squared diameter, that the two circular faces have in common seen along the beam; it falls with the angle from the full disc to zero and is not a number beyond; it changes continuously with the thickness of the pinhole.", "quantifier": "all pinhole thicknesses and diameters, all directions", "why_tests_cant": "A claim about an area for a continuum of angles.", "anchors": ["hexrd/core/instrument/detector.py: calc_effective_pinhole_area"]}
{"id": "C96", "title": "Compton energies, polarization and Lorentz factors are the physical ones", "statement": "For every angle the energy after Compton scattering satisfies the Compton shift, never exceeds the incident energy and keeps at least m/(m+2E) of it; Q is the length of the difference of the wave vectors; the polarization factor is the share of the electric field perpendicular to the diffracted beam for the given fractions, agrees with the unpolarized factor for equal fractions, lies between cos^2(2 theta) and 1, and is refused exactly for negative fractions or fractions that do not add up to one; the Lorentz factor is 2/(sin theta sin 2theta).", "quantifier": "all energies, angles, polarization fractions", "why_tests_cant": "Continuum of angles and fractions.", "anchors": ["hexrd/core/instrument/detector.py: pixel_compton_energy_loss, polarization_factor, lorentz_factor", "hexrd/core/material/crystallography.py: polarization_factor, lorentz_factor"]}
{"id": "C97", "title": "Absorption lengths of compounds follow the mixture rule, and layer standoffs add up", "statement": "For every formula, density and energy the absorption length lies between those of the elements at the same density, does not depend on the multiple in which the formula is written, and is inverse to the density; the coefficient of an element is the tabulated one at the energies of the table and within the tabulated values between; the standoff of a layer from the pinhole is that of the next layer plus the thickness of the next layer.", "quantifier": "all formulas, densities, energies, tables and layer thicknesses", "why_tests_cant": "Quantifies over all compounds and energies.", "anchors": ["hexrd/core/material/utils.py: calculate_linear_absorption_length, calculate_energy_absorption_length, calculate_molecular_mass", "hexrd/core/instrument/physics_package.py: HEDPhysicsPackage.layer_standoff"]}
{"id": "C98", "title": "Orientation fibres contain the orientations they should", "statement": "The orientations tried for a spot in the seeded orientation search are unit quaternions that carry the lattice direction of the reflection to the direction of the spot; there are as many as requested, evenly spaced; every orientation that carries the one direction to the other is within pi / ndiv of one of them; and reduction by crystal symmetry loses none.", "quantifier": "all reciprocal bases, reflections, sample directions, numbers of divisions, crystal symmetry groups and candidate orientations", "why_tests_cant": "tests generate fibres for single directions; completeness of the search needs every direction, every division and every orientation of a continuum", "anchors": ["hexrd/core/rotations.py: discreteFiber", "hexrd/hedm/findorientations.py: discretefiber_reduced"]}
{"id": "C99", "title": "Eta-omega maps hold each frame in its own omega bin", "statement": "In the maps used by the orientation search a pixel is the sum of what the panels recorded (NaN only if none did); frames of several omega wedges on a common grid appear in the rows of their own omega ranges, with NaN rows in the gaps; and the pixel position of a spot is converted to the omega and eta of that place.", "quantifier": "all panel values, numbers and positions of wedges on a common grid within one turn, all spot positions", "why_tests_cant": "tests use one or two wedge layouts; the bookkeeping must be right for every layout", "anchors": ["hexrd/hedm/instrument/generate_eta_omega_maps.py: GenerateEtaOmeMaps.__init__", "hexrd/hedm/findorientations.py: generate_orientation_fibers"]}
{"id": "C100", "title": "Cleaning and filtering of eta-omega maps", "statement": "Cleaning replaces each pixel by its excess over the median (0 below it and for NaN), so that no pixel is negative or NaN and at least half are background; the median filter removes any constant streak along omega, keeps differences and NaN, and is idempotent; maps are filtered as the configuration asks.", "quantifier": "all maps, columns, constants and settings of the filter", "why_tests_cant": "tests look at single images; the effect must hold for every map", "anchors": ["hexrd/hedm/findorientations.py: clean_map, _filter_eta_ome_maps, filter_maps_if_requested, load_eta_ome_maps"]}
{"id": "C101", "title": "Choice of reflections for the eta-omega maps", "statement": "The reflections of the maps are those the caller names, else those the configuration names, else all that are not excluded; named reflections are used as given and in order, and are rejected if one is unknown, excluded or repeated.", "quantifier": "all lists of reflections by number or by indices, all sets of active reflections", "why_tests_cant": "tests try a few lists", "anchors": ["hexrd/hedm/findorientations.py: generate_eta_ome_maps", "hexrd/hedm/config/findorientations.py: OrientationMapsConfig.active_hkls"]}
{"id": "C102", "title": "Clusters of orientations", "statement": "Of the tested orientations exactly those whose completeness exceeds the threshold are clustered; none gives no grain, one is returned as it is; otherwise one orientation is returned for each cluster, the average of its members, with noise dropped, and Euclidean clusters whose averages fall together are joined.", "quantifier": "all completeness values, thresholds, orientations, algorithms and outcomes of the clustering library", "why_tests_cant": "the outcome of clustering differs with each data set; the bookkeeping must hold for all labellings", "anchors": ["hexrd/hedm/findorientations.py: run_cluster"]}
{"id": "C103", "title": "Every pulled spot is a real connected spot inside its search window, and every predicted reflection is reported once", "statement": "HEDMInstrument.pull_spots reports each predicted reflection whose window lies on the panel once, in order. A reflection without a connected group of voxels above the threshold in its window is reported as not found; otherwise the reported group is a connected component of the voxels above threshold, its measured angles lie within the window (up to a turn), its intensity is the sum of its voxels, its maximum the largest of them. If several groups compete the one nearest to the centre of the window is reported, and peak numbers of found spots are distinct and consecutive.", "quantifier": "all panels, windows, images, thresholds, label orders, tolerances", "why_tests_cant": "tests run a few synthetic grains; nothing checks all window sizes, ties and truncated windows", "anchors": ["hexrd/core/instrument/hedm_instrument.py:HEDMInstrument.pull_spots"]}
{"id": "C104", "title": "Completeness is the fraction of the predicted reflections that were found, and the fit gets exactly the usable spots", "statement": "determine_valid_reflections hands on, panel by panel and in order, exactly the spots that were found and are below the saturation level; its count is that of the spots found and its completeness is that count over the number of predicted reflections, between 0 and 1 and equal to 1 exactly if all were found. refine_valid_reflections keeps exactly the spots within the given number of pixels and frames of the calculated places.", "quantifier": "all search results, saturation levels, overlap files, tolerances, calculated places", "why_tests_cant": "depends on every combination of found, missing and saturated spots over panels; no unit test touches these functions", "anchors": ["hexrd/hedm/fitgrains.py:determine_valid_reflections", "hexrd/hedm/fitgrains.py:refine_valid_reflections"]}
{"id": "C105", "title": "The refinement of a grain stops with infinite chi squared exactly when too few spots are found, and otherwise reports the last fit", "statement": "fit_grain_FF_reduced goes through the tolerances in order, searching with the parameters of the previous fit. If some search finds at most twelve reflections the result has infinite chi squared, the parameters reached so far and the completeness of that search. Otherwise the parameters are those fitted to the usable spots of the last search, or, if a refit is asked for and more than twelve spots are close enough, those fitted to these; chi squared and completeness belong to what is returned.", "quantifier": "all searches, solvers, tolerance lists, refit settings and starting parameters", "why_tests_cant": "the order of searches and fits over all tolerance lists and outcomes of the searches", "anchors": ["hexrd/hedm/fitgrains.py:fit_grain_FF_reduced"]}
{"id": "C106", "title": "Fitting all grains gives each grain the fit of its own parameters, however the work is shared out", "statement": "fit_grains returns one result per grain in the order of the table, each fitted from that grain's own row, and the results of a pool of processes are those of a single process for every division of the work. With ids_to_refine it returns the fits of the requested grains.", "quantifier": "all tables, fits, divisions of the tasks over processes and orders within a process", "why_tests_cant": "a scheduling property: the fit overwrites the row it works on, so independence of the schedule has to hold for all schedules", "anchors": ["hexrd/hedm/fitgrains.py:fit_grains", "hexrd/hedm/fitgrains.py:fit_grain_FF_init", "hexrd/hedm/fitting/grains.py:fitGrain"]}
{"id": "C107", "title": "Calculated omegas are matched with the nearest solution, and chi squared is zero exactly for a perfect fit", "statement": "matchOmegas chooses of the two omega solutions of a reflection the one nearest to the measured omega on the circle. objFuncFitGrain's chi squared is never negative and is zero exactly if every spot lies at its calculated place, omega up to whole turns.", "quantifier": "all measured omegas, pairs of solutions, periods; all lists of calculated and measured places", "why_tests_cant": "depends on all positions relative to the branch cut", "anchors": ["hexrd/hedm/fitting/grains.py:matchOmegas", "hexrd/hedm/fitting/grains.py:objFuncFitGrain"]}
{"id": "C108", "title": "The fundamental-zone test accepts exactly the orientations of least rotation angle", "statement": "For each of the 32 point groups, a Rodrigues vector is accepted by the fundamental-zone test if and only if no symmetry-equivalent orientation has a smaller rotation angle, so that the accepted vectors cover all orientations once.", "quantifier": "all 32 point group numbers, all unit axes, all finite and infinite tangents, all symmetry-equivalent orientations", "why_tests_cant": "The zone is a solid bounded by curved and plane faces in a continuous space; gaps of a few percent of its volume, or on faces only, are not met by a finite list of vectors.", "anchors": ["hexrd/hedm/sampleOrientations/rfz.py:insideFZ", "hexrd/hedm/sampleOrientations/rfz.py:insideDihedralFZ", "hexrd/hedm/sampleOrientations/rfz.py:insideCyclicFZ", "hexrd/hedm/sampleOrientations/rfz.py:insideCubicFZ", "hexrd/core/constants.py:FZtypeArray"]}
{"id": "C109", "title": "The orientation sample is the set of grid points in the zone, whatever the schedule", "statement": "Sampling orientations returns, for every schedule of the parallel loops, the same list: exactly one unit quaternion for each grid point of the cube whose Rodrigues vector is in the zone. Conversion keeps the rotation (axis and angle to Rodrigues vector to quaternion), and the map from the cube to the ball takes concentric cubes to concentric spheres, the surface of the cube to the half turns.", "quantifier": "all point groups, grid sizes, spacings and shifts, all orders of the grid cells, all axes and angles, all points of the cube", "why_tests_cant": "Races depend on the schedule; the conversions are maps of a continuum with branches at thresholds and on the faces of six pyramids.", "anchors": ["hexrd/hedm/sampleOrientations/sampleRFZ.py:_sample", "hexrd/hedm/sampleOrientations/sampleRFZ.py:sampleRFZ.sample", "hexrd/hedm/sampleOrientations/conversions.py:cu2ho", "hexrd/hedm/sampleOrientations/conversions.py:ro2qu", "hexrd/hedm/sampleOrientations/conversions.py:ax2ro", "hexrd/hedm/sampleOrientations/conversions.py:ho2ax"]}
{"id": "C110", "title": "Volume and pressure of the equation of state are inverse, and the lattice parameters follow", "statement": "The volume computed for a pressure and a temperature has that pressure at that temperature, it is the only such volume under compression, and the lattice parameters computed for the pressure and temperature span a cell of that volume.", "quantifier": "all constants of the equation of state, all pressures and temperatures, all cells", "why_tests_cant": "The volume is a root of a polynomial of degree nine, picked from several by a mask; whether it exists and is unique depends on a continuum of moduli, pressures and temperatures.", "anchors": ["hexrd/core/material/material.py:Material.calc_volume", "hexrd/core/material/material.py:Material.calc_pressure", "hexrd/core/material/material.py:Material.calc_lp_factor", "hexrd/core/material/material.py:Material.calc_lp_at_PT", "hexrd/core/material/material.py:Material.vt"]}
{"id": "C111", "title": "The variants of a phase transformation are complete, distinct and as many as expected", "statement": "For a parent and a child material and a pair of parallel planes and directions, the returned variants are pairwise different up to the symmetry of the child, every symmetry of the parent leads to one of them, their number is the order of the parent group over the order of the common subgroup, which is the expected number that is returned with them, and in each of them the plane and the direction of the child are parallel to equivalents of those of the parent.", "quantifier": "all point groups of parent and child, all planes and directions", "why_tests_cant": "It is a statement on cosets of arbitrary finite groups in arbitrary relative orientation.", "anchors": ["hexrd/phase_transition/variants.py:getOR", "hexrd/phase_transition/variants.py:isnew", "hexrd/phase_transition/variants.py:expected_num_variants", "hexrd/phase_transition/variants.py:get_rmats", "hexrd/phase_transition/variants.py:removeinversion"]}
{"id": "C112", "title": "A JCPDS card gives the cell that it states, and a material takes it over exactly", "statement": "Whatever card is read, the cell is the one that the crystal system of the card requires, with the stated numbers; of repeated keywords the last counts, and the order of the lines does not matter. The volume of the card is the volume of the unit cell. Writing a card to a material is refused exactly if the symmetries differ; otherwise the material has the cell and the volume of the card and a comparison finds no difference.", "quantifier": "all cards of both formats and all materials", "why_tests_cant": "It ranges over every file content and every cell.", "anchors": ["hexrd/core/material/jcpds.py:JCPDS_extend.read_file", "hexrd/core/material/jcpds.py:JCPDS_extend.matches_material", "hexrd/core/material/jcpds.py:JCPDS_extend.write_lattice_params_to_material", "hexrd/core/material/jcpds.py:JCPDS_extend.calc_volume_unitcell", "hexrd/core/material/material.py:Material._reset_lparms"]}
{"id": "C113", "title": "Structure factors obey the symmetry of the crystal", "statement": "The computed intensity of a reflection does not depend on the origin, nor on the cell or order in which equivalent atoms are listed. It is zero for every reflection that the space group extinguishes, whatever the atoms. Reflections that the space group makes of one another have equal intensity, and so have opposite reflections if no atom absorbs. It is at most the square of the sum of the scattering of all atoms.", "quantifier": "all space groups and settings, all cells, all lists of atoms with occupancies, positions, displacements and form factors, all reflections", "why_tests_cant": "Systematic absences and equivalences are identities over all arrangements of atoms; a test compares a few known crystals.", "anchors": ["hexrd/powder/wppf/xtal.py:_calcxrsf", "hexrd/powder/wppf/xtal.py:_calcxrayformfactor", "hexrd/powder/wppf/xtal.py:_calcanomalousformfactor", "hexrd/core/material/unitcell.py:CalcXRSF", "hexrd/powder/wppf/phase.py:CalcXRSF"]}
{"id": "C114", "title": "Each reflection in the window gets its own intensity", "statement": "In a Rietveld model, every reflection whose Bragg angle lies in the fitted range is given the intensity scale times phase fraction over squared volume times its own structure factor times the Lorentz and polarization factor at its own Bragg angle; reflections are left out exactly when the wavelength is longer than twice the spacing or the angle is out of range.", "quantifier": "all lists of reflections, wavelengths, ranges of angles, scale factors and polarizations", "why_tests_cant": "The pairing depends on where the range cuts the list of reflections; tests use ranges that begin below the first reflection.", "anchors": ["hexrd/powder/wppf/WPPF.py:Rietveld.compute_intensities", "hexrd/powder/wppf/WPPF.py:AbstractWPPF.calctth", "hexrd/powder/wppf/WPPF.py:Rietveld.calcsf", "hexrd/powder/wppf/WPPF.py:Rietveld.PolarizationFactor", "hexrd/powder/wppf/xtal.py:_get_tth"]}
{"id": "C115", "title": "Extinction and absorption are attenuations", "statement": "The extinction factor of a reflection lies between zero and one, is one for vanishing crystallites and does not increase with their size or with the strength of the reflection; it follows Sabine's two expansions. The absorption factor of a plate is the mean transmission over its depth, for every tilt.", "quantifier": "all crystallite sizes, structure factors, wavelengths, cell volumes, angles, tilts and absorption coefficients", "why_tests_cant": "Bounds and monotonicity over continuous ranges with a switch of formula; tests do not cross the switch.", "anchors": ["hexrd/powder/wppf/xtal.py:_calc_extinction_factor", "hexrd/powder/wppf/xtal.py:_calc_laue_factor", "hexrd/powder/wppf/xtal.py:_calc_bragg_factor", "hexrd/powder/wppf/xtal.py:_calc_absorption_factor"]}
{"id": "C116", "title": "Anisotropic broadening respects the symmetry of the crystal", "statement": "The parameters of anisotropic broadening of every space group make reflections that are equivalent in its Laue group equally broad, for every value of the parameters; the broadening is a form of the fourth degree in the indices. Conversely every such form is reached by the parameters. Parameters keep the values they are given.", "quantifier": "all 230 space groups and their settings, all values of the parameters, all real indices", "why_tests_cant": "Invariance is a polynomial identity for each operator of each group; a test evaluates single reflections.", "anchors": ["hexrd/powder/wppf/peakfunctions.py:_anisotropic_peak_broadening", "hexrd/powder/wppf/wppfsupport.py:_fill_shkl", "hexrd/powder/wppf/wppfsupport.py:_required_shkl_names", "hexrd/powder/wppf/wppfsupport.py:_rqd_shkl"]}
{"id": "C117", "title": "Lines of the powder pattern are peaks of unit area", "statement": "For parameters that are not negative, each line of a powder pattern is a positive function with a single maximum at the angle of the reflection, symmetric in its half widths, falling on both sides, with the area one, so that the area of the pattern of a phase is the sum of its intensities. The pattern does not depend on the order of the reflections. The Gaussian width is positive for all parameters. Broadening by strain is the same whichever part of the profile it is attributed to. With axial divergence the weight of an angle is the length of the slit that the sample is seen in. Profiles without closed form have unit area over the measured positions.", "quantifier": "all widths and mixing parameters, all angles, all lists of reflections and intensities, all positions", "why_tests_cant": "The claims concern integrals over the real line and all parameters of the refinement; a test samples a pattern.", "anchors": ["hexrd/powder/wppf/peakfunctions.py:_gaussian_fwhm", "hexrd/powder/wppf/peakfunctions.py:_lorentzian_fwhm", "hexrd/powder/wppf/peakfunctions.py:pvoight_wppf", "hexrd/powder/wppf/peakfunctions.py:_split_unit_pv", "hexrd/powder/wppf/peakfunctions.py:_func_W", "hexrd/powder/wppf/peakfunctions.py:pvfcj", "hexrd/powder/wppf/peakfunctions.py:computespectrum_pvtch"]}
{"id": "C118", "title": "The extraction of intensities shares out the measured pattern", "statement": "One cycle of the extraction of intensities from a powder pattern gives each reflection a share of the measured pattern in proportion to the simulated pattern: the intensities add up to the integral of the measured pattern without its background, are not negative, and do not change when the simulated pattern is the measured one. The vector handed to the minimiser has the weighted sum of squares as the sum of its squares; the residual reported is its root over the weighted sum of the data, is zero for a perfect fit, and does not depend on the scale. The extraction ends after the given number of cycles or when the residual changes less than the given amount.", "quantifier": "all patterns, profiles, backgrounds, numbers of reflections and points, and all sequences of residuals", "why_tests_cant": "Sums over all points and reflections of arbitrary patterns; the loop ends for every sequence of residuals.", "anchors": ["hexrd/powder/wppf/peakfunctions.py:calc_Iobs_pvtch", "hexrd/powder/wppf/peakfunctions.py:calc_rwp", "hexrd/powder/wppf/WPPF.py:single_azimuthal_extraction", "hexrd/powder/wppf/WPPF.py:CalcIobs"]}
{"id": "C119", "title": "Masked powder patterns are taken apart and put together without loss", "statement": "The regions of a masked powder pattern are its longest runs of used points, and joining them gives the pattern with NaN at the points that are not used; what is computed for each region is what is computed at each used point. A new degree of the background keeps the coefficients up to it. The step of a pattern with equidistant points is their distance. Each phase gets the broadening of its own parameters.", "quantifier": "all patterns and masks, all functions of the points, all degrees and coefficients, all lists of phases", "why_tests_cant": "Masks have any pattern of gaps at the ends and inside; a test has one.", "anchors": ["hexrd/powder/wppf/WPPF.py:separate_regions", "hexrd/powder/wppf/WPPF.py:join_regions", "hexrd/powder/wppf/WPPF.py:AbstractWPPF.bkgmethod", "hexrd/powder/wppf/WPPF.py:AbstractWPPF._update_shkl"]}
{"id": "C120", "title": "Operations on powder patterns keep or combine the measured points", "statement": "A pattern with a background has, at each of its positions covered by the background, its scaled and shifted value minus the linearly interpolated background, and no other position; without overlap there is an error. Sums and differences of patterns combine each value with the interpolated value of the other pattern at that position. Limiting a pattern keeps exactly the points within the limits; limits compose; factors compose. Extending an equidistant pattern keeps its points and adds equidistant ones up to the given position. Rebinning puts every point in exactly one bin, whose position is within half a bin, on multiples of the bin size; the values are means, so the total is kept; an empty bin is missing.", "quantifier": "all patterns, backgrounds, scalings, offsets, limits, positions, and bin sizes", "why_tests_cant": "Interpolation, overlap and the edges of bins depend on how the points of two patterns lie to each other; tests use patterns on the same grid.", "anchors": ["hexrd/powder/wppf/spectrum.py:Spectrum.data", "hexrd/powder/wppf/spectrum.py:Spectrum.set_background", "hexrd/powder/wppf/spectrum.py:Spectrum.__add__", "hexrd/powder/wppf/spectrum.py:Spectrum.__sub__", "hexrd/powder/wppf/spectrum.py:Spectrum.limit", "hexrd/powder/wppf/spectrum.py:Spectrum.extend_to", "hexrd/powder/wppf/spectrum.py:Spectrum.rebin", "hexrd/powder/wppf/spectrum.py:Spectrum.scaling"]}
{"id": "C121", "title": "Default refinement parameters and a material are the same information", "statement": "The parameters generated for a list of phases hold, under a name of its own for each phase, the lattice parameters, the atoms and the phase fractions; distinct quantities never share a name, and setting the untouched parameters back leaves every phase with the cell, the atoms and the fractions it had. For any values of the free fractions inside their simplex, the fractions read back are non-negative numbers that add up to one in the given proportions. Structure factors are calculated again exactly when something they depend on is refined.", "quantifier": "every list of phases with separate names, every lattice type, every number of atoms of every element, peak shape, background degree and set of fractions; every set of refined parameters", "why_tests_cant": "names collide only for particular pairs of phase names and atom numbers; a test tries a handful of materials", "anchors": ["hexrd/powder/wppf/wppfsupport.py:_generate_default_parameters_Rietveld", "hexrd/powder/wppf/wppfsupport.py:_add_phase_fractions", "hexrd/powder/wppf/wppfsupport.py:_add_atominfo_to_params", "hexrd/powder/wppf/wppfsupport.py:_getnumber", "hexrd/powder/wppf/WPPF.py:Rietveld._set_phase_params_vals_to_class"]}
{"id": "C122", "title": "Amorphous and thermal diffuse signals have the shape and scale they are given", "statement": "A measured amorphous signal with scale one and no shift is reproduced exactly on the pattern's points, and otherwise is moved by the shift, scaled, and interpolated between its points; peaks of the analytic models have the given centre, height and half widths; setting generated parameters back changes nothing; the degree of crystallinity is the crystalline share of the area above the background. The thermal diffuse signal is never negative, vanishes without displacements, uses for every reflection the mean over all orientations of the scattering in a sphere with the volume of the Brillouin zone, and adds up the elements of the material.", "quantifier": "every grid, every measured signal, shift, scale and filter; every centre and width; every list of reflections, lattice parameter and momentum transfer; every displacement parameter", "why_tests_cant": "the orientation mean is an integral with a logarithmic singularity, and the interpolation has a case for every position of the shifted grid; tests see one sample", "anchors": ["hexrd/powder/wppf/amorphous.py:Amorphous.amorphous_lineout", "hexrd/powder/wppf/amorphous.py:Amorphous.model_data", "hexrd/powder/wppf/wppfsupport.py:_generate_default_parameters_amorphous_model", "hexrd/powder/wppf/tds.py:TDS_material.calcTDS", "hexrd/powder/wppf/tds.py:TDS_material.get_TDS_contribution_hkl", "hexrd/powder/wppf/WPPF.py:AbstractWPPF.DOC"]}
{"id": "C123", "title": "Densities and scattering factors depend on a composition only through its proportions", "statement": "Normalised abundances add up to one in the same proportions, whatever the scale they are given on; the number density and the density in atoms per cubic \u00e5ngstr\u00f6m describe the same number of particles; the mean squared scattering factor exceeds the squared mean by the mean squared deviation; the coherent factor is the tabulated function of the momentum transfer, and the incoherent scattering is the mean of the elements.", "quantifier": "every composition with non-negative abundances, every table of weights and scattering factors, every momentum transfer", "why_tests_cant": "unit tests check a few compounds at a few momentum transfers; that a factor is too small everywhere is not seen by comparing one value", "anchors": ["hexrd/core/material/utils.py:normalize_composition", "hexrd/core/material/utils.py:calculate_number_density", "hexrd/core/material/utils.py:convert_density_to_atoms_per_cubic_angstrom", "hexrd/core/material/utils.py:calculate_coherent_scattering_factor", "hexrd/core/material/utils.py:calculate_f_squared_mean", "hexrd/core/material/utils.py:calculate_incoherent_scattering"]}
{"id": "C124", "title": "The harmonic texture model has the symmetry of the crystal and of the sample", "statement": "All the reflections of a family have the same pole figure, for every set of coefficients; the pole figures have the symmetry of the sample and a centre of inversion; with the parameters a refinement begins with the texture is random (intensity one everywhere); the texture index is one for a random texture and greater otherwise; every harmonic has exactly one coefficient for each harmonic of the sample, and the texture factor of a ring is the mean over what is not masked.", "quantifier": "every Laue group and sample symmetry, every degree, every direction of the crystal and of the sample, all coefficients, every mask", "why_tests_cant": "unit tests evaluate a few reflections at a few coefficients; symmetry is a statement about all directions and all degrees", "anchors": ["hexrd/powder/wppf/texture.py:calc_sym_sph_harm", "hexrd/powder/wppf/texture.py:get_num_sym_harm", "hexrd/powder/wppf/texture.py:check_degrees", "hexrd/powder/wppf/texture.py:HarmonicModel.calc_pf_rings", "hexrd/powder/wppf/texture.py:HarmonicModel.recalculated_pf", "hexrd/powder/wppf/texture.py:HarmonicModel.calc_texture_factor", "hexrd/powder/wppf/texture.py:HarmonicModel.J", "hexrd/powder/wppf/texture.py:HarmonicModel.parameter_names"]}
{"id": "C125", "title": "The March-Dollase factor is the family mean of a normalised function of the angle to the axis", "statement": "With a MarchDollaseModel, the texture factor of a reflection is the mean, over its symmetry equivalents each taken once, of (P^2 cos^2 a + sin^2 a / P)^(-3/2), a being the true angle in the crystal between the plane normal and the preferred axis. It is the same for all equivalents, does not depend on the length, sense or choice among equivalents of the axis, is positive and between 1/P^3 and P^(3/2), is 1 for P = 1, and the function integrates to 1 over all directions. Through any sequence of setting HKL and P_MD, calculations with parameters and texture_index the factors belong to the present material, axis and parameter; a calculation uses the value in the given parameters.", "quantifier": "all cells with positive volume, all space groups, reflections, axes, positive P, parameter sets and call histories", "why_tests_cant": "A test has one cell and a few P; the angle, the family mean, the normalisation integral and the histories range over continuous and unbounded inputs.", "anchors": ["hexrd/powder/wppf/texture.py: MarchDollaseModel", "hexrd/powder/wppf/phase.py: Material_LeBail.CalcStar, CalcDot, CalcLength"]}
{"id": "C126", "title": "Pole figure data keeps directions, weights and order, and the fit minimises the relative squared deviation", "statement": "Assigning pole figure data stores unit vectors along the given directions with unchanged intensities, their polar and azimuthal angles and those after the rotation of the sample; the length of the given vectors does not matter and assigning the stored arrays again changes nothing. The weight of a point is the inverse of its intensity, 0 below 1/100 in absolute value, in the order of the measured intensities. For non-negative data the residual has one entry per point and its sum of squares is the sum of (measured - calculated)^2 / measured over the points of at least 1/100; points that are NaN, or at most -1/100 and not met, are left out, and 1e10 is returned if nothing is left. The plotted radius is that of the stereographic projection, from which directions of the upper hemisphere can be read back. The densest grid is the first with the most points. Ring intensities follow the present directions of the reflections.", "quantifier": "all data sets, directions, rotations, intensities, calculated values and sequences of calculations", "why_tests_cant": "Tests have one data set; the claims range over all arrays, rotations and histories of calculations with changing cells and degrees.", "anchors": ["hexrd/powder/wppf/texture.py: HarmonicModel.pfdata, calc_residual, stereographic_radius, densest_grid, precompute_spherical_harmonics, calc_pf_rings"]}
{"id": "C127", "title": "A texture component is a normalised, symmetric bell around its modes", "statement": "A de la Vallee Poussin kernel with half-width h (0 < h < pi) has its largest value, the normalisation constant, at angle 0, half of it at h, and falls strictly to 0 at pi; its mean over all rotations is 1. With crystal and sample symmetry the value for two orientations is the average over all symmetric images: it does not depend on the order of the two, is unchanged when either is replaced by an equivalent (sample operators from the left, crystal operators from the right), lies between 0 and the constant, and averaging keeps the mean; symmetry is dropped only if it is the identity alone, and then both ways of evaluation agree. The reduced misorientation is the smallest over the images. A unimodal ODF is the weighted sum of the kernels around its modes, so it is non-negative, bounded, invariant under the symmetry, and of mean equal to the sum of the weights, which construction keeps non-negative and within the tolerance of 1; the value at an orientation does not depend on the array it is asked in. Only known symmetry labels are accepted. The estimated maximum is the largest value of the ODF.", "quantifier": "all half-widths, Laue groups and sample symmetries, groups of quaternions, orientations, numbers of modes and weights, array lengths", "why_tests_cant": "Normalisation is an integral over all rotations for every half-width, and invariance is about every orientation and operator; a Monte Carlo test only sees a sample with noise.", "anchors": ["hexrd/phase_transition/texture/kernels.py: DeLaValleePoussinKernel, _symmetry_quaternions, _is_trivial_symmetry", "hexrd/phase_transition/texture/unimodal_odf.py: UnimodalODF"]}
{"id": "C128", "title": "Batches, texture index and norm of an ODF agree with its values", "statement": "Evaluation in chunks gives exactly the values of evaluation at once, in the same order, for every positive chunk size; other sizes are refused for non-empty arrays. The texture index is the closed form where there is one: 1 for the uniform ODF and, for one mode without symmetry, the mean of the squared kernel over all rotations, which is at least 1. Otherwise it is the mean square over the squared mean of the sampled values: at least 1, the same for a multiple of the ODF, and 1 for a constant one. The norm is its square root.", "quantifier": "all ODFs with values for each orientation, arrays, chunk sizes, sampled values and half-widths", "why_tests_cant": "Chunk boundaries range over all pairs of lengths and sizes, and the closed form is an integral for every half-width.", "anchors": ["hexrd/phase_transition/texture/evaluation.py: eval_odf_batch, texture_index, texture_norm", "hexrd/phase_transition/texture/unimodal_odf.py: analytic_texture_index", "hexrd/phase_transition/texture/uniform_odf.py: UniformODF"]}
{"id": "C129", "title": "A simulated Laue pattern holds exactly the reflections that diffract onto the detector", "statement": "For polychromatic radiation within given energy windows, a grain (orientation, position, stretch) and a flat detector, each row that the Laue simulation reports is a reflection that was asked for: a photon of an energy in the windows leaves the grain along a unit direction that satisfies Laue's equation for the reflection or its opposite, the ray meets the detector at the point reported, which is on the panel, and the reported spacing, angles and energy are those of that ray. Conversely each reflection that diffracts in this way onto the panel is reported. There is one row per reflection, the rows that are not NaN come in the order of the reflections, and when the reflections come from plane data one of each opposite pair is reported, the one that satisfies Laue's equation.", "quantifier": "all reciprocal lattices, grains, sample rotations and translations, detector poses, panels and buffers, beams, energy windows and lists of reflections", "why_tests_cant": "Tests simulate one crystal; whether a spot is missed, misplaced or labelled by its opposite depends on orientation, detector pose and energy window jointly, all of them continuous.", "anchors": ["hexrd/laue/simulation.py:simulate_laue_pattern_on_panel", "hexrd/laue/simulation.py:simulate_laue_pattern_on_instrument"]}
{"id": "C130", "title": "The residual of the Laue calibration compares each pick with the predicted point of its own reflection", "statement": "The residual of the Laue calibration is the list, detector by detector and in the order of the picks, of the differences between the point at which the reflection of the pick is predicted and the picked point, for each pick that has one; it is zero exactly when every pick is at its predicted point. Picks without a position do not contribute. A pick whose reflection is not predicted is never compared with the prediction of another, and the prediction is that of the pattern simulation for the same instrument and grain.", "quantifier": "all numbers of detectors, pick lists, grains, instruments and energy windows", "why_tests_cant": "The pairing is positional after two independent filters; tests use complete picks on a stage at the origin, where the filters agree.", "anchors": ["hexrd/core/fitting/calibration/laue.py:LaueCalibrator.residual", "hexrd/core/fitting/calibration/laue.py:LaueCalibrator._evaluate", "hexrd/core/fitting/calibration/laue.py:sxcal_obj_func"]}
{"id": "C131", "title": "Calibration picks survive being stored in a calibrator", "statement": "A reflection written as a string by the program is read back as the same reflection, and different reflections have different strings. Picks of a grain or Laue calibrator given under such strings come back unchanged, in order; in general each detector of the instrument shows for each reflection the last point given under a string that reads as it. Picks of a powder calibrator come back unchanged except that rings without picks are dropped; whatever the rows are, each reflection shows exactly the points of its rows in order; and handing the picks of one calibrator to another leaves the fit the same points on the same rings.", "quantifier": "all lists of integers, all pick dictionaries and all row arrays, any number of detectors", "why_tests_cant": "Round trips through strings and dictionaries depend on every digit, sign, spacing and duplicate; tests store a handful of low-index picks.", "anchors": ["hexrd/core/utils/hkl.py:hkl_to_str", "hexrd/core/utils/hkl.py:str_to_hkl", "hexrd/core/fitting/calibration/abstract_grain.py:AbstractGrainCalibrator.calibration_picks", "hexrd/core/fitting/calibration/powder.py:PowderCalibrator.calibration_picks", "hexrd/core/material/crystallography.py:hklToStr"]}
{"id": "C132", "title": "The parameters of several calibrators neither collide nor leak", "statement": "When an instrument calibration combines any number of grain, Laue and powder calibrators, the fitted parameters have pairwise distinct names whatever the grains and materials are called; whatever values a fit gives them, each grain calibrator takes exactly its own twelve; with the starting values it keeps its rotation, position and stretch; fixing the strain, the translation or the height of a grain gives those parameters the identity or zero, inside their bounds and not varied, and changes nothing else; forcing a value only ever widens the bounds; and a second powder calibrator of a material adds no parameter.", "quantifier": "every list of parameters of the instrument with distinct names, every list of calibrators (any names, including equal ones), every assignment of values", "why_tests_cant": "tests combine one or two grains with different names; collisions need particular names and counts, and leakage between calibrators needs all combinations", "anchors": ["hexrd/core/fitting/calibration/instrument.py:InstrumentCalibrator.make_lmfit_params", "hexrd/core/fitting/calibration/abstract_grain.py:AbstractGrainCalibrator.create_lmfit_params", "hexrd/core/fitting/calibration/abstract_grain.py:AbstractGrainCalibrator.fix_strain_to_identity", "hexrd/core/fitting/calibration/abstract_grain.py:force_param_value", "hexrd/core/fitting/calibration/lmfit_param_handling.py:create_grain_params", "hexrd/core/fitting/calibration/lmfit_param_handling.py:rename_to_avoid_collision"]}
{"id": "C133", "title": "Powder calibration residuals measure the deviation from Bragg's law", "statement": "Each picked point contributes exactly one residual, in the order of panels, rings and points; it is x exactly if the angle of the point less x satisfies Bragg's law for the lattice planes of its ring (less the optional correction), zero exactly on the ring, and not a number exactly if the planes cannot diffract; the model point lies on the ring at the azimuth of the pick. Without a structure, every ring of every source has its own parameter, starting at the mean angle of its points, and at the start the residuals of each ring sum to zero. Setting the two-theta tolerance of the calibrator has an effect.", "quantifier": "every instrument of planar panels with distortions that have inverses, every lattice, wavelength, picks on any number of panels and rings, every number of sources", "why_tests_cant": "tests compare one calibrated instrument with stored numbers; the equivalence with Bragg's law for every pick and the naming over sources and rings range over infinitely many inputs", "anchors": ["hexrd/core/fitting/calibration/powder.py:PowderCalibrator._evaluate", "hexrd/core/fitting/calibration/powder.py:PowderCalibrator.tth_tol", "hexrd/core/fitting/calibration/structureless.py:StructurelessCalibrator.calc_residual", "hexrd/core/fitting/calibration/structureless.py:StructurelessCalibrator.meas_angles", "hexrd/core/fitting/calibration/lmfit_param_handling.py:create_tth_parameters", "hexrd/core/fitting/calibration/lmfit_param_handling.py:tth_parameter_prefixes"]}
{"id": "C134", "title": "The residual of a grain is zero exactly at the grains that explain the spots", "statement": "The residual that the refinement and the calibration of a grain minimise has three numbers per measured spot, and all of them are defined and zero exactly if every measured spot, after the correction for the distortion, is a diffraction spot of the grain: with the sample at the measured omega the reflection is in Ewald's condition for the wavelength corrected for the position of the grain, and the scattered wave leaving the grain meets the detector at the measured place.", "quantifier": "all instruments, detectors, grains (orientation, position, stretch), beam directions, energy corrections, lists of panels and of measured spots, and full-turn omega periods", "why_tests_cant": "The prediction chains a quadratic in omega, a choice between two solutions on a circle, a mirror image of the beam and an intersection with a plane; tests fit a few synthetic grains, all of them in the standard beam direction.", "anchors": ["hexrd/hedm/fitting/grains.py:objFuncFitGrain", "hexrd/hedm/fitting/grains.py:matchOmegas", "hexrd/hedm/fitting/calibration/grain.py:sxcal_obj_func"]}
{"id": "C135", "title": "Colours of inverse pole figures convert there and back", "statement": "Converting hue, saturation and lightness to red, green and blue gives values between 0 and 1 that are the colour asked for (the hue picks a point of the hexagon red, yellow, green, cyan, blue, magenta; saturation and lightness mix it with grey), and an array is refused exactly if it is empty or has a value out of range by the tolerance or more. Converting red, green and blue gives a hue in [0, 1), a saturation and a lightness of which it is the colour. Converting there and back is exact in both directions away from the tolerance (not nearly grey, values not nearly 0 or 1, hue not a full turn), a nearly grey colour comes back as a grey off by less than the tolerance, and hue 0 and hue 1 are the same colour.", "quantifier": "all arrays of real colours, of any length", "why_tests_cant": "the conversion is piecewise on twelve sectors and on three orders of the channels with ties; tests sample colours, the claim is about every colour including the borders of the sectors", "anchors": ["hexrd/hedm/ipfcolor/colorspace.py: hsl2rgb, rgb2hsl"]}
{"id": "C136", "title": "Operators generated for a point group", "statement": "Generating the symmetry operators of a point group from its symbol gives the operators of that group: the generators and their products, without repetition, forming a group of the order of the point group. For the symbols d4, d2d, d3 and c3v this is not so: one operator is missing.", "quantifier": "every one of the 32 point group symbols", "why_tests_cant": "tests look at a few groups; that the list is closed under products and inverses is a statement about all pairs of operators of every group", "anchors": ["hexrd/core/material/symmetry.py: GeneratePGSYM, MakeGenerators_PGSYM", "hexrd/core/constants.py: SYM_GL_PG"]}
{"id": "C137", "title": "Reduction of directions to the sector of a supergroup", "statement": "Reducing an array of directions that are not null with the operators and the sector of one of the groups mmm, 4/mmm, 6/mmm and m-3m gives one row for each direction, in the same order; each row is the image of the normalised direction under an operator of the group and lies in the sector. Two equivalent directions are reduced to the same direction unless it lies next to the boundary of the sector.", "quantifier": "every list of directions, every cell of the shape of the group, every operator", "why_tests_cant": "the loop keeps an index array and shrinks it at every operator; that no direction is lost or misplaced, and that every direction on the sphere has exactly one image in the sector, are statements about all directions and all histories of the loop", "anchors": ["hexrd/core/material/unitcell.py: reduce_dirvector, inside_spheretriangle, GenerateCartesianPGSym", "hexrd/hedm/ipfcolor/sphere_sector.py: pg2vertex"]}
{"id": "C138", "title": "Colours of directions in inverse pole figures", "statement": "For a crystal of one of the Laue groups mmm, 4/mmm, 6/mmm and m-3m, colouring an array of directions of length 1 never fails and gives one colour per direction, in order, with channels between 0 and 1; equivalent directions have the same colour whatever the arrays are. For a crystal of a smaller Laue group with such a supergroup the colour is the one of the image in the sector of the supergroup, from the light half (lightness at least 1/2) if both reductions give the same direction and from the dark half otherwise. The hue is monotone in the azimuth about the centre of the sector, the centre is white (black in the dark half), and no saturation is below 3/4.", "quantifier": "every list of unit directions away from the mirror planes, every cell of the shape of the group", "why_tests_cant": "the colour goes through a fillet search, a projection on a great circle, two ratios of arc cosines and a numerical integral; that none of them ever leaves its range (which would raise an error for the whole array) is a statement about every direction of the sphere", "anchors": ["hexrd/core/material/unitcell.py: color_directions", "hexrd/hedm/ipfcolor/sphere_sector.py: get_color, calc_hue, calc_saturation, calc_lightness, calculate_rho, calculate_theta, point_on_boundary, fillet_region"]}
{"id": "C139", "title": "The near-field confidence matrix does not depend on how the work is divided", "statement": "test_orientations gives, for every grain and every test coordinate, the confidence of that pair, the same number whatever the chunk size, the number of processes, the order in which chunks finish, the number of MPI ranks and the earlier content of shared memory.", "quantifier": "all grids, grain lists, chunk sizes, process counts, rank counts, completion orders and old memory contents", "why_tests_cant": "A test runs a few chunk sizes on one machine; it cannot enumerate completion orders, rank counts and remainders.", "anchors": ["hexrd/hedm/grainmap/nfutil.py:test_orientations", "hexrd/hedm/grainmap/nfutil.py:multiproc_inner_loop", "hexrd/hedm/grainmap/nfutil.py:get_offset_size", "hexrd/hedm/grainmap/nfutil.py:gather_confidence", "hexrd/hedm/grainmap/nfutil.py:grand_loop_pool"]}
{"id": "C140", "title": "The near-field confidence is the fraction of the visible reflections that light up", "statement": "For a grain at a coordinate the confidence is the number of predicted spots that fall on a set pixel of the dilated image stack divided by the number of predicted spots that fall on the detector and the frames; it lies in [0, 1], grows with the stack, is 1 on the stack drawn from the same prediction; and dilation sets exactly the pixels near a set pixel.", "quantifier": "all predictions, stacks, detector sizes, dilations and frames", "why_tests_cant": "It quantifies over every prediction and every stack of frames.", "anchors": ["hexrd/hedm/grainmap/nfutil.py:_quant_and_clip_confidence", "hexrd/hedm/grainmap/nfutil.py:simulate_diffractions", "hexrd/hedm/grainmap/nfutil.py:dilate_image_stack", "hexrd/hedm/grainmap/nfutil.py:get_dilated_image_stack", "hexrd/hedm/grainmap/nfutil.py:_write_pixels"]}
{"id": "C141", "title": "The test grid covers the volume with one voxel for each place", "statement": "gen_nf_test_grid lists the centres of the voxels of the given size inside the bounds, each once, in C order with the shape it reports, so that the voxel a number names is known and every point of the volume is in one voxel; gen_nf_test_grid_tomo gives the same grid for a tomographic mask.", "quantifier": "all bounds and voxel sizes that fit", "why_tests_cant": "The bounds and sizes are real numbers; a test samples a few of them.", "anchors": ["hexrd/hedm/grainmap/nfutil.py:gen_nf_test_grid", "hexrd/hedm/grainmap/nfutil.py:gen_nf_test_grid_tomo"]}
{"id": "C142", "title": "The grain map holds the best grain and its confidence", "statement": "process_raw_confidence gives for every voxel the greatest confidence of any grain there and the first grain that reaches it, -1 if the confidence is not above the threshold, and with a table of ids the id of that grain.", "quantifier": "all confidence matrices, thresholds and id tables", "why_tests_cant": "It quantifies over every matrix, with ties and empty voxels.", "anchors": ["hexrd/hedm/grainmap/nfutil.py:process_raw_confidence"]}
{"id": "C143", "title": "Stitched volumes and VTK cells keep every layer in its place", "statement": "output_grain_map with several scans puts the layers of each scan at its place in the stack, moved along y by its offset, in the direction asked for; and the VTK files list one hexahedron for each place between points, with its eight corners in the order of VTK, all of them points of the file.", "quantifier": "all numbers of scans, volume shapes, spacings and directions", "why_tests_cant": "A test checks one shape; the index arithmetic must be right for all of them.", "anchors": ["hexrd/hedm/grainmap/nfutil.py:output_grain_map", "hexrd/hedm/grainmap/vtkutil.py:output_grain_map_vtk"]}
{"id": "C144", "title": "The near-field trial orientations surround the far-field ones and know their grain", "statement": "gen_trial_exp_data keeps the grains above the completeness and below the chi squared bounds; with a misorientation bound it adds to each the regular grid of misorientations around it, the grain itself among them, and the id map names for each trial the grain it was made from.", "quantifier": "all grain tables, bounds and spacings", "why_tests_cant": "It quantifies over the number of grains and of steps.", "anchors": ["hexrd/hedm/grainmap/nfutil.py:gen_trial_exp_data"]}
{"id": "C145", "title": "The layer correction of a pinhole camera is the change of the scattering angle", "statement": "tth_corr_map_layer gives, for every detector point, the difference of the scattering angle at the point of the layer on the ray through the centre of the pinhole and the nominal angle; tth_corr_layer subtracts it, and gives NaN exactly where no straight ray in that direction passes both openings of the pinhole. The correction is positive off the beam and grows with the distance of the layer.", "quantifier": "all beams, directions, source distances, layer positions and pinhole sizes with the layer between source and pinhole", "why_tests_cant": "The claim is about real geometry for every direction; a test compares stored numbers at a few.", "anchors": ["hexrd/hed/xrdutil/phutil.py:tth_corr_layer", "hexrd/hed/xrdutil/phutil.py:tth_corr_map_layer", "hexrd/hed/xrdutil/phutil.py:invalidate_past_critical_beta", "hexrd/hed/xrdutil/phutil.py:tth_corr_pinhole"]}
{"id": "C146", "title": "The angle seen through a thick pinhole is an average of scattering angles on its wall", "statement": "calc_tth_rygg_pinhole divides the wall of the pinhole into equal elements and its two edges; for each element it takes the scattering angle there of the ray from the source to the detector point; elements count exactly if the ways to source and detector are clear; and the result is between the smallest and the greatest angle of the elements that count, NaN exactly if none does.", "quantifier": "all pinhole sizes, source and detector positions and numbers of elements", "why_tests_cant": "It quantifies over all geometries; tests compare with stored results of one instrument.", "anchors": ["hexrd/hed/xrdutil/phutil.py:calc_tth_rygg_pinhole", "hexrd/hed/xrdutil/phutil.py:_compute_vi_qq_i", "hexrd/hed/xrdutil/phutil.py:_compute_qq_p"]}
{"id": "C147", "title": "Source and detector points have their places in the frame of the pinhole", "statement": "The angles calc_tth_rygg_pinhole derives from the beam and from a detector direction put the source and the detector point where they are in the laboratory, up to a rotation; a point on several panels takes the first; and all maps report the shift with one sign.", "quantifier": "all beams and detector directions", "why_tests_cant": "The sign of an azimuth matters only for some beams, which the tests do not have.", "anchors": ["hexrd/hed/xrdutil/phutil.py:calc_phi_x", "hexrd/hed/xrdutil/phutil.py:azimuth", "hexrd/hed/xrdutil/phutil.py:calc_tth_rygg_pinhole", "hexrd/hed/xrdutil/phutil.py:tth_corr_map_rygg_pinhole", "hexrd/hed/xrdutil/phutil.py:polar_tth_corr_map_rygg_pinhole"]}
{"id": "C148", "title": "The fit-grains and find-orientations commands overwrite nothing unasked and start from the right grains", "statement": "Without the options force and clean, fit-grains changes no file that exists. It writes no file but the tables of grains of its sections. When it ends, the table of a section is the refinement of what the options and the estimate call for: the accepted orientations, or those of a new search, with clean or without an estimate, and the estimate otherwise. find-orientations keeps accepted orientations that exist, and fit-grains can follow it.", "quantifier": "every content of the file system, every option, every list of sections and every search and refinement", "why_tests_cant": "Tests run one command in a fresh directory; the claim is about every state that earlier commands may have left and every combination of options.", "anchors": ["hexrd/hedm/cli/fit_grains.py: execute, write_results", "hexrd/hedm/cli/find_orientations.py: execute, write_results", "hexrd/hedm/config/fitgrains.py: FitGrainsConfig.estimate, grains_file"]}
{"id": "C149", "title": "Tables of grains are selected and stored without loss", "statement": "Selecting grains keeps exactly those whose completeness is at least the bound and, if it is given, whose chi squared is at most its bound, in their order. A table that was written can be read again: every grain with its id, orientation, position and stretch, completeness and chi squared to the digits printed.", "quantifier": "every table of grains and every pair of bounds", "why_tests_cant": "Tests use one table of several grains; the claim covers tables of any length, including one.", "anchors": ["hexrd/hedm/cli/fit_grains.py: GrainData.select, write_grains_out, load, from_grains_out"]}
{"id": "C150", "title": "Preprocessing stores the frames that were asked for under the right panel", "statement": "The preprocess command stores for every raw file the number of frames asked for, beginning after the frames to leave out, in order, each with the operations of its own panel and with the angles of its step; the angles cover the range without gaps. If the file does not have the frames, it raises.", "quantifier": "every raw file, number of frames, number of frames to leave out, range of angles, list of panels and list of files", "why_tests_cant": "Tests preprocess one small file; the claim is about every count of frames and every set of names of files.", "anchors": ["hexrd/hedm/preprocess/preprocessors.py: PP_Base, PP_Dexela, PP_Eiger, preprocess", "hexrd/hedm/preprocess/profiles.py: Chess_Arguments, Dexelas_Arguments"]}
{"id": "C151", "title": "The special functions behind the pink-beam peaks keep their exact identities", "statement": "In exact arithmetic: the Faddeeva function w satisfies w(z) + w(-z) = 2 exp(-z^2) and w(-conj z) = conj w(z) for every complex z, its real part on the real axis is exp(-x^2), w(0) = 1, and the rule that is used never divides by zero. erfc satisfies erfc(-x) = 2 - erfc(x), falls strictly everywhere and lies between 0 and 2. The series of the exponential integral ends at a partial sum whose derivative is -1/z times a partial sum of exp(-z); the continued fraction loop gives its convergents up to a multiple of the tiny start value.", "quantifier": "every complex argument, every real argument, every number of terms and steps", "why_tests_cant": "Tests compare values at sample points; the identities hold at all points, also where the approximation changes from one rule to another.", "anchors": ["hexrd/core/fitting/special.py: wofz, erfc, exp1_complex_numba, exp1exp"]}
{"id": "C152", "title": "A material saved to a file is read back as it was, and other materials in the file are kept", "statement": "Saving a material and loading it gives the same lattice parameters, space group, setting, atoms, charges, stiffness, equation of state, smallest spacing, energy, line width and enabled reflections, with positions and Debye-Waller factors in single precision; saving it again writes the same group. Saving materials with different names leaves every other material of the file as it was. The dialogue that makes a material puts every number that was entered in its place.", "quantifier": "every material, file, dictionary of materials and set of answers to the dialogue", "why_tests_cant": "Tests save and load one or two materials; the claim is about every material, every choice of enabled reflections and every previous content of the file.", "anchors": ["hexrd/core/material/material.py: Material.dump_material, Material._readHDFxtal, save_materials_hdf5, load_materials_hdf5", "hexrd/core/material/mksupport.py: mk, WriteH5Data, GetLatticeParameters, GetSpaceGroup"]}
{"id": "C153", "title": "The shape of the sample from tomography: attenuation, centring, cleaning and cropping", "statement": "The attenuation of a pixel is the exponent of the Beer-Lambert law above the dark field. The part of the sinogram that is inverted lies symmetrically about the rotation axis and is as wide as the sample with its slack, up to one pixel. Cleaning removes exactly the connected parts that are smaller than the limit and closes exactly the holes that are smaller than the limit. The cropped layer has the size of the sample up to one voxel, and the circular mask keeps the voxels whose coordinates in the test grid are inside the circle.", "quantifier": "every image, bright and dark field, position of the axis, size of the sample, labelling and layer", "why_tests_cant": "Tests would reconstruct one phantom; the claim is about every size and position, also at the borders of slices and loops.", "anchors": ["hexrd/hedm/grainmap/tomoutil.py: gen_attenuation_rads, tomo_reconstruct_layer, threshold_and_clean_tomo_layer, crop_and_rebin_tomo_layer"]}
{"id": "C154", "title": "Documents with numpy arrays keep them when written and read", "statement": "Writing a document of nested dictionaries and lists with the array-including YAML dumper and reading it with the matching loader gives back every value and every array in its place. Each array is in a file of its own, named after the keys that lead to it; an array that occurs twice is the same array in both places.", "quantifier": "every document, nesting, sharing of arrays and order in which the files are saved", "why_tests_cant": "Tests write one document with one array; whether two arrays can end up in one file depends on all keys of the document.", "anchors": ["hexrd/core/config/dumper.py: NumPyIncludeDumper, _dict_path_by_id", "hexrd/core/config/loader.py: NumPyIncludeLoader"]}
{"id": "C155", "title": "Series of images: iterating, opening, the options of streams and metadata", "statement": "Iterating over a series gives each of its frames once and in order. A format opens the adapter registered last for it, other formats are not affected, and a series without frames does not open. The frames of an Eiger stream follow the last valid options set, however many were refused before; options copied from one stream to another give the same frames, and sending a stream to another process keeps frames and options. Metadata keep their values, with arrays named in them loaded from their files.", "quantifier": "every series, history of options, registration and dictionary of metadata", "why_tests_cant": "Tests set one option and read one frame; the claim is about every history of options and every text in the metadata.", "anchors": ["hexrd/core/imageseries/imageseriesiter.py: ImageSeriesIterator", "hexrd/core/imageseries/__init__.py: open", "hexrd/core/imageseries/load/eiger_stream_v2.py: EigerStreamV2ImageSeriesAdapter", "hexrd/core/imageseries/load/function.py: FunctionImageSeriesAdapter", "hexrd/core/imageseries/load/metadata.py: yamlmeta", "hexrd/core/imageseries/load/registry.py: Registry"]}
{"id": "C156", "title": "The state of a powder pattern fit follows what is assigned to it", "statement": "A pattern without negative intensities that is assigned as an array is read back with NaN exactly at its masked points; each region of a pattern with negative intensities is moved as a whole so that its lowest point is at zero. If the first and last points are used, the Chebyshev background at the start is the polynomial fitted to the used points, at every angle. The background parameters and the coefficients follow each other, whatever other parameters there are. A change of the peak shape keeps every parameter that both shapes have and gives the others their defaults. Reflections start with an intensity between a hundredth and a tenth of the highest point.", "quantifier": "all patterns, masks, coefficient lists, parameter lists with distinct names, sequences of two peak shapes", "why_tests_cant": "Tests use one pattern without masked ends, names without \"bkg\" and never go back to an earlier peak shape.", "anchors": ["hexrd/powder/wppf/WPPF.py:AbstractWPPF.spectrum_expt", "hexrd/powder/wppf/WPPF.py:AbstractWPPF.background", "hexrd/powder/wppf/WPPF.py:AbstractWPPF._update_bkg", "hexrd/powder/wppf/WPPF.py:AbstractWPPF.peakshape", "hexrd/powder/wppf/WPPF.py:LeBail.initialize_Icalc"]}
{"id": "C157", "title": "The object that runs a calibration: its parameters, its constraint and its result", "statement": "After the parameters are made anew from the constraint, taking them over does not move any detector; the same holds after a reset of the constraint, and after another type of constraint was chosen. After a calibration about the mean centre the detectors are where the resulting parameters alone put them, whatever the minimizer tried, and these parameters are the stored ones. The residuals of several calibrators together have as mean square the mean of theirs, weighted by their numbers; the fit counts as successful exactly if the sum of squares became smaller. Options given replace the defaults one by one.", "quantifier": "all instruments, constraints, parameters, sequences of trials, residuals and options", "why_tests_cant": "Tests run one calibration from a new object and do not compare with a run that took another path.", "anchors": ["hexrd/core/fitting/calibration/instrument.py: InstrumentCalibrator", "hexrd/core/fitting/calibration/relative_constraints.py: RelativeConstraintsSystem", "hexrd/core/fitting/calibration/lmfit_param_handling.py: _add_constrained_detector_parameters"]}
{"id": "C158", "title": "Instruments written to a file and read again, and the beams of an instrument in use", "statement": "An instrument that is written as YAML or HDF5 and read again has the same name, stage, beams (energy, direction, distance, correction) and detectors (form, position, tilt, pixels, region of interest, group, distortion, saturation level, buffer); beams and detectors come in alphabetical order and the first beam is the active one. Whatever beam properties are set afterwards, also if a setter raises, every detector has the direction and source distance of the active beam; a block that switches to another source leaves the earlier one active, also if it raises.", "quantifier": "all instruments, both styles, all sequences of setters and all blocks", "why_tests_cant": "Tests write one instrument and compare a few numbers; the claim is about every combination of optional entries and every sequence of setters.", "anchors": ["hexrd/core/instrument/hedm_instrument.py: HEDMInstrument", "hexrd/core/instrument/hedm_instrument.py: switch_xray_source", "hexrd/core/instrument/detector.py: Detector.config_dict"]}
{"id": "C159", "title": "Cutting a composite detector into chips", "statement": "generate_chunks gives one rectangle and one label per row and column of chips, of the shape that was asked for; with gaps that are not negative no pixel is in two chips, and without gaps every pixel of the composite detector is in exactly one. chunk_instrument then makes one detector per panel and rectangle under a name that determines both, with the mask of the panel in the rectangle, and a shared image or image series is cut so that a pixel of a chip shows the pixel of the whole image. A pixel of a chip should lie where that pixel of the panel lies; in the code every chip is off by half a pixel along both sides. angle_in_range finds the first wedge that holds an angle up to full turns; centers_of_edge_vec gives the midpoints.", "quantifier": "all numbers and shapes of chips, gaps, panels with any position and rotation, masks, images, dictionaries of images, names, angles and wedges", "why_tests_cant": "a test looks at one layout of chips and one image; that no chip is lost or shares a pixel, and that the displacement is always half a pixel, concerns every layout and every panel", "anchors": ["hexrd/core/instrument/hedm_instrument.py: generate_chunks, chunk_instrument, _parse_imgser_dict, angle_in_range, centers_of_edge_vec", "hexrd/core/instrument/detector.py: pixelToCart, config_dict"]}
{"id": "C160", "title": "Asymmetric peaks are the foldings they are said to be", "statement": "The Gaussian part of a powder peak for an exponential pulse is the Gaussian folded with the decay, at every position and for every width and decay; that for a heated sample is half of the Gaussian folded with half a Gaussian. The parts for the pink beam should be the Gaussian and the Lorentzian folded with two exponentials back to back. In the code the Gaussian part is so only if the product of the two rates is twice their sum, the Lorentzian part is folded with two exponentials on the same side, and the Lorentzian part for an exponential pulse is the folding with the opposite sign, which the division by the area hides.", "quantifier": "all positions, widths, decays and rates that are positive", "why_tests_cant": "a test compares numbers at a few positions with numbers computed before; that a closed formula is an integral at every position, or at none, cannot be sampled", "anchors": ["hexrd/powder/wppf/peakfunctions.py: _gaussian_exponential, _gaussian_heating, _gaussian_pink_beam, _lorentzian_exponential, _lorentzian_pink_beam", "hexrd/core/fitting/peakfunctions.py: _gaussian_pink_beam"]}
{"id": "C161", "title": "Old names of moved modules stand for the right new modules", "statement": "Every module of the package listed in the file table can be imported under its old name. The name stands for the module of the first listed new path that lies in core, or of the first listed path if none does. A module that did not move is left to the usual importers. In the imported module a name means what it means in the module it stands for; a missing name is taken from the first of the other new modules, in the order of the table, that can be imported and has it. Importing again changes nothing.", "quantifier": "all file tables, all module names, all contents of modules and all failures of imports", "why_tests_cant": "the table grows with every move and the order of lines decides which module wins; a test imports a few names", "anchors": ["hexrd/module_map.py: path_to_module, module_map, ModuleAliasImporter.find_spec, ModuleAliasImporter.load_module"]}
{"id": "C162", "title": "Block diagonal and rank-one matrices have every entry in its place", "statement": "blockSparseOfMatArray returns the block diagonal matrix of the given matrices: each entry is in its place, all else is zero, nothing is added twice. The matrix of the products of two arrays (multMatArray) is the product of their matrices. rankOneMatrix returns, for each pair of columns, the matrix of their products; applied to a vector it gives the first column times the inner product of the second with the vector.", "quantifier": "all numbers and sizes of matrices, all entries in any commutative ring, all indices in range", "why_tests_cant": "the index arithmetic of reshape and tile must be right for all shapes, also with more rows than columns; tests use one or two shapes", "anchors": ["hexrd/core/matrixutil.py: blockSparseOfMatArray, rankOneMatrix, multMatArray"]}
{"id": "C163", "title": "nullSpace returns an orthonormal basis of the null space", "statement": "For a matrix that is not taller than wide, nullSpace returns orthonormal rows; the matrix takes each of them to a vector not longer than the tolerance; every vector that the matrix takes to zero is the sum of its components along the rows. For a taller matrix the transposed basis of the null space of the transpose is returned, which is something else.", "quantifier": "all matrices, all singular value decompositions of them, all tolerances that are not negative, all vectors in the null space", "why_tests_cant": "holds for every matrix and every admissible decomposition; tests see a few matrices and one library", "anchors": ["hexrd/core/matrixutil.py: nullSpace"]}
{"id": "C164", "title": "Spherical views pair every pixel with the projection of its own angles", "statement": "To warp an image to a spherical view, every skip-th pixel is paired with the position, in the output image, of the projection of its angles. In the polar view each used pixel is paired with the projection of its own two-theta and eta. In the view of a map of eta and omega this holds if as many etas as omegas are used and no point is hidden. Projected points of a hemisphere fall inside the output image, different points on different positions. Names of mappings and types of vectors are checked.", "quantifier": "all images, numbers of rows and columns, steps, angles, projections and sizes of the output", "why_tests_cant": "the pairing must be right for every shape of the image and every position of the hemisphere; a test uses one map", "anchors": ["hexrd/core/projections/spherical.py: SphericalView.warp_polar_image, SphericalView.warp_eta_ome_map, SphericalView.mapping, SphericalView.vector_type"]}
{"id": "C165", "title": "Calibration by azimuthal line-outs uses every row once and exactly the parameters that vary", "statement": "The rows of the polar image are cut into line-outs: row r belongs to line-out r / npix and to no other, and all rows are used. The line-out of the whole image is the mean of the line-outs weighted by the pixels that are not masked. Choosing to refine positions, tilts or the instrument changes exactly those parameters. In a step of the fit the detectors get exactly the parameters that vary, and the polar view is made anew exactly if there is one. Every phase gets its own broadening parameters. What is made small is the sum of weighted squared differences over all line-outs.", "quantifier": "all polar images and masks, all steps, all sets of detectors and parameters, all phases and line-outs", "why_tests_cant": "the cutting must be right for every number of rows and step, and the bookkeeping for every choice of parameters; a fit in a test runs through one", "anchors": ["hexrd/powder/wppf/LeBailCalibration.py: LeBailCalibrator.azimuthal_chunks, prepare_lineouts, refine_instrument, refine_translation, refine_tilt, update_instrument, update_shkl, computespectrum"]}
{"id": "C166", "title": "Stacking faults shift and widen the peaks by the published factors", "statement": "The shift of a reflection by stacking faults is the published one: it depends on the equivalents of the reflection only, not on their order or on whether opposite ones are counted, successive orders shift in opposite directions, multiples of three do not shift, and the factors stay beside their reflections when reflections are dropped. The width by faults follows the published factor as well.", "quantifier": "all reflections, lists of equivalents, orders, fault probabilities and selections", "why_tests_cant": "a test compares a few reflections of one metal; the signs depend on the indices modulo three", "anchors": ["hexrd/powder/wppf/xtal.py:_get_sf_hkl_factors", "hexrd/powder/wppf/phase.py:get_sf_hkl_factors", "hexrd/powder/wppf/WPPF.py:calctth, computespectrum"]}
{"id": "C167", "title": "The options of the HDF5 writer mean what is documented", "statement": "A data set is made with the compression, shuffling and rows per chunk that the options of the writer ask for, with the documented defaults, and a chunk always fits in a frame. Writing again with the same writer uses the same options.", "quantifier": "all options, frame shapes and numbers of writes", "why_tests_cant": "reading the options takes them out of the writer, so the result depends on how often they were read", "anchors": ["hexrd/core/imageseries/save.py:WriteH5.h5opts, WriteH5.write"]}
{"id": "C168", "title": "The profiler instruments the functions that are named", "statement": "A function named by its dotted path is replaced where the path leads: through the longest prefix that can be imported and then through attributes. A name that leads nowhere is reported, and the other entries of the file are honoured all the same.", "quantifier": "all packages, objects, dotted names and files", "why_tests_cant": "which prefix is a module and which an attribute depends on the installation; one bad entry must not hide the others, wherever it stands", "anchors": ["hexrd/core/utils/profiler.py:instrument_function, parse_file"]}
{"id": "C169", "title": "Temporary settings are undone", "statement": "A function limited to a number of threads runs with no more than that number, returns or raises what it would by itself, and leaves the number of threads as it was. Whatever is printed inside a block whose output goes to the log is not printed and appears in the log.", "quantifier": "all programs nested in any way, with any output, any limits and any exception", "why_tests_cant": "the interesting cases are exceptions and nestings at any depth", "anchors": ["hexrd/core/utils/decorators.py:limit_numba_threads", "hexrd/core/utils/logger.py:redirect_stdout_to_logger"]}
{"id": "C170", "title": "The angular range and resolution of an instrument are those of its pixels", "statement": "The largest scattering angle is the largest of any pixel of any detector. The lowest and highest resolution are the largest and smallest size of a pixel on any detector in each angle, and the highest resolution leaves out only pixels without a size.", "quantifier": "all numbers of detectors and pixels and all angles and sizes", "why_tests_cant": "the extremes are accumulated over detectors, and the order and the starting value must not matter for any set of pixels", "anchors": ["hexrd/core/instrument/hedm_instrument.py:HEDMInstrument.max_tth, pixel_resolution, max_resolution"]}
{"id": "C171", "title": "The near-field code diffracts as the library does", "statement": "The scattering vectors and detector positions that the near-field search computes with its own functions are those of the functions of the library for the same geometry.", "quantifier": "all angles, orientations, positions and detector geometries", "why_tests_cant": "two implementations of the same geometry must agree for all real inputs, including rays that miss the detector", "anchors": ["hexrd/hedm/grainmap/nfutil.py:_anglesToGVec, _gvec_to_detector_array, _make_binary_rot_mat, _v3_normalized"]}
{"id": "C172", "title": "The summary of a crystal counts its atoms, reflections and axes correctly", "statement": "The density, mean atomic weight and mean atomic number of a crystal are those of the atoms in its cell, counted with their occupations. The reflections enabled below an angle are those whose angle is at most the given one, and that the file names if it names any. The symmetry directions of a crystal system are axes of symmetry of its lattices.", "quantifier": "all lists of atoms, occupations, weights, reflections, thresholds and lattice metrics", "why_tests_cant": "occupations of one and a first reflection below the threshold hide the faults; axes of symmetry must work for all lattice parameters", "anchors": ["hexrd/core/material/unitcell.py:unitcell.CalcDensity", "hexrd/core/material/material.py:Material.enable_hkls_below_tth", "hexrd/core/material/spacegroup.py:get_symmetry_directions"]}
{"id": "C173", "title": "A named mask of a detector is cut to its region of interest", "statement": "A detector whose mask is given by name gets a mask of its own size: the named one if it has that size, and otherwise the part of it in the region of interest of the detector. If there is no such part an exception is raised.", "quantifier": "all masks, detector sizes and regions of interest", "why_tests_cant": "a region may lie anywhere relative to the mask, and slices of arrays never complain", "anchors": ["hexrd/core/utils/panel_buffer.py:panel_buffer_from_str", "hexrd/core/instrument/detector.py:Detector.roi"]}
{"id": "C174", "title": "A run is compared faithfully with a reference", "statement": "Comparing the results of a near-field run with saved ones reports a failure exactly if entries that both have differ, a partial pass if they agree but the reference has fewer results, and a full pass if the results of the reference are all there and agree. A result without a reference does not pass.", "quantifier": "all results, references, shapes and names", "why_tests_cant": "the verdict must be right for all sizes of results and references; tests look at equal sizes", "anchors": ["hexrd/hedm/grainmap/nfutil.py:checking_result_handler"]}
{"id": "C175", "title": "Frames that image series share are those of the file as it is", "statement": "Image series that read the same frame-cache file share its frames. A read gives the frames that the file had at some moment during the read, however often the file was saved, removed and read before, and whatever other series read at the same time.", "quantifier": "all histories of saves, removals and reads by any number of series, in all interleavings", "why_tests_cant": "a stale entry shows only after particular sequences of saves and reads of several files", "anchors": ["hexrd/core/imageseries/load/framecache.py:_stat_identity, _load_framecache_npz, _load_framecache_fch5, FrameCacheImageSeriesAdapter._load_framelist"]}
{"id": "C176", "title": "A material and its unit cell agree on the atoms", "statement": "Setting the atoms of a material succeeds exactly if there is one entry of every kind for every atom and the elements can have the charges, and then the material and its unit cell both hold the given data; otherwise nothing changes. Removing duplicate atoms keeps every remaining atom with its own data, in the material and in the cell.", "quantifier": "all materials, lists of atoms and selections of atoms to keep", "why_tests_cant": "a refused value must leave no trace whatever the material held before, and data kept in two places must agree after every sequence of changes", "anchors": ["hexrd/core/material/material.py:Material._set_atomdata, charge, remove_duplicate_atoms, _newUnitcell", "hexrd/core/material/unitcell.py:unitcell.remove_duplicate_atoms"]}
{"id": "C177", "title": "A rotation given by Euler angles is the same in all units", "statement": "The matrix of a rotation given by Euler angles is a proper rotation for all angles, orders and conventions; changing the units changes the numbers but not the rotation; a matrix that is set is the matrix that is read.", "quantifier": "all angles, orders, conventions, units and sequences of changes", "why_tests_cant": "trigonometric identities for all angles, and all sequences of changes of units", "anchors": ["hexrd/core/rotations.py:RotMatEuler, make_rmat_euler"]}
{"id": "C178", "title": "Attributes of a physics package and of its layers agree", "statement": "After any sequence of settings of attributes <layer>_<field> on a physics package, reading the attribute gives the last value set, the layer used in the computations holds the same value, and no other attribute changes. Setting the radius of the pinhole sets the diameter to twice it, and the radius is always half the diameter. A package that is serialised and read into another one gives it the same fields in all layers.", "quantifier": "all classes of packages with any layers and fields, all histories of settings of both packages and all values", "why_tests_cant": "a value is kept twice, in the layer and in the object, and tests set each attribute once; agreement has to hold after every history", "anchors": ["hexrd/core/instrument/physics_package.py:AbstractPhysicsPackage.__setattr__", "hexrd/core/instrument/physics_package.py:AbstractPhysicsPackage.__getattr__", "hexrd/core/instrument/physics_package.py:AbstractPhysicsPackage.serialize", "hexrd/core/instrument/physics_package.py:HEDPhysicsPackage.pinhole_radius"]}
{"id": "C179", "title": "Every detector gets the images its configuration names", "statement": "For a configuration whose image series have different panels, every detector that is named alone gets exactly the images of its entry; every detector named in a list of panels, and in no other entry, gets its region of the images of that entry; entries without a panel, neither in the configuration nor in the metadata, are shared by all detectors. The order of the entries does not matter.", "quantifier": "all lists of entries, all names of panels and lists of them, all images, regions and groups", "why_tests_cant": "the dictionary is filled in one file and searched by parts of names in another, with four ways to name a panel; a test has a few names", "anchors": ["hexrd/core/config/root.py:RootConfig.image_series", "hexrd/core/instrument/hedm_instrument.py:_parse_imgser_dict"]}
{"id": "C180", "title": "The size of clusters fits the reflections of the grains", "statement": "The smallest size of a cluster of orientations is two or, if more, the greatest integer that is at most half of the wanted completeness times the number of seeded reflections of every simulated grain, on all detectors together; a grain of which the wanted part of the seeded reflections is found always gives a cluster that is large enough. A higher completeness never gives smaller clusters, and neither the order of the detectors nor that of the seeds matters. The mean number of reflections is rounded to the nearest integer.", "quantifier": "all numbers of grains and detectors, all lists of reflections and seeds, all completeness thresholds", "why_tests_cant": "the grains are random, so a test sees other numbers in every run; the bounds have to hold for all of them", "anchors": ["hexrd/hedm/findorientations.py:create_clustering_parameters"]}
{"id": "C181", "title": "Files of different analyses and materials do not overwrite each other", "statement": "The log, the accepted orientations, the maps, the scored orientations and the grains of one configuration are different files. In the new placement of files, two configurations with the same working directory share a file only if they have the same analysis and, but for the grains, the same material up to spaces; in the old placement the same holds if the names of the materials have no underscore. A file of maps that is named in the configuration is used as named.", "quantifier": "all names of working directories, analyses and materials (materials without slashes), both placements, all kinds of files", "why_tests_cant": "names are put together from free text, and a collision makes one analysis read the maps of another; a test has one pair of names", "anchors": ["hexrd/hedm/config/findorientations.py:FindOrientationsConfig", "hexrd/hedm/config/findorientations.py:OrientationMapsConfig.file", "hexrd/core/config/root.py:RootConfig.analysis_id"]}
