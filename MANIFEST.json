{
 "claims": [
  {
   "property": "C01",
   "status": "proved",
   "theorems": [
    "Hexrd.Tasks.distribute_tiles",
    "Hexrd.Tasks.distribute_each_task_once"
   ],
   "note": "All numbers of tasks and workers."
  },
  {
   "property": "C02",
   "status": "partial",
   "theorems": [
    "Hexrd.Memo.memo_returns_func",
    "Hexrd.Memo.memo_size_bound",
    "Hexrd.Memo.memo_counts",
    "Hexrd.Memo.memo_lru",
    "Hexrd.Memo.memo_lru_histories",
    "Hexrd.Memo.memo_failure_evicts",
    "Hexrd.Memo.memo_key_faithful_partial",
    "Hexrd.Memo.memo_maxsize_zero_always_raises",
    "Hexrd.Memo.memo_key_ignores_dtype",
    "Hexrd.Memo.memo_key_list_tuple",
    "Hexrd.Memo.memo_key_kwarg",
    "Hexrd.Memo.memo_wrong_value"
   ],
   "note": "The memoizer returns the function value whenever the key determines it; the key itself is not faithful (dtype, list/tuple, keyword/pair collisions), shown by witnesses."
  },
  {
   "property": "C03",
   "status": "partial",
   "theorems": [
    "Hexrd.Stats.frames_used",
    "Hexrd.Stats.chunkStops_good",
    "Hexrd.Stats.accIter_prefixes",
    "Hexrd.Stats.full_is_last_prefix",
    "Hexrd.Stats.accIter_last_is_full",
    "Hexrd.Stats.full_is_sup",
    "Hexrd.Stats.averageIter_live",
    "Hexrd.Stats.averageIter_collected_wrong",
    "Hexrd.Stats.averageIter_collected_first"
   ],
   "note": "Holds for max, min, sum and for average when each item is consumed before the next; the first item of average_iter is aliased and changes if collected, shown by a witness."
  },
  {
   "property": "C04",
   "status": "proved",
   "theorems": [
    "Hexrd.Stats.frames_used",
    "Hexrd.Stats.percentileIter_spec",
    "Hexrd.Stats.percentileIter_last",
    "Hexrd.Stats.percentile_def",
    "Hexrd.Stats.toArray_spec"
   ],
   "note": "Every row blocking and every buffer size."
  },
  {
   "property": "C05",
   "status": "proved",
   "theorems": [
    "Hexrd.FrameCache.fch5_roundtrip",
    "Hexrd.FrameCache.fch5_can_finish",
    "Hexrd.FrameCache.fch5_within_dataset",
    "Hexrd.FrameCache.npz_roundtrip",
    "Hexrd.FrameCache.npz_schedule_independent",
    "Hexrd.FrameCache.tall_image_loses_pixels"
   ],
   "note": "Every schedule of the writer threads, images up to 65536 x 65536; beyond that the property fails (tall_image_loses_pixels)."
  },
  {
   "property": "C06",
   "status": "partial",
   "theorems": [
    "Hexrd.FrameCache.npz_metadata_separate_partial",
    "Hexrd.FrameCache.npz_metadata_can_change_frames",
    "Hexrd.FrameCache.npz_metadata_can_change_length"
   ],
   "note": "False in general for npz (reserved keys are overwritten, shown by witnesses); proved for metadata without reserved keys."
  },
  {
   "property": "C07",
   "status": "proved",
   "theorems": [
    "Hexrd.FrameCache.loaded_at_most_once",
    "Hexrd.FrameCache.reader_sees_content",
    "Hexrd.FrameCache.mutual_exclusion",
    "Hexrd.FrameCache.no_deadlock"
   ],
   "note": "Every interleaving of any number of threads, with failing loads."
  },
  {
   "property": "C08",
   "status": "partial",
   "theorems": [
    "Hexrd.ImageFiles.getitem_served",
    "Hexrd.ImageFiles.served_nodup",
    "Hexrd.ImageFiles.served_in_range",
    "Hexrd.ImageFiles.refused_iff",
    "Hexrd.ImageFiles.getitem_single_partial",
    "Hexrd.ImageFiles.single_reads_skipped",
    "Hexrd.ImageFiles.single_ignores_total"
   ],
   "note": "Multi-frame files: bijection onto the (file, frame) pairs that are not skipped. Single-frame files ignore empty-frames and max-total-frames (witnesses)."
  },
  {
   "property": "C09",
   "status": "partial",
   "theorems": [
    "Hexrd.RawImage.frames_tile",
    "Hexrd.RawImage.offset_first_byte",
    "Hexrd.RawImage.whole_frames_accepted_partial",
    "Hexrd.RawImage.long_header_refused",
    "Hexrd.RawImage.negative_index",
    "Hexrd.RawImage.typechars_int"
   ],
   "note": "Frames tile the file; a header longer than a frame is refused although the frames are whole (witness)."
  },
  {
   "property": "C10",
   "status": "partial",
   "theorems": [
    "Hexrd.Omega.wedges_partition",
    "Hexrd.Omega.wedge_uniform",
    "Hexrd.Omega.rebuilt_close",
    "Hexrd.Omega.rebuilt_exact",
    "Hexrd.Omega.accepted_increasing_partial",
    "Hexrd.Omega.last_frame_not_checked",
    "Hexrd.Omega.example_wedges"
   ],
   "note": "The last frame is not checked by the increasing-order validation (witness)."
  },
  {
   "property": "C11",
   "status": "partial",
   "theorems": [
    "Hexrd.Omega.omega_to_frame_found",
    "Hexrd.Omega.omega_to_frame_absent",
    "Hexrd.Omega.range_in_wedge_partial",
    "Hexrd.Omega.range_across_wedges",
    "Hexrd.Omega.range_within_one_frame_empty"
   ],
   "note": "Single lookups and ranges within and across wedges proved; a range inside one frame returns nothing (witness)."
  },
  {
   "property": "C12",
   "status": "proved",
   "theorems": [
    "Hexrd.Process.flip_pixels",
    "Hexrd.Process.flip_bijective",
    "Hexrd.Process.flip_relations"
   ],
   "note": "All image shapes and option strings."
  },
  {
   "property": "C13",
   "status": "partial",
   "theorems": [
    "Hexrd.Process.getRegion_plain",
    "Hexrd.Process.processed_frame_partial",
    "Hexrd.Process.rectangle_pixels",
    "Hexrd.Process.no_frame_beyond_length",
    "Hexrd.Process.frames_below_length",
    "Hexrd.Process.omega_follows_frames",
    "Hexrd.Process.nested_rectangle_raises",
    "Hexrd.Process.flat_hdf5_rectangle_raises",
    "Hexrd.Process.numpy_frame_list_raises"
   ],
   "note": "Proved for sources read from file or memory with Python integer frame lists; nested processed series, flat hdf5 datasets and numpy frame lists raise."
  },
  {
   "property": "C14",
   "status": "partial",
   "theorems": [
    "Hexrd.Process.dark_exact",
    "Hexrd.Process.dark_unsigned_iff_partial",
    "Hexrd.Process.dark_unsigned_wraps",
    "Hexrd.Process.dark_unsigned_grows",
    "Hexrd.Process.dark_signed_partial"
   ],
   "note": "Unsigned dark subtraction is right exactly when the dark value does not exceed the pixel; otherwise it wraps."
  },
  {
   "property": "C15",
   "status": "partial",
   "theorems": [
    "Hexrd.PlaneData.mask_roundtrip",
    "Hexrd.PlaneData.mask_follows_reflections",
    "Hexrd.PlaneData.indices_roundtrip_partial",
    "Hexrd.PlaneData.indices_listed",
    "Hexrd.PlaneData.ranges_listed",
    "Hexrd.PlaneData.mask_listed_iff",
    "Hexrd.PlaneData.indices_read_back_wrong",
    "Hexrd.PlaneData.mask_lists_wrong",
    "Hexrd.PlaneData.full_length_indices_refused",
    "Hexrd.PlaneData.recalc_ready",
    "Hexrd.PlaneData.tthmax_listed"
   ],
   "note": "Masks read back correctly and follow their reflections through every history of re-sorts; index lists and ranges are listed correctly. The listing after a mask, and the read-back after indices, are right exactly when the sort order is its own inverse (iff theorem and witnesses)."
  },
  {
   "property": "C16",
   "status": "proved",
   "theorems": [
    "Hexrd.PlaneData.exclude_spec",
    "Hexrd.PlaneData.applyLimit_outside",
    "Hexrd.PlaneData.relative_spec"
   ],
   "note": "Exclusions as read back, all combinations of limits, NaN included."
  },
  {
   "property": "C17",
   "status": "proved",
   "theorems": [
    "Hexrd.PlaneData.merged_groups",
    "Hexrd.PlaneData.merged_partition",
    "Hexrd.PlaneData.merged_intervals"
   ],
   "note": "With and without culling of duplicates."
  },
  {
   "property": "C18",
   "status": "proved",
   "theorems": [
    "Hexrd.SpaceGroup.operators_form_group",
    "Hexrd.SpaceGroup.operators_generated",
    "Hexrd.SpaceGroup.pointGroup_forms_group",
    "Hexrd.SpaceGroup.laueGroup_forms_group",
    "Hexrd.SpaceGroup.comp_is_composition",
    "Hexrd.SpaceGroup.other_numbers_refused"
   ],
   "note": "All numbers 1-237 and all settings, by kernel evaluation over the complete table combined with a proof that the generation loop returns the checked list. Translations are exact multiples of 1/24."
  },
  {
   "property": "C19",
   "status": "partial",
   "theorems": [
    "Hexrd.SpaceGroup.allowed_iff_not_extinct_partial",
    "Hexrd.SpaceGroup.extinct_never_allowed",
    "Hexrd.SpaceGroup.allowed_205",
    "Hexrd.SpaceGroup.allowed_205_wrong"
   ],
   "note": "All integer triples and origin settings. Exact for every space group except Pa-3 (205), where the code drops more reflections than the operators extinguish (exact description and witness)."
  },
  {
   "property": "C20",
   "status": "proved",
   "theorems": [
    "Hexrd.SpaceGroup.tables_consistent",
    "Hexrd.SpaceGroup.class_determined",
    "Hexrd.SpaceGroup.other_integers_refused",
    "Hexrd.SpaceGroup.ranges_disjoint",
    "Hexrd.SpaceGroup.symbols_roundtrip",
    "Hexrd.SpaceGroup.every_symbol_found",
    "Hexrd.SpaceGroup.crystal_system_code",
    "Hexrd.SpaceGroup.latticeType_below_one"
   ],
   "note": "All numbers and settings; the tables are compared with the crystal class of the generated operators. symmetry.latticeType itself does not refuse numbers below 1."
  },
  {
   "property": "C21",
   "status": "partial",
   "theorems": [
    "Hexrd.Hkls.reflections_sound",
    "Hexrd.Hkls.reflections_complete_partial",
    "Hexrd.Hkls.reflections_incomplete"
   ],
   "note": "Over the reals, all cells of positive volume. What is listed is right for all 230 groups; nothing is missing for groups 16-230; for monoclinic (and triclinic) cells reflections are missing, because each index is limited by the length of its own axis only (witness in P2/m)."
  },
  {
   "property": "C22",
   "status": "proved",
   "theorems": [
    "Hexrd.Hkls.bySS_exact"
   ],
   "note": "All natural numbers; the square root is exact."
  },
  {
   "property": "C23",
   "status": "proved",
   "theorems": [
    "Hexrd.Hkls.one_per_family",
    "Hexrd.Hkls.unitcell_operators_form_group",
    "Hexrd.Hkls.repeated_kept_twice"
   ],
   "note": "All groups of integer matrices and all lists without repetitions; the operators of every space group qualify."
  },
  {
   "property": "C24",
   "status": "proved",
   "theorems": [
    "Hexrd.PlaneData.list_change",
    "Hexrd.PlaneData.same_list",
    "Hexrd.PlaneData.included_stays",
    "Hexrd.PlaneData.excluded_stays",
    "Hexrd.PlaneData.tthmax_exclusion_sticks"
   ],
   "note": "For every pair of lists without repeated reflections, every order, every two-theta maximum and every history; the state of a reflection is what the exclusions attribute reports (what getHKLs lists is C15). tthmax_exclusion_sticks records that what a two-theta maximum hides during a change stays excluded."
  },
  {
   "property": "C25",
   "status": "proved",
   "theorems": [
    "Hexrd.SpaceGroup.expand_reduce",
    "Hexrd.SpaceGroup.reduce_expand",
    "Hexrd.SpaceGroup.reset_conditions",
    "Hexrd.SpaceGroup.assign_parameter",
    "Hexrd.SpaceGroup.material_expands",
    "Hexrd.SpaceGroup.material_six_unchecked",
    "Hexrd.UnitCell.metric_fits_operators",
    "Hexrd.UnitCell.operators_force_metric"
   ],
   "note": "All crystal systems and parameter values. The material setter takes six values unchecked (witness)."
  },
  {
   "property": "C26",
   "status": "partial",
   "theorems": [
    "Hexrd.Miller.rhomb_hex_rhomb",
    "Hexrd.Miller.hex_rhomb_hex",
    "Hexrd.Miller.rhomb_integral_iff",
    "Hexrd.Miller.rhomb_params",
    "Hexrd.Miller.direction_roundtrip",
    "Hexrd.Miller.direction_roundtrip_partial",
    "Hexrd.Miller.direction_reversed",
    "Hexrd.Miller.four_index_wrong",
    "Hexrd.Miller.cartesian_of_four_index",
    "Hexrd.Miller.cartesian_of_three_index_wrong"
   ],
   "note": "Plane indices and lattice parameters: proved for all integers and cells. Directions: the round trip keeps the line but reverses some directions, and the four-index form is wrong; exact statements and witnesses."
  },
  {
   "property": "C27",
   "status": "partial",
   "theorems": [
    "Hexrd.UnitCell.volume_positive",
    "Hexrd.UnitCell.metrics_inverse",
    "Hexrd.UnitCell.structure_dual",
    "Hexrd.UnitCell.trans_roundtrip",
    "Hexrd.UnitCell.trans_compose",
    "Hexrd.UnitCell.length_invariant",
    "Hexrd.UnitCell.cross_invariant",
    "Hexrd.UnitCell.clearing_breaks_dot"
   ],
   "note": "Over the reals, for all cells of positive volume whose structure matrices have no non-zero entry below 2^-26; without that condition the identities fail (witness). Floating-point rounding is not modelled."
  },
  {
   "property": "C28",
   "status": "partial",
   "theorems": [
    "Hexrd.UnitCell.orbit_distinct",
    "Hexrd.UnitCell.orbit_exact",
    "Hexrd.UnitCell.orbit_of_copy",
    "Hexrd.UnitCell.outside_counted_twice",
    "Hexrd.UnitCell.outside_sample"
   ],
   "note": "Over the reals, for all operators, cells and positions. For positions in the cell whose images are resolved by the tolerances the orbit is exact and the same for all copies; a position outside the cell gives one atom too many."
  },
  {
   "property": "C29",
   "status": "partial",
   "theorems": [
    "Hexrd.Stiffness.stiffness_of_class",
    "Hexrd.Stiffness.stiffness_complete",
    "Hexrd.Stiffness.wrong_number_rejected",
    "Hexrd.Stiffness.constants_count",
    "Hexrd.Stiffness.compliance_roundtrip",
    "Hexrd.Stiffness.stored_thousandfold",
    "Hexrd.Stiffness.stored_not_built"
   ],
   "note": "Over the reals, all eleven Laue classes, all constants. The matrix built is right and complete (invariance of the elastic energy under all rotations of the class, both directions); the stored stiffness is 1000 times it."
  },
  {
   "property": "C30",
   "status": "partial",
   "theorems": [
    "Hexrd.Units.convert_size",
    "Hexrd.Units.convert_exists",
    "Hexrd.Units.convert_back",
    "Hexrd.Units.way_back",
    "Hexrd.Units.convert_via",
    "Hexrd.Units.photon_involution",
    "Hexrd.Units.add_sub_size",
    "Hexrd.Units.nanometre_stuck"
   ],
   "note": "Over the reals, all units and values. Conversions keep the physical size, compose and return; nothing converts out of nanometres (proved)."
  },
  {
   "property": "C31",
   "status": "partial",
   "theorems": [
    "Hexrd.Angles.mapAngle_spec",
    "Hexrd.Angles.mapAngle_default",
    "Hexrd.Angles.mapAngle_idempotent",
    "Hexrd.Angles.mapAngle_rejects",
    "Hexrd.Angles.reversed_accepted",
    "Hexrd.Angles.width_not_period",
    "Hexrd.Angles.indexerMapAngle_spec"
   ],
   "note": "Over the reals, all angles (NaN included) and ranges. Ranges in the wrong order are accepted, and widths are compared with a relative tolerance of 1e-5 (witness)."
  },
  {
   "property": "C32",
   "status": "partial",
   "theorems": [
    "Hexrd.Angles.angularDifferenceOrig_spec",
    "Hexrd.Angles.angularDifference_partial",
    "Hexrd.Angles.angularDifference_negative",
    "Hexrd.Angles.circleDist_facts",
    "Hexrd.Angles.circleDist_triangle"
   ],
   "note": "Over the reals. The exported version is the distance on the circle exactly for angles at most one period apart and negative otherwise; the unexported original version is right for all."
  },
  {
   "property": "C33",
   "status": "partial",
   "theorems": [
    "Hexrd.Rotations.rotMat_acts",
    "Hexrd.Rotations.rotMat_rotation",
    "Hexrd.Rotations.rotMat_mul",
    "Hexrd.Rotations.rotMat_eq_iff",
    "Hexrd.Rotations.product_matrices",
    "Hexrd.Rotations.fixQuat_spec",
    "Hexrd.Rotations.invertQuat_spec",
    "Hexrd.Rotations.quatProduct_spec_partial",
    "Hexrd.Rotations.product_half_turn"
   ],
   "note": "Over the reals, all unit quaternions. quatProduct returns the zero quaternion when the scalar part of the product is zero (proved)."
  },
  {
   "property": "C34",
   "status": "proved",
   "theorems": [
    "Hexrd.Rotations.fundamental_spec",
    "Hexrd.Rotations.fundamental_class",
    "Hexrd.Rotations.fundamental_idempotent",
    "Hexrd.Rotations.halfTurns_group"
   ],
   "note": "Over the reals, all unit quaternions and all lists that are rotation groups; crystal symmetry only, as the code raises NotImplementedError with sample symmetry."
  },
  {
   "property": "C35",
   "status": "proved",
   "theorems": [
    "Hexrd.Rotations.laue_group",
    "Hexrd.Rotations.laue_generators",
    "Hexrd.Rotations.laue_scalar",
    "Hexrd.Rotations.laue_distance_zero"
   ],
   "note": "All tags; exact real numbers, with an arbitrary sign where floating point decides the sign of cos(pi/2)."
  },
  {
   "property": "C36",
   "status": "partial",
   "theorems": [
    "Hexrd.Tensors.mv_roundtrip",
    "Hexrd.Tensors.mv_roundtrip'",
    "Hexrd.Tensors.mv_isometry",
    "Hexrd.Tensors.strain_roundtrip",
    "Hexrd.Tensors.stress_roundtrip",
    "Hexrd.Tensors.stress_strain_work",
    "Hexrd.Tensors.vecds_roundtrip",
    "Hexrd.Tensors.vecds_roundtrip'",
    "Hexrd.Tensors.vecds_isometry",
    "Hexrd.Tensors.vecds_trace",
    "Hexrd.Tensors.skew_cross",
    "Hexrd.Tensors.skew_roundtrip",
    "Hexrd.Tensors.symm_skew",
    "Hexrd.Tensors.normal_projection",
    "Hexrd.Tensors.argument_reshaped"
   ],
   "note": "Over the reals, all matrices and vectors. All conversions as stated; in addition symm, skew and vectorOfSkewMatrix reshape their argument in place (proved)."
  },
  {
   "property": "C37",
   "status": "partial",
   "theorems": [
    "Hexrd.DupVectors.kept_apart",
    "Hexrd.DupVectors.dropped_near_earlier",
    "Hexrd.DupVectors.groups_sound",
    "Hexrd.DupVectors.dropped_near_kept_partial",
    "Hexrd.DupVectors.chain_dropped",
    "Hexrd.DupVectors.unique_apart",
    "Hexrd.DupVectors.unique_covers"
   ],
   "note": "All lists, dimensions and tolerances. Along chains a dropped vector may be farther than the tolerance from every kept one (witness); for uniqueVectors the argsort and lexsort permutations are arbitrary sorted ones."
  },
  {
   "property": "C38",
   "status": "proved",
   "theorems": [
    "Hexrd.Grid.conn_length",
    "Hexrd.Grid.conn_cell",
    "Hexrd.Grid.conn_ll",
    "Hexrd.Grid.corners_distinct",
    "Hexrd.Grid.share_side",
    "Hexrd.Grid.conn_hex_length",
    "Hexrd.Grid.conn_hex"
   ],
   "note": "All sizes, by the row-major index."
  },
  {
   "property": "C39",
   "status": "partial",
   "theorems": [
    "Hexrd.Grid.areas_partial",
    "Hexrd.Grid.areas_two_triangles",
    "Hexrd.Grid.areas_wrong",
    "Hexrd.Grid.areas_translate",
    "Hexrd.Grid.area_shoelace",
    "Hexrd.Grid.area_translate",
    "Hexrd.Grid.area_additive",
    "Hexrd.Grid.area_reverse",
    "Hexrd.Grid.centroid_mean",
    "Hexrd.Grid.centroid_translate"
   ],
   "note": "computeArea: any number of vertices, equal to the shoelace area. compute_areas is the area exactly when two sides are parallel; a convex quadrilateral with another value is given."
  },
  {
   "property": "C40",
   "status": "proved",
   "theorems": [
    "Hexrd.Grid.clip_sound",
    "Hexrd.Grid.clip_inside",
    "Hexrd.Grid.clip_empty",
    "Hexrd.Grid.clip_exact"
   ],
   "note": "All polygons over the reals; for convex counterclockwise subjects the result is exactly the intersection."
  },
  {
   "property": "C41",
   "status": "proved",
   "theorems": [
    "Hexrd.Grid.grid_two_sided",
    "Hexrd.Grid.grid_step",
    "Hexrd.Grid.grid_one_sided",
    "Hexrd.Grid.window_adjusted"
   ],
   "note": "Positive widths and subdivisions."
  },
  {
   "property": "C42",
   "status": "partial",
   "theorems": [
    "Hexrd.Grid.bin_up_partial",
    "Hexrd.Grid.bin_up_outside",
    "Hexrd.Grid.bin_down_partial",
    "Hexrd.Grid.bin_down_first",
    "Hexrd.Grid.bin_narrow",
    "Hexrd.Grid.bin_integers"
   ],
   "note": "True for bins wider than two tolerances except the first edge of a descending grid (-1, proved); narrower bins and integer points are counterexamples (proved)."
  },
  {
   "property": "C43",
   "status": "partial",
   "theorems": [
    "Hexrd.Codec.h5_roundtrip_partial",
    "Hexrd.Codec.h5_single_element",
    "Hexrd.Codec.h5_zero_dim",
    "Hexrd.Codec.h5_none_dropped",
    "Hexrd.Codec.h5_string_array",
    "Hexrd.Codec.h5_emptied",
    "Hexrd.Codec.h5_copy_emptied"
   ],
   "note": "Any nesting. The full statement is false: one-element arrays, None and string arrays change, and the caller's dictionary (and nested dictionaries of a shallow copy) are emptied; each is proved."
  },
  {
   "property": "C44",
   "status": "partial",
   "theorems": [
    "Hexrd.Codec.json_roundtrip_partial",
    "Hexrd.Codec.json_no_backslash",
    "Hexrd.Codec.escape_inside",
    "Hexrd.Codec.json_escape_lost",
    "Hexrd.Codec.json_escape_fails"
   ],
   "note": "All byte lists. Proved for data in which no backslash-u escape is active; with one, the data changes or cannot be encoded (witnesses). The np.save/np.load pair is taken as the identity on bytes."
  },
  {
   "property": "C45",
   "status": "partial",
   "theorems": [
    "Hexrd.Multiproc.results_in_order",
    "Hexrd.Multiproc.step_todo",
    "Hexrd.Multiproc.never_stuck",
    "Hexrd.Multiproc.call_values_partial",
    "Hexrd.Multiproc.args_dropped",
    "Hexrd.Multiproc.stuck_after_log_error"
   ],
   "note": "Every number of workers, arguments and interleaving; termination and absence of deadlock included. Extra positional arguments are dropped and a result without three elements stops the call for ever (both proved)."
  },
  {
   "property": "C46",
   "status": "partial",
   "theorems": [
    "Hexrd.Detector.buffer_border",
    "Hexrd.Detector.buffer_rounded",
    "Hexrd.Detector.buffer_agree_partial",
    "Hexrd.Detector.buffer_disagree",
    "Hexrd.Detector.buffer_negative"
   ],
   "note": "All panel sizes and widths. Widths that are whole numbers of pixels agree with the mask; for others the mask is rounded and the two disagree (witness). Negative widths are accepted and wrap (witness)."
  },
  {
   "property": "C47",
   "status": "partial",
   "theorems": [
    "Hexrd.Transforms.marked_lies_in_a_range",
    "Hexrd.Transforms.in_range_marked_partial",
    "Hexrd.Transforms.full_circle_marks_everything",
    "Hexrd.Transforms.first_end_a_turn_later_is_rejected",
    "Hexrd.Transforms.short_range_accepts_everything"
   ],
   "note": "Soundness for ranges whose ends differ; completeness except for the first end of a range given one or more turns later, which the code rejects (first_end_a_turn_later_is_rejected); ranges shorter than the tolerance accept everything (short_range_accepts_everything)."
  },
  {
   "property": "C48",
   "status": "proved",
   "theorems": [
    "Hexrd.Transforms.anglesToGvec_bragg",
    "Hexrd.Transforms.anglesToDvec_twoTheta",
    "Hexrd.Transforms.dvec_is_reflection",
    "Hexrd.Transforms.gvecToXY_hits",
    "Hexrd.Transforms.gvecToXY_complete",
    "Hexrd.Transforms.normalizeBeam_close",
    "Hexrd.Transforms.gvecToXYSingle_eq",
    "Hexrd.Transforms.gvecToXYMulti_eq",
    "Hexrd.Transforms.xyToGvec_reflects",
    "Hexrd.Transforms.angles_gvec_xy_round_trip",
    "Hexrd.Transforms.xy_gvec_xy_round_trip",
    "Hexrd.Transforms.gvecToXY_neg"
   ],
   "note": "Exact real arithmetic; beams within 2e-8 rad of -z but not on it are replaced by -z (normalizeBeam_close bounds this)."
  },
  {
   "property": "C49",
   "status": "proved",
   "theorems": [
    "Hexrd.Transforms.oscill_exact",
    "Hexrd.Transforms.oscill_nan",
    "Hexrd.Transforms.oscill_assert",
    "Hexrd.Transforms.oscill_angles_describe"
   ],
   "note": "For reflections and beams long enough to be normalised. oscill_assert covers the case in which the C assertion fails."
  },
  {
   "property": "C50",
   "status": "proved",
   "theorems": [
    "Hexrd.Transforms.sampleRmat_isRotation",
    "Hexrd.Transforms.sampleRmat_eq",
    "Hexrd.Transforms.sampleRmats_spec",
    "Hexrd.Transforms.detectorRmat_isRotation",
    "Hexrd.Transforms.detectorRmat_eq",
    "Hexrd.Transforms.beamRmat_isBeamFrame",
    "Hexrd.Transforms.isBeamFrame_unique",
    "Hexrd.Transforms.beamRmat_refused_iff",
    "Hexrd.Transforms.eigenBeamFrame_isBeamFrame",
    "Hexrd.Transforms.eigenBeamFrame_eq_beamRmat",
    "Hexrd.Transforms.beamRmat_of_columns",
    "Hexrd.Transforms.expmapRmat_isRotation",
    "Hexrd.Transforms.expmapRmat_axis",
    "Hexrd.Transforms.expmapRmat_eq_rotateVec",
    "Hexrd.Transforms.expmapRmat_x",
    "Hexrd.Transforms.binaryRmat_isRotation_iff",
    "Hexrd.Transforms.binaryRmat_spec",
    "Hexrd.Transforms.rotateVec_spec"
   ],
   "note": "Both beam-frame implementations (C and C++) are modelled and shown equal."
  },
  {
   "property": "C51",
   "status": "proved",
   "theorems": [
    "Hexrd.Rotations.distance_spec",
    "Hexrd.Rotations.distance_symm",
    "Hexrd.Rotations.distance_equivalent",
    "Hexrd.Rotations.distance_zero",
    "Hexrd.Rotations.distance_triangle"
   ],
   "note": "Over the reals, all unit quaternions and all rotation groups; includes the triangle inequality."
  },
  {
   "property": "C52",
   "status": "partial",
   "theorems": [
    "Hexrd.Calib.round_trip",
    "Hexrd.Calib.update_applies",
    "Hexrd.Calib.update_isolated",
    "Hexrd.Calib.beam_round_trip",
    "Hexrd.Calib.suffix_fails",
    "Hexrd.Calib.eleven_sorted",
    "Hexrd.Calib.mangle_refused",
    "Hexrd.Calib.round_trip_example"
   ],
   "note": "Proved for instruments whose parameter names pass validation, with at most ten distortion parameters and no detector name that ends with another. suffix_fails and eleven_sorted show that the last two conditions are needed. SciPy rotation conversions are assumed lawful (RotLib.Lawful, satisfiable by exists_lawful)."
  },
  {
   "property": "C53",
   "status": "proved",
   "theorems": [
    "Hexrd.Calib.system_rigid",
    "Hexrd.Calib.system_arrangement",
    "Hexrd.Calib.system_defined",
    "Hexrd.Calib.group_rigid",
    "Hexrd.Calib.constraint_round_trip"
   ],
   "note": "Exact real arithmetic; SciPy rotation conversions are assumed lawful (RotLib.Lawful)."
  },
  {
   "property": "C54",
   "status": "partial",
   "theorems": [
    "Hexrd.Calib.renameOne_spec",
    "Hexrd.Calib.rename_unique",
    "Hexrd.Calib.rename_append_nodup",
    "Hexrd.Calib.rename_keeps",
    "Hexrd.Calib.rename_mapping",
    "Hexrd.Calib.rename_steals",
    "Hexrd.Calib.rename_mapping_duplicate",
    "Hexrd.Calib.validate_iff"
   ],
   "note": "Uniqueness holds for all lists. rename_steals: a name that collides with nothing is renamed when an earlier rename has taken it. rename_mapping needs distinct old names."
  },
  {
   "property": "C55",
   "status": "partial",
   "theorems": [
    "Hexrd.Calib.tardis_distance_partial",
    "Hexrd.Calib.tardis_distance",
    "Hexrd.Calib.tardis_unchanged",
    "Hexrd.Calib.tardis_lopsided",
    "Hexrd.Calib.tardis_exchanged"
   ],
   "note": "Proved for plates on their sides with y2 + y4 at most the largest distance; tardis_lopsided and tardis_exchanged refute the general claim."
  },
  {
   "property": "C56",
   "status": "proved",
   "theorems": [
    "Hexrd.Snip.snip_bounds",
    "Hexrd.Snip.toInt_le",
    "Hexrd.Snip.snip_parallel",
    "Hexrd.Snip.snip_clips",
    "Hexrd.Snip.snip_antitone",
    "Hexrd.Snip.snip_masked",
    "Hexrd.Snip.snip_masked_irrelevant",
    "Hexrd.Snip.snip_shift",
    "Hexrd.Snip.fast_bounds",
    "Hexrd.Snip.quad_bounds",
    "Hexrd.Snip.snip2d_bounds",
    "Hexrd.Snip.linKernel2_sum",
    "Hexrd.Snip.quadKernel2_sum",
    "Hexrd.Snip.quadKernel_even",
    "Hexrd.Snip.quadKernel_odd",
    "Hexrd.Snip.peak_clipped"
   ],
   "note": "Exact real arithmetic. snip1d with masks and NaN; the other three variants for images without NaN."
  },
  {
   "property": "C57",
   "status": "proved",
   "theorems": [
    "Hexrd.Process.add_row_spec",
    "Hexrd.Process.add_col_spec"
   ],
   "note": "All images and positions."
  },
  {
   "property": "C58",
   "status": "partial",
   "theorems": [
    "Hexrd.UnitCell.reciprocal_operators",
    "Hexrd.UnitCell.reciprocal_operators_isometric",
    "Hexrd.UnitCell.cartesian_orthogonal",
    "Hexrd.UnitCell.monoclinic_axis_partial",
    "Hexrd.UnitCell.monoclinic_2m_axis_wrong",
    "Hexrd.UnitCell.rounding_absorbs"
   ],
   "note": "All groups 1-230 and settings. The unique axis is along z for point groups 2 and m; for 2/m the shared array is turned twice and the axis is along y (proved)."
  },
  {
   "property": "C59",
   "status": "partial",
   "theorems": [
    "Hexrd.UnitCell.removed_collides",
    "Hexrd.UnitCell.kept_apart_partial",
    "Hexrd.UnitCell.kept_apart",
    "Hexrd.UnitCell.three_halves"
   ],
   "note": "For all lists. Exact when no two atoms share a site; atoms sharing a site are compared with one other atom only, so three half-occupied ones are all kept."
  },
  {
   "property": "C60",
   "status": "proved",
   "theorems": [
    "Hexrd.Rotations.misorientation_eq_distance",
    "Hexrd.Rotations.fundamental_angle"
   ],
   "note": "Over the reals, all unit quaternions and all rotation groups."
  },
  {
   "property": "C61",
   "status": "proved",
   "theorems": [
    "Hexrd.DupVectors.applySym_sound",
    "Hexrd.DupVectors.applySym_apart",
    "Hexrd.DupVectors.applySym_complete",
    "Hexrd.DupVectors.applySym_orbit"
   ],
   "note": "Over the reals; the exact statement under the condition that distinct images are farther apart than the tolerance."
  },
  {
   "property": "C62",
   "status": "proved",
   "theorems": [
    "Hexrd.Detector.pixel_cart_inverse",
    "Hexrd.Detector.pixel_centre",
    "Hexrd.Detector.pixel_index",
    "Hexrd.Detector.pixel_index_only",
    "Hexrd.Detector.pixel_edge"
   ],
   "note": "Over the reals, all panels with positive pixel sizes, without distortion. pixel_edge states what happens on edges."
  },
  {
   "property": "C63",
   "status": "proved",
   "theorems": [
    "Hexrd.Detector.clip_points",
    "Hexrd.Detector.clip_plain",
    "Hexrd.Detector.clip_mm",
    "Hexrd.Detector.clip_mask"
   ],
   "note": "All panels, buffers and points; a mask is stated for points inside pixels."
  },
  {
   "property": "C64",
   "status": "partial",
   "theorems": [
    "Hexrd.Detector.nearest_partial",
    "Hexrd.Detector.nearest_floor",
    "Hexrd.Detector.nearest_wrap",
    "Hexrd.Detector.nearest_centre",
    "Hexrd.Detector.nearest_points"
   ],
   "note": "True only in one quarter of each pixel; elsewhere the value is that of the pixel whose centre is above and to the left, wrapping to the opposite edge (both proved)."
  },
  {
   "property": "C65",
   "status": "proved",
   "theorems": [
    "Hexrd.Detector.bilinear_value",
    "Hexrd.Detector.bilinear_constant",
    "Hexrd.Detector.bilinear_centre",
    "Hexrd.Detector.bilinear_bounds",
    "Hexrd.Detector.bilinear_reproduces",
    "Hexrd.Detector.bilinear_integer",
    "Hexrd.Detector.single_row"
   ],
   "note": "Over the reals, pixels larger than 3e-8 mm; within the tolerance beyond the last centre it is a linear extrapolation (stated). Integer images are truncated (bilinear_integer)."
  },
  {
   "property": "C66",
   "status": "partial",
   "theorems": [
    "Hexrd.Transforms.anglesToCart_hits_partial",
    "Hexrd.Transforms.cart_angles_round_trip_partial",
    "Hexrd.Transforms.anglesToCart_negative_omega",
    "Hexrd.Transforms.cartToDvec_eq",
    "Hexrd.Transforms.beamPosition_spec",
    "Hexrd.Transforms.beamPosition_none_iff"
   ],
   "note": "angles_to_cart is right only for chi and omega in [0, 180] degrees and no crystal rotation; anglesToCart_negative_omega is a counterexample outside."
  },
  {
   "property": "C67",
   "status": "partial",
   "theorems": [
    "Hexrd.Calib.history_independent",
    "Hexrd.Calib.history_defined",
    "Hexrd.Calib.history_independent_group",
    "Hexrd.Calib.origin_history",
    "Hexrd.Calib.group_instrument_history"
   ],
   "note": "Proved for the default centers (mean center of the instrument, group center for groups); origin_history and group_instrument_history refute the claim for the laboratory origin and for group constraints about the instrument center."
  },
  {
   "property": "C68",
   "status": "partial",
   "theorems": [
    "Hexrd.Distortion.dexela_inverse_partial",
    "Hexrd.Distortion.dexela_apply_partial",
    "Hexrd.Distortion.dexela_outward",
    "Hexrd.Distortion.dexela_overlap",
    "Hexrd.Distortion.quad_inverse",
    "Hexrd.Distortion.quad_apply",
    "Hexrd.Distortion.quad_singular",
    "Hexrd.Distortion.ge_apply_inverse",
    "Hexrd.Distortion.ge_inverse_apply",
    "Hexrd.Distortion.ge_example",
    "Hexrd.Distortion.ge_enlarging",
    "Hexrd.Distortion.ge_origin",
    "Hexrd.Distortion.ge_exponents",
    "Hexrd.Distortion.trivial_identity"
   ],
   "note": "Dexela_2923_quad inverts wherever no division by zero occurs; GE_41RT with exponents 2 wherever the distortion shrinks; Dexela_2923 away from the axes. Counterexamples outside: dexela_overlap, quad_singular, ge_enlarging, ge_origin, ge_exponents."
  },
  {
   "property": "C69",
   "status": "proved",
   "theorems": [
    "Hexrd.Calib.material_round_trip",
    "Hexrd.Calib.material_update"
   ],
   "note": "Lattice parameters as reals."
  },
  {
   "property": "C70",
   "status": "partial",
   "theorems": [
    "Hexrd.Indexer.ranges_partial",
    "Hexrd.Indexer.ranges_offset_irrelevant",
    "Hexrd.Indexer.ranges_accepted",
    "Hexrd.Indexer.ranges_three",
    "Hexrd.Indexer.ranges_four",
    "Hexrd.Indexer.ranges_four_example",
    "Hexrd.Indexer.ranges_nested",
    "Hexrd.Indexer.ranges_unsorted",
    "Hexrd.Indexer.ranges_overlap_missed"
   ],
   "note": "Membership proved for every list of non-overlapping ranges that is accepted. The rest of the claim is false of the code: four or more ranges always raise, three ranges raise unless the first of the list ends before the other two start, and overlaps between other ranges are not reported and remove angles."
  },
  {
   "property": "C71",
   "status": "partial",
   "theorems": [
    "Hexrd.Indexer.bin_lookup",
    "Hexrd.Indexer.dilated_spec",
    "Hexrd.Indexer.dilated_nan",
    "Hexrd.Indexer.dilated_nan_order",
    "Hexrd.Indexer.hit_spec",
    "Hexrd.Indexer.hit_noNaN",
    "Hexrd.Indexer.score_spec",
    "Hexrd.Indexer.score_range",
    "Hexrd.Indexer.score_one",
    "Hexrd.Indexer.score_example",
    "Hexrd.Indexer.dpix_nearest"
   ],
   "note": "Proved for every input with non-empty families; predicted angles are inputs. With NaN in a window, whether a prediction counts depends on whether the scan meets the NaN before a bright pixel (dilated_nan_order)."
  },
  {
   "property": "C72",
   "status": "partial",
   "theorems": [
    "Hexrd.Indexer.paintGrid_partial",
    "Hexrd.Indexer.poolMap_order",
    "Hexrd.Indexer.paintGrid_few",
    "Hexrd.Indexer.paintGrid_example"
   ],
   "note": "True if there are at least as many orientations as processes. With fewer, the chunk size is 0 and all scores are None (paintGrid_few)."
  },
  {
   "property": "C73",
   "status": "proved",
   "theorems": [
    "Hexrd.Cylinder.cartToDvec_is_sheet",
    "Hexrd.Cylinder.dvecToXY_value",
    "Hexrd.Cylinder.projection_exact",
    "Hexrd.Cylinder.projection_miss",
    "Hexrd.Cylinder.dvecToAngs_spec",
    "Hexrd.Cylinder.dvecToAngs_of_angles",
    "Hexrd.Cylinder.cartToAngles_direction",
    "Hexrd.Cylinder.cart_angles_cart",
    "Hexrd.Cylinder.angles_cart_angles",
    "Hexrd.Cylinder.localNormal_radial",
    "Hexrd.Cylinder.secb_ge_one",
    "Hexrd.Cylinder.projectAngles_tilted_stage",
    "Hexrd.Cylinder.axis_direction_marked_valid",
    "Hexrd.Cylinder.backward_ray_reported"
   ],
   "note": "For an untilted stage; the code does not bring directions back from a tilted or rotated sample frame, marks directions along the axis valid, and reports hits behind a sample outside the cylinder, each shown with a witness."
  },
  {
   "property": "C74",
   "status": "partial",
   "theorems": [
    "Hexrd.Polar.grid_entry",
    "Hexrd.Polar.grid_length",
    "Hexrd.Polar.grid_covers",
    "Hexrd.Polar.extent_eq",
    "Hexrd.Polar.extent_window",
    "Hexrd.Polar.tthToPixel_centre",
    "Hexrd.Polar.warp_value",
    "Hexrd.Polar.contribution_constant",
    "Hexrd.Polar.sees_no_buffer",
    "Hexrd.Polar.cached_warp",
    "Hexrd.Polar.planar_point",
    "Hexrd.Polar.planar_complete",
    "Hexrd.Polar.cylinder_point_partial",
    "Hexrd.Polar.bin_rows",
    "Hexrd.Polar.bin_value",
    "Hexrd.Polar.bin_count",
    "Hexrd.Polar.evec_ignored",
    "Hexrd.Polar.cylinder_ignores_sample",
    "Hexrd.Polar.bin_wraps"
   ],
   "note": "Everything is proved for planar detectors and the laboratory x axis as azimuth reference; for cylindrical detectors only with an untilted stage and the sample at the origin, because the code ignores both, and for bins only when the range stays within the image. Witnesses show the departures."
  },
  {
   "property": "C75",
   "status": "proved",
   "theorems": [
    "Hexrd.Peaks.splitPvoigt_isPeak",
    "Hexrd.Peaks.pvoigt_isPeak",
    "Hexrd.Peaks.gaussian_isPeak",
    "Hexrd.Peaks.lorentzian_isPeak",
    "Hexrd.Peaks.with_background",
    "Hexrd.Peaks.mixing_width",
    "Hexrd.Peaks.mixing_width_bounds",
    "Hexrd.Peaks.mixing_fraction",
    "Hexrd.Peaks.gaussian2dRot_ellipse",
    "Hexrd.Peaks.gaussian2dRot_zero",
    "Hexrd.Peaks.splitPvoigt2dRot_product",
    "Hexrd.Peaks.gaussian3d_ellipsoid",
    "Hexrd.Peaks.with_background_nd",
    "Hexrd.Peaks.pink_not_symmetric"
   ],
   "note": "The back-to-back exponential profile of a pink beam is asymmetric where it should be symmetric (pink_not_symmetric)."
  },
  {
   "property": "C76",
   "status": "proved",
   "theorems": [
    "Hexrd.Peaks.gaussian1d_deriv_exact",
    "Hexrd.Peaks.lorentzian1d_deriv_exact"
   ],
   "note": ""
  },
  {
   "property": "C77",
   "status": "proved",
   "theorems": [
    "Hexrd.Peaks.mpeak_value",
    "Hexrd.Peaks.mpeak_order",
    "Hexrd.Peaks.mpeak_cubic_ignored"
   ],
   "note": "A cubic background, which the initial-guess function offers, is ignored (mpeak_cubic_ignored)."
  },
  {
   "property": "C78",
   "status": "partial",
   "theorems": [
    "Hexrd.PeakFit.amplitude_guess",
    "Hexrd.PeakFit.nearest_spec",
    "Hexrd.PeakFit.nearest_mono",
    "Hexrd.PeakFit.nearest_in_window",
    "Hexrd.PeakFit.width_guess",
    "Hexrd.PeakFit.width_half_height",
    "Hexrd.PeakFit.width_first_sample",
    "Hexrd.PeakFit.height_nonneg",
    "Hexrd.PeakFit.guess_within_pvoigt",
    "Hexrd.PeakFit.guess_within_split_partial",
    "Hexrd.PeakFit.estimate_exists",
    "Hexrd.PeakFit.multi_feasible",
    "Hexrd.PeakFit.multi_pvoigt_refused",
    "Hexrd.PeakFit.multi_feasible_pvoigt_partial",
    "Hexrd.PeakFit.multi_guess_value",
    "Hexrd.PeakFit.multi_guess_cubic",
    "Hexrd.PeakFit.multi_start",
    "Hexrd.PeakFit.plane_centred_partial",
    "Hexrd.PeakFit.plane_not_removed"
   ],
   "note": "False in three places: the split pseudo-Voigt guess violates its own bounds for a background intercept above one; the multi-peak pseudo-Voigt start is refused when the smallest data value exceeds the amplitude plus one; the two-dimensional background is only removed for patches centred at the origin."
  },
  {
   "property": "C79",
   "status": "proved",
   "theorems": [
    "Hexrd.PeakFit.residual_zero",
    "Hexrd.PeakFit.residual_squares",
    "Hexrd.PeakFit.split_exact_penalised",
    "Hexrd.PeakFit.goodness_zero"
   ],
   "note": ""
  },
  {
   "property": "C80",
   "status": "proved",
   "theorems": [
    "Hexrd.Spectrum.pvoigt1d_eq",
    "Hexrd.Spectrum.peakAt_eq",
    "Hexrd.Spectrum.splitPvoigt1d_sorted",
    "Hexrd.Spectrum.splitPvoigt1d_unsorted",
    "Hexrd.Spectrum.cheb_cos",
    "Hexrd.Spectrum.bkg_low",
    "Hexrd.Spectrum.bkg_bound",
    "Hexrd.Spectrum.composite_value",
    "Hexrd.Spectrum.start_value"
   ],
   "note": "For positions that are not increasing split_pvoigt_1d returns the values in another order (splitPvoigt1d_unsorted)."
  },
  {
   "property": "C81",
   "status": "partial",
   "theorems": [
    "Hexrd.Spectrum.equal_all",
    "Hexrd.Spectrum.width_mixing",
    "Hexrd.Spectrum.box_bounds",
    "Hexrd.Spectrum.centres_separated",
    "Hexrd.Spectrum.centres_accepted",
    "Hexrd.Spectrum.two_close_peaks",
    "Hexrd.Spectrum.dcs_slopes_equal_intercepts",
    "Hexrd.Spectrum.dcs_runs"
   ],
   "note": "For two peaks the refusal is a TypeError that SpectrumModel.fit does not handle (two_close_peaks); in the second stage of pink_beam_dcs the pattern constraint also ties the slopes to the intercepts (dcs_slopes_equal_intercepts)."
  },
  {
   "property": "C82",
   "status": "partial",
   "theorems": [
    "Hexrd.Spectrum.acceptRing_iff",
    "Hexrd.Spectrum.acceptRing_nan"
   ],
   "note": "The equivalence holds for values that are numbers; a NaN centre or amplitude passes both comparisons (acceptRing_nan)."
  },
  {
   "property": "C83",
   "status": "partial",
   "theorems": [
    "Hexrd.Simulate.rowMask_sound",
    "Hexrd.Simulate.rowMask_complete",
    "Hexrd.Simulate.lists_aligned",
    "Hexrd.Simulate.series_per_grain",
    "Hexrd.Simulate.simulate_entries",
    "Hexrd.Simulate.sticky_direction"
   ],
   "note": "Proved for lists of omega ranges in which no increasing range follows a decreasing one, and, for the converse, angles that are not the end where the arc begins. Missing because the code does not do it: sticky_direction shows a list of ranges in another order for which an omega outside all ranges is kept."
  },
  {
   "property": "C84",
   "status": "proved",
   "theorems": [
    "Hexrd.Simulate.entries_are_spots",
    "Hexrd.Simulate.spots_are_entries",
    "Hexrd.Simulate.listed_sound",
    "Hexrd.Simulate.listed_complete",
    "Hexrd.Simulate.gvec_ray",
    "Hexrd.Simulate.scattered_reflected"
   ],
   "note": "Planar panels without distortion, the ranges as in C83; the converse leaves out the forward and backward directions and rays parallel to the detector."
  },
  {
   "property": "C85",
   "status": "proved",
   "theorems": [
    "Hexrd.Simulate.simulate_succeeds_iff",
    "Hexrd.Simulate.oscill_none_iff",
    "Hexrd.Simulate.correct_trivial",
    "Hexrd.Simulate.correct_energy",
    "Hexrd.Simulate.scene_energy"
   ],
   "note": ""
  },
  {
   "property": "C86",
   "status": "partial",
   "theorems": [
    "Hexrd.Xrdutil.pixel_size",
    "Hexrd.Xrdutil.etaGap_circle",
    "Hexrd.Xrdutil.detector_pixel_size_partial",
    "Hexrd.Xrdutil.detector_pixel_size_swapped"
   ],
   "note": "xrdutil.angularPixelSize is proved for every pitch; the method of the detector passes the height as width, which is right for square pixels only (witness detector_pixel_size_swapped)."
  },
  {
   "property": "C87",
   "status": "partial",
   "theorems": [
    "Hexrd.Xrdutil.spherePoint_unit",
    "Hexrd.Xrdutil.stereo_iff",
    "Hexrd.Xrdutil.stereo_bijective",
    "Hexrd.Xrdutil.stereo_disk",
    "Hexrd.Xrdutil.equalArea_point",
    "Hexrd.Xrdutil.equalArea_zone",
    "Hexrd.Xrdutil.equalArea_injective",
    "Hexrd.Xrdutil.equalArea_poles",
    "Hexrd.Xrdutil.stereo_twoTheta",
    "Hexrd.Xrdutil.equalArea_twoTheta",
    "Hexrd.Xrdutil.zproject_mask",
    "Hexrd.Xrdutil.zproject_all",
    "Hexrd.Xrdutil.mask_forward",
    "Hexrd.Xrdutil.mask_lower",
    "Hexrd.Xrdutil.input_kept_partial",
    "Hexrd.Xrdutil.input_changed"
   ],
   "note": "Fails in three places, each with a witness: the equal-area projection sends the upper pole to the origin (equalArea_poles), the mask keeps the lower half sphere where the documentation says upper (mask_lower), and inverting the third coordinate of given vectors changes the caller's array (input_changed)."
  },
  {
   "property": "C88",
   "status": "partial",
   "theorems": [
    "Hexrd.Xrdutil.patch_grid",
    "Hexrd.Xrdutil.patch_pixel_partial",
    "Hexrd.Xrdutil.patch_pixel_swapped"
   ],
   "note": "The pixel indices are right for square pixels; for others the edges are built with rows and columns exchanged (witness patch_pixel_swapped)."
  },
  {
   "property": "C89",
   "status": "proved",
   "theorems": [
    "Hexrd.Config.merge_value",
    "Hexrd.Config.merge_fails_iff",
    "Hexrd.Config.merge_wellFormed",
    "Hexrd.Config.open_value"
   ],
   "note": "One document: merge_value; any number: open_value; failure: merge_fails_iff. A file whose documents are not all mappings is not modelled."
  },
  {
   "property": "C90",
   "status": "partial",
   "theorems": [
    "Hexrd.Config.merge_absorb",
    "Hexrd.Config.save_open_partial",
    "Hexrd.Config.save_one_lost"
   ],
   "note": "Proved for files of at least two documents. A single configuration is written as a list with one element, so that nothing can be looked up after opening again (save_one_lost)."
  },
  {
   "property": "C91",
   "status": "partial",
   "theorems": [
    "Hexrd.Config.get_spec",
    "Hexrd.Config.set_get_partial",
    "Hexrd.Config.set_lost",
    "Hexrd.Config.set_lost_case"
   ],
   "note": "get is proved for every case. set keeps its promise when the sections on the path exist; when one is missing or empty the value is silently lost (set_lost)."
  },
  {
   "property": "C92",
   "status": "partial",
   "theorems": [
    "Hexrd.Config.multiprocessing_partial",
    "Hexrd.Config.setMultiprocessing_spec",
    "Hexrd.Config.multiprocessing_invalid"
   ],
   "note": "Fails for an invalid value on a machine with one processor, which gives zero processes (multiprocessing_invalid)."
  },
  {
   "property": "C93",
   "status": "proved",
   "theorems": [
    "Hexrd.Config.etaRange_spec",
    "Hexrd.Config.omegaPeriod_iff",
    "Hexrd.Config.etaRange_case",
    "Hexrd.Config.fiberNdiv_spec"
   ],
   "note": "Rational degrees instead of floating point."
  },
  {
   "property": "C94",
   "status": "partial",
   "theorems": [
    "Hexrd.Transmission.generic_spec",
    "Hexrd.Transmission.generic_absent",
    "Hexrd.Transmission.exp_integral",
    "Hexrd.Transmission.meanTransmission_bounds",
    "Hexrd.Transmission.sample_spec",
    "Hexrd.Transmission.exitSec_spec",
    "Hexrd.Transmission.package_partial",
    "Hexrd.Transmission.package_case",
    "Hexrd.Transmission.comptonLayer_spec",
    "Hexrd.Transmission.comptonFromSample_spec",
    "Hexrd.Transmission.comptonFromWindow_value",
    "Hexrd.Transmission.comptonFromWindow_wrong",
    "Hexrd.Transmission.phosphor_coefficient",
    "Hexrd.Transmission.filterCoating_layers",
    "Hexrd.Transmission.filterCoating_phosphor_value",
    "Hexrd.Transmission.filterCoating_phosphor_wrong"
   ],
   "note": "Fails in three places: where the paths in and out have the same slope the sample transmission is not a number (package_partial); Compton scattering in the window is computed with the absorption length of the sample (comptonFromWindow_wrong); the phosphor is called with absorption length and readout length exchanged, and needs an inverse length (filterCoating_phosphor_wrong)."
  },
  {
   "property": "C95",
   "status": "partial",
   "theorems": [
    "Hexrd.Transmission.lens_value",
    "Hexrd.Transmission.pinhole_partial",
    "Hexrd.Transmission.lens_range",
    "Hexrd.Transmission.pinhole_axis"
   ],
   "note": "The area is right away from the axis; the value jumps from pi/4 to 1 when the thickness falls below the tolerance (pinhole_axis)."
  },
  {
   "property": "C96",
   "status": "proved",
   "theorems": [
    "Hexrd.Transmission.comptonEnergy_spec",
    "Hexrd.Transmission.pixelQ_transfer",
    "Hexrd.Transmission.polarization_spec",
    "Hexrd.Transmission.panelPolarization_isSome",
    "Hexrd.Transmission.lorentz_spec"
   ],
   "note": "Real numbers instead of floating point."
  },
  {
   "property": "C97",
   "status": "partial",
   "theorems": [
    "Hexrd.Transmission.massAttenuation_partial",
    "Hexrd.Transmission.massAttenuation_outside",
    "Hexrd.Transmission.absorptionLength_bounds",
    "Hexrd.Transmission.absorptionLength_scale",
    "Hexrd.Transmission.absorptionLength_case",
    "Hexrd.Transmission.layerStandoff_spec"
   ],
   "note": "At energies outside the table every coefficient is 1 cm^2/g (massAttenuation_outside), because the fill value 0 is a logarithm."
  },
  {
   "property": "C98",
   "status": "proved",
   "theorems": [
    "Hexrd.Rotations.fiber_carries",
    "Hexrd.Rotations.fiber_covers",
    "Hexrd.Rotations.fiber_spacing",
    "Hexrd.Rotations.fiberSym_spec",
    "Hexrd.Rotations.perp_exists"
   ],
   "note": "Exact unless the two directions are nearly (within sqrt(eps)) but not exactly opposite, where the error is bounded by that tolerance."
  },
  {
   "property": "C99",
   "status": "proved",
   "theorems": [
    "Hexrd.EtaOme.combine_spec",
    "Hexrd.EtaOme.expand_spec",
    "Hexrd.EtaOme.spot_omega",
    "Hexrd.EtaOme.spot_eta"
   ],
   "note": ""
  },
  {
   "property": "C100",
   "status": "partial",
   "theorems": [
    "Hexrd.EtaOme.clean_spec",
    "Hexrd.EtaOme.clean_background",
    "Hexrd.EtaOme.clean_empty",
    "Hexrd.EtaOme.filter_spec",
    "Hexrd.EtaOme.filter_streak",
    "Hexrd.EtaOme.filter_requested",
    "Hexrd.EtaOme.load_filtered_partial",
    "Hexrd.EtaOme.load_clean_unfiltered"
   ],
   "note": "With the clean option the maps are not filtered whatever the configuration says (load_clean_unfiltered)."
  },
  {
   "property": "C101",
   "status": "proved",
   "theorems": [
    "Hexrd.EtaOme.select_all",
    "Hexrd.EtaOme.select_override",
    "Hexrd.EtaOme.select_spec"
   ],
   "note": "Modelled for lists. A numpy array as argument, which the signature allows, fails on the truth test of the argument when it has more than one entry."
  },
  {
   "property": "C102",
   "status": "proved",
   "theorems": [
    "Hexrd.Cluster.above_spec",
    "Hexrd.Cluster.cluster_few",
    "Hexrd.Cluster.cluster_spherical",
    "Hexrd.Cluster.cluster_hierarchical",
    "Hexrd.Cluster.cluster_euclidean",
    "Hexrd.Cluster.groups_partition",
    "Hexrd.Cluster.labels_of_clusters"
   ],
   "note": "The clustering libraries and the average are arguments; their labels are assumed to be contiguous, as documented."
  },
  {
   "property": "C103",
   "status": "partial",
   "theorems": [
    "Hexrd.PullSpots.labels_exist",
    "Hexrd.PullSpots.window_outside",
    "Hexrd.PullSpots.not_found",
    "Hexrd.PullSpots.found_spec",
    "Hexrd.PullSpots.found_inside",
    "Hexrd.PullSpots.pull_ids",
    "Hexrd.PullSpots.signal_spec",
    "Hexrd.PullSpots.signal_bilinear",
    "Hexrd.PullSpots.nearest_partial",
    "Hexrd.PullSpots.nearest_biased",
    "Hexrd.PullSpots.narrow_window"
   ],
   "note": "The choice among several spots measures the distance from half a pixel beyond the centre of the window, so it is not always the nearest one (nearest_biased); with interpolation the largest value can be one that no pixel has (signal_bilinear); an omega tolerance of at most one frame makes the labelling fail (narrow_window)."
  },
  {
   "property": "C104",
   "status": "partial",
   "theorems": [
    "Hexrd.FitGrains.valid_spec",
    "Hexrd.FitGrains.valid_inv",
    "Hexrd.FitGrains.completeness_range",
    "Hexrd.FitGrains.overlap_fails",
    "Hexrd.FitGrains.count_saturated",
    "Hexrd.FitGrains.refine_spec",
    "Hexrd.FitGrains.refine_backwards"
   ],
   "note": "Fails for overlap files (overlap_fails: the loop over them uses an undefined name) and for series turned backwards (refine_backwards); omegas at most a turn apart in refine_spec."
  },
  {
   "property": "C105",
   "status": "proved",
   "theorems": [
    "Hexrd.FitGrains.fit_infinite",
    "Hexrd.FitGrains.fit_finite",
    "Hexrd.FitGrains.fit_total"
   ],
   "note": "The search, the solver and chi squared are arguments. An empty list of tolerances is an error (unbound names)."
  },
  {
   "property": "C106",
   "status": "partial",
   "theorems": [
    "Hexrd.FitGrains.serial_spec",
    "Hexrd.FitGrains.pool_spec",
    "Hexrd.FitGrains.subset_partial",
    "Hexrd.FitGrains.subset_fails",
    "Hexrd.FitGrains.subset_swaps",
    "Hexrd.FitGrains.other_numbers_fail"
   ],
   "note": "Rows are looked up by grain number: holds for tables numbered by row, fails or mixes up grains for subsets (subset_fails, subset_swaps) and other numberings (other_numbers_fail). In one process the caller's table is overwritten, on a pool it is not (serial_spec, pool_spec)."
  },
  {
   "property": "C107",
   "status": "partial",
   "theorems": [
    "Hexrd.FitGrains.match_partial",
    "Hexrd.FitGrains.match_period",
    "Hexrd.FitGrains.match_wrong",
    "Hexrd.FitGrains.chi_zero",
    "Hexrd.FitGrains.chi_nonneg_partial",
    "Hexrd.FitGrains.chi_negative"
   ],
   "note": "Without a period, as the fit calls it, omegas more than a turn apart are matched wrongly (match_wrong); chi squared is negative with at most four spots (chi_negative)."
  },
  {
   "property": "C108",
   "status": "partial",
   "theorems": [
    "Hexrd.RFZ.inside_exact_partial",
    "Hexrd.RFZ.inside_hexagonal_partial",
    "Hexrd.RFZ.inside_cubic_partial",
    "Hexrd.RFZ.inside_covers_partial",
    "Hexrd.RFZ.inside_43m",
    "Hexrd.RFZ.inside_orthorhombic",
    "Hexrd.RFZ.inside_trigonal_gap",
    "Hexrd.RFZ.inside_hexagonal_boundary"
   ],
   "note": "Exact for the Laue classes -1, 2/m, 4/m, 4/mmm, -3, 6/m; up to the tolerance for the cubic groups 23, m-3, 432, m-3m; in the interior for 6/mmm (inside_hexagonal_boundary: four pairs of faces are left out on both sides). False for mmm (nothing is accepted, inside_orthorhombic), for -3m (an orientation without accepted equivalent, inside_trigonal_gap) and too wide for -43m (inside_43m)."
  },
  {
   "property": "C109",
   "status": "proved",
   "theorems": [
    "Hexrd.RFZ.sample_perm",
    "Hexrd.RFZ.sample_order",
    "Hexrd.RFZ.sample_reduced_partial",
    "Hexrd.RFZ.ro2qu_represents",
    "Hexrd.RFZ.ro2qu_ax2ro",
    "Hexrd.RFZ.cu2ho_norm",
    "Hexrd.RFZ.cu2ho_ball",
    "Hexrd.RFZ.radius"
   ],
   "note": "The polynomial that gives the angle of a homochoric vector is an argument. sample_reduced_partial is for the point groups with an exact test (C108). That the map from the cube preserves volumes is not proved."
  },
  {
   "property": "C110",
   "status": "partial",
   "theorems": [
    "Hexrd.EOS.pressure_bm3",
    "Hexrd.EOS.volume_spec",
    "Hexrd.EOS.volume_inverse_partial",
    "Hexrd.EOS.volume_total",
    "Hexrd.EOS.volume_tension",
    "Hexrd.EOS.volume_no_root",
    "Hexrd.EOS.lparms0_volume",
    "Hexrd.EOS.lp_volume",
    "Hexrd.EOS.lp_volume_iff",
    "Hexrd.EOS.lp_no_expansion"
   ],
   "note": "Exact roots instead of numpy.roots. Inverse for non-negative pressures and K' at least 4; under tension the pressure is ignored (volume_tension), and with the default moduli a pressure of 100 is ignored (volume_no_root). The cell has the volume of the equation of state only if there is no thermal expansion (lp_volume_iff, lp_no_expansion)."
  },
  {
   "property": "C111",
   "status": "proved",
   "theorems": [
    "Hexrd.Variants.variants_spec",
    "Hexrd.Variants.variants_count",
    "Hexrd.Variants.rmats_orthogonal",
    "Hexrd.Variants.variants_parallel",
    "Hexrd.Variants.removeInversion_spec"
   ],
   "note": "Hypothesis: matrices that the tolerance 1e-6 takes for equal are equal (Separated). The direction has to lie in the plane, which the code does not check: rmats_orthogonal shows that the frame is a rotation only then. A counter of zero cannot occur for groups. The conversion to Cartesian vectors and the plots are not part of the model."
  },
  {
   "property": "C112",
   "status": "partial",
   "theorems": [
    "Hexrd.Jcpds.readOld_spec",
    "Hexrd.Jcpds.readOld_onto",
    "Hexrd.Jcpds.readNew_spec",
    "Hexrd.Jcpds.resetLat_spec",
    "Hexrd.Jcpds.volume_cell",
    "Hexrd.Jcpds.matches_spec",
    "Hexrd.Jcpds.matches_silent",
    "Hexrd.Jcpds.old_trigonal",
    "Hexrd.Jcpds.write_spec",
    "Hexrd.Jcpds.write_valid"
   ],
   "note": "matches_material has no return value when everything matches, so its answer is never true (matches_spec, matches_silent). A trigonal material never matches a card of version 2, 3 or 4 (old_trigonal). The text of the files is taken as split; blank lines, an exception in the keyword format, do not occur; the pressure and temperature parameters are copied and not modelled."
  },
  {
   "property": "C113",
   "status": "partial",
   "theorems": [
    "Hexrd.StructFac.crystal_absent",
    "Hexrd.StructFac.crystal_equivalent",
    "Hexrd.StructFac.absent_zero",
    "Hexrd.StructFac.equivalent_equal",
    "Hexrd.StructFac.origin_free",
    "Hexrd.StructFac.lattice_free",
    "Hexrd.StructFac.friedel",
    "Hexrd.StructFac.friedel_needs_no_absorption",
    "Hexrd.StructFac.raw_bound",
    "Hexrd.StructFac.temperature_bounds",
    "Hexrd.StructFac.intensity_zero_iff",
    "Hexrd.StructFac.orbit_keeps",
    "Hexrd.StructFac.anisotropic_differs"
   ],
   "note": "Real and complex numbers instead of floating point; the interpolation of the anomalous factors is an argument. The positions are those of the orbit computation (C28), with images resolved. Equivalent reflections for isotropic displacements: with anisotropic ones the claim is false of the code (anisotropic_differs), which uses the displacement of one atom for all equivalent ones."
  },
  {
   "property": "C114",
   "status": "partial",
   "theorems": [
    "Hexrd.Rietveld.getTth_bragg",
    "Hexrd.Rietveld.bragg_antitone",
    "Hexrd.Rietveld.calctth_spec",
    "Hexrd.Rietveld.sorted_splits",
    "Hexrd.Rietveld.intensity_pairs",
    "Hexrd.Rietveld.aligned_partial",
    "Hexrd.Rietveld.aligned_iff",
    "Hexrd.Rietveld.misaligned"
   ],
   "note": "True if no reflection lies below the range (aligned_partial). Otherwise false of the code: the structure factors are those of the first reflections of the phase and not of those in the range (intensity_pairs, aligned_iff, misaligned). One phase and one wavelength; texture is left out."
  },
  {
   "property": "C115",
   "status": "partial",
   "theorems": [
    "Hexrd.Rietveld.extinction_spec",
    "Hexrd.Rietveld.laueCoefficient_spec",
    "Hexrd.Rietveld.laueCoefficient_jump",
    "Hexrd.Rietveld.absorption_flat",
    "Hexrd.Rietveld.absorption_tilted",
    "Hexrd.Rietveld.absorption_amplifies"
   ],
   "note": "The bounds and the monotonicity hold. The second expansion of the Laue coefficient has a square where Sabine has a square root (laueCoefficient_jump). The absorption of a tilted plate is the mean transmission divided by a cosine (absorption_tilted) and can exceed one (absorption_amplifies)."
  },
  {
   "property": "C116",
   "status": "partial",
   "theorems": [
    "Hexrd.Stephens.broadening_invariant_partial",
    "Hexrd.Stephens.parameters_complete_partial",
    "Hexrd.Stephens.gammaSqr_quartic",
    "Hexrd.Stephens.fill_spec",
    "Hexrd.Stephens.hexagonal_fails",
    "Hexrd.Stephens.hexagonal_sample",
    "Hexrd.Stephens.required_fails",
    "Hexrd.Stephens.tetragonal_incomplete"
   ],
   "note": "Invariance holds in the five other crystal systems; it is false for hexagonal and trigonal groups, where it holds only if all parameters but that of the axis are zero (hexagonal_fails). For trigonal groups with a primitive lattice there are no parameters: the misspelt key raises (required_fails). Completeness for triclinic, monoclinic, orthorhombic and cubic groups; in the tetragonal Laue class 4/m it is false (tetragonal_incomplete)."
  },
  {
   "property": "C117",
   "status": "partial",
   "theorems": [
    "Hexrd.PowderPeak.pvoight_isPeak",
    "Hexrd.PowderPeak.pvoight_area",
    "Hexrd.PowderPeak.line_isPeak",
    "Hexrd.PowderPeak.gaussianFwhm_pos",
    "Hexrd.PowderPeak.lorentzianFwhm_nonneg",
    "Hexrd.PowderPeak.spectrum_area",
    "Hexrd.PowderPeak.spectrum_order",
    "Hexrd.PowderPeak.spectrum_append",
    "Hexrd.PowderPeak.slit_angles",
    "Hexrd.PowderPeak.funcW_partial",
    "Hexrd.PowderPeak.mixed_area_partial",
    "Hexrd.PowderPeak.strain_widths",
    "Hexrd.PowderPeak.split_centre",
    "Hexrd.PowderPeak.funcW_fails",
    "Hexrd.PowderPeak.fact_fails",
    "Hexrd.PowderPeak.mixed_area_fails"
   ],
   "note": "Proved for the profile without axial divergence. False: strain in the Gaussian part (strain_widths), the split profiles at their centre (split_centre), the weights of axial divergence (funcW_fails, fact_fails), areas below a millionth (mixed_area_fails). The convolutions with exponentials and half Gaussians are not compared with their integrals."
  },
  {
   "property": "C118",
   "status": "partial",
   "theorems": [
    "Hexrd.LeBail.extraction_shares",
    "Hexrd.LeBail.extraction_total",
    "Hexrd.LeBail.extraction_fixed",
    "Hexrd.LeBail.extraction_nonneg",
    "Hexrd.LeBail.extraction_fails",
    "Hexrd.LeBail.iobsArray_fails",
    "Hexrd.LeBail.errvec_squares",
    "Hexrd.LeBail.rwp_spec",
    "Hexrd.LeBail.rwpb_gof_spec",
    "Hexrd.LeBail.rwp_scale",
    "Hexrd.LeBail.perfect_fit",
    "Hexrd.LeBail.extraction_ends",
    "Hexrd.LeBail.extraction_none"
   ],
   "note": "Proved where the simulated pattern is nowhere zero and the number of reflections has not grown; else no value is determined (extraction_fails, iobsArray_fails). False: a perfect fit has the residual infinity (perfect_fit); with a limit of one or more no cycle is run (extraction_none). The minimiser of lmfit is not modelled."
  },
  {
   "property": "C119",
   "status": "partial",
   "theorems": [
    "Hexrd.LeBail.regions_spec",
    "Hexrd.LeBail.join_separate",
    "Hexrd.LeBail.join_map",
    "Hexrd.LeBail.resizeBkg_spec",
    "Hexrd.LeBail.updateShkl_first",
    "Hexrd.LeBail.tthStep_fails",
    "Hexrd.LeBail.updateShkl_leaks"
   ],
   "note": "Regions and background proved. False: the step is too small (tthStep_fails); parameters of earlier phases reach later ones (updateShkl_leaks)."
  },
  {
   "property": "C120",
   "status": "partial",
   "theorems": [
    "Hexrd.Pattern.interp_spec",
    "Hexrd.Pattern.linAt_unique",
    "Hexrd.Pattern.data_plain",
    "Hexrd.Pattern.data_background",
    "Hexrd.Pattern.setBackground_fails",
    "Hexrd.Pattern.setData_data",
    "Hexrd.Pattern.setScaling_nonneg",
    "Hexrd.Pattern.combine_spec",
    "Hexrd.Pattern.combine_fails",
    "Hexrd.Pattern.add_sub",
    "Hexrd.Pattern.limit_spec",
    "Hexrd.Pattern.limit_limit",
    "Hexrd.Pattern.rmul_rmul",
    "Hexrd.Pattern.extend_right",
    "Hexrd.Pattern.extend_left",
    "Hexrd.Pattern.extend_fails",
    "Hexrd.Pattern.rebin_grid",
    "Hexrd.Pattern.rebin_one",
    "Hexrd.Pattern.rebin_total",
    "Hexrd.Pattern.rebin_missing"
   ],
   "note": "False of the code in three places, with witnesses: set_background has no effect on the data (setBackground_fails), two patterns with the same number of points are combined point by point whatever their positions (combine_fails), and extending loses the scaling and the offset (extend_fails). Proved otherwise; the smoothing filter is an argument."
  },
  {
   "property": "C121",
   "status": "partial",
   "theorems": [
    "Hexrd.Params.atomName_inj",
    "Hexrd.Params.qual_inj",
    "Hexrd.Params.getNumber_spec",
    "Hexrd.Params.entries_unique",
    "Hexrd.Params.own_value",
    "Hexrd.Params.setLp_same",
    "Hexrd.Params.setAtom_same",
    "Hexrd.Params.setBack_same",
    "Hexrd.Params.fraction_values",
    "Hexrd.Params.setFractions_sum",
    "Hexrd.Params.setFractions_same",
    "Hexrd.Params.collision_fails",
    "Hexrd.Params.sanitize_fails",
    "Hexrd.Params.outside_fails",
    "Hexrd.Params.recalculated_partial",
    "Hexrd.Params.recalculated_none",
    "Hexrd.Params.recalculated_fails",
    "Hexrd.Params.demo_ok"
   ],
   "note": "Proved for phase names none of which is another followed by _sf or _twin (collision_fails otherwise, sanitize_fails for hyphens) and atoms inside the cell (outside_fails). Recalculation: proved for lattice parameters and the last atom; false for the other atoms (recalculated_fails)."
  },
  {
   "property": "C122",
   "status": "partial",
   "theorems": [
    "Hexrd.Diffuse.agm_volume",
    "Hexrd.Diffuse.zone_mean",
    "Hexrd.Diffuse.warren_mean",
    "Hexrd.Diffuse.contribution_mean",
    "Hexrd.Diffuse.contribution_zero",
    "Hexrd.Diffuse.contribution_zero_fails",
    "Hexrd.Diffuse.bracket_spec",
    "Hexrd.Diffuse.exp2M_temperature",
    "Hexrd.Diffuse.calcTDS_nonneg",
    "Hexrd.Diffuse.calcTDS_partial",
    "Hexrd.Diffuse.calcTDS_fails",
    "Hexrd.Diffuse.expTerm_spec",
    "Hexrd.Diffuse.lineout_same",
    "Hexrd.Diffuse.scale_fails",
    "Hexrd.Diffuse.regrid_spec",
    "Hexrd.Diffuse.gauss_lineout",
    "Hexrd.Diffuse.gauss_half",
    "Hexrd.Diffuse.case_fails",
    "Hexrd.Diffuse.fwhm_fails",
    "Hexrd.Diffuse.doc_spec",
    "Hexrd.Diffuse.am_unique",
    "Hexrd.Diffuse.amSet_same"
   ],
   "note": "False in several places, with witnesses: the minimum of a measured signal is not scaled (scale_fails), with several elements only the last one contributes to the diffuse signal (calcTDS_fails), the term of the direct beam goes on outside its zone (contribution_zero_fails), a model type in capitals gives no signal (case_fails), widths of the wrong size are ignored (fwhm_fails). The filter is an argument; Compton scattering is not modelled."
  },
  {
   "property": "C123",
   "status": "partial",
   "theorems": [
    "Hexrd.Composition.normalize_spec",
    "Hexrd.Composition.numberDensity_spec",
    "Hexrd.Composition.densities_agree",
    "Hexrd.Composition.numberDensity_fails",
    "Hexrd.Composition.factor_means",
    "Hexrd.Composition.variance",
    "Hexrd.Composition.coherent_partial",
    "Hexrd.Composition.coherent_fails",
    "Hexrd.Composition.incoherent_fails"
   ],
   "note": "Proved: normalisation, densities, means. False: the coherent factor has sin(theta)/lambda instead of its square in the exponent (coherent_fails, for every table and every momentum transfer below 4 pi), the incoherent scattering is squared (incoherent_fails), the number density counts formula units, not atoms (numberDensity_fails)."
  },
  {
   "property": "C124",
   "status": "partial",
   "theorems": [
    "Hexrd.Texture.harmonics_family_partial",
    "Hexrd.Texture.intensity_family_partial",
    "Hexrd.Texture.intensity_sample",
    "Hexrd.Texture.blmn_shape",
    "Hexrd.Texture.columns_count",
    "Hexrd.Texture.d3d_fails",
    "Hexrd.Texture.harmonics_exist",
    "Hexrd.Texture.th_degree_fails",
    "Hexrd.Texture.names_nodup",
    "Hexrd.Texture.random_texture",
    "Hexrd.Texture.textureIndex_ge_one",
    "Hexrd.Texture.textureFactor_bounds",
    "Hexrd.Texture.cubic_fails",
    "Hexrd.Texture.third_mem",
    "Hexrd.Texture.monoclinic_fails",
    "Hexrd.Texture.cubic_four_partial",
    "Hexrd.Texture.tables_orthonormal"
   ],
   "note": "Symmetry is proved for every degree for the triclinic, orthorhombic, tetragonal, trigonal and hexagonal groups with the rotations of quatOfLaueGroup; for the cubic group oh only degree 4 (up to 1e-15). False: the cubic tables have a harmonic of degree 2 that is not cubic (cubic_fails), monoclinic harmonics have the wrong twofold axis (monoclinic_fails), d3d has no count (d3d_fails), degree 18 is accepted for th (th_degree_fails)."
  },
  {
   "property": "C125",
   "status": "partial",
   "theorems": [
    "Hexrd.MarchDollase.cos2_angle",
    "Hexrd.MarchDollase.factor_mean",
    "Hexrd.MarchDollase.factor_family",
    "Hexrd.MarchDollase.factor_bounds",
    "Hexrd.MarchDollase.factor_one",
    "Hexrd.MarchDollase.factor_axis_scale",
    "Hexrd.MarchDollase.factor_axis_family",
    "Hexrd.MarchDollase.spacegroup_operators",
    "Hexrd.MarchDollase.march_integral",
    "Hexrd.MarchDollase.setHKL_current",
    "Hexrd.MarchDollase.step_current",
    "Hexrd.MarchDollase.run_current",
    "Hexrd.MarchDollase.calc_result",
    "Hexrd.MarchDollase.rings_constant",
    "Hexrd.MarchDollase.setMaterial_stale",
    "Hexrd.MarchDollase.lattice_change_fails",
    "Hexrd.MarchDollase.parameters_reset_fails"
   ],
   "note": "Proved for all cells, space groups and histories without replacement or editing of the material. Fails when the material changes (lattice_change_fails: stale axis length and factors, as after a refinement of lattice parameters) and for the parameters the model itself generates (parameters_reset_fails: value 1, vary False, whatever is asked)."
  },
  {
   "property": "C126",
   "status": "partial",
   "theorems": [
    "Hexrd.PoleFigure.pole_spec",
    "Hexrd.PoleFigure.pole_again",
    "Hexrd.PoleFigure.pole_scale",
    "Hexrd.PoleFigure.weight_spec",
    "Hexrd.PoleFigure.weights_aligned",
    "Hexrd.PoleFigure.entry_none",
    "Hexrd.PoleFigure.residual_chi",
    "Hexrd.PoleFigure.residual_unusable",
    "Hexrd.PoleFigure.stereo_bounds",
    "Hexrd.PoleFigure.stereo_opposite",
    "Hexrd.PoleFigure.stereo_inverse",
    "Hexrd.PoleFigure.densest_spec",
    "Hexrd.PoleFigure.ring_intensity",
    "Hexrd.PoleFigure.rotation_stale_fails",
    "Hexrd.PoleFigure.cache_first_fails",
    "Hexrd.PoleFigure.degree_raise_fails"
   ],
   "note": "Proved for all data. Fails after the sample rotation is set without assigning the data again (rotation_stale_fails), and for ring intensities after the cell or the greatest degree has changed (cache_first_fails, degree_raise_fails): the harmonics of the reflections are kept from the first calculation."
  },
  {
   "property": "C127",
   "status": "partial",
   "theorems": [
    "Hexrd.Odf.symmetry_accepted",
    "Hexrd.Odf.label_groups",
    "Hexrd.Odf.halfwidth_range",
    "Hexrd.Odf.kernel_shape",
    "Hexrd.Odf.kernel_mean",
    "Hexrd.Odf.kernel_rotations",
    "Hexrd.Odf.kernel_swap",
    "Hexrd.Odf.kernel_invariant",
    "Hexrd.Odf.kernel_bounds",
    "Hexrd.Odf.fast_path",
    "Hexrd.Odf.label_symmetry",
    "Hexrd.Odf.symmetric_mean",
    "Hexrd.Odf.reduced_angle",
    "Hexrd.Odf.eval_reference",
    "Hexrd.Odf.eval_batch",
    "Hexrd.Odf.eval_arrays_refused",
    "Hexrd.Odf.odf_made",
    "Hexrd.Odf.odf_eval",
    "Hexrd.Odf.odf_bounds",
    "Hexrd.Odf.odf_invariant",
    "Hexrd.Odf.odf_mean",
    "Hexrd.Odf.estimated_max",
    "Hexrd.Odf.estimated_max_fails",
    "Hexrd.Odf.array_symmetry_fails",
    "Hexrd.Odf.cubic_example",
    "Hexrd.Odf.mean_example"
   ],
   "note": "Proved for all half-widths and groups. The mean over all rotations is the integral over the angle with density (1 - cos)/pi for the kernel, and for the symmetric kernel and the ODF any linear mean that the operators leave alone. False: estimated_max_value is the largest value at the modes, which is not the maximum (estimated_max_fails); for quaternion arrays that are not a group the value at an orientation depends on whether it is asked alone or in an array (array_symmetry_fails)."
  },
  {
   "property": "C128",
   "status": "proved",
   "theorems": [
    "Hexrd.Odf.batch_eval",
    "Hexrd.Odf.batch_odf",
    "Hexrd.Odf.batch_refused",
    "Hexrd.Odf.sampled_index",
    "Hexrd.Odf.analytic_index",
    "Hexrd.Odf.closed_index"
   ],
   "note": "The random orientations are an argument: the estimate is a function of the sampled values."
  },
  {
   "property": "C129",
   "status": "partial",
   "theorems": [
    "Hexrd.LaueSim.reported_spot",
    "Hexrd.LaueSim.every_spot_reported",
    "Hexrd.LaueSim.reported_order",
    "Hexrd.LaueSim.label_unrotated",
    "Hexrd.LaueSim.friedel_reported",
    "Hexrd.LaueSim.label_fails"
   ],
   "note": "Proved for well posed scenes (beam resolved, rotations, detector not edge on to the crystal position, positive energies) and reflections longer than the tolerance. The last clause is false: which of two opposite reflections is asked for is decided before the crystal is rotated (label_fails), so a reflection is reported that does not diffract while its opposite, which does, is not; the position and energy are right (friedel_reported) and the label is right for an unrotated, unstrained crystal (label_unrotated)."
  },
  {
   "property": "C130",
   "status": "partial",
   "theorems": [
    "Hexrd.LaueSim.residual_pairs",
    "Hexrd.LaueSim.residual_zero_iff",
    "Hexrd.LaueSim.residual_one_predicted",
    "Hexrd.LaueSim.residual_lost",
    "Hexrd.LaueSim.residual_misassigned_fails",
    "Hexrd.LaueSim.stage_fails",
    "Hexrd.LaueSim.demo_predicted",
    "Hexrd.LaueSim.demo_backscatter"
   ],
   "note": "Proved for all picks that are predicted on their detector (residual_pairs, residual_zero_iff). False otherwise: with one prediction left NumPy broadcasting compares every pick with it (residual_one_predicted, residual_misassigned_fails), with none left the residual is empty (residual_lost); and the translation of the sample stage is not passed to the simulation, so picks taken from the simulation of the same instrument give a residual that is not zero (stage_fails)."
  },
  {
   "property": "C131",
   "status": "proved",
   "theorems": [
    "Hexrd.Picks.hkl_string_round_trip",
    "Hexrd.Picks.hkl_string_injective",
    "Hexrd.Picks.grain_picks",
    "Hexrd.Picks.grain_round_trip",
    "Hexrd.Picks.grain_missing",
    "Hexrd.Picks.grain_spelling_fails",
    "Hexrd.Picks.powder_picks",
    "Hexrd.Picks.powder_round_trip",
    "Hexrd.Picks.powder_transfer",
    "Hexrd.Picks.powder_order_fails",
    "Hexrd.Picks.powder_single_index"
   ],
   "note": "Two different spellings of one reflection are two picks for the fit but one for the getter (grain_spelling_fails); a detector without picks makes the getter raise (grain_missing); a transfer between powder calibrators may reorder rows (powder_order_fails)."
  },
  {
   "property": "C132",
   "status": "proved",
   "theorems": [
    "Hexrd.Calib.params_distinct",
    "Hexrd.Calib.grain_reads_own",
    "Hexrd.Calib.grain_round_trip",
    "Hexrd.Calib.force_spec",
    "Hexrd.Calib.fix_strain",
    "Hexrd.Calib.fix_translation",
    "Hexrd.Calib.fix_y",
    "Hexrd.Calib.holds_created",
    "Hexrd.Calib.same_material"
   ],
   "note": "The parameters of the instrument and of the materials are arbitrary lists with distinct names (what they contain is C69); SciPy's conversions of rotations are assumed to be what they say, as in C69."
  },
  {
   "property": "C133",
   "status": "partial",
   "theorems": [
    "Hexrd.PowderCalib.residual_iff",
    "Hexrd.PowderCalib.residual_zero_iff",
    "Hexrd.PowderCalib.residual_nan_iff",
    "Hexrd.PowderCalib.model_on_ring",
    "Hexrd.PowderCalib.evaluate_spec",
    "Hexrd.PowderCalib.evaluate_missing",
    "Hexrd.PowderCalib.all_zero_iff",
    "Hexrd.PowderCalib.tth_tol_fails",
    "Hexrd.PowderCalib.ring_names_inj",
    "Hexrd.PowderCalib.tth_params",
    "Hexrd.PowderCalib.structureless_residual",
    "Hexrd.PowderCalib.initial_residual",
    "Hexrd.PowderCalib.empty_ring_fails"
   ],
   "note": "False in part: the setter of the tolerance ignores its argument (and raises if the material has no width), and a ring that lists panels without any point gets a parameter that is not a number. The points of the picks must be further from the sample than the square root of the smallest resolved squared length, and not on the beam axis."
  },
  {
   "property": "C134",
   "status": "partial",
   "theorems": [
    "Hexrd.GrainFit.predict_spot",
    "Hexrd.GrainFit.predict_truth",
    "Hexrd.GrainFit.row_zero_iff",
    "Hexrd.GrainFit.fit_zero_iff",
    "Hexrd.GrainFit.fit_length",
    "Hexrd.GrainFit.calibration_zero_partial",
    "Hexrd.GrainFit.calibration_tilted_fails",
    "Hexrd.GrainFit.missing_last",
    "Hexrd.GrainFit.missing_first_fails"
   ],
   "note": "Proved for the refinement, with a period of one turn. False of the calibration for any beam that is not along the negative z axis: the beam is passed to the search for omega but not to the projection, so spots that the grain explains never give a zero residual (calibration_tilted_fails, for every other beam). A place that does not exist raises an error only on the last panel with spots (missing_first_fails). The refinement calls the function without a period, for which see C107."
  },
  {
   "property": "C135",
   "status": "proved",
   "theorems": [
    "Hexrd.ColorSpace.hsl2rgb_color",
    "Hexrd.ColorSpace.refused_iff",
    "Hexrd.ColorSpace.rgb2hsl_color",
    "Hexrd.ColorSpace.rgb_round_trip",
    "Hexrd.ColorSpace.near_grey",
    "Hexrd.ColorSpace.hsl_round_trip",
    "Hexrd.ColorSpace.hue_periodic",
    "Hexrd.ColorSpace.argument_changed_fails"
   ],
   "note": "Real arithmetic. The conversion from hue, saturation and lightness also changes the array of the caller (argument_changed_fails), which the documentation does not say."
  },
  {
   "property": "C136",
   "status": "partial",
   "theorems": [
    "Hexrd.Ipf.generated_group_partial",
    "Hexrd.Ipf.generated_kinds_partial",
    "Hexrd.Ipf.kinds_order",
    "Hexrd.Ipf.generated_products",
    "Hexrd.Ipf.generated_group_fails"
   ],
   "note": "Every list is without repetition, contains the generators and consists of products of them; for 28 of the 32 symbols it is a group of the right order. For d4, d2d, d3 and c3v the code leaves out one operator (proved), so the full claim is false for them."
  },
  {
   "property": "C137",
   "status": "partial",
   "theorems": [
    "Hexrd.Ipf.reduce_first",
    "Hexrd.Ipf.reduce_lost",
    "Hexrd.Ipf.reduce_empty",
    "Hexrd.Ipf.sector_reducible",
    "Hexrd.Ipf.reduce_super",
    "Hexrd.Ipf.image_unique",
    "Hexrd.Ipf.reduce_equivalent",
    "Hexrd.Ipf.null_row_lost",
    "Hexrd.Ipf.trigonal_lost_fails",
    "Hexrd.Ipf.c3v_lost_fails"
   ],
   "note": "The bookkeeping of the loop is proved for every list of operators and every sector; that every direction is reduced, and to one image, for the four supergroups. A null direction among others is not refused but its row is missing (null_row_lost). For the Laue class -31m and for the supergroup c3v there are directions without an image (proved), and the rows are lost."
  },
  {
   "property": "C138",
   "status": "partial",
   "theorems": [
    "Hexrd.Ipf.hue_range",
    "Hexrd.Ipf.color_row",
    "Hexrd.Ipf.center_white",
    "Hexrd.Ipf.directions_colored",
    "Hexrd.Ipf.equivalent_color"
   ],
   "note": "Directions within three tolerances of a border of the sector of the supergroup are left out, and so are the triclinic groups and -3, whose colouring sectors are other ones. That the reduction by the smaller Laue group has a direction for each row is a hypothesis (C137 shows where it fails)."
  },
  {
   "property": "C139",
   "status": "partial",
   "theorems": [
    "Hexrd.NearField.any_schedule",
    "Hexrd.NearField.raising_limit",
    "Hexrd.NearField.limited",
    "Hexrd.NearField.limited_fails",
    "Hexrd.NearField.rank_run",
    "Hexrd.NearField.rank_single_fails",
    "Hexrd.NearField.shares_all",
    "Hexrd.NearField.gathered",
    "Hexrd.NearField.root_return_fails",
    "Hexrd.NearField.run_eq"
   ],
   "note": "Proved for one rank and any number of processes, and for several ranks after the gather. Missing because false of the code: with several processes a coordinate limit that cuts a chunk raises (limited_fails); with several MPI ranks and one process the loop runs past the share of a rank unless the chunk divides it (rank_single_fails); rank 0 returns only its own share (root_return_fails)."
  },
  {
   "property": "C140",
   "status": "partial",
   "theorems": [
    "Hexrd.Confidence.confidence_fraction",
    "Hexrd.Confidence.confidence_range",
    "Hexrd.Confidence.early_spot_fails",
    "Hexrd.Confidence.confidence_one",
    "Hexrd.Confidence.confidence_mono",
    "Hexrd.Confidence.dilate_iff",
    "Hexrd.Confidence.dilated_confidence",
    "Hexrd.Confidence.writePixel_bits",
    "Hexrd.Confidence.drawn_bits",
    "Hexrd.Confidence.own_confidence",
    "Hexrd.Confidence.simulated_wide_fails",
    "Hexrd.Confidence.packed_confidence_fails"
   ],
   "note": "The predicted spots are given: the gvec to detector geometry is C07/C08 and the like. That a prediction tested on its own drawing has confidence 1 is proved for the unpacked drawing of the right shape; simulate_diffractions exchanges rows and columns (simulated_wide_fails) and returns packed frames that the test reads as unpacked ones (packed_confidence_fails)."
  },
  {
   "property": "C141",
   "status": "partial",
   "theorems": [
    "Hexrd.GrainMap.grid_axis",
    "Hexrd.GrainMap.grid_voxels",
    "Hexrd.GrainMap.one_voxel",
    "Hexrd.GrainMap.layers_eq",
    "Hexrd.GrainMap.centres_nodup",
    "Hexrd.GrainMap.flatGrid_get",
    "Hexrd.GrainMap.flatGrid_length",
    "Hexrd.GrainMap.tomo_shift"
   ],
   "note": "The claim is proved for bounds that are a whole number of voxels. The tomographic grid is the other one moved by half a voxel (tomo_shift), so the sentence about it is false."
  },
  {
   "property": "C142",
   "status": "partial",
   "theorems": [
    "Hexrd.GrainMap.best_iff",
    "Hexrd.GrainMap.grain_map",
    "Hexrd.GrainMap.remap_partial",
    "Hexrd.GrainMap.remap_highest_fails"
   ],
   "note": "With a table of ids the grain with the greatest number in the map keeps its number (remap_highest_fails): the loop stops one short. All other grains are proved."
  },
  {
   "property": "C143",
   "status": "proved",
   "theorems": [
    "Hexrd.GrainMap.stitched",
    "Hexrd.GrainMap.stitched_offsets",
    "Hexrd.GrainMap.stitch_zero_spacing",
    "Hexrd.GrainMap.cells_eq",
    "Hexrd.GrainMap.cells_valid",
    "Hexrd.GrainMap.ravel_get",
    "Hexrd.GrainMap.number_lt"
   ],
   "note": "Volumes of one shape, with one spacing greater than zero or with one offset for each scan. A single spacing of zero raises. Writing of text is not modelled."
  },
  {
   "property": "C144",
   "status": "partial",
   "theorems": [
    "Hexrd.GrainMap.cut_iff",
    "Hexrd.GrainMap.ori_axis",
    "Hexrd.GrainMap.trial_orientations",
    "Hexrd.GrainMap.id_map_partial",
    "Hexrd.GrainMap.id_map_fails",
    "Hexrd.GrainMap.id_map_short"
   ],
   "note": "For bounds that are a whole number of spacings. The id map is right without misorientation and for one grain with one step; for several grains the ids are in another order than the trials (id_map_fails), and for two steps or more there are too few (id_map_short)."
  },
  {
   "property": "C145",
   "status": "proved",
   "theorems": [
    "Hexrd.Pinhole.layer_angle",
    "Hexrd.Pinhole.passes_iff",
    "Hexrd.Pinhole.layer_reported",
    "Hexrd.Pinhole.pinhole_reported",
    "Hexrd.Pinhole.layer_mono",
    "Hexrd.Pinhole.jhe_origin"
   ],
   "note": "The nominal angle and the direction of a point come from the detector (C07 and others). That the older pinhole correction starts at the wall but not at the back face it names is jhe_origin."
  },
  {
   "property": "C146",
   "status": "proved",
   "theorems": [
    "Hexrd.Pinhole.scatter_eq",
    "Hexrd.Pinhole.seen_iff",
    "Hexrd.Pinhole.weight_pos",
    "Hexrd.Pinhole.axialCount_rows",
    "Hexrd.Pinhole.elements_eq",
    "Hexrd.Pinhole.elements_onWall",
    "Hexrd.Pinhole.mean_angle"
   ],
   "note": "For source and detector off the axis (angles between 0 and 90 degrees) and outside of the pinhole; on the axis the code divides by zero. The clear ways are in the directions from the centre of the pinhole, as the code takes them."
  },
  {
   "property": "C147",
   "status": "partial",
   "theorems": [
    "Hexrd.Pinhole.azimuth_frame",
    "Hexrd.Pinhole.source_azimuth_iff",
    "Hexrd.Pinhole.source_azimuth_fails",
    "Hexrd.Pinhole.camera_places",
    "Hexrd.Pinhole.frame_scattering",
    "Hexrd.Pinhole.lab_angle",
    "Hexrd.Pinhole.panel_first",
    "Hexrd.Pinhole.reports",
    "Hexrd.Pinhole.map_sign_fails"
   ],
   "note": "Proved for beams that lean to the side of positive azimuths. For the others calc_phi_x drops the sign and puts the source on the wrong side (source_azimuth_fails), and the polar map has the opposite sign of the pixel map (map_sign_fails), so the full claim is false of the code."
  },
  {
   "property": "C148",
   "status": "partial",
   "theorems": [
    "Hexrd.Commands.fit_keeps_files",
    "Hexrd.Commands.fit_writes_grains",
    "Hexrd.Commands.fit_source",
    "Hexrd.Commands.fit_runs",
    "Hexrd.Commands.fit_after_find_fails",
    "Hexrd.Commands.force_after_find",
    "Hexrd.Commands.find_keeps_accepted",
    "Hexrd.Commands.find_runs",
    "Hexrd.Commands.find_overwrites_fails",
    "Hexrd.Commands.later_section_fails",
    "Hexrd.Commands.own_orientations_fails"
   ],
   "note": "The source of the orientations is proved for one section. It fails for later sections: they use the orientations of the first, or raise if the first had an estimate. After find-orientations, fit-grains without options always stops, because the search wrote the table of grains. find-orientations overwrites a table of fitted grains when there is no file of accepted orientations."
  },
  {
   "property": "C149",
   "status": "partial",
   "theorems": [
    "Hexrd.Commands.select_iff",
    "Hexrd.Commands.select_select",
    "Hexrd.Commands.written_read_partial",
    "Hexrd.Commands.written_read_one_fails"
   ],
   "note": "Reading back is proved for two grains or more. It fails for one grain: the table is read as a single row and indexing its columns raises."
  },
  {
   "property": "C150",
   "status": "partial",
   "theorems": [
    "Hexrd.Preprocess.processed_frames_partial",
    "Hexrd.Preprocess.processed_iff_partial",
    "Hexrd.Preprocess.processed_start_fails",
    "Hexrd.Preprocess.omega_covers",
    "Hexrd.Preprocess.preprocess_stores_partial",
    "Hexrd.Preprocess.two_panels",
    "Hexrd.Preprocess.preprocess_panel_fails",
    "Hexrd.Preprocess.no_panel",
    "Hexrd.Preprocess.preprocess_capitals_fails"
   ],
   "note": "Proved if the number of frames asked for differs from the number in the file, and if the path of every file has the name of exactly one panel in it. If the numbers are equal, the frames to leave out are not left out and nothing is raised. A panel name elsewhere in the path makes the file be stored with the operations of the wrong panel; a name in capital letters makes it be skipped."
  },
  {
   "property": "C151",
   "status": "proved",
   "theorems": [
    "Hexrd.Special.correction_plus",
    "Hexrd.Special.correction_minus",
    "Hexrd.Special.first_no_pole",
    "Hexrd.Special.wofz_neg",
    "Hexrd.Special.wofz_conj",
    "Hexrd.Special.wofz_real",
    "Hexrd.Special.wofz_imag",
    "Hexrd.Special.wofz_zero",
    "Hexrd.Special.erfc_reflect",
    "Hexrd.Special.erfc_zero",
    "Hexrd.Special.erfc_strictAnti",
    "Hexrd.Special.exp1Series_partial_sum",
    "Hexrd.Special.exp1_deriv",
    "Hexrd.Special.exp1_deriv_limit",
    "Hexrd.Special.lentz_state",
    "Hexrd.Special.lentz_convergent",
    "Hexrd.Special.lentz_real"
   ],
   "note": "Over the real and complex numbers, without rounding and overflow. How close the values are to the true functions is not claimed. For the continued fraction with complex argument no intermediate value may be zero; for real arguments from zero on that is proved."
  },
  {
   "property": "C152",
   "status": "partial",
   "theorems": [
    "Hexrd.MaterialFile.load_dump",
    "Hexrd.MaterialFile.dump_stable",
    "Hexrd.MaterialFile.write_frame",
    "Hexrd.MaterialFile.read_write",
    "Hexrd.MaterialFile.saveAll_read",
    "Hexrd.MaterialFile.dialogue_partial",
    "Hexrd.MaterialFile.dialogue_fits",
    "Hexrd.MaterialFile.none_enabled_fails",
    "Hexrd.MaterialFile.keys_fail",
    "Hexrd.MaterialFile.same_name_fails",
    "Hexrd.MaterialFile.no_atoms_fails",
    "Hexrd.MaterialFile.orthorhombic_fails",
    "Hexrd.MaterialFile.mk_fails",
    "Hexrd.MaterialFile.rhombohedral_fails"
   ],
   "note": "True for a material with atoms and at least one enabled reflection. False when no reflection is enabled (the first five come back enabled), for a material without atoms (the old one is lost), for dictionary keys that are not names, for orthorhombic cells in the dialogue (b is set to c), for mk as a whole (always KeyError, and the old material is lost) and for the rhombohedral setting (numbers 231-237)."
  },
  {
   "property": "C153",
   "status": "partial",
   "theorems": [
    "Hexrd.Tomo.imageNumbers_each",
    "Hexrd.Tomo.axisPos_near",
    "Hexrd.Tomo.attenuation_law",
    "Hexrd.Tomo.attenuation_antitone",
    "Hexrd.Tomo.radiographs_each",
    "Hexrd.Tomo.no_dark_fails",
    "Hexrd.Tomo.angles_even",
    "Hexrd.Tomo.cutRow_symmetric_partial",
    "Hexrd.Tomo.wide_sample_fails",
    "Hexrd.Tomo.noise_partial",
    "Hexrd.Tomo.last_part_fails",
    "Hexrd.Tomo.holes_partial",
    "Hexrd.Tomo.holes_keep",
    "Hexrd.Tomo.last_hole_fails",
    "Hexrd.Tomo.newRows_size",
    "Hexrd.Tomo.crop_size_partial",
    "Hexrd.Tomo.crop_exact_fails",
    "Hexrd.Tomo.mask_coordinates",
    "Hexrd.Tomo.mask_middle_fails"
   ],
   "note": "Proved for a given dark field, for samples narrower than the detector, for all parts and holes but the last, and for layers larger than the sample. False otherwise: without a dark field (the default) it raises; a sample as wide as the detector leaves no column; the last part and the last hole are never cleaned; a layer of the size of the sample is cropped to nothing; the mask is off the middle by half a voxel."
  },
  {
   "property": "C154",
   "status": "partial",
   "theorems": [
    "Hexrd.Include.stem_dotted",
    "Hexrd.Include.stem_outer",
    "Hexrd.Include.array_file",
    "Hexrd.Include.round_trip_iff",
    "Hexrd.Include.round_trip",
    "Hexrd.Include.round_trip_fails",
    "Hexrd.Include.round_trip_case"
   ],
   "note": "Proved for keys that are not empty and have no dot; in general it holds exactly if arrays saved under one name are equal. False for keys that differ only after their last dot: both arrays go to one file and only the last is read back."
  },
  {
   "property": "C155",
   "status": "partial",
   "theorems": [
    "Hexrd.Adapters.words_each",
    "Hexrd.Adapters.iterate_all",
    "Hexrd.Adapters.iterate_raises",
    "Hexrd.Adapters.iterate_fails",
    "Hexrd.Adapters.open_registered",
    "Hexrd.Adapters.open_other",
    "Hexrd.Adapters.open_no_format",
    "Hexrd.Adapters.frame_setting",
    "Hexrd.Adapters.options_last",
    "Hexrd.Adapters.options_copy",
    "Hexrd.Adapters.pickle_frames",
    "Hexrd.Adapters.pickle_metadata_fails",
    "Hexrd.Adapters.stream_iterate",
    "Hexrd.Adapters.func_metadata_fails",
    "Hexrd.Adapters.trigger_read",
    "Hexrd.Adapters.trigger_blank_fails",
    "Hexrd.Adapters.metadata_read",
    "Hexrd.Adapters.metadata_empty_fails",
    "Hexrd.Adapters.metadata_unknown_fails",
    "Hexrd.Adapters.metadata_marker_order",
    "Hexrd.Adapters.metadata_case",
    "Hexrd.Adapters.stream_case"
   ],
   "note": "Proved but for: a frame that raises IndexError ends the iteration silently; changed metadata of a stream are lost when it is sent to another process; metadata given to a function series as documented are dropped; metadata with an empty string cannot be read, unknown triggers lose the value, and file names with blanks are cut."
  },
  {
   "property": "C156",
   "status": "partial",
   "theorems": [
    "Hexrd.PatternFit.shift_region",
    "Hexrd.PatternFit.offset_last",
    "Hexrd.PatternFit.offset_fails",
    "Hexrd.PatternFit.read_array",
    "Hexrd.PatternFit.spectrum_fails",
    "Hexrd.PatternFit.spectrum_stale",
    "Hexrd.PatternFit.background_stretched",
    "Hexrd.PatternFit.background_is_fit",
    "Hexrd.PatternFit.background_linear_iff",
    "Hexrd.PatternFit.background_masked_fails",
    "Hexrd.PatternFit.update_follows",
    "Hexrd.PatternFit.reset_keeps",
    "Hexrd.PatternFit.smaller_degree_raises",
    "Hexrd.PatternFit.phase_name_fails",
    "Hexrd.PatternFit.shape_change",
    "Hexrd.PatternFit.shape_back",
    "Hexrd.PatternFit.shape_back_fails",
    "Hexrd.PatternFit.shape_number",
    "Hexrd.PatternFit.initial_intensity"
   ],
   "note": "A Spectrum assigned to a new object cannot be read (spectrum_fails); with masked ends the background is drawn out (background_masked_fails); parameters of phases with \"bkg\" in the name change the background (phase_name_fails). The least squares fit of the background itself is numpy and not modelled: its coefficients are given."
  },
  {
   "property": "C157",
   "status": "partial",
   "theorems": [
    "Hexrd.Calibrator.make_read",
    "Hexrd.Calibrator.remake_still",
    "Hexrd.Calibrator.reset_remake_still",
    "Hexrd.Calibrator.reset_moves_again",
    "Hexrd.Calibrator.reset_fails",
    "Hexrd.Calibrator.reset_center_fails",
    "Hexrd.Calibrator.calibration_result",
    "Hexrd.Calibrator.residual_mean",
    "Hexrd.Calibrator.improved_iff",
    "Hexrd.Calibrator.options_spec",
    "Hexrd.Calibrator.engineering_spec"
   ],
   "note": "Proved but for: a reset of the constraint without new parameters makes the old parameters move the detectors a second time, and it forgets the centre of rotation; the number of evaluations cannot be given for methods other than least squares (options_spec). Shown for the constraint of the whole instrument; rotation library lawful as in C67."
  },
  {
   "property": "C158",
   "status": "partial",
   "theorems": [
    "Hexrd.InstrFile.scalar_buffer",
    "Hexrd.InstrFile.region_span",
    "Hexrd.InstrFile.panel_round_trip",
    "Hexrd.InstrFile.beams_round_trip",
    "Hexrd.InstrFile.round_trip",
    "Hexrd.InstrFile.written_fails",
    "Hexrd.InstrFile.unwritable_fails",
    "Hexrd.InstrFile.unwritable_read",
    "Hexrd.InstrFile.named_beam_fails",
    "Hexrd.InstrFile.correction_fails",
    "Hexrd.InstrFile.beams_followed",
    "Hexrd.InstrFile.switch_restores",
    "Hexrd.InstrFile.read_follow",
    "Hexrd.InstrFile.foreign_distance_fails",
    "Hexrd.InstrFile.int_distance_fails"
   ],
   "note": "Proved for instruments that can be written, but for: the choice of the active beam, filters, coatings, phosphors and, in YAML, masks are lost (written_fails); the identity distortion and a saturation level of None can be read but not written (unwritable_fails); a single beam with a name of its own comes with a default beam, which is used after writing and reading (named_beam_fails); writing HDF5 empties the energy correction of the instrument itself (correction_fails); distances in numpy integers, as read from HDF5 for Python integers, make setters raise and detectors keep the old distance (foreign_distance_fails, int_distance_fails)."
  },
  {
   "property": "C159",
   "status": "partial",
   "theorems": [
    "Hexrd.Chunks.rects_labels",
    "Hexrd.Chunks.rects_disjoint",
    "Hexrd.Chunks.rects_cover",
    "Hexrd.Chunks.names_inj",
    "Hexrd.Chunks.chips_all",
    "Hexrd.Chunks.chips_lost_fails",
    "Hexrd.Chunks.chip_position_half",
    "Hexrd.Chunks.chip_position_off",
    "Hexrd.Chunks.chip_position_fails",
    "Hexrd.Chunks.chips_relative",
    "Hexrd.Chunks.chip_buffer",
    "Hexrd.Chunks.chip_roi",
    "Hexrd.Chunks.own_images",
    "Hexrd.Chunks.shared_image",
    "Hexrd.Chunks.shared_series",
    "Hexrd.Chunks.pixel_mismatch_fails",
    "Hexrd.Chunks.images_from",
    "Hexrd.Chunks.no_region",
    "Hexrd.Chunks.substring_fails",
    "Hexrd.Chunks.stack_fails",
    "Hexrd.Chunks.angle_in_range_spec",
    "Hexrd.Chunks.centers_spec",
    "Hexrd.Chunks.edges_needed"
   ],
   "note": "Chips keep their shape, pixels, masks and positions relative to each other, but every one is half a pixel off its place on the panel (chip_position_fails). Images may be taken from a detector whose name contains the name asked for, and shared stacks of images raise. Planar panels without distortion; buffers known by name are left out."
  },
  {
   "property": "C160",
   "status": "partial",
   "theorems": [
    "Hexrd.Convolved.exponential_is_fold",
    "Hexrd.Convolved.exponential_error",
    "Hexrd.Convolved.heating_is_half_fold",
    "Hexrd.Convolved.fold_backToBack",
    "Hexrd.Convolved.pink_excess",
    "Hexrd.Convolved.pink_fold_iff",
    "Hexrd.Convolved.pink_fold_fails",
    "Hexrd.Convolved.lorentzian_is_minus_fold",
    "Hexrd.Convolved.lorentzian_sign_fails",
    "Hexrd.Convolved.pink_lorentzian",
    "Hexrd.Convolved.fold_symmetric",
    "Hexrd.Convolved.pink_lorentzian_fails",
    "Hexrd.Convolved.width_fails",
    "Hexrd.Convolved.erfc_zero",
    "Hexrd.Convolved.erfc_pos"
   ],
   "note": "The Gaussian parts for an exponential pulse and for a heated sample are the foldings they should be; the parts for the pink beam are not (pink_fold_fails, pink_lorentzian_fails). The formulas are taken with the exact special functions; exponential_error bounds what an approximation of erfc changes. The Lorentzian part for a heated sample is not modelled."
  },
  {
   "property": "C161",
   "status": "proved",
   "theorems": [
    "Hexrd.Aliases.alias_target",
    "Hexrd.Aliases.alias_total",
    "Hexrd.Aliases.alias_exact",
    "Hexrd.Aliases.findSpec_iff",
    "Hexrd.Aliases.fileMap_eq",
    "Hexrd.Aliases.candidates_mem",
    "Hexrd.Aliases.candidates_eq",
    "Hexrd.Aliases.load_get",
    "Hexrd.Aliases.load_keeps",
    "Hexrd.Aliases.load_again",
    "Hexrd.Aliases.exLines_map",
    "Hexrd.Aliases.exLines_candidates",
    "Hexrd.Aliases.load_leaves_new_fails",
    "Hexrd.Aliases.alias_two_paths_fails"
   ],
   "note": "Names of modules are lists of parts; importing a module is a parameter; __all__ and __path__ are not modelled. Importing an old name adds names to the new module itself, also names of modules below it; two old paths of one name collapse to the later one."
  },
  {
   "property": "C162",
   "status": "proved",
   "theorems": [
    "Hexrd.MatArrays.blockSparse_eq",
    "Hexrd.MatArrays.blockSparse_entry",
    "Hexrd.MatArrays.blockSparse_mult",
    "Hexrd.MatArrays.rankOne_entry",
    "Hexrd.MatArrays.rankOne_apply"
   ],
   "note": "Arrays are functions of their indices over a commutative ring; np.squeeze at the end of rankOneMatrix, which drops dimensions of length one, and rounding are not modelled."
  },
  {
   "property": "C163",
   "status": "partial",
   "theorems": [
    "Hexrd.MatArrays.nullRows_unit",
    "Hexrd.MatArrays.nullRows_orthogonal",
    "Hexrd.MatArrays.nullRows_small",
    "Hexrd.MatArrays.nullRows_complete",
    "Hexrd.MatArrays.nullSpace_wide",
    "Hexrd.MatArrays.svd_row",
    "Hexrd.MatArrays.svd_row_null",
    "Hexrd.MatArrays.nullSpace_tall_fails"
   ],
   "note": "Over the reals; numpy's svd is a parameter assumed to return a decomposition. The claim is proved for matrices that are not taller than wide and false for the others (nullSpace_tall_fails)."
  },
  {
   "property": "C164",
   "status": "partial",
   "theorems": [
    "Hexrd.Spherical.polarPairs_mem",
    "Hexrd.Spherical.etaOmePairs_square_partial",
    "Hexrd.Spherical.outPixel_inside",
    "Hexrd.Spherical.outPixel_affine",
    "Hexrd.Spherical.set_refuses",
    "Hexrd.Spherical.warpMaps_one",
    "Hexrd.Spherical.etaOmePairs_shape_fails",
    "Hexrd.Spherical.etaOmePairs_hidden_fails",
    "Hexrd.Spherical.set_stores_fails",
    "Hexrd.Spherical.warpMaps_several_fails"
   ],
   "note": "The projection is a parameter; the fit of the piecewise affine map and the warp of skimage are not modelled. For maps of eta and omega of another shape, or with hidden points, the pairing is wrong; several maps raise; settings are checked but not stored."
  },
  {
   "property": "C165",
   "status": "partial",
   "theorems": [
    "Hexrd.LeBailCalib.mean_none",
    "Hexrd.LeBailCalib.lineouts_each",
    "Hexrd.LeBailCalib.cut_rows",
    "Hexrd.LeBailCalib.cut_flatten",
    "Hexrd.LeBailCalib.bounds_none",
    "Hexrd.LeBailCalib.full_lineout",
    "Hexrd.LeBailCalib.refineTranslation_spec",
    "Hexrd.LeBailCalib.refineTilt_spec",
    "Hexrd.LeBailCalib.refineInstrument_spec",
    "Hexrd.LeBailCalib.updateInstrument_dets",
    "Hexrd.LeBailCalib.updateInstrument_flag",
    "Hexrd.LeBailCalib.updateShkl_valid",
    "Hexrd.LeBailCalib.updateShkl_zero_partial",
    "Hexrd.LeBailCalib.errvec_squares",
    "Hexrd.LeBailCalib.rwp_perfect",
    "Hexrd.LeBailCalib.getTranslation_fails",
    "Hexrd.LeBailCalib.updateShkl_leak_fails",
    "Hexrd.LeBailCalib.rwp_fails"
   ],
   "note": "Reals for floating point numbers; the number of rows in a step is given (it is rounded from the step); names of parameters are structured, not strings; the spectra, the polar view and the optimizer are not modelled. False: broadening parameters of a phase reach the phases after it, refine_translation returns the flag of the tilts, and the residual reported is not the usual one."
  },
  {
   "property": "C166",
   "status": "partial",
   "theorems": [
    "Hexrd.StackFault.lfact_eq",
    "Hexrd.StackFault.shift_published",
    "Hexrd.StackFault.factors_perm",
    "Hexrd.StackFault.shift_order",
    "Hexrd.StackFault.friedel",
    "Hexrd.StackFault.factors_each",
    "Hexrd.StackFault.select_aligned",
    "Hexrd.StackFault.select_eq",
    "Hexrd.StackFault.faults_linear",
    "Hexrd.StackFault.faults_widen",
    "Hexrd.StackFault.shift_known",
    "Hexrd.StackFault.width_order_fails",
    "Hexrd.StackFault.published_width_order",
    "Hexrd.StackFault.width_fails"
   ],
   "note": "The shift is the published one, for every reflection and order. The width is not: the factor that is used grows with the order of the reflection, and is the same for 111 and 200."
  },
  {
   "property": "C167",
   "status": "partial",
   "theorems": [
    "Hexrd.H5Opts.first_read",
    "Hexrd.H5Opts.chunk_fits",
    "Hexrd.H5Opts.left",
    "Hexrd.H5Opts.second_read_fails",
    "Hexrd.H5Opts.second_explicit_fails",
    "Hexrd.H5Opts.later_reads"
   ],
   "note": "The options mean what is documented the first time they are read. The second time they are gone: the defaults are used, or what an explicit compression had overridden."
  },
  {
   "property": "C168",
   "status": "partial",
   "theorems": [
    "Hexrd.Profiler.imports_longest",
    "Hexrd.Profiler.longest_unique",
    "Hexrd.Profiler.replaced_iff",
    "Hexrd.Profiler.raised_iff",
    "Hexrd.Profiler.parse_each_partial",
    "Hexrd.Profiler.parse_stops_fails"
   ],
   "note": "Functions are found by the longest importable prefix. A name that leads nowhere inside a package is reported and the rest is honoured, but a package that cannot be imported ends the file."
  },
  {
   "property": "C169",
   "status": "partial",
   "theorems": [
    "Hexrd.Scoped.limit_restores",
    "Hexrd.Scoped.limit_result",
    "Hexrd.Scoped.limit_refused",
    "Hexrd.Scoped.noSet_run",
    "Hexrd.Scoped.limit_respected",
    "Hexrd.Scoped.logged_silent",
    "Hexrd.Scoped.plain_run",
    "Hexrd.Scoped.logged_record_partial",
    "Hexrd.Scoped.logged_lost_fails"
   ],
   "note": "Limits of threads hold and are undone in every nesting and with every exception. Output of a block that ends normally becomes one record; output of a block that raises is lost."
  },
  {
   "property": "C170",
   "status": "partial",
   "theorems": [
    "Hexrd.Resolution.maxTth_spec",
    "Hexrd.Resolution.runMin_spec",
    "Hexrd.Resolution.runMax_spec",
    "Hexrd.Resolution.resolution1_spec",
    "Hexrd.Resolution.pixelResolution_spec",
    "Hexrd.Resolution.mem_counted",
    "Hexrd.Resolution.maxResolution_spec",
    "Hexrd.Resolution.highest_agree",
    "Hexrd.Resolution.maxResolution_fails"
   ],
   "note": "The extremes are those of all pixels. With a detector none of whose pixels has a size in both angles there is no answer."
  },
  {
   "property": "C171",
   "status": "partial",
   "theorems": [
    "Hexrd.NfKernels.binary_half_turn",
    "Hexrd.NfKernels.gvec_library",
    "Hexrd.NfKernels.gvecs_library",
    "Hexrd.NfKernels.normalized_direction",
    "Hexrd.NfKernels.toXY_scale",
    "Hexrd.NfKernels.toXY_some_iff",
    "Hexrd.NfKernels.toXY_library_partial",
    "Hexrd.NfKernels.library_toXY_partial",
    "Hexrd.NfKernels.backwards_fails"
   ],
   "note": "The vectors agree always; the positions agree for a detector behind the grain, up to rays within the tolerance of 1e-10. In front of the grain the near-field code gives the backward intersection."
  },
  {
   "property": "C172",
   "status": "partial",
   "theorems": [
    "Hexrd.CellSummary.density_mass",
    "Hexrd.CellSummary.avA_mean",
    "Hexrd.CellSummary.density_split",
    "Hexrd.CellSummary.avA_bounds",
    "Hexrd.CellSummary.avZ_mean_partial",
    "Hexrd.CellSummary.avZ_fails",
    "Hexrd.CellSummary.below_file",
    "Hexrd.CellSummary.below_partial",
    "Hexrd.CellSummary.below_first_fails",
    "Hexrd.CellSummary.below_mono",
    "Hexrd.CellSummary.primary_axis",
    "Hexrd.CellSummary.secondary_axis",
    "Hexrd.CellSummary.tertiary_axis_partial",
    "Hexrd.CellSummary.orthorhombic_fails"
   ],
   "note": "Density and mean weight are right. The mean atomic number ignores occupations, the first reflection is enabled whatever its angle, and the third direction of orthorhombic crystals is no axis."
  },
  {
   "property": "C173",
   "status": "partial",
   "theorems": [
    "Hexrd.NamedBuffer.fromStr_shape",
    "Hexrd.NamedBuffer.fromStr_whole",
    "Hexrd.NamedBuffer.fromStr_region",
    "Hexrd.NamedBuffer.fromStr_refused_partial",
    "Hexrd.NamedBuffer.negative_fails",
    "Hexrd.NamedBuffer.stale_fails"
   ],
   "note": "The mask has the right size and part for all regions inside it, and regions outside it are refused unless they end before the mask, where they wrap around. A region keeps its size when the rows of the detector change."
  },
  {
   "property": "C174",
   "status": "partial",
   "theorems": [
    "Hexrd.CheckRun.handle_spec",
    "Hexrd.CheckRun.handle_error",
    "Hexrd.CheckRun.handle_self",
    "Hexrd.CheckRun.empty_fails"
   ],
   "note": "The verdicts are characterised for all results and references. A run with fewer results than the reference, even none, passes in full."
  },
  {
   "property": "C175",
   "status": "partial",
   "theorems": [
    "Hexrd.FrameMemo.run_files",
    "Hexrd.FrameMemo.read_fresh_partial",
    "Hexrd.FrameMemo.read_current_partial",
    "Hexrd.FrameMemo.result_quiet",
    "Hexrd.FrameMemo.cache_bounded",
    "Hexrd.FrameMemo.tick_fails",
    "Hexrd.FrameMemo.removed_fails",
    "Hexrd.FrameMemo.header_fails"
   ],
   "note": "Proved for all histories in which a file that is saved again has another time or another size and the file is there when the read begins. Without these a stale entry can be given; and what was read on opening is not compared with the file at the first read."
  },
  {
   "property": "C176",
   "status": "partial",
   "theorems": [
    "Hexrd.AtomData.setAtomdata_iff",
    "Hexrd.AtomData.setAtomdata_refused_partial",
    "Hexrd.AtomData.setAtomdata_half_fails",
    "Hexrd.AtomData.cellKeep_atoms",
    "Hexrd.AtomData.cellKeep_valid",
    "Hexrd.AtomData.removeDuplicates_partial",
    "Hexrd.AtomData.removeDuplicates_fails"
   ],
   "note": "Success is characterised. A charge that is refused leaves the material half changed, and after the removal of duplicates the material keeps the displacement parameters of the removed atoms, which the next cell gives to the wrong atoms."
  },
  {
   "property": "C177",
   "status": "partial",
   "theorems": [
    "Hexrd.EulerClass.create_iff",
    "Hexrd.EulerClass.rot_sense",
    "Hexrd.EulerClass.extrinsic_turns",
    "Hexrd.EulerClass.rot_rotation",
    "Hexrd.EulerClass.makeRmat_rotation",
    "Hexrd.EulerClass.intrinsic_extrinsic",
    "Hexrd.EulerClass.rot_turn",
    "Hexrd.EulerClass.makeRmat_inverse",
    "Hexrd.EulerClass.units_keep_partial",
    "Hexrd.EulerClass.setUnits_iff",
    "Hexrd.EulerClass.setRmat_getRmat",
    "Hexrd.EulerClass.create_rmat_partial",
    "Hexrd.EulerClass.letters_fails",
    "Hexrd.EulerClass.list_fails"
   ],
   "note": "Proved for units written in small letters and angles in an array. Other letters are accepted and taken as radians; a list of angles in degrees is accepted and gives no matrix. The angles that scipy finds for a matrix are assumed to give that matrix."
  },
  {
   "property": "C178",
   "status": "proved",
   "theorems": [
    "Hexrd.LayerAttrs.set_get",
    "Hexrd.LayerAttrs.after_layer",
    "Hexrd.LayerAttrs.serialize_deserialize",
    "Hexrd.LayerAttrs.misspelt_fails"
   ],
   "note": "Names with one underscore; values of any type with half (double v) = v. The read-only property sample_diameter of the HEDM package is not modelled. misspelt_fails: a name that is no field is accepted and nothing else changes."
  },
  {
   "property": "C179",
   "status": "partial",
   "theorems": [
    "Hexrd.ImsConfig.images_last",
    "Hexrd.ImsConfig.images_each_partial",
    "Hexrd.ImsConfig.own_entry_partial",
    "Hexrd.ImsConfig.listed_entry_partial",
    "Hexrd.ImsConfig.shared_entry_partial",
    "Hexrd.ImsConfig.overwritten_fails",
    "Hexrd.ImsConfig.joined_fails"
   ],
   "note": "Proved for entries with different keys. Two entries with the same key, as two without a panel or two lists of panels whose joined names agree, are not refused: the images of the first are dropped."
  },
  {
   "property": "C180",
   "status": "partial",
   "theorems": [
    "Hexrd.ClusterParams.reflections_eq",
    "Hexrd.ClusterParams.seedReflections_partial",
    "Hexrd.ClusterParams.minSamples_iff",
    "Hexrd.ClusterParams.minSamples_some",
    "Hexrd.ClusterParams.complete_enough",
    "Hexrd.ClusterParams.minSamples_mono",
    "Hexrd.ClusterParams.meanRpg_spec",
    "Hexrd.ClusterParams.meanRpg_tie",
    "Hexrd.ClusterParams.seedIds_spec",
    "Hexrd.ClusterParams.parameters_partial",
    "Hexrd.ClusterParams.parameters_perm",
    "Hexrd.ClusterParams.twice_fails"
   ],
   "note": "For different seeds; the simulation itself is modelled elsewhere and its lists of reflections are arguments. Seeds that are given twice are counted twice."
  },
  {
   "property": "C181",
   "status": "partial",
   "theorems": [
    "Hexrd.OutFiles.kinds_distinct",
    "Hexrd.OutFiles.new_injective",
    "Hexrd.OutFiles.old_injective_partial",
    "Hexrd.OutFiles.spaces_ends",
    "Hexrd.OutFiles.maps_named",
    "Hexrd.OutFiles.underscore_fails",
    "Hexrd.OutFiles.space_fails",
    "Hexrd.OutFiles.grains_shared_fails"
   ],
   "note": "Names of analyses that are absolute or have empty parts are not modelled. With underscores the old placement mixes up analyses; spaces and hyphens are not told apart; the grains of all materials of an analysis are one file."
  }
 ]
}