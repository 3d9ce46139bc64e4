{
 "claims": [
  {
   "property": "C01",
   "status": "proved",
   "theorems": [
    "Beyonce.C01_number_ok_iff",
    "Beyonce.C01_number_errors"
   ],
   "note": "all Python values of the model, all bounds and flags"
  },
  {
   "property": "C02",
   "status": "partial",
   "theorems": [
    "Beyonce.C02_accepted_in_bounds_partial",
    "Beyonce.C02_nan_accepted",
    "Beyonce.C02_false"
   ],
   "note": "holds for every value that is not NaN; C02_false is the counterexample with NaN"
  },
  {
   "property": "C03",
   "status": "proved",
   "theorems": [
    "Beyonce.C03_array_ok_iff",
    "Beyonce.C03_bounds_first"
   ],
   "note": "all arrays, bounds, dimensions, dtypes; error order for bounds shown by C03_bounds_first"
  },
  {
   "property": "C04",
   "status": "proved",
   "theorems": [
    "Beyonce.C04_sameShapeArrays_iff"
   ],
   "note": "all lists of values"
  },
  {
   "property": "C05",
   "status": "partial",
   "theorems": [
    "Beyonce.C05_ring_always_valid_partial",
    "Beyonce.C05_false"
   ],
   "note": "holds for all histories without NaN arguments; C05_false is the counterexample with NaN"
  },
  {
   "property": "C06",
   "status": "proved",
   "theorems": [
    "Beyonce.C06_failed_setter_changes_nothing",
    "Beyonce.C06_successful_setter_sets_one_attribute",
    "Beyonce.C06_setter_succeeds_iff"
   ],
   "note": "all states and arguments"
  },
  {
   "property": "C07",
   "status": "proved",
   "theorems": [
    "Beyonce.C07_patch_exists",
    "Beyonce.C07_on_ellipse",
    "Beyonce.C07_onto",
    "Beyonce.C07_opposite_orientation",
    "Beyonce.C07_inner_inside",
    "Beyonce.C07_curves"
   ],
   "note": "real arithmetic; finite rings and shifts; all path vertices and Bezier segments"
  },
  {
   "property": "C08",
   "status": "proved",
   "theorems": [
    "Beyonce.C08_constructor",
    "Beyonce.C08_step",
    "Beyonce.C08_rings_never_overlap"
   ],
   "note": "value-level ring systems (no shared ring objects, see C09); exact arithmetic; all histories"
  },
  {
   "property": "C09",
   "status": "partial",
   "theorems": [
    "Beyonce.C09_no_overlap_partial",
    "Beyonce.C09_false_constructor",
    "Beyonce.C09_false_edit"
   ],
   "note": "holds for all disciplined histories (no sharing of ring objects, edits keep order); C09_false_constructor and C09_false_edit are the counterexamples"
  },
  {
   "property": "C10",
   "status": "partial",
   "theorems": [
    "Beyonce.C10_same_geometry_partial",
    "Beyonce.C10_false_sharing",
    "Beyonce.C10_false_attribute"
   ],
   "note": "holds for histories without sharing and without direct assignment to the plain attributes; C10_false_sharing and C10_false_attribute are the counterexamples"
  },
  {
   "property": "C11",
   "status": "proved",
   "theorems": [
    "Beyonce.C11_add_ring_ok_iff",
    "Beyonce.C11_add_ring_effect",
    "Beyonce.C11_add_ring_error"
   ],
   "note": "integer indices; for bool see C69"
  },
  {
   "property": "C12",
   "status": "proved",
   "theorems": [
    "Beyonce.C12_remove_ring",
    "Beyonce.C12_remove_undoes_add"
   ],
   "note": "integer indices; for bool see C69"
  },
  {
   "property": "C13",
   "status": "proved",
   "theorems": [
    "Beyonce.C13_replace_ring_ok_iff",
    "Beyonce.C13_replace_ring_effect",
    "Beyonce.C13_replace_ring_error"
   ],
   "note": "integer indices; for bool see C69"
  },
  {
   "property": "C14",
   "status": "proved",
   "theorems": [
    "Beyonce.C14_split_rings_parts",
    "Beyonce.C14_parts_cover",
    "Beyonce.C14_profile_unchanged",
    "Beyonce.C14_number_of_rings",
    "Beyonce.C14_parts_touch"
   ],
   "note": "exact arithmetic"
  },
  {
   "property": "C15",
   "status": "partial",
   "theorems": [
    "Beyonce.C15_gap_partial",
    "Beyonce.C15_ringlets_adjacent_in_double",
    "Beyonce.C15_false"
   ],
   "note": "facing edges of ringlets agree up to 6u times the outer radius for any rounding; adjacent for merge_rings in binary64 up to radius 1e8; the strict no-overlap claim is false (C15_false)"
  },
  {
   "property": "C16",
   "status": "proved",
   "theorems": [
    "Beyonce.C16_merge_rings_runs",
    "Beyonce.C16_profile_unchanged"
   ],
   "note": "exact arithmetic"
  },
  {
   "property": "C17",
   "status": "proved",
   "theorems": [
    "Beyonce.C17_merge_idempotent"
   ],
   "note": "exact arithmetic"
  },
  {
   "property": "C18",
   "status": "proved",
   "theorems": [
    "Beyonce.C18_merge_undoes_split"
   ],
   "note": "exact arithmetic"
  },
  {
   "property": "C19",
   "status": "proved",
   "theorems": [
    "Beyonce.C19_merge_error_unchanged",
    "Beyonce.C19_split_error_unchanged",
    "Beyonce.C19_merge_bad_tolerance",
    "Beyonce.C19_merge_empty",
    "Beyonce.C19_merge_succeeds",
    "Beyonce.C19_split_small_integer",
    "Beyonce.C19_split_small_element",
    "Beyonce.C19_split_wrong_length"
   ],
   "note": "exact arithmetic, all states and arguments"
  },
  {
   "property": "C20",
   "status": "partial",
   "theorems": [
    "Beyonce.C20_plot_limits_partial",
    "Beyonce.C20_false"
   ],
   "note": "x limits and lower y limit correct, upper y limit correct iff the shifts agree; C20_false is the counterexample"
  },
  {
   "property": "C21",
   "status": "proved",
   "theorems": [
    "Beyonce.C21_constructor_iff",
    "Beyonce.C21_vectors"
   ],
   "note": "Constructor accepts exactly the valid arguments and stores the evenly spaced vectors."
  },
  {
   "property": "C22",
   "status": "proved",
   "theorems": [
    "Beyonce.C22_rf_array"
   ],
   "note": "rf array exact, for every valid grid."
  },
  {
   "property": "C23",
   "status": "proved",
   "theorems": [
    "Beyonce.C23_extend_mirrors"
   ],
   "note": "Extension mirrors both axes; for every extendable grid."
  },
  {
   "property": "C24",
   "status": "partial",
   "theorems": [
    "Beyonce.C24_extend_atomic_partial",
    "Beyonce.C24_not_extendable",
    "Beyonce.C24_false"
   ],
   "note": "False in general: with a single y point the x axis is already mirrored when the y axis raises (C24_false). Proved: atomic for every grid with more than one y point; a non-extendable grid raises and is unchanged."
  },
  {
   "property": "C25",
   "status": "partial",
   "theorems": [
    "Beyonce.C25_round_trip_partial",
    "Beyonce.C25_consistent",
    "Beyonce.C25_save_succeeds",
    "Beyonce.C25_saving_elsewhere",
    "Beyonce.C25_false"
   ],
   "note": "Round trip proved for every grid whose fields agree with each other (constructed, extended, loaded); false for a grid left half-extended by C24 (C25_false)."
  },
  {
   "property": "C26",
   "status": "partial",
   "theorems": [
    "Beyonce.C26_crash_fresh_partial",
    "Beyonce.C26_crash_overwrite_mix",
    "Beyonce.C26_false"
   ],
   "note": "Crash while saving into an empty directory is detected by load; crash while overwriting can leave a loadable mix (C26_false); C26_crash_overwrite_mix says exactly which mixes."
  },
  {
   "property": "C27",
   "status": "proved",
   "theorems": [
    "Beyonce.C27_save_ok_iff",
    "Beyonce.C27_get_after_save",
    "Beyonce.C27_get_errors",
    "Beyonce.C27_history",
    "Beyonce.C27_bool_is_not_its_integer"
   ],
   "note": "Map laws for save/get, errors leave the object unchanged, and a history theorem for arbitrary call sequences."
  },
  {
   "property": "C28",
   "status": "partial",
   "theorems": [
    "Beyonce.C28_no_save_after_extend",
    "Beyonce.C28_lookup_partial",
    "Beyonce.C28_false_everywhere",
    "Beyonce.C28_false"
   ],
   "note": "False for every index: the lookup uses |i-ny| instead of |i-(ny-1)| (C28_false, C28_false_everywhere). Proved: what the lookup reads, and that nothing can be saved after extension."
  },
  {
   "property": "C29",
   "status": "partial",
   "theorems": [
    "Beyonce.C29_round_trip_partial",
    "Beyonce.C29_false"
   ],
   "note": "Round trip proved before extension; false after it, the flag is not saved (C29_false)."
  },
  {
   "property": "C30",
   "status": "proved",
   "theorems": [
    "Beyonce.C30_masked_read",
    "Beyonce.C30_set_mask_iff",
    "Beyonce.C30_unmasked_read"
   ],
   "note": "all cubes and masks"
  },
  {
   "property": "C31",
   "status": "partial",
   "theorems": [
    "Beyonce.C31_value_or_nan",
    "Beyonce.C31_unmarked_kept",
    "Beyonce.C31_no_masked_read_partial",
    "Beyonce.C31_exact",
    "Beyonce.C31_false"
   ],
   "note": "False: a masked read overwrites the stored data (C31_false). Proved: all histories without a masked read; every element is always its original value or NaN; elements no mask marks are kept; and exactly (C31_exact): after any history an element is NaN if the mask in force at some masked read marked it, and otherwise what it was at the start."
  },
  {
   "property": "C32",
   "status": "partial",
   "theorems": [
    "Beyonce.C32_round_trip_partial",
    "Beyonce.C32_constructed",
    "Beyonce.C32_false",
    "Beyonce.C32_false_shape"
   ],
   "note": "False when the directory holds a stale mask file (C32_false, C32_false_shape). Proved for every other directory content."
  },
  {
   "property": "C33",
   "status": "proved",
   "theorems": [
    "Beyonce.C33_contrast"
   ],
   "note": "all cubes"
  },
  {
   "property": "C34",
   "status": "proved",
   "theorems": [
    "Beyonce.C34_determine_mask",
    "Beyonce.C34_succeeds_iff"
   ],
   "note": "all cubes and arguments, including NaN, infinite and zero arguments"
  },
  {
   "property": "C35",
   "status": "proved",
   "theorems": [
    "Beyonce.C35_monotone"
   ],
   "note": "all ordered pairs of finite arguments; t = 0 (numpy only) for data without negative elements"
  },
  {
   "property": "C36",
   "status": "partial",
   "theorems": [
    "Beyonce.C36_error_keeps_mask_partial",
    "Beyonce.C36_exact",
    "Beyonce.C36_false"
   ],
   "note": "False: a call that raises leaves the new values beside the old mask (C36_false). Proved: data, mask, position never change on error; each stored value is the old or the new one; C36_exact says exactly which are new: the arguments up to the first that is not accepted."
  },
  {
   "property": "C37",
   "status": "partial",
   "theorems": [
    "Beyonce.C37_round_trip_partial",
    "Beyonce.C37_unmasked",
    "Beyonce.C37_own_directory",
    "Beyonce.C37_false_set_mask",
    "Beyonce.C37_false_stale",
    "Beyonce.C37_false_collision",
    "Beyonce.C37_false_bool"
   ],
   "note": "Proved for gradients whose mask comes from determine_mask, over any previous directory content, and for fresh gradients; positions more than 0.0001 apart never share a directory. False for set_mask masks, stale mask_values, Boolean positions and positions that agree to four decimals (C37_false_*)."
  },
  {
   "property": "C38",
   "status": "proved",
   "theorems": [
    "Beyonce.C38_union"
   ],
   "note": "For every grid whose arrays have the grid's shape (kept by every method, Sound.lean) the combined mask exists and is true exactly where one of the masks is."
  },
  {
   "property": "C39",
   "status": "proved",
   "theorems": [
    "Beyonce.C39_never_unmasks",
    "Beyonce.C39_defaults",
    "Beyonce.C39_succeeds",
    "Beyonce.C39_order"
   ],
   "note": "Same combined mask for every permutation and every split into calls; never unmasks; success is independent of order too."
  },
  {
   "property": "C40",
   "status": "partial",
   "theorems": [
    "Beyonce.C40_false_witness",
    "Beyonce.C40_removes_partial",
    "Beyonce.C40_false",
    "Beyonce.C40_false_last",
    "Beyonce.C40_false_empty",
    "Beyonce.C40_exact"
   ],
   "note": "False with a repeated position (C40_false, C40_false_last) and for an empty gradient list. Proved: for distinct positions in range exactly the others stay, in order, fit cleared; and exactly (C40_exact) what any positions in range do: repeated ones take the next gradients that are left, as in linear probing, and too many from some place on raise IndexError with the fit kept and the gradients before that place left."
  },
  {
   "property": "C41",
   "status": "partial",
   "theorems": [
    "Beyonce.C41_partial",
    "Beyonce.C41_false",
    "Beyonce.C41_false_witness",
    "Beyonce.C41_clean_partial",
    "Beyonce.C41_exact"
   ],
   "note": "Holds for every history in which calls that raise leave the gradients as they were (C41_clean_partial; with all calls succeeding C41_partial), up to elements that masked reads or extraction turned into NaN; false after add_gradients raised (C41_false). C41_exact holds for every history: a stored fit is that of the gradients at the last effective determine_gradient_fit."
  },
  {
   "property": "C42",
   "status": "partial",
   "theorems": [
    "Beyonce.C42_exact",
    "Beyonce.C42_fails_iff",
    "Beyonce.C42_masks",
    "Beyonce.C42_partial",
    "Beyonce.C42_false"
   ],
   "note": "False of the code: gradients without mask and measured value stay after a late failure (C42_false). C42_exact says what every failing call leaves, C42_fails_iff when a gradient fails, C42_masks which of them have masks."
  },
  {
   "property": "C43",
   "status": "partial",
   "theorems": [
    "Beyonce.C43_reads_partial",
    "Beyonce.C43_plain_partial",
    "Beyonce.C43_false",
    "Beyonce.C43_false_hill",
    "Beyonce.C43_false_witness",
    "Beyonce.C43_exact"
   ],
   "note": "False of the code: a masked read writes NaN into the stored array (C43_false, C43_false_witness, C43_false_hill). Proved: reads change nothing but data under masks (C43_reads_partial), reads without masks change nothing (C43_plain_partial), and exactly which elements any sequence of getter calls turns into NaN (C43_exact)."
  },
  {
   "property": "C44",
   "status": "proved",
   "theorems": [
    "Beyonce.C44_exact",
    "Beyonce.C44_monotone"
   ],
   "note": "Success, exact mask, frame and monotonicity."
  },
  {
   "property": "C45",
   "status": "partial",
   "theorems": [
    "Beyonce.C45_best_partial",
    "Beyonce.C45_count",
    "Beyonce.C45_measured",
    "Beyonce.C45_false",
    "Beyonce.C45_exact",
    "Beyonce.C45_false_witness"
   ],
   "note": "False with infinite fits: one grid point is returned twice (C45_false). C45_best_partial proves it where the fits of the unmasked elements are finite, which holds for finite slopes, positive errors and transmissions (C45_measured); C45_exact says exactly what is returned, or that it raises, whatever the fits are."
  },
  {
   "property": "C46",
   "status": "partial",
   "theorems": [
    "Beyonce.C46_refit",
    "Beyonce.C46_next_partial",
    "Beyonce.C46_false"
   ],
   "note": "false: the second call gives the next best points (C46_next_partial), asking for all twice raises (C46_false); after the fit is made anew the answer is that of the first call (C46_refit)"
  },
  {
   "property": "C47",
   "status": "partial",
   "theorems": [
    "Beyonce.C47_closest_partial",
    "Beyonce.C47_first_row_partial",
    "Beyonce.C47_false",
    "Beyonce.C47_near_partial",
    "Beyonce.C47_false_witness"
   ],
   "note": "Holds with the row positions the code computes; distance 0 for the first row, and right up to twice the row spacing. Refuted for the last row (C47_false with witness)."
  },
  {
   "property": "C48",
   "status": "partial",
   "theorems": [
    "Beyonce.C48_exact",
    "Beyonce.C48_outside_partial",
    "Beyonce.C48_false"
   ],
   "note": "False for an index equal to the axis length, which is an IndexError (C48_false). C48_exact says for all integer indices which error there is, or that there is none."
  },
  {
   "property": "C49",
   "status": "partial",
   "theorems": [
    "Beyonce.C49_false_witness",
    "Beyonce.C49_partial",
    "Beyonce.C49_false",
    "Beyonce.C49_exact"
   ],
   "note": "Success path proved for every grid in which no gradients means no fit (kept by C41); false on the raising path (C49_false). C49_exact says what is stored for all arguments."
  },
  {
   "property": "C50",
   "status": "proved",
   "theorems": [
    "Beyonce.C50_as_new",
    "Beyonce.C50_readd"
   ],
   "note": "After update_scaling every stored gradient is what add_gradient would have stored with the new velocity and the new transmission, and re-adding gives the same grid."
  },
  {
   "property": "C51",
   "status": "proved",
   "theorems": [
    "Beyonce.C51_through_ends"
   ],
   "note": "For all real dx, dy, fx, fy > 0 related as _determine_fx and _determine_fy relate them (C54), off the axis and at the origin. Exact real arithmetic."
  },
  {
   "property": "C52",
   "status": "proved",
   "theorems": [
    "Beyonce.C52_axes"
   ],
   "note": "For all fx, fy, circular radius > 0 and any shear, over the real numbers."
  },
  {
   "property": "C53",
   "status": "proved",
   "theorems": [
    "Beyonce.C53_same_ellipse",
    "Beyonce.C53_reported_disk"
   ],
   "note": "Equality of the two curves, and through (\u00b11/2, 0) for every grid point with a number for fx."
  },
  {
   "property": "C54",
   "status": "proved",
   "theorems": [
    "Beyonce.C54_fx",
    "Beyonce.C54_fy",
    "Beyonce.C54_inverse",
    "Beyonce.C54_origin"
   ],
   "note": "Including the axis dy = 0."
  },
  {
   "property": "C55",
   "status": "proved",
   "theorems": [
    "Beyonce.C55_exists",
    "Beyonce.C55_gradient",
    "Beyonce.C55_centre"
   ],
   "note": "Tangent of the scaled ellipse as derivative of its parametrisation; every point but the centre lies on one scaled ellipse."
  },
  {
   "property": "C56",
   "status": "proved",
   "theorems": [
    "Beyonce.C56_direct",
    "Beyonce.C56_mirror",
    "Beyonce.C56_extend",
    "Beyonce.C56_not_extended",
    "Beyonce.C56_axis"
   ],
   "note": "Mirroring over any field and size (the row and column through the centre, where two quadrants meet, take the value of the negative side; C56_axis shows that this is the same direction on dx = 0); direct evaluation over the real numbers."
  },
  {
   "property": "C57",
   "status": "proved",
   "theorems": [
    "Beyonce.C57_grid",
    "Beyonce.C57_cell"
   ],
   "note": "per cell: C57_cell; for the complete grid including mirroring and the diagnostic map: C57_grid"
  },
  {
   "property": "C58",
   "status": "proved",
   "theorems": [
    "Beyonce.C58_converges_horizontally",
    "Beyonce.C58_converges_vertically",
    "Beyonce.C58_column",
    "Beyonce.C58_horizontal",
    "Beyonce.C58_vertical",
    "Beyonce.C58_infinite",
    "Beyonce.C58_ends"
   ],
   "note": "Both loops end for every cell; exact account of when they return or raise for finite maxima, of NaN and infinite maxima, and a sufficient condition for success (C58_converges...)."
  },
  {
   "property": "C59",
   "status": "proved",
   "theorems": [
    "Beyonce.C59_interp",
    "Beyonce.C59_linear",
    "Beyonce.C59_scales",
    "Beyonce.C59_piecewise"
   ],
   "note": "np.interp's C code transcribed. Between two samples of its side or NaN; on strictly increasing fractions the piecewise linear function."
  },
  {
   "property": "C60",
   "status": "proved",
   "theorems": [
    "Beyonce.C60_grid",
    "Beyonce.C60_orbital_scale"
   ],
   "note": "Over the real numbers."
  },
  {
   "property": "C61",
   "status": "proved",
   "theorems": [
    "Beyonce.C61_existing",
    "Beyonce.C61_nothing_changes"
   ],
   "note": "For every rooted file system and every grid: saving to an existing path other than the temporary directory raises FileExistsError and changes nothing."
  },
  {
   "property": "C62",
   "status": "partial",
   "theorems": [
    "Beyonce.C62_histories_partial",
    "Beyonce.C62_false",
    "Beyonce.C62_false_nan",
    "Beyonce.C62_round_trip_partial",
    "Beyonce.C62_false_undefined"
   ],
   "note": "FALSE of the code, proved so: C62_false (a grid with one gradient loads without gradients), C62_false_nan and C62_false_undefined (with a gradient at a position that is not finite load raises AttributeError). Proved instead: for every tidy grid without diagnostics, and for every grid made by the constructor and changed by any history of API calls, saving to a new directory and loading gives the same parameters and cubes, num_fxfy as a numpy int, and no gradients."
  },
  {
   "property": "C63",
   "status": "proved",
   "theorems": [
    "Beyonce.C63_resume",
    "Beyonce.C63_can_resume"
   ],
   "note": "C63_resume: whatever load returns for a copy of the temporary directory is the uninterrupted grid. C63_can_resume: without a torn write, once the first row is saved, load does return it. Limits, stated in the property: a crash before the first file operation leaves an older build's files; num_fxfy comes back as a numpy int; a bool num_fxfy is excluded. The directory has to be copied because load deletes the original (C64)."
  },
  {
   "property": "C64",
   "status": "partial",
   "theorems": [
    "Beyonce.C64_false_any_build",
    "Beyonce.C64_false"
   ],
   "note": "FALSE, proved so: loading the temporary directory always raises and deletes the checkpoint; any completed build deletes it."
  },
  {
   "property": "C65",
   "status": "partial",
   "theorems": [
    "Beyonce.C65_false_build",
    "Beyonce.C65_without_partial",
    "Beyonce.C65_false",
    "Beyonce.C65_never"
   ],
   "note": "FALSE, proved so: saving a grid with diagnostics to a new directory always raises TypeError, and an intermittently saved build with diagnostics always fails, with TypeError if its first row can be built (C65_false_build). Saving succeeds for every grid without diagnostics."
  },
  {
   "property": "C66",
   "status": "partial",
   "theorems": [
    "Beyonce.C66_partial",
    "Beyonce.C66_false",
    "Beyonce.C66_false_witness"
   ],
   "note": "false of the code for extendable parameters: C66_false, C66_false_witness"
  },
  {
   "property": "C67",
   "status": "proved",
   "theorems": [
    "Beyonce.C67_event",
    "Beyonce.C67_scrolling",
    "Beyonce.C67_reach"
   ],
   "note": "For every viewer over a property whose shape fits its grid (true of every constructed property) and every event history; every slice is reachable."
  },
  {
   "property": "C68",
   "status": "proved",
   "theorems": [
    "Beyonce.C68_direction"
   ],
   "note": "For every grid with finite max_rf, every viewer and event history, with the Rf value that the title shows."
  },
  {
   "property": "C69",
   "status": "partial",
   "theorems": [
    "Beyonce.C69_bool_index_false",
    "Beyonce.C69_bool_index_effect",
    "Beyonce.C69_add_remove_partial"
   ],
   "note": "the property is false of the code: C69_bool_index_false; C69_bool_index_effect says what happens instead; C69_add_remove_partial: the property holds of add_ring and remove_ring"
  },
  {
   "property": "C70",
   "status": "partial",
   "theorems": [
    "Beyonce.C70_location",
    "Beyonce.C70_marks_partial",
    "Beyonce.C70_columns",
    "Beyonce.C70_false"
   ],
   "note": "False (C70_false). Marks agree with the labels for all Rf exactly when max_rf = 2; column labels are within half a column."
  },
  {
   "property": "C71",
   "status": "partial",
   "theorems": [
    "Beyonce.C71_marks_partial",
    "Beyonce.C71_first",
    "Beyonce.C71_exact",
    "Beyonce.C71_false"
   ],
   "note": "False (C71_false). C71_exact says exactly which marks are shown after any scroll events: those of the slices seen since the last one without marks. All near coordinates are marked, no marks when none is near, exact for a new viewer."
  },
  {
   "property": "C72",
   "status": "proved",
   "theorems": [
    "Beyonce.C72_build",
    "Beyonce.C72_new",
    "Beyonce.C72_largest",
    "Beyonce.C72_too_small"
   ],
   "note": "success iff, cells, mirrored result, failure leaves parameters alone"
  },
  {
   "property": "C73",
   "status": "proved",
   "theorems": [
    "Beyonce.C73_kept"
   ],
   "note": "not extended grids (for extended ones get_diagnostic is wrong, see C28)"
  },
  {
   "property": "C74",
   "status": "proved",
   "theorems": [
    "Beyonce.C74_point"
   ],
   "note": "every sound grid, every index triple inside it, masked or not"
  },
  {
   "property": "C75",
   "status": "proved",
   "theorems": [
    "Beyonce.C75_cell",
    "Beyonce.C75_grid"
   ],
   "note": "Over the reals (exact arithmetic)."
  },
  {
   "property": "C76",
   "status": "partial",
   "theorems": [
    "Beyonce.C76_grid_partial",
    "Beyonce.C76_false_grid",
    "Beyonce.C76_false_grid_witness",
    "Beyonce.C76_false_gradient",
    "Beyonce.C76_property_partial",
    "Beyonce.C76_contrast_never_set",
    "Beyonce.C76_false_all_nan",
    "Beyonce.C76_gradient_partial",
    "Beyonce.C76_false_set_mask"
   ],
   "note": "FALSE, proved so for properties (all NaN), gradients (set_mask; NaN time) and grids (no placeable disk). Proved with the conditions named in the partial theorems; C76_contrast_never_set is exact."
  },
  {
   "property": "C77",
   "status": "partial",
   "theorems": [
    "Beyonce.C77_mean_median",
    "Beyonce.C77_new",
    "Beyonce.C77_contrast",
    "Beyonce.C77_limits_partial",
    "Beyonce.C77_false_own",
    "Beyonce.C77_false_stale"
   ],
   "note": "FALSE for the limits after own limits or a masked read, proved so. Mean and median proved for every history; limits proved for new properties and after set_contrast_parameters without limits, as bounds otherwise."
  },
  {
   "property": "C78",
   "status": "proved",
   "theorems": [
    "Beyonce.C78_grid",
    "Beyonce.C78_property"
   ],
   "note": ""
  },
  {
   "property": "C79",
   "status": "proved",
   "theorems": [
    "Beyonce.C79_params",
    "Beyonce.C79_grid"
   ],
   "note": "Rounding in the format specification of the text is not modelled."
  },
  {
   "property": "C80",
   "status": "partial",
   "theorems": [
    "Beyonce.C80_worst",
    "Beyonce.C80_count_partial",
    "Beyonce.C80_false"
   ],
   "note": "The worst fit is proved. The number is FALSE for Boolean positions, proved so, and proved for all other call sequences."
  },
  {
   "property": "C81",
   "status": "partial",
   "theorems": [
    "Beyonce.C81_plot_partial",
    "Beyonce.C81_bad_arguments",
    "Beyonce.C81_number_kind",
    "Beyonce.C81_false_empty"
   ],
   "note": "C81_plot_partial proves it for systems with rings; false for systems without rings (C81_false_empty)."
  },
  {
   "property": "C82",
   "status": "partial",
   "theorems": [
    "Beyonce.C82_visible_partial",
    "Beyonce.C82_false_shift",
    "Beyonce.C82_false_order",
    "Beyonce.C82_false_planet"
   ],
   "note": "C82_visible_partial for ordered rings; false for other shifts, orders and large planets (C82_false_shift, C82_false_order, C82_false_planet)."
  },
  {
   "property": "C83",
   "status": "proved",
   "theorems": [
    "Beyonce.C83_rebuild",
    "Beyonce.C83_history"
   ],
   "note": ""
  },
  {
   "property": "C84",
   "status": "partial",
   "theorems": [
    "Beyonce.C84_arrays_partial",
    "Beyonce.C84_kept",
    "Beyonce.C84_same_array",
    "Beyonce.C84_false"
   ],
   "note": "FALSE, proved so (C84_false). Proved: what changes and when (C84_arrays_partial, C84_kept), and that all reads return one array (C84_same_array)."
  },
  {
   "property": "C85",
   "status": "partial",
   "theorems": [
    "Beyonce.C85_independent_partial",
    "Beyonce.C85_make",
    "Beyonce.C85_false_shared",
    "Beyonce.C85_false_data",
    "Beyonce.C85_false_mask"
   ],
   "note": "FALSE for shared arrays and writes by the caller, proved so. Proved for all other sessions (C85_independent_partial, C85_make)."
  },
  {
   "property": "C86",
   "status": "partial",
   "theorems": [
    "Beyonce.C86_split",
    "Beyonce.C86_merge_back_partial",
    "Beyonce.C86_merge_back_in_double",
    "Beyonce.C86_false_exact",
    "Beyonce.C86_false_thin",
    "Beyonce.C86_false_large"
   ],
   "note": "false exactly (three binary64 witnesses); proved up to rounding for every rounding function with a relative error bound, and for binary64 radii up to 10^7"
  },
  {
   "property": "C87",
   "status": "partial",
   "theorems": [
    "Beyonce.C87_text",
    "Beyonce.C87_transparent",
    "Beyonce.C87_success",
    "Beyonce.C87_failure_partial",
    "Beyonce.C87_session",
    "Beyonce.C87_override",
    "Beyonce.C87_false_override"
   ],
   "note": "False for systems whose angles were assigned out of range (C87_false_override): a failing add_ring logs an override and changes the caller's ring. Everything else is proved; C87_failure_partial is for systems with angles in range."
  },
  {
   "property": "C88",
   "status": "partial",
   "theorems": [
    "Beyonce.C88_exact",
    "Beyonce.C88_own_partial",
    "Beyonce.C88_constructor",
    "Beyonce.C88_false_twice",
    "Beyonce.C88_false_silenced"
   ],
   "note": "False if the random generator is seeded again (C88_false_twice, C88_false_silenced). C88_exact is unconditional; C88_own_partial is for generators that never repeat a name."
  },
  {
   "property": "C89",
   "status": "proved",
   "theorems": [
    "Beyonce.C89_values",
    "Beyonce.C89_scaled",
    "Beyonce.C89_raises",
    "Beyonce.C89_defaults"
   ],
   "note": "C89_values with C89_scaled gives the values; the hypothesis that every gradient can be scaled is necessary (C89_raises)."
  },
  {
   "property": "C90",
   "status": "partial",
   "theorems": [
    "Beyonce.C90_succeeds_partial",
    "Beyonce.C90_slice",
    "Beyonce.C90_cube",
    "Beyonce.C90_defaults",
    "Beyonce.C90_places",
    "Beyonce.C90_false"
   ],
   "note": "False along axes with a single point (C90_false); C90_succeeds_partial says exactly when a slice can be drawn. Values and places are proved in full."
  },
  {
   "property": "C91",
   "status": "proved",
   "theorems": [
    "Beyonce.C91_point",
    "Beyonce.C91_solution",
    "Beyonce.C91_system"
   ],
   "note": "over the reals; the reported numbers are taken as exact"
  },
  {
   "property": "C92",
   "status": "proved",
   "theorems": [
    "Beyonce.C92_vectors",
    "Beyonce.C92_distinct",
    "Beyonce.C92_equal_points"
   ],
   "note": "for any monotone rounding with relative error u; binary64 (without exponent limits) proved to be one"
  },
  {
   "property": "C93",
   "status": "partial",
   "theorems": [
    "Beyonce.C93_extend_partial",
    "Beyonce.C93_false"
   ],
   "note": "false in binary64 (C93_false); holds up to 14u times the limit"
  },
  {
   "property": "C94",
   "status": "proved",
   "theorems": [
    "Beyonce.C94_history",
    "Beyonce.C94_added",
    "Beyonce.C94_reported"
   ],
   "note": "C94_history: any history; C94_added: exact values and NaN for newly added gradients; C94_reported: through get_gradients. Witness throwAway_tangent."
  },
  {
   "property": "C95",
   "status": "partial",
   "theorems": [
    "Beyonce.C95_partial",
    "Beyonce.C95_false",
    "Beyonce.C95_false_centre"
   ],
   "note": "false for disks whose edge is vertical where the star stands (NaN, always left out; in particular the disks centred on the star); exact characterisation proved"
  },
  {
   "property": "C96",
   "status": "proved",
   "theorems": [
    "Beyonce.C96_parts",
    "Beyonce.C96_measurements"
   ],
   "note": "C96_parts: any history; C96_measurements: from the measurements to the entries. Witness throwAway_printed."
  },
  {
   "property": "C97",
   "status": "proved",
   "theorems": [
    "Beyonce.C97_solutions"
   ],
   "note": "C97_solutions: from the measurements to the rows, in terms of disks, tangents and measurements. Witness throwAway_solution."
  },
  {
   "property": "C98",
   "status": "partial",
   "theorems": [
    "Beyonce.C98_transparent",
    "Beyonce.C98_cleared",
    "Beyonce.C98_dropped",
    "Beyonce.C98_session",
    "Beyonce.C98_added_partial",
    "Beyonce.C98_session_added",
    "Beyonce.C98_false_added",
    "Beyonce.C98_nothing",
    "Beyonce.C98_noFit",
    "Beyonce.C98_determining",
    "Beyonce.C98_extracting",
    "Beyonce.C98_closest_partial",
    "Beyonce.C98_false_impact",
    "Beyonce.C98_false_impact_witness",
    "Beyonce.C98_deviation",
    "Beyonce.C98_new",
    "Beyonce.C98_false_added_witness"
   ],
   "note": "proved except for a np.longdouble eclipse duration (C98_false_added) and for the impact parameter that is logged (C98_false_impact)"
  },
  {
   "property": "C99",
   "status": "partial",
   "theorems": [
    "Beyonce.C99_exact",
    "Beyonce.C99_own_partial",
    "Beyonce.C99_constructor",
    "Beyonce.C99_load",
    "Beyonce.C99_load_level",
    "Beyonce.C99_false_silenced",
    "Beyonce.C99_false",
    "Beyonce.C99_false_twice"
   ],
   "note": "False if the random generator is seeded again (C99_false, C99_false_silenced, C99_false_twice). C99_exact, C99_constructor, C99_load and C99_load_level are unconditional; C99_own_partial is for generators that never repeat a name."
  },
  {
   "property": "C100",
   "status": "proved",
   "theorems": [
    "Beyonce.C100_near",
    "Beyonce.C100_digits",
    "Beyonce.C100_exact",
    "Beyonce.C100_even",
    "Beyonce.C100_monotone",
    "Beyonce.C100_special"
   ],
   "note": "Read back by Spec.readDecimal, which knows nothing of the model."
  },
  {
   "property": "C101",
   "status": "proved",
   "theorems": [
    "Beyonce.C101_centered",
    "Beyonce.C101_changes",
    "Beyonce.C101_property_long",
    "Beyonce.C101_gradient_long",
    "Beyonce.C101_grid",
    "Beyonce.C101_title",
    "Beyonce.C101_key",
    "Beyonce.C101_ring_labels",
    "Beyonce.C101_system_labels",
    "Beyonce.C101_params_labels",
    "Beyonce.C101_diagnostics_labels",
    "Beyonce.C101_property_labels",
    "Beyonce.C101_gradient_labels",
    "Beyonce.C101_grid_labels",
    "Beyonce.C101_number",
    "Beyonce.C101_ring",
    "Beyonce.C101_system",
    "Beyonce.C101_params",
    "Beyonce.C101_diagnostics",
    "Beyonce.C101_property",
    "Beyonce.C101_gradient"
   ],
   "note": "Equality of texts: C101_number, _ring, _system, _params, _property, _gradient, _diagnostics, _grid, _title, _key; labels: C101_*_labels."
  },
  {
   "property": "C102",
   "status": "proved",
   "theorems": [
    "Beyonce.C102_created",
    "Beyonce.C102_loaded",
    "Beyonce.C102_built",
    "Beyonce.C102_separate",
    "Beyonce.C102_values",
    "Beyonce.C102_values_calls",
    "Beyonce.C102_results",
    "Beyonce.C102_poke_data",
    "Beyonce.C102_poke_mask",
    "Beyonce.C102_poke_other",
    "Beyonce.C102_same_array"
   ],
   "note": "for all sessions from construction on, and for every grid whose arrays are separate"
  },
  {
   "property": "C103",
   "status": "partial",
   "theorems": [
    "Beyonce.C103_false_read",
    "Beyonce.C103_kept_partial",
    "Beyonce.C103_new_partial",
    "Beyonce.C103_nan_partial",
    "Beyonce.C103_false_write"
   ],
   "note": "false for property getters (C103_false_read, C103_false_write); proved for the arrays that are new, and that calls only put NaN into existing arrays"
  },
  {
   "property": "C104",
   "status": "partial",
   "theorems": [
    "Beyonce.C104_fx_partial",
    "Beyonce.C104_fy_partial",
    "Beyonce.C104_false_fx",
    "Beyonce.C104_false_fy"
   ],
   "note": "False for disks much wider than the eclipse (C104_false_fx) and for centres close to the star path (C104_false_fy), both in binary64; with error bounds elsewhere"
  },
  {
   "property": "C105",
   "status": "proved",
   "theorems": [
    "Beyonce.C105_axes",
    "Beyonce.C105_tilt",
    "Beyonce.C105_disk",
    "Beyonce.C105_double"
   ],
   "note": "For every arithmetic and library of relative accuracy u; overflow and underflow are not modelled"
  },
  {
   "property": "C106",
   "status": "partial",
   "theorems": [
    "Beyonce.C106_shape",
    "Beyonce.C106_shapes_differ",
    "Beyonce.C106_same_number",
    "Beyonce.C106_same_array",
    "Beyonce.C106_same_shapes",
    "Beyonce.C106_number_partial",
    "Beyonce.C106_number_both",
    "Beyonce.C106_false_both",
    "Beyonce.C106_array",
    "Beyonce.C106_shapes",
    "Beyonce.C106_shapes_type",
    "Beyonce.C106_array_tells",
    "Beyonce.C106_load"
   ],
   "note": "false for a number equal to two equal exclusive bounds (C106_false_both); everything else is proved"
  },
  {
   "property": "C107",
   "status": "partial",
   "theorems": [
    "Beyonce.C107_same",
    "Beyonce.C107_message",
    "Beyonce.C107_shows_partial",
    "Beyonce.C107_false_shows",
    "Beyonce.C107_false_greater"
   ],
   "note": "false for overlaps smaller than the printed precision and for touching rings (C107_false_shows, C107_false_greater)"
  },
  {
   "property": "C108",
   "status": "proved",
   "theorems": [
    "Beyonce.C108_edge",
    "Beyonce.C108_ends",
    "Beyonce.C108_double"
   ],
   "note": "conditions: the three error terms small (at most 1/5 or so), as stated; overflow and underflow not modelled"
  },
  {
   "property": "C109",
   "status": "partial",
   "theorems": [
    "Beyonce.C109_gradient_partial",
    "Beyonce.C109_vertical",
    "Beyonce.C109_scaled",
    "Beyonce.C109_measured_partial",
    "Beyonce.C109_mask_partial",
    "Beyonce.C109_false",
    "Beyonce.C109_always",
    "Beyonce.C109_measured_always",
    "Beyonce.C109_mask_always"
   ],
   "note": "false for disks centred far along the star path (C109_false); C109_always covers every edge, vertical ones included, with an explicit error"
  },
  {
   "property": "C110",
   "status": "partial",
   "theorems": [
    "Beyonce.C110_fit",
    "Beyonce.C110_order",
    "Beyonce.C110_solutions",
    "Beyonce.C110_measured_partial",
    "Beyonce.C110_false",
    "Beyonce.C110_measured_always"
   ],
   "note": "false for fits that differ by less than the rounding error (C110_false); C110_measured_always bounds the error of the fit for every disk and all measurements"
  },
  {
   "property": "C111",
   "status": "partial",
   "theorems": [
    "Beyonce.C111_axis",
    "Beyonce.C111_displaced_partial",
    "Beyonce.C111_extended_partial",
    "Beyonce.C111_centre",
    "Beyonce.C111_false",
    "Beyonce.C111_displaced_always",
    "Beyonce.C111_extended_always"
   ],
   "note": "false at the centre of the grid (C111_false, C111_centre); off the horizontal axis an explicit bound for every edge (C111_extended_always), on it NaN with and without rounding (C111_axis)"
  },
  {
   "property": "C112",
   "status": "proved",
   "theorems": [
    "Beyonce.C112_formula",
    "Beyonce.C112_grid",
    "Beyonce.C112_mirror",
    "Beyonce.C112_times",
    "Beyonce.C112_history",
    "Beyonce.C112_solution",
    "Beyonce.C112_vertical"
   ],
   "note": "About exact arithmetic over the real numbers; the linspace of the notebooks is any number."
  },
  {
   "property": "C113",
   "status": "partial",
   "theorems": [
    "Beyonce.C113_system",
    "Beyonce.C113_small",
    "Beyonce.C113_covers",
    "Beyonce.C113_solutions",
    "Beyonce.C113_sorted",
    "Beyonce.C113_drawn",
    "Beyonce.C113_false"
   ],
   "note": "False for the curves of the second analysis, which test dy of the first (C113_false); proved for everything else, in exact arithmetic."
  },
  {
   "property": "C114",
   "status": "partial",
   "theorems": [
    "Beyonce.C114_partial",
    "Beyonce.C114_false",
    "Beyonce.C114_solutions_partial",
    "Beyonce.C114_false_witness",
    "Beyonce.C114_any_partial",
    "Beyonce.C114_any_witness"
   ],
   "note": "False after the disks were read with masked=True, which is the default and writes NaN into them (C114_false, C114_false_witness); a Hill radius mask stays as well. Proved for all sequences of the other calls (C114_partial), down to the solutions (C114_solutions_partial). For all sequences of all calls C114_any_partial says exactly what the next analysis finds: the best solutions among the grid points whose scale factors were not erased and that no Hill mask covers, never a wrong one; C114_any_witness is a history that loses a disk."
  },
  {
   "property": "C115",
   "status": "proved",
   "theorems": [
    "Beyonce.C115_ends",
    "Beyonce.C115_column",
    "Beyonce.C115_scales",
    "Beyonce.C115_disk",
    "Beyonce.C115_edge",
    "Beyonce.C115_axis"
   ],
   "note": "exact for the structure; the errors are explicit; the edge of the disk needs the conditions of C108, as stated; overflow and underflow not modelled"
  },
  {
   "property": "C116",
   "status": "proved",
   "theorems": [
    "Beyonce.C116_kept",
    "Beyonce.C116_recovered"
   ],
   "note": "in exact arithmetic; an eclipse duration of type np.longdouble is left out, with which add_gradients raises"
  },
  {
   "property": "C117",
   "status": "partial",
   "theorems": [
    "Beyonce.C117_same_parameters",
    "Beyonce.C117_parameters",
    "Beyonce.C117_ring_partial",
    "Beyonce.C117_setter_partial",
    "Beyonce.C117_system_partial",
    "Beyonce.C117_same_rings",
    "Beyonce.C117_eclipse",
    "Beyonce.C117_false_array",
    "Beyonce.C117_false_setter",
    "Beyonce.C117_false_system"
   ],
   "note": "full for GridParameters and set_eclipse_parameters; for rings and ring systems all errors are characterised, three of them do not name the argument at fault (C117_false_array, C117_false_setter, C117_false_system)"
  },
  {
   "property": "C118",
   "status": "partial",
   "theorems": [
    "Beyonce.C118_partial",
    "Beyonce.C118_transmissions",
    "Beyonce.C118_succeeds_iff",
    "Beyonce.C118_false",
    "Beyonce.C118_false_velocity",
    "Beyonce.C118_false_witness",
    "Beyonce.C118_false_velocity_witness"
   ],
   "note": "False of the code (C118_false, C118_false_velocity with witnesses): velocity and limb darkening are stored unchecked before anything can raise, and a negative transmission change raises after earlier gradients have been rescaled, keeping the fit. Proved: exactly what a failed call leaves behind (C118_partial), when a call succeeds (C118_succeeds_iff), and that transmission changes rejected by validate leave the grid as it was (C118_transmissions)."
  },
  {
   "property": "C119",
   "status": "partial",
   "theorems": [
    "Beyonce.C119_kept_partial",
    "Beyonce.C119_order",
    "Beyonce.C119_solutions",
    "Beyonce.C119_false"
   ],
   "note": "False for disks far along the star path (C119_false, binary64): rounding makes their gradient NaN. C119_kept_partial: kept if the edge is steeper than asked by more than an explicit rounding error. C119_order and C119_solutions have no such condition: whatever is extracted in place of the disk is at most as far from the measurements, up to explicit rounding errors."
  },
  {
   "property": "C120",
   "status": "proved",
   "theorems": [
    "Beyonce.C120_closest",
    "Beyonce.C120_first_row",
    "Beyonce.C120_symmetric"
   ],
   "note": "rows where the code puts them (C47); rounding must not move a row across zero, shown for symmetric grids"
  },
  {
   "property": "C121",
   "status": "proved",
   "theorems": [
    "Beyonce.C121_mask",
    "Beyonce.C121_double",
    "Beyonce.C121_axis"
   ],
   "note": ""
  },
  {
   "property": "C122",
   "status": "partial",
   "theorems": [
    "Beyonce.C122_mean",
    "Beyonce.C122_printed_partial",
    "Beyonce.C122_median",
    "Beyonce.C122_masked",
    "Beyonce.C122_false_between"
   ],
   "note": "The mean can be printed above the maximum (witness in binary64); error bounds for mean, median and percentage are proved, and that the printed mean passes the printed limits by at most one unit of its last place."
  },
  {
   "property": "C123",
   "status": "partial",
   "theorems": [
    "Beyonce.C123_partial",
    "Beyonce.C123_rescaled",
    "Beyonce.C123_false_bars",
    "Beyonce.C123_columns",
    "Beyonce.C123_photometry",
    "Beyonce.C123_false_errors",
    "Beyonce.C123_false_bars_witness",
    "Beyonce.C123_rounded",
    "Beyonce.C123_false_digits"
   ],
   "note": "false of the error bars (unscaled), of the errors of the second notebook's light curve, and of the last printed digit of a time in binary64; the rest is proved"
  },
  {
   "property": "C124",
   "status": "proved",
   "theorems": [
    "Beyonce.C124_radius",
    "Beyonce.C124_disk",
    "Beyonce.C124_curve"
   ],
   "note": ""
  },
  {
   "property": "C125",
   "status": "proved",
   "theorems": [
    "Beyonce.C125_vertices",
    "Beyonce.C125_curves",
    "Beyonce.C125_edges",
    "Beyonce.C125_inside",
    "Beyonce.C125_double",
    "Beyonce.C125_made"
   ],
   "note": "Overflow and underflow are not modelled; sines and cosines have a relative error of u."
  },
  {
   "property": "C126",
   "status": "proved",
   "theorems": [
    "Beyonce.C126_curve",
    "Beyonce.C126_solution",
    "Beyonce.C126_times",
    "Beyonce.C126_double"
   ],
   "note": "Overflow and underflow are not modelled; sines and cosines have a relative error of u."
  },
  {
   "property": "C127",
   "status": "partial",
   "theorems": [
    "Beyonce.C127_drawn",
    "Beyonce.C127_visible_partial",
    "Beyonce.C127_double",
    "Beyonce.C127_false_far"
   ],
   "note": "true for ordered rings while radii and shifts are small against 1/u (C127_visible_partial, C127_double: up to 10^12); false far out (C127_false_far), and where C82 is"
  },
  {
   "property": "C128",
   "status": "partial",
   "theorems": [
    "Beyonce.C128_slice_partial",
    "Beyonce.C128_scroll",
    "Beyonce.C128_once_partial",
    "Beyonce.C128_label",
    "Beyonce.C128_false_between",
    "Beyonce.C128_false_twice"
   ],
   "note": "The claim is false of the code between two slices and along the Rf axis (C128_false_between, C128_false_twice); the partial theorems say how near a marked coordinate is and that it is marked on one slice, or on the two of the same Rf."
  },
  {
   "property": "C129",
   "status": "partial",
   "theorems": [
    "Beyonce.C129_property",
    "Beyonce.C129_exact",
    "Beyonce.C129_values",
    "Beyonce.C129_kept_partial",
    "Beyonce.C129_false"
   ],
   "note": "False: C129_false. C129_exact says which data every picture shows, C129_values which elements can be NaN, C129_property that viewers only read; C129_kept_partial: right without masked reads."
  },
  {
   "property": "C130",
   "status": "partial",
   "theorems": [
    "Beyonce.C130_exact",
    "Beyonce.C130_determined",
    "Beyonce.C130_ordered_iff",
    "Beyonce.C130_default_partial",
    "Beyonce.C130_false"
   ],
   "note": "False: parameters are stored one by one and given limits are never compared (C130_false). Proved: exactly what every call leaves and when it succeeds, and exactly when the stored limits are in order."
  },
  {
   "property": "C131",
   "status": "partial",
   "theorems": [
    "Beyonce.C131_build_files",
    "Beyonce.C131_new_files",
    "Beyonce.C131_load_files",
    "Beyonce.C131_build_says",
    "Beyonce.C131_shear",
    "Beyonce.C131_shear_new",
    "Beyonce.C131_cells_partial",
    "Beyonce.C131_extension",
    "Beyonce.C131_new_says",
    "Beyonce.C131_load_says",
    "Beyonce.C131_shown",
    "Beyonce.C131_false"
   ],
   "note": "The messages of _determine_fy are stated for grids without a row at zero, or with one such row and a largest dx above 1 (C131_cells_partial); what is false of the code is in C131_false and C131_load_says."
  },
  {
   "property": "C132",
   "status": "proved",
   "theorems": [
    "Beyonce.C132_frame",
    "Beyonce.C132_history",
    "Beyonce.C132_fixed",
    "Beyonce.C132_tight"
   ],
   "note": "For every grid, sound or not, every call and all its arguments, returning or raising. The parts are those of the model's Shallot; assigning attributes directly or calling set_mask on a property the caller got hold of is not a call of the grid."
  },
  {
   "property": "C133",
   "status": "partial",
   "theorems": [
    "Beyonce.C133_changes",
    "Beyonce.C133_division",
    "Beyonce.C133_division_witness",
    "Beyonce.C133_kinds_partial",
    "Beyonce.C133_history",
    "Beyonce.C133_seven",
    "Beyonce.C133_false_velocity",
    "Beyonce.C133_velocity",
    "Beyonce.C133_false_add",
    "Beyonce.C133_false"
   ],
   "note": "False in full: an index equal to the length of its axis and a position given twice raise IndexError, extracting solutions without a fit AttributeError, a velocity of 0 ZeroDivisionError (C133_false, C133_false_add, C133_false_velocity). Proved: the table of what each call raises and when, for all arguments, grids with arrays and histories (C133_kinds_partial, C133_history), no other kinds than these (C133_seven), and, on a grid that began without gradients, a division by zero only in add_gradients and update_gradient_scaling and only when the velocity and limb darkening in force have no orbital scale (C133_division), with an accepted limb darkening only for a velocity of 0 (C133_velocity)."
  },
  {
   "property": "C134",
   "status": "partial",
   "theorems": [
    "Beyonce.C134_kinds_partial",
    "Beyonce.C134_validators",
    "Beyonce.C134_type",
    "Beyonce.C134_index",
    "Beyonce.C134_attribute",
    "Beyonce.C134_new",
    "Beyonce.C134_false",
    "Beyonce.C134_witness"
   ],
   "note": "A table of exceptions for each editing call, on any system with any argument and rounding; exact for TypeError, for IndexError and for a position False. False in full: AttributeError for a bool position and IndexError for merging no rings (C134_false)."
  },
  {
   "property": "C135",
   "status": "proved",
   "theorems": [
    "Beyonce.C135_split_twice",
    "Beyonce.C135_split_order",
    "Beyonce.C135_replace",
    "Beyonce.C135_replace_twice",
    "Beyonce.C135_add_order",
    "Beyonce.C135_witness"
   ],
   "note": "In exact arithmetic. Splitting twice is splitting once, replacing is removing and adding, a later replacement wins, additions commute."
  },
  {
   "property": "C136",
   "status": "proved",
   "theorems": [
    "Beyonce.C136_undo",
    "Beyonce.C136_mask",
    "Beyonce.C136_refit",
    "Beyonce.C136_witness"
   ],
   "note": "For every outcome of add_gradients, returning or raising; a grid without a list of gradients is left with an empty list."
  },
  {
   "property": "C137",
   "status": "proved",
   "theorems": [
    "Beyonce.C137_twice",
    "Beyonce.C137_last",
    "Beyonce.C137_separately",
    "Beyonce.C137_order",
    "Beyonce.C137_again",
    "Beyonce.C137_witness"
   ],
   "note": "Both calls are assumed to succeed; a single call may succeed where the first of two calls would raise."
  },
  {
   "property": "C138",
   "status": "proved",
   "theorems": [
    "Beyonce.C138_fit",
    "Beyonce.C138_solutions",
    "Beyonce.C138_measurements",
    "Beyonce.C138_witness"
   ],
   "note": "Exact arithmetic: sums of doubles in another order may differ in the last place. The solutions part assumes finite fits where nothing is masked, which C45_measured shows for finite measurements with positive errors."
  },
  {
   "property": "C139",
   "status": "proved",
   "theorems": [
    "Beyonce.C139_twice",
    "Beyonce.C139_order",
    "Beyonce.C139_one_by_one",
    "Beyonce.C139_mask",
    "Beyonce.C139_witness"
   ],
   "note": "Distinct positions in range, as in C40_removes_partial; repeated positions are the subject of C40 (false there)."
  },
  {
   "property": "C140",
   "status": "proved",
   "theorems": [
    "Beyonce.C140_same_slice",
    "Beyonce.C140_adds_up",
    "Beyonce.C140_back",
    "Beyonce.C140_witness"
   ],
   "note": "Marks of coordinates are left out: they do depend on the way (C71)."
  },
  {
   "property": "C141",
   "status": "proved",
   "theorems": [
    "Beyonce.C141_order",
    "Beyonce.C141_last",
    "Beyonce.C141_history",
    "Beyonce.C141_witness"
   ],
   "note": "for the calls that set up the analysis (C141_order, C141_history); masked reads do depend on the order, see C43"
  },
  {
   "property": "C142",
   "status": "proved",
   "theorems": [
    "Beyonce.C142_reads",
    "Beyonce.C142_again",
    "Beyonce.C142_witness",
    "Beyonce.C142_reads_all"
   ],
   "note": "C142_reads also gives the returned values; extracting solutions cannot be repeated, see C46"
  },
  {
   "property": "C143",
   "status": "proved",
   "theorems": [
    "Beyonce.C143_values",
    "Beyonce.C143_any_order",
    "Beyonce.C143_witness"
   ],
   "note": "values of other properties (C143_values), and the grid that remains (C143_any_order); the same property read with other flags may differ, see C43"
  },
  {
   "property": "C144",
   "status": "proved",
   "theorems": [
    "Beyonce.C144_order",
    "Beyonce.C144_history",
    "Beyonce.C144_witness"
   ],
   "note": "for the calls that set up the analysis; masked reads of the disk radius are left out, see C43"
  },
  {
   "property": "C145",
   "status": "proved",
   "theorems": [
    "Beyonce.C145_again",
    "Beyonce.C145_interrupted",
    "Beyonce.C145_grid",
    "Beyonce.C145_witness",
    "Beyonce.C145_loaded"
   ],
   "note": "for the file model of Files.lean: a crash is a prefix of the operations, possibly with a torn file"
  },
  {
   "property": "C146",
   "status": "proved",
   "theorems": [
    "Beyonce.C146_order",
    "Beyonce.C146_elsewhere",
    "Beyonce.C146_loaded",
    "Beyonce.C146_witness"
   ],
   "note": "directories are paths without links, as in Files.lean"
  }
 ]
}