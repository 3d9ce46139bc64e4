{"id": "C01", "title": "validate.number accepts exactly the documented set", "statement": "validate.number(v, name, check_integer, lower, upper, exclusive) returns v itself exactly when v is an accepted numeric type (int, bool, numpy signed int; also float/numpy float unless check_integer), lower > upper is false, and v is not on the wrong side of a bound; otherwise it raises TypeError for a wrong type and ValueError for a bound.", "quantifier": "every Python value, every pair of bounds, both flags", "why_tests_cant": "infinitely many values, types and bound pairs, including NaN and infinities", "anchors": ["validate.py:number", "validate.py:_number_type", "validate.py:_number_bounds", "validate.py:_integer_type", "validate.py:_float_type"]}
{"id": "C02", "title": "An accepted number lies inside its bounds", "statement": "If validate.number accepts v then lower <= v <= upper (strictly inside when exclusive). FALSE for NaN: NaN is accepted with every bound; holds for every other value.", "quantifier": "every value and bound pair", "why_tests_cant": "the counterexample class (NaN) is a single point tests do not sample, and the positive part ranges over all reals", "anchors": ["validate.py:_number_bounds"]}
{"id": "C03", "title": "validate.array accepts exactly the documented arrays", "statement": "validate.array(a, ...) returns a unchanged exactly when a is an ndarray, no element is on the wrong side of a given bound, the number of dimensions matches and the dtype string matches; errors are reported in the order type, bounds, dimensions, dtype.", "quantifier": "every value, shape, length, dtype and bound", "why_tests_cant": "unbounded array sizes and contents", "anchors": ["validate.py:array", "validate.py:_array_bounds", "validate.py:_array_dimensions", "validate.py:_array_type"]}
{"id": "C04", "title": "validate.same_shape_arrays accepts exactly equal shapes", "statement": "same_shape_arrays(arrays, names) succeeds iff there are at least two arrays, as many names as arrays, and every array has the shape of every other array.", "quantifier": "every list of arrays of every length and shape", "why_tests_cant": "unbounded list lengths and shapes", "anchors": ["validate.py:same_shape_arrays"]}
{"id": "C05", "title": "A Ring is always physically valid", "statement": "However a Ring is built and edited through its constructor and attribute setters with non-NaN arguments, 0 < inner_radius < outer_radius < infinity, 0 <= transmission <= 1, 0 <= inclination <= 90 and -180 <= tilt <= 180. FALSE if a NaN is ever passed.", "quantifier": "every constructor call and every finite sequence of setter calls with any arguments", "why_tests_cant": "arbitrary-length edit histories", "anchors": ["Ring.py:Ring.__init__", "Ring.py:inner_radius.setter", "Ring.py:outer_radius.setter"]}
{"id": "C06", "title": "A Ring setter is all-or-nothing and touches one attribute", "statement": "A setter that raises leaves every attribute unchanged; one that succeeds changes only its attribute, to the given value (inner_radius = 0 is stored as 1e-16). A setter succeeds exactly when its value is acceptable given the current other radius.", "quantifier": "every ring state and every argument", "why_tests_cant": "all ring states and values", "anchors": ["Ring.py:Ring"]}
{"id": "C07", "title": "The drawn ring patch is the projected annulus", "statement": "Ring.get_patch maps the unit circle to the ellipse with semi-major axis outer_radius along the tilt direction and semi-minor outer_radius*cos(inclination), centred on the shift; the inner boundary likewise with inner_radius and with opposite orientation, so that the inside is a hole.", "quantifier": "every ring, shift and point of the unit circle", "why_tests_cant": "a continuum of points and geometries", "anchors": ["Ring.py:Ring.get_patch"]}
{"id": "C08", "title": "Rings of a system never overlap and stay ordered", "statement": "Starting from an ordered, non-overlapping ring system, every sequence of add_ring, remove_ring, replace_ring, split_rings and merge_rings (successful or raising) leaves the rings ordered with each outer radius <= the next inner radius (integer indices and valid rings; for bool indices see C69).", "quantifier": "every ring system, every finite operation history, every argument", "why_tests_cant": "arbitrary-length histories over all reals", "anchors": ["RingSystem.py:add_ring", "RingSystem.py:remove_ring", "RingSystem.py:replace_ring", "RingSystem.py:split_rings", "RingSystem.py:merge_rings", "RingSystem.py:_prevent_ring_overlap"]}
{"id": "C09", "title": "No API history can make rings of a system overlap", "statement": "Overlap is impossible in every reachable state. FALSE: the constructor accepts overlapping radii, and a Ring object that was added can be resized afterwards through its own setters.", "quantifier": "every history including constructor calls and edits of Ring objects shared with a system", "why_tests_cant": "needs aliasing histories", "anchors": ["RingSystem.py:_set_rings", "RingSystem.py:add_ring", "Ring.py:outer_radius.setter"]}
{"id": "C10", "title": "Every ring carries the geometry of its system", "statement": "In every reachable state each ring of a system has the system's inclination and tilt. Holds for histories that do not share a Ring object between systems nor edit it; FALSE when one Ring object is added to two systems (the second add silently re-inclines the first system), and when inclination or tilt is assigned as a plain attribute.", "quantifier": "every history of several ring systems and rings", "why_tests_cant": "needs aliasing between objects over arbitrary histories", "anchors": ["RingSystem.py:_override_ring_geometry", "RingSystem.py:add_ring", "RingSystem.py:replace_ring"]}
{"id": "C11", "title": "add_ring inserts exactly where it fits", "statement": "add_ring(i, ring) succeeds iff 0 <= i <= n, ring.inner_radius is not below the outer radius of ring i-1 and ring.outer_radius is not above the inner radius of ring i; then the ring list is the old one with the ring inserted at i (its geometry overridden) and nothing else changed; otherwise it raises and nothing changed.", "quantifier": "every system, index and ring", "why_tests_cant": "all sizes and indices", "anchors": ["RingSystem.py:add_ring", "RingSystem.py:_prevent_ring_overlap"]}
{"id": "C12", "title": "remove_ring removes exactly one ring", "statement": "remove_ring(i) succeeds iff 0 <= i < n and then removes exactly the i-th ring; otherwise it raises ValueError and nothing changed. In particular it undoes add_ring at the same index.", "quantifier": "every system and index", "why_tests_cant": "all sizes and indices", "anchors": ["RingSystem.py:remove_ring"]}
{"id": "C13", "title": "replace_ring swaps exactly one ring", "statement": "replace_ring(i, ring) succeeds iff 0 <= i < n and the ring fits between rings i-1 and i+1; then only position i changes; otherwise it raises and nothing changed.", "quantifier": "every system, index and ring", "why_tests_cant": "all sizes and indices", "anchors": ["RingSystem.py:replace_ring", "RingSystem.py:_prevent_ring_overlap"]}
{"id": "C14", "title": "split_rings keeps the transmission profile", "statement": "After split_rings the system covers exactly the same radii with the same transmissions, ring k is replaced by num_divisions[k] equal-width touching ringlets, and the number of rings is the sum of the divisions (exact arithmetic).", "quantifier": "every valid system, every integer or array of divisions", "why_tests_cant": "all radii, ring counts and divisions", "anchors": ["RingSystem.py:split_rings"]}
{"id": "C15", "title": "Ringlets produced in floating point never overlap and their edges stay within tolerance", "statement": "With every float operation rounded, consecutive ringlets do not overlap. FALSE in IEEE double (concrete witness: a ring that split_rings turns into overlapping ringlets); holds up to a gap bounded by a small multiple of the unit roundoff times the outer radius, far below the default merge tolerance for radii below 10^8.", "quantifier": "every ring, every division count, every rounding with bounded relative error", "why_tests_cant": "float rounding over all inputs", "anchors": ["RingSystem.py:split_rings", "RingSystem.py:merge_rings"]}
{"id": "C16", "title": "merge_rings only joins equal-transmission neighbours within tolerance", "statement": "After merge_rings the rings are a partition of the old list into consecutive runs: inside a run all transmissions are equal and successive edges differ by less than the tolerance, between runs one of the two fails; each merged ring runs from the first inner to the last outer radius of its run. For exactly touching neighbours the transmission profile is unchanged.", "quantifier": "every non-empty system and every tolerance > 0", "why_tests_cant": "all list lengths and values", "anchors": ["RingSystem.py:merge_rings"]}
{"id": "C17", "title": "merge_rings is idempotent", "statement": "Calling merge_rings twice with the same tolerance gives the same rings as calling it once.", "quantifier": "every ordered system and tolerance > 0", "why_tests_cant": "all sizes", "anchors": ["RingSystem.py:merge_rings"]}
{"id": "C18", "title": "merge_rings undoes split_rings", "statement": "If no two neighbouring rings could be merged, then split_rings(d) followed by merge_rings() restores exactly the original radii and transmissions, for every d (exact arithmetic).", "quantifier": "every valid system, every division vector, every tolerance > 0", "why_tests_cant": "all sizes and divisions", "anchors": ["RingSystem.py:split_rings", "RingSystem.py:merge_rings"]}
{"id": "C19", "title": "merge_rings and split_rings fail cleanly", "statement": "merge_rings on an ordered non-empty system with tolerance > 0 never raises; with tolerance <= 0 it always raises ValueError; on an empty system it raises IndexError; split_rings raises ValueError for an integer < 2 or any division < 1 and InvalidShapeError for a wrong count; whenever they raise the system is unchanged.", "quantifier": "every system, tolerance and division argument", "why_tests_cant": "all inputs", "anchors": ["RingSystem.py:merge_rings", "RingSystem.py:split_rings"]}
{"id": "C20", "title": "plot limits contain the whole ring system", "statement": "RingSystem.plot sets axis limits x_shift +- (disk radius + 2) and y_shift +- (disk radius + 2). FALSE for y: the upper y limit is built from x_shift, so for y_shift > x_shift + 2 the system is cut off; correct iff x_shift = y_shift.", "quantifier": "every system and shift", "why_tests_cant": "all shifts", "anchors": ["RingSystem.py:plot"]}
{"id": "C21", "title": "Grid vectors are evenly spaced from min to max", "statement": "For accepted finite arguments dx has num_x values, starts at min_x, (num_x >= 2) ends at max_x and is strictly increasing with constant step; likewise dy; grid_shape = (num_y, num_x, 2*num_rf-1). Construction succeeds iff min < max, counts >= 1, max_rf >= 1.", "quantifier": "every argument tuple", "why_tests_cant": "all sizes and bounds", "anchors": ["GridParameters.py:GridParameters.__init__", "GridParameters.py:_determine_dx", "GridParameters.py:_determine_dy", "GridParameters.py:_set_grid_and_slice_shape"]}
{"id": "C22", "title": "rf_array is the mirrored radius-factor vector", "statement": "rf_array has length 2*num_rf-1, reads the same backwards, has its minimum 1 at index num_rf-1 and rises to max_rf at both ends.", "quantifier": "every max_rf >= 1 and num_rf >= 1", "why_tests_cant": "all sizes", "anchors": ["GridParameters.py:_determine_rf"]}
{"id": "C23", "title": "extend_grid mirrors the grid about the origin", "statement": "If dx[0] = dy[0] = 0 and both axes have at least two points, extend_grid succeeds; the new dx has 2n-1 points with dx'[n-1+j] = dx[j] and dx'[n-1-j] = -dx[j]; likewise dy; rf is unchanged; the result is not extendable and a second extend_grid raises AttributeError and changes nothing.", "quantifier": "every extendable grid of every size", "why_tests_cant": "all sizes", "anchors": ["GridParameters.py:extend_grid"]}
{"id": "C24", "title": "extend_grid is all-or-nothing", "statement": "If extend_grid raises, the object is unchanged. FALSE: with num_y = 1 and num_x >= 2 it raises ValueError after dx was already replaced, leaving a dx vector that disagrees with grid_shape.", "quantifier": "every grid", "why_tests_cant": "exception-path state over all sizes", "anchors": ["GridParameters.py:extend_grid"]}
{"id": "C25", "title": "GridParameters save/load round trip", "statement": "Loading a directory that a GridParameters object was saved to returns an object equal in dx, dy, rf, rf_array, grid_shape, slice_shape and extendable; saving elsewhere in between does not disturb it. FALSE for a grid that a failed extend_grid left half extended (the loaded grid_shape differs).", "quantifier": "every grid, every file-system state and every directory", "why_tests_cant": "all contents and file-system states", "anchors": ["GridParameters.py:save", "GridParameters.py:load"]}
{"id": "C26", "title": "A crash while saving never yields a silently wrong GridParameters", "statement": "After a crash at any point of GridParameters.save, load either returns the old object, the new object, or raises LoadError. Holds when the directory was fresh; FALSE when overwriting an older save: the loaded object can mix vectors of both.", "quantifier": "every crash point (between writes or tearing one), every old and new object", "why_tests_cant": "all crash points and contents", "anchors": ["GridParameters.py:save", "GridParameters.py:load"]}
{"id": "C27", "title": "Diagnostics behave as a map keyed by grid index", "statement": "Before extension, get_diagnostic(y, x) returns the arrays of the last successful save_diagnostic(y, x), raises KeyError if there is none, ValueError if (y, x) is outside the slice; a failed save changes nothing.", "quantifier": "every sequence of save/get calls", "why_tests_cant": "arbitrary histories and key strings", "anchors": ["GridDiagnostics.py:save_diagnostic", "GridDiagnostics.py:get_diagnostic", "GridDiagnostics.py:_generate_key"]}
{"id": "C28", "title": "Extended diagnostics are the mirror image", "statement": "After extend(), get_diagnostic(i, j) on the mirrored grid returns the entry saved for the mirrored cell (|i-(ny-1)|, |j-(nx-1)|) and nothing can be saved any more. FALSE: the lookup uses |i-ny|, so the centre cell and every left/lower cell return the wrong neighbour or KeyError.", "quantifier": "every grid size, every saved content, every extended index", "why_tests_cant": "all sizes", "anchors": ["GridDiagnostics.py:_generate_key", "GridDiagnostics.py:extend"]}
{"id": "C29", "title": "Diagnostics save/load round trip", "statement": "load after save gives the same answers to every get_diagnostic call. Holds before extension; FALSE after extend(): the extension flag is not saved.", "quantifier": "every diagnostics content", "why_tests_cant": "all contents", "anchors": ["GridDiagnostics.py:save", "GridDiagnostics.py:load"]}
{"id": "C30", "title": "Masked data is NaN exactly where masked", "statement": "get_data(masked=True) has NaN at every masked element and the stored value at every other element; get_data(False) and an unset mask return the stored data.", "quantifier": "every cube and mask", "why_tests_cant": "all sizes", "anchors": ["GridProperty.py:GridProperty.get_data", "GridProperty.py:GridProperty.set_mask"]}
{"id": "C31", "title": "Reading data does not change it", "statement": "get_data(False) returns the data the property was built with, whatever was called before. FALSE: get_data(True) overwrites masked elements with NaN for good; holds for histories without a masked read, and unmasked elements are never affected.", "quantifier": "every history of set_mask/get_data/set_contrast_parameters", "why_tests_cant": "arbitrary histories", "anchors": ["GridProperty.py:GridProperty.get_data"]}
{"id": "C32", "title": "GridProperty save/load round trip including the mask", "statement": "load after save returns the same data, mask and grid parameters. Holds in a directory without an older mask file of the same property; FALSE when an older save had a mask and the new object has none (the stale mask is loaded).", "quantifier": "every property, every previous directory content", "why_tests_cant": "all contents and file-system histories", "anchors": ["GridProperty.py:GridProperty.save", "GridProperty.py:GridProperty.load"]}
{"id": "C33", "title": "Contrast limits bracket the data", "statement": "With default arguments vmin and vmax are attained by the data and vmin <= every non-NaN element <= vmax; both are None iff all elements are NaN.", "quantifier": "every cube", "why_tests_cant": "all sizes and contents", "anchors": ["GridProperty.py:set_contrast_parameters"]}
{"id": "C34", "title": "determine_mask masks exactly the too-shallow grid points", "statement": "After a successful determine_mask the mask is True exactly at elements that are NaN or smaller than measured_gradient*orbital_scale/transmission_change, and that scaled gradient is not above 1.", "quantifier": "every cube and every accepted argument tuple", "why_tests_cant": "all sizes and values", "anchors": ["GridProperty.py:GridGradient.determine_mask", "GridProperty.py:GridGradient.get_scaled_gradient"]}
{"id": "C35", "title": "An over-estimated transmission change never removes a viable solution", "statement": "Raising transmission_change (or lowering orbital_scale or measured_gradient) never masks a grid point that was unmasked; if determine_mask succeeded with the smaller transmission change it succeeds with the larger.", "quantifier": "every cube and all ordered pairs of arguments", "why_tests_cant": "all pairs of values", "anchors": ["GridProperty.py:GridGradient.determine_mask"]}
{"id": "C36", "title": "determine_mask is all-or-nothing", "statement": "If determine_mask raises, the gradient is unchanged. FALSE: when the scaled gradient exceeds 1 the new measured values are already stored while the old mask is kept.", "quantifier": "every gradient state and arguments", "why_tests_cant": "exception-path state", "anchors": ["GridProperty.py:GridGradient.determine_mask"]}
{"id": "C37", "title": "Gradient save/load round trip", "statement": "A gradient saved with save_gradient and loaded back has the same data, position and mask. Holds for a gradient with a determined mask in a fresh directory; FALSE for a mask set with set_mask, and two gradients whose positions agree to four decimals overwrite each other.", "quantifier": "every gradient and directory", "why_tests_cant": "all contents and positions", "anchors": ["GridProperty.py:GridGradient.save_gradient", "GridProperty.py:GridGradient.load"]}
{"id": "C38", "title": "The combined mask is the union of all masks", "statement": "get_combined_mask() is True at an element iff one of disk_radius, inclination, tilt or any gradient has a mask that is True there.", "quantifier": "every grid state, any number of gradients", "why_tests_cant": "any number of masks, all sizes", "anchors": ["Shallot.py:get_combined_mask"]}
{"id": "C39", "title": "The order in which gradients are added does not matter for the mask", "statement": "Adding the same measurements in any order (one call or several) gives the same combined mask, and adding more never unmasks an element.", "quantifier": "every permutation and split of every measurement list", "why_tests_cant": "all permutations", "anchors": ["Shallot.py:add_gradients", "Shallot.py:get_combined_mask"]}
{"id": "C40", "title": "remove_gradients removes exactly the given indices", "statement": "For distinct in-range indices in any order the remaining gradients are exactly those at the other positions, in order. FALSE with a repeated index: a gradient that was not listed is removed (or IndexError is raised after part of the removal).", "quantifier": "every gradient list and index array", "why_tests_cant": "all lists and index arrays", "anchors": ["Shallot.py:remove_gradients"]}
{"id": "C41", "title": "The gradient fit is never stale", "statement": "Whenever a gradient fit is stored it equals the fit of the current gradients. Holds for every history of successful calls without masked reads; FALSE after add_gradients or update_gradient_scaling raised.", "quantifier": "every operation history", "why_tests_cant": "arbitrary histories incl. failures", "anchors": ["Shallot.py:determine_gradient_fit", "Shallot.py:_reset_gradient_fit", "Shallot.py:add_gradients", "Shallot.py:update_gradient_scaling", "Shallot.py:set_eclipse_parameters"]}
{"id": "C42", "title": "add_gradients is all-or-nothing", "statement": "If add_gradients raises, the gradient list is unchanged. FALSE: a scaled gradient above 1 (or a bad errors/transmission array) raises after the new gradients were appended without masks.", "quantifier": "every grid state and arguments", "why_tests_cant": "exception paths", "anchors": ["Shallot.py:add_gradients", "Shallot.py:_set_measured_gradients_and_masks"]}
{"id": "C43", "title": "Getters of the grid are read-only", "statement": "get_disk_radius, get_inclination, get_tilt, get_fx_map, get_fy_map, get_diagnostic_map leave the grid as it was. FALSE: masked reads write NaN into the stored cubes, so that later unmasked reads, new Hill masks and new gradients differ; holds when masked and property_masked are both False, and elements outside the masks are never changed.", "quantifier": "every grid state and sequence of getter calls", "why_tests_cant": "arbitrary histories", "anchors": ["Shallot.py:get_disk_radius", "Shallot.py:get_inclination", "Shallot.py:get_tilt", "Shallot.py:get_fx_map", "Shallot.py:get_fy_map"]}
{"id": "C44", "title": "The Hill radius mask is exact and monotone", "statement": "generate_hill_radius_mask(h) masks exactly the elements whose stored disk radius is NaN or > h; a larger h masks no more elements.", "quantifier": "every grid and all h", "why_tests_cant": "all sizes and values", "anchors": ["Shallot.py:generate_hill_radius_mask"]}
{"id": "C45", "title": "extract_solutions returns the best unmasked solutions in order", "statement": "extract_solutions(k) returns k distinct unmasked grid points in non-decreasing rms order such that no unmasked point outside the answer has a smaller rms, and each row reports the radius, inclination, tilt, dx, dy of its own grid point.", "quantifier": "every grid state and every admissible k", "why_tests_cant": "all sizes, ties included", "anchors": ["Shallot.py:extract_solutions", "Shallot.py:get_gradient_fit", "Shallot.py:get_grid_point_data"]}
{"id": "C46", "title": "extract_solutions can be repeated", "statement": "Calling extract_solutions twice gives the same answer. FALSE: returned solutions are erased from the stored fit; asking for all solutions twice raises ValueError.", "quantifier": "every grid state", "why_tests_cant": "histories", "anchors": ["Shallot.py:extract_solutions"]}
{"id": "C47", "title": "determine_closest_grid_point finds the nearest grid point", "statement": "The returned indices minimise the reported distance; a query equal to a grid point's own radius, inclination, tilt and dy returns distance 0. The first part holds; the second is FALSE because the y positions are computed as y_min + k*(y_max-y_min)/n instead of /(n-1).", "quantifier": "every grid and query", "why_tests_cant": "all sizes and queries", "anchors": ["Shallot.py:determine_closest_grid_point"]}
{"id": "C48", "title": "Out-of-range grid indices are rejected by validation", "statement": "get_grid_point_data raises ValueError for every out-of-range index. FALSE for an index equal to the axis length: validation accepts it and the lookup raises IndexError.", "quantifier": "every grid and index", "why_tests_cant": "boundary of every size", "anchors": ["Shallot.py:get_grid_point_data"]}
{"id": "C49", "title": "set_eclipse_parameters invalidates dependent results", "statement": "After a successful set_eclipse_parameters there are no gradients and no gradient fit, and the three parameters are the new ones; FALSE on the raising path: some parameters are already replaced while old gradients remain.", "quantifier": "every grid state and arguments", "why_tests_cant": "all states and exception paths", "anchors": ["Shallot.py:set_eclipse_parameters"]}
{"id": "C50", "title": "update_gradient_scaling equals re-adding with the new scaling", "statement": "A successful update_gradient_scaling gives every gradient the mask it would have had if added with the new velocity, limb darkening and transmission changes, and clears the fit.", "quantifier": "every gradient list and parameter change", "why_tests_cant": "all states", "anchors": ["Shallot.py:update_gradient_scaling", "Shallot.py:_determine_orbital_scale"]}
{"id": "C51", "title": "Every grid ellipse passes through both eclipse end points", "statement": "For every grid point with a computed fx, fy, the sheared ellipse centred on (dx, dy) passes through (-1/2, 0) and (1/2, 0).", "quantifier": "all dx, dy, fy (reals) with dy != 0, and the origin", "why_tests_cant": "a continuum", "anchors": ["Shallot.py:_determine_circular_radius", "Shallot.py:_determine_shear", "Shallot.py:_determine_fx"]}
{"id": "C52", "title": "disk_radius and inclination are the true ellipse axes", "statement": "disk_radius is the largest and disk_radius*cos(inclination) the smallest distance from the centre to the sheared ellipse, both attained; inclination is between 0 and 90 degrees.", "quantifier": "all fx, fy > 0, shear, circular radius > 0", "why_tests_cant": "a continuum of ellipses and parametric angles", "anchors": ["Shallot.py:_determine_disk_parameters", "Shallot.py:_calculate_vertex_and_covertex_angles", "Shallot.py:_calculate_xy_from_parameteric_angle"]}
{"id": "C53", "title": "The reported disk (radius, inclination, tilt) is the eclipsing ellipse", "statement": "The ellipse with semi-major axis disk_radius at angle tilt and semi-minor disk_radius*cos(inclination), centred on (dx, dy), is the same curve as the sheared ellipse and so passes through (-1/2,0) and (1/2,0).", "quantifier": "all grid points", "why_tests_cant": "a continuum", "anchors": ["Shallot.py:_determine_disk_parameters"]}
{"id": "C54", "title": "fx and fy determine each other", "statement": "_determine_fy inverts _determine_fx and vice versa wherever defined; fx is NaN exactly when fy^2 (1+4dy^2) <= 4dy^2; fx = 1 iff fy = 1 (dy != 0).", "quantifier": "all dy, fx, fy", "why_tests_cant": "a continuum", "anchors": ["Shallot.py:_determine_fx", "Shallot.py:_determine_fy"]}
{"id": "C55", "title": "Disk gradients are the tangent angles and lie in [0, 1)", "statement": "The stored gradient at position p is |sin| of the angle of the tangent, at (p, 0), of the concentric scaled ellipse through (p, 0); it is NaN exactly where the tangent is vertical or inputs are NaN; otherwise 0 <= gradient < 1.", "quantifier": "all grid points and positions", "why_tests_cant": "a continuum", "anchors": ["Shallot.py:_determine_disk_gradients"]}
{"id": "C56", "title": "The four quadrants are mirror images", "statement": "After extension the value at mirrored coordinates (+-dx, +-dy) equals the computed first-quadrant value (tilt: 180 - tilt in the second and fourth quadrant), and this agrees with evaluating the disk formulas directly at the mirrored centre.", "quantifier": "every property cube of every size, every cell; all reals for the direct evaluation", "why_tests_cant": "all sizes, a continuum", "anchors": ["Shallot.py:_fill_quadrants", "Shallot.py:_extend_grid"]}
{"id": "C57", "title": "The rf = 1 layer is the smallest disk and its diagnostic is zero", "statement": "For every built cell the rf = 1 entry uses the smallest sampled disk radius, the diagnostic map is exactly 0 there, and every cell vector has length 2*num_rf-1.", "quantifier": "every cell and sampling", "why_tests_cant": "all sizes", "anchors": ["Shallot.py:_interpolate_scale_values", "Shallot.py:diagnose_fxfy_resolution"]}
{"id": "C58", "title": "Grid extension in scale space terminates and covers max_rf", "statement": "_extend_grid_horizontally/vertically stop after at most 100*max + 1 rounds; when they return, the outermost sampled disk radius is at least max_rf times the smallest sampled one (or NaN); otherwise AttributeError is raised.", "quantifier": "every parameter set and cell", "why_tests_cant": "unbounded loops", "anchors": ["Shallot.py:_extend_grid_horizontally", "Shallot.py:_extend_grid_vertically"]}
{"id": "C59", "title": "Interpolated scale factors stay within the sampled range", "statement": "Every interpolated fy lies between the smallest and largest fy sampled on its side of the minimum, and hits the sampled values at sampled fractions.", "quantifier": "every sampling and rf", "why_tests_cant": "all lists", "anchors": ["Shallot.py:_interpolate_scale_values"]}
{"id": "C60", "title": "The orbital scale is positive and monotone", "statement": "For 0 <= u <= 1 and velocity > 0 the orbital scale is positive, strictly decreasing in the velocity and in u, and between 4/(3v) and pi/(2v).", "quantifier": "all u, v", "why_tests_cant": "a continuum", "anchors": ["Shallot.py:_determine_orbital_scale"]}
{"id": "C61", "title": "ShallotGrid.save never modifies an existing directory", "statement": "save(directory) into an existing path other than the temporary directory raises FileExistsError and changes no file.", "quantifier": "every file-system state", "why_tests_cant": "all file-system states", "anchors": ["Shallot.py:ShallotGrid.save"]}
{"id": "C62", "title": "ShallotGrid save/load round trip", "statement": "load(save(grid)) has the same parameters, disk radius, inclination, tilt, fx, fy, masks and gradients. Holds for everything but gradients; FALSE for gradients: directories gradient_<pos> of finite positions contain a dot, are taken for files with an extension and skipped, so that all gradients are silently lost; a position that is nan or infinite has no dot in its name and makes load raise AttributeError.", "quantifier": "every grid and file-system state", "why_tests_cant": "all contents", "anchors": ["Shallot.py:ShallotGrid.save", "Shallot.py:ShallotGrid.load", "Shallot.py:_load_grid_attributes"]}
{"id": "C63", "title": "A build interrupted at any point can be resumed without error in the data", "statement": "Whatever moment an intermittently saved build crashes at, once it has removed the temporary directory of earlier builds, loading a copy of the temporary directory either raises or completes to the grid an uninterrupted build gives (with num_fxfy turned into a numpy integer). If no write was torn and the first row had been saved, it does complete.", "quantifier": "every crash point after the first file operation (between file writes or tearing one), every grid, every num_fxfy that is an integer and not a bool, keep_diagnostics=False (with True the build always fails, C65)", "why_tests_cant": "all crash points", "anchors": ["Shallot.py:_build_grid", "Shallot.py:ShallotGrid.save", "Shallot.py:ShallotGrid.load"]}
{"id": "C64", "title": "A crashed build can be resumed from the temporary directory", "statement": "ShallotGrid.load('./.temp_shallot') resumes a crashed build. FALSE: load first builds a throw-away grid whose clean-up deletes the temporary directory, so load always raises and the checkpoint is gone; likewise any other build deletes it.", "quantifier": "every file-system state", "why_tests_cant": "all file-system states", "anchors": ["Shallot.py:ShallotGrid.load", "Shallot.py:_delete_temp_save_dir", "Shallot.py:_build_grid"]}
{"id": "C65", "title": "Saving a grid with diagnostics works", "statement": "save succeeds for a grid built with keep_diagnostics=True into a fresh directory. FALSE: it always raises TypeError after writing the other files, and an intermittently saved build with diagnostics always fails after its first row.", "quantifier": "every grid with diagnostics", "why_tests_cant": "all states", "anchors": ["Shallot.py:ShallotGrid.save", "GridDiagnostics.py:save"]}
{"id": "C66", "title": "Building a grid leaves the caller's parameters alone", "statement": "ShallotGrid(parameters, ...) does not change the parameters object. FALSE: an extendable parameters object is mirrored in place whenever the grid is built, so that the caller's dx, dy, grid shape and extendable flag change; holds for non-extendable parameters and when the build fails.", "quantifier": "every parameters object", "why_tests_cant": "aliasing histories", "anchors": ["Shallot.py:_extend_grid", "GridParameters.py:extend_grid"]}
{"id": "C67", "title": "The viewer index always points at an existing slice", "statement": "For every sequence of scroll events the viewer's index stays between 0 and the number of slices - 1, each event moves it by at most one, and a frozen viewer never moves.", "quantifier": "every scroll history and grid size", "why_tests_cant": "arbitrary histories", "anchors": ["GridProperty.py:GridPropertyViewer.onscroll", "GridProperty.py:GridPropertyViewer.__init__"]}
{"id": "C68", "title": "The rf slice title tells the stretch direction", "statement": "On the rf axis the title says horizontal exactly for slices before the rf = 1 slice, vertical exactly for those after it, and neither on it.", "quantifier": "every num_rf and index", "why_tests_cant": "all sizes", "anchors": ["GridProperty.py:GridPropertyViewer.update_title"]}
{"id": "C69", "title": "A boolean index is taken as 0 or 1, or rejected", "statement": "Passing True/False as the index of add_ring, remove_ring or replace_ring acts as 1/0 or raises. FALSE: replace_ring(True, ring) passes the validation and puts the one ring object at every position (so that the rings overlap themselves), replace_ring(False, ring) changes nothing though it reports success.", "quantifier": "every system and ring", "why_tests_cant": "all system sizes; the validation accepts bool as an integer while numpy takes it for a mask", "anchors": ["RingSystem.py:RingSystem.add_ring", "RingSystem.py:RingSystem.remove_ring", "RingSystem.py:RingSystem.replace_ring"]}
{"id": "C70", "title": "A marked coordinate stands at its own rf on the slice axis", "statement": "On the y and x slices of GridPropertyViewer a coordinate (y, x, rf) is marked where the tick labels of the rf axis read rf. FALSE: the mark is put at location rf, while the labels are 1 + |location - (max_rf - 1)|; label and rf agree for every rf of the grid exactly when max_rf = 2. Holds: the labels under an image column differ from its rf by at most half a column.", "quantifier": "every max_rf > 1, every rf in [1, max_rf], every viewer and coordinate, every column of every grid size", "why_tests_cant": "needs reading the plotted figure; the usual example grid has max_rf 2 where it happens to agree", "anchors": ["GridProperty.py:GridPropertyViewer.plot_coordinates", "GridProperty.py:GridPropertyViewer.set_rf_ticklabels"]}
{"id": "C71", "title": "Only coordinates near the shown slice are marked", "statement": "After any scroll event the marks on the axes are exactly those of the coordinates within the tolerance of the shown slice. FALSE: old marks are removed only when no coordinate is near the new slice, so marks of earlier slices stay. Holds: all near coordinates are marked, nothing is marked when none is near, and a new viewer shows exactly the near ones.", "quantifier": "every viewer, coordinate list and event", "why_tests_cant": "all coordinate lists and scroll histories", "anchors": ["GridProperty.py:GridPropertyViewer.plot_coordinates", "GridProperty.py:GridPropertyViewer.update"]}
{"id": "C72", "title": "A grid is built exactly if every cell can be built, and holds the vectors of its cells", "statement": "ShallotGrid(parameters, num_fxfy) succeeds iff for every cell with a defined shear the sampling and interpolation succeed; then element (y, x) of disk_radius, inclination, tilt, fx_map and fy_map of the first quadrant is exactly the vector computed for that cell alone (NaN for undefined shear), independent of the other cells and of the order, and the properties have no masks. If a cell fails the exception leaves the parameters unchanged; grids with max dx < 0.01 always fail.", "quantifier": "every parameters object, every grid size, every num_fxfy", "why_tests_cant": "unbounded grid sizes; every cell", "anchors": ["Shallot.py:ShallotGrid.__init__", "Shallot.py:_build_grid", "Shallot.py:_initialise_grid_properties"]}
{"id": "C73", "title": "Kept diagnostics of a grid explain its smallest disks", "statement": "For a grid that is not extended and is built with keep_diagnostics=True, diagnostics.get_diagnostic(y, x) returns for every cell with a defined shear two vectors of equal length, and disk_radius in the rf = 1 layer is the smallest of the returned radii.", "quantifier": "every parameters object, every cell", "why_tests_cant": "unbounded grid sizes; relates two objects", "anchors": ["Shallot.py:_build_grid", "GridDiagnostics.py:save_diagnostic", "GridDiagnostics.py:get_diagnostic"]}
{"id": "C74", "title": "get_grid_point_data returns the data of its own grid point", "statement": "For indices inside the grid get_grid_point_data(y, x, rf, masked) succeeds and returns dx[x], dy[y], the rf value of layer rf, and the (y, x, rf) elements of disk_radius, inclination, tilt and of every gradient, NaN where masked if masked is asked for; apart from elements under masks the grid is unchanged.", "quantifier": "every sound grid, every index triple, masked or not", "why_tests_cant": "all sizes and index triples; needs agreement of seven arrays", "anchors": ["Shallot.py:get_grid_point_data"]}
{"id": "C75", "title": "Every disk of a grid spans the eclipse", "statement": "In a complete grid every element (y, x, rf), in all four quadrants and all rf layers, holds either NaN for disk_radius, inclination and tilt, or numbers with disk_radius > 0, 0 <= inclination < 90 and 0 <= tilt <= 180 such that the ellipse with that semi-major axis, inclination and tilt around (dx[x], dy[y]) passes through both end points (-1/2, 0) and (1/2, 0) of the eclipse, and fx_map, fy_map hold positive scale factors that satisfy the eclipse relation.", "quantifier": "every parameters object with finite bounds, every grid size, every num_fxfy, every element", "why_tests_cant": "unbounded grid sizes and real coordinates; needs the geometry of every stored disk, through interpolation and mirroring", "anchors": ["Shallot.py:_build_grid", "Shallot.py:_extend_grid", "Shallot.py:_determine_disk_parameters", "Shallot.py:_interpolate_scale_values"]}
{"id": "C76", "title": "A property, a gradient and a grid can be printed", "statement": "print() of a property, a gradient or a grid succeeds, whatever was called since it was made. FALSE: a property of nothing but NaN always raises TypeError; so does a gradient with a mask from set_mask, every grid without a placeable disk (a single row dy = 0 with no dx = 0), and every grid after add_gradients with a NaN time. Holds: a property that holds a number, a gradient that holds a number and was not given a mask by set_mask, and a grid over finite coordinates with a placeable disk whose gradients hold numbers can always be printed; without set_contrast_parameters a property can be printed exactly if it was made from data with a number.", "quantifier": "every property, gradient and grid, every sequence of calls with any arguments", "why_tests_cant": "all histories of calls and all data", "anchors": ["GridProperty.py:GridProperty.__repr__", "GridProperty.py:GridGradient.__repr__", "Shallot.py:ShallotGrid.__repr__"]}
{"id": "C77", "title": "The printed statistics describe the data", "statement": "The printed mean and median are those of the finite data, and the printed limits are the least and greatest number of the data. The mean and median always are; the limits are for a new property and after set_contrast_parameters without limits. FALSE for the limits otherwise: after set_contrast_parameters(vmin, vmax) the arguments are printed as if they were the extremes (minimum 10, maximum -3), and after a masked read the extremes of the data before. Holds after any history without own limits: data, mean and median lie between the printed limits.", "quantifier": "every property, every data, every history", "why_tests_cant": "all data sizes and histories; the median needs sorting", "anchors": ["GridProperty.py:GridProperty.__repr__", "GridProperty.py:GridProperty.set_contrast_parameters"]}
{"id": "C78", "title": "The printed masked percentage is the share of masked elements", "statement": "The printed percentage times the number of elements is 100 times the number of masked elements; it is 0 exactly if nothing and 100 exactly if everything is masked. A property prints it exactly if it has a mask. A grid counts each element once that is masked in the disk radius, inclination, tilt or any gradient.", "quantifier": "every printed property, every printed sound grid", "why_tests_cant": "all masks, sizes and numbers of gradients", "anchors": ["GridProperty.py:GridProperty.__repr__", "Shallot.py:ShallotGrid.__repr__", "Shallot.py:get_combined_mask"]}
{"id": "C79", "title": "The printed ranges are those asked for", "statement": "The parameters print min_x -> max_x (num_x), min_y -> max_y (num_y), the maximum radius factor and 2 num_rf - 1 layers; for a single sample the end printed is min (and 1 for the radius factor). A grid prints the same, or -max -> max (2 num - 1) if both minima are 0, whatever was called since it was built.", "quantifier": "every valid argument list with finite bounds, every grid and history", "why_tests_cant": "all argument values and all histories; extension changes the vectors", "anchors": ["GridParameters.py:__repr__", "Shallot.py:ShallotGrid.__repr__", "GridParameters.py:extend_grid"]}
{"id": "C80", "title": "The printed diagnostics are those of the grid", "statement": "A grid prints as its worst fit the largest absolute value of the diagnostic map (NaN if it has none); the diagnostics print as their number the number of grid points for which get_diagnostic returns something. FALSE for the number if positions are given as Booleans: one grid point can be printed as two diagnostics. Holds for all sequences of saves with integer positions.", "quantifier": "every printed grid; every sequence of save_diagnostic calls with any arguments", "why_tests_cant": "all sequences of calls, repeated and failing saves included", "anchors": ["Shallot.py:ShallotGrid.__repr__", "GridDiagnostics.py:__repr__", "GridDiagnostics.py:save_diagnostic"]}
{"id": "C81", "title": "plot draws the planet and every ring", "statement": "RingSystem.plot keeps what is on the axes and adds, in this order, a circle of the planet radius around the shift and for each ring the patch of Ring.get_patch; only the value of the shifts counts, not their type; a shift that is not a number or a colour that is not a string raises TypeError before anything is drawn. FALSE for systems without rings: the planet is drawn and IndexError raised before the limits are set.", "quantifier": "every system of finite rings, every shift, colour and axes", "why_tests_cant": "all systems, shifts and argument values", "anchors": ["RingSystem.py:plot", "RingSystem.py:_get_patches", "Ring.py:get_patch"]}
{"id": "C82", "title": "What plot draws lies within the limits that it sets", "statement": "After RingSystem.plot every boundary point of every ring (images of path points in the closed unit disc) and the planet lie within the limits, the rings with a margin of two stellar radii. FALSE: if y_shift > x_shift + 2 the top of every face-on system lies above the upper y limit; the constructor accepts rings in any order but the limits are those of the last one; the planet reaches beyond the x limits exactly if its radius exceeds the disk radius by more than 2. Holds for ordered rings in x and at the lower y limit always, at the upper y limit if y_shift <= x_shift (without margin if y_shift <= x_shift + 2).", "quantifier": "every ring system, inclination, tilt and shift", "why_tests_cant": "real radii, angles and shifts, all numbers of rings", "anchors": ["RingSystem.py:plot", "Ring.py:get_patch", "RingSystem.py:_set_rings"]}
{"id": "C83", "title": "A ring system can be built again from its data", "statement": "RingSystem(planet_radius, *get_rings_data(), inclination, tilt) succeeds and equals the system the data come from, for every system of valid rings in its geometry and after every history of add_ring, remove_ring, replace_ring, split_rings and merge_rings, with or without rings.", "quantifier": "every system, every history of edits", "why_tests_cant": "all numbers of rings and all histories", "anchors": ["RingSystem.py:get_rings_data", "RingSystem.py:__init__", "RingSystem.py:_set_rings"]}
{"id": "C84", "title": "An array handed out by get_data does not change by itself", "statement": "As long as the caller writes into no array, an array that get_data returned, or that was passed in, keeps its contents. FALSE: every read returns the same array object, and a later masked read writes NaN into the array that an earlier unmasked read returned, at every element the mask marks. Holds: dtype, shape and every element are kept except elements that become NaN while a mask of a property keeping the array marks them; arrays that no property keeps as data, such as masks, never change.", "quantifier": "every session with any number of arrays and properties, every sequence of calls", "why_tests_cant": "all sequences of calls; aliasing between objects", "anchors": ["GridProperty.py:get_data", "GridProperty.py:set_mask", "GridProperty.py:__init__"]}
{"id": "C85", "title": "Properties are independent of each other and of the caller's arrays", "statement": "In every session each property goes through exactly the states that its own method calls give by value. FALSE: a masked read of one property writes NaN into every other property made of the same array, and a later write of the caller into the array passed to the constructor, returned by get_data or passed to set_mask changes the property. Holds for every session in which no two properties are made of one array and the caller writes into no array that a property keeps, even if properties share a mask.", "quantifier": "every session with any number of arrays and properties, every sequence of calls", "why_tests_cant": "all sequences of calls; aliasing between objects", "anchors": ["GridProperty.py:get_data", "GridProperty.py:set_mask", "GridProperty.py:__init__"]}
{"id": "C86", "title": "merge_rings undoes split_rings in floating point", "statement": "In rounded arithmetic, split_rings followed by merge_rings with the default tolerance gives back the ring system. FALSE: in binary64 the ring from 1 to 2 split into 3 comes back with an outer radius below 2, the ring from 1 to 1+2^-52 cannot be split into 2 (ValueError, system unchanged), and the ring from 2^33 to 2^34 split into 5 comes back as two rings. Holds up to rounding: for every rounding with relative error u the same number of rings comes back in order, with the same transmissions, inner radii rounded (unchanged if representable) and outer radii within 8u of themselves, if the parts are wider than 12u times the outer radius, the tolerance exceeds 14u times the largest radius, and neighbours of equal transmission are apart by more than the tolerance and 12u times the largest radius. In binary64 this covers all radii up to 10^7.", "quantifier": "every rounding function with a relative error bound, every number of rings, every divisions argument", "why_tests_cant": "rounding errors depend on the values; tests try a few radii and divisions", "anchors": ["RingSystem.py:split_rings", "RingSystem.py:merge_rings"]}
{"id": "C87", "title": "The log of a ring system tells what happened to it", "statement": "The text of a ring system has one line per ring, numbered from 1, with the radii and transmission of that ring, under the planet radius, inclination and tilt. Logging interferes with nothing: results, exceptions and systems are those of the methods without it. A successful add, remove, replace, split or merge logs the text before, the text after and a last line with the index or the numbers of rings before and after; over a session the texts link up, each before being the previous after. An angle of a ring that the system overrides is reported exactly if it differs, with the old and the new value. A call that raises logs nothing. FALSE: inclination and tilt of a system are plain attributes; after assigning one that is out of range, add_ring raises but the override has been logged and the ring object of the caller changed. Holds for systems whose geometry is in range.", "quantifier": "every ring system, every history of edits, every argument value and rounding function", "why_tests_cant": "all histories and argument values, failing calls included", "anchors": ["RingSystem.py:__repr__", "RingSystem.py:_print_changes", "RingSystem.py:_override_ring_geometry", "RingSystem.py:add_ring", "RingSystem.py:remove_ring", "RingSystem.py:replace_ring", "RingSystem.py:split_rings", "RingSystem.py:merge_rings"]}
{"id": "C88", "title": "Each ring system has a log of its own", "statement": "A message of a ring system is written exactly once if its level is at least the level asked for at construction, and otherwise not at all. FALSE: the name of the logger is a random number of numpy's global generator and loggers are shared by name, so if the generator is seeded again two systems share a logger: messages are written twice, or are silenced by the level that the later system asked for. Holds if the generator never repeats a number; in general a message is written once for every system under that name that asked for no more than its level, unless its level is below that asked for by the latest. The constructor accepts exactly the levels that are integers from 10 to 50; a failing construction draws no random number and changes no logger.", "quantifier": "every sequence of constructions with any arguments, every random generator", "why_tests_cant": "all sequences of constructions and all seeds", "anchors": ["RingSystem.py:_set_logger", "RingSystem.py:__init__"]}
{"id": "C89", "title": "get_gradients returns the gradients", "statement": "get_gradients returns four arrays with one entry per gradient in their order: its position, its measured gradient times the orbital scale over the transmission, its measured error, and its cube, which is NaN exactly under its own mask (if property_masked, the default) or under the combined mask (if masked, not the default) and the stored data elsewhere. Without gradients it raises TypeError; otherwise it raises exactly what the first gradient that cannot be scaled raises (ValueError if the scaled gradient exceeds 1).", "quantifier": "every grid state, every list of gradients, all flags", "why_tests_cant": "all numbers of gradients, masks and grid sizes", "anchors": ["Shallot.py:get_gradients", "GridProperty.py:get_scaled_gradient", "GridProperty.py:get_data"]}
{"id": "C90", "title": "Pictures of slices show each value at its place", "statement": "plot_slice shows the slice of the given index (the middle one for None) along the given axis under a title with its coordinate, NaN exactly under the mask if masked, and cannot be scrolled; plot_cube opens at the middle slice. In every picture of a grid, extended or not, a grid point lies in the pixel that shows its value, by the values of x and y and by the labels of the radius factors. Every slice of every valid property can be drawn. FALSE: along an axis with a single point both raise IndexError (a grid with num_rf = 1 cannot be shown by plot_cube); otherwise plot_slice succeeds exactly if axis and index are integers in range, the index possibly None.", "quantifier": "every property, axis, index and grid with finite limits", "why_tests_cant": "all grid sizes and limits", "anchors": ["GridProperty.py:plot_slice", "GridProperty.py:plot_cube", "GridProperty.py:determine_extent", "GridProperty.py:set_rf_ticklabels", "GridProperty.py:GridPropertyViewer.__init__"]}
{"id": "C91", "title": "A ring made from a solution covers the star exactly during the eclipse", "statement": "After any calls on a grid built over finite coordinates: if get_grid_point_data or extract_solutions reports a disk radius, an inclination and a tilt (none NaN), Ring accepts them (any inner radius below, any transmission), and the ring drawn by get_patch at the reported (dx, dy) covers of the line y = 0, on which the star moves, exactly the points with |x| < 1/2, its outer edge meeting the line exactly at x = -1/2 and x = 1/2. The same holds of such a ring after it was added to a RingSystem with the inclination and tilt of the disk.", "quantifier": "every grid over finite coordinates, every history of calls, every reported disk, every ring made from it", "why_tests_cant": "joins the grid, its history and the drawing code over the reals; needs the geometry of all ellipses", "anchors": ["Shallot.py:ShallotGrid.get_grid_point_data", "Shallot.py:ShallotGrid.extract_solutions", "Ring.py:Ring.__init__", "Ring.py:Ring.get_patch", "RingSystem.py:RingSystem.add_ring"]}
{"id": "C92", "title": "Grid vectors keep their order and limits in floating point", "statement": "Whatever the rounding of float operations: GridParameters accepts the same arguments, and with finite limits and at most 1/(4u) points per axis (2^51 in binary64) each vector begins with the lower limit, ends with the upper one, never leaves the limits, never decreases, and each value is within u (max(|min|,|max|) + 4 (max - min)) of its place in an even division; values are distinct if the spacing is more than twice that. (Otherwise they can be equal: in binary64 for ten points from 2^53 to 2^53+4.)", "quantifier": "every rounding function with relative error u that keeps the order, the sign and floats (binary64 is one), all limits and counts", "why_tests_cant": "rounding errors depend on the values; tests try a few", "anchors": ["GridParameters.py:_determine_dx", "GridParameters.py:_determine_dy", "GridParameters.py:_determine_rf"]}
{"id": "C93", "title": "An extended grid is the mirror image of the grid in floating point", "statement": "In rounded arithmetic, extend_grid mirrors the vectors about zero. FALSE: in binary64 fifty points from 0 to 1 extend to ninety-nine points without zero: the middle one is negative, because 49 * (1/49) is not 1. Holds up to rounding: for every rounding with relative error u each value is within 14 u times the limit of the mirror image, and the extended vectors run in order from minus the limit to the limit.", "quantifier": "every rounding function as in C92, all limits and counts from 2 up to 1/(8u)", "why_tests_cant": "rounding errors depend on the values; tests try a few", "anchors": ["GridParameters.py:extend_grid"]}
{"id": "C94", "title": "Every gradient is the slope of the edge of its disk", "statement": "After any calls on a grid built over finite coordinates, every number in the cube of every gradient, and in what get_gradients returns, is |sin| of the angle between the x axis and the tangent, at (position, 0), of the ellipse of the disk that the grid was built with at this grid point (its disk radius, inclination and tilt around (dx, dy)), scaled around its centre to pass through that point. As long as no scale factor was replaced by NaN, add_gradients adds one gradient per time, in order, at -time / duration, and an element is NaN exactly if there is no disk, the position is no finite number, the point is the centre, or the tangent is vertical.", "quantifier": "every grid over finite coordinates, every history of calls, every gradient, grid point and position", "why_tests_cant": "joins the scale factors, the history and the geometry of all ellipses over the reals", "anchors": ["Shallot.py:ShallotGrid._determine_disk_gradients", "Shallot.py:ShallotGrid.add_gradients", "Shallot.py:ShallotGrid.get_gradients", "Shallot.py:ShallotGrid._determine_disk_parameters"]}
{"id": "C95", "title": "A disk remains a candidate exactly if its edge is steep enough", "statement": "After a grid over finite coordinates was built, set_eclipse_parameters was called and add_gradients was called any number of times with finite numbers, all successfully, the combined mask leaves out a grid point exactly if it holds no disk or there is a measurement (time, slope, transmission change) such that |sin| of the angle of the tangent of the edge of its disk, where the star stands at that time, is below slope * (6 - 2u) / (12 - 12u + 3 pi u) * pi / velocity / transmission.", "quantifier": "all grids over finite coordinates, all eclipse parameters, all sequences of calls of add_gradients, all grid points", "why_tests_cant": "a continuum of geometries and measurements; only grid points whose edge is exactly vertical disagree, and they are the ones on the path of the star", "anchors": ["Shallot.py:add_gradients", "Shallot.py:_determine_disk_gradients", "Shallot.py:_determine_orbital_scale", "Shallot.py:get_combined_mask", "GridProperty.py:determine_mask"]}
{"id": "C96", "title": "A grid prints every gradient with what was measured", "statement": "Whatever was called since it was built, a grid that can be printed prints its disk radius, tilt and inclination under these titles, and one entry for each of its gradients in their order, with position and, exactly if the gradient has a mask, the four stored values. After set_eclipse_parameters and add_gradients the entries are, in the order of the measurements given, at -time / duration and show slope, error, the orbital factor and the transmission change of that measurement.", "quantifier": "all grids, all histories of calls, all measurements", "why_tests_cant": "all numbers of gradients and histories; an entry dropped or exchanged is only seen with several gradients of different values", "anchors": ["Shallot.py:ShallotGrid.__repr__", "GridProperty.py:GridGradient.__repr__", "GridProperty.py:GridProperty.__repr__", "Shallot.py:add_gradients"]}
{"id": "C97", "title": "The extracted solutions are the best disks that explain the eclipse", "statement": "After a grid is built, set_eclipse_parameters and add_gradients have succeeded and determine_gradient_fit has been called, extract_solutions(n) returns n rows that belong to different grid points; every row is the disk that the grid holds there; that disk crosses the star path so that a ring made from it covers the star exactly during the eclipse; where the star stands at the time of each measurement its edge has a tangent at least as steep as the measured slope asks for; the value reported is the sum over the measurements of the squared difference of the two (over the squared error if weighted); the rows are in order of that value; and every disk of the grid that explains the measurements is among them or has no smaller value. Without n all such disks are returned. It raises exactly if n is negative or above their number.", "quantifier": "All grids over finite coordinates, all eclipse parameters, all sequences of add_gradients calls with finite times, slopes, errors > 0 and transmission changes > 0, weighted or not, all n.", "why_tests_cant": "The claim is about the geometric meaning of every row for every grid and every set of measurements, through six methods and three classes; a test compares single rows with values produced by the same code.", "anchors": ["Shallot.py:ShallotGrid.extract_solutions", "Shallot.py:ShallotGrid.determine_gradient_fit", "Shallot.py:ShallotGrid.add_gradients", "Shallot.py:ShallotGrid.set_eclipse_parameters"]}
{"id": "C98", "title": "The log of a grid tells what happened", "statement": "Logging changes no result and no state. Building logs one line per row that is built, from 1 to their number, and then the largest absolute value in the diagnostic map, NaN not counted. In any session, 'gradient fit has been cleared' is logged exactly once by each call that takes an existing fit away, and 'gradients set to None' exactly once by each call that takes existing gradients away. 'adding n gradients' is logged by the calls that add n gradients. A call that logs 'eclipse parameters missing', 'no gradients found', 'no changes passed' or 'no gradients present' returns, logs nothing else and leaves the grid unchanged. 'no gradient fit found' is logged exactly if there is none; 'determining n' gives the number of gradients; 'extracting n out of m' gives the number of rows that are returned and the number of unmasked grid points. determine_closest_grid_point logs each given value beside the value at the returned grid point, and the returned distance. FALSE for 'adding' if the eclipse duration is a np.longdouble: it is logged, and then the call raises and adds nothing. FALSE for the impact parameter: the value that is logged is that of the returned dy in the first row at most.", "quantifier": "every session of calls with any arguments on any grid", "why_tests_cant": "all sessions, arguments and grid sizes", "anchors": ["Shallot.py:ShallotGrid._build_grid", "Shallot.py:ShallotGrid.diagnose_fxfy_resolution", "Shallot.py:ShallotGrid._reset_gradient_fit", "Shallot.py:ShallotGrid.add_gradients", "Shallot.py:ShallotGrid.set_eclipse_parameters", "Shallot.py:ShallotGrid.determine_closest_grid_point"]}
{"id": "C99", "title": "Each grid has a log of its own", "statement": "A message of a grid that was constructed or loaded is written exactly once if its level is at least the level asked for, and otherwise not at all, whatever other grids are constructed or loaded. FALSE: loggers are shared by name and the name is a random number of numpy's global generator, so after seeding again two grids share a logger; moreover load first makes a small grid with a logger of level 50, so any call of load, even one that raises, can silence an existing grid below level 50. Holds if the generator never repeats a number; in general a message is written once for every request of that name with no more than its level, unless its level is below that of the latest request. The constructor and load change files and succeed or raise as without loggers if the level is an integer from 10 to 50. Otherwise the constructor raises and nothing changes, but load raises only after it has removed the temporary directory, drawn a random number and set a logger.", "quantifier": "every sequence of constructions and loads with any arguments, every random generator and file system", "why_tests_cant": "all sequences of constructions and loads and all seeds", "anchors": ["Shallot.py:ShallotGrid._set_logger", "Shallot.py:ShallotGrid.__init__", "Shallot.py:ShallotGrid.load"]}
{"id": "C100", "title": "Numbers are printed correctly rounded", "statement": "A number in a text, printed with d digits after the point, is a decimal with exactly d digits after the point whose value differs from the number by at most half a unit of the last digit. A number that has at most d digits is printed exactly. A number halfway between two decimals is printed as the one whose last digit is even. A larger number is never printed as a smaller one. NaN and the infinities are printed as nan, inf and -inf, which are no decimals.", "quantifier": "every number and every number of digits", "why_tests_cant": "all numbers and precisions", "anchors": ["Ring.py:Ring.__repr__", "RingSystem.py:RingSystem.__repr__", "GridParameters.py:GridParameters.__repr__", "GridProperty.py:GridProperty.__repr__", "GridProperty.py:GridGradient.__repr__", "Shallot.py:ShallotGrid.__repr__"]}
{"id": "C101", "title": "Texts tell objects apart", "statement": "Two rings, ring systems, grid parameters, properties, gradients, diagnostics or grids that print the same text agree in every printed value to the printed precision, have as many rings, gradients and diagnostics, the same shape, name and unit, and both have a mask or neither has. What stands behind a label in a text is the value of that name, and the rings in the table are numbered from 1 in their order. Two viewers with the same title show the same kind of property along the same axis and direction at values that agree to four digits. Two different keys of diagnostics are different texts, so no cell overwrites another. What is written before and after a change of a ring system tells which of the two it is, the action, and the system at that time; its title stands in the middle of its line.", "quantifier": "every pair of objects", "why_tests_cant": "all pairs of objects, with any numbers of digits before the point, any number of rings and gradients", "anchors": ["Ring.py:Ring.__repr__", "RingSystem.py:RingSystem.__repr__", "GridParameters.py:GridParameters.__repr__", "GridDiagnostics.py:GridDiagnostics.__repr__", "GridDiagnostics.py:GridDiagnostics._generate_key", "GridProperty.py:GridProperty.__repr__", "GridProperty.py:GridGradient.__repr__", "GridProperty.py:GridPropertyViewer.update_title", "Shallot.py:ShallotGrid.__repr__"]}
{"id": "C102", "title": "The arrays of a grid are separate objects", "statement": "Whatever is called on a grid since it was constructed, and whatever the caller keeps and writes, no array is the data or the mask of two attributes. So a caller who writes into an array that a getter returned changes exactly that element of that attribute; one who writes into another array changes nothing. A caller who writes into no array sees the grid that is described by values, and the getters of disk radius, tilt, inclination, fx and fy return the same object every time.", "quantifier": "every session of calls with any arguments, with arrays kept and written into at any time", "why_tests_cant": "all sessions and interleavings; aliasing shows only in later reads of another attribute", "anchors": ["Shallot.py:ShallotGrid._initialise_parameters", "Shallot.py:ShallotGrid._build_grid", "Shallot.py:ShallotGrid._extend_grid", "Shallot.py:ShallotGrid.get_gradients", "Shallot.py:ShallotGrid.get_combined_mask", "GridProperty.py:GridProperty.get_data", "GridProperty.py:GridProperty.determine_mask"]}
{"id": "C103", "title": "An array that a getter returned is the caller's own", "statement": "An array that a getter of a grid returned stays what it is as long as the caller does not write into it, and writing into it leaves the grid as it is. FALSE for the getters of properties: they return the attribute, so writing changes the grid, and a later call of the same getter with masked=True puts NaN into the array that the caller has. True for the array of gradients and the combined mask, which are new; and all that a call ever does to an array that already exists is to put NaN in some places.", "quantifier": "every session of calls with any arguments", "why_tests_cant": "all sessions; the change is in an array returned earlier", "anchors": ["GridProperty.py:GridProperty.get_data", "Shallot.py:ShallotGrid.get_disk_radius", "Shallot.py:ShallotGrid.get_gradients", "Shallot.py:ShallotGrid.get_combined_mask"]}
{"id": "C104", "title": "Scale factors in floating point", "statement": "In floating point, the scale factors fx and fy that are computed for a grid point are those of exact arithmetic up to a small relative error, and NaN exactly where those are. FALSE for disks much wider than the eclipse: with the centre 2^27 eclipse durations from the star path and fy = 1 the exact fx is 1 and the computed one NaN; and with fx = 1 and the centre 2^-28 from the star path the exact fy is 1 and the computed one NaN. True with a relative error of 34 u W for fx and 40 u W / (W - 1) for fy, where W = fx^2 (1 + 4 dy^2) is the squared width of the disk and u the accuracy of the arithmetic, as long as these are small.", "quantifier": "every arithmetic with relative error u and every library accurate to u, all centres and scale factors", "why_tests_cant": "rounding errors depend on every input; the failures need centres that no test has", "anchors": ["Shallot.py:ShallotGrid._determine_fx", "Shallot.py:ShallotGrid._determine_fy"]}
{"id": "C105", "title": "Radius, inclination and tilt in floating point", "statement": "In floating point the disk parameters that are computed for any positive scale factors, any shear and any circle are numbers, never NaN; the radius is the largest distance of the ellipse up to a relative error of 117 u; the cosine of the inclination is the ratio of smallest and largest distance up to 290 u; the axis has the direction of the exact one up to an angle of sine at most 110 u times R/r (R^2 + r^2) / (R^2 - r^2). From the grid point and fy on, with the shear, the circle and fx computed as well, the radius is off by at most 170 u W and the cosine of the inclination by 400 u W, W the squared width of the disk. So in binary64 with a library accurate to 2^-50, for |dy| <= 100 and fy >= 1, the radius is right to 1e-8.", "quantifier": "every arithmetic with relative error u and every library accurate to u, all scale factors, shears and grid points", "why_tests_cant": "rounding errors depend on every input; near circles and near lines the angles are ill conditioned and only a proof shows that the radius is not affected", "anchors": ["Shallot.py:ShallotGrid._determine_disk_parameters", "Shallot.py:ShallotGrid._calculate_vertex_and_covertex_angles", "Shallot.py:ShallotGrid._calculate_xy_from_parameteric_angle", "Shallot.py:ShallotGrid._determine_circular_radius", "Shallot.py:ShallotGrid._determine_shear", "Shallot.py:ShallotGrid._determine_fx"]}
{"id": "C106", "title": "A rejected argument is named together with what it should have been", "statement": "If validate.number or validate.array raises, the message names the argument that is wrong, says what is wrong with it, and if it is out of bounds lists, joined by 'and', exactly the bounds that are broken, with their direction, strictness and four digits. Two arrays rejected with the same message break the same bounds. same_shape_arrays names every array with its shape, or the first argument that is no array. A shape in a message can be read back, and different shapes are different texts. A failed load tells what could not be loaded and from where. Without messages the calls are those of C01 to C04. FALSE for a number that equals two equal exclusive bounds: the two parts run together without anything between them.", "quantifier": "every call with any arguments, names and bounds", "why_tests_cant": "all values, names, bounds and shapes; the code cuts a fixed number of letters off the end of a text", "anchors": ["validate.py:number", "validate.py:_number_bounds", "validate.py:array", "validate.py:_array_bounds", "validate.py:same_shape_arrays", "errors.py:InvalidShapeError", "errors.py:InvalidDimensionsError", "errors.py:LoadError"]}
{"id": "C107", "title": "A ring that is rejected because it overlaps is shown to overlap", "statement": "If a ring is rejected because it overlaps a neighbour, the message shows the radius of the ring and the radius of the neighbour that it collides with, so that the two numbers that are shown overlap. FALSE for overlaps of less than a hundredth: both numbers may print the same. The numbers never contradict the overlap and show it if it is more than a hundredth. The message asks for an inner radius greater than the outer radius of the ring before, but an equal one is accepted.", "quantifier": "every ring system, ring and index", "why_tests_cant": "all radii, also those that differ by less than what is printed", "anchors": ["RingSystem.py:RingSystem._prevent_ring_overlap", "RingSystem.py:RingSystem.add_ring", "RingSystem.py:RingSystem.replace_ring"]}
{"id": "C108", "title": "The edge of the floating-point disk passes both ends of the eclipse", "statement": "For a grid point with a shear, a scale factor fy with a defined fx and floating point functions of relative error u, the radius, inclination and tilt that the code computes (fx, shear, circle radius and disk parameters all rounded) describe an ellipse around (dx, dy) whose quadratic form at the two ends of the eclipse (+-1/2, 0) differs from 1 by at most u (101 W + 5 |dx| + 12000 / cos^2 i), W the squared width of the disk along the star path and i its true inclination, as long as the three terms are small; for binary64, fy >= 1, |dx|, |dy| <= 100 and cos i >= 1/100 by at most 2e-7. Likewise every point of the stretched and sheared circle lies on the computed edge up to 8000 u / cos^2 i, also for nearly round disks whose computed tilt is arbitrary.", "quantifier": "all real dx, dy, fy, all floating point libraries with relative error u, every point of the ellipse", "why_tests_cant": "a test compares sampled disks to a tolerance; nearly round disks (where the tilt is meaningless) and nearly edge-on ones need a bound in terms of the inclination", "anchors": ["Shallot.py:ShallotGrid._determine_fx", "Shallot.py:ShallotGrid._determine_shear", "Shallot.py:ShallotGrid._determine_disk_parameters", "Shallot.py:ShallotGrid._calculate_vertex_and_covertex_angles"]}
{"id": "C109", "title": "Gradients and masks in floating point", "statement": "In floating point, the gradient that is computed for a disk and a measurement is that of exact arithmetic up to a small error, a number where that is one, and the measurement masks the disk exactly if it does so in exact arithmetic. FALSE for disks whose centre is far along the star path: a circle centred 2^27 eclipse durations ahead of the star has the gradient 0 in the middle of the eclipse, the computed one is NaN, which masks it. True up to an error of 35 u F for the gradient, where F compares the sizes of the terms that are added with the length of the vector along the edge, and for the mask if the steepness of the edge differs from the one asked for, T, by more than u (38 F + 51 T), as long as the edge is not vertical up to such an error. T itself is computed with a relative error of 51 u. Where the edge is vertical the computed gradient is NaN or near 1.", "quantifier": "every arithmetic with relative error u and every library accurate to u, all disks, measurements, velocities and limb darkening parameters", "why_tests_cant": "rounding errors depend on every input; the failure needs disks that no test has", "anchors": ["Shallot.py:ShallotGrid._determine_disk_gradients", "Shallot.py:ShallotGrid._determine_orbital_scale", "Shallot.py:ShallotGrid.add_gradients", "GridProperty.py:GridGradient.get_scaled_gradient", "GridProperty.py:GridGradient.determine_mask"]}
{"id": "C110", "title": "The best solutions in floating point", "statement": "In floating point, extract_solutions returns the disks with the best fit, best first. FALSE: gradients 2^-60 and 2^-61 get the same fit if 1/2 was measured, and whichever comes first in the grid wins. True up to roundings: the computed fit of n gradients is that of the stored numbers up to a factor (1 - u)^(n + 5) either way, so no disk is better than an extracted one by more than a factor (1 - u)^(2n + 10), and disks that differ by more are told apart. From the measurements on, the root of the computed fit is that of exact arithmetic up to these roundings and up to the root of the sum of the squared errors of gradients and scaled measurements (C109).", "quantifier": "every arithmetic with relative error u, any number of measurements, all grids and disks", "why_tests_cant": "rounding errors depend on every input and add up over the measurements", "anchors": ["Shallot.py:ShallotGrid.determine_gradient_fit", "Shallot.py:ShallotGrid.extract_solutions", "Shallot.py:ShallotGrid.add_gradients", "GridProperty.py:GridGradient.get_scaled_gradient"]}
{"id": "C111", "title": "Gradients on an extended grid in floating point", "statement": "In floating point, the gradients on an extended grid are those of the mirror images of the disks, up to rounding. FALSE on the axes: extending 50 by 50 points from 0 to 1 leaves -2^-53 in the middle of both vectors, the shear of the disks centred on the star becomes -1, and they get a gradient of about sin 45 degrees for a vertical edge (NaN without rounding); this holds for any tiny equal pair of middle values. Away from the horizontal axis it is true up to an explicit bound: the condition number of the gradient times the relative error, plus the effect of displacing the centre by 14 u times the largest limit.", "quantifier": "every arithmetic with relative error u, all grids from zero, all quadrants, positions and scale factors", "why_tests_cant": "the error at the centre does not shrink with the precision, and appears only for some numbers of grid points", "anchors": ["GridParameters.py:GridParameters.extend_grid", "Shallot.py:ShallotGrid._extend_grid", "Shallot.py:ShallotGrid._determine_shear", "Shallot.py:ShallotGrid._determine_disk_gradients"]}
{"id": "C112", "title": "The curve drawn for a solution is the one that was fitted", "statement": "The notebooks compute gradients by a formula of their own, from inclination and tilt, in stellar diameters and days. For every solution that extract_solutions returns, the curve that they draw for it is, at the time of every measurement, the gradient that was fitted: not below the corrected slope over the transmission change, and with squared distances that add up to the reported rms. More generally, after any history of calls, every number that a gradient of the grid holds is the height of that curve, on any scale; the curve of the mirror image is the same. Where the grid has NaN, the notebooks have 1 if the edge is vertical and NaN at the centre of the disk.", "quantifier": "all grids over finite coordinates, histories, measurements, velocities, durations, scales and disks", "why_tests_cant": "two different formulas have to agree for every disk and position, not at the plotted points only", "anchors": ["Shallot.py:ShallotGrid._determine_disk_gradients", "Shallot.py:ShallotGrid.extract_solutions", "Shallot.py:ShallotGrid.determine_gradient_fit"]}
{"id": "C113", "title": "The ring systems drawn for the solutions", "statement": "From every solution, after any history, the notebooks make a ring system with one ring, which drawn at the scaled centre covers exactly the path of the star between the dashed lines at half the scale, with its edge through their crossings. Sorting by disk radius keeps the numbers of a solution together. The loops draw, of the first twenty solutions, exactly those with dy not positive, and raise IndexError for fewer than twenty. FALSE for the curves of the second analysis: which of them are left out is decided by dy_sorted of the first analysis.", "quantifier": "all grids, histories, scales above 2e-16, sort orders and lists of solutions", "why_tests_cant": "the covered interval and the choice of solutions depend on every disk; the wrong list has the same length and type", "anchors": ["RingSystem.py:RingSystem.__init__", "Ring.py:Ring.get_patch", "Shallot.py:ShallotGrid.extract_solutions"]}
{"id": "C114", "title": "A grid can be analysed again", "statement": "A grid takes long to make and is analysed many times. After any sequence of calls on a new grid, successful or raising, set_eclipse_parameters starts over: it leaves the grid as it would leave the new grid, so that the next analysis finds the best solutions among the disks of the new grid.", "quantifier": "all grids, all sequences of calls with all arguments, all parameters and measurements of the next analysis", "why_tests_cant": "the state left by one analysis shows only in the next, and only at the points that the first excluded", "anchors": ["Shallot.py:ShallotGrid.set_eclipse_parameters", "Shallot.py:ShallotGrid.add_gradients", "Shallot.py:ShallotGrid.extract_solutions", "Shallot.py:ShallotGrid.get_fx_map"]}
{"id": "C115", "title": "A grid that is built in floating point", "statement": "Whatever the rounding, the loops that scale the disks end after at most 100 max rounds or raise AttributeError, every column gets 2 num_rf - 1 disks, and each disk is computed from its own fx and fy. Interpolated fy lie between tried ones up to 22u. Every disk that the grid holds passes both ends of the eclipse up to the error of C108. Points on the star path off the centre get none.", "quantifier": "all floating point libraries with relative error u, all grids, all grid points and layers", "why_tests_cant": "the build is tried on a few grids with one library, and a disk that is slightly wrong looks like a right one", "anchors": ["Shallot.py:ShallotGrid._extend_grid_horizontally", "Shallot.py:ShallotGrid._extend_grid_vertically", "Shallot.py:ShallotGrid._interpolate_scale_values", "Shallot.py:ShallotGrid._determine_disk_parameters", "Shallot.py:ShallotGrid._build_grid"]}
{"id": "C116", "title": "An eclipse caused by a disk of the grid is traced back to it", "statement": "If the slopes of the light curve are those that the edge of a disk of the grid causes, every call of the analysis succeeds; the first solution has the fit 0 and causes exactly these slopes; and the disk itself is among the solutions, unless all solutions asked for cause the same slopes. If the transmission changes were overestimated, the disk is still among all solutions.", "quantifier": "all grids, all disks of them, all eclipse parameters, all numbers of measurements in all splits, weighted or not", "why_tests_cant": "an injected disk can be tried at a few grid points and times only; ties between disks are rare in samples", "anchors": ["Shallot.py:ShallotGrid.set_eclipse_parameters", "Shallot.py:ShallotGrid.add_gradients", "Shallot.py:ShallotGrid.determine_gradient_fit", "Shallot.py:ShallotGrid.extract_solutions"]}
{"id": "C117", "title": "A rejected object blames the first argument that is at fault", "statement": "If the constructor of Ring, RingSystem or GridParameters, a setter of a ring or set_eclipse_parameters raises, its message is about the first argument that breaks a demand: it names the argument and lists exactly the bounds that are broken, and all arguments before are fine. If all demands are met the call succeeds. FALSE in three ways: several values as the inner radius of a ring are refused without naming it; a ring made with NaN as inner and a negative outer radius blames an upper_bound when a valid inner radius is set; a ring system blames an outer_radius, which is no argument of it, and does not tell which ring.", "quantifier": "all calls with any arguments, of any type", "why_tests_cant": "the order of the checks and the bounds depend on all arguments together; a message may be about a value that is fine", "anchors": ["Ring.py:Ring.__init__", "Ring.py:Ring.inner_radius", "RingSystem.py:RingSystem._set_rings", "GridParameters.py:GridParameters.__init__", "Shallot.py:ShallotGrid.set_eclipse_parameters"]}
{"id": "C118", "title": "A rescaling that fails changes nothing", "statement": "If update_gradient_scaling raises, the grid is as before: velocity, limb darkening, all gradients with their masks, and the fit. It raises exactly when the transmission changes are no array of the right type, range and length or determine_mask rejects the new scaling of a gradient.", "quantifier": "all grids with any number of gradients, all arguments of any type", "why_tests_cant": "the failure may come at any gradient of the loop, after any number of gradients have been changed", "anchors": ["Shallot.py:ShallotGrid.update_gradient_scaling", "Shallot.py:ShallotGrid._determine_orbital_scale", "GridProperty.py:GridGradient.determine_mask"]}
{"id": "C119", "title": "An eclipse caused by a disk of the grid is traced back to it in floating point", "statement": "In floating point too, a disk whose edge is at least as steep as the measurements ask for is not masked by them, and the solutions that are extracted contain it or are at most as far from the measurements as this disk, up to rounding errors.", "quantifier": "all grids, disks and measurements, any number of them, and every rounding with a bounded relative error", "why_tests_cant": "rounding errors in positions, gradients, scales and sums depend on every input; only special disks are lost", "anchors": ["Shallot.py:ShallotGrid.add_gradients", "GridProperty.py:GridGradient.determine_mask", "Shallot.py:ShallotGrid.determine_gradient_fit", "Shallot.py:ShallotGrid.extract_solutions"]}
{"id": "C120", "title": "The closest grid point in floating point", "statement": "In floating point determine_closest_grid_point answers with a readable grid point whose distance from the query, with the rows where the code puts them, is the smallest up to a factor (1-u)^8 and 7u (|dy_min| + |dy_max - dy_min|) for each row, provided that rounding moves no row across zero; on a symmetric grid it never does. The returned distance is right up to (1-u)^4 and the row. A query for the parameters of a disk in the first row gets distance 0 exactly, from a grid point with exactly these parameters. Where no grid point is readable a ValueError is raised.", "quantifier": "all grids, masks, queries and every floating point library with relative error u", "why_tests_cant": "which of two nearly equal distances is smaller depends on every rounding, and on every grid point", "anchors": ["Shallot.py:ShallotGrid.determine_closest_grid_point"]}
{"id": "C121", "title": "The Hill radius mask in floating point", "statement": "On a grid that is built in floating point, generate_hill_radius_mask(h) masks every disk of which the true edge reaches farther than h from its centre and keeps every other one, except for disks whose radius is h up to a relative error of 170 u w, w the squared width of the disk; at most 1e-8 in double precision for scale factors from 1 on and dy up to 100. Points of the grid without a disk are masked.", "quantifier": "all grids and grid points, all Hill radii, every floating point library with relative error u", "why_tests_cant": "the radius goes through some forty rounded operations, and a disk on the wrong side of the limit looks like any other", "anchors": ["Shallot.py:ShallotGrid.generate_hill_radius_mask", "Shallot.py:ShallotGrid._build_grid", "Shallot.py:ShallotGrid._determine_disk_parameters"]}
{"id": "C122", "title": "The printed statistics in floating point", "statement": "In floating point the printed mean of a property lies between its printed minimum and maximum, it is the mean of the numbers up to 2 (27 + k) u of their mean size for up to 112 * 2^k + 16 elements, the printed median is the median rounded once and lies between the limits, and the printed percentage of masked elements is their share up to 3 u, is never above 100, and is 0 or 100 only if nothing or everything is masked.", "quantifier": "all properties and histories, every size of grid, every rounding with relative error u, in the order in which numpy adds", "why_tests_cant": "how far a sum is off depends on the number of elements and on the order of the additions, and the mean of three equal numbers can be another number", "anchors": ["GridProperty.py:GridProperty.__repr__"]}
{"id": "C123", "title": "The measurements that the notebooks read back and tabulate", "statement": "After the notebooks have analysed their measurements, the grid gives back the times, the gradients (the slopes, corrected and over the transmission changes) and the errors of exactly these measurements in their order, and after other transmission changes were set, those with the new ones; the printed table has one line for each of them, with the time, the slope and the transmission change to two decimals. A point that is drawn has an error bar which is in the same ratio to it as the error to the slope, and the points of the combined light curve have their own errors.", "quantifier": "all grids with any history, all eclipse parameters, any number of measurements, and every rounding for the times", "why_tests_cant": "the notebooks are run once on one data set, in which no number shows whether it went through the grid unchanged", "anchors": ["j1407_analysis.ipynb", "pds_analysis.ipynb", "Shallot.py:ShallotGrid.add_gradients", "Shallot.py:ShallotGrid.get_gradients", "Shallot.py:ShallotGrid.update_gradient_scaling"]}
{"id": "C124", "title": "The disk of the paper is drawn in its place", "statement": "The notebooks convert the disk of a paper, in which the star moves to the right and distances are days or kilometres, to one in which the disk moves over the star. The ring system they draw for it covers a point of the picture exactly if the disk of the paper covers the mirrored point, and its edge likewise; the curve they draw for it has at every time the gradient of the edge of the disk of the paper at the star, and is missing only where the star is at its centre; the radius from kilometres is the one in days.", "quantifier": "all disks, stars, velocities and eclipse durations, all points of the picture and all times", "why_tests_cant": "the picture of one disk looks right with the wrong sign of a shift or of the tilt too, since the curve does not change if both are mirrored", "anchors": ["j1407_analysis.ipynb", "pds_analysis.ipynb", "Ring.py:Ring.get_patch"]}
{"id": "C125", "title": "The drawn rings in floating point", "statement": "Computed in floating point, with or without fused additions, the patch of a ring has the same vertices in the same order as without rounding, each coordinate off by at most 62 u radii and u times the shift of the centre (u the relative error of one operation, so less than 1e-13 of radius plus shift in double precision); so is every point of the curves between the vertices. A vertex on the unit circle is drawn that close to the edge of the ring, the inner edge is drawn inside the outer one wherever the ring is wider than the two errors over the cosine of the inclination, and the opacity stays between 0 and 1. This holds of every ring made by the constructor and any setter calls without NaN.", "quantifier": "all rings, shifts, paths in the unit square and points of their curves, all histories of setter calls, all accurate rounding functions", "why_tests_cant": "tests compare a few vertices with a tolerance that was chosen to pass; whether the errors of the matrix product add up for large shifts or steep inclinations is not visible in them", "anchors": ["Ring.py:Ring.get_patch"]}
{"id": "C126", "title": "The curves of the notebooks in floating point", "statement": "Computed in floating point, the curve that the notebooks draw for a disk is off by at most 800 u over the cubed cosine of the inclination everywhere on the path except at the centre of the disk, also where the edge is vertical; in double precision and up to 80 degrees that is below 1e-9. With positions and centre scaled in floating point as for the solutions, the bound is three times that, times the size of the coordinates over the distance to the centre. At the centre there is no number, and the times of the points have a relative error of at most 5 u.", "quantifier": "all disks with inclinations below 90 degrees, all positions, scales and eclipse parameters, all accurate rounding functions", "why_tests_cant": "the curves are only looked at; near the vertical edge the tangent is a quotient of nearly zero and nearly zero and a wrong formula would show up only for some disk", "anchors": ["j1407_analysis.ipynb", "pds_analysis.ipynb"]}
{"id": "C127", "title": "The plot of a ring system in floating point", "statement": "In floating point, plot draws the planet as given and every ring in its place, and all of it lies between the limits of the axes. FALSE in general: as in exact arithmetic (C82), and far out, where the two limits round to the same number; true, with a margin of one stellar radius, for ordered rings while radii and shifts are small against 1/u.", "quantifier": "every library of float functions with relative error u, every well-formed ring system, every path in the unit square, every shift", "why_tests_cant": "all numbers, all libraries, all systems", "anchors": ["RingSystem.py:plot", "RingSystem.py:_get_patches", "Ring.py:get_patch"]}
{"id": "C128", "title": "A coordinate is marked on its slice", "statement": "Each coordinate given to a viewer is marked on exactly one slice, the nearest one, also in floating point. FALSE: a coordinate between two slices is marked on none, and along the Rf axis it is marked on the horizontal and the vertical slice. Holds: within 33 % of the distance of two slices it is marked and beyond 34 % it is not, after any scroll events, so that it is marked on one slice at most (of each side of the Rf axis); the labels of the Rf axis are right up to rounding.", "quantifier": "every rounding function with relative error u, every grid whose slices are a thousand rounding errors apart, every list of coordinates, every sequence of scroll events", "why_tests_cant": "all grids, coordinates and scroll histories", "anchors": ["GridProperty.py:GridPropertyViewer.plot_coordinates", "GridProperty.py:GridPropertyViewer.onscroll", "GridProperty.py:GridPropertyViewer.set_rf_ticklabels"]}
{"id": "C129", "title": "A viewer shows the values it was opened on", "statement": "A viewer that was opened with masked=False shows the unmasked values of its property on every slice it is scrolled to, whatever is done with the property and its other viewers. FALSE: a viewer has the array of the property itself, and every read with masked=True, also that of another viewer, puts NaN into it; the picture is wrong from the next scroll event on. Holds: a picture is always the slice of the data as they were when it was last drawn, frozen viewers keep theirs, each element is the first value or NaN under a mask that was in force at a masked read, and without masked reads every picture is right.", "quantifier": "every property, all sequences of method calls, new viewers and scroll events, with any arguments and exceptions caught", "why_tests_cant": "a test opens one viewer of one property; it takes a mask, a second viewer and a scroll event in this order to see it", "anchors": ["GridProperty.py:GridPropertyViewer.__init__", "GridProperty.py:GridPropertyViewer.update", "GridProperty.py:GridPropertyViewer.onscroll", "GridProperty.py:GridProperty.get_data"]}
{"id": "C130", "title": "Contrast parameters are set all or nothing and in order", "statement": "A call of set_contrast_parameters either stores all four parameters or raises and stores none, and afterwards vmin does not exceed vmax. FALSE in both respects: the parameters are stored one by one, so a call that raises on a later one has stored the earlier, and two limits that are given are never compared. Holds: exactly which fields a call stores and which it keeps for all arguments; it succeeds exactly when every argument is absent or of the right kind, except that with no number in the data the limits are not looked at; the stored limits are in order exactly when some number the lower one is chosen from is not above some number the upper one is chosen from, so always with neither given.", "quantifier": "every property and all values of the four arguments", "why_tests_cant": "tests try each parameter alone, with a wrong type for one and defaults for the rest, and check that it raises, not what it leaves", "anchors": ["GridProperty.py:GridProperty.set_contrast_parameters"]}
{"id": "C131", "title": "Debug messages tell what happened", "statement": "Building and loading a grid executed statement by statement, with the files and every message in their order, gives the same grid, exception and files as the model in which a build is a pure build with a list of file operations; and every debug message is said exactly when what it tells happened, once. Holds: exactly what the constructor says, in order, whenever it returns; 'cleared' and 'deleted temp folder' exactly when there was a directory to clear or delete, after which there is none; that parameters can not be extended exactly when they do not begin at the origin, and then nothing else changes; 'origin corrected' of the shear at most once and exactly when the grid has the origin. FALSE: 'origin corrected' of _determine_fy is said for cells of every row, corrected or not; 'no gradients found' is never said; of what load says before it sets the level asked for, so also that diagnostics are missing, nothing is ever shown.", "quantifier": "all parameters, files, levels and grids, constructor and load, returning or raising", "why_tests_cant": "tests do not capture log output, and a message about a directory is only right relative to the files before and after", "anchors": ["Shallot.py:ShallotGrid.__init__", "Shallot.py:ShallotGrid._build_grid", "Shallot.py:ShallotGrid.load", "Shallot.py:ShallotGrid._determine_fy", "Shallot.py:ShallotGrid._extend_grid"]}
{"id": "C132", "title": "A call changes only what is its own", "statement": "Every call on a grid changes only the parts that belong to it, whether it returns or raises, and whatever its arguments are: reading a property at most the values of that property, and only with a mask asked for; reading the gradients at most their values; a grid point at most the values of the properties and of the gradients, never of the fit; the nearest point only the three properties it compares; the Hill mask only the mask of the disk radius; the diagnostics only the diagnostic map; the fit only the fit; adding and removing gradients only gradients and fit; the eclipse parameters only these, the gradients and the fit; new scaling factors only the factors given, the masks and measurements of the gradients and the fit; the solutions only values. So parameters, number of shears, circular disk and the names, units, colours and contrast of the properties never change after construction.", "quantifier": "every grid, sound or not, all arguments, all histories of calls, returning or raising", "why_tests_cant": "a test looks at what a call should change, rarely at the fifteen other attributes, and hardly ever after an exception", "anchors": ["Shallot.py:ShallotGrid.get_disk_radius", "Shallot.py:ShallotGrid.get_grid_point_data", "Shallot.py:ShallotGrid.determine_closest_grid_point", "Shallot.py:ShallotGrid.generate_hill_radius_mask", "Shallot.py:ShallotGrid.add_gradients", "Shallot.py:ShallotGrid.remove_gradients", "Shallot.py:ShallotGrid.set_eclipse_parameters", "Shallot.py:ShallotGrid.update_gradient_scaling", "Shallot.py:ShallotGrid.extract_solutions"]}
{"id": "C133", "title": "A call fails only with an exception of the validators", "statement": "A call on a grid that has its arrays, whatever its arguments and whatever was called before, fails only with an exception of the validators: TypeError, ValueError, InvalidDimensionsError or InvalidShapeError.", "quantifier": "every grid with all its arrays, all arguments of all kinds, all histories of calls, returning or raising", "why_tests_cant": "a test calls a method with a few wrong arguments and looks for the exception it expects; that no argument and no history gives another one is a claim about all of them", "anchors": ["Shallot.py:ShallotGrid.get_grid_point_data", "Shallot.py:ShallotGrid.remove_gradients", "Shallot.py:ShallotGrid.set_eclipse_parameters", "Shallot.py:ShallotGrid.update_gradient_scaling", "Shallot.py:ShallotGrid.extract_solutions", "errors.py", "validate.py"]}
{"id": "C134", "title": "Editing a ring system fails with the exceptions of the validators only", "statement": "Whatever a caller passes to RingSystem(...), add_ring, remove_ring, replace_ring, split_rings or merge_rings, a failing call raises TypeError, ValueError, InvalidDimensionsError or InvalidShapeError: TypeError exactly for a position that is no integer, the two exceptions about shapes only for an array of divisions. (False of the code: add_ring with a bool below the number of rings raises AttributeError, merge_rings of a system without rings raises IndexError.)", "quantifier": "for all systems, all calls, all arguments and all roundings of float arithmetic", "why_tests_cant": "the exceptions that escape come from arguments a test would not think to pass, and no test shows that there is no further kind", "anchors": ["RingSystem.py:36-79", "RingSystem.py:223-265", "RingSystem.py:358-608", "Ring.py:18-48", "validate.py:188-232", "validate.py:318-400"]}
{"id": "C135", "title": "The editing calls of a ring system obey the expected laws", "statement": "On an ordered ring system, in exact arithmetic: split_rings(n) followed by split_rings(m) gives the same outcome and the same rings as split_rings(n*m), also for an array of divisions first, so the order of two splits does not matter; replace_ring(k, ring) succeeds exactly if remove_ring(k) and then add_ring(k, ring) do, and leaves the same system and the same ring; after a successful replace_ring(k, a), replace_ring(k, b) does what it would have done without it; two rings can be added in either order, with the position of the later one counted accordingly.", "quantifier": "for all well-formed systems, all rings, all integer positions and all numbers of divisions", "why_tests_cant": "a law relates two histories on every system; a test compares them on one, and off-by-one errors of a neighbour show only when a ring just fits", "anchors": ["RingSystem.py:358-406", "RingSystem.py:438-559"]}
{"id": "C136", "title": "Gradients that were added can be removed again", "statement": "After a call of add_gradients, whether it returned or raised, remove_gradients with the positions from the old number of gradients up to the new one succeeds and gives back the grid as it was before, the same gradients with the same measurements and masks and everything else of the grid, only without a fit; the same elements are excluded, and determine_gradient_fit gives the fit of before. So a grid that a failing call left with gradients for which no fit can be determined can be repaired.", "quantifier": "for all grids, with or without gradients, and all arguments of add_gradients that are arrays of their shape or no arrays at all", "why_tests_cant": "a test adds and removes on one grid after a call that succeeds; what a failing call left behind differs with the argument at fault", "anchors": ["Shallot.py:1462-1552", "Shallot.py:1733-1766"]}
{"id": "C137", "title": "Two rescalings are one", "statement": "If update_gradient_scaling succeeds twice in a row, a single call that is given, for each of velocity, limb darkening and transmission changes, what the second call was given, or else what the first one was given, succeeds on the grid of before and leaves the same grid. So the last call counts if it gives all that the first one gave; velocity, limb darkening and transmission changes may be given in three calls or in one; calls that are given different arguments leave the same grid in both orders if they succeed in both; and a successful call can be repeated without any change.", "quantifier": "for all grids, all gradients in them and all arguments of the calls", "why_tests_cant": "a test rescales once from the constructed grid; that nothing of the first scaling is left in masks and numbers after the second one is a claim about all pairs of calls", "anchors": ["Shallot.py:ShallotGrid.update_gradient_scaling", "GridProperty.py:473-519"]}
{"id": "C138", "title": "The order of the gradients matters neither for the fit nor for the solutions", "statement": "If a fit can be determined, it can be determined with the gradients of the grid in any other order, and is the same; so are the combined mask and the solutions that extract_solutions returns, and the requests it rejects. So the same measurements, added in any order and split into any calls of add_gradients, lead to the same fit and the same solutions.", "quantifier": "for all grids and all lists of gradients and their rearrangements, weighted or not; for the solutions: all numbers of solutions asked for, fits that are finite where nothing is masked (all fits of measurements with finite numbers, positive errors and positive transmission changes)", "why_tests_cant": "a test compares two orders of two gradients; that sums over any number of gradients, with their NaN, are the same in every order is a claim about all rearrangements", "anchors": ["Shallot.py:1733-1766", "Shallot.py:1804-1872", "Shallot.py:1462-1552"]}
{"id": "C139", "title": "Removing gradients in several calls is removing them in one", "statement": "Removing some gradients and then others, the positions of the second call counted in the list that the first call left, leaves the grid that one call with all the positions leaves. So two sets can be removed in either order, and removing gradients one by one, in any order, is removing them together. A removal excludes no further disk, and the disks that come back are those that only removed gradients excluded.", "quantifier": "for all grids with any number of gradients and all lists of distinct positions in range, disjoint between the calls, in any order and any number of calls", "why_tests_cant": "a test removes one or two given positions; that the shifted positions of any further call lead to the same list is a claim about all sequences of calls", "anchors": ["Shallot.py:1531-1552"]}
{"id": "C140", "title": "What a viewer shows does not depend on the way to the slice", "statement": "However a viewer was scrolled to a slice, its picture and its title are the same there; without coordinates to mark it is the same viewer. While the ends are not reached, events add up: the index is the first one plus the steps forward minus the steps back. One step forward and one back, or one back and one forward, leads to what was shown before unless the first step was lost at an end.", "quantifier": "for all grid properties of any size, all viewers of them that can be made, all sequences of scroll events", "why_tests_cant": "a test scrolls once up and once down from a given slice; that two histories with the same index show the same is a claim about all pairs of sequences of events", "anchors": ["GridProperty.py:800-821", "GridProperty.py:824-834", "GridProperty.py:711-725"]}
{"id": "C141", "title": "The Hill radius can be set before or after the measurements", "statement": "Setting the Hill radius of a grid and setting up the analysis (adding, removing, rescaling or fitting gradients, setting the eclipse, making the diagnostic map) commute: in either order the same calls raise the same exceptions and the grid ends up the same; after any sequence of such calls the grid is the one the other calls leave, with the mask of the last Hill radius that was accepted, or with the mask it had if none was.", "quantifier": "for all grids, all arguments and all finite sequences of these calls, including failing ones", "why_tests_cant": "Tests set the Hill radius once, at one point of one script; the claim is about every interleaving of the calls, and about the calls that fail.", "anchors": ["Shallot.py:1875-1896", "Shallot.py:1462-1674", "Shallot.py:1733-1766", "Shallot.py:1166-1189"]}
{"id": "C142", "title": "Repeating a call changes nothing more", "statement": "Reading a cube, the gradient fit, the gradients, a grid point or the closest grid point, setting the Hill radius or the eclipse, making the diagnostic map and determining the fit can be repeated: made again with the same arguments, the call returns or raises what it did the first time and leaves the grid exactly as the first call left it, however often it is made.", "quantifier": "for all grids, all arguments (also invalid ones) and any number of repetitions", "why_tests_cant": "Tests make each call once, with valid arguments; the claim compares the whole state of the grid after one call and after any number of them, also for calls that fail half way.", "anchors": ["Shallot.py:1007-1221", "Shallot.py:1555-1587", "Shallot.py:1733-1801", "Shallot.py:1875-1922", "GridProperty.py:147-168"]}
{"id": "C143", "title": "The order in which properties are read does not matter", "statement": "Reading one property of a grid does not change what another one is read as. After any readings of properties and of the fit, with any flags and including failing ones, the grid depends only on which readings were made, not on their order or number.", "quantifier": "for all grids, all properties and flags, and all finite sequences of readings", "why_tests_cant": "Reading writes NaN into the stored arrays, so that order could matter; tests read each property once, in one order, and look at the returned array only.", "anchors": ["Shallot.py:1007-1221", "Shallot.py:1769-1801", "Shallot.py:1899-1922", "GridProperty.py:147-168"]}
{"id": "C144", "title": "The diagnostic map can be made before or after the measurements", "statement": "Making the diagnostic map and setting up the analysis (adding, removing, rescaling or fitting gradients, setting the eclipse or the Hill radius) commute: in either order the same calls raise the same exceptions and the grid ends up the same; after any sequence of such calls in which the map is made, once or more often, the grid is the one that the other calls leave, with the map made at the end.", "quantifier": "for all grids, all arguments and all finite sequences of these calls, including failing ones", "why_tests_cant": "The map is made once, after building, in every test and notebook; the claim is about every interleaving with the other calls.", "anchors": ["Shallot.py:1166-1189", "Shallot.py:1462-1674", "Shallot.py:1733-1766", "Shallot.py:1875-1896"]}
{"id": "C145", "title": "Saving again changes nothing, and completes a save that was interrupted", "statement": "Saving grid parameters, diagnostics, a property, a gradient, or an unfinished grid a second time raises what the first save raised, if anything, and leaves every file and directory as it is. If the first save was interrupted after any of its operations, or in the middle of writing a file, saving again leaves exactly the files that a save without interruption leaves. A finished grid that is saved to a directory of the caller's cannot be saved there again: once the directory was made or refused, each further save raises and changes nothing.", "quantifier": "for all objects, all directories, all previous contents of the file system, and every point of interruption", "why_tests_cant": "Tests save to a fresh directory once and remove it; no test saves twice or stops in the middle of a save.", "anchors": ["GridParameters.py:251-269", "GridDiagnostics.py:175-193", "GridProperty.py:288-308", "GridProperty.py:522-548", "Shallot.py:175-212"]}
{"id": "C146", "title": "Saves to different directories do not disturb each other", "statement": "Saving grid parameters, diagnostics, a property, a gradient or a grid changes nothing outside the given directory, also when it raises or is interrupted. Two saves to directories neither of which lies within the other raise in either order what each raises alone, and leave the same files. What parameters, diagnostics, properties and gradients are loaded from a directory is not changed by a save to another one.", "quantifier": "for all objects, all pairs of directories neither of which is within the other, all previous contents of the file system, and every point of interruption", "why_tests_cant": "Tests save one object at a time to one directory and look at nothing outside it.", "anchors": ["GridParameters.py:251-269", "GridDiagnostics.py:175-193", "GridProperty.py:288-308", "GridProperty.py:522-548", "Shallot.py:175-212"]}
