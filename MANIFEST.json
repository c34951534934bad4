{
 "claims": [
  {
   "property": "C01",
   "status": "proved",
   "theorems": [
    "Viscid.Parallel.C01_chunkSlices_partition",
    "Viscid.Parallel.C01_chunkList_partition",
    "Viscid.Parallel.C01_zero_chunks"
   ],
   "note": "chunk_slices and chunk_list; zero chunks raises (C01_zero_chunks)."
  },
  {
   "property": "C02",
   "status": "proved",
   "theorems": [
    "Viscid.Parallel.C02_sizes_eq_slices",
    "Viscid.Parallel.C02_sizes_eq_interslices",
    "Viscid.Parallel.C02_interslice_elements"
   ],
   "note": "chunk_sizes vs chunk_slices and chunk_interslices."
  },
  {
   "property": "C03",
   "status": "proved",
   "theorems": [
    "Viscid.Parallel.C03_scatter_gather",
    "Viscid.Parallel.C03_worker_independent",
    "Viscid.Parallel.C03_history_dependence_matters"
   ],
   "note": "Order of results of the process pool's map is assumed (trusted)."
  },
  {
   "property": "C04",
   "status": "partial",
   "theorems": [
    "Viscid.Parallel.C04_size_violated",
    "Viscid.Parallel.C04_size_partial"
   ],
   "note": "Violated: the code computes nchunks from itself, ignoring size. C04_size_violated is the witness; C04_size_partial says what holds."
  },
  {
   "property": "C05",
   "status": "proved",
   "theorems": [
    "Viscid.Bucket.C05_consistent",
    "Viscid.Bucket.C05_no_shared_handle"
   ],
   "note": "Invariant over every sequence of operations, failing ones included."
  },
  {
   "property": "C06",
   "status": "proved",
   "theorems": [
    "Viscid.Bucket.C06_refines_map",
    "Viscid.Bucket.C06_last_set_wins",
    "Viscid.Bucket.C06_values_can_be_stale"
   ],
   "note": "Refinement to a handle->item map for items compared by identity; last-set-wins for arbitrary item keys. C06_values_can_be_stale records a finding."
  },
  {
   "property": "C07",
   "status": "proved",
   "theorems": [
    "Viscid.Bucket.C07_refcount"
   ],
   "note": ""
  },
  {
   "property": "C08",
   "status": "proved",
   "theorems": [
    "Viscid.Tree.C08_find_info",
    "Viscid.Tree.C08_nearest",
    "Viscid.Tree.C08_get_all_info",
    "Viscid.Tree.C08_update_strict",
    "Viscid.Tree.C08_update_info"
   ],
   "note": "Breadth-first order characterised exactly; get_all_info and update_info included; cyclic graphs allowed."
  },
  {
   "property": "C09",
   "status": "partial",
   "theorems": [
    "Viscid.Tree.C09_find_attr_violated",
    "Viscid.Tree.C09_statement_violated",
    "Viscid.Tree.C09_find_attr_partial"
   ],
   "note": "Violated: the condition reads an unbound variable, so every successful search raises NameError. The not-found part is proved."
  },
  {
   "property": "C10",
   "status": "proved",
   "theorems": [
    "Viscid.Jrrle.C10_record_round_trip"
   ],
   "note": "Every nonempty record of at most 64 values in the writer's character range."
  },
  {
   "property": "C11",
   "status": "proved",
   "theorems": [
    "Viscid.Jrrle.C11_chars_round_trip",
    "Viscid.Jrrle.C11_array_round_trip",
    "Viscid.Jrrle.C11_zero_not_preserved"
   ],
   "note": "Over the reals; single-precision rounding and header formatting not modelled. C11_zero_not_preserved records that exact zeros are not preserved."
  },
  {
   "property": "C12",
   "status": "partial",
   "theorems": [
    "Viscid.Jrrle.C12_at_most_64_partial",
    "Viscid.Jrrle.C12_no_overrun_partial",
    "Viscid.Jrrle.C12_memory_safety_violated",
    "Viscid.Jrrle.C12_checksum_partial",
    "Viscid.Jrrle.C12_corruption_violated",
    "Viscid.Jrrle.C12_header_overrun_violated"
   ],
   "note": "Violated: a run of more than 64 values can overrun the buffer, undetected changes by multiples of 92 exist, and the header count is trusted. What is guaranteed is proved in the _partial theorems."
  },
  {
   "property": "C13",
   "status": "proved",
   "theorems": [
    "Viscid.Jrrle.C13_lookup_history_independent"
   ],
   "note": "Every history of operations on the wrapper, including re-inquiry, reads and reopen."
  },
  {
   "property": "C14",
   "status": "partial",
   "theorems": [
    "Viscid.FwdSlice.C14_sound_partial",
    "Viscid.FwdSlice.C14_accepts_partial",
    "Viscid.FwdSlice.C14_start_at_length_violated",
    "Viscid.FwdSlice.C14_rejects_violated",
    "Viscid.FwdSlice.C14_statement_violated",
    "Viscid.FwdSlice.C14_int_partial",
    "Viscid.FwdSlice.C14_int_negative_violated"
   ],
   "note": "Sound and accepting outside three named cases; violated for explicit start == L with negative step, empty slices, and negative integer indices of reversed axes."
  },
  {
   "property": "C15",
   "status": "partial",
   "theorems": [
    "Viscid.Select.C15_nearest",
    "Viscid.Select.C15_nearest_empty",
    "Viscid.Select.C15_forward_partial",
    "Viscid.Select.C15_backward_partial",
    "Viscid.Select.C15_forward_guarantee",
    "Viscid.Select.C15_edge_violated",
    "Viscid.Select.C15_single_point_violated"
   ],
   "note": "Single value: nearest point (all axes). Slices: exact set of selected points outside the two named edges; violated when stop lies within tol below the first coordinate, and on one-point axes the tolerance is 1. Without val_endpoint the last enclosed point is dropped."
  },
  {
   "property": "C16",
   "status": "partial",
   "theorems": [
    "Viscid.FillSel.C16_shape_partial",
    "Viscid.FillSel.C16_unnamed",
    "Viscid.FillSel.C16_ellipsis",
    "Viscid.FillSel.C16_two_ellipses",
    "Viscid.FillSel.C16_names_distinct_partial",
    "Viscid.FillSel.C16_name_clash_violated",
    "Viscid.FillSel.C16_too_many_violated"
   ],
   "note": "Shape proved for every accepted selection (with an Ellipsis: when there are no more selections than axes); exact result and rejection proved for unnamed selections; two ellipses rejected. Violated: too many entries with an Ellipsis and a named newaxis is accepted with a wrong result."
  },
  {
   "property": "C17",
   "status": "proved",
   "theorems": [
    "Viscid.Interp.C17_in_bounds",
    "Viscid.Interp.C17_grid_exact",
    "Viscid.Interp.C17_no_overshoot",
    "Viscid.Interp.C17_multilinear_exact",
    "Viscid.Interp.C17_clamped",
    "Viscid.Interp.C17_cache_independent"
   ],
   "note": "Over exact rationals; rounding not modelled."
  },
  {
   "property": "C18",
   "status": "proved",
   "theorems": [
    "Viscid.Interp.C18_nonuniform",
    "Viscid.Interp.C18_uniform",
    "Viscid.Interp.C18_cache_independent",
    "Viscid.Interp.C18_same_bracket"
   ],
   "note": "Over exact rationals. At or above the last coordinate nonuniform axes give n-1, uniform axes n-2 (the docstring promises n-2 for both)."
  },
  {
   "property": "C19",
   "status": "proved",
   "theorems": [
    "Viscid.Interp.C19_nearest"
   ],
   "note": "Over exact rationals."
  },
  {
   "property": "C20",
   "status": "partial",
   "theorems": [
    "Viscid.Amr.C20_neighbors",
    "Viscid.Amr.C20_symmetric",
    "Viscid.Amr.C20_masks",
    "Viscid.Amr.C20_capacity",
    "Viscid.Amr.C20_doc_bits_violated"
   ],
   "note": "Neighbour relation, symmetry, masks and the capacity of 48 fully proved; only the documented meaning of the axis bits (x = 0b100) is violated: x is 0b001."
  },
  {
   "property": "C21",
   "status": "partial",
   "theorems": [
    "Viscid.Amr.C21_contains",
    "Viscid.Amr.C21_nearest_partial",
    "Viscid.Amr.C21_unique",
    "Viscid.Amr.C21_history",
    "Viscid.Amr.C21_shared_face_history",
    "Viscid.Amr.C21_far_violated"
   ],
   "note": "Containment, uniqueness and histories proved for all inputs; nearest centre proved when some centre is closer than sqrt(1e37), violated beyond."
  },
  {
   "property": "C22",
   "status": "partial",
   "theorems": [
    "Viscid.Amr.C22_sum_prod_any_all",
    "Viscid.Amr.C22_min_max",
    "Viscid.Amr.C22_mean_partial",
    "Viscid.Amr.C22_mean_violated",
    "Viscid.Amr.C22_ptp_violated"
   ],
   "note": "sum, prod, any, all, min, max proved; mean only for equal patch sizes; mean and ptp violated."
  },
  {
   "property": "C23",
   "status": "proved",
   "theorems": [
    "Viscid.Streamline.C23_line",
    "Viscid.Streamline.C23_size"
   ],
   "note": "Any integrator, any ordered field; every line is a block of written points containing the seed. Buffer writes proved in bounds."
  },
  {
   "property": "C24",
   "status": "proved",
   "theorems": [
    "Viscid.Integrate.C24_retries_finite",
    "Viscid.Streamline.C24_bounded_steps"
   ],
   "note": "At most maxit steps per direction for any integrator; the retry loop of the adaptive methods ends within a number of passes that depends only on the step and the floor."
  },
  {
   "property": "C25",
   "status": "partial",
   "theorems": [
    "Viscid.Integrate.C25_controller",
    "Viscid.Integrate.C25_floor_violated"
   ],
   "note": "Sign, ceiling, strictly smaller retries and the floor after a too-large error proved; the floor is violated after accepted steps, without any lower bound."
  },
  {
   "property": "C26",
   "status": "proved",
   "theorems": [
    "Viscid.Integrate.C26_orders",
    "Viscid.Integrate.C26_constant_field",
    "Viscid.Integrate.C26_zero_field"
   ],
   "note": "All rooted-tree order conditions up to the advertised orders; exact on constant fields; zero fields reported. The convergence theorem behind order conditions is not formalised."
  },
  {
   "property": "C27",
   "status": "partial",
   "theorems": [
    "Viscid.Integrate.C27_euler_arc_length_partial",
    "Viscid.Integrate.C27_adaptive_length_violated",
    "Viscid.Streamline.C27_max_length_partial",
    "Viscid.Streamline.C27_max_t_never_late_partial",
    "Viscid.Streamline.C27_max_t_violated"
   ],
   "note": "max_length: exact for fixed-step methods without max_t (arc length proved for euler1). Violated: dt accumulates so travel time is counted more than once; adaptive methods add the wrong length."
  },
  {
   "property": "C28",
   "status": "proved",
   "theorems": [
    "Viscid.Streamline.C28_classify"
   ],
   "note": "Exact classification for every point."
  },
  {
   "property": "C29",
   "status": "partial",
   "theorems": [
    "Viscid.Streamline.C29_topology_partial",
    "Viscid.Streamline.C29_one_direction_violated",
    "Viscid.Streamline.C29_colors"
   ],
   "note": "Topology proved for lines traced both ways; violated when only one direction is traced. Colours proved."
  },
  {
   "property": "C30",
   "status": "partial",
   "theorems": [
    "Viscid.Vjson.C30_cleanup_partial",
    "Viscid.Vjson.C30_valid_json_partial",
    "Viscid.Vjson.C30_comma_violated",
    "Viscid.Vjson.C30_escape_violated",
    "Viscid.Vjson.C30_apostrophe_violated"
   ],
   "note": "For texts whose strings have no escaped quote and no comma before a bracket: exactly the tokens outside comments minus trailing commas. json.loads itself is not modelled. Violated: commas inside strings, escaped quotes before a marker, apostrophes before a comment."
  },
  {
   "property": "C31",
   "status": "partial",
   "theorems": [
    "Viscid.Calc.C31_div_curl",
    "Viscid.Calc.C31_curl_grad_partial"
   ],
   "note": "div(curl) = 0 for every field, curl(grad) = 0 for cell-centred ones; partial because grad of a node-centred field raises, see C32."
  },
  {
   "property": "C32",
   "status": "partial",
   "theorems": [
    "Viscid.Calc.C32_grad_partial",
    "Viscid.Calc.C32_div",
    "Viscid.Calc.C32_curl",
    "Viscid.Calc.C32_invariant_axis",
    "Viscid.Calc.C32_grad_node_violated"
   ],
   "note": "grad, div and curl exact on affine fields at every point, boundary included. Violated for node-centred scalar fields: grad allocates a cell-centred result and raises ValueError (C32_grad_node_violated)."
  },
  {
   "property": "C33",
   "status": "partial",
   "theorems": [
    "Viscid.PointDeriv.C33_at_point_violated",
    "Viscid.PointDeriv.C33_jacobian_div_partial",
    "Viscid.PointDeriv.C33_given_spacing",
    "Viscid.PointDeriv.C33_default_spacing",
    "Viscid.PointDeriv.C33_curl_value",
    "Viscid.PointDeriv.C33_curl_violated",
    "Viscid.PointDeriv.C33_jacobian_at_ind"
   ],
   "note": "Violated: cycalc.closest_ind is not visible from Python, so the at_point functions always raise (C33_at_point_violated). If it were, Jacobian and divergence would be exact (partial) and curl wrong (C33_curl_violated). jacobian_at_ind is proved exact."
  },
  {
   "property": "C34",
   "status": "partial",
   "theorems": [
    "Viscid.Calc.C34_interior",
    "Viscid.Calc.C34_order0",
    "Viscid.Calc.C34_order1",
    "Viscid.Calc.C34_order1_profile",
    "Viscid.Calc.C34_components",
    "Viscid.Calc.C34_bad_order",
    "Viscid.Calc.C34_default_axes_violated"
   ],
   "note": "Interior, order 0, order 1, component axis, unknown order. Violated for the default axes='all', which raises TypeError for every array (C34_default_axes_violated)."
  },
  {
   "property": "C35",
   "status": "partial",
   "theorems": [
    "Viscid.Cluster.C35_components",
    "Viscid.Cluster.C35_bad_input",
    "Viscid.Cluster.C35_one_point_axis_violated"
   ],
   "note": "Full statement proved for axes with different end coordinates; on an axis of one point the means are nan (C35_one_point_axis_violated)."
  },
  {
   "property": "C36",
   "status": "partial",
   "theorems": [
    "Viscid.Crds.C36_nodes",
    "Viscid.Crds.C36_centres",
    "Viscid.Crds.C36_extent_violated",
    "Viscid.Crds.C36_single_node_violated",
    "Viscid.Crds.C36_extent_partial"
   ],
   "note": "Violated on every axis of nonzero length (division by n instead of n - 1) and for one-node axes; node extents and cell counts proved."
  },
  {
   "property": "C37",
   "status": "partial",
   "theorems": [
    "Viscid.Crds.C37_interleave",
    "Viscid.Crds.C37_single",
    "Viscid.Crds.C37_reflect",
    "Viscid.Crds.C37_given_centres_violated"
   ],
   "note": "Proved when cell centres are derived; explicitly given centres are not reflected (C37_given_centres_violated)."
  },
  {
   "property": "C38",
   "status": "partial",
   "theorems": [
    "Viscid.Dataset.C38_time_ordered",
    "Viscid.Dataset.C38_iter",
    "Viscid.Dataset.C38_order_unique",
    "Viscid.Dataset.C38_nearest",
    "Viscid.Dataset.C38_int_times_violated",
    "Viscid.Dataset.C38_index",
    "Viscid.Dataset.C38_get_times",
    "Viscid.Dataset.C38_slice_never"
   ],
   "note": "Time order, ties, iteration, index, get_times by slices of ints and nearest-time lookup are proved for all histories; fails when every time is a Python int (get_child by time raises)."
  },
  {
   "property": "C39",
   "status": "partial",
   "theorems": [
    "Viscid.Dataset.C39_index_partial",
    "Viscid.Dataset.C39_sound_partial",
    "Viscid.Dataset.C39_time_range",
    "Viscid.Dataset.C39_zero_violated",
    "Viscid.Dataset.C39_others_violated",
    "Viscid.Dataset.C39_zero_always_violated",
    "Viscid.Dataset.C39_empty_violated"
   ],
   "note": "Violated: index 0, negative indices, float times, times outside the range are retrievable but not members. Proved: indices 1..n-1 agree, membership implies retrieval, a time string is a member iff in the time range."
  },
  {
   "property": "C40",
   "status": "proved",
   "theorems": [
    "Viscid.Readers.C40_registry_complete",
    "Viscid.Readers.C40_derived_first",
    "Viscid.Readers.C40_none_iff",
    "Viscid.Readers.C40_detect",
    "Viscid.Readers.C40_most_derived",
    "Viscid.Readers.C40_prefer"
   ],
   "note": "Proved for every class hierarchy, accept predicate, priority and preference. Regex matching is a parameter."
  },
  {
   "property": "C41",
   "status": "partial",
   "theorems": [
    "Viscid.Ecfc.C41_divergence_theorem_partial",
    "Viscid.Ecfc.C41_divergence_theorem_raw_partial",
    "Viscid.Ecfc.C41_zero_flux",
    "Viscid.Ecfc.C41_single_cell_violated",
    "Viscid.Ecfc.C41_fc2cc_constant",
    "Viscid.Ecfc.C41_ec2cc_constant"
   ],
   "note": "Divergence theorem proved for all leading fields with >= 2 cells per axis and all raw OpenGGCM face fields with >= 3; constants reproduced. Violated (nan everywhere) when an axis has one cell, i.e. for every 2-D field."
  },
  {
   "property": "C42",
   "status": "partial",
   "theorems": [
    "Viscid.LineInt.C42_scalar",
    "Viscid.LineInt.C42_dot_partial",
    "Viscid.LineInt.C42_dot_repeated_vertex_violated",
    "Viscid.LineInt.C42_mag_first_partial",
    "Viscid.LineInt.C42_mag_second_violated",
    "Viscid.LineInt.C42_mag_raises_violated",
    "Viscid.LineInt.C42_empty_first_line_violated",
    "Viscid.LineInt.C42_errors"
   ],
   "note": "Scalar fields proved; dot proved for lines without repeated vertices (nan otherwise); mag holds for the first line only and is wrong or raises for later ones; an empty first line raises."
  },
  {
   "property": "C43",
   "status": "proved",
   "theorems": [
    "Viscid.Props.C43_orthonormal",
    "Viscid.Props.C43_renormalises",
    "Viscid.Props.C43_quatmul",
    "Viscid.Props.C43_homomorphism",
    "Viscid.Props.C43_homomorphism_two",
    "Viscid.Props.C43_quat_rotate",
    "Viscid.Props.C43_neg",
    "Viscid.Props.C43_rot2quat",
    "Viscid.Props.C43_quat2rot_rot2quat"
   ],
   "note": "quat2rot, quatmul, quat_rotate, rot2quat over the reals, single values; rot2quat as a relation over every eigenvector the solver may return."
  },
  {
   "property": "C44",
   "status": "partial",
   "theorems": [
    "Viscid.Props.C44_e_rot",
    "Viscid.Props.C44_orders",
    "Viscid.Props.C44_round_trip",
    "Viscid.Props.C44_round_trip_eul",
    "Viscid.Props.C44_round_trip_dcm",
    "Viscid.Props.C44_round_trip_dcm2eul",
    "Viscid.Props.C44_reproduces_partial",
    "Viscid.Props.C44_bad_order",
    "Viscid.Props.C44_near_singular_violated"
   ],
   "note": "All twelve orders, degrees and radians, all eight conversion functions. Partial: middle angles strictly within 1e-10 of the singularity are treated as singular, so the matrix is not exactly reproduced (proved by a witness)."
  },
  {
   "property": "C45",
   "status": "proved",
   "theorems": [
    "Viscid.Props.C45_history_independent",
    "Viscid.Props.C45_compose",
    "Viscid.Props.C45_identity",
    "Viscid.Props.C45_inverse",
    "Viscid.Props.C45_rotation",
    "Viscid.Props.C45_defined",
    "Viscid.Props.C45_refused"
   ],
   "note": "All names, times and call histories; rdim=3. The caches (including the scalar ones) are modelled and proved to be invisible, also after exceptions."
  },
  {
   "property": "C46",
   "status": "proved",
   "theorems": [
    "Viscid.Props.C46_axis",
    "Viscid.Props.C46_moment"
   ],
   "note": "For objects whose angles follow from the time; the moment in SM for all objects."
  },
  {
   "property": "C47",
   "status": "partial",
   "theorems": [
    "Viscid.Props.C47_opposite_partial",
    "Viscid.Props.C47_violated",
    "Viscid.Props.C47_refused"
   ],
   "note": "Violated for every nonzero moment: the returned object has the opposite moment (proved, for gse and mhd). dip_tilt and dip_gsm describe the axis, which is opposite to the moment."
  },
  {
   "property": "C48",
   "status": "partial",
   "theorems": [
    "Viscid.Props.C48_same_field_line_partial",
    "Viscid.Props.C48_identity_partial",
    "Viscid.Props.C48_equator_violated",
    "Viscid.Props.C48_spherical"
   ],
   "note": "For every Cotr (time or orientation), system, history, point off the axis and off the magnetic equator and 0 < r <= L: distance r, same L-shell, half plane and hemisphere; own distance gives the point back; as_spherical gives the same point with angles in [0,180] and [0,360). On the equator it is violated: np.sign(0) = 0, so the point is moved along its radius and leaves its field line."
  },
  {
   "property": "C49",
   "status": "partial",
   "theorems": [
    "Viscid.Props.C49_cart_sph_cart",
    "Viscid.Props.C49_sph_cart_sph",
    "Viscid.Props.C49_sph2cart_deg",
    "Viscid.Props.C49_degrees_violated",
    "Viscid.Props.C49_latlon_partial",
    "Viscid.Props.C49_latlon_positive_partial",
    "Viscid.Props.C49_latlon_violated"
   ],
   "note": "Radians: both compositions proved (origin, and the poles where phi is undefined, excluded). Degrees: sph2cart proved; violated for cart2sph (it converts its copied input, not the result, so deg has no effect) and hence for cart2latlon in degrees, the default. In radians cart2latlon returns longitudes in (-2pi, 0]: positive ones come back lowered by 2pi (violated, and proved exactly)."
  },
  {
   "property": "C50",
   "status": "proved",
   "theorems": [
    "Viscid.Props.C50_plane"
   ],
   "note": "Plane.__init__, to_3d and to_local over the reals, for directions that are not parallel (for parallel ones see C75): axes are orthonormal, N is the normal direction, and to_local inverts to_3d."
  },
  {
   "property": "C51",
   "status": "proved",
   "theorems": [
    "Viscid.Props.C51_get_points_iter_points",
    "Viscid.Props.C51_c_order",
    "Viscid.Props.C51_volume_uv",
    "Viscid.Props.C51_volume_no_uv",
    "Viscid.Props.C51_plane",
    "Viscid.Props.C51_sphere"
   ],
   "note": "Grids of seeds (Volume, Plane, Sphere): get_points, iter_points and the uv / mesh layout agree on C order for all sizes; a Volume without a dimension of size 1 has no uv shape (RuntimeError)."
  },
  {
   "property": "C52",
   "status": "partial",
   "theorems": [
    "Viscid.Props.C52_one_partial",
    "Viscid.Props.C52_raises_violated",
    "Viscid.Props.C52_three_violated"
   ],
   "note": "Proved for one point (as a (3,) or (1,3) array). Violated for every other number of points: N x 3 arrays raise ValueError unless N = 3, when the columns are mixed up."
  },
  {
   "property": "C53",
   "status": "partial",
   "theorems": [
    "Viscid.Props.C53_candidates",
    "Viscid.Props.C53_once",
    "Viscid.Props.C53_faces_partial",
    "Viscid.Props.C53_xy_faces_violated"
   ],
   "note": "Candidates: proved for every field and grid. Faces: proved for the YZ and ZX faces. Disagreement: in the table of offsets corner d of both XY faces is corner b again, so the interpolant is wrong there."
  },
  {
   "property": "C54",
   "status": "proved",
   "theorems": [
    "Viscid.Props.C54_sound"
   ],
   "note": "Over the reals; comparisons with nan or infinite y are false, as in numpy."
  },
  {
   "property": "C55",
   "status": "partial",
   "theorems": [
    "Viscid.Props.C55_detect",
    "Viscid.Props.C55_to_interlaced",
    "Viscid.Props.C55_to_flat_partial",
    "Viscid.Props.C55_round_trip_partial",
    "Viscid.Props.C55_cube_violated"
   ],
   "note": "All shapes and numbers of components. Disagreement: if every axis of the grid has as many points as there are components (e.g. 3 x 3 x 3), interlaced arrays are taken as flat and converting back mixes components; everything else is proved."
  },
  {
   "property": "C56",
   "status": "proved",
   "theorems": [
    "Viscid.Props.C56_stored",
    "Viscid.Props.C56_computed",
    "Viscid.Props.C56_equation",
    "Viscid.Props.C56_disabled",
    "Viscid.Props.C56_unknown",
    "Viscid.Props.C56_item",
    "Viscid.Props.C56_once",
    "Viscid.Props.C56_set"
   ],
   "note": "For arbitrary fields, getters, post-processors and evaluators; recursion depth is the fuel. An equation's symbols are looked up with the selection and its result is not sliced again. Text names only."
  },
  {
   "property": "C57",
   "status": "partial",
   "theorems": [
    "Viscid.Streamline.C57_lock_free_partial",
    "Viscid.Streamline.C57_poisoned_violated"
   ],
   "note": "The lock is free again after successful calls and after argument errors; an error during tracing blocks every later call (violated)."
  },
  {
   "property": "C58",
   "status": "proved",
   "theorems": [
    "Viscid.Props.C58_connections",
    "Viscid.Props.C58_once",
    "Viscid.Props.C58_vertices",
    "Viscid.Props.C58_count"
   ],
   "note": "All lines, including those with one or no vertex."
  },
  {
   "property": "C59",
   "status": "partial",
   "theorems": [
    "Viscid.Props.C59_rotation",
    "Viscid.Props.C59_maps_partial",
    "Viscid.Props.C59_close",
    "Viscid.Props.C59_exact_violated"
   ],
   "note": "Proper rotation for all nonzero pairs; maps exactly unless the directions are within 1e-8 of (anti)parallel without being so, where the error is at most 2e-8 (proved) and not zero (witness)."
  },
  {
   "property": "C60",
   "status": "partial",
   "theorems": [
    "Viscid.Tree.C60_set_time_violated",
    "Viscid.Tree.C60_set_time_witness",
    "Viscid.Tree.C60_set_time_partial"
   ],
   "note": "Violated: datetime and timedelta values are computed but never stored. Numbers are stored."
  },
  {
   "property": "C61",
   "status": "partial",
   "theorems": [
    "Viscid.Interp.C61_same_shape_partial",
    "Viscid.Interp.C61_stale_cache_violated"
   ],
   "note": "Proved when all patches have the same shape; violated otherwise (search starts at an index outside the smaller patch's arrays, with bounds checks off)."
  },
  {
   "property": "C62",
   "status": "partial",
   "theorems": [
    "Viscid.Amr.C62_binary_partial",
    "Viscid.Amr.C62_mismatch",
    "Viscid.Amr.C62_unary_partial",
    "Viscid.Amr.C62_one_cell_violated"
   ],
   "note": "Proved when patches do not have exactly one cell; violated for one-cell patches."
  },
  {
   "property": "C63",
   "status": "proved",
   "theorems": [
    "Viscid.Calc.C63_convective_affine"
   ],
   "note": "Boundary points included."
  },
  {
   "property": "C64",
   "status": "partial",
   "theorems": [
    "Viscid.Cluster.C64_corner_violated",
    "Viscid.Cluster.C64_winding_violated",
    "Viscid.Cluster.C64_single_violated"
   ],
   "note": "Violated in the corners, for clusters that wind around more than once, and for multiple=False."
  },
  {
   "property": "C65",
   "status": "partial",
   "theorems": [
    "Viscid.Crds.C65_uniform_violated",
    "Viscid.Crds.C65_equidistant_partial",
    "Viscid.Crds.C65_full_arrays_violated"
   ],
   "note": "Holds for full arrays of at least three equally spaced nodes; violated for uniform coordinates, unequal spacing, one and two nodes."
  },
  {
   "property": "C66",
   "status": "partial",
   "theorems": [
    "Viscid.Crds.C66_node",
    "Viscid.Crds.C66_forward_partial",
    "Viscid.Crds.C66_keep_partial",
    "Viscid.Crds.C66_negative_start_violated",
    "Viscid.Crds.C66_backward_violated",
    "Viscid.Crds.C66_stride_violated",
    "Viscid.Crds.C66_keep_violated",
    "Viscid.Crds.C66_reduced_location_violated"
   ],
   "note": "Node centring proved; cell centring proved for step one and nonnegative start (any stop) and for nonnegative kept indices and -1; violated for negative starts, bounded backward slices, strides, kept indices below -1, and the recorded location."
  },
  {
   "property": "C67",
   "status": "partial",
   "theorems": [
    "Viscid.Dataset.C67_getitem_violated"
   ],
   "note": "Violated for every dataset and item: children is a list of tuples, so the membership test of __getitem__ never succeeds."
  },
  {
   "property": "C68",
   "status": "partial",
   "theorems": [
    "Viscid.Ecfc.C68_fc2cc_leading_partial",
    "Viscid.Ecfc.C68_fc2cc_raw_partial",
    "Viscid.Ecfc.C68_ec2cc_raw_partial",
    "Viscid.Ecfc.C68_mixed_staggering_violated",
    "Viscid.Ecfc.C68_raw_single_cell_violated",
    "Viscid.Ecfc.C68_shape_raw_partial",
    "Viscid.Ecfc.C68_bnd_interior",
    "Viscid.Ecfc.C68_shape_violated"
   ],
   "note": "Proved for leading fields and raw fields (any flip; edges need equal staggering). Violated: edge fields with different staggering per axis, raw fields with a single-cell axis raise, padded shape is one too large for non-OpenGGCM fields."
  },
  {
   "property": "C69",
   "status": "partial",
   "theorems": [
    "Viscid.Props.C69_wxyz2rot",
    "Viscid.Props.C69_wxyz2quat",
    "Viscid.Props.C69_rot2wxyz",
    "Viscid.Props.C69_not_quick_violated"
   ],
   "note": "Holds for quick=True, exact half turns and identity included; violated for quick=False, which calls eigh on a matrix that is not symmetric. A matrix with an antisymmetric part in (0, 1e-8] is not covered."
  },
  {
   "property": "C70",
   "status": "partial",
   "theorems": [
    "Viscid.Props.C70_new_x_partial",
    "Viscid.Props.C70_opposite_violated"
   ],
   "note": "Violated when the unrolled image of x is exactly opposite to new_x: np.sign(0) makes the roll zero."
  },
  {
   "property": "C71",
   "status": "partial",
   "theorems": [
    "Viscid.Props.C71_path_partial",
    "Viscid.Props.C71_ends_partial",
    "Viscid.Props.C71_opposite_violated",
    "Viscid.Props.C71_collinear_violated"
   ],
   "note": "Proved for non-collinear points outside the C70 case; violated for great_circle((-1,0,0),(0,-1,0)), which starts at (1,0,0), and for collinear points not perpendicular to y."
  },
  {
   "property": "C72",
   "status": "partial",
   "theorems": [
    "Viscid.Props.C72_coefficients",
    "Viscid.Props.C72_axis_partial",
    "Viscid.Props.C72_direction_violated"
   ],
   "note": "Violated at every ordinary time: the latitude is 90 - arcsin(|(g11,h11)|/|g10|), it should be arctan. Proved: interpolation, longitude and hemisphere."
  },
  {
   "property": "C73",
   "status": "partial",
   "theorems": [
    "Viscid.Props.C73_window_partial",
    "Viscid.Props.C73_midnight_violated"
   ],
   "note": "Violated at midnight (the default time of Cotr): 1967-01-01T00:00 is 1966.99925 in datetime64_as_years, outside of the tolerance of 0.0006 years. Proved for a window from about 01:19 to 11:50."
  },
  {
   "property": "C74",
   "status": "partial",
   "theorems": [
    "Viscid.Props.C74_truncated_partial",
    "Viscid.Props.C74_violated"
   ],
   "note": "Violated: results are stored in an array of the type of the input, hence truncated; with deg=True it raises."
  },
  {
   "property": "C75",
   "status": "partial",
   "theorems": [
    "Viscid.Props.C75_parallel_violated",
    "Viscid.Props.C75_never_raises"
   ],
   "note": "Disagreement: the normalised direction of parallel vectors is nan and nan is not allclose to 0, so the check never fires; no pair of directions raises."
  },
  {
   "property": "C76",
   "status": "partial",
   "theorems": [
    "Viscid.Props.C76_point",
    "Viscid.Props.C76_three_violated"
   ],
   "note": "Proved for every array; to_seeds documents N x 3 arrays, and a 3 x 3 array is read as 3 x N (its columns)."
  },
  {
   "property": "C77",
   "status": "partial",
   "theorems": [
    "Viscid.Props.C77_distance",
    "Viscid.Props.C77_angle_partial",
    "Viscid.Props.C77_thetas",
    "Viscid.Props.C77_distinct",
    "Viscid.Props.C77_circle_partial",
    "Viscid.Props.C77_angle_close",
    "Viscid.Props.C77_circle_close",
    "Viscid.Props.C77_angle_violated"
   ],
   "note": "Over the reals. Angles from the pole are exact if the pole is along +-z or at least 1e-8 from it (limit of a2b_rot, see C59); for every other pole they are proved up to 2e-8 of the radius (C77_angle_close, C77_circle_close), and for poles in the y-z plane that close to z the exact claim is refuted (C77_angle_violated). Distances and distinctness need no such condition. 'auto' end points."
  },
  {
   "property": "C78",
   "status": "partial",
   "theorems": [
    "Viscid.Props.C78_as_mesh",
    "Viscid.Props.C78_arr2mesh",
    "Viscid.Props.C78_correspond",
    "Viscid.Props.C78_poles_partial",
    "Viscid.Props.C78_reversed_violated",
    "Viscid.Props.C78_poles_close"
   ],
   "note": "Layout proved for all sizes. The points added at the poles are right for limits in increasing order; for thetalim=(180, 0) the opposite pole is added."
  },
  {
   "property": "C79",
   "status": "partial",
   "theorems": [
    "Viscid.Props.C79_patch_partial",
    "Viscid.Props.C79_range_violated"
   ],
   "note": "Proved for angles from 0 to 90 degrees. Disagreement: angles beyond 90 degrees, e.g. (180, 45), pass the check and seeds are nan."
  },
  {
   "property": "C80",
   "status": "proved",
   "theorems": [
    "Viscid.Props.C80_line"
   ],
   "note": "Over the reals, all n >= 2."
  },
  {
   "property": "C81",
   "status": "partial",
   "theorems": [
    "Viscid.Props.C81_spline_partial",
    "Viscid.Props.C81_degree_violated"
   ],
   "note": "scipy's splprep/splev is a parameter. Disagreement: a user given degree k is popped from the options by the first call, and later calls use the default degree."
  },
  {
   "property": "C82",
   "status": "partial",
   "theorems": [
    "Viscid.Props.C82_complete_partial",
    "Viscid.Props.C82_once",
    "Viscid.Props.C82_missed_violated"
   ],
   "note": "Proved if the first function depends on y at the root. Disagreement: otherwise y is 0/0 and the root is dropped, e.g. x = 1/2 and y = 1/2."
  },
  {
   "property": "C83",
   "status": "partial",
   "theorems": [
    "Viscid.Props.C83_points_partial",
    "Viscid.Props.C83_no_nulls_violated"
   ],
   "note": "Disagreement: with no candidates or no nulls the empty index arrays have float elements, and find_nulls raises ValueError or IndexError."
  },
  {
   "property": "C84",
   "status": "partial",
   "theorems": [
    "Viscid.Props.C84_missed_violated"
   ],
   "note": "Disagreement: (x, y, z) - 1/2 on a single cell: the only null is in the middle of the cell and is not found. No positive theorem: completeness of the face parity test does not hold with the defects of C53 and C82."
  },
  {
   "property": "C85",
   "status": "proved",
   "theorems": [
    "Viscid.Props.C85_order",
    "Viscid.Props.C85_kinds",
    "Viscid.Props.C85_reversed"
   ],
   "note": "The eigenvalues themselves (numpy.linalg.eig) are a parameter. Degenerate nulls are reported as O (one vanishing eigenvalue) or dropped with a message."
  },
  {
   "property": "C86",
   "status": "partial",
   "theorems": [
    "Viscid.Props.C86_none_violated",
    "Viscid.Props.C86_same_partial"
   ],
   "note": "Disagreement: asked for the layout the field has with force_c_contiguous=False, as_layout returns None."
  },
  {
   "property": "C87",
   "status": "partial",
   "theorems": [
    "Viscid.Props.C87_set_layout_partial",
    "Viscid.Props.C87_after_read_violated"
   ],
   "note": "Disagreement: nr_comp stays cached when the layout is set, and reading the data raises ValueError if the data or shape was read before."
  },
  {
   "property": "C88",
   "status": "partial",
   "theorems": [
    "Viscid.Props.C88_never_other_violated"
   ],
   "note": "Disagreement: sshape2 is computed from the data's own shape, so one of the earlier cases always applies and 'other' is never returned."
  },
  {
   "property": "C89",
   "status": "proved",
   "theorems": [
    "Viscid.Props.C89_transpose"
   ],
   "note": "For nonnegative axes. The layout of the result is detected from its shape, see C55."
  },
  {
   "property": "C90",
   "status": "partial",
   "theorems": [
    "Viscid.Props.C90_components_partial",
    "Viscid.Props.C90_fallback_violated",
    "Viscid.Props.C90_electric_partial",
    "Viscid.Props.C90_derived_partial"
   ],
   "note": "Disagreement: _get_b asks for bx, whose getter asks for b, so that unless b or all of bx, by, bz are stored the lookup exceeds the recursion limit and the face-centred fall-back is never reached. Proved for every recursion limit. The electric field is right."
  },
  {
   "property": "C91",
   "status": "partial",
   "theorems": [
    "Viscid.Props.C91_missing_violated",
    "Viscid.Props.C91_unknown_partial",
    "Viscid.Props.C91_computed_partial"
   ],
   "note": "Disagreement: the same for v, vx, vy, vz (and b). Proved for names nobody computes and for computed names off the loops."
  },
  {
   "property": "C92",
   "status": "proved",
   "theorems": [
    "Viscid.Props.C92_per_line",
    "Viscid.Props.C92_per_vertex",
    "Viscid.Props.C92_color_per_line"
   ],
   "note": "Colours per line for numbers of lines other than 3 and 4 (square arrays are ambiguous)."
  },
  {
   "property": "C93",
   "status": "partial",
   "theorems": [
    "Viscid.Props.C93_vertex_colors_violated",
    "Viscid.Props.C93_colored_lines_violated"
   ],
   "note": "Disagreement: always ValueError with more than 4 vertices, because the array is transposed the wrong way."
  },
  {
   "property": "C94",
   "status": "partial",
   "theorems": [
    "Viscid.Props.C94_fractions_partial",
    "Viscid.Props.C94_bytes_partial",
    "Viscid.Props.C94_refused_partial",
    "Viscid.Props.C94_wrap_violated"
   ],
   "note": "Disagreement: numbers from 255.5 up to 256 become 0."
  },
  {
   "property": "C95",
   "status": "partial",
   "theorems": [
    "Viscid.Props.C95_list_partial",
    "Viscid.Props.C95_tuple_violated"
   ],
   "note": "Disagreement: TypeError, since the entries of the tuple are assigned to. Proved for lists."
  },
  {
   "property": "C96",
   "status": "partial",
   "theorems": [
    "Viscid.Props.C96_same_partial",
    "Viscid.Props.C96_loaded_values",
    "Viscid.Props.C96_accepts_partial",
    "Viscid.Props.C96_xyz_vector_violated",
    "Viscid.Props.C96_missing_axis_violated",
    "Viscid.Props.C96_past_end_violated"
   ],
   "note": "Proved: what loading gives (storage order, mirrored axes), equality of both paths and acceptance for scalar fields and vector fields stored z first. Violated: vector fields stored x first (the component's entry is inserted twice into the same list: IndexError for every selection), data sets lacking a trailing axis of length 1 (IndexError), an index one past the end of a reflected axis (a value instead of IndexError)."
  },
  {
   "property": "C97",
   "status": "partial",
   "theorems": [
    "Viscid.Props.C97_sound",
    "Viscid.Props.C97_four_topologies",
    "Viscid.Props.C97_max_depth_zero_violated"
   ],
   "note": "Proved for all maps, checks and depths over exact rationals; max_depth=0 returns a list with an empty string (C97_max_depth_zero_violated)."
  },
  {
   "property": "C98",
   "status": "partial",
   "theorems": [
    "Viscid.Props.C98_found",
    "Viscid.Props.C98_ends_partial",
    "Viscid.Props.C98_negative_depth_violated",
    "Viscid.Props.C98_missed_violated"
   ],
   "note": "Every chain of quarters that pass the check is found; the search ends for positive max_depth. Violated: regions the walks do not touch are missed, and a negative max_depth never ends."
  },
  {
   "property": "C99",
   "status": "partial",
   "theorems": [
    "Viscid.Props.C99_windows",
    "Viscid.Props.C99_resolution_violated",
    "Viscid.Props.C99_max_depth_zero_violated"
   ],
   "note": "Windows, their minimal size and location proved for grids that are not periodic. Violated: windows grow by one point per iteration, not by a factor of two; max_depth=0 raises. Missing: periodic axes."
  },
  {
   "property": "C100",
   "status": "partial",
   "theorems": [
    "Viscid.Props.C100_sphere_violated",
    "Viscid.Props.C100_other_seeds_partial"
   ],
   "note": "Violated: item assignment to a tuple (TypeError) for every sphere that reaches a pole; IndexError for spheres that do not span phi. Proved for other seeds with at least 11 points per direction."
  },
  {
   "property": "C101",
   "status": "partial",
   "theorems": [
    "Viscid.Props.C101_lines_partial",
    "Viscid.Props.C101_one_null_violated",
    "Viscid.Props.C101_ends_violated"
   ],
   "note": "Shape of the lines proved for every outcome of the searches. Violated: only one null raises ValueError, and nothing bounds the loop."
  },
  {
   "property": "C102",
   "status": "partial",
   "theorems": [
    "Viscid.Props.C102_history_partial",
    "Viscid.Props.C102_arguments_violated",
    "Viscid.Props.C102_time_violated"
   ],
   "note": "Violated: the file name has only directory, run and rounded time, and cache=False still reads the file. Proved for histories whose calls agree whenever they share a file."
  },
  {
   "property": "C103",
   "status": "partial",
   "theorems": [
    "Viscid.Props.C103_one_unit_partial",
    "Viscid.Props.C103_short_only_if_blocked",
    "Viscid.Props.C103_lost_violated"
   ],
   "note": "Proved for units as..W and any numpy that refuses factors beyond 64 bits: whenever as many times come back as went in, they are all in one unit, rounded down, in the finest unit possible, and nothing overflows silently (C103_one_unit_partial); otherwise no unit will do (C103_short_only_if_blocked). Violated then: the code does not raise but returns a list without the offending time, IndexError for single times. Months and years not modelled."
  },
  {
   "property": "C104",
   "status": "partial",
   "theorems": [
    "Viscid.Props.C104_down_partial",
    "Viscid.Props.C104_precision",
    "Viscid.Props.C104_nearest_violated"
   ],
   "note": "Violated: values are rounded down (1999 ms -> 1 s). Proved: coarser times untouched, others rounded down, allow0=False semantics, PrecisionError only for times between 0 and one unit."
  },
  {
   "property": "C105",
   "status": "partial",
   "theorems": [
    "Viscid.Props.C105_diff_partial",
    "Viscid.Props.C105_sum_partial",
    "Viscid.Props.C105_overflow_violated"
   ],
   "note": "Violated: both operands fit into the common unit but the sum/difference may wrap around, and most_precise=True makes that likely (2200 minus 1700 is negative). Proved: exact whenever the result fits."
  },
  {
   "property": "C106",
   "status": "partial",
   "theorems": [
    "Viscid.Props.C106_close_partial",
    "Viscid.Props.C106_integers",
    "Viscid.Props.C106_fraction_violated",
    "Viscid.Props.C106_long_violated",
    "Viscid.Props.C106_decimals_violated",
    "Viscid.Props.C106_days_violated"
   ],
   "note": "Violated: the test for integers has a relative tolerance of 1e-4, so 7200.25 s becomes 7200 s and every time above 5000 s loses its fraction (also in timedelta_as_seconds); days are refused. Proved: result is the nearest integer in the coarsest unit within 0.01 %, integers are exact, errors characterised."
  },
  {
   "property": "C107",
   "status": "partial",
   "theorems": [
    "Viscid.Props.C107_fields_partial",
    "Viscid.Props.C107_refused",
    "Viscid.Props.C107_sign_and_unit_violated"
   ],
   "note": "Violated: '-1:30' is -30 s; unit ignored for strings. Proved: the fields are weighted 3600, 60, 1, for every float(); everything else refused."
  },
  {
   "property": "C108",
   "status": "partial",
   "theorems": [
    "Viscid.Props.C108_colons_partial",
    "Viscid.Props.C108_fraction_violated",
    "Viscid.Props.C108_array_violated"
   ],
   "note": "Violated: a fraction of hours or minutes becomes the next field ('2010:06:21:12.5' is 12:05), and arrays are returned unconverted. Proved for all the documented formats."
  },
  {
   "property": "C109",
   "status": "partial",
   "theorems": [
    "Viscid.Props.C109_first_day_partial",
    "Viscid.Props.C109_days_partial",
    "Viscid.Props.C109_seconds",
    "Viscid.Props.C109_before",
    "Viscid.Props.C109_violated"
   ],
   "note": "Violated: 'hms' drops whole days (the documentation's own example), '1 day' lacks a blank, times before 1970 are off by a day. Proved for the first day ('hms'), for all days but the second from 1970 on ('dhms'), and the seconds in parentheses."
  },
  {
   "property": "C110",
   "status": "partial",
   "theorems": [
    "Viscid.Props.C110_digits_partial",
    "Viscid.Props.C110_violated"
   ],
   "note": "Violated: fractions that round up lose the carry (59.96 -> 59.0); dates without separators are rewritten as fractions. Proved for formats whose texts have no six digits in a row or a digit before %f, and no carry; for every correct rounding."
  },
  {
   "property": "C111",
   "status": "partial",
   "theorems": [
    "Viscid.Props.C111_spaced_partial",
    "Viscid.Props.C111_ends_violated"
   ],
   "note": "Violated for dates: the times pass through doubles in ns, so ends are off by up to 128 ns. Proved below 2^53 units. Only the conversion of the ends to doubles is rounded in the model."
  },
  {
   "property": "C112",
   "status": "partial",
   "theorems": [
    "Viscid.Props.C112_base_partial",
    "Viscid.Props.C112_whole",
    "Viscid.Props.C112_refused",
    "Viscid.Props.C112_blank_violated",
    "Viscid.Props.C112_drift_violated"
   ],
   "note": "Bound of 0.05 s + 0.01 % of t, exact for whole seconds. Violated: a leading blank is not stripped; base times of one run differ when t has a fraction and exceeds 5000 s."
  },
  {
   "property": "C113",
   "status": "proved",
   "theorems": [
    "Viscid.Props.C113_groups",
    "Viscid.Props.C113_refused"
   ],
   "note": "Full: partition, order of groups and files, errors."
  },
  {
   "property": "C114",
   "status": "partial",
   "theorems": [
    "Viscid.Props.C114_nearest_partial",
    "Viscid.Props.C114_depth_violated"
   ],
   "note": "Nearest of seven directories. Violated: max_depth is overwritten (openggcm.py:55) and not passed on."
  },
  {
   "property": "C115",
   "status": "partial",
   "theorems": [
    "Viscid.Props.C115_request_partial",
    "Viscid.Props.C115_once",
    "Viscid.Props.C115_nolog_violated",
    "Viscid.Props.C115_invalid_violated"
   ],
   "note": "Holds when the grid knows about its log file. Violated: KeyError without _viscid_log_fname even for False; requests starting with 'auto' are never refused."
  },
  {
   "property": "C116",
   "status": "partial",
   "theorems": [
    "Viscid.Props.C116_nodes_partial",
    "Viscid.Props.C116_even",
    "Viscid.Props.C116_stretched_violated",
    "Viscid.Props.C116_one_violated"
   ],
   "note": "Exact for even spacing and for the first and last cell; centres stay inside their cells. Violated for stretched grids; one cell raises IndexError."
  },
  {
   "property": "C117",
   "status": "partial",
   "theorems": [
    "Viscid.Props.C117_sign_partial",
    "Viscid.Props.C117_nearest",
    "Viscid.Props.C117_auto_violated"
   ],
   "note": "Holds for True and False. Violated: strings such as 'auto' and 'false' are true for the plane, so its sign changes although the grid is not turned."
  },
  {
   "property": "C118",
   "status": "proved",
   "theorems": [
    "Viscid.Props.C118_no_dunder",
    "Viscid.Props.C118_text"
   ],
   "note": "Text up to eval; ASCII words only. The numexpr path and eval itself are not modelled."
  },
  {
   "property": "C119",
   "status": "partial",
   "theorems": [
    "Viscid.Props.C119_names_partial",
    "Viscid.Props.C119_unknown",
    "Viscid.Props.C119_exponent_violated",
    "Viscid.Props.C119_keyword_violated",
    "Viscid.Props.C119_clash_violated"
   ],
   "note": "Proved for equations of fields, calls, numbers and operators without quotes. Violated: the exponent of '2.e3', keyword arguments and names in double quotes are taken for fields; a field hides the function of the same name; fields with two underscores in a row cannot be named."
  },
  {
   "property": "C120",
   "status": "partial",
   "theorems": [
    "Viscid.Props.C120_views_partial",
    "Viscid.Props.C120_last",
    "Viscid.Props.C120_views_violated"
   ],
   "note": "Proved for files whose views of watched classes end with a blank line and whose MHD type, if any, is an integer. Violated: without a blank line parameters are recorded under the previous class; a file cut off within the heading of a view raises StopIteration. Taking lines apart (_parse_param, _parse_value, regular expressions) is a parameter."
  },
  {
   "property": "C121",
   "status": "partial",
   "theorems": [
    "Viscid.Props.C121_names_partial",
    "Viscid.Props.C121_negative_violated",
    "Viscid.Props.C121_recorded",
    "Viscid.Props.C121_file_violated"
   ],
   "note": "Proved for types that are natural numbers, and for logs without a type. Violated: negative numbers count from the end (-1 is MT_GKEYLL); a type that is no integer raises TypeError. Which values are integers is a parameter."
  },
  {
   "property": "C122",
   "status": "partial",
   "theorems": [
    "Viscid.Props.C122_component_partial",
    "Viscid.Props.C122_substring_violated"
   ],
   "note": "Proved if no text is found in a string of names except as a single character. Without that it fails (C122_substring_violated): names are looked for as substrings, so 'yz' is the second component and a trailing comma the first, and a scalar field raises AssertionError."
  },
  {
   "property": "C123",
   "status": "partial",
   "theorems": [
    "Viscid.Props.C123_parts_partial",
    "Viscid.Props.C123_underscore_violated"
   ],
   "note": "Proved for text without '@' and underscores within parts. Otherwise names of axes are split at underscores, and '@' becomes a comma (C123_underscore_violated)."
  },
  {
   "property": "C124",
   "status": "partial",
   "theorems": [
    "Viscid.Props.C124_value_partial",
    "Viscid.Props.C124_slice_partial",
    "Viscid.Props.C124_empty_violated"
   ],
   "note": "Proved with the parsers of numbers as parameters and without times and arrays, up to a step of None being 1. Empty text raises IndexError, and the step of text stays None (C124_empty_violated)."
  },
  {
   "property": "C125",
   "status": "partial",
   "theorems": [
    "Viscid.Props.C125_forward_partial",
    "Viscid.Props.C125_backward_partial",
    "Viscid.Props.C125_step_violated"
   ],
   "note": "Proved for steps of one and minus one and coordinates on the axis. Larger steps raise RuntimeError although enclosing points exist, and coordinates off the axis raise RuntimeError or IndexError (C125_step_violated)."
  },
  {
   "property": "C126",
   "status": "partial",
   "theorems": [
    "Viscid.Props.C126_values_partial",
    "Viscid.Props.C126_single_partial",
    "Viscid.Props.C126_ends_violated"
   ],
   "note": "Proved for coordinates and open ends with a step. An open end without a step raises TypeError, and the stop index reports the point after the last one selected or raises IndexError (C126_ends_violated)."
  },
  {
   "property": "C127",
   "status": "partial",
   "theorems": [
    "Viscid.Props.C127_flux_partial",
    "Viscid.Props.C127_second_partial",
    "Viscid.Props.C127_order_violated",
    "Viscid.Props.C127_third_violated"
   ],
   "note": "Proved for fields with two axes in the order of xyz, for every size, spacing and field, over any field of numbers. With axes in another order the result is no flux function (C127_order_violated); with three axes of more than one point IndexError is raised (C127_third_violated). Rounding is not modelled."
  },
  {
   "property": "C128",
   "status": "partial",
   "theorems": [
    "Viscid.Props.C128_beta_partial",
    "Viscid.Props.C128_magnitude_partial",
    "Viscid.Props.C128_beta_violated"
   ],
   "note": "The code divides by |B| instead of B^2: it is the beta times |B| (C128_magnitude_partial), right only where |B| is one or there is no pressure (C128_beta_partial) and wrong everywhere else (C128_beta_violated)."
  },
  {
   "property": "C129",
   "status": "partial",
   "theorems": [
    "Viscid.Props.C129_plain_partial",
    "Viscid.Props.C129_ellipsis_partial",
    "Viscid.Props.C129_interlaced_partial",
    "Viscid.Props.C129_interlaced_ellipsis_partial",
    "Viscid.Props.C129_interlaced_violated",
    "Viscid.Props.C129_flat_violated",
    "Viscid.Props.C129_list_violated"
   ],
   "note": "Proved for scalar fields, and for interlaced vector fields with fewer items than axes. An item for each axis of a vector field raises IndexError (C129_interlaced_violated, C129_flat_violated); if components come first, items go to the axis after theirs (C129_flat_violated); lists are overwritten (C129_list_violated). Texts, arrays and times as items are not modelled."
  },
  {
   "property": "C130",
   "status": "partial",
   "theorems": [
    "Viscid.Props.C130_parts",
    "Viscid.Props.C130_all",
    "Viscid.Props.C130_name",
    "Viscid.Props.C130_first_partial",
    "Viscid.Props.C130_last_partial",
    "Viscid.Props.C130_first_violated"
   ],
   "note": "All matches are proved (C130_all, C130_parts, C130_name). For the first match only: what is found is the first of all (C130_first_partial) and it is found if all but the last part are names (C130_last_partial), but in general it may be missed since only the first name matching a part is looked into (C130_first_violated). fnmatch is a parameter."
  },
  {
   "property": "C131",
   "status": "partial",
   "theorems": [
    "Viscid.Props.C131_colours_partial",
    "Viscid.Props.C131_digits_violated"
   ],
   "note": "Proved for all codes and names. Codes of seven digits are accepted with any rgba code beside them, and those of five or seven digits raise NotImplementedError otherwise (C131_digits_violated). The colours of names are a parameter (matplotlib)."
  },
  {
   "property": "C132",
   "status": "proved",
   "theorems": [
    "Viscid.Props.C132_colour",
    "Viscid.Props.C132_magnetosphere"
   ],
   "note": "For numbers and flat sequences of numbers, or fields."
  },
  {
   "property": "C133",
   "status": "partial",
   "theorems": [
    "Viscid.Props.C133_steps_partial",
    "Viscid.Props.C133_direction_partial",
    "Viscid.Props.C133_default_partial",
    "Viscid.Props.C133_return_violated",
    "Viscid.Props.C133_endless_violated"
   ],
   "note": "The steps, their times, seeds and fields are proved for any number of steps, both directions, and the defaults. Violated: nothing is returned, though the points are documented to be (C133_return_violated); with equal start and stop and one grid the loop never ends (C133_endless_violated). Rounding of times is not modelled."
  },
  {
   "property": "C134",
   "status": "partial",
   "theorems": [
    "Viscid.Props.C134_between_partial",
    "Viscid.Props.C134_after_partial",
    "Viscid.Props.C134_line_partial",
    "Viscid.Props.C134_swapped_violated"
   ],
   "note": "Proved: the two grids are the ones before and after, and the last one after the end. Violated: the weights are swapped, so the field goes backward between two times and at the time of a grid is that of the one before (C134_swapped_violated); on the line only halfway or where both are the same."
  },
  {
   "property": "C135",
   "status": "partial",
   "theorems": [
    "Viscid.Props.C135_remove",
    "Viscid.Props.C135_bounds",
    "Viscid.Props.C135_replace_partial",
    "Viscid.Props.C135_original_violated",
    "Viscid.Props.C135_cadence_partial",
    "Viscid.Props.C135_continuous_violated"
   ],
   "note": "Violated for continuous curators: seeds out of bounds stay until new ones are added, nothing is ever added going backward in time, and with a cadence of dt they are added every second step (C135_continuous_violated); and for replacement curators without originals, which are then the seeds after the first step (C135_original_violated)."
  },
  {
   "property": "C136",
   "status": "proved",
   "theorems": [
    "Viscid.Props.C136_minvar"
   ],
   "note": "Relative to np.linalg.eig (a parameter: pairs of eigenvalues and unit eigenvectors that span; shown to exist for all symmetric matrices). The eigenvectors are columns; 'evecs[0, :]' in the docstring is a row. Rounding is not modelled."
  },
  {
   "property": "C137",
   "status": "partial",
   "theorems": [
    "Viscid.Props.C137_basis_partial",
    "Viscid.Props.C137_max_partial",
    "Viscid.Props.C137_near_partial",
    "Viscid.Props.C137_antiparallel_violated",
    "Viscid.Props.C137_around",
    "Viscid.Props.C137_samples_partial",
    "Viscid.Props.C137_most_partial"
   ],
   "note": "Violated for a basis that is parallel the other way round (minus n) or zero: that is not noticed, and l and m are nan (C137_antiparallel_violated). As the sign of an eigenvector is arbitrary, whether the basis (0, 0, 1) works for a normal along z is left to chance."
  },
  {
   "property": "C138",
   "status": "proved",
   "theorems": [
    "Viscid.Props.C138_normal",
    "Viscid.Props.C138_unique"
   ],
   "note": "Tangents are derivatives (HasDerivAt) of the modelled paraboloid."
  },
  {
   "property": "C139",
   "status": "proved",
   "theorems": [
    "Viscid.Props.C139_edges",
    "Viscid.Props.C139_width"
   ],
   "note": "Without a mask (maskval=None); masked arrays are not modelled."
  },
  {
   "property": "C140",
   "status": "partial",
   "theorems": [
    "Viscid.Props.C140_shear_partial",
    "Viscid.Props.C140_outside_partial",
    "Viscid.Props.C140_shear_violated"
   ],
   "note": "Violated: the field on the side of the magnetosphere is taken six points from the sheath edge instead of the sphere edge (C140_shear_violated); right only if the edges are the same."
  },
  {
   "property": "C141",
   "status": "partial",
   "theorems": [
    "Viscid.Props.C141_mapfield_partial",
    "Viscid.Props.C141_spherefield_partial",
    "Viscid.Props.C141_roundtrip_partial",
    "Viscid.Props.C141_default_partial",
    "Viscid.Props.C141_same",
    "Viscid.Props.C141_range",
    "Viscid.Props.C141_flat_violated",
    "Viscid.Props.C141_radians_violated",
    "Viscid.Props.C141_tuple_violated"
   ],
   "note": "Proved for scalars, for vectors with components last, and for those with components first if phi is the first axis; for the round trip in the usual orders. Vectors with components first and theta as the first axis have their components reversed instead of their data (C141_flat_violated); fields in radians are taken for degrees if no units are asked for (C141_radians_violated); units given as a tuple are a TypeError (C141_tuple_violated). Rounding, cell-centred fields and more than two axes are not modelled."
  },
  {
   "property": "C142",
   "status": "partial",
   "theorems": [
    "Viscid.Props.C142_points_partial",
    "Viscid.Props.C142_axes",
    "Viscid.Props.C142_whole_violated",
    "Viscid.Props.C142_hemisphere_violated"
   ],
   "note": "Proved for arrays of floats with two axes and hemispheres north and south. Points that are whole numbers stay whole in radians (C142_whole_violated); hemispheres that do not exist are the south (C142_hemisphere_violated). Rounding is not modelled."
  },
  {
   "property": "C143",
   "status": "partial",
   "theorems": [
    "Viscid.Props.C143_polar_partial",
    "Viscid.Props.C143_periodic_partial",
    "Viscid.Props.C143_uniform_violated",
    "Viscid.Props.C143_hemisphere",
    "Viscid.Props.C143_check_violated",
    "Viscid.Props.C143_default_violated",
    "Viscid.Props.C143_sphere_violated",
    "Viscid.Props.C143_vector_violated"
   ],
   "note": "Proved for scalars that pass the check, and for make_periodic with coordinates that are not uniform. The check for values compares latitudes with angles from the pole: fields that do not have the pole are a ValueError by default (C143_default_violated), and some others are too (C143_check_violated); 40 degrees are never the default (C143_sphere_violated); vectors are an IndexError (C143_vector_violated); uniform longitudes do not become periodic (C143_uniform_violated). The tolerance of selections and rounding are not modelled."
  },
  {
   "property": "C144",
   "status": "partial",
   "theorems": [
    "Viscid.Props.C144_indices_partial",
    "Viscid.Props.C144_backward_violated",
    "Viscid.Props.C144_values_partial",
    "Viscid.Props.C144_closest",
    "Viscid.Props.C144_listing",
    "Viscid.Props.C144_errors",
    "Viscid.Props.C144_index",
    "Viscid.Props.C144_pattern",
    "Viscid.Props.C144_step_violated",
    "Viscid.Props.C144_empty",
    "Viscid.Props.C144_example_violated",
    "Viscid.Props.C144_reversed_violated"
   ],
   "note": "Slices by value are proved without a step, for more than one file and numbers that differ. False of the code (proved): slices with a step but no stop (`[::2]`, and the second example of the documentation) are not recognised as slices and are left to glob; slices with negative steps come in increasing order; the third example of the documentation, `[20j:2]`, is one file instead of two; `[]` is an IndexError."
  },
  {
   "property": "C145",
   "status": "partial",
   "theorems": [
    "Viscid.Props.C145_load_partial",
    "Viscid.Props.C145_unknown",
    "Viscid.Props.C145_again",
    "Viscid.Props.C145_new",
    "Viscid.Props.C145_group_violated",
    "Viscid.Props.C145_failed_violated"
   ],
   "note": "Proved for readers that group no files, as long as nothing fails to be read. False of the code otherwise (proved): another selection of a time series that is loaded already gives the files loaded before, as both have the same collective name; after an IOError, None is kept under the name, and later loads give None even if the file can be read by then."
  },
  {
   "property": "C146",
   "status": "partial",
   "theorems": [
    "Viscid.Props.C146_references_partial",
    "Viscid.Props.C146_all",
    "Viscid.Props.C146_remove_violated",
    "Viscid.Props.C146_twice_violated",
    "Viscid.Props.C146_shared_violated",
    "Viscid.Props.C146_user_violated",
    "Viscid.Props.C146_failed_violated",
    "Viscid.Props.C146_kept_violated",
    "Viscid.Props.C146_nested_violated"
   ],
   "note": "Proved of membership in the bucket, for children without children of their own, that users do not load themselves. False of the code (proved): remove_item of a file with one reference is a KeyError; unloading a file twice takes references of others; a shared child is emptied, though it stays; a child that a user loaded, too, is removed or emptied; unload_all_files is an AttributeError if a file failed to load, and leaves the contents of files that have children; a child that has children itself is a RuntimeError."
  },
  {
   "property": "C147",
   "status": "partial",
   "theorems": [
    "Viscid.Props.C147_read_partial",
    "Viscid.Props.C147_cell_partial",
    "Viscid.Props.C147_big_violated",
    "Viscid.Props.C147_big_header_violated",
    "Viscid.Props.C147_little_violated",
    "Viscid.Props.C147_refused",
    "Viscid.Props.C147_short",
    "Viscid.Props.C147_truncated"
   ],
   "note": "Proved for less than 128 variables in big endian files and less than 1000 in little endian ones. False of the code otherwise (proved): the endianness is guessed from the number of variables as a signed little endian number, so big endian files with 128 to 255 variables are read as little endian ones, and little endian files with 1000 or more as big endian ones."
  },
  {
   "property": "C148",
   "status": "partial",
   "theorems": [
    "Viscid.Props.C148_read_partial",
    "Viscid.Props.C148_incomplete",
    "Viscid.Props.C148_shared_violated",
    "Viscid.Props.C148_both_violated",
    "Viscid.Props.C148_ignored_violated",
    "Viscid.Props.C148_collection_violated",
    "Viscid.Props.C148_topology",
    "Viscid.Props.C148_nofields_violated",
    "Viscid.Props.C148_nested_violated"
   ],
   "note": "Proved for files in which uniform grids have their own topology, geometry and at least one field, and collections have no geometry (C148_read_partial). Violated: topology and geometry of a collection are never inherited, the grids are dropped (C148_shared_violated), and if one of them has its own the file cannot be read (C148_both_violated); unsupported grids in the Domain and unknown collections are AttributeErrors (C148_ignored_violated, C148_collection_violated); grids without fields are lost (C148_nofields_violated); nested spatial collections (C148_nested_violated)."
  },
  {
   "property": "C149",
   "status": "partial",
   "theorems": [
    "Viscid.Props.C149_times_partial",
    "Viscid.Props.C149_list_violated",
    "Viscid.Props.C149_list_zero_violated",
    "Viscid.Props.C149_inner_violated",
    "Viscid.Props.C149_inner_one_violated",
    "Viscid.Props.C149_patch_violated",
    "Viscid.Props.C149_run_violated",
    "Viscid.Props.C149_refused",
    "Viscid.Props.C149_refused_series"
   ],
   "note": "Proved for single times, none within something that has a time already, and children of series with a time (C149_times_partial). Violated: times of a list or of start and step are never used (C149_list_violated, C149_list_zero_violated); the time of a grid in a collection with a time is never looked at (C149_inner_violated, C149_inner_one_violated); a snapshot of one patch with its own time is filed at time 0 (C149_patch_violated). Refused times: C149_refused, C149_refused_series."
  },
  {
   "property": "C150",
   "status": "partial",
   "theorems": [
    "Viscid.Props.C150_roundtrip_partial",
    "Viscid.Props.C150_time_violated",
    "Viscid.Props.C150_crds_violated",
    "Viscid.Props.C150_axis_violated",
    "Viscid.Props.C150_file_violated",
    "Viscid.Props.C150_reserved_violated",
    "Viscid.Props.C150_duplicate_violated",
    "Viscid.Props.C150_plain",
    "Viscid.Props.C150_missing_axis_violated",
    "Viscid.Props.C150_refused"
   ],
   "note": "Proved for fields at time 0 with the same coordinates and names the file does not use itself (C150_roundtrip_partial), and for files of plain arrays (C150_plain). Violated: times are lost (C150_time_violated); coordinates of all fields but the first are not saved (C150_crds_violated); a field with the name of an axis or of an array of names makes a file that cannot be loaded (C150_axis_violated, C150_reserved_violated); a field called file cannot be saved (C150_file_violated); of fields with the same name only the last is saved (C150_duplicate_violated)."
  },
  {
   "property": "C151",
   "status": "partial",
   "theorems": [
    "Viscid.Props.C151_arrays",
    "Viscid.Props.C151_varrays_partial",
    "Viscid.Props.C151_smallv_violated",
    "Viscid.Props.C151_origin",
    "Viscid.Props.C151_even_partial",
    "Viscid.Props.C151_uneven_violated",
    "Viscid.Props.C151_uneven_refused",
    "Viscid.Props.C151_plane_violated",
    "Viscid.Props.C151_elements_violated",
    "Viscid.Props.C151_sphere_violated",
    "Viscid.Props.C151_points_violated",
    "Viscid.Props.C151_refused",
    "Viscid.Props.C151_item_errors",
    "Viscid.Props.C151_unknown_violated",
    "Viscid.Props.C151_sphere_dims"
   ],
   "note": "Proved: X_Y_Z arrays on rectangles exactly (C151_arrays, an equivalence), VXVYVZ with capital V (C151_varrays_partial), origin and spacing in three dimensions (C151_origin), evenly spaced arrays on uniform grids (C151_even_partial), clearly uneven ones refused (C151_uneven_refused), other topologies refused (C151_refused), exceptions of data items (C151_item_errors), Dimensions of spheres (C151_sphere_dims). Violated: names vx, vy, vz (C151_smallv_violated); uneven arrays on a scale below 1e-8 are silently replaced (C151_uneven_violated, the default atol of allclose); two-dimensional grids (C151_plane_violated); NumberOfElements (C151_elements_violated); points on spheres and rectangles given by points are not used (C151_sphere_violated, C151_points_violated); unknown geometries are ignored (C151_unknown_violated)."
  },
  {
   "property": "C152",
   "status": "proved",
   "theorems": [
    "Viscid.Props.C152_block",
    "Viscid.Props.C152_tiles"
   ],
   "note": "Proved: number and nodes of the blocks by number of file (C152_block), existence and uniqueness of block and cell (C152_tiles). Over the rationals; np.linspace without rounding."
  },
  {
   "property": "C153",
   "status": "partial",
   "theorems": [
    "Viscid.Props.C153_names",
    "Viscid.Props.C153_data",
    "Viscid.Props.C153_short",
    "Viscid.Props.C153_foreign",
    "Viscid.Props.C153_sets",
    "Viscid.Props.C153_many_violated",
    "Viscid.Props.C153_material_violated",
    "Viscid.Props.C153_shape_violated"
   ],
   "note": "Proved: names and numbers of the fields (C153_names, C153_sets), the bytes of every cell (C153_data), truncated files (C153_short), foreign files (C153_foreign). Violated: integers (the materials) are read as floats (C153_material_violated); variables with more than fourteen components are an IndexError for the whole run (C153_many_violated); files of another shape are read if the number of cells is the same (C153_shape_violated)."
  },
  {
   "property": "C154",
   "status": "partial",
   "theorems": [
    "Viscid.Props.C154_times_partial",
    "Viscid.Props.C154_copies_violated",
    "Viscid.Props.C154_other_violated"
   ],
   "note": "Proved for directories of steps and names without a number after a dot (C154_times_partial). Violated by copies of a directory, which give a step twice (C154_copies_violated), and by any other name with a number after a dot, which gives a time without data (C154_other_violated)."
  },
  {
   "property": "C155",
   "status": "partial",
   "theorems": [
    "Viscid.Props.C155_scalar",
    "Viscid.Props.C155_mismatch",
    "Viscid.Props.C155_single",
    "Viscid.Props.C155_interlaced",
    "Viscid.Props.C155_flat_partial",
    "Viscid.Props.C155_cube_violated",
    "Viscid.Props.C155_plane_violated"
   ],
   "note": "Proved: scalar fields (C155_scalar), one component read as scalar field (C155_single), components that come first in the file (saved interlaced; C155_interlaced), components that come last in the file with three axes unless all sizes equal the number of components (C155_flat_partial). Violated: if they are equal the components are mixed up with the points (C155_cube_violated); with fewer than three axes reading is a ValueError (C155_plane_violated)."
  },
  {
   "property": "C156",
   "status": "partial",
   "theorems": [
    "Viscid.Props.C156_round_trip_partial",
    "Viscid.Props.C156_empty",
    "Viscid.Props.C156_axes_violated",
    "Viscid.Props.C156_single_violated",
    "Viscid.Props.C156_duplicate_violated",
    "Viscid.Props.C156_time_violated",
    "Viscid.Props.C156_xml_violated",
    "Viscid.Props.C156_first_violated",
    "Viscid.Props.C156_colon_violated",
    "Viscid.Props.C156_blank_violated"
   ],
   "note": "Proved for fields with different safe names on the same coordinates at the same time (C156_round_trip_partial; a missing axis becomes one with a single point, one-component vectors become scalars). Violated: axes are renamed and only coordinates and time of the first field are kept (C156_first_violated), no time (C156_time_violated), names with colons (C156_colon_violated), with <, & or quotes (C156_xml_violated), ending with blanks (C156_blank_violated), duplicates (C156_duplicate_violated), a field with a single value (C156_single_violated), more than three axes (C156_axes_violated)."
  },
  {
   "property": "C157",
   "status": "partial",
   "theorems": [
    "Viscid.Props.C157_ends",
    "Viscid.Props.C157_arrays",
    "Viscid.Props.C157_even",
    "Viscid.Props.C157_close_partial",
    "Viscid.Props.C157_small_violated",
    "Viscid.Props.C157_uniform_violated",
    "Viscid.Props.C157_many_violated",
    "Viscid.Props.C157_empty_violated",
    "Viscid.Props.C157_other"
   ],
   "note": "Proved: sizes, names and ends (C157_ends), arrays that are kept (C157_arrays), evenly spaced arrays are unchanged (C157_even), replaced ones are within the tolerance (C157_close_partial). Violated: uneven arrays of small numbers are replaced (C157_small_violated); the absolute tolerance of 1e-8 does not scale, uneven axes are dropped if uniform coordinates are asked for (C157_uniform_violated), axes beyond the names are dropped (C157_many_violated), an empty array is an IndexError (C157_empty_violated)."
  },
  {
   "property": "C158",
   "status": "partial",
   "theorems": [
    "Viscid.Props.C158_scalar",
    "Viscid.Props.C158_interlaced_partial",
    "Viscid.Props.C158_flat_partial",
    "Viscid.Props.C158_cube_violated",
    "Viscid.Props.C158_refused",
    "Viscid.Props.C158_dat2field",
    "Viscid.Props.C158_dat2field_flat_partial",
    "Viscid.Props.C158_dat2field_flat_violated",
    "Viscid.Props.C158_dat2field_errors",
    "Viscid.Props.C158_full",
    "Viscid.Props.C158_full_layout_violated",
    "Viscid.Props.C158_full_shape_violated",
    "Viscid.Props.C158_full_like"
   ],
   "note": "Proved: scalar arrays (C158_scalar), components last or first with conditions (C158_interlaced_partial, C158_flat_partial), other shapes (C158_refused), dat2field (C158_dat2field, C158_dat2field_flat_partial, C158_dat2field_errors), full (C158_full), full_like (C158_full_like). Violated: with as many points along each axis as components, components that come last are taken to come first, although the caller asked for interlaced (C158_cube_violated, C158_full_layout_violated); flat arrays whose sizes go up by one are taken for cell centred interlaced ones (C158_dat2field_flat_violated); the documentation of full says integers are the shape, but the default centering gives one point less along each axis (C158_full_shape_violated)."
  },
  {
   "property": "C159",
   "status": "partial",
   "theorems": [
    "Viscid.Props.C159_scalar",
    "Viscid.Props.C159_number",
    "Viscid.Props.C159_vector_partial",
    "Viscid.Props.C159_vector_scalar",
    "Viscid.Props.C159_scalar_vector_partial",
    "Viscid.Props.C159_scalar_interlaced_violated",
    "Viscid.Props.C159_scalar_interlaced_wrong_violated",
    "Viscid.Props.C159_mixed_violated",
    "Viscid.Props.C159_places_violated",
    "Viscid.Props.C159_grow_violated",
    "Viscid.Props.C159_cube_violated",
    "Viscid.Props.C159_sizes",
    "Viscid.Props.C159_single"
   ],
   "note": "Proved: two scalar fields (C159_scalar), a field and a number (C159_number), vector fields with the same layout (C159_vector_partial), vector and scalar field (C159_vector_scalar), scalar field and vector field with the components first (C159_scalar_vector_partial), grids of different size (C159_sizes), single values (C159_single). Violated: scalar * vector with the components last is a ValueError (C159_scalar_interlaced_violated) or takes the scalar at another point (C159_scalar_interlaced_wrong_violated), different layouts are a ValueError (C159_mixed_violated), grids of the same size at different places are combined (C159_places_violated), the sum cannot be read if the first has one point along an axis (C159_grow_violated), the components of cubes change places (C159_cube_violated)."
  },
  {
   "property": "C160",
   "status": "partial",
   "theorems": [
    "Viscid.Props.C160_scalar",
    "Viscid.Props.C160_keepdims",
    "Viscid.Props.C160_components",
    "Viscid.Props.C160_interlaced_partial",
    "Viscid.Props.C160_flat_last_violated",
    "Viscid.Props.C160_flat_axis_violated",
    "Viscid.Props.C160_last_violated",
    "Viscid.Props.C160_argsort_violated"
   ],
   "note": "Proved: scalar fields along any axis (C160_scalar, C160_keepdims), components (C160_components), vector fields with the components last (C160_interlaced_partial, if no other axis has one point). Violated: the last axis of vector fields with the components first is an IndexError (C160_flat_last_violated), other axes drop the wrong coordinates (C160_flat_axis_violated), axis=-1 of vector fields with the components last makes components of points (C160_last_violated), the data of argsort along an axis cannot be read (C160_argsort_violated)."
  },
  {
   "property": "C161",
   "status": "partial",
   "theorems": [
    "Viscid.Props.C161_exact",
    "Viscid.Props.C161_scalar",
    "Viscid.Props.C161_vector_partial",
    "Viscid.Props.C161_order",
    "Viscid.Props.C161_default_violated",
    "Viscid.Props.C161_single_violated",
    "Viscid.Props.C161_line",
    "Viscid.Props.C161_cumtrapz_partial",
    "Viscid.Props.C161_initial_none_violated"
   ],
   "note": "Proved: scalar fields along any axis, also from the end (C161_scalar), one axis (C161_line), vector fields with axes from the start (C161_vector_partial), order (C161_order), exact for linear functions (C161_exact), cumtrapz (C161_cumtrapz_partial: an initial value other than 0 is put at the first point only). Violated: the default axis of vector fields with the components last is the components (C161_default_violated), one value left is an AttributeError (C161_single_violated), initial=None gives data that cannot be read (C161_initial_none_violated)."
  },
  {
   "property": "C162",
   "status": "partial",
   "theorems": [
    "Viscid.Props.C162_unwritten_partial",
    "Viscid.Props.C162_shared_partial",
    "Viscid.Props.C162_read_first_partial",
    "Viscid.Props.C162_convert",
    "Viscid.Props.C162_total",
    "Viscid.Props.C162_copy",
    "Viscid.Props.C162_assign_partial",
    "Viscid.Props.C162_reflected_violated",
    "Viscid.Props.C162_assign_reflected_violated",
    "Viscid.Props.C162_assign_converted_violated",
    "Viscid.Props.C162_assign_original_violated",
    "Viscid.Props.C162_write_lost_violated",
    "Viscid.Props.C162_clear_violated",
    "Viscid.Props.C162_transform_violated",
    "Viscid.Props.C162_adjusted_violated",
    "Viscid.Props.C162_shell_copy"
   ],
   "note": "Proved for histories without assignment: data that is not written (C162_unwritten_partial), data in memory with writes (C162_shared_partial), any field that is read before it is converted (C162_read_first_partial); the centering of the result, no other field is changed (C162_convert); every operation on an existing field is defined (C162_total); forced copies are independent of the field (C162_shell_copy). Violated: reflected axes are lost and the cache of the original is overwritten with unmirrored data (C162_reflected_violated), assigned data is mirrored when read back (C162_assign_reflected_violated), assigned data is shown or not, depending on the order of reads (C162_assign_converted_violated, C162_assign_original_violated), writes are lost (C162_write_lost_violated, C162_clear_violated), transforms are repeated (C162_transform_violated), adjust_crds (C162_adjusted_violated). That copies have the centering of the original and are made for fields not yet read is C162_copy; that assigning forgets earlier conversions is C162_assign_partial."
  },
  {
   "property": "C163",
   "status": "partial",
   "theorems": [
    "Viscid.Props.C163_arrays_partial",
    "Viscid.Props.C163_even_arrays_partial",
    "Viscid.Props.C163_node_cell_node_partial",
    "Viscid.Props.C163_cell_node_cell_partial",
    "Viscid.Props.C163_uniform_violated",
    "Viscid.Props.C163_one_node_violated",
    "Viscid.Props.C163_uneven_violated"
   ],
   "note": "Proved: arrays, nodes are the centres (C163_arrays_partial), equidistant arrays there and back (C163_even_arrays_partial), uniform axes there and back (C163_node_cell_node_partial, C163_cell_node_cell_partial). Violated: on uniform axes the new nodes are not the centres (C163_uniform_violated), axes with one node move (C163_one_node_violated), uneven arrays (C163_uneven_violated). Numbers are rational, rounding is not modelled."
  },
  {
   "property": "C164",
   "status": "partial",
   "theorems": [
    "Viscid.Props.C164_axes_partial",
    "Viscid.Props.C164_xyz",
    "Viscid.Props.C164_scalar_partial",
    "Viscid.Props.C164_flat_partial",
    "Viscid.Props.C164_unread_vector_partial",
    "Viscid.Props.C164_already",
    "Viscid.Props.C164_interlaced_violated",
    "Viscid.Props.C164_unread_violated",
    "Viscid.Props.C164_names_violated",
    "Viscid.Props.C164_single_violated"
   ],
   "note": "Proved: the axes (C164_axes_partial, C164_xyz), scalar fields (C164_scalar_partial), vector fields with the components first that were read (C164_flat_partial) or not (C164_unread_vector_partial), fields with three axes (C164_already). Violated: vector fields with the components last that were read are a ValueError (C164_interlaced_violated), fields that were not read show the raw data (C164_unread_violated), names can be doubled (C164_names_violated), single values become numbers (C164_single_violated)."
  },
  {
   "property": "C165",
   "status": "partial",
   "theorems": [
    "Viscid.Props.C165_which",
    "Viscid.Props.C165_values_partial",
    "Viscid.Props.C165_too_few_violated"
   ],
   "note": "Proved: which axes are cut (C165_which), the number of axes and the values (C165_values_partial). Violated: a field with n axes or fewer loses its first axis if it has one point (C165_too_few_violated). The index of the point nearest to 0 is a parameter; selecting by it is the subject of C03 and others."
  },
  {
   "property": "C166",
   "status": "partial",
   "theorems": [
    "Viscid.Props.C166_adjust_partial",
    "Viscid.Props.C166_all",
    "Viscid.Props.C166_rename_partial",
    "Viscid.Props.C166_original_violated",
    "Viscid.Props.C166_exchange_violated"
   ],
   "note": "Proved: arrays, with the field's own coordinates unchanged if no names are changed (C166_adjust_partial), one adjustment for all axes (C166_all), changing one name (C166_rename_partial). Violated: with a map of names the coordinates of the field itself are broken (C166_original_violated), two names cannot be exchanged (C166_exchange_violated). Making coordinates of the arrays is C157, the data of the copy is in C162_adjusted_violated."
  },
  {
   "property": "C167",
   "status": "partial",
   "theorems": [
    "Viscid.Props.C167_grid_partial",
    "Viscid.Props.C167_temporal_partial",
    "Viscid.Props.C167_fields_partial",
    "Viscid.Props.C167_names",
    "Viscid.Props.C167_one_time",
    "Viscid.Props.C167_time_sel_violated",
    "Viscid.Props.C167_no_time_violated",
    "Viscid.Props.C167_no_basetime_violated",
    "Viscid.Props.C167_other_size_violated",
    "Viscid.Props.C167_axis_name_violated"
   ],
   "note": "Partial: fields must be scalar, on the same points, with a time, and with names other than those of the axes and times. It fails otherwise: time_sel given is an AssertionError, no time a TypeError, fields without base time a NoBasetimeError (but not grids), vector fields or fields of other sizes a ValueError; a field named like an axis replaces the coordinates. C167_names: with names given only those fields are columns and an unknown name is a KeyError; C167_one_time: fields of one time give the table of a grid of them."
  },
  {
   "property": "C168",
   "status": "partial",
   "theorems": [
    "Viscid.Props.C168_round_partial",
    "Viscid.Props.C168_grid_partial",
    "Viscid.Props.C168_nat_violated",
    "Viscid.Props.C168_rows_violated",
    "Viscid.Props.C168_datetime_col_violated",
    "Viscid.Props.C168_one_point_violated",
    "Viscid.Props.C168_order_violated",
    "Viscid.Props.C168_one_row_violated",
    "Viscid.Props.C168_columns"
   ],
   "note": "Partial: for distinct times, points that differ along each axis, and the names of the axes given or at least two points along the last axis. It fails otherwise: a last axis of one point becomes a field; a missing base time becomes NaT, and then reading the table again is an IndexError if there are two times; a table without the row labelled 0 loses its times; a column of dates of another name loses the base time; rows in another order give values at other points without an error; one row without names of the axes is a ValueError. Rounding of times to microseconds is not modelled."
  },
  {
   "property": "C169",
   "status": "partial",
   "theorems": [
    "Viscid.Props.C169_ends",
    "Viscid.Props.C169_map_partial",
    "Viscid.Props.C169_error_partial",
    "Viscid.Props.C169_some",
    "Viscid.Props.C169_threads_result",
    "Viscid.Props.C169_procs_result",
    "Viscid.Props.C169_workers",
    "Viscid.Props.C169_pool_violated",
    "Viscid.Props.C169_exception_violated",
    "Viscid.Props.C169_procs"
   ],
   "note": "Partial: for threads, one process, and for processes if func does not fail, the result is that of the loop for every schedule (C169_map_partial); every schedule can be completed and takes at most two steps per piece of work (C169_ends). It fails otherwise: with a given pool the call is a ValueError after all work is done since an open pool is joined (C169_pool_violated), and with processes which exception is raised depends on the schedule (C169_exception_violated). Pickling, time limits and workers that die are not modelled."
  },
  {
   "property": "C170",
   "status": "partial",
   "theorems": [
    "Viscid.Props.C170_even_partial",
    "Viscid.Props.C170_ends",
    "Viscid.Props.C170_whole",
    "Viscid.Props.C170_factor",
    "Viscid.Props.C170_sizes_violated",
    "Viscid.Props.C170_integers_violated",
    "Viscid.Props.C170_inplace"
   ],
   "note": "Partial: holds for lines of floats with a numpy that takes sizes given as floats, before 1.12. It fails otherwise: with any later numpy every factor other than 1 is a TypeError (C170_sizes_violated), and lines of integers lose the fractions of the new points (C170_integers_violated). The list of the caller is changed (C170_inplace). Only kind='linear'."
  },
  {
   "property": "C171",
   "status": "partial",
   "theorems": [
    "Viscid.Props.C171_magnitude",
    "Viscid.Props.C171_dot",
    "Viscid.Props.C171_dot_layouts",
    "Viscid.Props.C171_project",
    "Viscid.Props.C171_cross",
    "Viscid.Props.C171_normalize",
    "Viscid.Props.C171_unit",
    "Viscid.Props.C171_project_vector_partial",
    "Viscid.Props.C171_project_vector_violated",
    "Viscid.Props.C171_one_point_violated",
    "Viscid.Props.C171_components_violated",
    "Viscid.Props.C171_cube_violated"
   ],
   "note": "Partial: project_vector with numpy only if the components come first. It fails otherwise: project_vector with numpy and the components last is a ValueError (C171_project_vector_violated); on a grid of one point the result is a number and setting its name an AttributeError (C171_one_point_violated); with numexpr only three components are possible (C171_components_violated); with numpy a field with the components last on a grid of three points along each axis is an IndexError (C171_cube_violated). Layouts that differ are a ValueError of dot with numpy. Zero vectors, which give nan, are excluded for project and normalize."
  },
  {
   "property": "C172",
   "status": "proved",
   "theorems": [
    "Viscid.Props.C172_preferred",
    "Viscid.Props.C172_forms",
    "Viscid.Props.C172_fallback",
    "Viscid.Props.C172_one_of"
   ],
   "note": ""
  },
  {
   "property": "C173",
   "status": "partial",
   "theorems": [
    "Viscid.Props.C173_points_partial",
    "Viscid.Props.C173_straight",
    "Viscid.Props.C173_last_violated",
    "Viscid.Props.C173_short_violated"
   ],
   "note": "Partial: for four or more points, at each point but the last, where the direction is that of the difference of the neighbours (at the first point of the third and the first), and at all points of straight lines. It fails otherwise: at the last point the direction two points before is used (C173_last_violated); lines of two and three points are a ValueError and one point gives an empty list (C173_short_violated)."
  },
  {
   "property": "C174",
   "status": "partial",
   "theorems": [
    "Viscid.Props.C174_grid",
    "Viscid.Props.C174_field_partial",
    "Viscid.Props.C174_leaf",
    "Viscid.Props.C174_child",
    "Viscid.Props.C174_item_partial",
    "Viscid.Props.C174_deferred_violated",
    "Viscid.Props.C174_deferred_temporal_violated",
    "Viscid.Props.C174_empty_violated",
    "Viscid.Props.C174_dict_partial",
    "Viscid.Props.C174_dict_violated"
   ],
   "note": "Partial: get_grid in full (C174_grid); get_field, iter_field_items and [] if no active child on the way is still deferred; field_dict if also no temporal dataset is below a temporal one. It fails otherwise: with a deferred active child get_field is an AttributeError and [] a TypeError while get_grid works (C174_deferred_violated, C174_deferred_temporal_violated); without active child get_field is None, get_grid AttributeError and [] KeyError (C174_empty_violated); field_dict(time) of a temporal dataset drops the time (C174_dict_violated). Computed fields, coordinates and deleted children are not in this model."
  },
  {
   "property": "C175",
   "status": "partial",
   "theorems": [
    "Viscid.Props.C175_activate_partial",
    "Viscid.Props.C175_all_partial",
    "Viscid.Props.C175_error",
    "Viscid.Props.C175_handle",
    "Viscid.Props.C175_below_violated",
    "Viscid.Props.C175_slice_violated",
    "Viscid.Props.C175_half_violated",
    "Viscid.Props.C175_stop"
   ],
   "note": "Partial: if no temporal dataset is below a temporal one, and the call returns. It fails otherwise: below a temporal dataset nothing is activated (C175_below_violated); a slice, which a temporal dataset refuses, is ignored by the dataset around it (C175_slice_violated); an exception of one child leaves those before it activated (C175_half_violated)."
  },
  {
   "property": "C176",
   "status": "partial",
   "theorems": [
    "Viscid.Props.C176_count_partial",
    "Viscid.Props.C176_first_partial",
    "Viscid.Props.C176_grids",
    "Viscid.Props.C176_deferred_violated",
    "Viscid.Props.C176_skip_violated",
    "Viscid.Props.C176_hidden_violated",
    "Viscid.Props.C176_time",
    "Viscid.Props.C176_time_partial",
    "Viscid.Props.C176_time_violated"
   ],
   "note": "Partial: nr_times and get_times without deferred children; get_time for temporal datasets, and for datasets of grids at times. It fails otherwise: get_times of deferred children is an AttributeError while nr_times counts them and iter_times resolves them (C176_deferred_violated); a deferred dataset is skipped by nr_times but not by get_times (C176_skip_violated); an empty dataset hides the times of those after it (C176_hidden_violated); get_time of a dataset is a grid where get_times has datasets (C176_time_violated)."
  },
  {
   "property": "C177",
   "status": "partial",
   "theorems": [
    "Viscid.Props.C177_all_partial",
    "Viscid.Props.C177_scalar_partial",
    "Viscid.Props.C177_first_partial",
    "Viscid.Props.C177_last_partial",
    "Viscid.Props.C177_vector_partial",
    "Viscid.Props.C177_shifted_violated",
    "Viscid.Props.C177_cube",
    "Viscid.Props.C177_no_out_violated",
    "Viscid.Props.C177_integers_violated",
    "Viscid.Props.C177_array"
   ],
   "note": "Partial: scalar fields, vector fields with the components first, masks of the shape of the data, and vector fields with the components last unless each size of the grid is 1 or that of the next axis (the last one the number of components). On those grids, cubes of 3 by 3 by 3 for example (C177_cube), the mask is taken at the point with the indices shifted by one (C177_shifted_violated). Without out, numbers outside the mask are whatever was in memory (C177_no_out_violated). If a holds integers, the factors lose their fractions (C177_integers_violated). Arrays of another shape as masks are an AttributeError (C177_array). Masks that are vector fields are modelled after they were brought to the centering and layout of a."
  },
  {
   "property": "C178",
   "status": "partial",
   "theorems": [
    "Viscid.Props.C178_shaped_partial",
    "Viscid.Props.C178_flat_partial",
    "Viscid.Props.C178_flat_violated",
    "Viscid.Props.C178_plane_violated",
    "Viscid.Props.C178_count_partial"
   ],
   "note": "Partial: the shaped coordinates in full, for axes without explicit cell centers, and the flat ones along axes with more than one node. An axis with a single node has one shaped coordinate but no flat one (C178_flat_violated); on a grid with two axes there is none for the third component of face centered fields (C178_plane_violated)."
  },
  {
   "property": "C179",
   "status": "partial",
   "theorems": [
    "Viscid.Props.C179_points_partial",
    "Viscid.Props.C179_staggered_partial",
    "Viscid.Props.C179_index_violated",
    "Viscid.Props.C179_negative_violated"
   ],
   "note": "Partial: for rmin and rmax that are not negative, and for face and edge centered fields with a numpy that takes lists of slices as indices. With a numpy that does not, masks of those fields raise (C179_index_violated). A negative rmin excludes points nearer than its absolute value (C179_negative_violated). Without explicit cell centers; overflow of squares is not modelled."
  },
  {
   "property": "C180",
   "status": "partial",
   "theorems": [
    "Viscid.Props.C180_fill_partial",
    "Viscid.Props.C180_mask_partial",
    "Viscid.Props.C180_vector_mask_partial",
    "Viscid.Props.C180_last_violated",
    "Viscid.Props.C180_strength_partial",
    "Viscid.Props.C180_make_partial",
    "Viscid.Props.C180_face_violated"
   ],
   "note": "Partial: without mask in full, off the origin; with scalar masks if the components are first, with masks of the shape of the data for both layouts; make_dipole for cell centers. With the components last a scalar mask, as make_spherical_mask gives, raises (C180_last_violated). make_dipole with face or edge centers has one cell less than asked for along each axis (C180_face_violated). twod and nonuniform, moments from times, and the orientation that is stored are not modelled."
  },
  {
   "property": "C181",
   "status": "partial",
   "theorems": [
    "Viscid.Props.C181_exact_partial",
    "Viscid.Props.C181_sound_partial",
    "Viscid.Props.C181_index",
    "Viscid.Props.C181_component_violated",
    "Viscid.Props.C181_near_violated",
    "Viscid.Props.C181_upper_violated"
   ],
   "note": "Partial: exact if the selection does not begin near the upper boundary of a patch, where near is a part in 100000 of the value or atol (C181_exact_partial); in all cases what is taken has points within atol, and a patch with points is missed only if the selection begins near its upper boundary and another one is taken (C181_sound_partial). The latter loses points: from 999.995 to 1500 nothing of the patch up to 1000 is taken (C181_near_violated). The upper boundary of the whole field is in no patch, and the slice an AttributeError (C181_upper_violated). A component can not be selected (C181_component_violated). Numbers are rational; the names of axes in selections are resolved before, see C16."
  },
  {
   "property": "C182",
   "status": "partial",
   "theorems": [
    "Viscid.Props.C182_axes_partial",
    "Viscid.Props.C182_single",
    "Viscid.Props.C182_no_values",
    "Viscid.Props.C182_number_violated",
    "Viscid.Props.C182_axes_violated"
   ],
   "note": "Partial: if one of the slices has all the axes the others have, in order. If one loses one axis and another one another, the result has patches with different axes (C182_axes_violated). A single point in more than one patch is an AttributeError (C182_number_violated); no values at all are a ValueError (C182_no_values). The data of the slices are abstract."
  },
  {
   "property": "C183",
   "status": "partial",
   "theorems": [
    "Viscid.Props.C183_attribute_partial",
    "Viscid.Props.C183_empty",
    "Viscid.Props.C183_field_violated",
    "Viscid.Props.C183_no_values_violated"
   ],
   "note": "Partial: for attributes that are numbers, text, arrays with values, or objects compared by identity. For attributes that are fields, like amr.real, it is that of the first patch, whatever the others are (C183_field_violated). For arrays without values it is a ValueError although all are the same (C183_no_values_violated). Arrays that broadcast with each other are not modelled."
  },
  {
   "property": "C184",
   "status": "partial",
   "theorems": [
    "Viscid.Props.C184_function_partial",
    "Viscid.Props.C184_shapes_violated"
   ],
   "note": "Partial: if all patches have the same shape; otherwise it is a ValueError (C184_shapes_violated). Functions with more arguments are not modelled."
  },
  {
   "property": "C185",
   "status": "partial",
   "theorems": [
    "Viscid.Props.C185_skeletons_partial",
    "Viscid.Props.C185_upper_violated",
    "Viscid.Props.C185_lower_violated"
   ],
   "note": "Partial: the number of patches, the number of their cells, and the lower corners to within a part in 100000; exact when the patches are not like those of the skeleton before. Patches with as many cells and the same lower corners, but larger, keep the upper corners of the time before (C185_upper_violated), and those that moved a little stay where they were (C185_lower_violated)."
  },
  {
   "property": "C186",
   "status": "partial",
   "theorems": [
    "Viscid.Props.C186_node_violated",
    "Viscid.Props.C186_changed_violated",
    "Viscid.Props.C186_cell_partial",
    "Viscid.Props.C186_cell_changed_violated"
   ],
   "note": "Partial: for cell centered fields whose coordinates were just made the values are those of the interpolation, and exact for functions linear in each coordinate (C186_cell_partial). For every node centered field they are never interpolated: they are those of the nearest nodes, with the coordinates that were asked for, because the coordinates of the field itself are overwritten first (C186_node_violated, C186_changed_violated); of cell centered fields the nodes are overwritten as well (C186_cell_changed_violated). What `slice_reduce` does then is C05 and C129; numbers are rational."
  },
  {
   "property": "C187",
   "status": "partial",
   "theorems": [
    "Viscid.Props.C187_downsample_violated"
   ],
   "note": "Violated for every field: the slice is given to get_clist as its axes, a TypeError, or before that a ValueError if the even and odd values of a half do not have sizes that broadcast (C187_downsample_violated)."
  },
  {
   "property": "C188",
   "status": "partial",
   "theorems": [
    "Viscid.Props.C188_set_partial",
    "Viscid.Props.C188_raises_partial",
    "Viscid.Props.C188_broadcast_partial",
    "Viscid.Props.C188_trailing_violated",
    "Viscid.Props.C188_exchanged_violated"
   ],
   "note": "Partial: for fields with the components last no new axis may come after as many entries as there are axes. Otherwise the component is put in another place than when the field is read: fld[:, None] = fld[:, None] is a ValueError (C188_trailing_violated), and with two new axes before the last axis the value goes to another element (C188_exchanged_violated). Index arrays are not modelled."
  },
  {
   "property": "C189",
   "status": "partial",
   "theorems": [
    "Viscid.Props.C189_read",
    "Viscid.Props.C189_other",
    "Viscid.Props.C189_behind",
    "Viscid.Props.C189_contents_partial",
    "Viscid.Props.C189_series_partial",
    "Viscid.Props.C189_sizes_violated"
   ],
   "note": "Partial: the table of contents is right if all fields have the same sizes (C189_contents_partial, C189_series_partial). The scan goes on by the size of the first field of the file: with fields of different sizes the later ones are silently missing (C189_sizes_violated). Reading at a known place is right always (C189_read, C189_other, C189_behind). Names and times are ASCII, names have no blanks; fields without axes are not modelled."
  },
  {
   "property": "C190",
   "status": "partial",
   "theorems": [
    "Viscid.Props.C190_first_partial",
    "Viscid.Props.C190_again_violated",
    "Viscid.Props.C190_failed_violated",
    "Viscid.Props.C190_history_partial"
   ],
   "note": "Partial: after any history of scans and of readings where there are fields, inquire_all_fields gives the right contents (C190_history_partial), and a first reading by name is right (C190_first_partial). Every later reading by name is an AttributeError, as the class has no method seek (C190_again_violated), and after one reading behind the end inquire_all_fields finds nothing (C190_failed_violated)."
  },
  {
   "property": "C191",
   "status": "partial",
   "theorems": [
    "Viscid.Props.C191_add",
    "Viscid.Props.C191_del_partial",
    "Viscid.Props.C191_deferred_violated",
    "Viscid.Props.C191_active_violated",
    "Viscid.Props.C191_contains_partial",
    "Viscid.Props.C191_empty_violated",
    "Viscid.Props.C191_activate",
    "Viscid.Props.C191_computed_violated",
    "Viscid.Props.C191_object_violated",
    "Viscid.Props.C191_removeAll",
    "Viscid.Props.C191_stale_violated",
    "Viscid.Props.C191_temporal_violated",
    "Viscid.Props.C191_inactive",
    "Viscid.Props.C191_deferred_active_violated"
   ],
   "note": "Partial: removing a child that is not deferred removes it and its handles and nothing else (C191_del_partial, C191_removeAll), `in` agrees with `[]` for what grids keep (C191_contains_partial). Violated: a deferred child can not be removed, KeyError (C191_deferred_violated); the removed child stays the active one, so that get_field and ds[name] still give its fields (C191_active_violated, C191_stale_violated); without an active grid `in` is a TypeError (C191_empty_violated); computed fields and coordinates are not `in` (C191_computed_violated); a child is `in` but is no key (C191_object_violated); nothing can be removed from a temporal dataset (C191_temporal_violated). Children that are datasets are in C174 to C176."
  },
  {
   "property": "C192",
   "status": "partial",
   "theorems": [
    "Viscid.Props.C192_vector",
    "Viscid.Props.C192_vector_as_is",
    "Viscid.Props.C192_scalar",
    "Viscid.Props.C192_reserved",
    "Viscid.Props.C192_names_violated",
    "Viscid.Props.C192_assembled",
    "Viscid.Props.C192_sliced_partial",
    "Viscid.Props.C192_sliced_violated",
    "Viscid.Props.C192_assign_violated",
    "Viscid.Props.C192_assign_partial",
    "Viscid.Props.C192_added_violated"
   ],
   "note": "Proved: vector fields (C192_vector), scalar fields under the names of OpenGGCM's files (C192_scalar), vectors made of components (C192_assembled), grids that are not turned (C192_vector_as_is); scalar fields with names of vectors are refused (C192_reserved); slices of scalar fields (C192_sliced_partial). Violated: slicing a vector field of a turned grid before it is read is an AttributeError (C192_sliced_violated); components under other names keep their sign (C192_names_violated); what is assigned to the data of a field of a turned grid is mirrored and changes its sign (C192_assign_violated), and so does a computed field that is added to the grid (C192_added_violated). Face and edge centred fields are in C68; centres that were given with the nodes in C37."
  },
  {
   "property": "C193",
   "status": "partial",
   "theorems": [
    "Viscid.Props.C193_names",
    "Viscid.Props.C193_other",
    "Viscid.Props.C193_get",
    "Viscid.Props.C193_range",
    "Viscid.Props.C193_axes",
    "Viscid.Props.C193_contains",
    "Viscid.Props.C193_shaped_ending_violated",
    "Viscid.Props.C193_contains_violated",
    "Viscid.Props.C193_letters_violated",
    "Viscid.Props.C193_units",
    "Viscid.Props.C193_units_other",
    "Viscid.Props.C193_units_short_violated",
    "Viscid.Props.C193_units_reflected_violated"
   ],
   "note": "Partial. For axis names without capitals, with a letter, and none of them another one with an ending: C193_names, C193_other, C193_get, C193_range, C193_contains. C193_axes: names given with capitals are a KeyError. Violated: shaped=True with a name that has an ending is a KeyError (C193_shaped_ending_violated); 'xnccc' in crds (C193_contains_violated); axes without letters lose their flat arrays (C193_letters_violated); a list of units that is too short is not filled up and get_unit is an IndexError (C193_units_short_violated); apply_reflections drops the units (C193_units_reflected_violated). Names are ASCII; spaces around units are left out; attempts to assign or delete are exceptions and not modelled."
  },
  {
   "property": "C194",
   "status": "partial",
   "theorems": [
    "Viscid.Props.C194_ends",
    "Viscid.Props.C194_widths",
    "Viscid.Props.C194_width_single",
    "Viscid.Props.C194_uniform",
    "Viscid.Props.C194_reflected_violated",
    "Viscid.Props.C194_apply",
    "Viscid.Props.C194_single_violated"
   ],
   "note": "Partial: C194_ends, C194_widths for StructuredCrds (reflected or not); C194_uniform, C194_apply for UniformCrds of two or more nodes. Violated: get_xl and get_xh of UniformCrds with reflect_axes (as the crds of a grid turned to GSE) are those before the reflection (C194_reflected_violated); a uniform axis of one node with different ends (C194_single_violated). Node centering only: C36 is about cells."
  },
  {
   "property": "C195",
   "status": "partial",
   "theorems": [
    "Viscid.Props.C195_stored",
    "Viscid.Props.C195_velocity",
    "Viscid.Props.C195_momentum",
    "Viscid.Props.C195_consistent",
    "Viscid.Props.C195_magnetic",
    "Viscid.Props.C195_vector",
    "Viscid.Props.C195_scalars",
    "Viscid.Props.C195_history",
    "Viscid.Props.C195_names_violated",
    "Viscid.Props.C195_renamed_violated",
    "Viscid.Props.C195_current_violated"
   ],
   "note": "Partial: values are right (C195_stored, _velocity, _momentum, _consistent, _magnetic, _vector, _scalars, _history). Violated: vz gets the name 'bz' (C195_names_violated); asking for bx renames the stored field when it is in memory (C195_renamed_violated); j, jx, jy, jz and jmag raise NotImplementedError (C195_current_violated). beta and psi are functions of calculator/plasma and not part of this model."
  },
  {
   "property": "C196",
   "status": "partial",
   "theorems": [
    "Viscid.Props.C196_velocity",
    "Viscid.Props.C196_pressure_partial",
    "Viscid.Props.C196_pressure_violated",
    "Viscid.Props.C196_missing",
    "Viscid.Props.C196_vector",
    "Viscid.Props.C196_name_violated"
   ],
   "note": "Partial: C196_velocity, C196_missing, C196_vector; pressures for xx, xy, xz, yz (C196_pressure_partial). Violated: Pyy and Pzz of both species take off rho ux ux instead of rho uy uy and rho uz uz, so they are right exactly where the squares of the velocities are the same (C196_pressure_violated); u_e and u_i have the same name 'u' (C196_name_violated). Reals, without rounding."
  },
  {
   "property": "C197",
   "status": "partial",
   "theorems": [
    "Viscid.Props.C197_template",
    "Viscid.Props.C197_kind_violated",
    "Viscid.Props.C197_gkeyll",
    "Viscid.Props.C197_athena",
    "Viscid.Props.C197_refused"
   ],
   "note": "Partial: C197_template (by the invariant that the lists are those at first with 'phi_E', 'phi_B' any number of times after them), C197_gkeyll, C197_athena, C197_refused. Violated: the kind of a file is the letter in its name when it is one of a collection (C197_kind_violated). What the regular expression finds in a name is a parameter."
  },
  {
   "property": "C198",
   "status": "partial",
   "theorems": [
    "Viscid.Props.C198_header_partial",
    "Viscid.Props.C198_exponent_violated",
    "Viscid.Props.C198_crds_partial",
    "Viscid.Props.C198_single_violated",
    "Viscid.Props.C198_data"
   ],
   "note": "Partial: C198_header_partial (times without exponent), C198_crds_partial (two or more cells along each axis; the centres are those of the file exactly where cells are evenly spaced), C198_data. Violated: the exponent of a time as 1.5e-05 is lost (C198_exponent_violated); one cell along an axis is a ValueError, although the code has a branch for this (C198_single_violated). `int(line.split('=')[1])` and np.loadtxt are parameters: the table of numbers is given; rounding to float32 is not modelled."
  },
  {
   "property": "C199",
   "status": "partial",
   "theorems": [
    "Viscid.Props.C199_ascii_partial",
    "Viscid.Props.C199_ascii_violated",
    "Viscid.Props.C199_history",
    "Viscid.Props.C199_nda",
    "Viscid.Props.C199_nda_refused"
   ],
   "note": "Partial: C199_ascii_partial, C199_history, C199_nda, C199_nda_refused. Violated: a .txt or .asc file of one row or one column is an IndexError although the code has a condition for it (C199_ascii_violated). What np.loadtxt and np.fromstring read is given; data types and vector fields of .nda files are not modelled; history files have two or more rows."
  },
  {
   "property": "C200",
   "status": "partial",
   "theorems": [
    "Viscid.Props.C200_component",
    "Viscid.Props.C200_transposed",
    "Viscid.Props.C200_item_partial",
    "Viscid.Props.C200_dots",
    "Viscid.Props.C200_whole",
    "Viscid.Props.C200_bad_axis",
    "Viscid.Props.C200_bad_component",
    "Viscid.Props.C200_len_partial",
    "Viscid.Props.C200_len_violated",
    "Viscid.Props.C200_transposed_item_violated",
    "Viscid.Props.C200_list_violated",
    "Viscid.Props.C200_dots_violated"
   ],
   "note": "Partial: C200_component, C200_transposed, C200_whole, C200_item_partial (integers and slices forward), C200_dots, C200_bad_axis, C200_bad_component, C200_len_partial. Violated: with transpose, len is the length of the last axis (C200_len_violated) and an index is applied to the axes of the file (C200_transposed_item_violated); a list of integers is taken for a tuple (C200_list_violated); whole axes are added behind the indices also after dots, so [..., p] picks from another axis (C200_dots_violated). The ValueError of the code for the axis is unreachable, as C200_bad_axis is an IndexError before."
  },
  {
   "property": "C201",
   "status": "partial",
   "theorems": [
    "Viscid.Props.C201_rotmul",
    "Viscid.Props.C201_quatmul",
    "Viscid.Props.C201_refused",
    "Viscid.Props.C201_rotate",
    "Viscid.Props.C201_wxyz2rot",
    "Viscid.Props.C201_wxyz2quat_partial",
    "Viscid.Props.C201_wxyz2quat_violated",
    "Viscid.Props.C201_axang",
    "Viscid.Props.C201_quat2wxyz_partial",
    "Viscid.Props.C201_last_zero_violated",
    "Viscid.Props.C201_last_large_violated"
   ],
   "note": "Partial: C201_rotmul, C201_quatmul, C201_refused, C201_rotate, C201_wxyz2rot, C201_axang hold as stated; C201_wxyz2quat_partial for as many angles as axes, or one axis; C201_quat2wxyz_partial for quaternions of the same norm. Violated: one angle for several axes is a ValueError in wxyz2quat (C201_wxyz2quat_violated); quat2wxyz divides all quaternions by the norm of the last one, so if the last one is 0 all results are nan (C201_last_zero_violated), and if it is large the axes of the others are lost (C201_last_large_violated). Not modelled: stacks in quat_rotate, the numpy-quaternion module."
  },
  {
   "property": "C202",
   "status": "proved",
   "theorems": [
    "Viscid.Props.C202_angle",
    "Viscid.Props.C202_refused",
    "Viscid.Props.C202_symmetric",
    "Viscid.Props.C202_lengths",
    "Viscid.Props.C202_same_direction"
   ],
   "note": "Proved over the reals: C202_angle, C202_refused, C202_symmetric, C202_lengths, C202_same_direction. Not modelled: rounding (the quotient can exceed 1 by rounding for parallel vectors, and is then nan), vectors with different numbers of components, space other than ASCII."
  },
  {
   "property": "C203",
   "status": "partial",
   "theorems": [
    "Viscid.Props.C203_single",
    "Viscid.Props.C203_stacks_partial",
    "Viscid.Props.C203_one_start_violated",
    "Viscid.Props.C203_new_x_single",
    "Viscid.Props.C203_new_x_partial",
    "Viscid.Props.C203_new_x_mixed_violated",
    "Viscid.Props.C203_new_x_starts_violated",
    "Viscid.Props.C203_new_x_first_violated",
    "Viscid.Props.C203_roll_and_new_x",
    "Viscid.Props.C203_rolls_violated"
   ],
   "note": "Partial: C203_single and C203_new_x_single (for one of each it is the rotation of C59 and C70), C203_stacks_partial (as many vectors to rotate from as rotations, or none of the vectors to rotate to along the one), C203_new_x_partial (sizes and directions as stated), C203_roll_and_new_x. Violated: from one vector to several, any of them parallel or opposite, is an IndexError (C203_one_start_violated); several rolls that are all 0 give one matrix (C203_rolls_violated); several new x axes, some along the vector to rotate to and some not, are a ValueError (C203_new_x_mixed_violated), as are several vectors to rotate from with one new x axis (C203_new_x_starts_violated); for single vectors and several new x axes only the first rotation is returned (C203_new_x_first_violated)."
  },
  {
   "property": "C204",
   "status": "partial",
   "theorems": [
    "Viscid.Props.C204_result",
    "Viscid.Props.C204_history",
    "Viscid.Props.C204_kept_partial",
    "Viscid.Props.C204_changed_violated",
    "Viscid.Props.C204_quaternions",
    "Viscid.Props.C204_quaternions_kept_partial",
    "Viscid.Props.C204_quaternions_violated",
    "Viscid.Props.C204_integers_violated"
   ],
   "note": "Partial: results are right for all memory, aliasing and histories (C204_result, C204_history, C204_quaternions); arrays of other numbers than doubles, arrays not passed and vectors of length 1 are kept (C204_kept_partial), as are quaternions of norm close to 0 or 1 (C204_quaternions_kept_partial). Violated: any array of doubles with a vector of another length is normalised in place (C204_changed_violated), quaternions likewise (C204_quaternions_violated); the bits of integers are taken for doubles, so every quaternion of integers not negative and below 2^52 gives the identity to 1e-8 (C204_integers_violated). Not modelled: integers that are negative or larger, single precision."
  },
  {
   "property": "C205",
   "status": "partial",
   "theorems": [
    "Viscid.Props.C205_text",
    "Viscid.Props.C205_text_one",
    "Viscid.Props.C205_node_partial",
    "Viscid.Props.C205_default",
    "Viscid.Props.C205_value_default",
    "Viscid.Props.C205_unknown_violated",
    "Viscid.Props.C205_again_partial",
    "Viscid.Props.C205_below_violated"
   ],
   "note": "Partial: C205_text, C205_text_one, C205_default, C205_value_default hold; C205_node_partial for fields, OpenGGCM grids and nodes with none of these above them. Violated: None gives 'Unknown', which is not lower case and whose own name is 'unknown' (C205_unknown_violated; every other name is its own name: C205_again_partial); a node of another kind below a field or OpenGGCM grid gets a NameError from find_attr whatever its info and the default (C205_below_violated). Not modelled: bytes, info values that are nodes."
  },
  {
   "property": "C206",
   "status": "partial",
   "theorems": [
    "Viscid.Props.C206_value",
    "Viscid.Props.C206_default",
    "Viscid.Props.C206_mapping_violated",
    "Viscid.Props.C206_grid_partial",
    "Viscid.Props.C206_grid_violated",
    "Viscid.Props.C206_field_violated",
    "Viscid.Props.C206_node_partial",
    "Viscid.Props.C206_info_violated"
   ],
   "note": "Partial: C206_value, C206_default hold; C206_grid_partial for OpenGGCM grids that hold a time themselves; C206_node_partial for nodes with no OpenGGCM grid above them. Violated: mappings are never understood although documented (C206_mapping_violated); an OpenGGCM grid without a time of its own gives NotImplemented, no Cotr and no exception, whatever the default (C206_grid_violated); a field on an OpenGGCM grid gets a NameError (C206_field_violated); a default is not used if an info is there that is not understood (C206_info_violated). Not modelled: which texts are times (a parameter; see C118 and following for the parser), lists of times."
  },
  {
   "property": "C207",
   "status": "partial",
   "theorems": [
    "Viscid.Props.C207_rotation",
    "Viscid.Props.C207_rotation4",
    "Viscid.Props.C207_plane_partial",
    "Viscid.Props.C207_plane_violated",
    "Viscid.Props.C207_refused_partial",
    "Viscid.Props.C207_axis_violated",
    "Viscid.Props.C207_sum",
    "Viscid.Props.C207_back",
    "Viscid.Props.C207_translation",
    "Viscid.Props.C207_translation_short",
    "Viscid.Props.C207_nvec",
    "Viscid.Props.C207_nvec_point"
   ],
   "note": "Partial: C207_rotation, C207_rotation4, C207_sum, C207_back, C207_translation, C207_translation_short, C207_nvec, C207_nvec_point hold; C207_plane_partial for rdim=2 about z; C207_refused_partial for angles other than 0. Violated: with rdim=2 the matrices about x and y are no rotations, their determinant is cos(theta) (C207_plane_violated); an invalid axis is not refused if theta is 0 (C207_axis_violated). Real numbers; unsigned and integer arrays are not modelled."
  },
  {
   "property": "C208",
   "status": "partial",
   "theorems": [
    "Viscid.Props.C208_axis",
    "Viscid.Props.C208_refused",
    "Viscid.Props.C208_mirror_violated"
   ],
   "note": "Partial: C208_axis holds for all rotations and all eigenvectors; C208_refused for invertible matrices whose inverse is not close to the transpose. Violated: mirrors (orthogonal, determinant -1) pass the check and something is returned although they are no rotation (C208_mirror_violated). numpy.linalg.eig is a relation: some eigenpair over the complex numbers with the eigenvalue closest to one, real if the eigenvalue is. Real numbers; a missing np.clip before arccos (nan by rounding) is not visible."
  },
  {
   "property": "C209",
   "status": "partial",
   "theorems": [
    "Viscid.Props.C209_lines_partial",
    "Viscid.Props.C209_raises",
    "Viscid.Props.C209_hopeless_violated",
    "Viscid.Props.C209_missing",
    "Viscid.Props.C209_empty_violated",
    "Viscid.Props.C209_warning",
    "Viscid.Props.C209_blame_partial",
    "Viscid.Props.C209_blame_violated"
   ],
   "note": "Partial: C209_lines_partial for files without hopeless lines, C209_raises says for which files an exception comes out, C209_missing, C209_warning and (for objects with a __name__) C209_blame_partial hold. Violated: an empty file raises AttributeError (C209_empty_violated), and so does a line whose key is no text or whose path ends at something on which nothing can be set: the lines after it are not read and no post actions run (C209_hopeless_violated); import viscid fails then. If an instance or a value lacks the part, the warning says that the object before it lacks an attribute which it has (C209_blame_violated). Not modelled: yaml and JSON (the file is what they give), exceptions of imported modules other than ImportError, properties and __slots__, post actions themselves."
  },
  {
   "property": "C210",
   "status": "partial",
   "theorems": [
    "Viscid.Props.C210_found_partial",
    "Viscid.Props.C210_none_partial",
    "Viscid.Props.C210_exact_partial",
    "Viscid.Props.C210_exact_violated",
    "Viscid.Props.C210_nothing_violated"
   ],
   "note": "Partial: C210_found_partial, C210_none_partial and C210_exact_partial (no other class has the name in its own) for texts with at most one 'file' in them. Violated: the name of a class does not find it if a class below it has the name in its own (C210_exact_violated): 'FileXDMF' finds AthenaFileXDMF. A text of nothing ('', 'file', '_') finds a class, whatever the tree (C210_nothing_violated). A text with a second 'file' loses another one at every level of the tree (not proved about, modelled). Lower case is that of ASCII."
  },
  {
   "property": "C211",
   "status": "partial",
   "theorems": [
    "Viscid.Props.C211_first",
    "Viscid.Props.C211_none",
    "Viscid.Props.C211_fields",
    "Viscid.Props.C211_class",
    "Viscid.Props.C211_crds",
    "Viscid.Props.C211_blame_violated"
   ],
   "note": "Partial: C211_first, C211_none, C211_fields, C211_crds and C211_class hold. Violated: a TypeError of the constructor of a known type is reported as an unknown type, NotImplementedError (C211_blame_violated). Lower case is that of ASCII; constructors are a parameter."
  },
  {
   "property": "C212",
   "status": "partial",
   "theorems": [
    "Viscid.Props.C212_check",
    "Viscid.Props.C212_check_rotations",
    "Viscid.Props.C212_orthonormal_violated",
    "Viscid.Props.C212_word_violated",
    "Viscid.Props.C212_refused",
    "Viscid.Props.C212_not_refused",
    "Viscid.Props.C212_dcm2quat",
    "Viscid.Props.C212_rot2axang_partial",
    "Viscid.Props.C212_quat2axang_partial"
   ],
   "note": "Partial: C212_check says exactly what the check does: it is one of the determinants; C212_check_rotations and C212_dcm2quat hold; C212_rot2axang_partial for the quick method and rotations whose antisymmetric part is zero or longer than 1e-8; C212_quat2axang_partial for stacks of quaternions of the same norm whose vector part is zero or longer than 1e-8. Violated: matrices that are not orthonormal pass: every shear does (C212_orthonormal_violated); a word for bad_matrix that means nothing is not refused, and bad matrices then go through without a message (C212_word_violated). Radians only; eigenvectors are a relation (whatever numpy finds)."
  },
  {
   "property": "C213",
   "status": "partial",
   "theorems": [
    "Viscid.Props.C213_integer",
    "Viscid.Props.C213_decimal",
    "Viscid.Props.C213_float",
    "Viscid.Props.C213_kinds",
    "Viscid.Props.C213_list",
    "Viscid.Props.C213_integers",
    "Viscid.Props.C213_text",
    "Viscid.Props.C213_words_partial",
    "Viscid.Props.C213_blanks_violated",
    "Viscid.Props.C213_exponent_violated",
    "Viscid.Props.C213_torn_violated",
    "Viscid.Props.C213_param",
    "Viscid.Props.C213_no_param"
   ],
   "note": "Partial: C213_integer, C213_decimal, C213_float, C213_text, C213_list and C213_integers (numbers without exponents), C213_param, C213_no_param hold; C213_kinds says for all texts what they are read as; C213_words_partial for words without blanks. Violated: numbers with commas between them of which the first has an exponent stay text (C213_exponent_violated); a text that only begins with two numbers and a comma is torn at its commas (C213_torn_violated); blanks beside colons stay in the words (C213_blanks_violated). float() is a parameter; blanks, digits and letters are those of ASCII; arrays hold integers of any size."
  },
  {
   "property": "C214",
   "status": "partial",
   "theorems": [
    "Viscid.Props.C214_picture",
    "Viscid.Props.C214_picture_node",
    "Viscid.Props.C214_style",
    "Viscid.Props.C214_unchanged_partial",
    "Viscid.Props.C214_unchanged_node",
    "Viscid.Props.C214_apart",
    "Viscid.Props.C214_scale_violated",
    "Viscid.Props.C214_twice_violated",
    "Viscid.Props.C214_mod_violated",
    "Viscid.Props.C214_contour_violated",
    "Viscid.Props.C214_masked_violated",
    "Viscid.Props.C214_patches"
   ],
   "note": "Partial: C214_picture, C214_picture_node, C214_style, C214_patches and C214_apart hold; the field is unchanged only without scale, factors and contours (C214_unchanged_partial). Violated: `dat *= scale` multiplies the data of the field itself (C214_scale_violated, C214_twice_violated), `X *= mod[0]` the coordinates (C214_mod_violated), contours of a cell centred field move its first and last cell centres to the boundary for good (C214_contour_violated), all_masked is never true (C214_masked_violated). Not modelled: latlon, dates, what matplotlib draws, integer arrays."
  },
  {
   "property": "C215",
   "status": "partial",
   "theorems": [
    "Viscid.Props.C215_asked",
    "Viscid.Props.C215_scale",
    "Viscid.Props.C215_lin",
    "Viscid.Props.C215_sym",
    "Viscid.Props.C215_log",
    "Viscid.Props.C215_nan",
    "Viscid.Props.C215_many",
    "Viscid.Props.C215_text",
    "Viscid.Props.C215_norescale",
    "Viscid.Props.C215_map",
    "Viscid.Props.C215_given_violated",
    "Viscid.Props.C215_scaled_violated"
   ],
   "note": "Partial: C215_asked (precedence), C215_scale, C215_lin, C215_sym, C215_log, C215_nan, C215_many, C215_text, C215_norescale, C215_map hold. Violated: a LogNorm that is given is taken for a linear scale, since it is a Normalize too (C215_given_violated); the limits are those of the data before they are multiplied by scale (C215_scaled_violated). Rounding is not modelled."
  },
  {
   "property": "C216",
   "status": "partial",
   "theorems": [
    "Viscid.Props.C216_options_partial",
    "Viscid.Props.C216_empty",
    "Viscid.Props.C216_blank_violated",
    "Viscid.Props.C216_underscore_violated",
    "Viscid.Props.C216_yaml",
    "Viscid.Props.C216_error",
    "Viscid.Props.C216_keyword_violated",
    "Viscid.Props.C216_axis"
   ],
   "note": "Partial: C216_options_partial (options with several values that are not all texts), C216_empty, C216_yaml, C216_error, C216_axis hold. Violated: values with underscores (cmap_jet_r) become the list of their characters (C216_underscore_violated); a text of blanks is an IndexError (C216_blank_violated); values that are words of python (and, is, in) are a SyntaxError (C216_keyword_violated). What python makes of expressions that are not one name, and yaml, are parameters."
  },
  {
   "property": "C217",
   "status": "partial",
   "theorems": [
    "Viscid.Props.C217_coords",
    "Viscid.Props.C217_cells_partial",
    "Viscid.Props.C217_node_violated",
    "Viscid.Props.C217_sizes_violated",
    "Viscid.Props.C217_times",
    "Viscid.Props.C217_lengths",
    "Viscid.Props.C217_ends_violated",
    "Viscid.Props.C217_overlap_violated"
   ],
   "note": "Partial: C217_coords and C217_times hold; C217_cells_partial for cell centred fields if all grids have the same number of cells along each axis. Violated: starts are summed over grids in the order of files, so with different sizes values are misplaced and cells never set (C217_sizes_violated); node centred fields cannot be joined (C217_node_violated); ends of arrays are not compared (C217_ends_violated); overlap is found in one order of the files only (C217_overlap_violated). One field of one time step; the list of slices is taken as a tuple."
  },
  {
   "property": "C218",
   "status": "partial",
   "theorems": [
    "Viscid.Props.C218_bits",
    "Viscid.Props.C218_zero_violated",
    "Viscid.Props.C218_negative",
    "Viscid.Props.C218_rgb_partial",
    "Viscid.Props.C218_fractions",
    "Viscid.Props.C218_refused",
    "Viscid.Props.C218_dark_violated",
    "Viscid.Props.C218_diff_violated"
   ],
   "note": "Partial: C218_bits, C218_negative, C218_rgb_partial, C218_fractions, C218_refused hold. Violated: the text for 0 is never printed, since a text is compared with a number (C218_zero_violated); colours of 0 to 255 that are all at most 1 are taken as fractions, so the darkest ones come out as the brightest (C218_dark_violated); viscid_diff always ends with a TypeError, since iter_fields has no argument `named` (C218_diff_violated). Reading of numbers from texts is not modelled."
  },
  {
   "property": "C219",
   "status": "partial",
   "theorems": [
    "Viscid.Props.C219_limits_partial",
    "Viscid.Props.C219_equal_violated",
    "Viscid.Props.C219_named",
    "Viscid.Props.C219_refused",
    "Viscid.Props.C219_plane",
    "Viscid.Props.C219_two"
   ],
   "note": "Partial: C219_limits_partial needs limits that differ (matplotlib widens equal ones itself); with equal limits the axis is turned around (C219_equal_violated). C219_named, C219_refused, C219_plane, C219_two hold. Limits are rational numbers; no nan."
  },
  {
   "property": "C220",
   "status": "partial",
   "theorems": [
    "Viscid.Props.C220_segments_partial",
    "Viscid.Props.C220_kept",
    "Viscid.Props.C220_single_violated"
   ],
   "note": "Partial: C220_segments_partial, C220_kept; with scipy, lines of one vertex only if there is one coordinate. Violated: a line of one vertex keeps its first coordinate only, the others are uninitialised memory (C220_single_violated), as interp1d refuses one vertex (as the comment in the code says; newer scipy may not) and only row j = 0 is set. Linear interpolation; colours as bytes not modelled."
  },
  {
   "property": "C221",
   "status": "partial",
   "theorems": [
    "Viscid.Props.C221_value_partial",
    "Viscid.Props.C221_cartesian_violated",
    "Viscid.Props.C221_radians_violated",
    "Viscid.Props.C221_fillna"
   ],
   "note": "Partial: C221_value_partial (fields in degrees on theta and phi, or latitude and longitude, at nodes), C221_fillna. Violated: fld.is_spherical is a method and not called, so fields of x, y, z are taken for spherical ones and raise ValueError (C221_cartesian_violated, modelled for two axes, that of three is the same branch); fields in radians are asked at numbers of degrees (C221_radians_violated). One point at a time; rounding is not modelled."
  },
  {
   "property": "C222",
   "status": "partial",
   "theorems": [
    "Viscid.Props.C222_between",
    "Viscid.Props.C222_spaced",
    "Viscid.Props.C222_stretched_violated",
    "Viscid.Props.C222_one",
    "Viscid.Props.C222_least",
    "Viscid.Props.C222_point_violated",
    "Viscid.Props.C222_axes",
    "Viscid.Props.C222_uniform",
    "Viscid.Props.C222_arrays",
    "Viscid.Props.C222_skipped_violated",
    "Viscid.Props.C222_refused"
   ],
   "note": "Athena: nodes are half way between centres, increasing centres lie between their nodes (C222_between), equally spaced centres are the middles of the nodes (C222_spaced), a one-cell axis is as wide as the least spacing of the others (C222_one, C222_least). Fails for stretched grids, whose centres are not the middles of the nodes that are made (C222_stretched_violated), and a file of a single cell gets infinite nodes (C222_point_violated). Gkeyll: uniform, rectilinear and structured grids come as they are in the file (C222_axes, C222_uniform, C222_arrays), others are refused (C222_refused); a uniform file with fewer bounds than axes silently loses axes because the IndexError is passed over (C222_skipped_violated). h5py's error for too many indices is taken to be a ValueError; rounding is not modelled."
  },
  {
   "property": "C223",
   "status": "partial",
   "theorems": [
    "Viscid.Props.C223_types",
    "Viscid.Props.C223_bool_violated",
    "Viscid.Props.C223_lists",
    "Viscid.Props.C223_empty_violated",
    "Viscid.Props.C223_arrays",
    "Viscid.Props.C223_array_violated",
    "Viscid.Props.C223_text",
    "Viscid.Props.C223_text_like",
    "Viscid.Props.C223_date_violated",
    "Viscid.Props.C223_year_violated",
    "Viscid.Props.C223_seconds",
    "Viscid.Props.C223_time",
    "Viscid.Props.C223_seconds_violated",
    "Viscid.Props.C223_conservative",
    "Viscid.Props.C223_datetime"
   ],
   "note": "Scalars by type (C223_types), lists by their elements (C223_lists), arrays of numpy's types and of Python's objects (C223_arrays), text that cannot be a duration is read by numpy after as_isotime (C223_text, C223_text_like), numbers as text are no times if conservative (C223_conservative), as_datetime's second attempt never changes the outcome (C223_datetime). Fails: every text of up to three numbers between colons is read as a duration first, so YYYY:MM:DD becomes hours:minutes:seconds after 1970 (C223_date_violated) and a year so many seconds after 1970 (C223_year_violated); durations as text are rounded as instants (C223_seconds_violated); the empty list is both (C223_empty_violated); bool is a duration (C223_bool_violated); arrays of numbers are not durations though lists of numbers are, because dtype.type is compared with abstract types (C223_array_violated). Python's float and numpy's parser are parameters; infinities, errors other than ValueError and OverflowError, and numpy versions with time zones are not modelled."
  },
  {
   "property": "C224",
   "status": "partial",
   "theorems": [
    "Viscid.Props.C224_read",
    "Viscid.Props.C224_without",
    "Viscid.Props.C224_without_axis",
    "Viscid.Props.C224_order",
    "Viscid.Props.C224_version",
    "Viscid.Props.C224_short",
    "Viscid.Props.C224_comment_violated",
    "Viscid.Props.C224_value",
    "Viscid.Props.C224_dict",
    "Viscid.Props.C224_dict_violated"
   ],
   "note": "Two parts fail and are proved to: a comment or blank line among the lines of variables has the file refused (ValueError), and of two species with the same base name the variables of the earlier cannot be found in the table. float() is a parameter; negative numbers of blocks are not modelled."
  },
  {
   "property": "C225",
   "status": "partial",
   "theorems": [
    "Viscid.Props.C225_first",
    "Viscid.Props.C225_last",
    "Viscid.Props.C225_once",
    "Viscid.Props.C225_list",
    "Viscid.Props.C225_last_violated",
    "Viscid.Props.C225_three_violated",
    "Viscid.Props.C225_refused",
    "Viscid.Props.C225_again",
    "Viscid.Props.C225_mesh",
    "Viscid.Props.C225_values",
    "Viscid.Props.C225_shape_violated",
    "Viscid.Props.C225_axes",
    "Viscid.Props.C225_z_violated"
   ],
   "note": "Four parts fail and are proved to: a grid of points with coordinates last is gone through first index fastest, so seeds are in another order than the array's; arrays with both first and last axis of length 3 are always taken with coordinates first; get_local_shape of a mesh calls itself without end; rectilinear meshes along z are refused (KeyError)."
  },
  {
   "property": "C226",
   "status": "partial",
   "theorems": [
    "Viscid.Props.C226_sound",
    "Viscid.Props.C226_chars",
    "Viscid.Props.C226_words_partial",
    "Viscid.Props.C226_adjacent_violated",
    "Viscid.Props.C226_forever_violated",
    "Viscid.Props.C226_empty_violated",
    "Viscid.Props.C226_negative_violated"
   ],
   "note": "rfind_all is a generator; the model gives what the first n values are and whether it has ended. Proved for all inputs: what is given is a place of one of the texts and not before the start; single characters are all found, in order, between start and end, and the generator ends; texts of m characters are all found if at least m-1 other characters are before the first and between each two (C226_words_partial). False of the code: of a text of two or more characters that stands twice in a row only the second is found (C226_adjacent_violated, any text); with such a text at the beginning of s and nowhere else, the generator gives 0 without end (C226_forever_violated), because the end becomes negative and counts from the right; the empty text is found at the end for ever; a negative start finds nothing."
  },
  {
   "property": "C227",
   "status": "partial",
   "theorems": [
    "Viscid.Props.C227_each",
    "Viscid.Props.C227_empty",
    "Viscid.Props.C227_state",
    "Viscid.Props.C227_one",
    "Viscid.Props.C227_fails",
    "Viscid.Props.C227_procs",
    "Viscid.Props.C227_subplot_violated",
    "Viscid.Props.C227_none_violated"
   ],
   "note": "The function that makes a picture is a parameter; it may change a state that stands for the objects it is given (C227_state says what each call finds: with one process what the call before has left, with several what was given at the beginning of each part). False of the code: with 'subplot_params' in kwopts nothing is assigned to r and there is an UnboundLocalError before any picture (C227_subplot_violated); kwopts=None is a TypeError although _do_multiplot takes None."
  },
  {
   "property": "C228",
   "status": "partial",
   "theorems": [
    "Viscid.Props.C228_field",
    "Viscid.Props.C228_every",
    "Viscid.Props.C228_panels",
    "Viscid.Props.C228_hat",
    "Viscid.Props.C228_again_violated",
    "Viscid.Props.C228_same",
    "Viscid.Props.C228_meaning_partial",
    "Viscid.Props.C228_yaml_violated",
    "Viscid.Props.C228_files",
    "Viscid.Props.C228_show",
    "Viscid.Props.C228_subplots"
   ],
   "note": "What is asked of matplotlib and the grid is modelled; drawing is not. False of the code: global_popts are appended to the dict of the variable again for every picture the same process makes (C228_again_violated gives the text for every number of pictures). With options with commas this changes nothing, as the last of a name counts (C228_meaning_partial, with the model of C216, for texts without blanks at the ends); with options in the way of yaml the second picture asks yaml for two mappings with a comma between them (C228_yaml_violated)."
  },
  {
   "property": "C229",
   "status": "partial",
   "theorems": [
    "Viscid.Props.C229_names",
    "Viscid.Props.C229_times",
    "Viscid.Props.C229_alone",
    "Viscid.Props.C229_xdmf",
    "Viscid.Props.C229_twice_violated",
    "Viscid.Props.C229_fields_partial",
    "Viscid.Props.C229_fields_violated",
    "Viscid.Props.C229_crds_violated",
    "Viscid.Props.C229_refused"
   ],
   "note": "The regular expressions are modelled at the level of characters and proved to take exactly the names that fit (C229_names). False of the code: in a series of Athena's XDMF files every grid is there twice (C229_twice_violated); for jrrle, fortbin, tab and Gkeyll files all entries say they have the fields of the first file (C229_fields_violated), and for all but XDMF the coordinates of the first file (C229_crds_violated). Absolute names without line feeds, and ASCII white space and digits."
  },
  {
   "property": "C230",
   "status": "partial",
   "theorems": [
    "Viscid.Props.C230_xdmf_partial",
    "Viscid.Props.C230_same_partial",
    "Viscid.Props.C230_stale_violated",
    "Viscid.Props.C230_series_violated",
    "Viscid.Props.C230_first_violated"
   ],
   "note": "Proved: an XDMF file that is no series is read again (C230_xdmf_partial), and an unchanged file stays the same (C230_same_partial). False of the code: a single file of the other readers keeps fields and coordinates of its first load through any history of reloads (C230_stale_violated); reloading a series that is not XDMF is an AttributeError and leaves it empty, because its name is the collective one, which no reader takes (C230_series_violated); a series of XDMF files is afterwards only its first file (C230_first_violated). Values of fields, which are read when they are used, are not part of the model."
  },
  {
   "property": "C231",
   "status": "partial",
   "theorems": [
    "Viscid.Props.C231_all",
    "Viscid.Props.C231_axes",
    "Viscid.Props.C231_prune_partial",
    "Viscid.Props.C231_flat",
    "Viscid.Props.C231_first_violated",
    "Viscid.Props.C231_one_violated",
    "Viscid.Props.C231_axes_prune_violated"
   ],
   "note": "Proved for scalar fields and vectors with components along the last axis (C231_prune_partial), and without prune for all (C231_all, C231_axes); the flat arrays have the coordinates of a point where data.reshape(-1) has its value (C231_flat), which fit_paraboloid relies on. False of the code: for vectors in the layout flat, prune counts the axis of components: it removes the axis after one with one point, or raises an IndexError (C231_first_violated); vectors of one component raise an IndexError (C231_one_violated); with axes asked for, prune removes by the number of the axis in the field from the list of those asked for (C231_axes_prune_violated). Axes are given by number; names are those of C193. Coordinates are of any type."
  },
  {
   "property": "C232",
   "status": "partial",
   "theorems": [
    "Viscid.Props.C232_three_partial",
    "Viscid.Props.C232_thick",
    "Viscid.Props.C232_two_violated",
    "Viscid.Props.C232_four_violated"
   ],
   "note": "Proved for three axes (C232_three_partial, C232_thick). False of the code: coordinates with two axes have two rows, which cannot be reshaped to three, so as_mesh of every two dimensional field with points is a ValueError (C232_two_violated); so is that of four axes with two of one point (C232_four_violated). Node and cell centering (face and edge have lists of arrays)."
  },
  {
   "property": "C233",
   "status": "partial",
   "theorems": [
    "Viscid.Props.C233_each",
    "Viscid.Props.C233_refused",
    "Viscid.Props.C233_one",
    "Viscid.Props.C233_short",
    "Viscid.Props.C233_empty",
    "Viscid.Props.C233_long",
    "Viscid.Props.C233_rows_violated",
    "Viscid.Props.C233_three_violated"
   ],
   "note": "Columns, single vectors and short vectors are proved. Violated by cotr_transform: vectors in rows, the documented shape, are refused when there are four or more, and mixed with each other when there are three."
  },
  {
   "property": "C234",
   "status": "proved",
   "theorems": [
    "Viscid.Props.C234_angles",
    "Viscid.Props.C234_mag",
    "Viscid.Props.C234_signs",
    "Viscid.Props.C234_length",
    "Viscid.Props.C234_time"
   ],
   "note": "Proved, on real numbers. The agreement of the two functions is for gse, gsm, sm and mhd."
  },
  {
   "property": "C235",
   "status": "partial",
   "theorems": [
    "Viscid.Props.C235_names_partial",
    "Viscid.Props.C235_names_violated",
    "Viscid.Props.C235_open_violated",
    "Viscid.Props.C235_vectors",
    "Viscid.Props.C235_b",
    "Viscid.Props.C235_missing",
    "Viscid.Props.C235_epar",
    "Viscid.Props.C235_unique",
    "Viscid.Props.C235_none"
   ],
   "note": "Vectors and epar are proved. Violated: the pattern of names is not anchored at its end, so any name that goes on after the name of a field file is taken; and open_psc_file raises a ValueError for every step, as its format asks for a precision of an integer."
  },
  {
   "property": "C236",
   "status": "partial",
   "theorems": [
    "Viscid.Props.C236_grids_partial",
    "Viscid.Props.C236_opts_violated",
    "Viscid.Props.C236_load",
    "Viscid.Props.C236_again_violated",
    "Viscid.Props.C236_datasets_partial",
    "Viscid.Props.C236_class_violated"
   ],
   "note": "The class of grids of a new file, the options of the reader and names of datasets are proved. Violated: grid_opts given when a file is loaded are stored under a name nothing reads and reach no grid; options are ignored when the file was loaded before; a class is refused as a type of dataset."
  },
  {
   "property": "C237",
   "status": "partial",
   "theorems": [
    "Viscid.Props.C237_limits",
    "Viscid.Props.C237_skeleton",
    "Viscid.Props.C237_values_partial",
    "Viscid.Props.C237_open_violated",
    "Viscid.Props.C237_index_violated",
    "Viscid.Props.C237_axes_violated"
   ],
   "note": "The limits, and selections of values, are proved. Violated: open ends are infinite, as the limits are put only where there is nan, and nan has raised an error before; selections by index are refused; and so is every field with fewer than three axes."
  },
  {
   "property": "C238",
   "status": "proved",
   "theorems": [
    "Viscid.Props.C238_points",
    "Viscid.Props.C238_cells",
    "Viscid.Props.C238_own",
    "Viscid.Props.C238_flat"
   ],
   "note": ""
  },
  {
   "property": "C239",
   "status": "partial",
   "theorems": [
    "Viscid.Props.C239_arrows_partial",
    "Viscid.Props.C239_one_step",
    "Viscid.Props.C239_flat_violated"
   ],
   "note": "Proved for fields with their components last. Violated if these are first: the number of components is taken for that of points of the first axis, and so on, so the first arrow may be beyond the second axis and no arrow is drawn."
  },
  {
   "property": "C240",
   "status": "partial",
   "theorems": [
    "Viscid.Props.C240_size",
    "Viscid.Props.C240_sides_partial",
    "Viscid.Props.C240_x_violated",
    "Viscid.Props.C240_field_violated",
    "Viscid.Props.C240_rot_violated"
   ],
   "note": "Size proved for all planes, sides for planes of constant y and z. Violated: planes of constant x in GSE are coloured the wrong way round; from a field in such a plane the colour is always night; rot is ignored in GSE."
  },
  {
   "property": "C241",
   "status": "partial",
   "theorems": [
    "Viscid.Props.C241_fractions",
    "Viscid.Props.C241_columns",
    "Viscid.Props.C241_bytes_partial",
    "Viscid.Props.C241_dark_violated",
    "Viscid.Props.C241_refused",
    "Viscid.Props.C241_limits",
    "Viscid.Props.C241_alpha",
    "Viscid.Props.C241_alpha_only"
   ],
   "note": "Violated: bytes that are all 0 or 1 are taken for fractions and become full intensity; with any byte above 1 they are kept."
  },
  {
   "property": "C242",
   "status": "partial",
   "theorems": [
    "Viscid.Props.C242_rgba",
    "Viscid.Props.C242_reverse",
    "Viscid.Props.C242_linear",
    "Viscid.Props.C242_ends",
    "Viscid.Props.C242_name_violated",
    "Viscid.Props.C242_listed_violated"
   ],
   "note": "Proved: samples for all sizes, reversal for maps of 256 colours, ends for arrays. Violated: a linear map that is not reversed keeps its own name; to_listed_cmap swaps name and colours, or gives back a linear map. Interpolation and lookup of matplotlib are modelled as documented; clipping is not."
  },
  {
   "property": "C243",
   "status": "partial",
   "theorems": [
    "Viscid.Props.C243_best",
    "Viscid.Props.C243_box",
    "Viscid.Props.C243_on_line",
    "Viscid.Props.C243_colors_partial",
    "Viscid.Props.C243_numbers_violated",
    "Viscid.Props.C243_rows",
    "Viscid.Props.C243_penalty",
    "Viscid.Props.C243_filled_violated",
    "Viscid.Props.C243_padding_violated",
    "Viscid.Props.C243_default_violated",
    "Viscid.Props.C243_size"
   ],
   "note": "Violated: colours that are numbers are refused for every label; it is an IndexError to place a label if more labels than there are paths were placed before; a padding in fractions of the axes includes the place of the axes; the default padding in pixels is right only for 72 dots per inch. Which paths meet a box is a parameter."
  },
  {
   "property": "C244",
   "status": "partial",
   "theorems": [
    "Viscid.Props.C244_hemisphere",
    "Viscid.Props.C244_bound",
    "Viscid.Props.C244_circles",
    "Viscid.Props.C244_labels",
    "Viscid.Props.C244_local_time",
    "Viscid.Props.C244_north_partial",
    "Viscid.Props.C244_south_violated"
   ],
   "note": "Violated: plot_iono of a southern hemisphere is always a ValueError, as it selects theta from a field of longitude and latitude. Drawing itself and basemap are not modelled."
  },
  {
   "property": "C245",
   "status": "partial",
   "theorems": [
    "Viscid.Props.C245_points",
    "Viscid.Props.C245_lines_partial",
    "Viscid.Props.C245_short_violated",
    "Viscid.Props.C245_plane_violated",
    "Viscid.Props.C245_single_violated",
    "Viscid.Props.C245_index_violated"
   ],
   "note": "Points proved. Lines are violated: the array of segments is indexed where directions are meant, so a named direction is refused for fewer than three segments; without a name, lines of three or more moving segments are drawn by x and y whatever their plane; a single segment is drawn by x against x; and there is an IndexError where the two moving segments are not among the first three."
  },
  {
   "property": "C246",
   "status": "partial",
   "theorems": [
    "Viscid.Props.C246_range",
    "Viscid.Props.C246_intensity",
    "Viscid.Props.C246_increasing",
    "Viscid.Props.C246_black_white",
    "Viscid.Props.C246_hues",
    "Viscid.Props.C246_rot_violated",
    "Viscid.Props.C246_start_violated"
   ],
   "note": "Proved over the reals; the intensity is exact up to less than a millionth, by the rounding of the coefficients in the code. Violated: rot turns the helix three times as far as the convention of start, in which 3 is once around; and the helix does not begin at start unless rot times the first intensity is whole."
  },
  {
   "property": "C247",
   "status": "partial",
   "theorems": [
    "Viscid.Props.C247_spines",
    "Viscid.Props.C247_side",
    "Viscid.Props.C247_trim_partial",
    "Viscid.Props.C247_descending_violated",
    "Viscid.Props.C247_no_tick_violated",
    "Viscid.Props.C247_limits",
    "Viscid.Props.C247_current_violated",
    "Viscid.Props.C247_edge"
   ],
   "note": "Trimming is proved for ticks in ascending order of which one is within. Violated: ticks in descending order all vanish; ticks all beyond one limit are an IndexError; a tight layout of a figure that is not the current one is applied to the current one instead, whose limits are not restored."
  },
  {
   "property": "C248",
   "status": "partial",
   "theorems": [
    "Viscid.Props.C248_nulls_partial",
    "Viscid.Props.C248_a_nulls_violated",
    "Viscid.Props.C248_earth",
    "Viscid.Props.C248_earth_whole",
    "Viscid.Props.C248_iono_partial",
    "Viscid.Props.C248_iono_violated"
   ],
   "note": "Violated: A nulls are drawn exactly if O nulls are, whatever their number and colour; of ionospheric fields from pole to pole and once around, as the reader for OpenGGCM makes them, no value is at its colatitude but the middle ones, and none at its longitude but the first. The earth is proved; fields are proved where they reach neither pole nor once around. Rotation by date and the clipping by bounding_lat are not modelled here."
  },
  {
   "property": "C249",
   "status": "partial",
   "theorems": [
    "Viscid.Props.C249_list",
    "Viscid.Props.C249_namespace",
    "Viscid.Props.C249_all_bound",
    "Viscid.Props.C249_surprise",
    "Viscid.Props.C249_fatal_partial",
    "Viscid.Props.C249_fatal_violated",
    "Viscid.Props.C249_check",
    "Viscid.Props.C249_proxy",
    "Viscid.Props.C249_dummy",
    "Viscid.Props.C249_call_violated"
   ],
   "note": "Violated: with fatal=True the failed import of a module whose name is bound already is neither raised nor logged; a proxy called with arguments raises a TypeError instead of the exception it has. A module that raises anything but an ImportError, or lacks a name it shares, stops the import of the package. C249_fatal_partial is for a failure at the head of the list."
  },
  {
   "property": "C250",
   "status": "partial",
   "theorems": [
    "Viscid.Props.C250_no_film",
    "Viscid.Props.C250_keep",
    "Viscid.Props.C250_film",
    "Viscid.Props.C250_frames",
    "Viscid.Props.C250_args",
    "Viscid.Props.C250_others_violated",
    "Viscid.Props.C250_lost_violated",
    "Viscid.Props.C250_none_violated",
    "Viscid.Props.C250_mesh_partial",
    "Viscid.Props.C250_mesh_violated"
   ],
   "note": "Violated: frames of any other prefix that begins with this one and an underscore are removed too; frames are removed though no film was made, if the program fails, is not ffmpeg, or the name of the film is empty; with neither film nor prefix, files None_*.png are removed; a mesh without an extension is written to a file without a name or outside of a directory with a dot. Characters with a meaning to a shell are not modelled."
  },
  {
   "property": "C251",
   "status": "partial",
   "theorems": [
    "Viscid.Props.C251_calls",
    "Viscid.Props.C251_stats",
    "Viscid.Props.C251_errors",
    "Viscid.Props.C251_lines",
    "Viscid.Props.C251_timereps",
    "Viscid.Props.C251_quet_violated"
   ],
   "note": "Violated: the keyword documented to quiet all output (timeit_quet) is passed on to the function and quiets nothing. Times are rational: rounding is not modelled."
  },
  {
   "property": "C252",
   "status": "partial",
   "theorems": [
    "Viscid.Props.C252_within_partial",
    "Viscid.Props.C252_endpoint_violated",
    "Viscid.Props.C252_pole_violated",
    "Viscid.Props.C252_angle_violated",
    "Viscid.Props.C252_guess",
    "Viscid.Props.C252_sign_violated"
   ],
   "note": "Violated: theta_endpoint of SphericalCap is dropped, so the far edge is never among the points; a cap without a hole has its pole nphi times; cap.angle reads back in radians; guess_dipole_moment does not see the sign of the field, so it gives the same answer for opposite moments, always points north for a positive strength, and is on the wrong side for moments like that of the Earth. Partial: the pole must not be nearly along the z axis unless equal to it, as in C77."
  },
  {
   "property": "C253",
   "status": "partial",
   "theorems": [
    "Viscid.Props.C253_unary",
    "Viscid.Props.C253_binary",
    "Viscid.Props.C253_number",
    "Viscid.Props.C253_left_violated",
    "Viscid.Props.C253_scale_partial",
    "Viscid.Props.C253_scale_violated",
    "Viscid.Props.C253_axpby",
    "Viscid.Props.C253_relative_partial",
    "Viscid.Props.C253_relative_violated",
    "Viscid.Props.C253_one_violated",
    "Viscid.Props.C253_sizes",
    "Viscid.Props.C253_absmax"
   ],
   "note": "Violated: scale cuts its factor to an integer for fields of integers (scale(0.5, f) is zero everywhere); add, diff and mul of a number and a field, in this order, raise with numexpr and work with numpy; relative_diff is documented as abs(a - b) / a but keeps the sign of a - b; the named operations raise for fields of one value. Rounding, wrapping of integers and the division of integers by numexpr are not modelled; relative_diff is proved where one field has floats."
  },
  {
   "property": "C254",
   "status": "partial",
   "theorems": [
    "Viscid.Props.C254_line",
    "Viscid.Props.C254_zero_violated",
    "Viscid.Props.C254_integer_violated",
    "Viscid.Props.C254_symmetric_partial",
    "Viscid.Props.C254_nan_violated",
    "Viscid.Props.C254_limits",
    "Viscid.Props.C254_log",
    "Viscid.Props.C254_times",
    "Viscid.Props.C254_pad",
    "Viscid.Props.C254_inplace_violated"
   ],
   "note": "Violated: a scale or mod of zero is not applied; a field of integers cannot be scaled by a float; symmetric limits are not numbers if the first value is nan; _set_default_cbar_pad with inplace=False changes the dict of the caller. C254_symmetric_partial is for a first value that is not nan. Matplotlib, labels and formats of ticks are not modelled."
  },
  {
   "property": "C255",
   "status": "partial",
   "theorems": [
    "Viscid.Props.C255_call",
    "Viscid.Props.C255_raise",
    "Viscid.Props.C255_missing",
    "Viscid.Props.C255_not_callable",
    "Viscid.Props.C255_with",
    "Viscid.Props.C255_indices_partial",
    "Viscid.Props.C255_indices_violated",
    "Viscid.Props.C255_interpolated_partial",
    "Viscid.Props.C255_interpolated_violated",
    "Viscid.Props.C255_interpolated_nothing"
   ],
   "note": "Violated: patch_indices is a number for one patch and None for no patch, where a list is documented; interpolated_slice raises for a selection within one patch. Both are proved for two patches or more. Which patches a selection overlaps is C181."
  },
  {
   "property": "C256",
   "status": "partial",
   "theorems": [
    "Viscid.Props.C256_options",
    "Viscid.Props.C256_popts_violated",
    "Viscid.Props.C256_parts",
    "Viscid.Props.C256_comma_violated",
    "Viscid.Props.C256_series_partial",
    "Viscid.Props.C256_integer_violated",
    "Viscid.Props.C256_errors",
    "Viscid.Props.C256_output",
    "Viscid.Props.C256_verbosity"
   ],
   "note": "Violated: of several -o in a row only the last counts; an equation with a comma is cut off at it; if the times are integers (athena history files) every value is cut to an integer. Parsing by argparse itself and drawing are not modelled."
  },
  {
   "property": "C257",
   "status": "partial",
   "theorems": [
    "Viscid.Props.C257_box_partial",
    "Viscid.Props.C257_nice",
    "Viscid.Props.C257_symmetric_violated",
    "Viscid.Props.C257_integer_violated",
    "Viscid.Props.C257_one_violated",
    "Viscid.Props.C257_labels",
    "Viscid.Props.C257_fit_partial",
    "Viscid.Props.C257_fit_violated",
    "Viscid.Props.C257_clear",
    "Viscid.Props.C257_clear_none"
   ],
   "note": "Violated: symmetric has no effect but to undo tight; limits given as integers raise TypeError; one label along an axis divides by zero; to_mpl tests a function in place of its result and never fits for fit=None. AutoLocator is any function; set_view_interval of the locator is taken to exist."
  },
  {
   "property": "C258",
   "status": "partial",
   "theorems": [
    "Viscid.Props.C258_position",
    "Viscid.Props.C258_unknown",
    "Viscid.Props.C258_options",
    "Viscid.Props.C258_reuse_violated",
    "Viscid.Props.C258_ticks_violated",
    "Viscid.Props.C258_cax_partial",
    "Viscid.Props.C258_cax_violated",
    "Viscid.Props.C258_cbarlabel",
    "Viscid.Props.C258_labels_partial",
    "Viscid.Props.C258_labels_violated"
   ],
   "note": "Violated: the dictionary of the caller is changed, so that with the same dictionary a colorbar on top (left) is at the bottom (right) in the second plot, aspect and shrink are back to defaults, and the ticks are those chosen for the first scale; axes with use_grid1=True raise AssertionError; xlabel and ylabel are ignored. Sizes of the new axes and drawing are not modelled."
  },
  {
   "property": "C259",
   "status": "partial",
   "theorems": [
    "Viscid.Props.C259_lines",
    "Viscid.Props.C259_zloc",
    "Viscid.Props.C259_markers",
    "Viscid.Props.C259_space",
    "Viscid.Props.C259_colors_violated",
    "Viscid.Props.C259_markers_violated",
    "Viscid.Props.C259_scatter",
    "Viscid.Props.C259_choice"
   ],
   "note": "Violated: explicit colours are not used for markers; the dictionary marker_kwargs of the caller is changed, so that markers of the next plot have the colours of the first. Resampling of lines and the search for the plane are modelled elsewhere; drawing is matplotlib's."
  },
  {
   "property": "C260",
   "status": "partial",
   "theorems": [
    "Viscid.Props.C260_sphere",
    "Viscid.Props.C260_place_partial",
    "Viscid.Props.C260_radius_violated",
    "Viscid.Props.C260_pole_violated",
    "Viscid.Props.C260_pictures",
    "Viscid.Props.C260_rotation",
    "Viscid.Props.C260_rotation_violated"
   ],
   "note": "Violated: the angles are multiplied by the radius, so the picture is right only for radius one; for a radius that is no whole number its left and right edges are apart, and for radius two the South Pole is at the top. An angle and axis that are given raise TypeError. Real arithmetic; the plane source and spherical transform of VTK are modelled by their formulas."
  },
  {
   "property": "C261",
   "status": "partial",
   "theorems": [
    "Viscid.Props.C261_own_partial",
    "Viscid.Props.C261_threads",
    "Viscid.Props.C261_with",
    "Viscid.Props.C261_error",
    "Viscid.Props.C261_nested_violated",
    "Viscid.Props.C261_same_violated"
   ],
   "note": "Proved by an invariant over all schedules for handles of different files. Violated: an inner with closes the file of the outer one; two handles of the same file share a unit, so that after one is closed the other raises RuntimeError, or reads from whatever file gets the unit next. Fortran's units are modelled by the file each is connected to; that it makes files that are missing is not modelled."
  },
  {
   "property": "C262",
   "status": "partial",
   "theorems": [
    "Viscid.Props.C262_short",
    "Viscid.Props.C262_lines",
    "Viscid.Props.C262_words_violated",
    "Viscid.Props.C262_args_violated",
    "Viscid.Props.C262_format_violated"
   ],
   "note": "Proved for messages without arguments and words of up to 65 characters. Violated: a longer word is broken after 65 characters; the text is wrapped before its arguments are put in, so that what stands for %s is neither wrapped nor aligned, and a %s that is broken in two loses the message. Where textwrap may break at hyphens is a parameter; white space outside ASCII and conversions other than %s and %% are not modelled."
  },
  {
   "property": "C263",
   "status": "partial",
   "theorems": [
    "Viscid.Props.C263_coordinates",
    "Viscid.Props.C263_values_partial",
    "Viscid.Props.C263_refused",
    "Viscid.Props.C263_sizes_violated"
   ],
   "note": "Proved for files whose fields all have the sizes of the first one. Violated: a field of as many values with its axes the other way round is not refused but reshaped, so that values are at the wrong nodes. Rests on the model of the binary format (C189); rounding, layouts and transformations are not modelled."
  },
  {
   "property": "C264",
   "status": "partial",
   "theorems": [
    "Viscid.Props.C264_order",
    "Viscid.Props.C264_loaded",
    "Viscid.Props.C264_sharing",
    "Viscid.Props.C264_late_violated"
   ],
   "note": "as_c_contiguous is proved. Violated for as_flat and as_interlaced of fields in memory: the conversion is done when the result is first read, so that what is written to the field until then shows in it. numpy's C_CONTIGUOUS flag and np.ascontiguousarray are modelled with strides; parents of fields and element types are not."
  },
  {
   "property": "C265",
   "status": "partial",
   "theorems": [
    "Viscid.Props.C265_info_partial",
    "Viscid.Props.C265_attributes",
    "Viscid.Props.C265_errors",
    "Viscid.Props.C265_data_violated",
    "Viscid.Props.C265_amr_violated"
   ],
   "note": "Proved for Information elements with Value or without DataItem. Violated: DataItem elements have no children, so `if _di:` is false for them and the info is the text in front of the DataItem; and an AMR grid shares the dictionary of its first patch. What _parse_dataitem gives is an argument; the truth value of elements is that of ElementTree."
  },
  {
   "property": "C266",
   "status": "partial",
   "theorems": [
    "Viscid.Props.C266_array_partial",
    "Viscid.Props.C266_forget_partial",
    "Viscid.Props.C266_file_violated",
    "Viscid.Props.C266_zyx_violated",
    "Viscid.Props.C266_copy_violated",
    "Viscid.Props.C266_rewrap",
    "Viscid.Props.C266_time_violated"
   ],
   "note": "Proved for fields made from arrays without copy and zyx_native whose elements have places of their own, and for any source after forget_source without copy and zyx_native; values of rewrap_field are independent for every history. Violated: writes to fields from files are lost with the cache; with copy, as in rewrap_field, those after the first clear_cache are; after forget_source of a zyx_native field, clear_cache transposes its data; rewrap_field gives time 0. Only scalar fields in the default layout; writes of one element at a time."
  },
  {
   "property": "C267",
   "status": "partial",
   "theorems": [
    "Viscid.Props.C267_own_partial",
    "Viscid.Props.C267_once",
    "Viscid.Props.C267_amr_violated"
   ],
   "note": "Proved for every history without AMR grids; that a parent is there at most once, and there after adding and gone after removing, also with them. Violated: an AMR grid has the list of parents of its first patch, so a dataset that it is added to becomes a parent of that patch. Parents are compared by identity: for parents that are fields, `in` compares values, which is not modelled; neither are tuples of parents."
  },
  {
   "property": "C268",
   "status": "partial",
   "theorems": [
    "Viscid.Props.C268_list_partial",
    "Viscid.Props.C268_list_violated"
   ],
   "note": "Proved for `bucket[list] = item`, and for set_item with an item that is there already or index_handle=False, and only then. Violated otherwise: set_item puts the number of the item in the caller's list; the next item that is stored with it takes that number, and the first is lost if it has no other handle. The universal counterexample begins with an empty list."
  },
  {
   "property": "C269",
   "status": "partial",
   "theorems": [
    "Viscid.Props.C269_values",
    "Viscid.Props.C269_keep_partial",
    "Viscid.Props.C269_file_violated"
   ],
   "note": "Values, and that they stay, are proved for all components; that components keep their values, for those made from arrays without copy and zyx_native. Violated: loading the vector field clears the caches of its components, so what was written to a component from a file is gone from it. Components are different fields of the same shape; types are not modelled."
  },
  {
   "property": "C270",
   "status": "proved",
   "theorems": [
    "Viscid.Props.C270_axes",
    "Viscid.Props.C270_order",
    "Viscid.Props.C270_error"
   ],
   "note": "An axis of matplotlib is what was last given to its four setters; what matplotlib makes of it (and that a locator shared by two axes remembers one of them) is not modelled."
  },
  {
   "property": "C271",
   "status": "partial",
   "theorems": [
    "Viscid.Props.C271_filled",
    "Viscid.Props.C271_plain",
    "Viscid.Props.C271_mean_partial",
    "Viscid.Props.C271_mean_violated"
   ],
   "note": "Layout, order, types and values of seeds are proved for all arrays, with and without filling of holes; the mean at poles for arrays of floats. Violated: what arr2mesh makes is converted back to the type of the array, so with integers or truth values a pole does not have the mean (it is cut off towards 0, or true if any seed of the ring is). Numbers are rational; rounding is not modelled."
  }
 ]
}