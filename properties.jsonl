{"id": "C01", "title": "Contiguous chunking is a balanced partition", "statement": "For a sequence of n elements and k >= 1 chunks, chunk_list returns exactly k pieces whose concatenation in order is the original sequence, chunk_slices returns k consecutive (start, stop) pairs that tile [0, n), and any two piece lengths differ by at most one, longer pieces first.", "quantifier": "every sequence, every number of chunks >= 1 (more chunks than elements included)", "why_tests_cant": "The claim ranges over all n and k; a unit test samples a handful of pairs and misses remainders.", "anchors": ["viscid/parallel.py:chunk_list", "viscid/parallel.py:chunk_slices"]}
{"id": "C02", "title": "Chunk sizes agree with both chunkings", "statement": "chunk_sizes(n, k)[i] equals the number of elements selected by the i-th slice of chunk_slices(n, k) and by the i-th slice of chunk_interslices(k) on a length-n sequence; the sizes sum to n.", "quantifier": "every n, every k >= 1, every chunk index i < k", "why_tests_cant": "Needs all residues of n modulo k; streamline results are silently truncated or misplaced if one size is off by one.", "anchors": ["viscid/parallel.py:chunk_sizes", "viscid/parallel.py:chunk_interslices", "viscid/parallel.py:chunk_slices"]}
{"id": "C03", "title": "Scatter/gather of streamline work is independent of the number of workers", "statement": "Dealing seeds to chunks by chunk_interslices, tracing each chunk independently, and writing the chunk results back through the same slices gives, at every position, exactly the trace of the seed at that position, whatever nr_procs and chunk_factor are.", "quantifier": "every seed list, every per-seed tracing function, every nr_procs >= 1 and chunk_factor >= 1", "why_tests_cant": "Worker counts and completion orders are unbounded; a test runs only one machine's configuration.", "anchors": ["viscid/cython/streamline.pyx:calc_streamlines", "viscid/parallel.py:chunk_interslices", "viscid/parallel.py:map"]}
{"id": "C04", "title": "The size argument of the chunk functions controls chunk size", "statement": "When size=s is given to chunk_slices/chunk_sizes/chunk_list, the number of chunks is chosen so that every chunk has about s elements (ceil(n/s) chunks, none longer than s), independent of the nchunks argument.", "quantifier": "every n, nchunks >= 1, size >= 1", "why_tests_cant": "A universally quantified contract over two interacting arguments; a test where nchunks happens to equal size cannot see the fault.", "anchors": ["viscid/parallel.py:chunk_list", "viscid/parallel.py:chunk_slices", "viscid/parallel.py:chunk_sizes"]}
{"id": "C05", "title": "Bucket bookkeeping stays consistent", "statement": "After any sequence of Bucket operations (set, delete by handle, delete by item, drop reference, clear, failed calls included), a handle resolves to an item exactly when it is listed among that item's handles, no handle is listed twice, every stored item has at least one handle, and len() counts the items reachable by some handle.", "quantifier": "every history of Bucket operations on every handle/item population, including handle hijacking", "why_tests_cant": "The invariant must survive arbitrary operation histories; tests exercise only short fixed ones.", "anchors": ["viscid/bucket.py:Bucket.set_item", "viscid/bucket.py:Bucket._remove_item", "viscid/bucket.py:Bucket.remove_reference", "viscid/bucket.py:Bucket.__delitem__"]}
{"id": "C06", "title": "Bucket lookup returns the last item set under a handle", "statement": "bucket[h] returns the item most recently stored under h if that item has not since been removed or lost the handle, and raises KeyError otherwise: the bucket refines a plain handle -> item map.", "quantifier": "every history of operations, every handle", "why_tests_cant": "Refinement to an abstract map quantifies over all histories.", "anchors": ["viscid/bucket.py:Bucket.set_item", "viscid/bucket.py:Bucket.__getitem__", "viscid/bucket.py:Bucket.remove_item_by_handle"]}
{"id": "C07", "title": "Bucket reference counts keep an item alive exactly while it is referenced", "statement": "An item stored once and then re-stored m times with _add_ref and released r times with remove_reference stays in the bucket while r < 1 + m and is removed, with all of its handles, at the release that brings the count to zero or below.", "quantifier": "every interleaving of additions and releases of references, any release multiplicities", "why_tests_cant": "Counting arguments over arbitrary interleavings of two operations.", "anchors": ["viscid/bucket.py:Bucket.set_item", "viscid/bucket.py:Bucket.remove_reference"]}
{"id": "C08", "title": "Metadata lookup finds the nearest ancestor", "statement": "node.find_info(key) returns the value held by the first owner of key in breadth-first order from the node (the node itself first, then its parents in order, then grandparents, ...), so no owner is strictly nearer; get_all_info agrees with find_info for every key; the search terminates even when the parent graph is cyclic; if nobody reachable owns the key the default is returned or KeyError raised.", "quantifier": "every finite parent graph (shared parents, diamonds and cycles included), every key", "why_tests_cant": "Graphs are unbounded and may be cyclic; tests use two-level trees.", "anchors": ["viscid/tree.py:Node._parent_bfs", "viscid/tree.py:Node.find_info_owner", "viscid/tree.py:Node.find_info", "viscid/tree.py:Node.get_all_info", "viscid/tree.py:Node.update_info"]}
{"id": "C09", "title": "Attribute lookup through parents returns the attribute or the default", "statement": "node.find_attr(name, default) returns the attribute of the nearest node that has it (and whose value is not NotImplemented) and the default if there is none; it raises nothing but AttributeError, and that only without default.", "quantifier": "every parent graph and attribute assignment", "why_tests_cant": "All graph shapes and owner positions.", "anchors": ["viscid/tree.py:Node.find_attr"]}
{"id": "C10", "title": "JRRLE records round-trip", "statement": "Any record of 1 to 64 data bytes in the printable range that the writer emits is decoded by the reader to the same bytes, whatever the run structure, and the encoded line always fits the reader's 67 character limit.", "quantifier": "every record of length 1..64 over byte values 33..127", "why_tests_cant": "94^64 records; run boundaries, maximal runs and incompressible records all matter.", "anchors": ["viscid/readers/_jrrle.f90:wrnenc", "viscid/readers/_jrrle.f90:wrndec"]}
{"id": "C11", "title": "JRRLE quantised values round-trip with sign", "statement": "For every data value the quantisation index (clamped to 0..4414) and the sign survive the split into two printable characters and back, both characters are in 33..126, and the decoded logarithm differs from the clamped logarithm of |value| by at most half a quantum (z2 - z1)/8820 whenever z1 <= log|value| <= z2.", "quantifier": "every index 0..4414, both signs; every real value and every range z1 < z2", "why_tests_cant": "Continuum of values and ranges; the bound is an inequality over the reals.", "anchors": ["viscid/readers/_jrrle.f90:wrn2", "viscid/readers/_jrrle.f90:rdn2"]}
{"id": "C12", "title": "JRRLE decoding of arbitrary lines is memory safe and detects corruption", "statement": "For any 72 character line, the decoder either reports an error or returns at most 64 values, it never writes outside its 70 element work array, and a record in which one decoded value was altered is rejected.", "quantifier": "every 72 character input line; every single-value corruption", "why_tests_cant": "The input space is all byte strings; only a proof or exhaustive search over 256^72 strings covers it.", "anchors": ["viscid/readers/_jrrle.f90:wrndec"]}
{"id": "C13", "title": "JRRLE field lookup does not depend on access history", "statement": "After any sequence of successful or failing inquire / inquire_next / inquire_all_fields calls on a file, inquire(name) returns the metadata of the first field called name in the file and leaves the file positioned on it, and raises KeyError exactly when the file has no such field.", "quantifier": "every file content (duplicate names included) and every prior call history", "why_tests_cant": "History dependence: the cache and the file position interact; tests use a fresh wrapper.", "anchors": ["viscid/readers/ggcm_jrrle.py:JrrleFileWrapper.inquire", "viscid/readers/ggcm_jrrle.py:JrrleFileWrapper.inquire_next", "viscid/readers/ggcm_jrrle.py:JrrleFileWrapper.inquire_all_fields"]}
{"id": "C14", "title": "Forward-only slicing is equivalent to the requested slice", "statement": "For a sequence a and any slice with start/stop in [-L, L] (optionally interpreted on the reversed sequence), make_fwd_slice returns a forward slice and a flip such that a[first][second] == a[slc] (or a[::-1][slc]); the first slice always has a positive step.", "quantifier": "every length L, every slice with start/stop in [-L, L] or None and nonzero step, both reverse flags", "why_tests_cant": "Infinite family of (L, start, stop, step); off-by-one faults appear only for particular residues.", "anchors": ["viscid/sliceutil.py:make_fwd_slice"]}
{"id": "C15", "title": "Selecting by value picks the nearest / enclosed grid points", "statement": "On an increasing coordinate array, selecting one value returns an index whose coordinate is nearest to it; a forward slice by value selects exactly the points x with start - tol <= x and x <= stop + tol (without val_endpoint the last of those points is left out), in order.", "quantifier": "every increasing coordinate array and every start/stop/value", "why_tests_cant": "Continuum of coordinates and bounds.", "anchors": ["viscid/sliceutil.py:std_sel2index", "viscid/sliceutil.py:_unify_sbv_types"]}
{"id": "C16", "title": "Selections expand to one entry per axis", "statement": "fill_nd_sel_list turns any selection (with at most one Ellipsis, newaxis entries, and 'axis=...' named entries) into a list with exactly one entry per axis plus one per newaxis, named entries landing on their axis and unnamed axes getting the full slice; selections with too many entries are rejected.", "quantifier": "every selection list and every axis naming", "why_tests_cant": "All combinations of ellipsis position, newaxis and names.", "anchors": ["viscid/sliceutil.py:fill_nd_sel_list", "viscid/sliceutil.py:raw_sel2sel_list"]}
{"id": "C17", "title": "Trilinear interpolation is exact at grid points and never overshoots", "statement": "interp_trilin returns the stored value at every grid point, always lies between the minimum and maximum of the grid values, reproduces every function that is linear in each coordinate at all points inside the grid, and is constant (clamped) beyond the grid edges.", "quantifier": "every strictly increasing coordinate arrays, every grid data, every query point", "why_tests_cant": "Continuum of data and query points; boundary and one-cell axes are separate branches.", "anchors": ["viscid/cython/cycalc.pyx:_c_interp_trilin", "viscid/cython/cycalc.pyx:closest_preceeding_ind"]}
{"id": "C18", "title": "Bracketing index search is correct and independent of its cache", "statement": "closest_preceeding_ind returns an index whose interval contains the value when the value is inside the coordinate range, 0 below it, and the last valid index above it, for nonuniform axes for every starting cache index, and for uniform axes by direct computation giving the same bracket.", "quantifier": "every strictly increasing axis, every value, every cached start index in range", "why_tests_cant": "The cache makes the answer a function of history; only a proof covers every history.", "anchors": ["viscid/cython/cycalc.pyx:closest_preceeding_ind"]}
{"id": "C19", "title": "Nearest-neighbour interpolation returns the nearest sample", "statement": "interp_nearest returns the value of a grid point that minimises the distance along each axis.", "quantifier": "every strictly increasing axis, every value", "why_tests_cant": "Continuum of query points.", "anchors": ["viscid/cython/cycalc.pyx:closest_ind", "viscid/cython/cycalc.pyx:_c_interp_nearest"]}
{"id": "C20", "title": "AMR neighbour lists are symmetric", "statement": "After neighbour discovery patch i lists j exactly when j lists i, each pair is listed at most once on either side, a patch never lists itself, the two direction masks mirror each other, a pair is listed exactly when the two boxes touch (meet along every axis and share a face plane along at least one, within tolerance), and the mask bits mean what is documented.", "quantifier": "every list of patches with any centres and half widths, up to the neighbour table capacity", "why_tests_cant": "Relation over all pairs of an arbitrary patch set.", "anchors": ["viscid/cython/cyamr.pyx:discover_neighbors"]}
{"id": "C21", "title": "AMR point location finds a containing patch whenever one exists", "statement": "activate_patch(x) selects a patch containing x if any patch of the field contains x, regardless of which patch was active before; otherwise it selects a patch whose centre is nearest to x. When exactly one patch contains x the choice does not depend on history.", "quantifier": "every patch set, every point, every previously active patch (hence every query history)", "why_tests_cant": "History dependence and arbitrary geometry.", "anchors": ["viscid/cython/cyamr.pyx:activate_patch"]}
{"id": "C22", "title": "AMR whole-field reductions equal reductions over all data", "statement": "Reducing an AMR field with sum, prod, min, max, any, all gives the same value as reducing the concatenation of all patches; mean and ptp do too.", "quantifier": "every number of patches with any (unequal) sizes and any data", "why_tests_cant": "Unequal patch sizes are the interesting case and are unbounded.", "anchors": ["viscid/amr_field.py:AMRField.wrap_field_method"]}
{"id": "C23", "title": "Streamline buffers are never overrun and the seed is on the line", "statement": "For every integrator behaviour and stop condition, tracing writes each vertex inside its 2*maxit+1 slot buffer, the returned line is exactly the backward points reversed, the seed, and the forward points, in order, and has between 1 and 2*maxit+1 vertices.", "quantifier": "every maxit >= 1, direction, and every sequence of integrator results and end conditions", "why_tests_cant": "Quantifies over all execution histories of the integrator.", "anchors": ["viscid/cython/streamline.pyx:_py_streamline"]}
{"id": "C24", "title": "Streamline tracing always terminates", "statement": "Each streamline makes at most maxit accepted steps per direction, and each accepted step is preceded by finitely many step-size retries when the step-size floor is positive.", "quantifier": "every field (arbitrary error estimates), every initial step, every floor > 0", "why_tests_cant": "Liveness over all behaviours of the error estimate.", "anchors": ["viscid/cython/streamline.pyx:_py_streamline", "viscid/cython/integrate.pyx:_ts_ctrl"]}
{"id": "C25", "title": "Adaptive step size stays within its limits", "statement": "The adaptive step controller never changes the sign of the step, never exceeds the largest allowed step, requests a retry only with a strictly smaller step, and never returns a step below the smallest allowed one.", "quantifier": "every step, error estimate and controller parameter set", "why_tests_cant": "Nonlinear case analysis over reals.", "anchors": ["viscid/cython/integrate.pyx:_ts_ctrl"]}
{"id": "C26", "title": "Integrator coefficient tables are consistent", "statement": "The embedded Runge-Kutta tables used by rk12 and rk45 satisfy the consistency and order conditions of their advertised orders, and on a constant vector field every integrator moves exactly ds along the field direction.", "quantifier": "every constant field and step; all order conditions up to the stated order", "why_tests_cant": "A mistyped coefficient changes results by less than usual test tolerances.", "anchors": ["viscid/cython/integrate.pyx:_c_rk45", "viscid/cython/integrate.pyx:_c_rk12", "viscid/cython/integrate.pyx:_c_rk4", "viscid/cython/integrate.pyx:_c_rk2", "viscid/cython/integrate.pyx:_c_euler1"]}
{"id": "C27", "title": "max_length and max_t limit the streamline", "statement": "A streamline stops in a direction at the first step where its accumulated arc length reaches max_length or its accumulated travel time reaches max_t, and not before.", "quantifier": "every step sequence and limits", "why_tests_cant": "Accumulation over arbitrarily many steps.", "anchors": ["viscid/cython/streamline.pyx:_py_streamline", "viscid/cython/integrate.pyx:_c_euler1"]}
{"id": "C28", "title": "End-point classification is total and prioritised", "statement": "Every end point is classified by exactly one reason in the documented priority (inner boundary, outer sphere, then box faces, then length, then time), and a point strictly inside all bounds with no limit reached is never classified as ended.", "quantifier": "every end point and bounds", "why_tests_cant": "Case analysis over a continuum of points and several simultaneous conditions.", "anchors": ["viscid/cython/streamline.pyx:classify_endpoint"]}
{"id": "C29", "title": "Magnetosphere topology codes are well defined", "statement": "The topology assigned to a field line depends only on the set of its two end conditions: closed iff both ends reach the inner boundary, open north/south according to which hemisphere's inner boundary one end reaches, solar wind iff neither does; and topology2color maps each class to its own colour.", "quantifier": "every pair of end flags", "why_tests_cant": "Bit-mask logic over all combinations of flags.", "anchors": ["viscid/cython/streamline.pyx:end_flags_to_topology_msphere", "viscid/calculator/topology.py:topology2color"]}
{"id": "C30", "title": "Comment-tolerant JSON leaves valid JSON unchanged", "statement": "vjson.loads(text) parses every valid JSON text to the same value json.loads gives, and additionally ignores # and // comments outside strings and trailing commas outside strings.", "quantifier": "every text, every string content inside it", "why_tests_cant": "Strings may contain any character sequence, including comment markers, quotes, commas and brackets.", "anchors": ["viscid/vjson.py:loads", "viscid/vjson.py:find_all"]}
{"id": "C31", "title": "Discrete vector identities hold", "statement": "On any rectilinear grid, the discrete divergence of the discrete curl and the discrete curl of the discrete gradient computed by calc.div/curl/grad vanish identically at points two or more cells from the edge.", "quantifier": "every field and every rectilinear (nonuniform) grid", "why_tests_cant": "Identity over arbitrary data.", "anchors": ["viscid/calculator/calc.py:grad", "viscid/calculator/calc.py:div", "viscid/calculator/calc.py:curl", "viscid/calculator/necalc.py:grad"]}
{"id": "C32", "title": "Finite differences are exact for linear fields up to the boundary", "statement": "grad, div and curl of fields that are affine in the coordinates return the exact constant derivative at every point, including boundary points when boundaries are extended.", "quantifier": "every affine field and every strictly increasing coordinate arrays with at least two points per axis", "why_tests_cant": "All grids, including nonuniform ones.", "anchors": ["viscid/calculator/calc.py:grad", "viscid/calculator/calc.py:div", "viscid/calculator/calc.py:curl", "viscid/calculator/calc.py:extend_boundaries"]}
{"id": "C33", "title": "Point derivatives agree with calculus on linear fields", "statement": "jacobian_at_point, div_at_point and curl_at_point evaluated on an affine vector field return its exact Jacobian, divergence and curl.", "quantifier": "every affine vector field, point and spacing", "why_tests_cant": "A test with a symmetric field can hide swapped axes.", "anchors": ["viscid/calculator/calc.py:jacobian_at_point", "viscid/calculator/calc.py:div_at_point", "viscid/calculator/calc.py:curl_at_point"]}
{"id": "C34", "title": "Boundary extension preserves the interior", "statement": "extend_boundaries_ndarr with nl low and nh high ghost cells returns an array whose interior equals the input; order 0 repeats the edge value, order 1 extrapolates so that arithmetic progressions stay arithmetic.", "quantifier": "every 1-D profile, every nl, nh", "why_tests_cant": "All ghost widths and lengths.", "anchors": ["viscid/calculator/calc.py:extend_boundaries_ndarr"]}
{"id": "C35", "title": "Clusters are the connected components of the points", "statement": "With non-periodic axes, find_clusters groups the input points into exactly the connected components of the graph joining points that are adjacent (with or without diagonals): every point is in exactly one cluster, connected points share a cluster, and points in one cluster are connected.", "quantifier": "every list of points in every order", "why_tests_cant": "Graph connectivity over all point sets and orders.", "anchors": ["viscid/calculator/cluster.py:find_clusters", "viscid/calculator/cluster.py:distance_to_clusters"]}
{"id": "C36", "title": "Uniform cell-centred extents match the cell-centred coordinates", "statement": "For uniform coordinates, get_xl/get_xh(center='cell') and nc2cc agree with the first and last entries of the cell-centred coordinate arrays.", "quantifier": "every extent and number of cells", "why_tests_cant": "Depends on n through a division; a loose tolerance test at large n cannot see it.", "anchors": ["viscid/coordinate.py:UniformCrds.__init__", "viscid/coordinate.py:UniformCrds.nc2cc", "viscid/coordinate.py:StructuredCrds._fill_crds_dict"]}
{"id": "C37", "title": "Cell-centred coordinates interleave node coordinates", "statement": "For increasing node coordinates with n >= 2 nodes there are n - 1 cell centres, each strictly between its two nodes, increasing; reflecting an axis reverses order and negates values while preserving monotonicity, and reflecting twice is the identity.", "quantifier": "every strictly increasing coordinate array", "why_tests_cant": "Arbitrary nonuniform arrays.", "anchors": ["viscid/coordinate.py:StructuredCrds._fill_crds_dict", "viscid/coordinate.py:StructuredCrds.reflect_fill_arrays"]}
{"id": "C38", "title": "Temporal datasets stay time-ordered", "statement": "After adding children in any order, iterating a temporal dataset yields them in nondecreasing time with ties in insertion order, no child is lost or duplicated, and get_child by time returns a child whose time is nearest to the request.", "quantifier": "every insertion history and query time", "why_tests_cant": "All orders of arrival.", "anchors": ["viscid/dataset.py:DatasetTemporal.add", "viscid/dataset.py:DatasetTemporal.get_child"]}
{"id": "C39", "title": "Membership test of a temporal dataset agrees with retrieval", "statement": "`item in dataset` is True exactly when get_child(item) would succeed, for integer indices and for times.", "quantifier": "every dataset and index", "why_tests_cant": "Boundary index 0 is one value in an unbounded range.", "anchors": ["viscid/dataset.py:DatasetTemporal.__contains__", "viscid/dataset.py:DatasetTemporal.get_child"]}
{"id": "C40", "title": "File type detection is deterministic and respects priority", "statement": "detect_type returns a reader that accepts the file name, with maximal priority among those that accept it, and among equal priorities the one that comes first in the registry order (more derived classes first).", "quantifier": "every class registry, priority assignment and file name", "why_tests_cant": "Registries are extensible by user plug-ins.", "anchors": ["viscid/readers/vfile.py:VFile.detect_type", "viscid/readers/vfile.py:serialize_subclasses"]}
{"id": "C41", "title": "Face-centred divergence satisfies the discrete divergence theorem", "statement": "Summing div_fc times cell volume over a block of cells gives exactly the net flux through the block's outer faces; in particular the total is zero for fields whose boundary flux vanishes, and fc2cc reproduces constant fields exactly.", "quantifier": "every face-centred field on every rectilinear grid", "why_tests_cant": "Telescoping over arbitrarily many cells.", "anchors": ["viscid/calculator/ecfc.py:div_fc", "viscid/calculator/ecfc.py:fc2cc"]}
{"id": "C42", "title": "Line integrals are trapezoid sums that do not mix lines", "statement": "integrate_along_lines returns for each line the trapezoid sum over that line's vertices, unaffected by the other lines passed in the same call, for scalar fields and for the dot and mag reductions of vector fields.", "quantifier": "every list of lines of any lengths", "why_tests_cant": "Offset faults appear only from the second line on and depend on lengths.", "anchors": ["viscid/calculator/calc.py:integrate_along_lines"]}
{"id": "C43", "title": "Quaternion and matrix rotations agree", "statement": "For unit quaternions quat2rot yields an orthonormal matrix of determinant one, quat2rot(quatmul(p, q)) = quat2rot(p) quat2rot(q), quat_rotate(v, q) = quat2rot(q) v, q and -q give the same rotation, and rot2quat's eigenproblem applied to quat2rot(q) has q as its dominant eigenvector.", "quantifier": "every unit quaternion and vector", "why_tests_cant": "Algebraic identity over a continuum.", "anchors": ["viscid/rotation.py:quat2rot", "viscid/rotation.py:quatmul", "viscid/rotation.py:quat_rotate", "viscid/rotation.py:rot2quat"]}
{"id": "C44", "title": "Euler angles round-trip", "statement": "rot2angle(angle2rot(angles, axes), axes) returns the angles for each of the twelve axis orders when the angles are in the principal range and not singular, and angle2rot of the recovered angles always reproduces the matrix; eul2rot/angle2dcm/eul2dcm follow the documented multiplication orders.", "quantifier": "all angles, all twelve axis orders", "why_tests_cant": "Continuum of angles times twelve separate formula branches.", "anchors": ["viscid/rotation.py:rot2angle", "viscid/rotation.py:angle2rot", "viscid/rotation.py:eul2rot", "viscid/rotation.py:angle2dcm", "viscid/rotation.py:e_rot"]}
{"id": "C45", "title": "Geophysical coordinate transforms compose", "statement": "For every instant and every three geocentric systems, transforming a -> b -> c equals transforming a -> c, a -> a is the identity, and a -> b is inverse to b -> a; results do not depend on which transforms were computed (cached) before.", "quantifier": "all 343 triples of systems, all times/dipole angles, all call histories", "why_tests_cant": "Times are a continuum and the caches make results history dependent.", "anchors": ["viscid/cotr.py:Cotr.XFORM_LOOKUP", "viscid/cotr.py:Cotr.get_transform_matrix", "viscid/cotr.py:Cotr._get_emat"]}
{"id": "C46", "title": "The dipole axis is the z axis of SM and MAG coordinates", "statement": "In the transform built from the dipole's direction, the dipole axis maps to the +z axis of SM (with GSM y component zero) and of MAG; the dipole moment reported in SM is along -z.", "quantifier": "every dipole direction", "why_tests_cant": "Continuum of orientations.", "anchors": ["viscid/cotr.py:Cotr._get_emat", "viscid/cotr.py:Cotr.dip_gsm", "viscid/cotr.py:Cotr.dip_tilt", "viscid/cotr.py:Cotr.Q_g", "viscid/cotr.py:Cotr.get_dipole_moment"]}
{"id": "C47", "title": "Building a Cotr from a dipole moment reproduces the moment", "statement": "dipole_moment2cotr(m).get_dipole_moment('gse', strength=|m|) equals m for every nonzero moment m.", "quantifier": "every nonzero moment vector", "why_tests_cant": "Continuum of vectors; the sign convention is only visible off the symmetric cases.", "anchors": ["viscid/cotr.py:dipole_moment2cotr", "viscid/cotr.py:Cotr.get_dipole_moment"]}
{"id": "C48", "title": "Dipole mapping stays on the field line", "statement": "dipole_map moves a point to the requested radius keeping its L-shell, longitude and hemisphere, and mapping to a point's own radius is the identity off the equator.", "quantifier": "every point off the axis and radius not exceeding its L-shell", "why_tests_cant": "Trigonometric identity over a continuum.", "anchors": ["viscid/dipole.py:dipole_map", "viscid/dipole.py:xyz2lsrlp"]}
{"id": "C49", "title": "Spherical and Cartesian conversions are inverse", "statement": "sph2cart(cart2sph(p)) = p for every nonzero p in radians and in degrees, cart2sph(sph2cart(r, theta, phi)) returns the point for r > 0, 0 < theta < pi, -pi < phi <= pi, and cart2latlon inverts latlon2cart.", "quantifier": "every point, both units", "why_tests_cant": "Continuum of points; the unit flag is a separate path.", "anchors": ["viscid/mapfield.py:cart2sph", "viscid/mapfield.py:sph2cart", "viscid/mapfield.py:cart2latlon", "viscid/mapfield.py:latlon2cart"]}
{"id": "C50", "title": "Plane seed coordinates are orthonormal and invertible", "statement": "For a Plane seed built from any non-parallel normal and L directions, the (L, M, N) basis is orthonormal and right-handed, N is along the given normal, and to_local(to_3d(p)) = p and to_3d(to_local(q)) = q.", "quantifier": "every non-parallel pair of directions, every origin and point", "why_tests_cant": "Continuum of directions.", "anchors": ["viscid/seed.py:Plane.__init__", "viscid/seed.py:Plane.to_3d", "viscid/seed.py:Plane.to_local", "viscid/seed.py:Plane.get_rotation"]}
{"id": "C51", "title": "Seed point enumeration is the Cartesian product in C order", "statement": "Volume.get_points lists exactly the points of iter_points in the same order, nr_points of them; Plane points follow the same convention so that reshaping to uv_shape puts point (i, j) at [i, j].", "quantifier": "every triple of axis arrays", "why_tests_cant": "All axis lengths including 1 and unequal ones.", "anchors": ["viscid/seed.py:Volume._make_local_points", "viscid/seed.py:Volume.iter_points", "viscid/seed.py:Plane._make_local_points", "viscid/coordinate.py:StructuredCrds.get_points"]}
{"id": "C52", "title": "calc_dip evaluates the dipole formula at every point", "statement": "calc_dip(pts, m) for an N x 3 array returns for each point the field 3 r (m.r)/r^5 - m/r^3 of that point.", "quantifier": "every N and every list of points off the origin", "why_tests_cant": "Broadcasting faults depend on N.", "anchors": ["viscid/dipole.py:calc_dip"]}
{"id": "C53", "title": "Null-cell screening keeps every cell that can contain a null", "statement": "The candidate reduction keeps a cell exactly when every vector component takes both signs (or zero conventions) on its corners, and the face test evaluates the bilinear interpolant on the four corners of each of the six faces.", "quantifier": "every corner data", "why_tests_cant": "All sign patterns of 24 corner values and all six faces.", "anchors": ["viscid/cython/null_tools.pyx:_py_reduce_candidates", "viscid/cython/null_tools.pyx:_py_find_null_cells"]}
{"id": "C54", "title": "Roots found on a face are roots of the bilinear interpolants inside the face", "statement": "Every point returned by the face root finder lies in the unit square and makes both bilinear interpolants vanish.", "quantifier": "every pair of bilinear functions", "why_tests_cant": "Continuum of coefficients with degenerate sub-cases.", "anchors": ["viscid/cython/null_tools.pyx:find_roots_face"]}
{"id": "C55", "title": "Vector layout conversion is lossless", "statement": "Converting a vector field between flat and interlaced layouts preserves every component at every grid point, and converting back restores the array.", "quantifier": "every shape and component count", "why_tests_cant": "All shapes, including those where a spatial length equals the component count.", "anchors": ["viscid/field.py:VectorField.change_layout", "viscid/field.py:Field._detect_layout"]}
{"id": "C56", "title": "Field lookup on a grid follows a fixed resolution order", "statement": "grid[name] returns the stored field if present, otherwise the computed getter, otherwise evaluates an 'a=b' equation if enabled, otherwise the coordinate of that name, otherwise KeyError; post-processors named for the field run exactly once.", "quantifier": "every grid content and name", "why_tests_cant": "All combinations of presence flags.", "anchors": ["viscid/grid.py:Grid.get_field", "viscid/grid.py:Grid.__getitem__"]}
{"id": "C57", "title": "A failed streamline call does not poison later calls", "statement": "If calc_streamlines raises (bad seeds, bad keyword, worker failure), a later valid call still works.", "quantifier": "every crash point inside the call and every history of calls", "why_tests_cant": "Crash points are everywhere inside the call.", "anchors": ["viscid/cython/streamline.pyx:calc_streamlines"]}
{"id": "C58", "title": "Combined line geometry keeps lines separate", "statement": "prepare_lines concatenates vertices in order and connects exactly the consecutive vertices of each line: no connection joins vertices of different lines, and every in-line pair is connected once.", "quantifier": "every list of lines of any lengths", "why_tests_cant": "All length combinations, including single-vertex lines.", "anchors": ["viscid/vutil.py:prepare_lines"]}
{"id": "C59", "title": "A rotation taking a to b exists for every pair of directions", "statement": "a2b_rot(a, b) is orthonormal with determinant one and maps the direction of a to the direction of b, including parallel and antiparallel inputs.", "quantifier": "every pair of nonzero vectors", "why_tests_cant": "Degenerate directions have measure zero and are separate branches.", "anchors": ["viscid/rotation.py:a2b_rot", "viscid/rotation.py:wxyz2rot"]}
{"id": "C60", "title": "Setting a node's time takes effect", "statement": "After node.time = t with t a number, a timedelta or a datetime (and a basetime set), node.time is the corresponding number of seconds; assigning None changes nothing.", "quantifier": "every previous state of the node and every value of each of the accepted kinds", "why_tests_cant": "The setter has one branch per kind of value; a test of the numeric branch says nothing about the others, and the claim is for every value and previous time.", "anchors": ["viscid/tree.py:Node.time"]}
{"id": "C61", "title": "Interpolating over AMR patches stays inside each patch's arrays", "statement": "Interpolating an AMR field at any sequence of points reads only inside the coordinate and data arrays of the patch that is active for each point, and each value equals a fresh interpolation at that point, whatever patches earlier points were in.", "quantifier": "every set of patches of any shapes and every sequence of query points", "why_tests_cant": "The search index is carried from point to point; only some sequences over patches of different shapes expose it.", "anchors": ["viscid/cython/cycalc.pyx:_py_interp_trilin", "viscid/cython/cycalc.pyx:closest_preceeding_ind"]}
{"id": "C62", "title": "Arithmetic on AMR fields is patchwise", "statement": "Unary and binary arithmetic on AMR fields returns an AMR field whose patches are the results on the patches; fields with different numbers of patches (other than one) are rejected.", "quantifier": "every elementwise operation, every list of patches of any sizes", "why_tests_cant": "Holds for every patch size; the one-cell case takes another branch.", "anchors": ["viscid/amr_field.py:AMRField.wrap_field_method"]}
{"id": "C63", "title": "Convective derivative of an affine field is the directional derivative", "statement": "For every vector field a and every vector field b that is an affine function of position on the same cell-centred grid, convective_deriv(a, b) at every grid point, boundary points included, is the sum over axes of a_i times the constant slope of b along that axis.", "quantifier": "all grids (strictly increasing, not necessarily uniform coordinates), all fields a, all affine fields b, all points and components", "why_tests_cant": "grids, spacings and coefficients range over unbounded sets; a transposed Jacobian agrees on symmetric examples", "anchors": ["viscid/calculator/calc.py:convective_deriv", "viscid/calculator/necalc.py:grad"]}
{"id": "C64", "title": "Periodic clusters and single clusters", "statement": "With a periodic axis find_clusters treats points as neighbours when they are adjacent modulo the period, in the corners too when both axes are periodic; with multiple=False it returns the mean of all points.", "quantifier": "every list of points, every choice of periodic axes", "why_tests_cant": "adjacency across boundaries, winding and corners depend on the point set, which is unbounded", "anchors": ["viscid/calculator/cluster.py:find_clusters"]}
{"id": "C65", "title": "nc2cc turns nodes into cell centres", "statement": "The cell centres of the coordinates returned by nc2cc are exactly the nodes of the original coordinates, so node centred data can be relabelled cell centred without moving it.", "quantifier": "every uniform or nonuniform axis of any number of nodes", "why_tests_cant": "ranges over all extents, spacings and lengths", "anchors": ["viscid/coordinate.py:StructuredCrds.nc2cc", "viscid/coordinate.py:UniformCrds.nc2cc", "viscid/coordinate.py:extend_arr"]}
{"id": "C66", "title": "Slicing keeps coordinates with the data", "statement": "After slicing a field along an axis, the coordinates of the result at the data's centring are the slice of the original coordinates at that centring, for slices with any start, stop and step; keeping an axis sliced by an integer keeps the right cell, and the location recorded for a removed axis is that of the removed plane.", "quantifier": "every axis, centring and slice or integer index", "why_tests_cant": "all combinations of negative, missing and out-of-range bounds and strides on axes of any length", "anchors": ["viscid/coordinate.py:StructuredCrds._make_slice", "viscid/coordinate.py:StructuredCrds.make_slice_keep"]}
{"id": "C67", "title": "Indexing a temporal dataset reaches its children", "statement": "dataset[item] returns the child get_child(item) would return whenever there is one (as documented: 'if a child exists with handle, return it, else ask the active child').", "quantifier": "every temporal dataset and item", "why_tests_cant": "All datasets and all kinds of items.", "anchors": ["viscid/dataset.py:Dataset.__getitem__", "viscid/dataset.py:DatasetTemporal.children"]}
{"id": "C68", "title": "Face and edge averages use the faces and edges of the same cell", "statement": "fc2cc gives each cell the mean of the values on its two faces along the component's axis, and ec2cc the mean of its four edges, for leading and trailing staggering, with or without flipped axes; with the default padding the result has the shape of the input field.", "quantifier": "every staggered field, staggering per axis, flipping and shape", "why_tests_cant": "Eight flip patterns times eight staggerings times all shapes, including single-cell axes.", "anchors": ["viscid/calculator/ecfc.py:make_ecfc_field_leading", "viscid/calculator/ecfc.py:fc2cc", "viscid/calculator/ecfc.py:ec2cc"]}
{"id": "C69", "title": "Axis-angle conversions", "statement": "wxyz2rot(angle, axis) is the proper rotation that keeps the axis and turns perpendicular vectors by the angle, right handed; wxyz2quat gives the unit quaternion of the same rotation; and rot2wxyz recovers from every rotation matrix an angle in [0, pi] and a unit axis that give the matrix back, with quick=True and with quick=False.", "quantifier": "every angle, every nonzero axis, every rotation matrix", "why_tests_cant": "Continuum of rotations; half turns and the identity are measure-zero branches that use an eigenvalue solver.", "anchors": ["viscid/rotation.py:wxyz2rot", "viscid/rotation.py:wxyz2quat", "viscid/rotation.py:rot2wxyz"]}
{"id": "C70", "title": "a2b_rot with new_x orients the x axis", "statement": "a2b_rot(a, b, new_x=n) for a perpendicular to the x axis is a proper rotation that maps a to b and the x axis to the direction of the projection of n perpendicular to b.", "quantifier": "every a perpendicular to x, every b and n not parallel to b", "why_tests_cant": "The opposite orientation is a single point of a continuum.", "anchors": ["viscid/rotation.py:a2b_rot"]}
{"id": "C71", "title": "Great circles join their end points", "statement": "great_circle(p1, p2, origin, n) starts at p1, ends at p2, and its i-th point lies in the plane of the two points at the interpolated radius and angle.", "quantifier": "every pair of points, origin, and number of points", "why_tests_cant": "Continuum of point pairs with degenerate branches.", "anchors": ["viscid/mapfield.py:great_circle", "viscid/rotation.py:a2b_rot"]}
{"id": "C72", "title": "The dipole axis follows the IGRF coefficients", "statement": "For every time, the first order IGRF coefficients of a Cotr are the table's, linearly interpolated between its years and constant outside of them, and the dipole axis it uses in GEO is the unit vector along -(g11, h11, g10).", "quantifier": "all times", "why_tests_cant": "Times are a continuum; a tilt that is wrong by a fraction of a degree looks plausible at any time a test looks at.", "anchors": ["viscid/cotr.py:_igrf_interpolate", "viscid/cotr.py:Cotr.dip_geolon_rad", "viscid/cotr.py:Cotr.dip_geolat_rad", "viscid/cotr.py:Cotr.Q_g"]}
{"id": "C73", "title": "No dipole tilt on 1 Jan 1967", "statement": "With notilt1967 (the default) and no dipole angles given, at every instant of 1967-01-01 every transform between systems other than mhd is the identity.", "quantifier": "all instants of the day, all pairs of systems, all vectors and call histories", "why_tests_cant": "The window is a floating point comparison of fractional years; its ends are where it goes wrong.", "anchors": ["viscid/cotr.py:Cotr.__init__", "viscid/npdatetime.py:datetime64_as_years"]}
{"id": "C74", "title": "Coordinate conversions do not depend on the element type", "statement": "cart2sph and sph2cart of integer valued points give the same coordinates as for the same points given as floats.", "quantifier": "every integer point", "why_tests_cant": "Whether the element type leaks into the result depends on the values.", "anchors": ["viscid/mapfield.py:cart2sph", "viscid/mapfield.py:sph2cart"]}
{"id": "C75", "title": "Planes with parallel directions are refused", "statement": "Plane(p0, pN, pL) for which the in-plane direction is parallel to the normal (or either is zero) raises RuntimeError; it never returns a plane whose axes are nan.", "quantifier": "every pair of parallel directions", "why_tests_cant": "The check compares a computed direction with zero; whether it can ever be true depends on every path through the normalisation.", "anchors": ["viscid/seed.py:Plane.__init__"]}
{"id": "C76", "title": "Seed points given as arrays are read in order", "statement": "Point(pts) and to_seeds(pts) for an N x 3 or 3 x N array stand for the N points of the array, in order, however often they are asked for.", "quantifier": "every array of points", "why_tests_cant": "Shapes are told apart by their sizes, and any number of points is allowed.", "anchors": ["viscid/seed.py:Point", "viscid/seed.py:to_seeds"]}
{"id": "C77", "title": "Seeds of a sphere lie on it and are distinct", "statement": "Every seed of Sphere, SphericalCap and Circle lies at the given radius from the centre and at its angle theta from the pole; thetas and phis increase within their limits; with the default end points no two seeds are the same point (poles and the seam are not repeated); circles are perpendicular to the pole.", "quantifier": "every centre, pole, radius, roll, limits and number of seeds", "why_tests_cant": "Continuum of poles and limits, and every grid size.", "anchors": ["viscid/seed.py:Sphere", "viscid/seed.py:Circle"]}
{"id": "C78", "title": "Sphere meshes match their data", "statement": "Sphere.as_mesh and Sphere.arr2mesh lay out points and data identically: each mesh vertex carries the datum of its seed, the seam is closed with a copy of the first meridian, and poles that were left out of the seeds are added at the right end with the mean of the adjacent ring.", "quantifier": "every sphere, grid size, layout and array of data", "why_tests_cant": "Combinations of options, and all sizes.", "anchors": ["viscid/seed.py:Sphere.as_mesh", "viscid/seed.py:Sphere.arr2mesh"]}
{"id": "C79", "title": "Spherical patches lie on the sphere or are refused", "statement": "SphericalPatch raises ValueError if its angles do not fit on the sphere; otherwise every seed lies at the radius from the centre.", "quantifier": "every pair of angles, radius, roll and number of seeds", "why_tests_cant": "Continuum of angles; the check looks at the corners only.", "anchors": ["viscid/seed.py:SphericalPatch"]}
{"id": "C80", "title": "Line seeds are evenly spaced", "statement": "Line(p0, p1, n) for n >= 2 has n seeds, the first p0 and the last p1, evenly spaced, and as_local_coordinates gives the distance of each from p0.", "quantifier": "every pair of end points and n", "why_tests_cant": "All n and points.", "anchors": ["viscid/seed.py:Line"]}
{"id": "C81", "title": "Spline seeds are repeatable", "statement": "get_points of a Spline returns the same points every time it is called.", "quantifier": "every spline, options and number of calls", "why_tests_cant": "Depends on the history of calls.", "anchors": ["viscid/seed.py:Spline.to_3d"]}
{"id": "C82", "title": "The face root finder misses no root", "statement": "Every point in the unit square, strictly inside in y, where both bilinear functions vanish is returned, exactly once, unless the functions have a whole curve in common.", "quantifier": "every pair of bilinear functions and point", "why_tests_cant": "Continuum of coefficients with degenerate sub-cases.", "anchors": ["viscid/cython/null_tools.pyx:find_roots_face"]}
{"id": "C83", "title": "find_nulls always returns", "statement": "find_nulls returns a pair of arrays for every 3d vector field, empty if there are no nulls; every reported cell is a candidate, no cell is reported twice, and the point is the corner of its cell.", "quantifier": "every field, grid and ibound", "why_tests_cant": "All fields; whether any null is there is not known beforehand.", "anchors": ["viscid/cython/null_tools.pyx:find_nulls", "viscid/cython/null_tools.pyx:_find_null_cells_from_candidates"]}
{"id": "C84", "title": "find_nulls finds isolated nulls", "statement": "A cell in which the trilinear interpolation of the field has exactly one zero, inside the cell and with a regular Jacobian, is reported.", "quantifier": "every field", "why_tests_cant": "Continuum of fields and positions in the cell.", "anchors": ["viscid/cython/null_tools.pyx:find_nulls"]}
{"id": "C85", "title": "Nulls are classified by their eigenvalues", "statement": "At a regular null of a divergence free field, find_classified_nulls puts the null in exactly one of A (one growing and two decaying directions) and B (two growing, one decaying), whatever order the eigenvalues come in; reversing the field swaps A and B.", "quantifier": "every set of eigenvalues of a real traceless matrix, every tolerance", "why_tests_cant": "Continuum of eigenvalues, real or complex, in any order.", "anchors": ["viscid/cython/null_tools.pyx:_classify_nulls"]}
{"id": "C86", "title": "as_layout returns a field", "statement": "as_layout, as_flat and as_interlaced return a field with the layout that was asked for and the same values.", "quantifier": "every vector field, layout and value of force_c_contiguous", "why_tests_cant": "All combinations of layout, contiguity and flags for all shapes.", "anchors": ["viscid/field.py:VectorField.as_layout"]}
{"id": "C87", "title": "Setting layout converts the field", "statement": "After fld.layout = 'interlaced' or 'flat', fld.data is the array in that layout with every component unchanged at every grid point, whatever was read before.", "quantifier": "every shape and every history of reads before", "why_tests_cant": "Depends on what is cached at the time.", "anchors": ["viscid/field.py:Field.layout", "viscid/field.py:Field.nr_comp"]}
{"id": "C88", "title": "Data that does not fit its grid is noticed", "statement": "Data whose shape is neither that of the grid nor that of the grid with a component axis is detected as layout 'other', for which nr_comps and shape raise RuntimeError.", "quantifier": "every pair of shapes", "why_tests_cant": "All pairs of shapes.", "anchors": ["viscid/field.py:Field._detect_layout"]}
{"id": "C89", "title": "Transposed fields keep coordinates and values together", "statement": "fld.transpose(axes) has the value of fld at the permuted index, and each coordinate axis stays with the axis of the array it belonged to, with the component axis accounted for.", "quantifier": "every permutation of the axes, every number of dimensions, scalar and vector fields", "why_tests_cant": "All permutations and dimensions.", "anchors": ["viscid/field.py:Field.transpose"]}
{"id": "C90", "title": "Derived GGCM fields come from whatever is in the file", "statement": "grid['b'] of a GGCM grid is the stored vector, otherwise put together from stored cell-centred components, otherwise averaged from the face-centred components that are stored; likewise grid['e'].", "quantifier": "every set of stored fields", "why_tests_cant": "All combinations of stored fields.", "anchors": ["viscid/readers/openggcm.py:GGCMGrid"]}
{"id": "C91", "title": "A field that is not there is a KeyError", "statement": "Looking up a name that is neither stored nor computable from what is stored raises KeyError.", "quantifier": "every grid, name and recursion limit", "why_tests_cant": "All names and contents.", "anchors": ["viscid/grid.py:Grid.get_field", "viscid/readers/openggcm.py:GGCMGrid"]}
{"id": "C92", "title": "Scalars stay with their lines and vertices", "statement": "In prepare_lines one number (or colour) per line is given to each vertex of that line, and one number per vertex stays with that vertex.", "quantifier": "every number of lines and vertices", "why_tests_cant": "Shapes decide what is meant, and all shapes must be considered.", "anchors": ["viscid/vutil.py:prepare_lines"]}
{"id": "C93", "title": "Vertices can have colours", "statement": "prepare_lines accepts one colour per vertex, as an argument or in rows 4 to 6 of the lines.", "quantifier": "every number of lines and vertices", "why_tests_cant": "All shapes.", "anchors": ["viscid/vutil.py:prepare_lines"]}
{"id": "C94", "title": "Colours become the nearest bytes", "statement": "Colours in [0, 1] are scaled to bytes, and colours in [0, 255] are rounded to bytes; anything else raises ValueError.", "quantifier": "every array of colours", "why_tests_cant": "All numbers.", "anchors": ["viscid/vutil.py:prepare_lines"]}
{"id": "C95", "title": "A single colour may be given as a tuple", "statement": "prepare_lines accepts a single rgb colour as a tuple or list and uses it for all vertices.", "quantifier": "every colour and all lines", "why_tests_cant": "All numbers of lines and vertices.", "anchors": ["viscid/vutil.py:prepare_lines"]}
{"id": "C96", "title": "Slicing a field before its data are loaded gives what slicing after loading gives", "statement": "For a field that was opened from an hdf5 data set, fld[selection] gives the same array (shape and values) whether or not fld.data has been read before, for every selection of indices and slices, any set of reflected axes, data stored x first or z first, scalar and vector fields; and it is refused in one case only if it is refused in the other.", "quantifier": "all field shapes and centrings, all sets of reflected axes, both storage orders, scalar / component-first / component-last fields, all index and slice selections, all stored values", "why_tests_cant": "Only the path taken depends on whether the data are in memory; the number of combinations of storage order, reflection, layout, step sign and bounds is unbounded, and tests normally exercise one path only.", "anchors": ["viscid/field.py:Field._finalize_slice", "viscid/field.py:Field._dat_to_ndarray", "viscid/coordinate.py:reflect_slices", "viscid/coordinate.py:reflect_fld_arr", "viscid/sliceutil.py:make_fwd_slice", "viscid/readers/hdf5.py:H5pyDataWrapper"]}
{"id": "C97", "title": "Separator bisection only returns places where the topologies meet", "statement": "Every point returned by get_sep_pts_bisect lies in a rectangle of the seed's uv map such that the topologies traced along a closed walk around that rectangle (each corner once) pass the perimeter check, i.e. by default contain closed, open north, open south and solar wind. The rectangle lies within the map, is of the depth max_depth, or of a smaller one above min_depth where the search got stuck, its sides are at most 0.65**depth of the map's, and rectangles of different points overlap at most in their sides.", "quantifier": "all maps of topologies, perimeter checks, uv shapes and extents, depths", "why_tests_cant": "the search branches on the topology of every sampled point; tests see a few fields", "anchors": ["viscid/calculator/separator.py:get_sep_pts_bisect", "viscid/calculator/separator.py:_get_sep_pts_bisect", "viscid/calculator/separator.py:_quadrent_limits", "viscid/calculator/separator.py:_quadrent_center", "viscid/calculator/separator.py:perimeter_check_bitwise_or"]}
{"id": "C98", "title": "Separator bisection ends and misses no separator its walks can see", "statement": "get_sep_pts_bisect ends for every map of topologies. If four topologies meet at a point of the map it returns a point near it; in particular the middle of every rectangle of depth max_depth that is reached through nested quarters which all pass the perimeter check is returned.", "quantifier": "all maps of topologies, perimeter checks, uv shapes and extents, depths", "why_tests_cant": "termination and completeness of a recursive search over all fields", "anchors": ["viscid/calculator/separator.py:get_sep_pts_bisect", "viscid/calculator/separator.py:_get_sep_pts_bisect"]}
{"id": "C99", "title": "topology_bitor_clusters finds the smallest windows that contain all topologies", "statement": "topology_bitor_clusters returns the clusters of the windows of grid points whose topologies, masked by mask_limit, together make up sep_val, for the smallest window size between min_depth and max_depth at which there are any, located at the middle of the windows. As documented the resolution is reduced by a factor of two per iteration.", "quantifier": "all two dimensional topology fields, coordinates, depths, masks", "why_tests_cant": "all contents of arrays of all sizes", "anchors": ["viscid/calculator/separator.py:topology_bitor_clusters"]}
{"id": "C100", "title": "Separators can be looked for on every kind of seed", "statement": "get_sep_pts_bitor returns an array of points for planes and spheres, including those that reach the poles, whatever the topologies.", "quantifier": "all topology maps and all ranges of theta and phi of a sphere", "why_tests_cant": "a claim about every field and every seed", "anchors": ["viscid/calculator/separator.py:get_sep_pts_bitor", "viscid/calculator/separator.py:topology_bitor_clusters", "viscid/seed.py:Sphere.pt_bnds", "viscid/seed.py:Sphere.periodic"]}
{"id": "C101", "title": "trace_separator follows separators from null to null", "statement": "trace_separator ends and returns lines that start at the most dawnward null or branch off another returned line, in which every point is the separator point found ahead of the two points before it, and which end where nothing is found ahead or close to another null.", "quantifier": "all nulls and all outcomes of the separator searches", "why_tests_cant": "an unbounded loop over results that depend on the field", "anchors": ["viscid/calculator/separator.py:trace_separator"]}
{"id": "C102", "title": "trace_separator's result does not depend on earlier calls", "statement": "What trace_separator returns depends on its arguments only: a cached result is only returned for the arguments it was made for, and not at all if cache is False.", "quantifier": "all histories of calls with any arguments", "why_tests_cant": "a claim about all histories", "anchors": ["viscid/calculator/separator.py:trace_separator"]}
{"id": "C103", "title": "Times brought to a common unit keep their value", "statement": "regularize_time returns as many times as it is given, all in one unit: the one asked for or the finest of the bunch if every time fits, otherwise the next coarser unit in which they do. Each is the original time, rounded down if the unit is coarser; nothing overflows silently. With most_precise the result is refined as far as it fits; allow_rounding=False and allow0=False raise instead of coarsening or rounding to 0.", "quantifier": "every list of datetime64 and timedelta64 values in units from attoseconds to weeks, every option, every version of numpy that refuses conversion factors beyond 64 bits", "why_tests_cant": "overflow depends on value and pair of units; a test tries a few dates", "anchors": ["viscid/npdatetime.py:regularize_time", "viscid/npdatetime.py:_adjust_t_unit"]}
{"id": "C104", "title": "round_time rounds to the nearest unit", "statement": "round_time leaves times in a unit at least as coarse as the one given alone and rounds the others to the nearest multiple of it; with allow0=False it raises PrecisionError if and only if a time other than 0 would become 0.", "quantifier": "every list of times, every unit, both values of allow0", "why_tests_cant": "the values at and between half units are unbounded in number", "anchors": ["viscid/npdatetime.py:round_time", "viscid/npdatetime.py:_adjust_t_unit"]}
{"id": "C105", "title": "Sums and differences of times do not overflow", "statement": "time_sum and time_diff return the sum or difference of the two times (rounded to the common unit) or raise; they never return a wrapped-around time.", "quantifier": "every pair of times, unit and option", "why_tests_cant": "overflow needs particular combinations of magnitudes and units", "anchors": ["viscid/npdatetime.py:time_sum", "viscid/npdatetime.py:time_diff"]}
{"id": "C106", "title": "Numbers become the times they stand for", "statement": "as_timedelta64(t, unit) is exactly t units, in the coarsest unit that can store the time, or raises if no unit can.", "quantifier": "every number and every unit", "why_tests_cant": "rounding by relative tolerance shows only for certain magnitudes", "anchors": ["viscid/npdatetime.py:_as_timedelta64_scalar", "viscid/npdatetime.py:as_timedelta64", "viscid/npdatetime.py:timedelta_as_seconds"]}
{"id": "C107", "title": "Durations can be given as strings", "statement": "as_timedelta64 of 'H:M:S', 'M:S' or 'S' is that duration, negative if it starts with a minus; a plain number in a string means what the number means. Anything else is a ValueError.", "quantifier": "every string, every unit", "why_tests_cant": "all strings", "anchors": ["viscid/npdatetime.py:_as_timedelta64_scalar"]}
{"id": "C108", "title": "Times with colons become ISO 8601", "statement": "as_isotime turns YYYY:MM:DD[:hh[:mm[:ss[.fraction]]]] into the same instant in ISO 8601, for single strings, lists and arrays.", "quantifier": "every string of digits in these formats", "why_tests_cant": "all digits, all lengths of fraction", "anchors": ["viscid/npdatetime.py:as_isotime"]}
{"id": "C109", "title": "Durations are formatted as documented", "statement": "format_time with 'hms', 'hmss', 'dhms' and 'dhmss' gives total hours (or days and hours), minutes and seconds of the time, and the total seconds in parentheses, as in the table of its documentation.", "quantifier": "every time and base time", "why_tests_cant": "unbounded times", "anchors": ["viscid/npdatetime.py:format_time"]}
{"id": "C110", "title": "Fractions of a second are rounded correctly in text", "statement": "format_time with a strftime format containing %.nf writes the fraction of the second with n digits such that the text denotes the nearest time, and leaves the rest of the text alone.", "quantifier": "every format, every number of microseconds", "why_tests_cant": "carries occur for few fractions; formats are unbounded", "anchors": ["viscid/npdatetime.py:format_time"]}
{"id": "C111", "title": "linspace_datetime64 starts and ends where asked", "statement": "linspace_datetime64 gives n times, evenly spaced to the nearest unit, the first being start and, with endpoint, the last being stop.", "quantifier": "every start, stop and n", "why_tests_cant": "loss of digits depends on the magnitude of the times", "anchors": ["viscid/npdatetime.py:linspace_datetime64"]}
{"id": "C112", "title": "Base time of GGCM file headers", "statement": "Reading the header line 'time= t x date' of an OpenGGCM file gives the date and the base time date - t, which is the same for all files of a run; malformed headers raise ValueError.", "quantifier": "all header strings, times, dates and behaviours of number and date parsing", "why_tests_cant": "tests use short runs with whole seconds; the rounding depends on the size of t", "anchors": ["viscid/readers/openggcm.py:GGCMFile.parse_timestring"]}
{"id": "C113", "title": "Grouping of GGCM file names", "statement": "Given any list of matching OpenGGCM file names, in any order, the reader puts each into exactly one group per run and file type, sorted by time, leaving out only run-level files where time slices of the same run and type are given.", "quantifier": "all non-empty lists of names (with repetitions, in every order) and every regular expression", "why_tests_cant": "the result must be independent of the order and mixture of names", "anchors": ["viscid/readers/openggcm.py:group_ggcm_files_common"]}
{"id": "C114", "title": "Searching a file up the directory tree", "statement": "find_file_uptree returns the file in the nearest of at most max_depth directories: the directory given, its parent, and so on; None if there is none.", "quantifier": "all directories, all file systems, all max_depth", "why_tests_cant": "tests have one layout of directories of small depth", "anchors": ["viscid/readers/openggcm.py:find_file_uptree"]}
{"id": "C115", "title": "Deciding whether to turn a GGCM grid into GSE", "statement": "With mhd_to_gse_on_read 'auto' a grid is turned iff it is in MHD coordinates, with 'auto_true' unless it is in GSE; True and 'force' always turn, False never does; anything else raises ValueError. A grid's answer never changes.", "quantifier": "all infos of a grid, requests and sequences of requests", "why_tests_cant": "the answer depends on many optional entries of the log file and on the history of the grid", "anchors": ["viscid/readers/openggcm.py:GGCMGrid._do_mhd_to_gse_on_read"]}
{"id": "C116", "title": "Cells from a grid2 file", "statement": "The coordinates of the cells of a field read from a Fortran OpenGGCM file are the cell centres in its grid2 file.", "quantifier": "all lists of cell centres", "why_tests_cant": "tests do not compare coordinates with the file, for stretched grids", "anchors": ["viscid/readers/openggcm.py:GGCMFileFortran.read_grid2"]}
{"id": "C117", "title": "Location of plane files", "statement": "A 2d OpenGGCM file gets the cell nearest to the location in its name, and the location changes its sign exactly if the grid is turned from MHD to GSE.", "quantifier": "all locations, grids and settings of mhd_to_gse_on_read", "why_tests_cant": "the two decisions are made in different places from different data", "anchors": ["viscid/readers/openggcm.py:GGCMFileFortran.read_grid2", "viscid/readers/openggcm.py:GGCMGrid._do_mhd_to_gse_on_read"]}
{"id": "C118", "title": "Double underscores are never evaluated", "statement": "Whatever equation a user or a file gives, the text handed to eval has no two underscores in a row, so no special attribute can be reached; equations without any are not changed by this, and nothing is evaluated while the evaluator is disabled.", "quantifier": "all equations, with quotes or without, all grids and all sets of functions", "why_tests_cant": "removing characters can bring others together, so every text has to be considered", "anchors": ["viscid/calculator/evaluator.py:_evaluate_numpy"]}
{"id": "C119", "title": "Names in equations", "statement": "In an equation, names stand for fields of the grid, names of calls for functions of viscid's calculator or else of numpy, and everything else, numbers, strings and keywords of calls, means what it means in Python; a name the grid does not have is an error.", "quantifier": "all equations, all grids and all sets of functions", "why_tests_cant": "names are found in text by regular expressions, and any text can be an equation", "anchors": ["viscid/calculator/evaluator.py:_evaluate_numpy"]}
{"id": "C120", "title": "Parameters in log files", "statement": "Of a log file, exactly the parameters and types shown in the views of the watched classes are recorded, each under its own class; the last value of a parameter counts, and nothing after the first time step does. Every file can be read, also one that was cut off.", "quantifier": "all log files: any number and order of views and other lines", "why_tests_cant": "the parser is a state machine over lines; any sequence of lines can occur, and runs can crash at any of them", "anchors": ["viscid/readers/ggcm_logfile.py:GGCMLogFile._parse"]}
{"id": "C121", "title": "Name of the MHD type in log files", "statement": "The name of the MHD type is that of the number in the log file, and 'UNKNOWN' if there is none or no type has that number.", "quantifier": "all log files and all values of the type", "why_tests_cant": "the value is whatever the log file says", "anchors": ["viscid/readers/ggcm_logfile.py:GGCMLogFile._parse", "viscid/readers/ggcm_logfile.py:MHD_TYPES"]}
{"id": "C122", "title": "Vector components in selections", "statement": "An element of a selection of a vector field that is the name of a component (blanks and capitals aside) selects that component and is taken out of the selection; without one all components are selected; two of them raise IndexError.", "quantifier": "every list of component names and every selection", "why_tests_cant": "Selections have any number of elements in any order.", "anchors": ["viscid/sliceutil.py:prune_comp_sel", "viscid/field.py:VectorField._prepare_slice"]}
{"id": "C123", "title": "Selections as text are split at commas outside brackets", "statement": "A selection given as text is split into one part per axis at the commas (or underscores) between them; commas in arrays stay, and nothing else is changed.", "quantifier": "every text made of parts and arrays", "why_tests_cant": "Texts are unbounded and arrays may be anywhere.", "anchors": ["viscid/sliceutil.py:raw_sel2sel_list"]}
{"id": "C124", "title": "Text and values select the same", "statement": "A selection written as text selects the same as the value, or slice of values, that it writes: integers are indices, floats and imaginary numbers are coordinates, and None, True, False and ... are themselves.", "quantifier": "every text and value, every slice of them", "why_tests_cant": "All texts and all combinations of starts, stops and steps.", "anchors": ["viscid/sliceutil.py:standardize_sel", "viscid/sliceutil.py:standardize_value"]}
{"id": "C125", "title": "Interior selections", "statement": "With interior=True, a slice between two coordinates on the axis selects the fewest points that have both coordinates between the outermost of them, in the order of the step.", "quantifier": "every increasing axis and every pair of coordinates, either of which may be left out", "why_tests_cant": "Axes and coordinates are unbounded, and the tolerance matters between points.", "anchors": ["viscid/sliceutil.py:std_sel2index", "viscid/sliceutil.py:_interiorize_slice"]}
{"id": "C126", "title": "Ends of a selection", "statement": "The range of values of a selection is that of the first and last value selected: given coordinates are themselves, open ends those of the axis in the direction of the step.", "quantifier": "every axis, selection and step", "why_tests_cant": "All axes and all combinations of ends.", "anchors": ["viscid/sliceutil.py:sel2values", "viscid/dataset.py:Dataset.tslc_range"]}
{"id": "C127", "title": "Flux functions", "statement": "calc_psi gives a function whose derivatives are the components of a divergence-free field in the plane; integrating forward or backward gives the same function but for a constant.", "quantifier": "every two-dimensional grid, spacing and divergence-free field", "why_tests_cant": "The result is a sum over the whole grid, of any size and spacing.", "anchors": ["viscid/calculator/plasma.py:calc_psi"]}
{"id": "C128", "title": "Plasma beta", "statement": "calc_beta gives 2 p / B^2, times the scale.", "quantifier": "every pressure, field and scale", "why_tests_cant": "Real-valued inputs.", "anchors": ["viscid/calculator/plasma.py:calc_beta"]}
{"id": "C129", "title": "Selections by loc and iloc", "statement": "field.loc[...] and field.iloc[...] apply items to the spatial axes in order, as coordinates and as indices respectively, keep all components, and leave what they are given as it was.", "quantifier": "every number of axes, every layout and every sequence of numbers, lists, slices, newaxis and Ellipsis", "why_tests_cant": "All combinations of items, axes and layouts.", "anchors": ["viscid/field.py:_FldSlcProxy", "viscid/field.py:Field.loc", "viscid/field.py:Field.iloc", "viscid/sliceutil.py:fill_nd_sel_list"]}
{"id": "C130", "title": "Globbed paths", "statement": "resolve_path, find_items and find_item find all, or the first, of the things whose path matches part by part, in order; a name goes before a pattern; if nothing matches, KeyError is raised.", "quantifier": "every hierarchy, pattern and depth", "why_tests_cant": "Unbounded depth and breadth of the hierarchy.", "anchors": ["viscid/vutil.py:resolve_path", "viscid/vutil.py:find_item", "viscid/vutil.py:find_items"]}
{"id": "C131", "title": "Texts for colours", "statement": "prepare_lines turns #rrggbb, #rrggbbaa, #rgb, #rgba and names into the bytes of these colours; if any has an opacity, the others are opaque. Anything else is refused.", "quantifier": "every list of texts", "why_tests_cant": "Any number and mixture of codes.", "anchors": ["viscid/vutil.py:_string_colors_as_hex", "viscid/vutil.py:_hexchar2int", "viscid/vutil.py:prepare_lines"]}
{"id": "C132", "title": "Colours of topologies", "statement": "topology2color gives each value the colour of the mapping, or the bad colour (black by default) if there is none; a single value has a single colour.", "quantifier": "every sequence of values, mapping and bad colour", "why_tests_cant": "All sequences and mappings.", "anchors": ["viscid/calculator/topology.py:topology2color"]}
{"id": "C133", "title": "Fluid elements are followed step by step from the start to the stop", "statement": "follow_fluid goes from its start to its stop in steps of dt, forward or backward: the callback is called for every time start + k dt up to the stop (included), in order and for no other; the first time with the initial seeds, then with what the streamlines and the curator made of the seeds before; the fields are those of a time less than dt_interp before. The direction is from start to stop if both are given, backward if dt or the duration is negative, otherwise that of the time slice, and the grids are put in that order; times that do not go one way are refused. The points it ends at are returned.", "quantifier": "all start and stop times, steps, intervals of interpolation, seeds, and all ways streamlines and curators move them", "why_tests_cant": "two nested loops over time, of any number of steps, both directions and six optional arguments; the last step and the ones where fields are renewed are boundary cases", "anchors": ["viscid/fluidtrace.py:follow_fluid"]}
{"id": "C134", "title": "Fields between two times are interpolated linearly", "statement": "When fluid elements are followed, the fields at a time between those of two grids are on the line between the values of the two; at the time of a grid they are those of that grid, and after the last one they are those of the last.", "quantifier": "all lists of times going one way, all values, all times", "why_tests_cant": "holds for all times; a test with one grid, or halfway between two, cannot see which of the two counts more", "anchors": ["viscid/fluidtrace.py:follow_fluid", "viscid/calculator/necalc.py:axpby"]}
{"id": "C135", "title": "Curators remove, add or replace seeds as documented", "statement": "A seed curator keeps the seeds within bounds, in order, and removes all others; bounds not given are those of the field, and axes with one point have none. A continuous curator adds its seeds at a steady cadence and removes seeds out of bounds. A replacement curator puts seeds that went out of bounds back to where they were originally, and leaves all others.", "quantifier": "all bounds, all seeds, all cadences and steps of time", "why_tests_cant": "bounds are any combination of boxes and radii, seeds are any number; the cadence is about all histories of times", "anchors": ["viscid/fluidtrace.py:SeedCurator", "viscid/fluidtrace.py:ContinuousCurator", "viscid/fluidtrace.py:ReplacementCurator"]}
{"id": "C136", "title": "Minimum variance analysis finds the directions of least and most variance", "statement": "For a series of vectors, of which those that are not finite do not count, the eigenvalues of minvar are the variances of the components along its eigenvectors, in increasing order; no direction has less variance than the first, or more than the last; eigenvectors are of length one, and at right angles where the eigenvalues differ. With less than three finite vectors everything is nan.", "quantifier": "all series of vectors of any length, finite or not, and all directions", "why_tests_cant": "it is about all directions, and all series; examples have one answer each", "anchors": ["viscid/calculator/minvar_tools.py:minvar_series", "viscid/calculator/minvar_tools.py:minvar"]}
{"id": "C137", "title": "Boundary normal coordinates are a right-handed frame", "statement": "The directions l, m, n of find_minvar_lmn are of length one, at right angles and right-handed; n is the direction of the minimum variance, and l that of the basis perpendicular to n; if the basis is None or parallel to n, l is that of the maximum variance. minvar_around samples a line of length l, centred on the point, in the direction given.", "quantifier": "all eigenvectors, bases, points, lengths and directions", "why_tests_cant": "holds for all bases, including the ones parallel or nearly parallel to the normal", "anchors": ["viscid/calculator/minvar_tools.py:_minvar_lmn_directions", "viscid/calculator/minvar_tools.py:find_minvar_lmn", "viscid/calculator/minvar_tools.py:minvar_around"]}
{"id": "C138", "title": "The normal of a paraboloid is perpendicular to it", "statement": "paraboloid_normal is perpendicular to the surface that paraboloid gives, at every point; of length one if normalized, in the same direction otherwise; and it is the same for all parameters that give the same surface.", "quantifier": "all parameters with ax not zero, and all y and z", "why_tests_cant": "two functions written independently have to agree at all points for all parameters", "anchors": ["viscid/calculator/mpause.py:paraboloid", "viscid/calculator/mpause.py:paraboloid_normal"]}
{"id": "C139", "title": "The edges of the magnetopause are where the current exceeds the threshold first and last", "statement": "For every column of find_mp_edges, the magnetosphere edge is the x of the first point with a current of more than the fraction of the largest current, the sheath edge that of the last one; nan if that is at the end of the block, or if there is no such point. The width is the difference of both, and not negative if x increases and the thresholds are the same.", "quantifier": "all columns of currents, thresholds and coordinates", "why_tests_cant": "first and last of any column; reversed arrays and argmax of nothing are boundary cases", "anchors": ["viscid/calculator/mpause.py:find_mp_edges"]}
{"id": "C140", "title": "The magnetic shear is the angle between the fields on both sides of the magnetopause", "statement": "mp_shear is the angle, in degrees, between the magnetic field six grid points into the sheath (from the sheath edge) and six grid points into the magnetosphere (from the sphere edge); nan where one of them is outside of the block.", "quantifier": "all columns of magnetic fields, all edges", "why_tests_cant": "an index that is wrong by the width of the magnetopause is not seen for thin ones", "anchors": ["viscid/calculator/mpause.py:get_mp_info"]}
{"id": "C141", "title": "Fields on spheres and maps", "statement": "viscid.as_mapfield turns a field of phi and theta, in either order, into one of longitude and latitude in the order and the units (degrees or radians) asked for, and viscid.as_spherefield turns it back: the value at each point of the sphere stays where it is, components of vectors are kept, the coordinates come back to what they were, and the units of the field are kept if none are asked for. Colatitudes out of range are a ValueError.", "quantifier": "every field with two axes (scalars, and vectors with components first or last), coordinates, units, order and angles", "why_tests_cant": "All layouts, orders and units combine, with coordinates that can be any.", "anchors": ["viscid/mapfield.py:as_mapfield", "viscid/mapfield.py:as_spherefield", "viscid/mapfield.py:convert_coordinates", "viscid/mapfield.py:_fld_xform_common", "viscid/mapfield.py:_get_axinds"]}
{"id": "C142", "title": "Points for polar plots", "statement": "viscid.pts2polar_mapfield turns points of (phi or longitude) and (theta or latitude), in either order and in degrees or radians, into the longitude and the angle from the pole of the hemisphere, in radians; without both axes, or with a bad hemisphere, there is a ValueError.", "quantifier": "every array of points, of floats or whole numbers, axes, units and hemispheres", "why_tests_cant": "All points, and all combinations of axes, units and hemispheres.", "anchors": ["viscid/mapfield.py:pts2polar_mapfield"]}
{"id": "C143", "title": "Fields for polar plots", "statement": "viscid.as_polar_mapfield of a scalar or vector field has all values within the bounding angle of the pole of its hemisphere, and no others, each at its longitude and its angle from the pole in radians, and increasing; with make_periodic, one more longitude a full turn after the first, with its values; by default all of a hemisphere, and 40 degrees of a sphere.", "quantifier": "every field of phi and theta or of longitude and latitude, bounding angle and hemisphere", "why_tests_cant": "All grids and angles.", "anchors": ["viscid/mapfield.py:as_polar_mapfield"]}
{"id": "C144", "title": "A slice in a file name pattern selects files by their numbers", "statement": "A pattern of file names with a slice in brackets, such as \"f*.[10j:30j].txt\", finds the files that have a number in the place of the slice, in the order of those numbers. A slice of indices is the Python slice of the files in that order; a slice of values has all files with numbers between the values and no others, up to a tolerance far less than the distance between numbers; a single value is the closest file. The order in which the directory is read makes no difference, and no files at all are an IOError.", "quantifier": "all lists of files found, with any numbers or without, in any order of the directory; all slices of indices or values with any bounds, present or missing, and any step; all single indices and values", "why_tests_cant": "Tests use one directory with a few evenly numbered files and a pattern or two; they cannot cover all sets of numbers, orders of the directory and forms of slices.", "anchors": ["viscid/vutil.py:slice_globbed_filenames", "viscid/sliceutil.py:std_sel2index", "viscid/sliceutil.py:standardize_sel"]}
{"id": "C145", "title": "Loading files gives one file for each name, and the same one again", "statement": "load_files gives one file for each name, made from that name, those of one type in the order of the names. A file that is not loaded is read; one that is loaded is given again, without reading. If the type of any name is not known, it is a RuntimeError and nothing is loaded.", "quantifier": "all lists of names, all histories of loading and unloading files by name and of unloading all, all children that files load", "why_tests_cant": "Tests load a few files in a fresh process; they cannot cover all orders of loading and unloading with shared children.", "anchors": ["viscid/readers/vfile_bucket.py:VFileBucket.load_files", "viscid/readers/vfile_bucket.py:ContainerFile._load_child_file", "viscid/bucket.py:Bucket.set_item", "viscid/readers/__init__.py:load_files"]}
{"id": "C146", "title": "Children stay loaded as long as a file that refers to them is loaded", "statement": "Files such as XDMF files load other files as children. Unloading a file lets go of the children that no other loaded file has, and of no others; unloading raises no exception; if all is unloaded, or unload_all_files is called, nothing is left in the bucket.", "quantifier": "all histories of loading files, with any children, shared in any way and any number of times, and unloading them in any order", "why_tests_cant": "Tests load one XDMF file and never unload it; counts of references matter only in histories with files that share children.", "anchors": ["viscid/readers/vfile_bucket.py:ContainerFile.unload", "viscid/readers/vfile_bucket.py:ContainerFile._load_child_file", "viscid/readers/vfile.py:VFile.unload", "viscid/bucket.py:Bucket.remove_reference", "viscid/readers/vfile_bucket.py:VFileBucket.remove_all_items", "viscid/readers/vfile_bucket.py:VFileBucket.remove_item"]}
{"id": "C147", "title": "Athena binary files are read as they were written", "statement": "Whatever Athena wrote in a binary file, in either endianness and precision, is what the reader gives: the time, the coordinates, the names of the fields according to the physics of the run and the scalars, and in every cell of every field the value written there. A number of a field that is not in the file is an IndexError, a var_type other than cons or prim a RuntimeError, a file that ends in its header an error, and one that ends before a field's last value a ValueError when the field is used.", "quantifier": "all numbers of cells, with or without energy and magnetic field, any number of scalars, all values, both endiannesses, all sizes of floats, all lengths at which a file may end", "why_tests_cant": "Tests have no Athena binary file of the other endianness, and can have only a few shapes; positions of fields depend on all numbers in the header.", "anchors": ["viscid/readers/athena_bin.py:AthenaBinFileWrapper._read_file_header", "viscid/readers/athena_bin.py:AthenaBinFileWrapper.read_field", "viscid/readers/athena_bin.py:AthenaBinDataWrapper.__array__"]}
{"id": "C148", "title": "Reading an XDMF file finds every uniform grid it describes", "statement": "The grids in a file opened by the XDMF reader, at any depth of temporal and spatial collections, are exactly the Uniform grids the file describes, each with its name, its fields and the coordinates given by its own Topology and Geometry or by those of the collection it is in; grids of kinds that are not supported are left out.", "quantifier": "all trees of Grid elements: nested collections, any number of grids and attributes", "why_tests_cant": "Whether a grid is found depends on the whole tree around it: what has been read before it, and what the collections around it have. Tests read a handful of sample files, all of one shape.", "anchors": ["viscid/readers/xdmf.py:FileXDMF._parse_grid", "viscid/readers/xdmf.py:FileXDMF._parse", "viscid/readers/xdmf.py:FileXDMF._parse_file", "viscid/amr_grid.py:dataset_to_amr_grid", "viscid/dataset.py:Dataset.add"]}
{"id": "C149", "title": "Grids of an XDMF file have the time the file gives them", "statement": "Every grid read from an XDMF file has its own time, or the time that the Time element of the temporal collection it is in gives it by position (list, or start and step), or the time of the nearest collection around it; the children of each time series are in order of time, filed under the time of their grids.", "quantifier": "all trees of Grid elements with any Time elements, any number of children in any order", "why_tests_cant": "Times come from several places that override each other, and the order of a series depends on all of them; the sample files have one single time per snapshot.", "anchors": ["viscid/readers/xdmf.py:FileXDMF._parse_grid", "viscid/readers/xdmf.py:FileXDMF._parse_time", "viscid/dataset.py:DatasetTemporal.add", "viscid/tree.py:Node.time", "viscid/amr_grid.py:AMRGrid"]}
{"id": "C150", "title": "Fields saved in an npz file are loaded as they were", "statement": "Fields saved with save_fields in an npz file and loaded again have the names, centers, times, data and coordinates they had; a vector field is a vector field again. A file of plain arrays that was written by somebody else is loaded with x, y and z as axes and all other arrays as fields at nodes.", "quantifier": "all lists of fields: any number, any names, centers, coordinates, times and data; all files of plain arrays", "why_tests_cant": "Names of axes, of fields and of the arrays of names share one dictionary, so whether a field survives depends on all the other names; tests save a few fields with ordinary names and time 0.", "anchors": ["viscid/readers/numpy_binary.py:FileNumpyNPZ.save_fields", "viscid/readers/numpy_binary.py:FileNumpyNPZ._parse", "viscid/readers/numpy_binary.py:FileNumpyNPZ._wrap_lazy_field"]}
{"id": "C151", "title": "The coordinates of a grid in an XDMF file are those the file gives", "statement": "A grid read from an XDMF file has the coordinates of its Geometry: the three arrays for x, y and z, in whatever order they come and however their names are capitalised, or origin plus multiples of the spacing; in two dimensions as well as in three. A uniform topology with arrays that are not evenly spaced is refused, and so are topologies that are not supported.", "quantifier": "all Geometry elements: any data items in any order with any names and numbers, all topologies, all sizes", "why_tests_cant": "The order and the names of the data items and the sizes are arbitrary; the sample files have one order and one spelling, and all have three dimensions.", "anchors": ["viscid/readers/xdmf.py:FileXDMF._parse_geometry", "viscid/coordinate.py:wrap_crds", "viscid/coordinate.py:UniformCrds.__init__", "viscid/coordinate.py:NonuniformCrds.__init__"]}
{"id": "C152", "title": "The blocks of a VPIC run cover it, each cell once", "statement": "The grids of one time of a VPIC run, one per process, together are the run: there are as many as processes, the grid of the file with number i + tx * (j + ty * k) is block (i, j, k) of the run, and every cell of the run is a cell of exactly one grid, with the coordinates it has in the run, also when the ends given in the global file are a little off.", "quantifier": "all topologies, numbers of cells per block, positive spacings, and ends that are off by less than half a cell", "why_tests_cant": "The sample has four processes along one axis; orders of axes and off-by-one errors at the edges of blocks only show with more than one process along several axes.", "anchors": ["viscid/readers/vpic.py:_VPICGlobalFile", "viscid/readers/vpic.py:VPIC_File._parse"]}
{"id": "C153", "title": "The fields of a VPIC run have the data of their components", "statement": "Every component of every variable in the global file is a field of the grid, named after the variable, its species and the component, and the value in a cell is the one its process wrote for this component and cell, without the ghost cells; truncated files, files of another program and files that do not fit the grid are refused.", "quantifier": "all lists of variables with any numbers of components, all sizes of blocks, all bytes of the values, all truncations", "why_tests_cant": "The place of a component in the file depends on all variables before it and on the sizes; the sample has one list of variables and blocks of one size.", "anchors": ["viscid/readers/vpic.py:VPIC_File._parse", "viscid/readers/vpic.py:VPIC_FileWrapper.read_field", "viscid/readers/vpic.py:VPIC_DataWrapper.__array__"]}
{"id": "C154", "title": "The times of a VPIC run are its steps", "statement": "The times of a VPIC run are the steps of which there are directories, each once and in order, whatever else is in the directory.", "quantifier": "all listings of a directory", "why_tests_cant": "What else is in a directory is up to the user: copies, archives, notes.", "anchors": ["viscid/readers/vpic.py:VPIC_File._parse"]}
{"id": "C155", "title": "Data in the order zyx is read as data in the order xyz", "statement": "The value of a field from a file with data in the order zyx, at a point (i, j, k), is the number the file has at (k, j, i), for every component; axes that the data lacks count as axes with one point. This holds for scalar fields, for vector fields with the components last and for those with the components first.", "quantifier": "all shapes of grids, all numbers of components, all data, all points", "why_tests_cant": "The layout of the components is guessed from the shape; whether the guess is right depends on every combination of sizes and numbers of components.", "anchors": ["viscid/field.py:Field._src_data_to_ndarray", "viscid/field.py:Field._reshape_ndarray_to_crds", "viscid/field.py:VectorField._detect_layout", "viscid/field.py:Field.nr_comp", "viscid/readers/hdf5.py:H5pyDataWrapper.read_direct"]}
{"id": "C156", "title": "Fields that are saved in an HDF5 file with its XDMF file are the same when loaded", "statement": "For fields saved in one file and loaded again: there are the same fields in the same order with the same names, centrings, times, coordinates and values at every point.", "quantifier": "all lists of fields, all names, sizes, data, coordinates and times", "why_tests_cant": "Names, numbers of axes, layouts and combinations of fields are arbitrary; test cases use a few names, one time and one set of coordinates.", "anchors": ["viscid/readers/hdf5.py:FileLazyHDF5.save_fields", "viscid/readers/hdf5.py:H5pyDataWrapper", "viscid/readers/xdmf.py:FileXDMF._parse_attribute", "viscid/readers/xdmf.py:FileXDMF._parse_dataitem", "viscid/readers/xdmf.py:FileXDMF._parse_geometry", "viscid/readers/xdmf.py:FileXDMF._parse_time"]}
{"id": "C157", "title": "Coordinates made of arrays have these arrays as nodes", "statement": "arrays2crds gives coordinates with an axis for each array, named in order, whose nodes are the numbers of the array: exactly for arrays that are not evenly spaced, and with the same ends and sizes, and values within the tolerance, for those that are taken to be evenly spaced. What is not understood is an exception, never other coordinates.", "quantifier": "all arrays of rationals, all numbers of axes, all names, all requested types, all tolerances", "why_tests_cant": "Whether arrays are stored as they are or replaced by evenly spaced ones is decided by a comparison of all differences; tests see a few arrays.", "anchors": ["viscid/coordinate.py:arrays2crds", "viscid/coordinate.py:wrap_crds", "viscid/coordinate.py:UniformCrds"]}
{"id": "C158", "title": "Fields made of arrays have the values of the arrays", "statement": "arrays2field and dat2field give a field whose value at each point and of each component is that of the array, for scalar arrays on nodes or cells and for vector arrays with the components first or last; other shapes are a ValueError. full gives a field that has the value everywhere, with the shape and layout that were asked for; full_like one with the coordinates, centering, type, shape and layout of the given field.", "quantifier": "all shapes, all numbers of axes and components, all coordinates, all data", "why_tests_cant": "Type, centering and layout are guessed by comparing shapes; the guess is ambiguous for some combinations of sizes which no finite test set covers.", "anchors": ["viscid/field.py:arrays2field", "viscid/field.py:dat2field", "viscid/field.py:full", "viscid/field.py:full_like", "viscid/field.py:wrap_field", "viscid/field.py:VectorField._detect_layout"]}
{"id": "C159", "title": "Arithmetic on fields acts on the values at each point", "statement": "The operators of two fields on grids of the same size, or of a field and a number, give a field on the grid of the first whose value at each point, and of each component, is the operator applied to the values there. A scalar field acts on all components of a vector field, on the left and on the right, and both layouts of components can be combined. Fields on different grids are an exception.", "quantifier": "all binary operators, all scalar and vector fields, all numbers and sizes of axes, all values, all layouts", "why_tests_cant": "numpy pairs values by position from the last axis, so what is paired depends on sizes, layouts and the order of the operands; tests see a few grids.", "anchors": ["viscid/field.py:Field._ow", "viscid/field.py:VectorField._ow", "viscid/field.py:Field.wrap", "viscid/field.py:Field.__add__", "viscid/field.py:Field.__mul__"]}
{"id": "C160", "title": "Reductions along an axis are those of the lines along the axis", "statement": "A reduction of a field (sum, mean, max, ...) along an axis gives a field on the grid without that axis, or with one point along it, whose value at each point is the reduction of the values on the line through it along the axis. A reduction over the components gives a scalar field. Axes may be counted from the end.", "quantifier": "all reductions, all scalar and vector fields, all axes, all sizes and values", "why_tests_cant": "Axes of data and of coordinates are counted differently for vector fields, so that errors depend on layout, axis and sizes.", "anchors": ["viscid/field.py:Field.wrap", "viscid/field.py:Field.sum", "viscid/field.py:Field.mean", "viscid/field.py:Field.argsort", "viscid/coordinate.py:slice_keep", "viscid/coordinate.py:slice_reduce"]}
{"id": "C161", "title": "trapz is the trapezoid rule along an axis", "statement": "trapz of a field along an axis gives on the grid of the other axes, component by component, the trapezoid rule with the coordinates of that axis; it is exact for what is linear along the axis; integrals over two axes do not depend on the order; the default is the last axis; if one value is left it is a number. cumtrapz gives at each point the integral up to there plus the initial value.", "quantifier": "all scalar and vector fields, all axes, all coordinates, all sizes and values (exact arithmetic)", "why_tests_cant": "Sums over all points of all lines; which axis of the data is meant depends on layout and sign of the axis.", "anchors": ["viscid/field.py:Field.trapz", "viscid/field.py:Field.cumtrapz"]}
{"id": "C162", "title": "Changing the centering of a field keeps its data", "statement": "as_cell_centered, as_node_centered, as_centered and shell_copy give fields that show the same data as the field they were made of, and keep doing so after any sequence of reads, clears, conversions and, for data in memory, writes: reading a field shows what it showed before, changed by the writes in between and nothing else. Converting to the centering a field has gives the field itself; unknown centerings raise NotImplementedError.", "quantifier": "all sequences of converting, copying, reading, clearing, assigning and writing, on any of the fields made so far; data of files and in memory; all contents, mirrored axes and transforms", "why_tests_cant": "The converted field shares the cache of the field it was made of, so what is shown depends on the whole history of reads and conversions.", "anchors": ["viscid/field.py:Field.as_centered", "viscid/field.py:Field.as_cell_centered", "viscid/field.py:Field.as_node_centered", "viscid/field.py:Field.shell_copy", "viscid/field.py:Field._fill_cache", "viscid/field.py:Field.clear_cache", "viscid/field.py:Field.data"]}
{"id": "C163", "title": "Coordinates of fields with changed centering are the points the data belongs to", "statement": "The nodes of as_node_centered of a cell centred field are the centres of its cells, and the centres of as_cell_centered of a node centred field are its nodes; converting there and back gives the same coordinates.", "quantifier": "all uniform and nonuniform axes, all sizes and extents", "why_tests_cant": "It is an identity of real numbers over all grids.", "anchors": ["viscid/field.py:Field.as_cell_centered", "viscid/field.py:Field.as_node_centered", "viscid/coordinate.py:UniformCrds", "viscid/coordinate.py:NonuniformCrds"]}
{"id": "C164", "title": "atleast_3d adds axes with one point and keeps the values", "statement": "atleast_3d of a field with fewer than three axes gives a field with three, in which each point of the field is found once, with the same value and the same components; the added axes have one point, in the middle, and names that no other axis has; axes among x, y, z come in this order. A field with three axes or more is given back as it is.", "quantifier": "all scalar and vector fields, both layouts, read or not, all axes, names, sizes and values", "why_tests_cant": "The values are found by position after a reshape, so if they stay with their points depends on layout, sizes and on whether the field was read.", "anchors": ["viscid/field.py:Field.atleast_3d", "viscid/coordinate.py:Coordinates.atleast_3d", "viscid/field.py:Field.wrap"]}
{"id": "C165", "title": "atmost_nd leaves at most n axes, those with one point go first", "statement": "atmost_nd(n) of a field with more than n axes gives the field on n of its axes, in the same order: axes with one point are removed first, then the last axes, at the point nearest to 0. The value at each point is that of the field there. A field with n axes or fewer is given back as it is.", "quantifier": "all fields, all n, all numbers and sizes of axes, all values", "why_tests_cant": "Which axes go depends on the number and order of axes with one point, for any number of axes.", "anchors": ["viscid/field.py:Field.atmost_nd"]}
{"id": "C166", "title": "adjust_crds changes the coordinates it is asked to, in a new field only", "statement": "adjust_crds gives a field whose coordinate arrays are those of the field, each multiplied by the number or given to the function for its axis, and named by the map of names; other axes, and the field itself, stay as they are.", "quantifier": "all coordinates, adjustments and maps of names", "why_tests_cant": "It concerns all arrays and the coordinates the field shares with others.", "anchors": ["viscid/field.py:Field.adjust_crds"]}
{"id": "C167", "title": "The table of a dataset has one row for each point and time, with the coordinates and values of that point", "statement": "to_dataframe of scalar fields, a grid or a dataset in time gives a table with exactly one row for each time and each point of the fields: its time, its date (base time + time) if there is a base time, the coordinates of the point, and the value of each field at that point.", "quantifier": "every list of grids or fields, any number of axes, points, times and field names", "why_tests_cant": "Order of rows and columns depends on all sizes, names and times; a test sees a few of them.", "anchors": ["viscid/dataset.py: to_dataframe", "viscid/dataset.py: DatasetTemporal.to_dataframe, Dataset.to_dataframe", "viscid/grid.py: Grid.to_dataframe"]}
{"id": "C168", "title": "Reading fields of the table of a dataset gives the dataset again", "statement": "from_dataframe(to_dataframe(ds)) has the times, base time, field names, coordinates and values of ds.", "quantifier": "every dataset of scalar fields on the same points at different times, any number of axes, points, times and fields", "why_tests_cant": "The axes are guessed of the first two rows, and times and base time of the first two times; that this works must hold for all sizes and values.", "anchors": ["viscid/dataset.py: from_dataframe", "viscid/dataset.py: to_dataframe"]}
{"id": "C169", "title": "A parallel map gives what a loop gives, for every schedule of its workers", "statement": "parallel.map(n, func, args) returns the list of the results of func in the order of the arguments, as a loop would, however the workers take and finish their work, and it ends. If func fails for some argument the call raises an exception that func raised.", "quantifier": "every number of workers, function, list of arguments and schedule of taking and finishing work, with threads, processes or a given pool", "why_tests_cant": "A test runs one schedule on one machine; the order in which workers take and finish chunks is different every time.", "anchors": ["viscid/parallel.py: map", "viscid/parallel.py: map_async", "viscid/parallel.py: sanitize_nr_procs"]}
{"id": "C170", "title": "Resampled lines keep their ends and get evenly placed points", "statement": "resample_lines(lines, factor) replaces each line of n points by one of ceil(factor (n - 1)) + 1 points which are at equal distances along the line measured in segments of the line: the ends stay, and a whole factor k keeps all points and puts k - 1 points at equal distances between any two. A factor that is not positive is a ValueError.", "quantifier": "every list of lines, any number of axes and points, every factor", "why_tests_cant": "The places depend on the factor and on the number of points of each line; tests see a few of them.", "anchors": ["viscid/calculator/calc.py: resample_lines"]}
{"id": "C171", "title": "Magnitude, dot, cross, project, normalize and project_vector are the algebra of vectors at each point", "statement": "For vector fields with three components, in either layout and with either backend, magnitude, dot, cross, project, normalize and project_vector give at each point the length, scalar product, vector product, component, unit vector and part along b of the vectors at that point.", "quantifier": "every pair of vector fields on grids of any number of axes and points, both layouts, both backends", "why_tests_cant": "The layout is guessed of the shape, and results are wrapped by shape; that this is right must hold for all sizes.", "anchors": ["viscid/calculator/calc.py: _magnitude_np, _project_np, _normalize_np, _dot_np, _cross_np, project_vector, UnaryOperation, BinaryOperation", "viscid/calculator/necalc.py: magnitude, dot, cross, project, normalize", "viscid/field.py: wrap, component_views"]}
{"id": "C172", "title": "An operation uses the backend asked for, or fails if only that will do", "statement": "An operation called with preferred backends uses the first of them it has; without any preferred, the first that was added. If it has none of them it raises BackendNotFound when only=True and otherwise uses the first of numexpr, cython, numpy it has, or the first that was added. It always uses an implementation that was added.", "quantifier": "every list of implementations and every preference", "why_tests_cant": "It depends on which libraries are installed.", "anchors": ["viscid/calculator/calc.py: Operation._get_imp"]}
{"id": "C173", "title": "The projection of a field along a line is its component along the direction of the line at each point", "statement": "project_along_line(line, fld) gives at each point of the line the component of the field along the direction of the line at that point.", "quantifier": "every line and vector field", "why_tests_cant": "The direction at the ends depends on the number of points and the shape of the line.", "anchors": ["viscid/calculator/calc.py: project_along_line"]}
{"id": "C174", "title": "In a tree of datasets get_grid, get_field, iter_field_items, field_dict and [] lead to the same grid", "statement": "get_grid(time) is the grid found by going down the tree: to the active child of static datasets, to the child at the time (or the active child without a time) of temporal ones, deferred children standing for what they resolve to. get_field(name, time) is that grid's field of that name, iter_field_items(time) and field_dict(time) are all of its fields, and ds[name] is the child of that name, or else that field.", "quantifier": "every tree of static and temporal datasets, deferred children and grids, of any depth; every name, index and time", "why_tests_cant": "Trees have any depth and shape, and any child can be deferred or active.", "anchors": ["viscid/dataset.py: Dataset.get_field, Dataset.get_grid, Dataset.__getitem__, Dataset.iter_field_items, Dataset.field_dict, DatasetTemporal.get_field, DatasetTemporal.get_grid, DatasetTemporal.field_dict, DeferredChild.resolve", "viscid/grid.py: Grid.get_field, Grid.iter_field_items"]}
{"id": "C175", "title": "After activate_time(t), fields are those of time t", "statement": "After activate_time(t), get_field(name) is what get_field(name, time=t) was before, for every child of the dataset that is or becomes active; if it raises, nothing has changed.", "quantifier": "every tree of datasets, every time given as number or text", "why_tests_cant": "Trees have any depth and shape; exceptions can come from any child.", "anchors": ["viscid/dataset.py: Dataset.activate_time, DatasetTemporal.activate_time, Dataset.activate"]}
{"id": "C176", "title": "nr_times, get_times, iter_times and get_time agree", "statement": "nr_times(sel) is the number of get_times(sel); iter_times(sel) gives the grid of each of them in order; get_time(sel) is the first of them. A dataset has the times of its first child.", "quantifier": "every tree of datasets, every slice of indices", "why_tests_cant": "Trees have any depth and shape, and any child can be deferred.", "anchors": ["viscid/dataset.py: Dataset.nr_times, Dataset.iter_times, Dataset.get_times, Dataset.get_time, DatasetTemporal.nr_times, DatasetTemporal.iter_times, DatasetTemporal.get_times, DatasetTemporal.get_time", "viscid/grid.py: Grid.nr_times, Grid.iter_times"]}
{"id": "C177", "title": "set_in_region is alpha a + beta b where the mask is True, and leaves the rest alone", "statement": "set_in_region(a, b, alpha, beta, mask, out) has alpha*a + beta*b at each point (and in each component) where the mask is True, and what was in out where it is False, for scalar fields and vector fields of any layout; without a mask everywhere.", "quantifier": "all fields and masks of any number of axes, sizes and components, in both layouts", "why_tests_cant": "Whether a mask is matched with the right points depends on how the sizes of the axes are broadcast, for all sizes.", "anchors": ["viscid/dipole.py: set_in_region"]}
{"id": "C178", "title": "Face and edge centered coordinates are those of a staggered grid", "statement": "get_crds_vector (get_crds_fc, get_crds_ec) gives, for each axis and component of a vector field, one coordinate for each cell: for face centered fields the lower node along the axis of the component and the center of the cell along the others, for edge centered fields the other way round; flat and shaped versions have the same numbers.", "quantifier": "all grids of any number of axes and nodes, all components and centerings", "why_tests_cant": "It is for every number of axes and nodes, also single ones.", "anchors": ["viscid/coordinate.py: StructuredCrds._fill_crds_dict, StructuredCrds._sm1, StructuredCrds.get_crds_fc, StructuredCrds.get_crds_ec", "viscid/field.py: Field.get_crds_vector"]}
{"id": "C179", "title": "make_spherical_mask is True exactly between the two spheres", "statement": "make_spherical_mask(fld, rmin, rmax) is True exactly at the points whose distance from the origin is at least rmin and less than rmax; for face and edge centered vector fields it has three components, each decided where that component is.", "quantifier": "all fields on three axes, all numbers rmin and rmax", "why_tests_cant": "It is for every point of every grid, including those exactly on the spheres.", "anchors": ["viscid/dipole.py: make_spherical_mask"]}
{"id": "C180", "title": "fill_dipole and make_dipole put the field of a dipole at the place of each component", "statement": "After fill_dipole(B, m, strength, mask) each component of B, where the mask is True, is that of the field of a dipole with the moment m (scaled to strength) at the place of that component, for every centering and layout, and the rest is as before. make_dipole(m, strength, l, h, n, center) is such a field on n cells or nodes along each axis, evenly spaced in the box from l to h.", "quantifier": "all grids of three axes, centerings, layouts, moments, strengths and masks", "why_tests_cant": "It is for every grid, moment and mask.", "anchors": ["viscid/dipole.py: fill_dipole, make_dipole", "viscid/field.py: Field.get_crds_vector, Field.set_slice"]}
{"id": "C181", "title": "A selection by value of an AMR field takes the patches that have points of it", "statement": "amr['x=...j, y=...j'] slices exactly the patches that, with their lower and without their upper boundaries, have points in the box of the selection, in their order; directions in which no patch has an extent do not matter. A selection by index is refused with a RuntimeError.", "quantifier": "all sets of patches with any number of axes, all selections of values and slices of values with any steps", "why_tests_cant": "It is for every arrangement of patches and every selection, including those on or near boundaries.", "anchors": ["viscid/amr_field.py: AMRField._prepare_amr_slice, AMRField.patch_indices, AMRField.slice, AMRField.slice_reduce, AMRField.slice_and_keep", "viscid/coordinate.py: StructuredCrds.get_slice_extent"]}
{"id": "C182", "title": "A slice of an AMR field is the slices of its patches, with the same axes", "statement": "A slice that takes more than one patch is an AMR field of the slices of those patches that have values, in order, and each has the same axes, those that were left out in some put back; a slice within one patch is the slice of that patch.", "quantifier": "all numbers of patches, and all slices of patches with any axes", "why_tests_cant": "It is for any combination of axes lost in some of the patches.", "anchors": ["viscid/amr_field.py: AMRField._finalize_amr_slice, AMRField.slice, AMRField.slice_reduce, AMRField.slice_and_keep"]}
{"id": "C183", "title": "An attribute of an AMR field is that of all its patches", "statement": "An attribute of an AMR field that is not a method is the value all patches have in common, and a ValueError if they differ.", "quantifier": "all numbers of patches and all values of the attribute", "why_tests_cant": "It is for every list of values, and depends on what truth the comparison of them has.", "anchors": ["viscid/amr_field.py: AMRField.__getattr__"]}
{"id": "C184", "title": "A numpy function of an AMR field is the function of each patch", "statement": "A numpy function of one argument, applied to an AMR field, gives an AMR field with as many patches, in order, each of which has the values of the function of the patch.", "quantifier": "all functions of one argument, all patches of any shapes", "why_tests_cant": "It is for every function and all numbers and shapes of patches.", "anchors": ["viscid/amr_field.py: AMRField.__array__, AMRField.__array_wrap__"]}
{"id": "C185", "title": "The skeleton of an AMR grid in a series describes that grid", "statement": "In a file with a series of AMR grids the boxes of the skeleton of each grid, from which amr.xl and amr.xh are taken, are those of its patches.", "quantifier": "all series of any length of grids with any numbers of patches", "why_tests_cant": "It is about every history of grids, as skeletons are kept from one time to the next.", "anchors": ["viscid/amr_grid.py: AMRSkeleton.compatable_with, AMRGrid.__init__", "viscid/readers/xdmf.py: FileXDMF._parse_grid"]}
{"id": "C186", "title": "An interpolated slice has interpolated values and leaves the field alone", "statement": "fld.interpolated_slice with values selected along some axes is at those places, with the values of the trilinear interpolation of the field there; the field is as before.", "quantifier": "all fields on uniform and nonuniform grids with any numbers of nodes or cells, all combinations of selected axes and all values", "why_tests_cant": "It is for every grid, field and value.", "anchors": ["viscid/field.py: Field.interpolated_slice", "viscid/coordinate.py: StructuredCrds.slice_interp, StructuredCrds.get_crd", "viscid/cython/cycalc.pyx: interp_trilin"]}
{"id": "C187", "title": "downsample halves the grid of a scalar field", "statement": "fld.downsample() is a field with half as many values along each axis.", "quantifier": "all scalar fields with any number of axes and any sizes", "why_tests_cant": "It is for every size; it is violated for all of them.", "anchors": ["viscid/field.py: ScalarField.downsample", "viscid/coordinate.py: StructuredCrds.get_clist"]}
{"id": "C188", "title": "What is assigned to a selection of a field is what the selection gives", "statement": "After fld[sel] = v the selection fld[sel] has the values v, broadcast to its shape, and all other values of the field are as before. The assignment raises if the selection does, or if v does not have such a shape.", "quantifier": "all fields with any number of axes, scalar or with the components first or last, all selections with integers, slices with any steps and new axes, of all or some components, and all values", "why_tests_cant": "It is for every shape, selection and value.", "anchors": ["viscid/field.py: Field.set_slice, Field._finalize_slice"]}
{"id": "C189", "title": "Fields of OpenGGCM's binary files are read as they were written", "statement": "Opening a binary file, or a series of them, gives the fields that were written, under their names and with their sizes, and each has the values that were written for it in its file, in either byte order. What is missing or of another size is an error when it is read, never other values.", "quantifier": "all files of any number of fields with any names and sizes in either byte order, all series of files with the same layout, and all histories of the object that reads them", "why_tests_cant": "It is for every number of fields, sizes and values.", "anchors": ["viscid/readers/ggcm_fortbin.py: GGCMFortbinFileWrapper, FortbinDataWrapper, GGCMFileFortbinMHD._make_template", "viscid/readers/openggcm.py: GGCMFileFortran.get_file_wrapper"]}
{"id": "C190", "title": "The reader of binary files can be used again", "statement": "Whatever has been read or asked before with the same object, failed or not, read_field(name) gives the field of that name and inquire_all_fields finds all fields of the file.", "quantifier": "all files of fields with the same sizes, all histories of readings at places of fields and scans, all names", "why_tests_cant": "It is for every history.", "anchors": ["viscid/readers/ggcm_fortbin.py: GGCMFortbinFileWrapper.read_field, GGCMFortbinFileWrapper.inquire, GGCMFortbinFileWrapper.inquire_all_fields, GGCMFortbinFileWrapper.inquire_next"]}
{"id": "C191", "title": "What is removed from a dataset is gone, and nothing else", "statement": "ds.add(child) and ds[name] = child make the child available under its name. del ds[key] removes the child with that handle, with all its handles, and no other; nothing of it is found any more. `key in ds` is true exactly if ds[key] gives something.", "quantifier": "all histories of adding, activating and removing children, grids and deferred children, all names, numbers and objects as keys", "why_tests_cant": "It is for every history.", "anchors": ["viscid/dataset.py: Dataset.add, Dataset.__setitem__, Dataset.__delitem__, Dataset.__contains__, Dataset.__getitem__, Dataset.remove_all_items", "viscid/grid.py: Grid.__contains__, Grid.__getitem__, Grid.remove_all_items", "viscid/bucket.py: Bucket"]}
{"id": "C192", "title": "Turning a grid from MHD to GSE turns all of it", "statement": "If a GGCM grid is turned from MHD to GSE when it is read, every field of it is what the file holds turned by half a turn about z: at the turned point there is the turned vector, or for a component the turned component, or for a scalar the same value; vectors that are made of their components agree. It is the same whether a field is read first and then sliced or sliced without reading it, and what a user puts in is what is shown.", "quantifier": "all coordinates, sizes, values, names, storage orders and places of the components, node and cell centred fields, all slices", "why_tests_cant": "Coordinates, data and signs are changed in different places; that they agree is for all grids, names and orders.", "anchors": ["viscid/readers/openggcm.py: GGCMGrid.set_crds, GGCMGrid.add_field, GGCMGrid._assemble_vector, mhd2gse_field_scalar_m1, mhd2gse_field_scalar, mhd2gse_field_vector", "viscid/field.py: Field._dat_to_ndarray, Field._finalize_slice, Field.data, scalar_fields_to_vector", "viscid/coordinate.py: StructuredCrds.reflect_fld_arr, StructuredCrds.apply_reflections"]}
{"id": "C193", "title": "Coordinate arrays are those the names stand for, and each axis has its unit", "statement": "crds[name] is the array that the name stands for: of the axis, flat or in capitals open, with the ending nc, cc, fc, ec or none for its centering; other names are KeyErrors. get_crd, get_crds, get_nc, get_cc, get_fc and get_ec give the same arrays by name or number. get_unit gives the unit of each axis.", "quantifier": "all lists of axis names, all names and numbers asked for, all centerings, all units", "why_tests_cant": "Collisions of names depend on all the names together; the claims are for every list of axes.", "anchors": ["viscid/coordinate.py: StructuredCrds.get_crds, get_crd, get_nc, get_cc, get_fc, get_ec, __getitem__, __contains__, _fill_crds_dict, _set_crds, apply_reflections", "viscid/coordinate.py: Coordinates.units, get_units, ind, axis_name"]}
{"id": "C194", "title": "The ends, lengths and widths of an axis are those of its nodes", "statement": "get_xl, get_xh and get_L are the first node, the last node and their difference, and get_dx are the positive widths that add up to it, for uniform and nonuniform coordinates, reflected or not; applying reflections leaves the nodes as they are.", "quantifier": "all axes with any nodes, all uniform axes with any ends and numbers of nodes, reflected and not", "why_tests_cant": "They hold for all numbers of nodes and all ends.", "anchors": ["viscid/coordinate.py: StructuredCrds.get_xl, get_xh, get_L, get_dx, apply_reflections", "viscid/coordinate.py: UniformCrds.get_xl, get_xh, get_L, get_clist, _fill_crds_dict"]}
{"id": "C195", "title": "Fields of Athena grids are the same quantity, whether the file has primitive or conserved variables", "statement": "An AthenaGrid gives the fields of its file by name. vx, vy, vz are the velocities of the file or else momentum over density, mx, my, mz the momenta or else velocity times density, so m = v d either way; bx, by, bz are cell centred fields, or else those on faces; b, v, bmag, speed are made of these components; rr and pp are density and pressure. What was asked for before makes no difference to the values.", "quantifier": "all grids with any stored fields of any values, loaded or not, all names, all histories of names asked for", "why_tests_cant": "The fallbacks depend on which fields a file has, and the histories of lookups are without bound.", "anchors": ["viscid/readers/athena.py: AthenaGrid", "viscid/grid.py: Grid.get_field, Grid.__getitem__", "viscid/field.py: Field.shell_copy"]}
{"id": "C196", "title": "Bulk velocities and pressures of Gkeyll grids are those of the moments in the file", "statement": "ux_e to uz_i are the velocities with which mass density times velocity is the momentum density; Pxx_e to Pzz_i are the second moments without that of the bulk motion; u_e, u_i and b have the components that their names say.", "quantifier": "all grids with any stored fields, both species, all axes and pairs of axes, all points", "why_tests_cant": "The equations are for all real values; tests with a flow along one axis only do not see a wrong axis.", "anchors": ["viscid/readers/gkeyll.py: GkeyllGrid._get_ux_e, _get_Pxx_e, _get_Pyy_e, _get_Pzz_e, _get_u_e, _get_b, _assemble_vector"]}
{"id": "C197", "title": "Gkeyll and Athena files: components have their names after any files were opened, and files are grouped by run in order of time", "statement": "The components of a Gkeyll file have the names of its kind (hydro, five-moment, ten-moment, with or without two correction potentials), or else numbered names, and the grid says which kind it is, whichever files were opened before. Grouping names of files puts each in one group, groups are the files of one run (and type), in order of their numbers.", "quantifier": "all histories of files opened in a process, all numbers of components, all lists of names of files", "why_tests_cant": "The lists of names are shared by the process and grow with each file that has correction potentials; histories are unbounded.", "anchors": ["viscid/readers/gkeyll.py: _type_info, create_type_info, GkeyllFile._make_template, GkeyllFile.group_fnames, GkeyllFile.load, _parse", "viscid/readers/athena.py: group_athena_files_common"]}
{"id": "C198", "title": "Athena tab files: time, names, coordinates and data are those of the file", "statement": "Opening an Athena .tab file gives the time in its header, a field for each column after those of the coordinates with the name in the header, coordinates whose cells have the centres in the file, and at each cell the value of its row.", "quantifier": "all headers, all sizes of grids in up to three dimensions, all coordinates and values", "why_tests_cant": "For all sizes, spacings, times and names.", "anchors": ["viscid/readers/athena_tab.py: AthenaTabFile.parse_header, read_crds, _parse_file, AthenaTabDataWrapper.__array__"]}
{"id": "C199", "title": "Columns of text files and blocks of .nda files are the fields with their names", "statement": "In a .txt or .asc file the first column is the coordinate and column i is the field ci; in an Athena history file the first column is the time and the other columns have the names in the header; in a .nda file each field has its numbers with the last axis fastest.", "quantifier": "all tables of any number of rows and columns, all names, all numbers and lengths of axes", "why_tests_cant": "For all sizes.", "anchors": ["viscid/readers/ascii.py: FileASCII._parse, FileNDASCII._parse", "viscid/readers/athena_hst.py: AthenaHstFile._parse", "viscid/field.py: Field._reshape_ndarray_to_crds"]}
{"id": "C200", "title": "An array in an HDF5 file, or one component of it, is read as the numpy array it stands for", "statement": "The wrapper of an array in an HDF5 file, optionally of one component along one of its axes, has the shape and values of that component after any history of uses; indexing it gives what indexing the array gives; len is the length of its first axis; axes and components that do not exist are errors.", "quantifier": "all shapes and values, all axes and components counted from either end, all histories of asking for the shape, the length, the array or items, all tuples of integers and slices forward", "why_tests_cant": "For all shapes, selections and histories: the axis of components is renumbered when data is read for the first time.", "anchors": ["viscid/readers/hdf5.py: H5pyDataWrapper.shape, __len__, __array__, _inject_comp_slice, read_direct, __getitem__", "viscid/readers/gkeyll.py: GkeyllFile._parse_file"]}
{"id": "C201", "title": "Functions of rotations treat stacks of rotations entry by entry", "statement": "Products of rotation matrices and of quaternions, rotating vectors, and conversions between axes with angles, matrices and quaternions give, for stacks of rotations, in entry k what they give for entries k; a single value is used for all entries, a stack is returned if any argument is one, and stacks of different sizes are refused.", "quantifier": "all numbers of factors, all sizes of stacks, all mixtures of single values and stacks, all angles, axes, matrices and quaternions", "why_tests_cant": "For all mixtures of single values and stacks of any size, in any order, and all values; a stack whose entries have different norms is needed to see that one norm is used for all.", "anchors": ["viscid/rotation.py: rotmul, rotate, quatmul, wxyz2rot, wxyz2quat, axang2rot, axang2quat, quat2wxyz"]}
{"id": "C202", "title": "The angle between vectors is the angle between vectors", "statement": "The angle between two vectors is between 0 and pi, and its cosine times the lengths of the vectors is their scalar product, for vectors with any number of components; it is nan if a vector is 0; stacks are handled entry by entry; it is given in the unit asked for; it does not depend on the order or the lengths of the vectors, and is 0 exactly for vectors in the same direction.", "quantifier": "all numbers of components, all vectors, all sizes of stacks, all texts for units", "why_tests_cant": "For all dimensions, vectors, stacks and texts; that the argument of the inverse cosine never leaves [-1, 1] is an inequality for all vectors.", "anchors": ["viscid/rotation.py: angle_between, convert_angle"]}
{"id": "C203", "title": "Rotations from vectors to vectors are found entry by entry for stacks", "statement": "a2b_rot of stacks of vectors to rotate from, to rotate to, rolls and new x axes gives in entry k the rotation for entries k alone, a single value being used for all entries; a roll and a new x axis together are refused.", "quantifier": "all sizes of stacks, all mixtures of single values and stacks, all vectors, rolls and new x axes", "why_tests_cant": "For all mixtures of sizes and all vectors; the failures need a stack in which some pairs are parallel and others are not.", "anchors": ["viscid/rotation.py: a2b_rot"]}
{"id": "C204", "title": "Functions of rotations do not change the arrays they are given", "statement": "a2b_rot and quat2rot leave the arrays of vectors and quaternions they are called with as they are; after any history of calls, a call gives what it would have given first, also if arguments are the same array; quaternions of integers are quaternions.", "quantifier": "all contents of memory, all aliasing of arguments, all histories of calls, all vectors and quaternions", "why_tests_cant": "For all histories of calls that share arrays, and all contents; a test that compares rotations only never looks at the arguments afterwards.", "anchors": ["viscid/rotation.py: a2b_rot, quat2rot"]}
{"id": "C205", "title": "The coordinate system of a thing is the nearest name, stripped and in lower case", "statement": "as_crd_system gives, for a text, the text without surrounding blanks and in lower case; for a field, grid, dataset or file, that of the nearest 'crd_system' info of itself and its ancestors; if there is none, that of the default; without a default it raises TypeError. The result is always stripped and lower case, so applying the function again changes nothing.", "quantifier": "all texts, all finite graphs of nodes (with cycles), all infos, all defaults", "why_tests_cant": "Depends on which of arbitrarily many ancestors holds which info and on the kinds of all of them; all texts.", "anchors": ["viscid/cotr.py: as_crd_system", "viscid/field.py: Field.__crd_system__", "viscid/readers/openggcm.py: GGCMGrid.__crd_system__", "viscid/tree.py: Node.find_attr, Node.find_info"]}
{"id": "C206", "title": "as_cotr makes a transformation of whatever says when or how", "statement": "as_cotr gives the transformation without dipole tilt for None, a Cotr itself, the Cotr of a time or of a text that is a time, the Cotr made of a mapping, for a node what it or the nearest ancestor says (its __cotr__, a 'cotr' info or a 'dipoletime' info), otherwise that of the default; otherwise it raises TypeError.", "quantifier": "all values, all finite graphs of nodes of all kinds, all infos, all defaults", "why_tests_cant": "Depends on the kinds and infos of arbitrarily many ancestors; the failures show only for nodes below an OpenGGCM grid or grids without times.", "anchors": ["viscid/cotr.py: as_cotr", "viscid/readers/openggcm.py: GGCMGrid.__cotr__", "viscid/tree.py: Node.find_attr, Node.find_info"]}
{"id": "C207", "title": "Matrices of rotations and translations, and vectors with a fourth component, do what they say", "statement": "make_rotation gives the matrix that turns vectors by theta degrees about the axis (right handed about y, left handed about x and z) with a fourth component left alone; angles add; invalid axes and sizes raise ValueError. make_translation gives a matrix that moves points by the vector and its inverse. as_nvec extends the first axis with the initial values and changes nothing else.", "quantifier": "all angles, axes, sizes, vectors, translations, numbers of rows and initial values", "why_tests_cant": "For all real angles and vectors; all texts for an axis.", "anchors": ["viscid/cotr.py: make_rotation, make_translation, as_nvec"]}
{"id": "C208", "title": "get_rotation_wxyz finds the axis and the angle of a rotation matrix", "statement": "For every rotation matrix get_rotation_wxyz returns an angle between 0 and 180 degrees and a unit vector such that the matrix turns all vectors by that angle, right handed, about that vector, with either method and with or without the check; other matrices raise ValueError.", "quantifier": "all 3x3 matrices, both methods, every choice of eigenvectors the solver may make", "why_tests_cant": "For all rotations, also by 0 and 180 degrees where the axis comes from an eigenvector that is not unique.", "anchors": ["viscid/cotr.py: get_rotation_wxyz"]}
{"id": "C209", "title": "A settings file sets exactly the attributes its lines name", "statement": "Loading a settings file sets, line after line, the attribute that each path names (importing modules on the way if need be) and changes nothing else; a path that leads nowhere is skipped with a warning that names the missing part; an attribute that does not exist is made, with a warning; the post actions run once for every object that got an attribute; without a file nothing happens; no file keeps viscid from being imported.", "quantifier": "all graphs of objects and importable modules, all files (any number of lines with any keys and values)", "why_tests_cant": "Any number of lines that act one after another on an arbitrary graph of objects; what one line sets is what the next one walks through.", "anchors": ["viscid/_rc.py: _get_obj, set_attribute, load_rc_file"]}
{"id": "C210", "title": "Readers asked for by name", "statement": "A reader asked for by a text is the deepest and most recent class whose name has the text in it, where spaces, underscores, dashes, capital letters and the word 'file' do not count; None if there is no such class; in particular the name of a class finds that class, and nothing finds nothing.", "quantifier": "all trees of classes with all names, all texts", "why_tests_cant": "Any tree of classes (users add their own by subclassing) and any text; which class is found depends on the order in which modules are imported.", "anchors": ["viscid/readers/vfile.py: VFile.resolve_type", "viscid/readers/vfile_bucket.py: VFileBucket.load_files"]}
{"id": "C211", "title": "Types of fields and of coordinates by name", "statement": "field_type and wrap_crds find the class of a type by its name in any case: the topmost, most recent class of that type; None or NotImplementedError if there is none, and only then; a class stands for itself.", "quantifier": "all trees of classes, all texts, all constructors", "why_tests_cant": "All texts in all cases and all trees of classes users may make by subclassing.", "anchors": ["viscid/field.py: field_type, Field.istype", "viscid/coordinate.py: lookup_crds_type, wrap_crds, Coordinates.istype", "viscid/vutil.py: subclass_spider"]}
{"id": "C212", "title": "Stacks of rotations are checked and turned into quaternions and axes and angles, one by one", "statement": "check_orthonormality says whether matrices are orthonormal, and refuses words it does not know; dcm2quat and rot2quat give, for each matrix of a stack, a unit quaternion of the same rotation; rot2axang and axang2rot are inverse, and so are quat2axang and axang2quat up to the norm of the quaternions; what is not a rotation is refused if bad_matrix is 'raise'.", "quantifier": "all real matrices, rotations and quaternions, alone or in stacks of any length; all texts as bad_matrix", "why_tests_cant": "All rotations, including those by zero and by half a turn, in stacks of any mixture; eigenvectors are found only up to sign.", "anchors": ["viscid/rotation.py: check_orthonormality, rot2quat, dcm2quat, rot2wxyz, rot2axang, quat2axang"]}
{"id": "C213", "title": "Values of parameters in log files keep their meaning", "statement": "The value of a parameter in a log file is read as the integer or float that its text is; numbers with commas between them as the array of those numbers, in order; words with colons between them as the list of the words; every other text as itself, without the blanks around it. A line is a parameter just when it has one bar in it.", "quantifier": "all texts of any length, all integers, lists of any length with any blanks; every reading of floats that refuses commas and colons", "why_tests_cant": "All texts; which of the readings applies is decided by what stands at the beginning of the text only.", "anchors": ["viscid/readers/ggcm_logfile.py: GGCMLogFile._parse_value, GGCMLogFile._parse_param"]}
{"id": "C214", "title": "Plotting a field draws its data and does not change it", "statement": "A two dimensional plot shows each value of the field, multiplied by the scale, at its coordinates multiplied by the factors of the axes, once per value, with the values that are not positive left out if a mask is asked for; the field and its coordinates are the same afterwards, so plotting again draws the same picture; patches are drawn one after another and each into its own place; a field with everything masked has no colour bar.", "quantifier": "all fields of any shape, all values, scales, factors and styles, any number of plots in a row", "why_tests_cant": "All data and histories of plots; tests look at pictures of one plot each.", "anchors": ["viscid/plot/vpyplot.py: _plot2d_single, plot2d_field"]}
{"id": "C215", "title": "Limits of colour scales", "statement": "The limits of the colour scale of a plot are those asked for, and where none is, the least and greatest number of the field over all patches; a symmetric scale reaches as far below as above zero and has all numbers in it; a logarithmic scale has positive limits, and masks the rest; a norm that is given is used as what it is. The limits are about the data that are drawn.", "quantifier": "all fields of any number of patches and values, with nan, and all combinations of the options clim, vmin, vmax, sym, lin, log, loglog, logscale, norescale", "why_tests_cant": "All data and all combinations of options, whose precedence decides.", "anchors": ["viscid/plot/vpyplot.py: _extract_actions_and_norm, plot2d_field"]}
{"id": "C216", "title": "Plot options given as text", "statement": "Options given as a text with commas between them are what they say: a name alone is a flag, a name with one value has that value, a name with several values has the list of them, and values that are words are texts, also with underscores in them; the last option for a name counts and options not named are kept; a text of nothing, or of blanks, is no options; options as yaml without a value are flags; the axis option is the trimmed word in lower case.", "quantifier": "all texts of any length with any blanks, all separators, any number of options and values, every meaning of expressions", "why_tests_cant": "All texts; options are typed on the command line.", "anchors": ["viscid/plot/vpyplot.py: plot_opts_to_kwargs, _pop_axis_opts", "viscid/pyeval.py: parse"]}
{"id": "C217", "title": "Files of processes are joined to the whole box", "statement": "When the grids of one time step tile a box, the joined file has all nodes of the box once each and in order, and in each cell (or node) the value of the grid it is in, in whatever order the files are given; grids that overlap or do not fit and grids of different times are refused.", "quantifier": "all tilings with any number of grids along each axis, all sizes, all orders of files, all data", "why_tests_cant": "All decompositions and orders of files; it is a script without tests.", "anchors": ["scripts/athena2xdmf: main"]}
{"id": "C218", "title": "The command line tools for bits, colours and differences", "statement": "bitmaskbits prints exactly the bits that are on in the number, in order, and says so when none is needed; negative numbers are refused. rgb2hex gives the text of a colour with two hexadecimal digits for each component, from numbers between 0 and 255 or fractions between 0 and 1, and refuses others. viscid_diff counts the fields in which two files differ.", "quantifier": "all numbers, all colours, all files and fields", "why_tests_cant": "All numbers and all files; scripts have no tests.", "anchors": ["scripts/bitmaskbits: main", "scripts/rgb2hex: main", "scripts/viscid_diff: main"]}
{"id": "C219", "title": "Limits and directions of axes of plotted points", "statement": "After points were plotted all of them are within the limits of the axes, everything that was within them still is, axes keep their direction, and ends only move to points. A direction that is named (in any case, with blanks) is the one not drawn, others are refused; without one the last direction along which nothing changes is not drawn, or z if there is none.", "quantifier": "all limits (also of inverted axes), all arrays of points of any length, all texts", "why_tests_cant": "All arrays of points and limits.", "anchors": ["viscid/plot/vpyplot.py: _autolimit_to_vertices, _xyzind_from_symdir"]}
{"id": "C220", "title": "Segments of plotted lines", "statement": "When lines are drawn in segments, each segment joins a vertex with the next one of the same line, all of them are drawn once and in order, never from one line to the next, and each has the scalars of its first vertex. With subsampling the fine lines have equally spaced vertices along the lines from the first to the last vertex, scalars are refined the same way, and with a whole number of parts all vertices of the line are kept.", "quantifier": "all lines of any number and lengths (also none), any number of coordinates and scalars, every subsampling (whole or not), with and without scipy", "why_tests_cant": "All lines, lengths and subsamplings.", "anchors": ["viscid/plot/vpyplot.py: _prep_lines"]}
{"id": "C221", "title": "Values mapped along field lines of the dipole", "statement": "dipole_map_value gives for each point the value of the field where the dipole field line through the point is at the radius asked for, for fields of any coordinates and units; nan is replaced by fillna if it is given, and nothing else is.", "quantifier": "all points, radii, coordinate systems, times and dipole angles, histories of the Cotr object, scalar fields of two axes, every interpolation exact at nodes", "why_tests_cant": "All points, times and fields.", "anchors": ["viscid/dipole.py: dipole_map_value, dipole_map", "viscid/field.py: Field.is_spherical", "viscid/mapfield.py: as_spherefield"]}
{"id": "C222", "title": "Coordinates read from Athena binary and Gkeyll files", "statement": "Reading an Athena binary file gives, per axis, node coordinates half way between the cell centres of the file, with the outermost nodes half a spacing further out, so that each cell centre lies inside its cell; an axis of one cell gets a cell around the centre as wide as the least spacing of the other axes. Reading a Gkeyll file gives the bounds and counts of a uniform grid, or the node arrays of a rectilinear or structured grid, axis by axis as they are in the file, and refuses other kinds of grid. The centres computed back from the nodes are those of the file.", "quantifier": "all lists of cell centres per axis of any length, all grids of any number of axes", "why_tests_cant": "The relation between nodes and centres must hold for every spacing and number of cells; test files use a few equally spaced grids, for which stretched grids, single cells and missing bounds do not matter.", "anchors": ["viscid/readers/athena_bin.py: AthenaBinFile._make_crds", "viscid/readers/gkeyll.py: GkeyllFile._get_single_crd, GkeyllFile.make_crds"]}
{"id": "C223", "title": "What is taken for a time, and text read as a time", "statement": "is_datetime_like, is_timedelta_like and is_time_like recognise instants and durations by their types, lists and arrays by their elements, and text by whether it can be read; as_datetime64 and as_datetime read text as the date and time it shows, in ISO 8601 or with colons; time_as_seconds rounds instants as instants, durations as durations and numbers as numbers.", "quantifier": "all values of the modelled types, all lists and arrays of them, all texts, every behaviour of Python's float and numpy's datetime parser", "why_tests_cant": "There are unboundedly many texts and lists; tests use ISO texts with dashes, for which the attempt to read a duration first does not matter.", "anchors": ["viscid/npdatetime.py: as_datetime64, as_datetime, is_valid_datetime64, is_valid_timedelta64, time_as_seconds, _check_like, is_datetime_like, is_timedelta_like, is_time_like"]}
{"id": "C224", "title": "The global file of a VPIC run is read line by line into variables, species and axes", "statement": "A VPIC global file made of comments, blank lines, the version line, keyword lines, unknown lines, a block of field variables and a block of species is read into: the field variables with their components numbered one after the other, the directory and base name last given before the block, the species in order with the directory and base name last given for each, and each axis's number of blocks, step and extent from the keyword values last given; unknown lines do not matter. Another version, a keyword with wrong values, variables before their directory, a file that ends early, a file without variables or species, or without an axis keyword, is refused. Comments and blank lines should be passed over everywhere, and every variable should be found under its name.", "quantifier": "All lists of parts (each any text that is well formed, any blanks between words), any numbers of variables, components and species, any rest of the file after an error", "why_tests_cant": "Files have any number of parts in any order with any spacing; the numbering of components and 'last value wins' hold by induction over the parts, and each error has to come out whatever stands before and after it.", "anchors": ["viscid/readers/vpic.py:_VPICGlobalFile.__init__", "viscid/readers/vpic.py:_VPICGlobalFile._parseFieldDescr", "viscid/readers/vpic.py:_VPICGlobalFile.parse_VPIC_HEADER_VERSION", "viscid/readers/vpic.py:_VPICGlobalFile.parse_FIELD_DATA_VARIABLES", "viscid/readers/vpic.py:_VPICGlobalFile.parse_NUM_OUTPUT_SPECIES", "viscid/readers/vpic.py:_VPICGlobalFile._makeFieldDict", "viscid/readers/vpic.py:_VPICGlobalFile._setup"]}
{"id": "C225", "title": "Points given as arrays of any number of axes become seeds, each once and in the order of the array", "statement": "An array of points whose first axis (coordinates first) or else last axis (coordinates last) is of length 3 becomes as many seeds as it has points, each once, in the order of the array (last index fastest), the same on every call, cached or not; other arrays are refused. The points of a mesh come row by row, the mesh made of the seeds is the mesh given, and values computed for the seeds in order become the mesh of values. A rectilinear mesh has the axes of its rows and columns. All of this should hold for grids with coordinates last, and for meshes along any two axes.", "quantifier": "All arrays of any shape and values, all meshes, all lists of values of the right length, any allowed recursion depth", "why_tests_cant": "The order of flattening depends on the number of axes and their lengths in all combinations; it is settled by induction over the shape.", "anchors": ["viscid/seed.py:Point._make_local_points", "viscid/seed.py:SeedGen.get_points", "viscid/seed.py:SeedGen.iter_points", "viscid/seed.py:MeshPoints.__init__", "viscid/seed.py:MeshPoints.get_local_shape", "viscid/seed.py:MeshPoints.as_mesh", "viscid/seed.py:MeshPoints.arr2mesh", "viscid/seed.py:RectilinearMeshPoints.__init__", "viscid/seed.py:RectilinearMeshPoints._make_uv_axes"]}
{"id": "C226", "title": "Looking for texts from the right", "statement": "vjson.rfind_all(s, sub, start, end) gives the positions of all places of s, from the right to the left, where one of the texts stands, and then ends; whatever it gives is such a place.", "quantifier": "all texts s, all texts and lists of texts looked for, all starts and ends, any number of values taken from the generator", "why_tests_cant": "whether all places are found depends on how far they are from each other and from the beginning of the text, and that a generator ends must hold for every text", "anchors": ["viscid/vjson.py: rfind_all"]}
{"id": "C227", "title": "make_multiplot makes one picture for each time", "statement": "make_multiplot calls the plot function once for each time of the slice, with the number of the time, the first time with first_run=True and then with what the first call returned, whatever the number of processes; a slice without times is a ValueError; an exception of a picture is that of the call.", "quantifier": "all lists of times, all plot functions (also those that change the objects they are given), all numbers of processes, all orders in which the parts of the work finish", "why_tests_cant": "the parts in which the work is given to processes depend on the number of times and processes, and finish in any order", "anchors": ["viscid/multiplot.py: make_multiplot", "viscid/parallel.py: map, map_async"]}
{"id": "C228", "title": "Panels, fields, options and files of pictures of several times", "statement": "Each variable given to make_multiplot is drawn in a panel of its own, in order, or with a hat in that of the variable before it; the field and the selection are those its text gives, with the selection for all; the options are its own with those for all, the same in all pictures; files are numbered from 1.", "quantifier": "all lists of variables, texts, options and selections, all numbers of pictures", "why_tests_cant": "any text may be given for a variable, and the options must be the same in every picture of a series of any length", "anchors": ["viscid/multiplot.py: _do_multiplot", "viscid/plot/vpyplot.py: plot_opts_to_kwargs"]}
{"id": "C229", "title": "Series of files have one entry for each file, in order of time", "statement": "Loading several files of one run gives a dataset with one entry for each file, with its time, its fields and its coordinates, in order of time and for equal times in the order given; a name that does not fit the pattern of the reader is an error.", "quantifier": "all readers of series (jrrle, fortbin, iono, Athena binary, tab and XDMF, Gkeyll, OpenGGCM XDMF), all lists of two or more names, all contents of the files", "why_tests_cant": "names are texts of any length that must fit a pattern, and a series has any number of files in any order with any contents", "anchors": ["viscid/readers/openggcm.py: GGCMFileFortran.load", "viscid/readers/ggcm_jrrle.py: GGCMFileJrrleMHD", "viscid/readers/ggcm_fortbin.py: GGCMFileFortbinMHD", "viscid/readers/athena_bin.py: AthenaBinFile.load", "viscid/readers/athena_tab.py: AthenaTabFile.load", "viscid/readers/athena_xdmf.py: AthenaFileXDMF.load", "viscid/readers/gkeyll.py: GkeyllFile.load", "viscid/readers/ggcm_xdmf.py: GGCMFileXDMF.load", "viscid/dataset.py: DatasetTemporal.add"]}
{"id": "C230", "title": "Reloading a file shows what is in it", "statement": "After reload, a file object has what loading the same names anew would give, whatever has changed in the files; a file that has not changed is the same after any number of reloads.", "quantifier": "all readers of series, all files and series of files, all histories of changes of the files and of reloads", "why_tests_cant": "what is kept from one load to the next shows only when the files change between reloads, and in any history of them", "anchors": ["viscid/readers/vfile.py: VFile.reload", "viscid/readers/openggcm.py: GGCMFileFortran.load", "viscid/readers/athena_bin.py: AthenaBinFile._parse", "viscid/readers/athena_tab.py: AthenaTabFile._parse", "viscid/readers/gkeyll.py: GkeyllFile._parse"]}
{"id": "C231", "title": "Meshgrids of a field have the coordinates of its points", "statement": "field.meshgrid() gives one array for each axis, all of the shape of the grid, with the coordinate of the axis at each point; with axes only those asked for; with prune=True only the axes with more than one point; meshgrid_flat() gives them in the order of field.data.reshape(-1).", "quantifier": "all fields with any number of axes of any lengths and any layout of components, all axes asked for, with and without prune, all points", "why_tests_cant": "which axes are removed, and how the rest are broadcast, depends on which of any number of axes have one point and on where the components are", "anchors": ["viscid/field.py: Field.meshgrid, Field.meshgrid_flat, Field.shape", "viscid/coordinate.py: StructuredCrds.get_crds", "viscid/calculator/mpause.py: fit_paraboloid"]}
{"id": "C232", "title": "Meshes of coordinates with two meaningful dimensions", "statement": "as_mesh of coordinates with two axes that have more than one point gives an array of three rows, with the coordinates of the point at the place of the point; others are a ValueError.", "quantifier": "all coordinates with any number of axes of any lengths, all points", "why_tests_cant": "where a point is in the mesh depends on which axes have one point, for any lengths of the others", "anchors": ["viscid/coordinate.py: StructuredCrds.as_mesh, StructuredCrds.get_points", "viscid/field.py: Field.as_mesh"]}
{"id": "C233", "title": "Many vectors are transformed at once", "statement": "Cotr.transform of an array with shape (3, N) transforms each of the N columns as it would the vector alone, whatever was computed with the object before, and refuses it with the same exception; a sequence of three numbers is one vector, of fewer is a vector whose other components are 0, and more than three components are refused. cotr_transform does the same for its documented shape (N, 3), a vector in each row.", "quantifier": "all pairs of systems, parameters of the Cotr, histories of calls, numbers and values of vectors", "why_tests_cant": "the number of vectors, their values, the time and the calls made before are unbounded; a test takes a few vectors in one shape", "anchors": ["viscid/cotr.py: Cotr.transform", "viscid/cotr.py: as_nvec", "viscid/cotr.py: cotr_transform"]}
{"id": "C234", "title": "Dipole moments from angles and from times agree", "statement": "get_dipole_moment_ang gives, in gse, gsm, sm and mhd, the vector with the strength asked for that is opposite to the direction of the north pole said by the tilt (positive towards the Sun) and gsm (positive towards dusk) angles, and refuses mag. In every system the moment of a time and of angles has that length. get_dipole_angles of a time gives a tilt within 90 degrees and a gsm angle within 180, and get_dipole_moment_ang of these angles is get_dipole_moment of the time.", "quantifier": "all angles, strengths, times and coordinate systems", "why_tests_cant": "the angles, strengths and times are real numbers; a test takes a few of them", "anchors": ["viscid/cotr.py: get_dipole_moment_ang", "viscid/cotr.py: get_dipole_moment", "viscid/cotr.py: get_dipole_angles", "viscid/cotr.py: Cotr.get_dipole_moment", "viscid/cotr.py: Cotr.get_dipole_angles"]}
{"id": "C235", "title": "Files and fields of PSC runs", "statement": "Exactly the names ending in fd.xdmf, or in fd. with six digits and .xdmf, are taken for field files of PSC, and open_psc_file(path, step) opens the one of that step. The vectors h, e and j have the components of the file, b those of b or, in a file without b, of h. epar is the component of the electric field along the magnetic field wherever there is one.", "quantifier": "all file names, paths, prefixes and steps; all files, fields and values", "why_tests_cant": "names, steps and values are unbounded; a test takes a few names and one data file", "anchors": ["viscid/readers/psc.py: PscFieldFile", "viscid/readers/psc.py: make_fname", "viscid/readers/psc.py: open_psc_file", "viscid/readers/psc.py: PscGrid"]}
{"id": "C236", "title": "Options with which files are loaded", "statement": "The class and the options for grids that are given when a file is loaded are those of all grids the file makes, unless the reader asks for others; and a dataset is made of the type asked for, by name or class.", "quantifier": "all readers, options, grids and histories of loading", "why_tests_cant": "the readers, options and files loaded before are unbounded; a test loads one file with one option", "anchors": ["viscid/readers/vfile.py: VFile.__init__", "viscid/readers/vfile.py: VFile._make_grid", "viscid/readers/vfile.py: VFile._make_dataset", "viscid/readers/vfile_bucket.py: VFileBucket.load_files"]}
{"id": "C237", "title": "Limits of fields, and the extent of selections", "statement": "The limits xl and xh of an AMR field are, along each axis, the least and greatest of its patches. get_slice_extent of a selection gives, for each axis, the range of coordinates selected, with the limits of the field where the selection is open.", "quantifier": "all numbers of patches and axes, all limits and selections", "why_tests_cant": "patches, limits and selections are unbounded; a test takes one field and one selection", "anchors": ["viscid/amr_field.py: AMRField.xl", "viscid/amr_field.py: AMRField.xh", "viscid/amr_field.py: AMRField.get_slice_extent", "viscid/field.py: Field.get_slice_extent"]}
{"id": "C238", "title": "Sources of VTK hold the values of fields at their points", "statement": "add_field and field2source make a rectilinear grid of VTK that has, at each point or in each cell, the value or vector of the field there, for every layout of components; as points at the coordinates of the field, as cells between its nodes. Fields of nodes are not made cells, other centerings and fields with fewer than three axes are refused.", "quantifier": "all numbers of points along three axes, all coordinates and values, scalar fields and both layouts of vectors, all points", "why_tests_cant": "the order of the values is right only if it is at every point for every shape; a test looks at one picture", "anchors": ["viscid/plot/vlab.py: field2source", "viscid/plot/vlab.py: field2point_source", "viscid/plot/vlab.py: field2cell_source", "viscid/plot/vlab.py: _prep_field"]}
{"id": "C239", "title": "Arrows are drawn at every so many points, where these are", "statement": "plot2d_quiver(fld, step) draws an arrow at every step-th point along each of the two axes, at the coordinates of the point and with the components of the field in the plane there; at least one, and fewer than step points are left out at the lower ends.", "quantifier": "all fields with two axes, of nodes or cells, all coordinates, values and steps, both layouts of components", "why_tests_cant": "sizes and steps are unbounded, and the outcome depends on the remainder of one by the other", "anchors": ["viscid/plot/vpyplot.py: plot2d_quiver"]}
{"id": "C240", "title": "The earth in plots has its day side toward the sun", "statement": "plot_earth draws the earth wherever the plane cuts the sphere of the given radius, as large as the cut, with the side toward the sun coloured as day and the other as night, turned by rot.", "quantifier": "all planes of constant x, y or z, their places, radii, and rotations, for GSE and MHD coordinates", "why_tests_cant": "a picture shows one plane; which half is light depends on plane, coordinate system and place", "anchors": ["viscid/plot/vpyplot.py: plot_earth"]}
{"id": "C241", "title": "Colour tables of 3D plots hold the colours, limits and opacities given", "statement": "apply_cmap of an array of colours puts each as bytes into the table, in order, opaque unless an opacity is given; given limits become those of the table, and symmetric ones reach as far as what was there; an opacity, a number or a sequence, goes over the whole table and changes nothing else. Colours out of range are refused.", "quantifier": "all arrays of three or four rows or columns, as fractions or as bytes, all limits, tables and opacities", "why_tests_cant": "sizes of tables and sequences are unbounded, and fractions and bytes are told apart by their values", "anchors": ["viscid/plot/vlab.py: get_cmap", "viscid/plot/vlab.py: apply_cmap"]}
{"id": "C242", "title": "Colour maps keep their colours, and reversed have them the other way round", "statement": "to_rgba gives the colours of an array or map in order with opacities; to_linear_cmap and to_listed_cmap give a map of the kind and name asked for with these colours, in reverse order if asked; reversing twice gives the colours again.", "quantifier": "all arrays of colours and all maps, linear or listed, of any size for to_rgba, and names", "why_tests_cant": "the colours are found by rounding numbers between 0 and 1, which has to hit each of any number of colours", "anchors": ["viscid/plot/_cm_tools.py: to_rgba", "viscid/plot/_cm_tools.py: to_linear_cmap", "viscid/plot/_cm_tools.py: to_listed_cmap"]}
{"id": "C243", "title": "Labels are put at the best place beside their lines", "statement": "apply_labels puts each label beside a visible point of its line at the distance of the padding, at the candidate with the least overlap and among these the one nearest to the magnet; in the colour given for it, colours taken in turn, else in that of its line.", "quantifier": "all lines, with any lengths of segments, all sizes of text, candidates, penalties and distances, all orders of equal distances, and all lists of colours", "why_tests_cant": "the candidates come from an unbounded number of segments, and ties are ordered by an unstable sort", "anchors": ["viscid/plot/mpl_direct_label.py: apply_labels", "viscid/plot/mpl_direct_label.py: _cycle_colors", "viscid/plot/mpl_direct_label.py: xy_as_pixels", "viscid/plot/mpl_direct_label.py: estimate_text_size_px"]}
{"id": "C244", "title": "Maps of hemispheres are of the right one and labelled with their latitudes", "statement": "plot2d_mapfield shows the hemisphere asked for, or the one of all latitudes, else the northern; its circles are at 10 degrees from the pole and so on as far as the picture goes, labelled with their latitudes or angles; plot_iono writes the extremes of the hemisphere shown beside the plot.", "quantifier": "all latitudes of fields, choices of hemispheres, bounding angles and limits", "why_tests_cant": "the choice depends on all latitudes, and the circles on a limit that is any number", "anchors": ["viscid/plot/vpyplot.py: plot2d_mapfield", "viscid/plot/vpyplot.py: plot_iono"]}
{"id": "C245", "title": "Lines and points are drawn in the plane asked for, or in their own", "statement": "plot2d_lines and scatter_2d project lines or points along the direction asked for; without one, along that in which they do not extend, so that what lies in a plane is drawn by the two coordinates that vary.", "quantifier": "all lines of any number of segments and all sets of points, in three dimensions, and all names of directions", "why_tests_cant": "which direction is dropped depends on all points and on their number", "anchors": ["viscid/plot/vpyplot.py: plot2d_lines", "viscid/plot/vpyplot.py: scatter_2d"]}
{"id": "C246", "title": "Colours of the cubehelix have the intensity asked for and the hues given", "statement": "The cubehelix gives as many opaque colours as levels, all in range; their intensity goes from the first to the second given, to the power of gamma, whatever the hues; from 0 to 1 it begins with black and ends with white; the hues go from the first given to the second, or from start by rot.", "quantifier": "all hues, saturations and intensities, real gamma, starts, rotations and numbers of levels", "why_tests_cant": "real parameters and any number of levels", "anchors": ["viscid/plot/_cm_cubehelix.py: clac_helix_rgba"]}
{"id": "C247", "title": "Axes keep their limits, spines and ticks as asked", "statement": "despine shows exactly the spines not asked away, moved out by the offset of their side, with ticks on the side kept; trimming limits spines to the least and greatest tick within the limits and keeps exactly the ticks within them. auto_adjust_subplots leaves the limits of all axes of the figure as they were, and gives back its parameters, with those asked for. Axes in a grid are at an edge if they reach its last row or begin in its first column.", "quantifier": "all choices of spines and offsets, all ticks and limits in either order, all figures with any axes and shares, whatever a tight layout does, and all places in grids", "why_tests_cant": "what a tight layout does to limits is unknown, and shared axes set each other's limits in the order of the loop", "anchors": ["viscid/plot/from_seaborn.py: despine", "viscid/plot/vpyplot.py: auto_adjust_subplots", "viscid/plot/vpyplot.py: _ax_on_edge"]}
{"id": "C248", "title": "Nulls, the earth and ionospheric fields are put where they belong in 3D scenes", "statement": "plot_nulls draws each kind of nulls in its colour, if there are some and a colour is given; plot_earth_3d has its night side away from the sun and its day side toward it, together the whole sphere; plot_ionosphere puts each value of the field at its own colatitude and longitude.", "quantifier": "all sets of nulls and colours, systems of coordinates, radii, and all fields at equal angles of any shape and limits", "why_tests_cant": "angles are real and shapes unbounded; whether a value is where it belongs is seen only for fields with known sharp features", "anchors": ["viscid/plot/vlab.py: plot_nulls", "viscid/plot/vlab.py: plot_earth_3d", "viscid/plot/vlab.py: plot_ionosphere"]}
{"id": "C249", "title": "The package has every name in its list, whatever modules are missing", "statement": "After import viscid every name in viscid.__all__ is an attribute of the package, whatever modules could not be imported: names of modules that cannot be imported are taken from the list (unless bound) and reported, the names that modules share are added, and each name stands for the object last bound to it. check() says by its bits what does not work. Proxies of missing modules raise the exception of the failed import when used.", "quantifier": "all lists of names, all outcomes of every import with any submodules bound on the way, all namespaces before, all modules and what they share, and all attributes of proxies", "why_tests_cant": "what is installed differs from machine to machine, and the list is changed while a copy of it is walked", "anchors": ["viscid/__init__.py: import_injector", "viscid/__init__.py: check", "viscid/verror.py: UnimportedModule", "viscid/cython/__init__.py: _dummy"]}
{"id": "C250", "title": "Making a film removes only its own frames, and converting a mesh changes only its extension", "statement": "make_animation runs the program on the frames of the prefix, removes exactly the files prefix_*.png if not told to keep frames, and nothing if no film is asked for; options given as a namespace take the place of others. meshlab_convert writes a file of the same name with the format as its extension.", "quantifier": "all files there are, all prefixes, names of films, numbers of frames, programs and options, and all names of meshes and formats", "why_tests_cant": "which files are lost depends on all files there are, and names of files are unbounded", "anchors": ["viscid/extools.py: make_animation", "viscid/extools.py: meshlab_convert"]}
{"id": "C251", "title": "Timing calls the function as asked and gives its last result", "statement": "timeit calls the function exactly as often as asked, one call after the other, with its arguments and exactly the keywords that are not timeit's, returns the result of the last call and fills in the least, greatest, mean and median time of the calls; an exception of the function goes through. timereps gives the least, greatest and mean time.", "quantifier": "all functions on any state that may raise, arguments and keywords, numbers of calls, readings of the clock, and choices of what to print", "why_tests_cant": "times differ from run to run and the function may change state or raise at any call", "anchors": ["viscid/vutil.py: timeit", "viscid/vutil.py: timereps"]}
{"id": "C252", "title": "A spherical cap lies within its angles, and the guess of the dipole points at the strongest field", "statement": "The points of a SphericalCap are nphi times ntheta, all at distance r from its centre, at angles from the pole between angle0 and angle (which theta_endpoint includes or leaves out), and different ones; its angle reads back as given. guess_dipole_moment gives a vector of the given strength in the direction of the point of the cap where the magnetic field is strongest, with the sense of the moment.", "quantifier": "all centres, radii, poles, angles, rolls, numbers of points and ends; all magnetic fields, radii, strengths and angles of the cap", "why_tests_cant": "poles, angles and fields range over a continuum", "anchors": ["viscid/seed.py: SphericalCap", "viscid/dipole.py: guess_dipole_moment"]}
{"id": "C253", "title": "Elementwise operations give the value at each place, whatever backend there is", "statement": "neg, abs_val, add, diff, mul, abs_diff, relative_diff, scale and axpby of fields on one grid, or of fields and numbers, give a field whose value at each place is the documented operation of the values there, not finite where one is not, under a name made of the names of the arguments, and the same with numexpr as with numpy; abs_max and abs_min give the greatest and the least absolute value. Fields that do not fit are refused.", "quantifier": "all fields of integers and of floats with any finite or not finite values, all numbers, both backends", "why_tests_cant": "fields are unbounded, and which backend is used depends on what is installed", "anchors": ["viscid/calculator/calc.py: neg, scale, add, diff, mul, axpby, relative_diff, abs_diff, abs_val, abs_max, abs_min", "viscid/calculator/calc.py: UnaryOperation, BinaryOperation", "viscid/calculator/necalc.py: VneCalc, scale, axpby, abs_max, abs_min", "viscid/calculator/necalc.py: _normalize_scalar_dtype"]}
{"id": "C254", "title": "A plot of a line shows all values, scaled as asked and within its limits", "statement": "plot1d_field draws the points of all blocks of a field in order, coordinates times mod and values times scale. Symmetric limits lie at equal distances from zero and contain all values shown, other limits are those given, and none are set without. Symmetric limits of a logarithmic scale are refused. Limits of axes of times are converted, a default aspect is left out with times and all other settings are kept. The default space before a colour bar gives way to one the caller gave, and the options of the caller stay as they are unless asked.", "quantifier": "all lists of blocks with any values and nan, all factors, limits and scales, all lists of settings, all options of colour bars", "why_tests_cant": "data, blocks and settings are unbounded, and nan may be anywhere", "anchors": ["viscid/plot/vpyplot.py: plot1d_field", "viscid/plot/vpyplot.py: _prepare_time_axes", "viscid/plot/vpyplot.py: _set_default_cbar_pad"]}
{"id": "C255", "title": "Methods called through an AMR field are called on every patch", "statement": "A method of fields called on an AMR field is called once on each patch in order and gives an AMR field of the results if all are fields, else their list; an exception of one patch goes through and later patches are not called; if any patch lacks the method none is called. After a with block the caches of all patches are cleared, and exceptions go through. patch_indices gives the list of patches a selection overlaps, and interpolated_slice works where slices do.", "quantifier": "all lists of patches with any state, all methods that may raise, change their patch or return anything, all bodies of with blocks, all selections", "why_tests_cant": "methods are looked up when called and patches are unbounded in number and state", "anchors": ["viscid/amr_field.py: AMRField.__getattr__", "viscid/amr_field.py: _FieldListCallableAttrWrapper", "viscid/amr_field.py: AMRField.__exit__", "viscid/amr_field.py: AMRField.patch_indices", "viscid/amr_field.py: AMRField.interpolated_slice"]}
{"id": "C256", "title": "viscid_ts plots the time series that the command line asks for", "statement": "Every command line of viscid_ts is read: each -p is a variable with the -o options after it, -o before any -p is for all variables, and with no -p two defaults are plotted. A variable name=equation,slice is split into these parts. One series per variable is plotted, with its value in every grid in order, the slice of all variables being applied before its own, labelled with the long name of the field; if there are no times, or any variable is not one number in any grid, nothing is plotted. The plot is saved if a prefix is given without -w, else shown. Each -v lowers the logging level by ten and each -q raises it, unless --log is given.", "quantifier": "all sequences of options, all variables with names, equations and slices, all files as sequences of grids that may raise, all kinds of times", "why_tests_cant": "command lines, variables and grids are unbounded, and the result depends on the order of all options", "anchors": ["scripts/viscid_ts: AddPlotOpts", "scripts/viscid_ts: AddPlotVar", "scripts/viscid_ts: main", "viscid/vutil.py: common_argparse"]}
{"id": "C257", "title": "Axes around a 3-D scene enclose it, and clearing figures frees all their sources", "statement": "vlab.fancy_axes makes a grid with as many points per axis as labels, from the lower to the upper limit with padding; if not tight it goes from tick to tick and contains the target; symmetric limits add up to zero. Labels are one set for all axes if their numbers are equal and they are consolidated, else one per axis with its number. to_mpl with fit=None fits the figure if there is none yet. clear_data stops and removes every source of the figures given (the current one, all, or a list) after releasing its data, leaves all other figures alone, does nothing if there is no figure, and raises for None among figures.", "quantifier": "all limits, numbers of labels, paddings and locators; all engines with any scenes and sources in any state, and all arguments", "why_tests_cant": "continuum of limits, unbounded numbers of figures and sources", "anchors": ["viscid/plot/vlab.py: fancy_axes", "viscid/plot/vlab.py: to_mpl", "viscid/plot/vlab.py: clear_data", "viscid/plot/vlab.py: remove_source"]}
{"id": "C258", "title": "The colorbar of a 2-D plot is where and how the options say", "statement": "plot2d_field puts the colorbar on the side asked for, or on the right, or at the bottom if it is asked to be horizontal; its orientation is that of the side, with a warning exactly if the options disagree; a side that does not exist is replaced if there is an orientation, else ValueError is raised. Beside plain or polar axes, position, aspect, pad, fraction and shrink (or their defaults) shape the new axes, and all other options reach matplotlib unchanged; beside other axes all options but the position do. Ticks and format are those given, or chosen by the scale and the settings. Given axes are used for the colorbar. Two plots with the same options have the same colorbar. The label is the one given or the name of the field; axes are labelled with the labels given or the names of the coordinates.", "quantifier": "all dictionaries of options with any values, all scales, all kinds of axes", "why_tests_cant": "dictionaries are unbounded, and options interact; the effect on the dictionary is seen only by the next plot", "anchors": ["viscid/plot/vpyplot.py: plot2d_field", "viscid/plot/vpyplot.py: _make_grid1_cbar_axes", "viscid/plot/_mpl_grid1.py: make_grid1_cax"]}
{"id": "C259", "title": "Lines and points in plots have the colours and markers asked for", "statement": "plot2d_lines and plot3d_lines draw every segment in order, in the plane of the plot or in space, with the numbers of the scalars for its colour and the colours given, or else those of the scalars; 'zloc' colours by the coordinate out of the plane, and raises if there is none. Markers, if asked for, are at the vertices, with their own colours, else the colours given, else those of the vertices; their map of colours and its limits are their own or those of the lines; otherwise the limits of the axes are set from the vertices. Two plots with the same options for markers do not affect each other. scatter_2d and scatter_3d colour points in the same way. plot draws one-dimensional fields as lines, two-dimensional ones as planes, on a map for spherical coordinates unless forced, and raises for all others.", "quantifier": "all lines with any scalars and colours, all planes, all dictionaries of options, all fields", "why_tests_cant": "lines, colours and dictionaries are unbounded; the effect on dictionaries is seen only by the next plot", "anchors": ["viscid/plot/vpyplot.py: plot", "viscid/plot/vpyplot.py: plot2d_lines", "viscid/plot/vpyplot.py: plot3d_lines", "viscid/plot/vpyplot.py: scatter_2d", "viscid/plot/vpyplot.py: scatter_3d"]}
{"id": "C260", "title": "The picture of Earth is put on the sphere where it belongs", "statement": "vlab.plot_blue_marble puts every place of the picture of Earth on the sphere of the radius asked for, at its latitude and longitude, up to a distance of 1e-4 radii at the poles. Each style, with or without lines, in each of the four resolutions has its own picture, which exists; anything else raises AssertionError. Earth is then turned by the rotation of a transformation, of a time, or by an angle and an axis that are given.", "quantifier": "all radii, all places of the picture, all styles and resolutions, all rotations", "why_tests_cant": "a continuum of places and radii", "anchors": ["viscid/plot/vlab.py: plot_blue_marble", "viscid/plot/vlab.py: _apply_rotation"]}
{"id": "C261", "title": "Handles of Fortran files read their own files, whatever threads do", "statement": "Through a FortranFile (the file of an OpenGGCM run-length or Fortran binary reader) that is open one reads its own file, at every point of every interleaving of threads that open and close files; open handles have different units, and files of other programs stay connected. A file is opened at the first free unit from 10 to 10000, except 100 to 102; a with statement leaves all as it was before. A file that Fortran cannot open raises RuntimeError and stays closed, with the lock released. A with inside a with of the same file leaves it open in the outer one, and two handles of one file do not disturb each other.", "quantifier": "all numbers of handles, all names, all schedules of steps of opening and closing, all units in use by others, all errors of Fortran", "why_tests_cant": "schedules of threads are unbounded, and a collision needs a switch between two statements", "anchors": ["viscid/readers/_fortfile_wrapper.py: FortranFile", "viscid/readers/_fortfile.F90: fopen", "viscid/readers/_fortfile.F90: freefileunit"]}
{"id": "C262", "title": "Messages of the logger are shown whole, in lines of 65 characters below their label", "statement": "A message that is logged is shown behind the name of its level, with all its letters in order, in lines of at most 65 characters that start below each other; words of up to 65 characters are not broken. A message that has lines of its own keeps them. What is put in for a %s is shown in the same way, and longer words, such as the path of a file, are shown so that they can be copied.", "quantifier": "all levels, all messages, all arguments, all ways in which words may be broken at hyphens", "why_tests_cant": "the texts are unbounded, with paths and errors from outside in them; where a line ends depends on all before", "anchors": ["viscid/__init__.py: _CustomFilter.filter", "viscid/__init__.py: logger"]}
{"id": "C263", "title": "The ionosphere in OpenGGCM's binary files is on the whole sphere, with every value at its place", "statement": "Opening an ionosphere file in OpenGGCM's binary format, or a series of them, gives nodes at equal steps of longitude from 0 to 360 degrees and of colatitude from 0 to 180, as many as the fields have values along each, and every field has at node (i, j) the value that its file has for longitude i and colatitude j. Files without such fields are refused.", "quantifier": "all sizes, all numbers of fields, all values, both endiannesses, all series of files", "why_tests_cant": "an exchange of the axes shows only where the sizes and the values differ, and a file may have fields of any size", "anchors": ["viscid/readers/openggcm.py: GGCMFileFortran.make_crds", "viscid/readers/ggcm_fortbin.py: GGCMFileFortbinIono", "viscid/field.py: Field._xyz_src_data", "viscid/field.py: Field._reshape_ndarray_to_crds"]}
{"id": "C264", "title": "Memory of contiguous and converted fields", "statement": "as_c_contiguous returns a Field, never a number, with the shape and values of the field, whose elements follow one another in memory with the last axis fastest. It returns the field itself if its data has this order already, and else a copy that shares nothing with the field. Data that was not in memory before is not kept in memory beside a copy. Fields that as_flat and as_interlaced return have the values that the field had when they were called.", "quantifier": "every field, loaded or not, made from arrays with any number of axes, sizes (also 0 and 1), offsets and strides (also negative), from files in either order of axes, or by conversion; every index and every value that is written", "why_tests_cant": "The order in memory depends on sizes, strides and on how the data came into memory; sharing shows only if one writes at the right time.", "anchors": ["viscid/field.py: Field.as_c_contiguous", "viscid/field.py: VectorField.as_layout", "viscid/field.py: Field.wrap", "viscid/field.py: Field.data", "viscid/field.py: Field.clear_cache"]}
{"id": "C265", "title": "Information elements of XDMF files", "statement": "get_info of a grid, dataset or field read from an XDMF file has exactly the names of the Information elements that are directly in its element. The value is what the last of them with the name says: its Value, the data of its DataItem, or its text. An AMR grid has an info of its own.", "quantifier": "every element with any Information elements, nested to any depth, with or without Name and Value; every content of DataItems; every name and value that is set later", "why_tests_cant": "Which element counts depends on nesting, order and repetition in the file; the samples have no Information elements with data, and sharing shows only if infos are set.", "anchors": ["viscid/readers/xdmf.py: FileXDMF._parse_information", "viscid/readers/xdmf.py: FileXDMF._inject_info", "viscid/readers/xdmf.py: FileXDMF._fill_attrs", "viscid/amr_grid.py: AMRGrid.__init__", "viscid/tree.py: Node.set_info", "viscid/tree.py: Node.get_info"]}
{"id": "C266", "title": "What is written to a field stays there", "statement": "An element of a field is what was last written to it, whatever else is read, written, cleared or forgotten in between: clear_cache, forget_source and the end of a with-block do not change values. rewrap_field gives a field with the values and the time of the other; whatever is done with one of them, the other keeps its values.", "quantifier": "every scalar field, from arrays with any strides or from files, with or without copy and zyx_native; every sequence of reads, writes, clear_cache and forget_source of any length", "why_tests_cant": "Whether a write survives depends on which of the source, its view and the cache is shared, and on the order of calls; each test makes one short sequence on one kind of field.", "anchors": ["viscid/field.py: rewrap_field", "viscid/field.py: Field.forget_source", "viscid/field.py: Field.clear_cache", "viscid/field.py: Field.data", "viscid/field.py: Field._xyz_src_data", "viscid/field.py: Field._dat_to_ndarray", "viscid/field.py: Field._reshape_ndarray_to_crds", "viscid/field.py: Field.set_slice", "viscid/field.py: Field.__exit__"]}
{"id": "C267", "title": "Parents of grids, fields and datasets", "statement": "A node has a parent at most once. Once it is added to a grid or dataset it has that parent; once it is removed it does not. What is done with one node changes the parents of that node only.", "quantifier": "every sequence, of any length, of nodes and AMR grids made, children added to and removed from grids and datasets, and fields centred anew", "why_tests_cant": "Sharing of lists shows only after further calls on one of the nodes that share; a test makes one tree and does not look at the parents of the patches afterwards.", "anchors": ["viscid/tree.py: Node.__init__", "viscid/tree.py: Node.prepare_child", "viscid/tree.py: Node.tear_down_child", "viscid/amr_grid.py: AMRGrid.__init__", "viscid/field.py: Field.__init__", "viscid/grid.py: Grid.__setitem__", "viscid/grid.py: Grid.__delitem__", "viscid/dataset.py: Dataset.add", "viscid/dataset.py: Dataset.remove_all_items"]}
{"id": "C268", "title": "Lists of handles given to a bucket", "statement": "Storing an item in a bucket under a list of handles does not change the caller's list, so that the same list, or a list made once, can be used again without effect on the items that were stored before.", "quantifier": "every bucket after every sequence of calls, every list of handles and every pair of items", "why_tests_cant": "The effect shows only if a list is used twice and depends on what the bucket held before; tests write lists as literals.", "anchors": ["viscid/bucket.py: Bucket.set_item", "viscid/bucket.py: Bucket.__setitem__"]}
{"id": "C269", "title": "Vector fields made of scalar fields", "statement": "The data of a field of scalar_fields_to_vector is that of its components at the time it is first used, and stays so whatever is done with the components afterwards. Using the vector field does not change the components.", "quantifier": "every number of components of any common shape, from arrays with any strides or from files, loaded or not, with or without copy and zyx_native; every later sequence of reads, writes, clear_cache and forget_source on a component", "why_tests_cant": "Which values are seen depends on when data is loaded and on what was written before; tests make the vector field from fresh components and do not look at these again.", "anchors": ["viscid/field.py: scalar_fields_to_vector", "viscid/field.py: Field._dat_to_ndarray", "viscid/field.py: Field.clear_cache"]}
{"id": "C270", "title": "Formatters and locators of the axes of a plot", "statement": "majorfmt, minorfmt, majorloc and minorloc of the 2D and line plots are set on each axis named in which_axes; an argument that is not given leaves what the axis had, \"steve\" names the formatter of that name (for formatters only), and axes that are not named are left alone. Order and repetition of names do not matter. A name that is no axis is an error that leaves the axes named before it changed.", "quantifier": "every previous state of the two axes, every value of the four arguments and every string of axis names of any length", "why_tests_cant": "Tests use at most one formatter with the default axes and compare pictures by eye; they do not combine arguments with axis names.", "anchors": ["viscid/plot/vpyplot.py: _apply_axfmt"]}
{"id": "C271", "title": "Data on the mesh of a sphere", "statement": "wrap_mesh of a Sphere gives the vertices of its mesh and, for each array, a mesh of the same layout and of the type of the array, in the order of the arrays. Each seed has its own value in every array, and a pole that was left out of the seeds has the mean of the ring next to it.", "quantifier": "every grid of seeds, layout, combination of poles left out and seam, fill_holes given or not, and every list of arrays of floats, integers or truth values", "why_tests_cant": "Tests use one array of floats on one sphere; the other types, layouts and combinations of poles are not met there.", "anchors": ["viscid/seed.py: SeedGen.wrap_mesh", "viscid/seed.py: Sphere.as_mesh", "viscid/seed.py: Sphere.arr2mesh"]}
