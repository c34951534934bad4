{
"C01": {
"note": "chunk_slices and chunk_list; zero chunks raises (C01_zero_chunks)."
},
"C02": {
"note": "chunk_sizes vs chunk_slices and chunk_interslices."
},
"C03": {
"note": "Order of results of the process pool's map is assumed (trusted)."
},
"C04": {
"note": "Violated: the code computes nchunks from itself, ignoring size. C04_size_violated is the witness; C04_size_partial says what holds."
},
"C05": {
"note": "Invariant over every sequence of operations, failing ones included."
},
"C06": {
"note": "Refinement to a handle->item map for items compared by identity; last-set-wins for arbitrary item keys. C06_values_can_be_stale records a finding."
},
"C07": {
"note": ""
},
"C08": {
"note": "Breadth-first order characterised exactly; get_all_info and update_info included; cyclic graphs allowed."
},
"C09": {
"note": "Violated: the condition reads an unbound variable, so every successful search raises NameError. The not-found part is proved."
},
"C60": {
"note": "Violated: datetime and timedelta values are computed but never stored. Numbers are stored."
},
"C10": {
"note": "Every nonempty record of at most 64 values in the writer's character range."
},
"C11": {
"note": "Over the reals; single-precision rounding and header formatting not modelled. C11_zero_not_preserved records that exact zeros are not preserved."
},
"C12": {
"note": "Violated: a run of more than 64 values can overrun the buffer, undetected changes by multiples of 92 exist, and the header count is trusted. What is guaranteed is proved in the _partial theorems."
},
"C13": {
"note": "Every history of operations on the wrapper, including re-inquiry, reads and reopen."
},
"C14": {
"note": "Sound and accepting outside three named cases; violated for explicit start == L with negative step, empty slices, and negative integer indices of reversed axes."
},
"C15": {
"note": "Single value: nearest point (all axes). Slices: exact set of selected points outside the two named edges; violated when stop lies within tol below the first coordinate, and on one-point axes the tolerance is 1. Without val_endpoint the last enclosed point is dropped."
},
"C16": {
"note": "Shape proved for every accepted selection (with an Ellipsis: when there are no more selections than axes); exact result and rejection proved for unnamed selections; two ellipses rejected. Violated: too many entries with an Ellipsis and a named newaxis is accepted with a wrong result."
},
"C17": {
"note": "Over exact rationals; rounding not modelled."
},
"C18": {
"note": "Over exact rationals. At or above the last coordinate nonuniform axes give n-1, uniform axes n-2 (the docstring promises n-2 for both)."
},
"C19": {
"note": "Over exact rationals."
},
"C61": {
"note": "Proved when all patches have the same shape; violated otherwise (search starts at an index outside the smaller patch's arrays, with bounds checks off)."
},
"C20": {
"note": "Neighbour relation, symmetry, masks and the capacity of 48 fully proved; only the documented meaning of the axis bits (x = 0b100) is violated: x is 0b001."
},
"C21": {
"note": "Containment, uniqueness and histories proved for all inputs; nearest centre proved when some centre is closer than sqrt(1e37), violated beyond."
},
"C22": {
"note": "sum, prod, any, all, min, max proved; mean only for equal patch sizes; mean and ptp violated."
},
"C62": {
"note": "Proved when patches do not have exactly one cell; violated for one-cell patches."
},
"C23": {
"note": "Any integrator, any ordered field; every line is a block of written points containing the seed. Buffer writes proved in bounds."
},
"C24": {
"note": "At most maxit steps per direction for any integrator; the retry loop of the adaptive methods ends within a number of passes that depends only on the step and the floor."
},
"C25": {
"note": "Sign, ceiling, strictly smaller retries and the floor after a too-large error proved; the floor is violated after accepted steps, without any lower bound."
},
"C26": {
"note": "All rooted-tree order conditions up to the advertised orders; exact on constant fields; zero fields reported. The convergence theorem behind order conditions is not formalised."
},
"C27": {
"note": "max_length: exact for fixed-step methods without max_t (arc length proved for euler1). Violated: dt accumulates so travel time is counted more than once; adaptive methods add the wrong length."
},
"C28": {
"note": "Exact classification for every point."
},
"C29": {
"note": "Topology proved for lines traced both ways; violated when only one direction is traced. Colours proved."
},
"C57": {
"note": "The lock is free again after successful calls and after argument errors; an error during tracing blocks every later call (violated)."
},
"C30": {
"note": "For texts whose strings have no escaped quote and no comma before a bracket: exactly the tokens outside comments minus trailing commas. json.loads itself is not modelled. Violated: commas inside strings, escaped quotes before a marker, apostrophes before a comment."
},
"C31": {
"note": "div(curl) = 0 for every field, curl(grad) = 0 for cell-centred ones; partial because grad of a node-centred field raises, see C32."
},
"C32": {
"note": "grad, div and curl exact on affine fields at every point, boundary included. Violated for node-centred scalar fields: grad allocates a cell-centred result and raises ValueError (C32_grad_node_violated)."
},
"C34": {
"note": "Interior, order 0, order 1, component axis, unknown order. Violated for the default axes='all', which raises TypeError for every array (C34_default_axes_violated)."
},
"C63": {
"note": "Boundary points included."
},
"C33": {
"note": "Violated: cycalc.closest_ind is not visible from Python, so the at_point functions always raise (C33_at_point_violated). If it were, Jacobian and divergence would be exact (partial) and curl wrong (C33_curl_violated). jacobian_at_ind is proved exact."
},
"C35": {
"note": "Full statement proved for axes with different end coordinates; on an axis of one point the means are nan (C35_one_point_axis_violated)."
},
"C64": {
"note": "Violated in the corners, for clusters that wind around more than once, and for multiple=False."
},
"C42": {
"note": "Scalar fields proved; dot proved for lines without repeated vertices (nan otherwise); mag holds for the first line only and is wrong or raises for later ones; an empty first line raises."
},
"C36": {
"note": "Violated on every axis of nonzero length (division by n instead of n - 1) and for one-node axes; node extents and cell counts proved."
},
"C37": {
"note": "Proved when cell centres are derived; explicitly given centres are not reflected (C37_given_centres_violated)."
},
"C65": {
"note": "Holds for full arrays of at least three equally spaced nodes; violated for uniform coordinates, unequal spacing, one and two nodes."
},
"C66": {
"note": "Node centring proved; cell centring proved for step one and nonnegative start (any stop) and for nonnegative kept indices and -1; violated for negative starts, bounded backward slices, strides, kept indices below -1, and the recorded location."
},
"C38": {
"note": "Time order, ties, iteration, index, get_times by slices of ints and nearest-time lookup are proved for all histories; fails when every time is a Python int (get_child by time raises)."
},
"C39": {
"note": "Violated: index 0, negative indices, float times, times outside the range are retrievable but not members. Proved: indices 1..n-1 agree, membership implies retrieval, a time string is a member iff in the time range."
},
"C40": {
"note": "Proved for every class hierarchy, accept predicate, priority and preference. Regex matching is a parameter."
},
"C67": {
"note": "Violated for every dataset and item: children is a list of tuples, so the membership test of __getitem__ never succeeds."
},
"C41": {
"note": "Divergence theorem proved for all leading fields with >= 2 cells per axis and all raw OpenGGCM face fields with >= 3; constants reproduced. Violated (nan everywhere) when an axis has one cell, i.e. for every 2-D field."
},
"C68": {
"note": "Proved for leading fields and raw fields (any flip; edges need equal staggering). Violated: edge fields with different staggering per axis, raw fields with a single-cell axis raise, padded shape is one too large for non-OpenGGCM fields."
},
"C43": {
"note": "quat2rot, quatmul, quat_rotate, rot2quat over the reals, single values; rot2quat as a relation over every eigenvector the solver may return."
},
"C44": {
"note": "All twelve orders, degrees and radians, all eight conversion functions. Partial: middle angles strictly within 1e-10 of the singularity are treated as singular, so the matrix is not exactly reproduced (proved by a witness)."
},
"C59": {
"note": "Proper rotation for all nonzero pairs; maps exactly unless the directions are within 1e-8 of (anti)parallel without being so, where the error is at most 2e-8 (proved) and not zero (witness)."
},
"C69": {
"note": "Holds for quick=True, exact half turns and identity included; violated for quick=False, which calls eigh on a matrix that is not symmetric. A matrix with an antisymmetric part in (0, 1e-8] is not covered."
},
"C70": {
"note": "Violated when the unrolled image of x is exactly opposite to new_x: np.sign(0) makes the roll zero."
},
"C71": {
"note": "Proved for non-collinear points outside the C70 case; violated for great_circle((-1,0,0),(0,-1,0)), which starts at (1,0,0), and for collinear points not perpendicular to y."
},
"C45": {
"note": "All names, times and call histories; rdim=3. The caches (including the scalar ones) are modelled and proved to be invisible, also after exceptions."
},
"C46": {
"note": "For objects whose angles follow from the time; the moment in SM for all objects."
},
"C47": {
"note": "Violated for every nonzero moment: the returned object has the opposite moment (proved, for gse and mhd). dip_tilt and dip_gsm describe the axis, which is opposite to the moment."
},
"C72": {
"note": "Violated at every ordinary time: the latitude is 90 - arcsin(|(g11,h11)|/|g10|), it should be arctan. Proved: interpolation, longitude and hemisphere."
},
"C73": {
"note": "Violated at midnight (the default time of Cotr): 1967-01-01T00:00 is 1966.99925 in datetime64_as_years, outside of the tolerance of 0.0006 years. Proved for a window from about 01:19 to 11:50."
},
"C48": {
"note": "For every Cotr (time or orientation), system, history, point off the axis and off the magnetic equator and 0 < r <= L: distance r, same L-shell, half plane and hemisphere; own distance gives the point back; as_spherical gives the same point with angles in [0,180] and [0,360). On the equator it is violated: np.sign(0) = 0, so the point is moved along its radius and leaves its field line."
},
"C49": {
"note": "Radians: both compositions proved (origin, and the poles where phi is undefined, excluded). Degrees: sph2cart proved; violated for cart2sph (it converts its copied input, not the result, so deg has no effect) and hence for cart2latlon in degrees, the default. In radians cart2latlon returns longitudes in (-2pi, 0]: positive ones come back lowered by 2pi (violated, and proved exactly)."
},
"C52": {
"note": "Proved for one point (as a (3,) or (1,3) array). Violated for every other number of points: N x 3 arrays raise ValueError unless N = 3, when the columns are mixed up."
},
"C74": {
"note": "Violated: results are stored in an array of the type of the input, hence truncated; with deg=True it raises."
},
"C50": {
"note": "Plane.__init__, to_3d and to_local over the reals, for directions that are not parallel (for parallel ones see C75): axes are orthonormal, N is the normal direction, and to_local inverts to_3d."
},
"C51": {
"note": "Grids of seeds (Volume, Plane, Sphere): get_points, iter_points and the uv / mesh layout agree on C order for all sizes; a Volume without a dimension of size 1 has no uv shape (RuntimeError)."
},
"C75": {
"note": "Disagreement: the normalised direction of parallel vectors is nan and nan is not allclose to 0, so the check never fires; no pair of directions raises."
},
"C76": {
"note": "Proved for every array; to_seeds documents N x 3 arrays, and a 3 x 3 array is read as 3 x N (its columns)."
},
"C77": {
"note": "Over the reals. Angles from the pole are exact if the pole is along +-z or at least 1e-8 from it (limit of a2b_rot, see C59); for every other pole they are proved up to 2e-8 of the radius (C77_angle_close, C77_circle_close), and for poles in the y-z plane that close to z the exact claim is refuted (C77_angle_violated). Distances and distinctness need no such condition. 'auto' end points."
},
"C78": {
"note": "Layout proved for all sizes. The points added at the poles are right for limits in increasing order; for thetalim=(180, 0) the opposite pole is added."
},
"C79": {
"note": "Proved for angles from 0 to 90 degrees. Disagreement: angles beyond 90 degrees, e.g. (180, 45), pass the check and seeds are nan."
},
"C80": {
"note": "Over the reals, all n >= 2."
},
"C81": {
"note": "scipy's splprep/splev is a parameter. Disagreement: a user given degree k is popped from the options by the first call, and later calls use the default degree."
},
"C53": {
"note": "Candidates: proved for every field and grid. Faces: proved for the YZ and ZX faces. Disagreement: in the table of offsets corner d of both XY faces is corner b again, so the interpolant is wrong there."
},
"C54": {
"note": "Over the reals; comparisons with nan or infinite y are false, as in numpy."
},
"C82": {
"note": "Proved if the first function depends on y at the root. Disagreement: otherwise y is 0/0 and the root is dropped, e.g. x = 1/2 and y = 1/2."
},
"C83": {
"note": "Disagreement: with no candidates or no nulls the empty index arrays have float elements, and find_nulls raises ValueError or IndexError."
},
"C84": {
"note": "Disagreement: (x, y, z) - 1/2 on a single cell: the only null is in the middle of the cell and is not found. No positive theorem: completeness of the face parity test does not hold with the defects of C53 and C82."
},
"C85": {
"note": "The eigenvalues themselves (numpy.linalg.eig) are a parameter. Degenerate nulls are reported as O (one vanishing eigenvalue) or dropped with a message."
},
"C55": {
"note": "All shapes and numbers of components. Disagreement: if every axis of the grid has as many points as there are components (e.g. 3 x 3 x 3), interlaced arrays are taken as flat and converting back mixes components; everything else is proved."
},
"C86": {
"note": "Disagreement: asked for the layout the field has with force_c_contiguous=False, as_layout returns None."
},
"C87": {
"note": "Disagreement: nr_comp stays cached when the layout is set, and reading the data raises ValueError if the data or shape was read before."
},
"C88": {
"note": "Disagreement: sshape2 is computed from the data's own shape, so one of the earlier cases always applies and 'other' is never returned."
},
"C89": {
"note": "For nonnegative axes. The layout of the result is detected from its shape, see C55."
},
"C56": {
"note": "For arbitrary fields, getters, post-processors and evaluators; recursion depth is the fuel. An equation's symbols are looked up with the selection and its result is not sliced again. Text names only."
},
"C58": {
"note": "All lines, including those with one or no vertex."
},
"C90": {
"note": "Disagreement: _get_b asks for bx, whose getter asks for b, so that unless b or all of bx, by, bz are stored the lookup exceeds the recursion limit and the face-centred fall-back is never reached. Proved for every recursion limit. The electric field is right."
},
"C91": {
"note": "Disagreement: the same for v, vx, vy, vz (and b). Proved for names nobody computes and for computed names off the loops."
},
"C92": {
"note": "Colours per line for numbers of lines other than 3 and 4 (square arrays are ambiguous)."
},
"C93": {
"note": "Disagreement: always ValueError with more than 4 vertices, because the array is transposed the wrong way."
},
"C94": {
"note": "Disagreement: numbers from 255.5 up to 256 become 0."
},
"C95": {
"note": "Disagreement: TypeError, since the entries of the tuple are assigned to. Proved for lists."
},
"C96": {
"note": "Proved: what loading gives (storage order, mirrored axes), equality of both paths and acceptance for scalar fields and vector fields stored z first. Violated: vector fields stored x first (the component's entry is inserted twice into the same list: IndexError for every selection), data sets lacking a trailing axis of length 1 (IndexError), an index one past the end of a reflected axis (a value instead of IndexError)."
},
"C97": {
"note": "Proved for all maps, checks and depths over exact rationals; max_depth=0 returns a list with an empty string (C97_max_depth_zero_violated)."
},
"C98": {
"note": "Every chain of quarters that pass the check is found; the search ends for positive max_depth. Violated: regions the walks do not touch are missed, and a negative max_depth never ends."
},
"C99": {
"note": "Windows, their minimal size and location proved for grids that are not periodic. Violated: windows grow by one point per iteration, not by a factor of two; max_depth=0 raises. Missing: periodic axes."
},
"C100": {
"note": "Violated: item assignment to a tuple (TypeError) for every sphere that reaches a pole; IndexError for spheres that do not span phi. Proved for other seeds with at least 11 points per direction."
},
"C101": {
"note": "Shape of the lines proved for every outcome of the searches. Violated: only one null raises ValueError, and nothing bounds the loop."
},
"C102": {
"note": "Violated: the file name has only directory, run and rounded time, and cache=False still reads the file. Proved for histories whose calls agree whenever they share a file."
},
"C103": {
"note": "Proved for units as..W and any numpy that refuses factors beyond 64 bits: whenever as many times come back as went in, they are all in one unit, rounded down, in the finest unit possible, and nothing overflows silently (C103_one_unit_partial); otherwise no unit will do (C103_short_only_if_blocked). Violated then: the code does not raise but returns a list without the offending time, IndexError for single times. Months and years not modelled."
},
"C104": {
"note": "Violated: values are rounded down (1999 ms -> 1 s). Proved: coarser times untouched, others rounded down, allow0=False semantics, PrecisionError only for times between 0 and one unit."
},
"C105": {
"note": "Violated: both operands fit into the common unit but the sum/difference may wrap around, and most_precise=True makes that likely (2200 minus 1700 is negative). Proved: exact whenever the result fits."
},
"C106": {
"note": "Violated: the test for integers has a relative tolerance of 1e-4, so 7200.25 s becomes 7200 s and every time above 5000 s loses its fraction (also in timedelta_as_seconds); days are refused. Proved: result is the nearest integer in the coarsest unit within 0.01 %, integers are exact, errors characterised."
},
"C107": {
"note": "Violated: '-1:30' is -30 s; unit ignored for strings. Proved: the fields are weighted 3600, 60, 1, for every float(); everything else refused."
},
"C108": {
"note": "Violated: a fraction of hours or minutes becomes the next field ('2010:06:21:12.5' is 12:05), and arrays are returned unconverted. Proved for all the documented formats."
},
"C109": {
"note": "Violated: 'hms' drops whole days (the documentation's own example), '1 day' lacks a blank, times before 1970 are off by a day. Proved for the first day ('hms'), for all days but the second from 1970 on ('dhms'), and the seconds in parentheses."
},
"C110": {
"note": "Violated: fractions that round up lose the carry (59.96 -> 59.0); dates without separators are rewritten as fractions. Proved for formats whose texts have no six digits in a row or a digit before %f, and no carry; for every correct rounding."
},
"C111": {
"note": "Violated for dates: the times pass through doubles in ns, so ends are off by up to 128 ns. Proved below 2^53 units. Only the conversion of the ends to doubles is rounded in the model."
},
"C112": {
"note": "Bound of 0.05 s + 0.01 % of t, exact for whole seconds. Violated: a leading blank is not stripped; base times of one run differ when t has a fraction and exceeds 5000 s."
},
"C113": {
"note": "Full: partition, order of groups and files, errors."
},
"C114": {
"note": "Nearest of seven directories. Violated: max_depth is overwritten (openggcm.py:55) and not passed on."
},
"C115": {
"note": "Holds when the grid knows about its log file. Violated: KeyError without _viscid_log_fname even for False; requests starting with 'auto' are never refused."
},
"C116": {
"note": "Exact for even spacing and for the first and last cell; centres stay inside their cells. Violated for stretched grids; one cell raises IndexError."
},
"C117": {
"note": "Holds for True and False. Violated: strings such as 'auto' and 'false' are true for the plane, so its sign changes although the grid is not turned."
},
"C118": {
"note": "Text up to eval; ASCII words only. The numexpr path and eval itself are not modelled."
},
"C119": {
"note": "Proved for equations of fields, calls, numbers and operators without quotes. Violated: the exponent of '2.e3', keyword arguments and names in double quotes are taken for fields; a field hides the function of the same name; fields with two underscores in a row cannot be named."
},
"C120": {
"note": "Proved for files whose views of watched classes end with a blank line and whose MHD type, if any, is an integer. Violated: without a blank line parameters are recorded under the previous class; a file cut off within the heading of a view raises StopIteration. Taking lines apart (_parse_param, _parse_value, regular expressions) is a parameter."
},
"C121": {
"note": "Proved for types that are natural numbers, and for logs without a type. Violated: negative numbers count from the end (-1 is MT_GKEYLL); a type that is no integer raises TypeError. Which values are integers is a parameter."
},
"C122": {
"note": "Proved if no text is found in a string of names except as a single character. Without that it fails (C122_substring_violated): names are looked for as substrings, so 'yz' is the second component and a trailing comma the first, and a scalar field raises AssertionError."
},
"C123": {
"note": "Proved for text without '@' and underscores within parts. Otherwise names of axes are split at underscores, and '@' becomes a comma (C123_underscore_violated)."
},
"C124": {
"note": "Proved with the parsers of numbers as parameters and without times and arrays, up to a step of None being 1. Empty text raises IndexError, and the step of text stays None (C124_empty_violated)."
},
"C125": {
"note": "Proved for steps of one and minus one and coordinates on the axis. Larger steps raise RuntimeError although enclosing points exist, and coordinates off the axis raise RuntimeError or IndexError (C125_step_violated)."
},
"C126": {
"note": "Proved for coordinates and open ends with a step. An open end without a step raises TypeError, and the stop index reports the point after the last one selected or raises IndexError (C126_ends_violated)."
},
"C127": {
"note": "Proved for fields with two axes in the order of xyz, for every size, spacing and field, over any field of numbers. With axes in another order the result is no flux function (C127_order_violated); with three axes of more than one point IndexError is raised (C127_third_violated). Rounding is not modelled."
},
"C128": {
"note": "The code divides by |B| instead of B^2: it is the beta times |B| (C128_magnitude_partial), right only where |B| is one or there is no pressure (C128_beta_partial) and wrong everywhere else (C128_beta_violated)."
},
"C129": {
"note": "Proved for scalar fields, and for interlaced vector fields with fewer items than axes. An item for each axis of a vector field raises IndexError (C129_interlaced_violated, C129_flat_violated); if components come first, items go to the axis after theirs (C129_flat_violated); lists are overwritten (C129_list_violated). Texts, arrays and times as items are not modelled."
},
"C130": {
"note": "All matches are proved (C130_all, C130_parts, C130_name). For the first match only: what is found is the first of all (C130_first_partial) and it is found if all but the last part are names (C130_last_partial), but in general it may be missed since only the first name matching a part is looked into (C130_first_violated). fnmatch is a parameter."
},
"C131": {
"note": "Proved for all codes and names. Codes of seven digits are accepted with any rgba code beside them, and those of five or seven digits raise NotImplementedError otherwise (C131_digits_violated). The colours of names are a parameter (matplotlib)."
},
"C132": {
"note": "For numbers and flat sequences of numbers, or fields."
},
"C133": {
"note": "The steps, their times, seeds and fields are proved for any number of steps, both directions, and the defaults. Violated: nothing is returned, though the points are documented to be (C133_return_violated); with equal start and stop and one grid the loop never ends (C133_endless_violated). Rounding of times is not modelled."
},
"C134": {
"note": "Proved: the two grids are the ones before and after, and the last one after the end. Violated: the weights are swapped, so the field goes backward between two times and at the time of a grid is that of the one before (C134_swapped_violated); on the line only halfway or where both are the same."
},
"C135": {
"note": "Violated for continuous curators: seeds out of bounds stay until new ones are added, nothing is ever added going backward in time, and with a cadence of dt they are added every second step (C135_continuous_violated); and for replacement curators without originals, which are then the seeds after the first step (C135_original_violated)."
},
"C136": {
"note": "Relative to np.linalg.eig (a parameter: pairs of eigenvalues and unit eigenvectors that span; shown to exist for all symmetric matrices). The eigenvectors are columns; 'evecs[0, :]' in the docstring is a row. Rounding is not modelled."
},
"C137": {
"note": "Violated for a basis that is parallel the other way round (minus n) or zero: that is not noticed, and l and m are nan (C137_antiparallel_violated). As the sign of an eigenvector is arbitrary, whether the basis (0, 0, 1) works for a normal along z is left to chance."
},
"C138": {
"note": "Tangents are derivatives (HasDerivAt) of the modelled paraboloid."
},
"C139": {
"note": "Without a mask (maskval=None); masked arrays are not modelled."
},
"C140": {
"note": "Violated: the field on the side of the magnetosphere is taken six points from the sheath edge instead of the sphere edge (C140_shear_violated); right only if the edges are the same."
},
"C141": {
"note": "Proved for scalars, for vectors with components last, and for those with components first if phi is the first axis; for the round trip in the usual orders. Vectors with components first and theta as the first axis have their components reversed instead of their data (C141_flat_violated); fields in radians are taken for degrees if no units are asked for (C141_radians_violated); units given as a tuple are a TypeError (C141_tuple_violated). Rounding, cell-centred fields and more than two axes are not modelled."
},
"C142": {
"note": "Proved for arrays of floats with two axes and hemispheres north and south. Points that are whole numbers stay whole in radians (C142_whole_violated); hemispheres that do not exist are the south (C142_hemisphere_violated). Rounding is not modelled."
},
"C143": {
"note": "Proved for scalars that pass the check, and for make_periodic with coordinates that are not uniform. The check for values compares latitudes with angles from the pole: fields that do not have the pole are a ValueError by default (C143_default_violated), and some others are too (C143_check_violated); 40 degrees are never the default (C143_sphere_violated); vectors are an IndexError (C143_vector_violated); uniform longitudes do not become periodic (C143_uniform_violated). The tolerance of selections and rounding are not modelled."
},
"C144": {
"note": "Slices by value are proved without a step, for more than one file and numbers that differ. False of the code (proved): slices with a step but no stop (`[::2]`, and the second example of the documentation) are not recognised as slices and are left to glob; slices with negative steps come in increasing order; the third example of the documentation, `[20j:2]`, is one file instead of two; `[]` is an IndexError."
},
"C145": {
"note": "Proved for readers that group no files, as long as nothing fails to be read. False of the code otherwise (proved): another selection of a time series that is loaded already gives the files loaded before, as both have the same collective name; after an IOError, None is kept under the name, and later loads give None even if the file can be read by then."
},
"C146": {
"note": "Proved of membership in the bucket, for children without children of their own, that users do not load themselves. False of the code (proved): remove_item of a file with one reference is a KeyError; unloading a file twice takes references of others; a shared child is emptied, though it stays; a child that a user loaded, too, is removed or emptied; unload_all_files is an AttributeError if a file failed to load, and leaves the contents of files that have children; a child that has children itself is a RuntimeError."
},
"C147": {
"note": "Proved for less than 128 variables in big endian files and less than 1000 in little endian ones. False of the code otherwise (proved): the endianness is guessed from the number of variables as a signed little endian number, so big endian files with 128 to 255 variables are read as little endian ones, and little endian files with 1000 or more as big endian ones."
},
"C148": {
"note": "Proved for files in which uniform grids have their own topology, geometry and at least one field, and collections have no geometry (C148_read_partial). Violated: topology and geometry of a collection are never inherited, the grids are dropped (C148_shared_violated), and if one of them has its own the file cannot be read (C148_both_violated); unsupported grids in the Domain and unknown collections are AttributeErrors (C148_ignored_violated, C148_collection_violated); grids without fields are lost (C148_nofields_violated); nested spatial collections (C148_nested_violated)."
},
"C149": {
"note": "Proved for single times, none within something that has a time already, and children of series with a time (C149_times_partial). Violated: times of a list or of start and step are never used (C149_list_violated, C149_list_zero_violated); the time of a grid in a collection with a time is never looked at (C149_inner_violated, C149_inner_one_violated); a snapshot of one patch with its own time is filed at time 0 (C149_patch_violated). Refused times: C149_refused, C149_refused_series."
},
"C150": {
"note": "Proved for fields at time 0 with the same coordinates and names the file does not use itself (C150_roundtrip_partial), and for files of plain arrays (C150_plain). Violated: times are lost (C150_time_violated); coordinates of all fields but the first are not saved (C150_crds_violated); a field with the name of an axis or of an array of names makes a file that cannot be loaded (C150_axis_violated, C150_reserved_violated); a field called file cannot be saved (C150_file_violated); of fields with the same name only the last is saved (C150_duplicate_violated)."
},
"C151": {
"note": "Proved: X_Y_Z arrays on rectangles exactly (C151_arrays, an equivalence), VXVYVZ with capital V (C151_varrays_partial), origin and spacing in three dimensions (C151_origin), evenly spaced arrays on uniform grids (C151_even_partial), clearly uneven ones refused (C151_uneven_refused), other topologies refused (C151_refused), exceptions of data items (C151_item_errors), Dimensions of spheres (C151_sphere_dims). Violated: names vx, vy, vz (C151_smallv_violated); uneven arrays on a scale below 1e-8 are silently replaced (C151_uneven_violated, the default atol of allclose); two-dimensional grids (C151_plane_violated); NumberOfElements (C151_elements_violated); points on spheres and rectangles given by points are not used (C151_sphere_violated, C151_points_violated); unknown geometries are ignored (C151_unknown_violated)."
},
"C152": {
"note": "Proved: number and nodes of the blocks by number of file (C152_block), existence and uniqueness of block and cell (C152_tiles). Over the rationals; np.linspace without rounding."
},
"C153": {
"note": "Proved: names and numbers of the fields (C153_names, C153_sets), the bytes of every cell (C153_data), truncated files (C153_short), foreign files (C153_foreign). Violated: integers (the materials) are read as floats (C153_material_violated); variables with more than fourteen components are an IndexError for the whole run (C153_many_violated); files of another shape are read if the number of cells is the same (C153_shape_violated)."
},
"C154": {
"note": "Proved for directories of steps and names without a number after a dot (C154_times_partial). Violated by copies of a directory, which give a step twice (C154_copies_violated), and by any other name with a number after a dot, which gives a time without data (C154_other_violated)."
},
"C155": {
"note": "Proved: scalar fields (C155_scalar), one component read as scalar field (C155_single), components that come first in the file (saved interlaced; C155_interlaced), components that come last in the file with three axes unless all sizes equal the number of components (C155_flat_partial). Violated: if they are equal the components are mixed up with the points (C155_cube_violated); with fewer than three axes reading is a ValueError (C155_plane_violated)."
},
"C156": {
"note": "Proved for fields with different safe names on the same coordinates at the same time (C156_round_trip_partial; a missing axis becomes one with a single point, one-component vectors become scalars). Violated: axes are renamed and only coordinates and time of the first field are kept (C156_first_violated), no time (C156_time_violated), names with colons (C156_colon_violated), with <, & or quotes (C156_xml_violated), ending with blanks (C156_blank_violated), duplicates (C156_duplicate_violated), a field with a single value (C156_single_violated), more than three axes (C156_axes_violated)."
},
"C157": {
"note": "Proved: sizes, names and ends (C157_ends), arrays that are kept (C157_arrays), evenly spaced arrays are unchanged (C157_even), replaced ones are within the tolerance (C157_close_partial). Violated: uneven arrays of small numbers are replaced (C157_small_violated); the absolute tolerance of 1e-8 does not scale, uneven axes are dropped if uniform coordinates are asked for (C157_uniform_violated), axes beyond the names are dropped (C157_many_violated), an empty array is an IndexError (C157_empty_violated)."
},
"C158": {
"note": "Proved: scalar arrays (C158_scalar), components last or first with conditions (C158_interlaced_partial, C158_flat_partial), other shapes (C158_refused), dat2field (C158_dat2field, C158_dat2field_flat_partial, C158_dat2field_errors), full (C158_full), full_like (C158_full_like). Violated: with as many points along each axis as components, components that come last are taken to come first, although the caller asked for interlaced (C158_cube_violated, C158_full_layout_violated); flat arrays whose sizes go up by one are taken for cell centred interlaced ones (C158_dat2field_flat_violated); the documentation of full says integers are the shape, but the default centering gives one point less along each axis (C158_full_shape_violated)."
},
"C159": {
"note": "Proved: two scalar fields (C159_scalar), a field and a number (C159_number), vector fields with the same layout (C159_vector_partial), vector and scalar field (C159_vector_scalar), scalar field and vector field with the components first (C159_scalar_vector_partial), grids of different size (C159_sizes), single values (C159_single). Violated: scalar * vector with the components last is a ValueError (C159_scalar_interlaced_violated) or takes the scalar at another point (C159_scalar_interlaced_wrong_violated), different layouts are a ValueError (C159_mixed_violated), grids of the same size at different places are combined (C159_places_violated), the sum cannot be read if the first has one point along an axis (C159_grow_violated), the components of cubes change places (C159_cube_violated)."
},
"C160": {
"note": "Proved: scalar fields along any axis (C160_scalar, C160_keepdims), components (C160_components), vector fields with the components last (C160_interlaced_partial, if no other axis has one point). Violated: the last axis of vector fields with the components first is an IndexError (C160_flat_last_violated), other axes drop the wrong coordinates (C160_flat_axis_violated), axis=-1 of vector fields with the components last makes components of points (C160_last_violated), the data of argsort along an axis cannot be read (C160_argsort_violated)."
},
"C161": {
"note": "Proved: scalar fields along any axis, also from the end (C161_scalar), one axis (C161_line), vector fields with axes from the start (C161_vector_partial), order (C161_order), exact for linear functions (C161_exact), cumtrapz (C161_cumtrapz_partial: an initial value other than 0 is put at the first point only). Violated: the default axis of vector fields with the components last is the components (C161_default_violated), one value left is an AttributeError (C161_single_violated), initial=None gives data that cannot be read (C161_initial_none_violated)."
},
"C162": {
"note": "Proved for histories without assignment: data that is not written (C162_unwritten_partial), data in memory with writes (C162_shared_partial), any field that is read before it is converted (C162_read_first_partial); the centering of the result, no other field is changed (C162_convert); every operation on an existing field is defined (C162_total); forced copies are independent of the field (C162_shell_copy). Violated: reflected axes are lost and the cache of the original is overwritten with unmirrored data (C162_reflected_violated), assigned data is mirrored when read back (C162_assign_reflected_violated), assigned data is shown or not, depending on the order of reads (C162_assign_converted_violated, C162_assign_original_violated), writes are lost (C162_write_lost_violated, C162_clear_violated), transforms are repeated (C162_transform_violated), adjust_crds (C162_adjusted_violated). That copies have the centering of the original and are made for fields not yet read is C162_copy; that assigning forgets earlier conversions is C162_assign_partial."
},
"C163": {
"note": "Proved: arrays, nodes are the centres (C163_arrays_partial), equidistant arrays there and back (C163_even_arrays_partial), uniform axes there and back (C163_node_cell_node_partial, C163_cell_node_cell_partial). Violated: on uniform axes the new nodes are not the centres (C163_uniform_violated), axes with one node move (C163_one_node_violated), uneven arrays (C163_uneven_violated). Numbers are rational, rounding is not modelled."
},
"C164": {
"note": "Proved: the axes (C164_axes_partial, C164_xyz), scalar fields (C164_scalar_partial), vector fields with the components first that were read (C164_flat_partial) or not (C164_unread_vector_partial), fields with three axes (C164_already). Violated: vector fields with the components last that were read are a ValueError (C164_interlaced_violated), fields that were not read show the raw data (C164_unread_violated), names can be doubled (C164_names_violated), single values become numbers (C164_single_violated)."
},
"C165": {
"note": "Proved: which axes are cut (C165_which), the number of axes and the values (C165_values_partial). Violated: a field with n axes or fewer loses its first axis if it has one point (C165_too_few_violated). The index of the point nearest to 0 is a parameter; selecting by it is the subject of C03 and others."
},
"C166": {
"note": "Proved: arrays, with the field's own coordinates unchanged if no names are changed (C166_adjust_partial), one adjustment for all axes (C166_all), changing one name (C166_rename_partial). Violated: with a map of names the coordinates of the field itself are broken (C166_original_violated), two names cannot be exchanged (C166_exchange_violated). Making coordinates of the arrays is C157, the data of the copy is in C162_adjusted_violated."
},
"C167": {
"note": "Partial: fields must be scalar, on the same points, with a time, and with names other than those of the axes and times. It fails otherwise: time_sel given is an AssertionError, no time a TypeError, fields without base time a NoBasetimeError (but not grids), vector fields or fields of other sizes a ValueError; a field named like an axis replaces the coordinates. C167_names: with names given only those fields are columns and an unknown name is a KeyError; C167_one_time: fields of one time give the table of a grid of them."
},
"C168": {
"note": "Partial: for distinct times, points that differ along each axis, and the names of the axes given or at least two points along the last axis. It fails otherwise: a last axis of one point becomes a field; a missing base time becomes NaT, and then reading the table again is an IndexError if there are two times; a table without the row labelled 0 loses its times; a column of dates of another name loses the base time; rows in another order give values at other points without an error; one row without names of the axes is a ValueError. Rounding of times to microseconds is not modelled."
},
"C169": {
"note": "Partial: for threads, one process, and for processes if func does not fail, the result is that of the loop for every schedule (C169_map_partial); every schedule can be completed and takes at most two steps per piece of work (C169_ends). It fails otherwise: with a given pool the call is a ValueError after all work is done since an open pool is joined (C169_pool_violated), and with processes which exception is raised depends on the schedule (C169_exception_violated). Pickling, time limits and workers that die are not modelled."
},
"C170": {
"note": "Partial: holds for lines of floats with a numpy that takes sizes given as floats, before 1.12. It fails otherwise: with any later numpy every factor other than 1 is a TypeError (C170_sizes_violated), and lines of integers lose the fractions of the new points (C170_integers_violated). The list of the caller is changed (C170_inplace). Only kind='linear'."
},
"C171": {
"note": "Partial: project_vector with numpy only if the components come first. It fails otherwise: project_vector with numpy and the components last is a ValueError (C171_project_vector_violated); on a grid of one point the result is a number and setting its name an AttributeError (C171_one_point_violated); with numexpr only three components are possible (C171_components_violated); with numpy a field with the components last on a grid of three points along each axis is an IndexError (C171_cube_violated). Layouts that differ are a ValueError of dot with numpy. Zero vectors, which give nan, are excluded for project and normalize."
},
"C172": {
"note": ""
},
"C173": {
"note": "Partial: for four or more points, at each point but the last, where the direction is that of the difference of the neighbours (at the first point of the third and the first), and at all points of straight lines. It fails otherwise: at the last point the direction two points before is used (C173_last_violated); lines of two and three points are a ValueError and one point gives an empty list (C173_short_violated)."
},
"C174": {
"note": "Partial: get_grid in full (C174_grid); get_field, iter_field_items and [] if no active child on the way is still deferred; field_dict if also no temporal dataset is below a temporal one. It fails otherwise: with a deferred active child get_field is an AttributeError and [] a TypeError while get_grid works (C174_deferred_violated, C174_deferred_temporal_violated); without active child get_field is None, get_grid AttributeError and [] KeyError (C174_empty_violated); field_dict(time) of a temporal dataset drops the time (C174_dict_violated). Computed fields, coordinates and deleted children are not in this model."
},
"C175": {
"note": "Partial: if no temporal dataset is below a temporal one, and the call returns. It fails otherwise: below a temporal dataset nothing is activated (C175_below_violated); a slice, which a temporal dataset refuses, is ignored by the dataset around it (C175_slice_violated); an exception of one child leaves those before it activated (C175_half_violated)."
},
"C176": {
"note": "Partial: nr_times and get_times without deferred children; get_time for temporal datasets, and for datasets of grids at times. It fails otherwise: get_times of deferred children is an AttributeError while nr_times counts them and iter_times resolves them (C176_deferred_violated); a deferred dataset is skipped by nr_times but not by get_times (C176_skip_violated); an empty dataset hides the times of those after it (C176_hidden_violated); get_time of a dataset is a grid where get_times has datasets (C176_time_violated)."
},
"C177": {
"note": "Partial: scalar fields, vector fields with the components first, masks of the shape of the data, and vector fields with the components last unless each size of the grid is 1 or that of the next axis (the last one the number of components). On those grids, cubes of 3 by 3 by 3 for example (C177_cube), the mask is taken at the point with the indices shifted by one (C177_shifted_violated). Without out, numbers outside the mask are whatever was in memory (C177_no_out_violated). If a holds integers, the factors lose their fractions (C177_integers_violated). Arrays of another shape as masks are an AttributeError (C177_array). Masks that are vector fields are modelled after they were brought to the centering and layout of a."
},
"C178": {
"note": "Partial: the shaped coordinates in full, for axes without explicit cell centers, and the flat ones along axes with more than one node. An axis with a single node has one shaped coordinate but no flat one (C178_flat_violated); on a grid with two axes there is none for the third component of face centered fields (C178_plane_violated)."
},
"C179": {
"note": "Partial: for rmin and rmax that are not negative, and for face and edge centered fields with a numpy that takes lists of slices as indices. With a numpy that does not, masks of those fields raise (C179_index_violated). A negative rmin excludes points nearer than its absolute value (C179_negative_violated). Without explicit cell centers; overflow of squares is not modelled."
},
"C180": {
"note": "Partial: without mask in full, off the origin; with scalar masks if the components are first, with masks of the shape of the data for both layouts; make_dipole for cell centers. With the components last a scalar mask, as make_spherical_mask gives, raises (C180_last_violated). make_dipole with face or edge centers has one cell less than asked for along each axis (C180_face_violated). twod and nonuniform, moments from times, and the orientation that is stored are not modelled."
},
"C181": {
"note": "Partial: exact if the selection does not begin near the upper boundary of a patch, where near is a part in 100000 of the value or atol (C181_exact_partial); in all cases what is taken has points within atol, and a patch with points is missed only if the selection begins near its upper boundary and another one is taken (C181_sound_partial). The latter loses points: from 999.995 to 1500 nothing of the patch up to 1000 is taken (C181_near_violated). The upper boundary of the whole field is in no patch, and the slice an AttributeError (C181_upper_violated). A component can not be selected (C181_component_violated). Numbers are rational; the names of axes in selections are resolved before, see C16."
},
"C182": {
"note": "Partial: if one of the slices has all the axes the others have, in order. If one loses one axis and another one another, the result has patches with different axes (C182_axes_violated). A single point in more than one patch is an AttributeError (C182_number_violated); no values at all are a ValueError (C182_no_values). The data of the slices are abstract."
},
"C183": {
"note": "Partial: for attributes that are numbers, text, arrays with values, or objects compared by identity. For attributes that are fields, like amr.real, it is that of the first patch, whatever the others are (C183_field_violated). For arrays without values it is a ValueError although all are the same (C183_no_values_violated). Arrays that broadcast with each other are not modelled."
},
"C184": {
"note": "Partial: if all patches have the same shape; otherwise it is a ValueError (C184_shapes_violated). Functions with more arguments are not modelled."
},
"C185": {
"note": "Partial: the number of patches, the number of their cells, and the lower corners to within a part in 100000; exact when the patches are not like those of the skeleton before. Patches with as many cells and the same lower corners, but larger, keep the upper corners of the time before (C185_upper_violated), and those that moved a little stay where they were (C185_lower_violated)."
},
"C186": {
"note": "Partial: for cell centered fields whose coordinates were just made the values are those of the interpolation, and exact for functions linear in each coordinate (C186_cell_partial). For every node centered field they are never interpolated: they are those of the nearest nodes, with the coordinates that were asked for, because the coordinates of the field itself are overwritten first (C186_node_violated, C186_changed_violated); of cell centered fields the nodes are overwritten as well (C186_cell_changed_violated). What `slice_reduce` does then is C05 and C129; numbers are rational."
},
"C187": {
"note": "Violated for every field: the slice is given to get_clist as its axes, a TypeError, or before that a ValueError if the even and odd values of a half do not have sizes that broadcast (C187_downsample_violated)."
},
"C188": {
"note": "Partial: for fields with the components last no new axis may come after as many entries as there are axes. Otherwise the component is put in another place than when the field is read: fld[:, None] = fld[:, None] is a ValueError (C188_trailing_violated), and with two new axes before the last axis the value goes to another element (C188_exchanged_violated). Index arrays are not modelled."
},
"C189": {
"note": "Partial: the table of contents is right if all fields have the same sizes (C189_contents_partial, C189_series_partial). The scan goes on by the size of the first field of the file: with fields of different sizes the later ones are silently missing (C189_sizes_violated). Reading at a known place is right always (C189_read, C189_other, C189_behind). Names and times are ASCII, names have no blanks; fields without axes are not modelled."
},
"C190": {
"note": "Partial: after any history of scans and of readings where there are fields, inquire_all_fields gives the right contents (C190_history_partial), and a first reading by name is right (C190_first_partial). Every later reading by name is an AttributeError, as the class has no method seek (C190_again_violated), and after one reading behind the end inquire_all_fields finds nothing (C190_failed_violated)."
},
"C191": {
"note": "Partial: removing a child that is not deferred removes it and its handles and nothing else (C191_del_partial, C191_removeAll), `in` agrees with `[]` for what grids keep (C191_contains_partial). Violated: a deferred child can not be removed, KeyError (C191_deferred_violated); the removed child stays the active one, so that get_field and ds[name] still give its fields (C191_active_violated, C191_stale_violated); without an active grid `in` is a TypeError (C191_empty_violated); computed fields and coordinates are not `in` (C191_computed_violated); a child is `in` but is no key (C191_object_violated); nothing can be removed from a temporal dataset (C191_temporal_violated). Children that are datasets are in C174 to C176."
},
"C192": {
"note": "Proved: vector fields (C192_vector), scalar fields under the names of OpenGGCM's files (C192_scalar), vectors made of components (C192_assembled), grids that are not turned (C192_vector_as_is); scalar fields with names of vectors are refused (C192_reserved); slices of scalar fields (C192_sliced_partial). Violated: slicing a vector field of a turned grid before it is read is an AttributeError (C192_sliced_violated); components under other names keep their sign (C192_names_violated); what is assigned to the data of a field of a turned grid is mirrored and changes its sign (C192_assign_violated), and so does a computed field that is added to the grid (C192_added_violated). Face and edge centred fields are in C68; centres that were given with the nodes in C37."
},
"C193": {
"note": "Partial. For axis names without capitals, with a letter, and none of them another one with an ending: C193_names, C193_other, C193_get, C193_range, C193_contains. C193_axes: names given with capitals are a KeyError. Violated: shaped=True with a name that has an ending is a KeyError (C193_shaped_ending_violated); 'xnccc' in crds (C193_contains_violated); axes without letters lose their flat arrays (C193_letters_violated); a list of units that is too short is not filled up and get_unit is an IndexError (C193_units_short_violated); apply_reflections drops the units (C193_units_reflected_violated). Names are ASCII; spaces around units are left out; attempts to assign or delete are exceptions and not modelled."
},
"C194": {
"note": "Partial: C194_ends, C194_widths for StructuredCrds (reflected or not); C194_uniform, C194_apply for UniformCrds of two or more nodes. Violated: get_xl and get_xh of UniformCrds with reflect_axes (as the crds of a grid turned to GSE) are those before the reflection (C194_reflected_violated); a uniform axis of one node with different ends (C194_single_violated). Node centering only: C36 is about cells."
},
"C195": {
"note": "Partial: values are right (C195_stored, _velocity, _momentum, _consistent, _magnetic, _vector, _scalars, _history). Violated: vz gets the name 'bz' (C195_names_violated); asking for bx renames the stored field when it is in memory (C195_renamed_violated); j, jx, jy, jz and jmag raise NotImplementedError (C195_current_violated). beta and psi are functions of calculator/plasma and not part of this model."
},
"C196": {
"note": "Partial: C196_velocity, C196_missing, C196_vector; pressures for xx, xy, xz, yz (C196_pressure_partial). Violated: Pyy and Pzz of both species take off rho ux ux instead of rho uy uy and rho uz uz, so they are right exactly where the squares of the velocities are the same (C196_pressure_violated); u_e and u_i have the same name 'u' (C196_name_violated). Reals, without rounding."
},
"C197": {
"note": "Partial: C197_template (by the invariant that the lists are those at first with 'phi_E', 'phi_B' any number of times after them), C197_gkeyll, C197_athena, C197_refused. Violated: the kind of a file is the letter in its name when it is one of a collection (C197_kind_violated). What the regular expression finds in a name is a parameter."
},
"C198": {
"note": "Partial: C198_header_partial (times without exponent), C198_crds_partial (two or more cells along each axis; the centres are those of the file exactly where cells are evenly spaced), C198_data. Violated: the exponent of a time as 1.5e-05 is lost (C198_exponent_violated); one cell along an axis is a ValueError, although the code has a branch for this (C198_single_violated). `int(line.split('=')[1])` and np.loadtxt are parameters: the table of numbers is given; rounding to float32 is not modelled."
},
"C199": {
"note": "Partial: C199_ascii_partial, C199_history, C199_nda, C199_nda_refused. Violated: a .txt or .asc file of one row or one column is an IndexError although the code has a condition for it (C199_ascii_violated). What np.loadtxt and np.fromstring read is given; data types and vector fields of .nda files are not modelled; history files have two or more rows."
},
"C200": {
"note": "Partial: C200_component, C200_transposed, C200_whole, C200_item_partial (integers and slices forward), C200_dots, C200_bad_axis, C200_bad_component, C200_len_partial. Violated: with transpose, len is the length of the last axis (C200_len_violated) and an index is applied to the axes of the file (C200_transposed_item_violated); a list of integers is taken for a tuple (C200_list_violated); whole axes are added behind the indices also after dots, so [..., p] picks from another axis (C200_dots_violated). The ValueError of the code for the axis is unreachable, as C200_bad_axis is an IndexError before."
},
"C201": {
"note": "Partial: C201_rotmul, C201_quatmul, C201_refused, C201_rotate, C201_wxyz2rot, C201_axang hold as stated; C201_wxyz2quat_partial for as many angles as axes, or one axis; C201_quat2wxyz_partial for quaternions of the same norm. Violated: one angle for several axes is a ValueError in wxyz2quat (C201_wxyz2quat_violated); quat2wxyz divides all quaternions by the norm of the last one, so if the last one is 0 all results are nan (C201_last_zero_violated), and if it is large the axes of the others are lost (C201_last_large_violated). Not modelled: stacks in quat_rotate, the numpy-quaternion module."
},
"C202": {
"note": "Proved over the reals: C202_angle, C202_refused, C202_symmetric, C202_lengths, C202_same_direction. Not modelled: rounding (the quotient can exceed 1 by rounding for parallel vectors, and is then nan), vectors with different numbers of components, space other than ASCII."
},
"C203": {
"note": "Partial: C203_single and C203_new_x_single (for one of each it is the rotation of C59 and C70), C203_stacks_partial (as many vectors to rotate from as rotations, or none of the vectors to rotate to along the one), C203_new_x_partial (sizes and directions as stated), C203_roll_and_new_x. Violated: from one vector to several, any of them parallel or opposite, is an IndexError (C203_one_start_violated); several rolls that are all 0 give one matrix (C203_rolls_violated); several new x axes, some along the vector to rotate to and some not, are a ValueError (C203_new_x_mixed_violated), as are several vectors to rotate from with one new x axis (C203_new_x_starts_violated); for single vectors and several new x axes only the first rotation is returned (C203_new_x_first_violated)."
},
"C204": {
"note": "Partial: results are right for all memory, aliasing and histories (C204_result, C204_history, C204_quaternions); arrays of other numbers than doubles, arrays not passed and vectors of length 1 are kept (C204_kept_partial), as are quaternions of norm close to 0 or 1 (C204_quaternions_kept_partial). Violated: any array of doubles with a vector of another length is normalised in place (C204_changed_violated), quaternions likewise (C204_quaternions_violated); the bits of integers are taken for doubles, so every quaternion of integers not negative and below 2^52 gives the identity to 1e-8 (C204_integers_violated). Not modelled: integers that are negative or larger, single precision."
},
"C205": {
"note": "Partial: C205_text, C205_text_one, C205_default, C205_value_default hold; C205_node_partial for fields, OpenGGCM grids and nodes with none of these above them. Violated: None gives 'Unknown', which is not lower case and whose own name is 'unknown' (C205_unknown_violated; every other name is its own name: C205_again_partial); a node of another kind below a field or OpenGGCM grid gets a NameError from find_attr whatever its info and the default (C205_below_violated). Not modelled: bytes, info values that are nodes."
},
"C206": {
"note": "Partial: C206_value, C206_default hold; C206_grid_partial for OpenGGCM grids that hold a time themselves; C206_node_partial for nodes with no OpenGGCM grid above them. Violated: mappings are never understood although documented (C206_mapping_violated); an OpenGGCM grid without a time of its own gives NotImplemented, no Cotr and no exception, whatever the default (C206_grid_violated); a field on an OpenGGCM grid gets a NameError (C206_field_violated); a default is not used if an info is there that is not understood (C206_info_violated). Not modelled: which texts are times (a parameter; see C118 and following for the parser), lists of times."
},
"C207": {
"note": "Partial: C207_rotation, C207_rotation4, C207_sum, C207_back, C207_translation, C207_translation_short, C207_nvec, C207_nvec_point hold; C207_plane_partial for rdim=2 about z; C207_refused_partial for angles other than 0. Violated: with rdim=2 the matrices about x and y are no rotations, their determinant is cos(theta) (C207_plane_violated); an invalid axis is not refused if theta is 0 (C207_axis_violated). Real numbers; unsigned and integer arrays are not modelled."
},
"C208": {
"note": "Partial: C208_axis holds for all rotations and all eigenvectors; C208_refused for invertible matrices whose inverse is not close to the transpose. Violated: mirrors (orthogonal, determinant -1) pass the check and something is returned although they are no rotation (C208_mirror_violated). numpy.linalg.eig is a relation: some eigenpair over the complex numbers with the eigenvalue closest to one, real if the eigenvalue is. Real numbers; a missing np.clip before arccos (nan by rounding) is not visible."
},
"C209": {
"note": "Partial: C209_lines_partial for files without hopeless lines, C209_raises says for which files an exception comes out, C209_missing, C209_warning and (for objects with a __name__) C209_blame_partial hold. Violated: an empty file raises AttributeError (C209_empty_violated), and so does a line whose key is no text or whose path ends at something on which nothing can be set: the lines after it are not read and no post actions run (C209_hopeless_violated); import viscid fails then. If an instance or a value lacks the part, the warning says that the object before it lacks an attribute which it has (C209_blame_violated). Not modelled: yaml and JSON (the file is what they give), exceptions of imported modules other than ImportError, properties and __slots__, post actions themselves."
},
"C210": {
"note": "Partial: C210_found_partial, C210_none_partial and C210_exact_partial (no other class has the name in its own) for texts with at most one 'file' in them. Violated: the name of a class does not find it if a class below it has the name in its own (C210_exact_violated): 'FileXDMF' finds AthenaFileXDMF. A text of nothing ('', 'file', '_') finds a class, whatever the tree (C210_nothing_violated). A text with a second 'file' loses another one at every level of the tree (not proved about, modelled). Lower case is that of ASCII."
},
"C211": {
"note": "Partial: C211_first, C211_none, C211_fields, C211_crds and C211_class hold. Violated: a TypeError of the constructor of a known type is reported as an unknown type, NotImplementedError (C211_blame_violated). Lower case is that of ASCII; constructors are a parameter."
},
"C212": {
"note": "Partial: C212_check says exactly what the check does: it is one of the determinants; C212_check_rotations and C212_dcm2quat hold; C212_rot2axang_partial for the quick method and rotations whose antisymmetric part is zero or longer than 1e-8; C212_quat2axang_partial for stacks of quaternions of the same norm whose vector part is zero or longer than 1e-8. Violated: matrices that are not orthonormal pass: every shear does (C212_orthonormal_violated); a word for bad_matrix that means nothing is not refused, and bad matrices then go through without a message (C212_word_violated). Radians only; eigenvectors are a relation (whatever numpy finds)."
},
"C213": {
"note": "Partial: C213_integer, C213_decimal, C213_float, C213_text, C213_list and C213_integers (numbers without exponents), C213_param, C213_no_param hold; C213_kinds says for all texts what they are read as; C213_words_partial for words without blanks. Violated: numbers with commas between them of which the first has an exponent stay text (C213_exponent_violated); a text that only begins with two numbers and a comma is torn at its commas (C213_torn_violated); blanks beside colons stay in the words (C213_blanks_violated). float() is a parameter; blanks, digits and letters are those of ASCII; arrays hold integers of any size."
},
"C214": {
"note": "Partial: C214_picture, C214_picture_node, C214_style, C214_patches and C214_apart hold; the field is unchanged only without scale, factors and contours (C214_unchanged_partial). Violated: `dat *= scale` multiplies the data of the field itself (C214_scale_violated, C214_twice_violated), `X *= mod[0]` the coordinates (C214_mod_violated), contours of a cell centred field move its first and last cell centres to the boundary for good (C214_contour_violated), all_masked is never true (C214_masked_violated). Not modelled: latlon, dates, what matplotlib draws, integer arrays."
},
"C215": {
"note": "Partial: C215_asked (precedence), C215_scale, C215_lin, C215_sym, C215_log, C215_nan, C215_many, C215_text, C215_norescale, C215_map hold. Violated: a LogNorm that is given is taken for a linear scale, since it is a Normalize too (C215_given_violated); the limits are those of the data before they are multiplied by scale (C215_scaled_violated). Rounding is not modelled."
},
"C216": {
"note": "Partial: C216_options_partial (options with several values that are not all texts), C216_empty, C216_yaml, C216_error, C216_axis hold. Violated: values with underscores (cmap_jet_r) become the list of their characters (C216_underscore_violated); a text of blanks is an IndexError (C216_blank_violated); values that are words of python (and, is, in) are a SyntaxError (C216_keyword_violated). What python makes of expressions that are not one name, and yaml, are parameters."
},
"C217": {
"note": "Partial: C217_coords and C217_times hold; C217_cells_partial for cell centred fields if all grids have the same number of cells along each axis. Violated: starts are summed over grids in the order of files, so with different sizes values are misplaced and cells never set (C217_sizes_violated); node centred fields cannot be joined (C217_node_violated); ends of arrays are not compared (C217_ends_violated); overlap is found in one order of the files only (C217_overlap_violated). One field of one time step; the list of slices is taken as a tuple."
},
"C218": {
"note": "Partial: C218_bits, C218_negative, C218_rgb_partial, C218_fractions, C218_refused hold. Violated: the text for 0 is never printed, since a text is compared with a number (C218_zero_violated); colours of 0 to 255 that are all at most 1 are taken as fractions, so the darkest ones come out as the brightest (C218_dark_violated); viscid_diff always ends with a TypeError, since iter_fields has no argument `named` (C218_diff_violated). Reading of numbers from texts is not modelled."
},
"C219": {
"note": "Partial: C219_limits_partial needs limits that differ (matplotlib widens equal ones itself); with equal limits the axis is turned around (C219_equal_violated). C219_named, C219_refused, C219_plane, C219_two hold. Limits are rational numbers; no nan."
},
"C220": {
"note": "Partial: C220_segments_partial, C220_kept; with scipy, lines of one vertex only if there is one coordinate. Violated: a line of one vertex keeps its first coordinate only, the others are uninitialised memory (C220_single_violated), as interp1d refuses one vertex (as the comment in the code says; newer scipy may not) and only row j = 0 is set. Linear interpolation; colours as bytes not modelled."
},
"C221": {
"note": "Partial: C221_value_partial (fields in degrees on theta and phi, or latitude and longitude, at nodes), C221_fillna. Violated: fld.is_spherical is a method and not called, so fields of x, y, z are taken for spherical ones and raise ValueError (C221_cartesian_violated, modelled for two axes, that of three is the same branch); fields in radians are asked at numbers of degrees (C221_radians_violated). One point at a time; rounding is not modelled."
},
"C222": {
"note": "Athena: nodes are half way between centres, increasing centres lie between their nodes (C222_between), equally spaced centres are the middles of the nodes (C222_spaced), a one-cell axis is as wide as the least spacing of the others (C222_one, C222_least). Fails for stretched grids, whose centres are not the middles of the nodes that are made (C222_stretched_violated), and a file of a single cell gets infinite nodes (C222_point_violated). Gkeyll: uniform, rectilinear and structured grids come as they are in the file (C222_axes, C222_uniform, C222_arrays), others are refused (C222_refused); a uniform file with fewer bounds than axes silently loses axes because the IndexError is passed over (C222_skipped_violated). h5py's error for too many indices is taken to be a ValueError; rounding is not modelled."
},
"C223": {
"note": "Scalars by type (C223_types), lists by their elements (C223_lists), arrays of numpy's types and of Python's objects (C223_arrays), text that cannot be a duration is read by numpy after as_isotime (C223_text, C223_text_like), numbers as text are no times if conservative (C223_conservative), as_datetime's second attempt never changes the outcome (C223_datetime). Fails: every text of up to three numbers between colons is read as a duration first, so YYYY:MM:DD becomes hours:minutes:seconds after 1970 (C223_date_violated) and a year so many seconds after 1970 (C223_year_violated); durations as text are rounded as instants (C223_seconds_violated); the empty list is both (C223_empty_violated); bool is a duration (C223_bool_violated); arrays of numbers are not durations though lists of numbers are, because dtype.type is compared with abstract types (C223_array_violated). Python's float and numpy's parser are parameters; infinities, errors other than ValueError and OverflowError, and numpy versions with time zones are not modelled."
},
"C224": {
"note": "Two parts fail and are proved to: a comment or blank line among the lines of variables has the file refused (ValueError), and of two species with the same base name the variables of the earlier cannot be found in the table. float() is a parameter; negative numbers of blocks are not modelled."
},
"C225": {
"note": "Four parts fail and are proved to: a grid of points with coordinates last is gone through first index fastest, so seeds are in another order than the array's; arrays with both first and last axis of length 3 are always taken with coordinates first; get_local_shape of a mesh calls itself without end; rectilinear meshes along z are refused (KeyError)."
},
"C226": {
"note": "rfind_all is a generator; the model gives what the first n values are and whether it has ended. Proved for all inputs: what is given is a place of one of the texts and not before the start; single characters are all found, in order, between start and end, and the generator ends; texts of m characters are all found if at least m-1 other characters are before the first and between each two (C226_words_partial). False of the code: of a text of two or more characters that stands twice in a row only the second is found (C226_adjacent_violated, any text); with such a text at the beginning of s and nowhere else, the generator gives 0 without end (C226_forever_violated), because the end becomes negative and counts from the right; the empty text is found at the end for ever; a negative start finds nothing."
},
"C227": {
"note": "The function that makes a picture is a parameter; it may change a state that stands for the objects it is given (C227_state says what each call finds: with one process what the call before has left, with several what was given at the beginning of each part). False of the code: with 'subplot_params' in kwopts nothing is assigned to r and there is an UnboundLocalError before any picture (C227_subplot_violated); kwopts=None is a TypeError although _do_multiplot takes None."
},
"C228": {
"note": "What is asked of matplotlib and the grid is modelled; drawing is not. False of the code: global_popts are appended to the dict of the variable again for every picture the same process makes (C228_again_violated gives the text for every number of pictures). With options with commas this changes nothing, as the last of a name counts (C228_meaning_partial, with the model of C216, for texts without blanks at the ends); with options in the way of yaml the second picture asks yaml for two mappings with a comma between them (C228_yaml_violated)."
},
"C229": {
"note": "The regular expressions are modelled at the level of characters and proved to take exactly the names that fit (C229_names). False of the code: in a series of Athena's XDMF files every grid is there twice (C229_twice_violated); for jrrle, fortbin, tab and Gkeyll files all entries say they have the fields of the first file (C229_fields_violated), and for all but XDMF the coordinates of the first file (C229_crds_violated). Absolute names without line feeds, and ASCII white space and digits."
},
"C230": {
"note": "Proved: an XDMF file that is no series is read again (C230_xdmf_partial), and an unchanged file stays the same (C230_same_partial). False of the code: a single file of the other readers keeps fields and coordinates of its first load through any history of reloads (C230_stale_violated); reloading a series that is not XDMF is an AttributeError and leaves it empty, because its name is the collective one, which no reader takes (C230_series_violated); a series of XDMF files is afterwards only its first file (C230_first_violated). Values of fields, which are read when they are used, are not part of the model."
},
"C231": {
"note": "Proved for scalar fields and vectors with components along the last axis (C231_prune_partial), and without prune for all (C231_all, C231_axes); the flat arrays have the coordinates of a point where data.reshape(-1) has its value (C231_flat), which fit_paraboloid relies on. False of the code: for vectors in the layout flat, prune counts the axis of components: it removes the axis after one with one point, or raises an IndexError (C231_first_violated); vectors of one component raise an IndexError (C231_one_violated); with axes asked for, prune removes by the number of the axis in the field from the list of those asked for (C231_axes_prune_violated). Axes are given by number; names are those of C193. Coordinates are of any type."
},
"C232": {
"note": "Proved for three axes (C232_three_partial, C232_thick). False of the code: coordinates with two axes have two rows, which cannot be reshaped to three, so as_mesh of every two dimensional field with points is a ValueError (C232_two_violated); so is that of four axes with two of one point (C232_four_violated). Node and cell centering (face and edge have lists of arrays)."
},
"C233": {
"note": "Columns, single vectors and short vectors are proved. Violated by cotr_transform: vectors in rows, the documented shape, are refused when there are four or more, and mixed with each other when there are three."
},
"C234": {
"note": "Proved, on real numbers. The agreement of the two functions is for gse, gsm, sm and mhd."
},
"C235": {
"note": "Vectors and epar are proved. Violated: the pattern of names is not anchored at its end, so any name that goes on after the name of a field file is taken; and open_psc_file raises a ValueError for every step, as its format asks for a precision of an integer."
},
"C236": {
"note": "The class of grids of a new file, the options of the reader and names of datasets are proved. Violated: grid_opts given when a file is loaded are stored under a name nothing reads and reach no grid; options are ignored when the file was loaded before; a class is refused as a type of dataset."
},
"C237": {
"note": "The limits, and selections of values, are proved. Violated: open ends are infinite, as the limits are put only where there is nan, and nan has raised an error before; selections by index are refused; and so is every field with fewer than three axes."
},
"C238": {
"note": ""
},
"C239": {
"note": "Proved for fields with their components last. Violated if these are first: the number of components is taken for that of points of the first axis, and so on, so the first arrow may be beyond the second axis and no arrow is drawn."
},
"C240": {
"note": "Size proved for all planes, sides for planes of constant y and z. Violated: planes of constant x in GSE are coloured the wrong way round; from a field in such a plane the colour is always night; rot is ignored in GSE."
},
"C241": {
"note": "Violated: bytes that are all 0 or 1 are taken for fractions and become full intensity; with any byte above 1 they are kept."
},
"C242": {
"note": "Proved: samples for all sizes, reversal for maps of 256 colours, ends for arrays. Violated: a linear map that is not reversed keeps its own name; to_listed_cmap swaps name and colours, or gives back a linear map. Interpolation and lookup of matplotlib are modelled as documented; clipping is not."
},
"C243": {
"note": "Violated: colours that are numbers are refused for every label; it is an IndexError to place a label if more labels than there are paths were placed before; a padding in fractions of the axes includes the place of the axes; the default padding in pixels is right only for 72 dots per inch. Which paths meet a box is a parameter."
},
"C244": {
"note": "Violated: plot_iono of a southern hemisphere is always a ValueError, as it selects theta from a field of longitude and latitude. Drawing itself and basemap are not modelled."
},
"C245": {
"note": "Points proved. Lines are violated: the array of segments is indexed where directions are meant, so a named direction is refused for fewer than three segments; without a name, lines of three or more moving segments are drawn by x and y whatever their plane; a single segment is drawn by x against x; and there is an IndexError where the two moving segments are not among the first three."
},
"C246": {
"note": "Proved over the reals; the intensity is exact up to less than a millionth, by the rounding of the coefficients in the code. Violated: rot turns the helix three times as far as the convention of start, in which 3 is once around; and the helix does not begin at start unless rot times the first intensity is whole."
},
"C247": {
"note": "Trimming is proved for ticks in ascending order of which one is within. Violated: ticks in descending order all vanish; ticks all beyond one limit are an IndexError; a tight layout of a figure that is not the current one is applied to the current one instead, whose limits are not restored."
},
"C248": {
"note": "Violated: A nulls are drawn exactly if O nulls are, whatever their number and colour; of ionospheric fields from pole to pole and once around, as the reader for OpenGGCM makes them, no value is at its colatitude but the middle ones, and none at its longitude but the first. The earth is proved; fields are proved where they reach neither pole nor once around. Rotation by date and the clipping by bounding_lat are not modelled here."
},
"C249": {
"note": "Violated: with fatal=True the failed import of a module whose name is bound already is neither raised nor logged; a proxy called with arguments raises a TypeError instead of the exception it has. A module that raises anything but an ImportError, or lacks a name it shares, stops the import of the package. C249_fatal_partial is for a failure at the head of the list."
},
"C250": {
"note": "Violated: frames of any other prefix that begins with this one and an underscore are removed too; frames are removed though no film was made, if the program fails, is not ffmpeg, or the name of the film is empty; with neither film nor prefix, files None_*.png are removed; a mesh without an extension is written to a file without a name or outside of a directory with a dot. Characters with a meaning to a shell are not modelled."
},
"C251": {
"note": "Violated: the keyword documented to quiet all output (timeit_quet) is passed on to the function and quiets nothing. Times are rational: rounding is not modelled."
},
"C252": {
"note": "Violated: theta_endpoint of SphericalCap is dropped, so the far edge is never among the points; a cap without a hole has its pole nphi times; cap.angle reads back in radians; guess_dipole_moment does not see the sign of the field, so it gives the same answer for opposite moments, always points north for a positive strength, and is on the wrong side for moments like that of the Earth. Partial: the pole must not be nearly along the z axis unless equal to it, as in C77."
},
"C253": {
"note": "Violated: scale cuts its factor to an integer for fields of integers (scale(0.5, f) is zero everywhere); add, diff and mul of a number and a field, in this order, raise with numexpr and work with numpy; relative_diff is documented as abs(a - b) / a but keeps the sign of a - b; the named operations raise for fields of one value. Rounding, wrapping of integers and the division of integers by numexpr are not modelled; relative_diff is proved where one field has floats."
},
"C254": {
"note": "Violated: a scale or mod of zero is not applied; a field of integers cannot be scaled by a float; symmetric limits are not numbers if the first value is nan; _set_default_cbar_pad with inplace=False changes the dict of the caller. C254_symmetric_partial is for a first value that is not nan. Matplotlib, labels and formats of ticks are not modelled."
},
"C255": {
"note": "Violated: patch_indices is a number for one patch and None for no patch, where a list is documented; interpolated_slice raises for a selection within one patch. Both are proved for two patches or more. Which patches a selection overlaps is C181."
},
"C256": {
"note": "Violated: of several -o in a row only the last counts; an equation with a comma is cut off at it; if the times are integers (athena history files) every value is cut to an integer. Parsing by argparse itself and drawing are not modelled."
},
"C257": {
"note": "Violated: symmetric has no effect but to undo tight; limits given as integers raise TypeError; one label along an axis divides by zero; to_mpl tests a function in place of its result and never fits for fit=None. AutoLocator is any function; set_view_interval of the locator is taken to exist."
},
"C258": {
"note": "Violated: the dictionary of the caller is changed, so that with the same dictionary a colorbar on top (left) is at the bottom (right) in the second plot, aspect and shrink are back to defaults, and the ticks are those chosen for the first scale; axes with use_grid1=True raise AssertionError; xlabel and ylabel are ignored. Sizes of the new axes and drawing are not modelled."
},
"C259": {
"note": "Violated: explicit colours are not used for markers; the dictionary marker_kwargs of the caller is changed, so that markers of the next plot have the colours of the first. Resampling of lines and the search for the plane are modelled elsewhere; drawing is matplotlib's."
},
"C260": {
"note": "Violated: the angles are multiplied by the radius, so the picture is right only for radius one; for a radius that is no whole number its left and right edges are apart, and for radius two the South Pole is at the top. An angle and axis that are given raise TypeError. Real arithmetic; the plane source and spherical transform of VTK are modelled by their formulas."
},
"C261": {
"note": "Proved by an invariant over all schedules for handles of different files. Violated: an inner with closes the file of the outer one; two handles of the same file share a unit, so that after one is closed the other raises RuntimeError, or reads from whatever file gets the unit next. Fortran's units are modelled by the file each is connected to; that it makes files that are missing is not modelled."
},
"C262": {
"note": "Proved for messages without arguments and words of up to 65 characters. Violated: a longer word is broken after 65 characters; the text is wrapped before its arguments are put in, so that what stands for %s is neither wrapped nor aligned, and a %s that is broken in two loses the message. Where textwrap may break at hyphens is a parameter; white space outside ASCII and conversions other than %s and %% are not modelled."
},
"C263": {
"note": "Proved for files whose fields all have the sizes of the first one. Violated: a field of as many values with its axes the other way round is not refused but reshaped, so that values are at the wrong nodes. Rests on the model of the binary format (C189); rounding, layouts and transformations are not modelled."
},
"C264": {
"note": "as_c_contiguous is proved. Violated for as_flat and as_interlaced of fields in memory: the conversion is done when the result is first read, so that what is written to the field until then shows in it. numpy's C_CONTIGUOUS flag and np.ascontiguousarray are modelled with strides; parents of fields and element types are not."
},
"C265": {
"note": "Proved for Information elements with Value or without DataItem. Violated: DataItem elements have no children, so `if _di:` is false for them and the info is the text in front of the DataItem; and an AMR grid shares the dictionary of its first patch. What _parse_dataitem gives is an argument; the truth value of elements is that of ElementTree."
},
"C266": {
"note": "Proved for fields made from arrays without copy and zyx_native whose elements have places of their own, and for any source after forget_source without copy and zyx_native; values of rewrap_field are independent for every history. Violated: writes to fields from files are lost with the cache; with copy, as in rewrap_field, those after the first clear_cache are; after forget_source of a zyx_native field, clear_cache transposes its data; rewrap_field gives time 0. Only scalar fields in the default layout; writes of one element at a time."
},
"C267": {
"note": "Proved for every history without AMR grids; that a parent is there at most once, and there after adding and gone after removing, also with them. Violated: an AMR grid has the list of parents of its first patch, so a dataset that it is added to becomes a parent of that patch. Parents are compared by identity: for parents that are fields, `in` compares values, which is not modelled; neither are tuples of parents."
},
"C268": {
"note": "Proved for `bucket[list] = item`, and for set_item with an item that is there already or index_handle=False, and only then. Violated otherwise: set_item puts the number of the item in the caller's list; the next item that is stored with it takes that number, and the first is lost if it has no other handle. The universal counterexample begins with an empty list."
},
"C269": {
"note": "Values, and that they stay, are proved for all components; that components keep their values, for those made from arrays without copy and zyx_native. Violated: loading the vector field clears the caches of its components, so what was written to a component from a file is gone from it. Components are different fields of the same shape; types are not modelled."
},
"C270": {
"note": "An axis of matplotlib is what was last given to its four setters; what matplotlib makes of it (and that a locator shared by two axes remembers one of them) is not modelled."
},
"C271": {
"note": "Layout, order, types and values of seeds are proved for all arrays, with and without filling of holes; the mean at poles for arrays of floats. Violated: what arr2mesh makes is converted back to the type of the array, so with integers or truth values a pole does not have the mean (it is cut off towards 0, or true if any seed of the ring is). Numbers are rational; rounding is not modelled."
}
}