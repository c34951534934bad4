{
"C01": "Contiguous chunking is a balanced partition. Model chunk_slices loops literally; induct to closed form; partition theorem.",
"C02": "Chunk sizes agree with both chunkings. Closed form of sizes vs. slice lengths; interslice lengths by counting residues.",
"C03": "Scatter/gather of streamline work is independent of the number of workers. Model gather as strided assignment; prove for all i via i = (i mod k) + k*(i/k).",
"C04": "The size argument of the chunk functions controls chunk size. Expected false: code divides by nchunks, not size. Prove negation with witness; prove what does hold.",
"C05": "Bucket bookkeeping stays consistent. State = the four dicts as association lists/functions; invariant by induction over op lists.",
"C06": "Bucket lookup returns the last item set under a handle. Refinement to a function handle -> Option item, per-operation simulation.",
"C07": "Bucket reference counts keep an item alive exactly while it is referenced. Invariant linking count to history; operation traces on a single item.",
"C08": "Metadata lookup finds the nearest ancestor. Graph = finite parent map; BFS with fuel bounded by node count; nearest-by-distance theorem.",
"C09": "Attribute lookup through parents returns the attribute or the default. Expected false (unbound variable on the success path). Prove negation; partial: default path.",
"C10": "JRRLE records round-trip. Byte lists; encoder and decoder as recursive functions; round-trip by induction on runs.",
"C11": "JRRLE quantised values round-trip with sign. Int arithmetic for index split; reals for the quantisation bound.",
"C12": "JRRLE decoding of arbitrary lines is memory safe and detects corruption. Model work-array writes; overrun witness (negation), partial: returned length; checksum theorem.",
"C13": "JRRLE field lookup does not depend on access history. State machine over a fixed list of fields; invariant: seen = dedup of a prefix.",
"C14": "Forward-only slicing is equivalent to the requested slice. Int model of the branches and Python slicing; prove per-branch; negation for start == L with step <= -2.",
"C15": "Selecting by value picks the nearest / enclosed grid points. Lists over an ordered field, argmin model; filter characterisation.",
"C16": "Selections expand to one entry per axis. List model of selection expansion.",
"C17": "Trilinear interpolation is exact at grid points and never overshoots. Multilinear interpolation over an ordered field; bounds by convexity.",
"C18": "Bracketing index search is correct and independent of its cache. Loop model with cache start index; bracket theorem by induction on the search loops.",
"C19": "Nearest-neighbour interpolation returns the nearest sample. Same model; nearest by cases on midpoint comparison.",
"C20": "AMR neighbour lists are symmetric. Double loop over pairs; neighbour table as function; symmetric by construction invariant.",
"C21": "AMR point location finds a containing patch whenever one exists. State machine with active patch; containment theorem; history independence under uniqueness.",
"C22": "AMR whole-field reductions equal reductions over all data. Fold of folds vs fold of concatenation; mean: expected false for unequal patches (negation + partial).",
"C23": "Streamline buffers are never overrun and the seed is on the line. Model the two-direction loop against an arbitrary oracle; index invariants.",
"C24": "Streamline tracing always terminates. Fuelled loop with bound; controller retries decrease geometrically.",
"C25": "Adaptive step size stays within its limits. Case analysis over an ordered field, pow abstracted to its sign/monotonicity properties.",
"C26": "Integrator coefficient tables are consistent. Rational tables; order conditions by norm_num; constant-field theorem.",
"C27": "max_length and max_t limit the streamline. Model accumulation including the suspected double counting of dt; negation/partial.",
"C28": "End-point classification is total and prioritised. Decision logic over an ordered field.",
"C29": "Magnetosphere topology codes are well defined. Bit flags as Nat; full finite table.",
"C30": "Comment-tolerant JSON leaves valid JSON unchanged. Character-level model; identity on texts without special chars outside strings; negations with witnesses.",
"C31": "Discrete vector identities hold. Difference operators on functions Int^3 -> field; ring identity.",
"C32": "Finite differences are exact for linear fields up to the boundary. Affine data; field_simp.",
"C33": "Point derivatives agree with calculus on linear fields. Model literal index expressions; negation for curl_at_point.",
"C34": "Boundary extension preserves the interior. 1-D list model with multi-step extension.",
"C35": "Clusters are the connected components of the points. Cluster list invariant: partition into connected components, induction over points.",
"C36": "Uniform cell-centred extents match the cell-centred coordinates. Expected false (n instead of n - 1). Negation plus partial.",
"C37": "Cell-centred coordinates interleave node coordinates. List zipWith model.",
"C38": "Temporal datasets stay time-ordered. Stable insertion sort model of list.sort.",
"C39": "Membership test of a temporal dataset agrees with retrieval. Expected false at index 0. Negation plus partial.",
"C40": "File type detection is deterministic and respects priority. Fold over registry.",
"C41": "Face-centred divergence satisfies the discrete divergence theorem. Finite sums telescoping.",
"C42": "Line integrals are trapezoid sums that do not mix lines. Literal flat-array with offsets model vs per-line trapezoid sum.",
"C43": "Quaternion and matrix rotations agree. Polynomial identities over a commutative ring / field.",
"C44": "Euler angles round-trip. cos/sin pairs, Complex.arg as arctan2; all twelve orders.",
"C45": "Geophysical coordinate transforms compose. Group words; generic group, reduction of all 343 triples; cache state machine.",
"C46": "The dipole axis is the z axis of SM and MAG coordinates. cos/sin with arctan2; real algebra.",
"C47": "Building a Cotr from a dipole moment reproduces the moment. Expected false (sign). Negation plus what holds.",
"C48": "Dipole mapping stays on the field line. Real trigonometry.",
"C49": "Spherical and Cartesian conversions are inverse. Real trigonometry; degree path negation.",
"C50": "Plane seed coordinates are orthonormal and invertible. Real vectors with sqrt normalisation.",
"C51": "Seed point enumeration is the Cartesian product in C order. List products.",
"C52": "calc_dip evaluates the dipole formula at every point. Broadcasting shape model; negation and partial for single points.",
"C53": "Null-cell screening keeps every cell that can contain a null. Sign logic over lists of 8 corners; face corner table, negation for XY faces.",
"C54": "Roots found on a face are roots of the bilinear interpolants inside the face. Quadratic formula model over the reals.",
"C55": "Vector layout conversion is lossless. Flat index arithmetic.",
"C56": "Field lookup on a grid follows a fixed resolution order. Decision logic over abstract lookups.",
"C57": "A failed streamline call does not poison later calls. State machine with crash outcome; negation plus partial.",
"C58": "Combined line geometry keeps lines separate. List model with offsets.",
"C59": "A rotation taking a to b exists for every pair of directions. Real vectors; Rodrigues formula.",
"C60": "Setting a node's time takes effect. State update of a node; the stored time before and after.",
"C61": "Interpolating over AMR patches stays inside each patch's arrays. Interp's cached index carried from patch to patch; reads outside an axis are `none`; invariant for equal shapes, witness otherwise.",
"C62": "Arithmetic on AMR fields is patchwise. AMR field = list of patches; operators mapped over them; witness for one-cell patches, where a number comes back.",
"C63": "Convective derivative of an affine field is the directional derivative. As C32, for every component, over any field.",
"C64": "Periodic clusters and single clusters. As C35 with wrapped distances; witnesses for corners, winding and multiple=False.",
"C65": "nc2cc turns nodes into cell centres. As C37; the three constructors of coordinates, witnesses.",
"C66": "Slicing keeps coordinates with the data. One axis; Python slicing as lists of positions; node and cell centred cases separately, witnesses for the failing ones.",
"C67": "Indexing a temporal dataset reaches its children. As C38; the membership test compares an item with tuples, for every dataset.",
"C68": "Face and edge averages use the faces and edges of the same cell. Arrays as functions of three indices; the averages written out per cell.",
"C69": "Axis-angle conversions. Real matrices; half turns from the symmetric part, others from the antisymmetric part.",
"C70": "a2b_rot with new_x orients the x axis. Real vectors; roll angle by arctan2 and its sign.",
"C71": "Great circles join their end points. Rotation of the first point about the normal; end points by C59, C70.",
"C72": "The dipole axis follows the IGRF coefficients. Table lookup and linear interpolation; real trigonometry for the direction.",
"C73": "No dipole tilt on 1 Jan 1967. Days since 1970 to years; the comparison with 1967 within the tolerance.",
"C74": "Coordinate conversions do not depend on the element type. Truncation of results as a parameter of the conversions.",
"C75": "Planes with parallel directions are refused. A vector of nan is `none`; allclose of nan is false.",
"C76": "Seed points given as arrays are read in order. Array shapes; to_seeds for every shape.",
"C77": "Seeds of a sphere lie on it and are distinct. Real trigonometry; distance, angle to the pole, injectivity of (theta, phi).",
"C78": "Sphere meshes match their data. Lists; index arithmetic of the mesh, points at the poles.",
"C79": "Spherical patches lie on the sphere or are refused. Angle arithmetic of the patch and its check.",
"C80": "Line seeds are evenly spaced. linspace over the reals.",
"C81": "Spline seeds are repeatable. The options dict as a state; the spline routines are parameters.",
"C82": "The face root finder misses no root. Any root of the two bilinear functions is among the candidates, by the resultant.",
"C83": "find_nulls always returns. Empty arrays have float elements; indexing with them is an error value.",
"C84": "find_nulls finds isolated nulls. Concrete one-cell field with a null inside.",
"C85": "Nulls are classified by their eigenvalues. Decision logic on three eigenvalues given with multiplicity.",
"C86": "as_layout returns a field. Decision logic of as_layout.",
"C87": "Setting layout converts the field. The cached nr_comp as a state.",
"C88": "Data that does not fit its grid is noticed. detect over all shapes.",
"C89": "Transposed fields keep coordinates and values together. Arrays as functions of index lists; transposition by axes.",
"C90": "Derived GGCM fields come from whatever is in the file. Recursive getters with fuel standing for the recursion limit; for every amount of fuel.",
"C91": "A field that is not there is a KeyError. As C90.",
"C92": "Scalars stay with their lines and vertices. As C58.",
"C93": "Vertices can have colours. As C58; shapes of colour arrays.",
"C94": "Colours become the nearest bytes. Rounding and wrapping modulo 256 over the rationals.",
"C95": "A single colour may be given as a tuple. As C94.",
"C96": "Slicing a field before its data are loaded gives what slicing after loading gives. n axes, each entry a position or a list of positions; picks compose; reversal of axes commutes with picking; per axis C14.",
"C97": "Separator bisection only returns places where the topologies meet. Tracing is a function from uv points to topologies; induction on the depth; the twelve lines reassembled into walks.",
"C98": "Separator bisection ends and misses no separator its walks can see. Fuel for the recursion, enough fuel computed from max_depth; chains of quarters by induction; witnesses for what is missed.",
"C99": "topology_bitor_clusters finds the smallest windows that contain all topologies. Bits of the merged array by induction on the number of sweeps.",
"C100": "Separators can be looked for on every kind of seed. Decision logic of pt_bnds and periodic.",
"C101": "trace_separator follows separators from null to null. The searches are parameters; invariant over lines and stubs.",
"C102": "trace_separator's result does not depend on earlier calls. Histories of calls with a store of files.",
"C103": "Times as 64-bit counts of units with wrap-around; numpy's refusal of factors is a parameter. Invariant over both loops.",
"C104": "Same model; induction over the list.",
"C105": "From C103; witness by kernel computation.",
"C106": "Loop over units by induction, over the rationals.",
"C107": "Splitting at colons, for every float().",
"C108": "The two regular expressions field by field on lists of characters; symbolic digits.",
"C109": "Decimal text of integers.",
"C110": "One left-to-right pass over the text; induction over the format.",
"C111": "Integers and rationals; doubles only for the ends.",
"C112": "Splitting into words on lists of characters; error bound from C106 by linear arithmetic.",
"C113": "Stable insertion sorts: lexicographic order by induction; grouping of consecutive entries by induction.",
"C114": "Induction over the directories.",
"C115": "Decision table against a separate definition of the coordinate systems; histories by the stored answer.",
"C116": "Closed form of the nodes, then linear arithmetic over the rationals.",
"C117": "Both decisions compared; argmin by induction.",
"C118": "Characters as lists; both substitutions keep the absence of a pair of underscores, by induction over tokens.",
"C119": "Text cut into words; separate grammar of equations; both passes by induction over its items.",
"C120": "State machine over lines, by induction over the parts of a file as given by a separate grammar.",
"C121": "Decision table over the integers, and its place at the end of the parser.",
"C122": "Selections as lists of texts and other things; by induction over the list, against a separate definition of naming.",
"C123": "Text generated by a grammar of parts and arrays; both passes over the characters by induction over it.",
"C124": "Parsers of numbers and times are parameters; values written as text are given by a relation, and slices by three of them.",
"C125": "Positions found by the nearest value within a tolerance (lemmas of C15); the tolerance is less than any spacing, by induction over the axis.",
"C126": "Decision table over the kinds of ends, for all axes.",
"C127": "calc_psi as recursion along its two loops over any field of numbers; derivatives by induction, uniqueness of flux functions up to a constant.",
"C128": "The formula at one point over the reals against the documented one.",
"C129": "The proxy item by item, composed with the model of fill_nd_sel_list (C16); what is selected from each axis as a relation.",
"C130": "The breadth-first loop is shown equal to a depth-first one by induction over the parts of the path; a relation for what matches.",
"C131": "Texts as lists of characters; every code is turned into one of six or eight digits; induction over the list.",
"C132": "Element by element for any mapping with distinct keys; the table of the magnetosphere in full.",
"C133": "Loops with a bound on passes (proved to suffice), chains of steps by induction; setup by cases.",
"C134": "The count of times before is the index of a sorted list; the value by field_simp.",
"C135": "Filters and zips of lists; the first multiple of dt beyond the cadence by Nat.find.",
"C136": "The matrix is the quadratic form of variances; Rayleigh's inequality for eigenvectors that need not be at right angles.",
"C137": "Unit vectors as Option, frame identities by linear_combination.",
"C138": "HasDerivAt of the paraboloid, and algebra.",
"C139": "argmax of booleans as findIdx, of the list and of its reverse.",
"C140": "arccos and Cauchy-Schwarz; a concrete column for the violation.",
"C141": "Model convert_coordinates with fields as functions of indices; a lemma for one axis being changed, by a bijection of its indices, then both axes in either order, the transpose, and composition for the round trip.",
"C142": "Model both loops; compute each of the rows.",
"C143": "Model the selection by takeWhile; show which indices are kept by monotonicity, then compose with C141.",
"C144": "Model files as names with the number, if any, that is in the place of the slice; stable sort; selection by the model of std_sel2index (C15); positions of the slice of arange; the names kept by membership. Which patterns are slices is modelled on the parts between colons. Theorems: slices of indices are Python's of a list that is characterised by a relation (InOrder); values by C15_forward_guarantee; independence of the order of the listing since strictly sorted permutations are equal.",
"C145": "Model VFileBucket on the model of Bucket (C05): handles are names, integers or items, items are indices of files ever constructed, or None. Reading, children and types are arguments. Invariant over reachable states: what is under a name was made from that name; proved through loading of children, groups and unloading. byType is stable on each type.",
"C146": "Abstract bucket: children, kind and references by name; a representation relation is preserved by setting, adding and removing references; counts of children are folds over dicts. By induction over histories, references of a child are the sum of its occurrences in all loaded files. unload_all: only KeyErrors can occur, which are passed.",
"C147": "Files are lists of bytes, floats their bytes. A separate specification writes the file of a run. Reading items of one size is the inverse of writing them; positions are sums of lengths of parts; int32 of four bytes by arithmetic; the guess of the endianness by the value of the swapped number.",
"C148": "Trees of elements as a nested inductive type, the reader branch by branch with the state of the parent while its children are read; induction over well formed trees against an independent function listing the grids a file describes.",
"C149": "As C148; an inductive predicate for trees in which every series is in order and agrees with the grids below.",
"C150": "A file is an ordered dict of arrays; writer and reader branch by branch, with the list of names that are left and its removals; round trip by induction over fields and centers.",
"C151": "The dispatch over GeometryType and TopologyType branch by branch; placing arrays by name as a loop over data items with the keys that are left, characterised by induction as a permutation.",
"C152": "Loops over blocks as nested flatMaps, ldims by floor; the inverse map by division with remainder.",
"C153": "Files as lists of bytes, the specification writes a file from the values of a process; the reader takes a component by seeking; indices by induction over the components.",
"C154": "The regular expression as a recursive function on characters; numerals as an inductive relation.",
"C155": "Transposition, detection of the layout, the spatial transposition and reshape as functions on arrays given by shape and index function; raveled indices by induction over the shape.",
"C156": "save_fields as a function to a pair of files (arrays by path, elements of the XDMF file), loading as a function of the pair; the composition is characterised field by field.",
"C157": "arrays2crds as a function of lists of rationals, the axes as a relation between arrays and entries (Forall2), the bound on the distance by induction over the differences.",
"C158": "Shape inference as a decision function; the values by the theorems about layouts (C55), the conditions under which guesses are right are derived from the equations between shapes.",
"C159": "Broadcasting of shapes and indices as in numpy, fields as shape and index function, specification by data and layout alone, induction over the shapes.",
"C160": "The reduction as a function of lists, reshaping with an axis of one point by induction over shape and index.",
"C161": "The trapezoid rule as recursion over lists, np.trapz as sum over indices; exchange of finite sums.",
"C162": "Heap of arrays, views and fields with cache and parent; operations as a step function on worlds; invariants by induction over all histories.",
"C163": "Reuse of the model of coordinate axes (C36, C65) with the conversions of field.py.",
"C164": "Insertion of axes as in the code, reshape by row-major position, independent relation between points without and with the added axes.",
"C165": "The two loops as recursions over the axes, a direct characterisation of the cuts by counting, independent relation between points.",
"C166": "Names and dictionary of arrays as in the code, with the list of names shared by reference.",
"C167": "Model of the three to_dataframe and of the pandas operations they use; induction over axes for the mesh of coordinates and over grids for the concatenation.",
"C168": "Model of from_dataframe; lemmas on drop_duplicates of blocks and meshes, on selection by time, and on the first column that changes.",
"C169": "Transition system of a queue, busy workers and finished work; the finished work is a permutation of all work; results are put at their positions, so their order does not depend on the schedule.",
"C170": "Model of linspace and np.interp; the number of old places that are not above a new one is the floor of its place plus one.",
"C171": "On the model of arithmetic and reductions of fields (C159, C160); arrays of components have the values of the components, for both layouts; algebra for unit vectors.",
"C172": "Model of _get_imp; case analysis on the searches.",
"C173": "Model of the slices; positions of the concatenated differences; for straight lines the norm of a positive multiple.",
"C174": "Tree with deferred nodes, functions by well-founded recursion; a relation for the way down; induction on it.",
"C175": "Mutual recursion over the children with the exception as a value; induction on the way down.",
"C176": "Iterators as what they yield and the exception they end with; mutual induction on trees and lists of children.",
"C177": "np.choose and assignments as broadcasting on the arrays of the Arith model; a lemma that tells when a shape broadcasts with one with an axis more.",
"C178": "Coordinates as lists of rational numbers; a relation between index, cell and place; equivalence for every index.",
"C179": "The coordinates of C178; squares compared as rational numbers and related to the real distance.",
"C180": "Assignments of components one after the other; the formula shown equal to 3 v (m.v)/|v|^5 - m/|v|^3 over the reals.",
"C181": "Extents as intervals of rational numbers with infinities; intervals meet iff they have a point in common.",
"C182": "The selection with newaxis goes through the model of fill_nd_sel_list (C16); induction over the axes of the longest.",
"C183": "Truth of comparisons as in numpy; induction over the patches with the fallback to np.all.",
"C184": "Stacking along a last axis and slicing along it as functions of indices.",
"C185": "The reuse of skeletons as a fold over the series; induction.",
"C186": "Writing through the view as an update of the coordinates of the field; on the updated axis the interpolation at the selected value is at the node, for uniform grids by the formula for the index, for nonuniform by the search.",
"C187": "The sizes of the parts and the order of the arguments decide; case analysis.",
"C188": "Index tuples as what they pick of each axis; the place of an index of the result and its inverse; induction over the entries.",
"C189": "Files as lists of bytes, records with their encoding; a header is decoded where one was encoded; the scan by induction over the records; the order of the values by induction over the axes.",
"C190": "An invariant of the object: what it has seen is right, and complete if it says so; induction over the history.",
"C191": "The Bucket of C05 to C07 with an active child; its invariant after any history gives the effect of each call.",
"C192": "Fields of LazySlice (C96) on axes of Crds (C37); a grid as the relation between points and values, which half a turn maps onto itself.",
"C193": "The dictionary as the list of what is put into it; its members are exactly the names with their meaning, which is a function for names that can be told apart.",
"C194": "Lists of rational nodes; linspace reflected is the linspace of the reflected ends.",
"C195": "Grids as maps of names to fields; lookups return a reference and a new grid; values do not change under renaming, by induction over histories.",
"C196": "Real functions at points; the name decides which stored fields are used.",
"C197": "Invariant over histories for the growing lists; groups by the theorems about OpenGGCM files (C113).",
"C198": "Characters and lists for the header, induction over its lines; the rows are the cells in the order first index fastest, and strided slices of a column are the centres along an axis.",
"C199": "Lists of rows; reshaping by positions in C order.",
"C200": "State machine of the wrapper with its caches, invariant over histories; inserting the component in the list of indices commutes with selecting.",
"C201": "Stacks as one value or a list; broadcasting of two lists; invariant of the fold over the factors: entry k of the result so far is the product of entries k.",
"C202": "Cauchy-Schwarz for the argument of arccos, broadcasting as in C201, parsing of the unit against a relation on texts.",
"C203": "Masks, fills and broadcasting stage by stage on lists with nan as none; each stage commutes with taking entry k.",
"C204": "Memory as a list of arrays with references; one call characterised for every array; invariant over histories: the same up to lengths, and normalising is idempotent.",
"C205": "Nodes as a graph with infos and kinds; find_info and find_attr as in the tree model; breadth first search lemmas; a relation for trimmed and small letters.",
"C206": "As C205, with the branches of as_cotr in order.",
"C207": "Entries of the matrices; an independent formula for turned vectors; induction for the new rows.",
"C208": "A rotation fixes the axis found by either method; a rotation that fixes a unit vector turns about it (Rodrigues).",
"C209": "A heap of attributes, with importable modules counted as attributes in the specification; refinement of the loop to a relation between worlds; dotted texts by a relation.",
"C210": "Nested recursion over trees of classes; relations for the first occurrence of 'file', for lower case and for the order of classes; uniqueness of the class found.",
"C211": "As C210, with the order of subclass_spider; the two real trees by evaluation of their lists, for all texts.",
"C212": "Stacks as one value or a list; eigenvectors by relation; composition of C43, C69 and C201.",
"C213": "Text as lists of characters; regular expressions as deterministic scans, proved equivalent to an existential reading; joined lists by an inductive relation; decimal round trip by Nat.toDigits.",
"C214": "State passing model of the heap cells (data, coordinates); pictures as functions; induction over the number of plots.",
"C215": "Options as a record; folds for nanmin and nanmax with nan as none; least and greatest by induction over patches.",
"C216": "Texts as lists of characters; separators by an inductive relation; options by induction over the list with a last-one-counts specification.",
"C217": "Sorted insertion as an invariant over the list of files; disjoint regions for the assignments; positions by division with remainder.",
"C218": "Binary digits by induction over the number; hexadecimal digits by division with remainder; call signature of iter_fields as the list of its arguments.",
"C219": "Extrema of rows by induction over the fold; cases of order; the loop unrolled for three rows.",
"C220": "Starts of lines and slices by induction over lines with an offset; interpolation by counting nodes below (searchsorted); positions along lines as rational numbers.",
"C221": "Composition of C48 (mapping) with C141 (fields on spheres).",
"C222": "Model: Model/FileCrds.lean, coordinates as lists of rationals. Proof: induction over the list of centres for the relation between centres and nodes; cases of the grid kinds; concrete and general witnesses for the violations.",
"C223": "Model: Model/TimeLike.lean, values by their type, text by a parameter for float and one for numpy's parser, on top of Model/TimeDelta.lean and Model/TimeText.lean. Proof: induction over lists, cases of types, and reuse of C106 to C108 for the violations.",
"C224": "Model of the parser over lists of lines with explicit errors; the file is specified as a list of parts with their lines; an invariant relates what was read to the last part of each kind, by induction over the parts.",
"C225": "Model arrays as shape and function; show by induction over the shape that flattening lists the indices in C order, and transposing first lists them in Fortran order.",
"C226": "Model str.rfind with Python's treatment of ends and the loop of the generator with fuel for the number of values asked for; prove soundness and completeness by induction on the values, and the failures for all texts.",
"C227": "Model the calls with the state each of them finds, in one process and in the parts of Pool.map_async (as in C169); prove that the parts put together are all times in order.",
"C228": "Model the loop over the variables with what it leaves in plot_vars, the splitting of the texts, and the file names; prove places by induction over the variables, options by induction over the pictures, and that file names differ from the value of their digits.",
"C229": "Model the detectors, load with one and with several names and the stable insertion of Dataset.add; prove the detectors against patterns stated as concatenations, and the entries by induction over the names.",
"C230": "Model reload as removing the entries and loading fname, with crds, templates and file wrapper kept on the object; prove what is kept as an invariant over lists of contents.",
"C231": "Model the loops of pop and of slices over arrays as shapes with functions, and np.broadcast_arrays; prove the loops by induction over the axes downwards with the list of axes that are left.",
"C232": "Use the model of get_points of C51 and reshape in C order; prove places from C51_c_order and that axes with one point do not change positions.",
"C233": "Model transform of arrays on top of the model of Cotr, and cotr_transform; prove that columns are transformed each like one vector, and that rows are not.",
"C234": "Model the functions of the module on top of the model of Cotr; compute the rotation by the two angles and compare with an independent formula for the direction of the pole.",
"C235": "Model the pattern as a function on characters, the format of the name, the components and epar on real numbers; prove which names match, that opening always fails, and that epar is the projection.",
"C236": "Model the attributes of files and the two factories; prove what class and options a grid gets as a function of those given, and that grid_opts and the options of a second load have no effect.",
"C237": "Model the reduction over patches and the loop over three columns on the extents of C181; prove the reduction by induction, and the outcome of the loop for all numbers of axes.",
"C238": "Model transposing, rolling and reshaping of arrays as functions of indices; prove by the digits of VTK's numbers of points that each holds the value of the field.",
"C239": "Model the offset of the first arrow on the slices of axes of C66; prove the places by induction-free arithmetic of slices, and the missing arrows for all sizes with the remainder too large.",
"C240": "Model the patches over the reals; prove the sign of x on each half from the sign of the cosine.",
"C241": "Model tables as lists of rows of numbers; prove by the arithmetic of truncation, and the ramp by that of interpolation at nodes.",
"C242": "Model tables as lists; prove the rounding by division of naturals, and that interpolation at nodes is exact.",
"C243": "Model the search on lists of rationals; prove that segments are found by induction over their lengths, and the best candidate from the order of distances and the first least penalty.",
"C244": "Decision logic outright; circles from the ceiling of numpy's arange; plot_iono on the model of selections by name of C16.",
"C245": "Model segments as pairs of lists of numbers and reuse the model of directions of C219; prove the loop that drops by induction from the end.",
"C246": "Model over the reals with cosine and sine; bound the mixture of coefficients by triangle inequality; monotonicity and ends from powers.",
"C247": "Model axes as records and ticks as lists of rationals; limits restored by induction over the loop with shares as an invariant.",
"C248": "Decision logic for nulls; signs of the cosine for the earth; axes of the sphere of C77 for fields.",
"C249": "The import system as a list of outcomes; an invariant of the loop (names done are bound, the list is what stays and what is to come) by induction.",
"C250": "Commands as data, files as a list of names, the pattern of the shell as a decision with an existential specification; splitting and joining at dots as inverses.",
"C251": "The function as a transition of any state, the clock as a sequence; induction over the calls; the median by counting in the sorted list.",
"C252": "The constructor over the model of Sphere; angles of points by the axis of theta and rotations that keep lengths; argmax by induction.",
"C253": "Numbers as rational numbers with a kind and none for not finite; numexpr as an evaluator of expressions with names bound to arguments; values at each place by zipWith and map.",
"C254": "The line as a list of points; python's max and min as folds with comparisons that fail for nan; settings as a list of actions.",
"C255": "Patches as any states; induction over the patches called, with an independent relation of calls that ran.",
"C256": "Fold over the options with an independent notion of the last -o before the next -p; texts as lists of characters; loops over grids and variables as functions that may raise.",
"C257": "Exact arithmetic for the grid with an independent notion of an evenly spaced axis; induction over sources and figures for clearing.",
"C258": "Dictionaries as functions from names; the steps that reconcile position and orientation one by one; case analysis over the documented values, all other options and values being arbitrary.",
"C259": "Dictionaries as lists of items; lookups after the steps that fill them, by induction over the names.",
"C260": "Formulas of the plane and the sphere in the reals with an independent notion of latitude and longitude; trigonometric identities.",
"C261": "Transition system with the search for a unit and the connection as separate steps under the lock; invariant by induction over schedules.",
"C262": "Model textwrap's loop on chunks with a measure; conserve the letters by induction over turns; lines of the indented text by induction over characters.",
"C263": "Compose the reader of C189 with make_crds, the transposition and the reshape of fields; the places by arithmetic of indices in C order.",
"C264": "Model memory as buffers and arrays as offsets and strides; show that numpy's flag means that places are positions in C order, and that copies are in new buffers.",
"C265": "Model elements as trees, find and findall, and dictionaries by reference; induction over the Information elements.",
"C266": "Extend the memory model of Contig by source, cache, zyx_native and copy; invariants over histories: a field that is its own source, and a frame of buffers a field may touch.",
"C267": "Model lists by reference; refinement of every history to a map of parents per node, with the invariant that every list has one node.",
"C268": "Follow the caller's list beside the state of the bucket of C05; use its invariant for every history.",
"C269": "Extend the memory model of C266 by loading a list of components; induction over the components with memory that only gets new arrays, and the frame of C266.",
"C270": "Model the loop over axis names with KeyError as a flag; induction over the names.",
"C271": "Extend the meshes of C78 by lists of arrays with types; use C78 for the layout, and conversion is the identity on values of the type."
}