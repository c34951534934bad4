# Design of the Viscid formal model

Subject: KristoforMaynard/Viscid at the pinned commit in `/repo`. The code was read as text only; nothing was run.
The model and proofs are Lean 4 (4.33.0), under `lean/Verif/`.

This file is put together by `tools/design.py` from `tools/design_head.md`, `tools/plan.json` (one line per property, written
before its proof), the headers of the model files, `MANIFEST.json` and the output of `#print axioms`.

## Layout

* `Verif/Model/*.lean`  executable definitions, each with a comment citing file and lines in `/repo`.
* `Verif/Spec/*.lean`   small independent specifications (no import of the model where possible).
* `Verif/Lemmas/*.lean` helper lemmas.
* `Verif/Props/*.lean`  the theorems, named after the property (`C17_...`), and `example`s showing that their hypotheses can
  be met.

Theorem names: `_partial` proves part of the property (the doc comment says what is missing), `_violated` proves that the code
disagrees with the property, by a concrete witness or for a whole class of inputs. A property with a theorem of either kind is
"partial" in MANIFEST.json.

## Trusted base

* Lean's kernel, and the axioms `propext`, `Classical.choice`, `Quot.sound` (standard Lean axioms; nothing else). The table at
  the end says which theorem depends on which of them.
* The reading of the code: every definition cites what it models; the code was not executed, so that the agreement of model and
  code rests on that reading alone.
* The parts of Python, numpy, h5py and the like the models use (slicing, dicts, broadcasting, `arctan2`, ...), written down
  from their documentation: `Spec/Slice.lean` (slices), `Model/Dict.lean` (dicts), and definitions next to their use.
* Mathlib's definitions of the real numbers, `Real.sqrt/sin/cos/exp/log`, `Complex.arg` where used.

## General modelling decisions

* Python ints are `Int`/`Nat`; floats are elements of an ordered field (`Rat`), or `Real` where roots,
  logarithms or trigonometry occur. Floating point rounding, infinities and signed zeros are **not** modelled; NaN is `none`
  where the code can meet it.
* numpy arrays are `List`s or functions from indices, shapes explicit where a property is about shape.
* Exceptions are values (`Except`/`Option`). Logging is dropped.
* Object identity is modelled by explicit ids where the code uses `is`.
* Threads/processes: `multiprocessing`'s and `concurrent.futures`' promise to return results in
  submission order is assumed; the scatter/gather logic around it is modelled.

## Not modelled at all

* Plotting (`plot/`), the command line tools, `vlab`, `tools/`, `compat/`, tests and documentation.
* Parsing of XDMF, HDF5, VPIC, PSC, Athena and Gkeyll files and writing of files; of the readers only type detection, the
  JRRLE codec, field lookup of JRRLE files, and of the GGCM readers the getters of grids, grouping and searching of files,
  headers' times, grid2 coordinates, the choice of coordinate system and the log file's state machine.
* Calendar parsing of dates (left to numpy; a parameter); the evaluator's numexpr path and `eval` itself; `pyeval`, `extools`.
* The numerical libraries: eigenvalues, splines, HDF5, XML, regular expressions and the standard `json` are parameters.

## Plan per property

* **C01** Contiguous chunking is a balanced partition. Model chunk_slices loops literally; induct to closed form; partition theorem.
* **C02** Chunk sizes agree with both chunkings. Closed form of sizes vs. slice lengths; interslice lengths by counting residues.
* **C03** Scatter/gather of streamline work is independent of the number of workers. Model gather as strided assignment; prove for all i via i = (i mod k) + k*(i/k).
* **C04** The size argument of the chunk functions controls chunk size. Expected false: code divides by nchunks, not size. Prove negation with witness; prove what does hold.
* **C05** Bucket bookkeeping stays consistent. State = the four dicts as association lists/functions; invariant by induction over op lists.
* **C06** Bucket lookup returns the last item set under a handle. Refinement to a function handle -> Option item, per-operation simulation.
* **C07** Bucket reference counts keep an item alive exactly while it is referenced. Invariant linking count to history; operation traces on a single item.
* **C08** Metadata lookup finds the nearest ancestor. Graph = finite parent map; BFS with fuel bounded by node count; nearest-by-distance theorem.
* **C09** Attribute lookup through parents returns the attribute or the default. Expected false (unbound variable on the success path). Prove negation; partial: default path.
* **C10** JRRLE records round-trip. Byte lists; encoder and decoder as recursive functions; round-trip by induction on runs.
* **C11** JRRLE quantised values round-trip with sign. Int arithmetic for index split; reals for the quantisation bound.
* **C12** JRRLE decoding of arbitrary lines is memory safe and detects corruption. Model work-array writes; overrun witness (negation), partial: returned length; checksum theorem.
* **C13** JRRLE field lookup does not depend on access history. State machine over a fixed list of fields; invariant: seen = dedup of a prefix.
* **C14** Forward-only slicing is equivalent to the requested slice. Int model of the branches and Python slicing; prove per-branch; negation for start == L with step <= -2.
* **C15** Selecting by value picks the nearest / enclosed grid points. Lists over an ordered field, argmin model; filter characterisation.
* **C16** Selections expand to one entry per axis. List model of selection expansion.
* **C17** Trilinear interpolation is exact at grid points and never overshoots. Multilinear interpolation over an ordered field; bounds by convexity.
* **C18** Bracketing index search is correct and independent of its cache. Loop model with cache start index; bracket theorem by induction on the search loops.
* **C19** Nearest-neighbour interpolation returns the nearest sample. Same model; nearest by cases on midpoint comparison.
* **C20** AMR neighbour lists are symmetric. Double loop over pairs; neighbour table as function; symmetric by construction invariant.
* **C21** AMR point location finds a containing patch whenever one exists. State machine with active patch; containment theorem; history independence under uniqueness.
* **C22** AMR whole-field reductions equal reductions over all data. Fold of folds vs fold of concatenation; mean: expected false for unequal patches (negation + partial).
* **C23** Streamline buffers are never overrun and the seed is on the line. Model the two-direction loop against an arbitrary oracle; index invariants.
* **C24** Streamline tracing always terminates. Fuelled loop with bound; controller retries decrease geometrically.
* **C25** Adaptive step size stays within its limits. Case analysis over an ordered field, pow abstracted to its sign/monotonicity properties.
* **C26** Integrator coefficient tables are consistent. Rational tables; order conditions by norm_num; constant-field theorem.
* **C27** max_length and max_t limit the streamline. Model accumulation including the suspected double counting of dt; negation/partial.
* **C28** End-point classification is total and prioritised. Decision logic over an ordered field.
* **C29** Magnetosphere topology codes are well defined. Bit flags as Nat; full finite table.
* **C30** Comment-tolerant JSON leaves valid JSON unchanged. Character-level model; identity on texts without special chars outside strings; negations with witnesses.
* **C31** Discrete vector identities hold. Difference operators on functions Int^3 -> field; ring identity.
* **C32** Finite differences are exact for linear fields up to the boundary. Affine data; field_simp.
* **C33** Point derivatives agree with calculus on linear fields. Model literal index expressions; negation for curl_at_point.
* **C34** Boundary extension preserves the interior. 1-D list model with multi-step extension.
* **C35** Clusters are the connected components of the points. Cluster list invariant: partition into connected components, induction over points.
* **C36** Uniform cell-centred extents match the cell-centred coordinates. Expected false (n instead of n - 1). Negation plus partial.
* **C37** Cell-centred coordinates interleave node coordinates. List zipWith model.
* **C38** Temporal datasets stay time-ordered. Stable insertion sort model of list.sort.
* **C39** Membership test of a temporal dataset agrees with retrieval. Expected false at index 0. Negation plus partial.
* **C40** File type detection is deterministic and respects priority. Fold over registry.
* **C41** Face-centred divergence satisfies the discrete divergence theorem. Finite sums telescoping.
* **C42** Line integrals are trapezoid sums that do not mix lines. Literal flat-array with offsets model vs per-line trapezoid sum.
* **C43** Quaternion and matrix rotations agree. Polynomial identities over a commutative ring / field.
* **C44** Euler angles round-trip. cos/sin pairs, Complex.arg as arctan2; all twelve orders.
* **C45** Geophysical coordinate transforms compose. Group words; generic group, reduction of all 343 triples; cache state machine.
* **C46** The dipole axis is the z axis of SM and MAG coordinates. cos/sin with arctan2; real algebra.
* **C47** Building a Cotr from a dipole moment reproduces the moment. Expected false (sign). Negation plus what holds.
* **C48** Dipole mapping stays on the field line. Real trigonometry.
* **C49** Spherical and Cartesian conversions are inverse. Real trigonometry; degree path negation.
* **C50** Plane seed coordinates are orthonormal and invertible. Real vectors with sqrt normalisation.
* **C51** Seed point enumeration is the Cartesian product in C order. List products.
* **C52** calc_dip evaluates the dipole formula at every point. Broadcasting shape model; negation and partial for single points.
* **C53** Null-cell screening keeps every cell that can contain a null. Sign logic over lists of 8 corners; face corner table, negation for XY faces.
* **C54** Roots found on a face are roots of the bilinear interpolants inside the face. Quadratic formula model over the reals.
* **C55** Vector layout conversion is lossless. Flat index arithmetic.
* **C56** Field lookup on a grid follows a fixed resolution order. Decision logic over abstract lookups.
* **C57** A failed streamline call does not poison later calls. State machine with crash outcome; negation plus partial.
* **C58** Combined line geometry keeps lines separate. List model with offsets.
* **C59** A rotation taking a to b exists for every pair of directions. Real vectors; Rodrigues formula.
* **C60** Setting a node's time takes effect. State update of a node; the stored time before and after.
* **C61** Interpolating over AMR patches stays inside each patch's arrays. Interp's cached index carried from patch to patch; reads outside an axis are `none`; invariant for equal shapes, witness otherwise.
* **C62** Arithmetic on AMR fields is patchwise. AMR field = list of patches; operators mapped over them; witness for one-cell patches, where a number comes back.
* **C63** Convective derivative of an affine field is the directional derivative. As C32, for every component, over any field.
* **C64** Periodic clusters and single clusters. As C35 with wrapped distances; witnesses for corners, winding and multiple=False.
* **C65** nc2cc turns nodes into cell centres. As C37; the three constructors of coordinates, witnesses.
* **C66** Slicing keeps coordinates with the data. One axis; Python slicing as lists of positions; node and cell centred cases separately, witnesses for the failing ones.
* **C67** Indexing a temporal dataset reaches its children. As C38; the membership test compares an item with tuples, for every dataset.
* **C68** Face and edge averages use the faces and edges of the same cell. Arrays as functions of three indices; the averages written out per cell.
* **C69** Axis-angle conversions. Real matrices; half turns from the symmetric part, others from the antisymmetric part.
* **C70** a2b_rot with new_x orients the x axis. Real vectors; roll angle by arctan2 and its sign.
* **C71** Great circles join their end points. Rotation of the first point about the normal; end points by C59, C70.
* **C72** The dipole axis follows the IGRF coefficients. Table lookup and linear interpolation; real trigonometry for the direction.
* **C73** No dipole tilt on 1 Jan 1967. Days since 1970 to years; the comparison with 1967 within the tolerance.
* **C74** Coordinate conversions do not depend on the element type. Truncation of results as a parameter of the conversions.
* **C75** Planes with parallel directions are refused. A vector of nan is `none`; allclose of nan is false.
* **C76** Seed points given as arrays are read in order. Array shapes; to_seeds for every shape.
* **C77** Seeds of a sphere lie on it and are distinct. Real trigonometry; distance, angle to the pole, injectivity of (theta, phi).
* **C78** Sphere meshes match their data. Lists; index arithmetic of the mesh, points at the poles.
* **C79** Spherical patches lie on the sphere or are refused. Angle arithmetic of the patch and its check.
* **C80** Line seeds are evenly spaced. linspace over the reals.
* **C81** Spline seeds are repeatable. The options dict as a state; the spline routines are parameters.
* **C82** The face root finder misses no root. Any root of the two bilinear functions is among the candidates, by the resultant.
* **C83** find_nulls always returns. Empty arrays have float elements; indexing with them is an error value.
* **C84** find_nulls finds isolated nulls. Concrete one-cell field with a null inside.
* **C85** Nulls are classified by their eigenvalues. Decision logic on three eigenvalues given with multiplicity.
* **C86** as_layout returns a field. Decision logic of as_layout.
* **C87** Setting layout converts the field. The cached nr_comp as a state.
* **C88** Data that does not fit its grid is noticed. detect over all shapes.
* **C89** Transposed fields keep coordinates and values together. Arrays as functions of index lists; transposition by axes.
* **C90** Derived GGCM fields come from whatever is in the file. Recursive getters with fuel standing for the recursion limit; for every amount of fuel.
* **C91** A field that is not there is a KeyError. As C90.
* **C92** Scalars stay with their lines and vertices. As C58.
* **C93** Vertices can have colours. As C58; shapes of colour arrays.
* **C94** Colours become the nearest bytes. Rounding and wrapping modulo 256 over the rationals.
* **C95** A single colour may be given as a tuple. As C94.
* **C96** Slicing a field before its data are loaded gives what slicing after loading gives. n axes, each entry a position or a list of positions; picks compose; reversal of axes commutes with picking; per axis C14.
* **C97** Separator bisection only returns places where the topologies meet. Tracing is a function from uv points to topologies; induction on the depth; the twelve lines reassembled into walks.
* **C98** Separator bisection ends and misses no separator its walks can see. Fuel for the recursion, enough fuel computed from max_depth; chains of quarters by induction; witnesses for what is missed.
* **C99** topology_bitor_clusters finds the smallest windows that contain all topologies. Bits of the merged array by induction on the number of sweeps.
* **C100** Separators can be looked for on every kind of seed. Decision logic of pt_bnds and periodic.
* **C101** trace_separator follows separators from null to null. The searches are parameters; invariant over lines and stubs.
* **C102** trace_separator's result does not depend on earlier calls. Histories of calls with a store of files.
* **C103** Times as 64-bit counts of units with wrap-around; numpy's refusal of factors is a parameter. Invariant over both loops.
* **C104** Same model; induction over the list.
* **C105** From C103; witness by kernel computation.
* **C106** Loop over units by induction, over the rationals.
* **C107** Splitting at colons, for every float().
* **C108** The two regular expressions field by field on lists of characters; symbolic digits.
* **C109** Decimal text of integers.
* **C110** One left-to-right pass over the text; induction over the format.
* **C111** Integers and rationals; doubles only for the ends.
* **C112** Splitting into words on lists of characters; error bound from C106 by linear arithmetic.
* **C113** Stable insertion sorts: lexicographic order by induction; grouping of consecutive entries by induction.
* **C114** Induction over the directories.
* **C115** Decision table against a separate definition of the coordinate systems; histories by the stored answer.
* **C116** Closed form of the nodes, then linear arithmetic over the rationals.
* **C117** Both decisions compared; argmin by induction.
* **C118** Characters as lists; both substitutions keep the absence of a pair of underscores, by induction over tokens.
* **C119** Text cut into words; separate grammar of equations; both passes by induction over its items.
* **C120** State machine over lines, by induction over the parts of a file as given by a separate grammar.
* **C121** Decision table over the integers, and its place at the end of the parser.
* **C122** Selections as lists of texts and other things; by induction over the list, against a separate definition of naming.
* **C123** Text generated by a grammar of parts and arrays; both passes over the characters by induction over it.
* **C124** Parsers of numbers and times are parameters; values written as text are given by a relation, and slices by three of them.
* **C125** Positions found by the nearest value within a tolerance (lemmas of C15); the tolerance is less than any spacing, by induction over the axis.
* **C126** Decision table over the kinds of ends, for all axes.
* **C127** calc_psi as recursion along its two loops over any field of numbers; derivatives by induction, uniqueness of flux functions up to a constant.
* **C128** The formula at one point over the reals against the documented one.
* **C129** The proxy item by item, composed with the model of fill_nd_sel_list (C16); what is selected from each axis as a relation.
* **C130** The breadth-first loop is shown equal to a depth-first one by induction over the parts of the path; a relation for what matches.
* **C131** Texts as lists of characters; every code is turned into one of six or eight digits; induction over the list.
* **C132** Element by element for any mapping with distinct keys; the table of the magnetosphere in full.
* **C133** Loops with a bound on passes (proved to suffice), chains of steps by induction; setup by cases.
* **C134** The count of times before is the index of a sorted list; the value by field_simp.
* **C135** Filters and zips of lists; the first multiple of dt beyond the cadence by Nat.find.
* **C136** The matrix is the quadratic form of variances; Rayleigh's inequality for eigenvectors that need not be at right angles.
* **C137** Unit vectors as Option, frame identities by linear_combination.
* **C138** HasDerivAt of the paraboloid, and algebra.
* **C139** argmax of booleans as findIdx, of the list and of its reverse.
* **C140** arccos and Cauchy-Schwarz; a concrete column for the violation.
* **C141** Model convert_coordinates with fields as functions of indices; a lemma for one axis being changed, by a bijection of its indices, then both axes in either order, the transpose, and composition for the round trip.
* **C142** Model both loops; compute each of the rows.
* **C143** Model the selection by takeWhile; show which indices are kept by monotonicity, then compose with C141.
* **C144** Model files as names with the number, if any, that is in the place of the slice; stable sort; selection by the model of std_sel2index (C15); positions of the slice of arange; the names kept by membership. Which patterns are slices is modelled on the parts between colons. Theorems: slices of indices are Python's of a list that is characterised by a relation (InOrder); values by C15_forward_guarantee; independence of the order of the listing since strictly sorted permutations are equal.
* **C145** Model VFileBucket on the model of Bucket (C05): handles are names, integers or items, items are indices of files ever constructed, or None. Reading, children and types are arguments. Invariant over reachable states: what is under a name was made from that name; proved through loading of children, groups and unloading. byType is stable on each type.
* **C146** Abstract bucket: children, kind and references by name; a representation relation is preserved by setting, adding and removing references; counts of children are folds over dicts. By induction over histories, references of a child are the sum of its occurrences in all loaded files. unload_all: only KeyErrors can occur, which are passed.
* **C147** Files are lists of bytes, floats their bytes. A separate specification writes the file of a run. Reading items of one size is the inverse of writing them; positions are sums of lengths of parts; int32 of four bytes by arithmetic; the guess of the endianness by the value of the swapped number.
* **C148** Trees of elements as a nested inductive type, the reader branch by branch with the state of the parent while its children are read; induction over well formed trees against an independent function listing the grids a file describes.
* **C149** As C148; an inductive predicate for trees in which every series is in order and agrees with the grids below.
* **C150** A file is an ordered dict of arrays; writer and reader branch by branch, with the list of names that are left and its removals; round trip by induction over fields and centers.
* **C151** The dispatch over GeometryType and TopologyType branch by branch; placing arrays by name as a loop over data items with the keys that are left, characterised by induction as a permutation.
* **C152** Loops over blocks as nested flatMaps, ldims by floor; the inverse map by division with remainder.
* **C153** Files as lists of bytes, the specification writes a file from the values of a process; the reader takes a component by seeking; indices by induction over the components.
* **C154** The regular expression as a recursive function on characters; numerals as an inductive relation.
* **C155** Transposition, detection of the layout, the spatial transposition and reshape as functions on arrays given by shape and index function; raveled indices by induction over the shape.
* **C156** save_fields as a function to a pair of files (arrays by path, elements of the XDMF file), loading as a function of the pair; the composition is characterised field by field.
* **C157** arrays2crds as a function of lists of rationals, the axes as a relation between arrays and entries (Forall2), the bound on the distance by induction over the differences.
* **C158** Shape inference as a decision function; the values by the theorems about layouts (C55), the conditions under which guesses are right are derived from the equations between shapes.
* **C159** Broadcasting of shapes and indices as in numpy, fields as shape and index function, specification by data and layout alone, induction over the shapes.
* **C160** The reduction as a function of lists, reshaping with an axis of one point by induction over shape and index.
* **C161** The trapezoid rule as recursion over lists, np.trapz as sum over indices; exchange of finite sums.
* **C162** Heap of arrays, views and fields with cache and parent; operations as a step function on worlds; invariants by induction over all histories.
* **C163** Reuse of the model of coordinate axes (C36, C65) with the conversions of field.py.
* **C164** Insertion of axes as in the code, reshape by row-major position, independent relation between points without and with the added axes.
* **C165** The two loops as recursions over the axes, a direct characterisation of the cuts by counting, independent relation between points.
* **C166** Names and dictionary of arrays as in the code, with the list of names shared by reference.
* **C167** Model of the three to_dataframe and of the pandas operations they use; induction over axes for the mesh of coordinates and over grids for the concatenation.
* **C168** Model of from_dataframe; lemmas on drop_duplicates of blocks and meshes, on selection by time, and on the first column that changes.
* **C169** Transition system of a queue, busy workers and finished work; the finished work is a permutation of all work; results are put at their positions, so their order does not depend on the schedule.
* **C170** Model of linspace and np.interp; the number of old places that are not above a new one is the floor of its place plus one.
* **C171** On the model of arithmetic and reductions of fields (C159, C160); arrays of components have the values of the components, for both layouts; algebra for unit vectors.
* **C172** Model of _get_imp; case analysis on the searches.
* **C173** Model of the slices; positions of the concatenated differences; for straight lines the norm of a positive multiple.
* **C174** Tree with deferred nodes, functions by well-founded recursion; a relation for the way down; induction on it.
* **C175** Mutual recursion over the children with the exception as a value; induction on the way down.
* **C176** Iterators as what they yield and the exception they end with; mutual induction on trees and lists of children.
* **C177** np.choose and assignments as broadcasting on the arrays of the Arith model; a lemma that tells when a shape broadcasts with one with an axis more.
* **C178** Coordinates as lists of rational numbers; a relation between index, cell and place; equivalence for every index.
* **C179** The coordinates of C178; squares compared as rational numbers and related to the real distance.
* **C180** Assignments of components one after the other; the formula shown equal to 3 v (m.v)/|v|^5 - m/|v|^3 over the reals.
* **C181** Extents as intervals of rational numbers with infinities; intervals meet iff they have a point in common.
* **C182** The selection with newaxis goes through the model of fill_nd_sel_list (C16); induction over the axes of the longest.
* **C183** Truth of comparisons as in numpy; induction over the patches with the fallback to np.all.
* **C184** Stacking along a last axis and slicing along it as functions of indices.
* **C185** The reuse of skeletons as a fold over the series; induction.
* **C186** Writing through the view as an update of the coordinates of the field; on the updated axis the interpolation at the selected value is at the node, for uniform grids by the formula for the index, for nonuniform by the search.
* **C187** The sizes of the parts and the order of the arguments decide; case analysis.
* **C188** Index tuples as what they pick of each axis; the place of an index of the result and its inverse; induction over the entries.
* **C189** Files as lists of bytes, records with their encoding; a header is decoded where one was encoded; the scan by induction over the records; the order of the values by induction over the axes.
* **C190** An invariant of the object: what it has seen is right, and complete if it says so; induction over the history.
* **C191** The Bucket of C05 to C07 with an active child; its invariant after any history gives the effect of each call.
* **C192** Fields of LazySlice (C96) on axes of Crds (C37); a grid as the relation between points and values, which half a turn maps onto itself.
* **C193** The dictionary as the list of what is put into it; its members are exactly the names with their meaning, which is a function for names that can be told apart.
* **C194** Lists of rational nodes; linspace reflected is the linspace of the reflected ends.
* **C195** Grids as maps of names to fields; lookups return a reference and a new grid; values do not change under renaming, by induction over histories.
* **C196** Real functions at points; the name decides which stored fields are used.
* **C197** Invariant over histories for the growing lists; groups by the theorems about OpenGGCM files (C113).
* **C198** Characters and lists for the header, induction over its lines; the rows are the cells in the order first index fastest, and strided slices of a column are the centres along an axis.
* **C199** Lists of rows; reshaping by positions in C order.
* **C200** State machine of the wrapper with its caches, invariant over histories; inserting the component in the list of indices commutes with selecting.
* **C201** Stacks as one value or a list; broadcasting of two lists; invariant of the fold over the factors: entry k of the result so far is the product of entries k.
* **C202** Cauchy-Schwarz for the argument of arccos, broadcasting as in C201, parsing of the unit against a relation on texts.
* **C203** Masks, fills and broadcasting stage by stage on lists with nan as none; each stage commutes with taking entry k.
* **C204** Memory as a list of arrays with references; one call characterised for every array; invariant over histories: the same up to lengths, and normalising is idempotent.
* **C205** Nodes as a graph with infos and kinds; find_info and find_attr as in the tree model; breadth first search lemmas; a relation for trimmed and small letters.
* **C206** As C205, with the branches of as_cotr in order.
* **C207** Entries of the matrices; an independent formula for turned vectors; induction for the new rows.
* **C208** A rotation fixes the axis found by either method; a rotation that fixes a unit vector turns about it (Rodrigues).
* **C209** A heap of attributes, with importable modules counted as attributes in the specification; refinement of the loop to a relation between worlds; dotted texts by a relation.
* **C210** Nested recursion over trees of classes; relations for the first occurrence of 'file', for lower case and for the order of classes; uniqueness of the class found.
* **C211** As C210, with the order of subclass_spider; the two real trees by evaluation of their lists, for all texts.
* **C212** Stacks as one value or a list; eigenvectors by relation; composition of C43, C69 and C201.
* **C213** Text as lists of characters; regular expressions as deterministic scans, proved equivalent to an existential reading; joined lists by an inductive relation; decimal round trip by Nat.toDigits.
* **C214** State passing model of the heap cells (data, coordinates); pictures as functions; induction over the number of plots.
* **C215** Options as a record; folds for nanmin and nanmax with nan as none; least and greatest by induction over patches.
* **C216** Texts as lists of characters; separators by an inductive relation; options by induction over the list with a last-one-counts specification.
* **C217** Sorted insertion as an invariant over the list of files; disjoint regions for the assignments; positions by division with remainder.
* **C218** Binary digits by induction over the number; hexadecimal digits by division with remainder; call signature of iter_fields as the list of its arguments.
* **C219** Extrema of rows by induction over the fold; cases of order; the loop unrolled for three rows.
* **C220** Starts of lines and slices by induction over lines with an offset; interpolation by counting nodes below (searchsorted); positions along lines as rational numbers.
* **C221** Composition of C48 (mapping) with C141 (fields on spheres).
* **C222** Model: Model/FileCrds.lean, coordinates as lists of rationals. Proof: induction over the list of centres for the relation between centres and nodes; cases of the grid kinds; concrete and general witnesses for the violations.
* **C223** Model: Model/TimeLike.lean, values by their type, text by a parameter for float and one for numpy's parser, on top of Model/TimeDelta.lean and Model/TimeText.lean. Proof: induction over lists, cases of types, and reuse of C106 to C108 for the violations.
* **C224** Model of the parser over lists of lines with explicit errors; the file is specified as a list of parts with their lines; an invariant relates what was read to the last part of each kind, by induction over the parts.
* **C225** Model arrays as shape and function; show by induction over the shape that flattening lists the indices in C order, and transposing first lists them in Fortran order.
* **C226** Model str.rfind with Python's treatment of ends and the loop of the generator with fuel for the number of values asked for; prove soundness and completeness by induction on the values, and the failures for all texts.
* **C227** Model the calls with the state each of them finds, in one process and in the parts of Pool.map_async (as in C169); prove that the parts put together are all times in order.
* **C228** Model the loop over the variables with what it leaves in plot_vars, the splitting of the texts, and the file names; prove places by induction over the variables, options by induction over the pictures, and that file names differ from the value of their digits.
* **C229** Model the detectors, load with one and with several names and the stable insertion of Dataset.add; prove the detectors against patterns stated as concatenations, and the entries by induction over the names.
* **C230** Model reload as removing the entries and loading fname, with crds, templates and file wrapper kept on the object; prove what is kept as an invariant over lists of contents.
* **C231** Model the loops of pop and of slices over arrays as shapes with functions, and np.broadcast_arrays; prove the loops by induction over the axes downwards with the list of axes that are left.
* **C232** Use the model of get_points of C51 and reshape in C order; prove places from C51_c_order and that axes with one point do not change positions.
* **C233** Model transform of arrays on top of the model of Cotr, and cotr_transform; prove that columns are transformed each like one vector, and that rows are not.
* **C234** Model the functions of the module on top of the model of Cotr; compute the rotation by the two angles and compare with an independent formula for the direction of the pole.
* **C235** Model the pattern as a function on characters, the format of the name, the components and epar on real numbers; prove which names match, that opening always fails, and that epar is the projection.
* **C236** Model the attributes of files and the two factories; prove what class and options a grid gets as a function of those given, and that grid_opts and the options of a second load have no effect.
* **C237** Model the reduction over patches and the loop over three columns on the extents of C181; prove the reduction by induction, and the outcome of the loop for all numbers of axes.
* **C238** Model transposing, rolling and reshaping of arrays as functions of indices; prove by the digits of VTK's numbers of points that each holds the value of the field.
* **C239** Model the offset of the first arrow on the slices of axes of C66; prove the places by induction-free arithmetic of slices, and the missing arrows for all sizes with the remainder too large.
* **C240** Model the patches over the reals; prove the sign of x on each half from the sign of the cosine.
* **C241** Model tables as lists of rows of numbers; prove by the arithmetic of truncation, and the ramp by that of interpolation at nodes.
* **C242** Model tables as lists; prove the rounding by division of naturals, and that interpolation at nodes is exact.
* **C243** Model the search on lists of rationals; prove that segments are found by induction over their lengths, and the best candidate from the order of distances and the first least penalty.
* **C244** Decision logic outright; circles from the ceiling of numpy's arange; plot_iono on the model of selections by name of C16.
* **C245** Model segments as pairs of lists of numbers and reuse the model of directions of C219; prove the loop that drops by induction from the end.
* **C246** Model over the reals with cosine and sine; bound the mixture of coefficients by triangle inequality; monotonicity and ends from powers.
* **C247** Model axes as records and ticks as lists of rationals; limits restored by induction over the loop with shares as an invariant.
* **C248** Decision logic for nulls; signs of the cosine for the earth; axes of the sphere of C77 for fields.
* **C249** The import system as a list of outcomes; an invariant of the loop (names done are bound, the list is what stays and what is to come) by induction.
* **C250** Commands as data, files as a list of names, the pattern of the shell as a decision with an existential specification; splitting and joining at dots as inverses.
* **C251** The function as a transition of any state, the clock as a sequence; induction over the calls; the median by counting in the sorted list.
* **C252** The constructor over the model of Sphere; angles of points by the axis of theta and rotations that keep lengths; argmax by induction.
* **C253** Numbers as rational numbers with a kind and none for not finite; numexpr as an evaluator of expressions with names bound to arguments; values at each place by zipWith and map.
* **C254** The line as a list of points; python's max and min as folds with comparisons that fail for nan; settings as a list of actions.
* **C255** Patches as any states; induction over the patches called, with an independent relation of calls that ran.
* **C256** Fold over the options with an independent notion of the last -o before the next -p; texts as lists of characters; loops over grids and variables as functions that may raise.
* **C257** Exact arithmetic for the grid with an independent notion of an evenly spaced axis; induction over sources and figures for clearing.
* **C258** Dictionaries as functions from names; the steps that reconcile position and orientation one by one; case analysis over the documented values, all other options and values being arbitrary.
* **C259** Dictionaries as lists of items; lookups after the steps that fill them, by induction over the names.
* **C260** Formulas of the plane and the sphere in the reals with an independent notion of latitude and longitude; trigonometric identities.
* **C261** Transition system with the search for a unit and the connection as separate steps under the lock; invariant by induction over schedules.
* **C262** Model textwrap's loop on chunks with a measure; conserve the letters by induction over turns; lines of the indented text by induction over characters.
* **C263** Compose the reader of C189 with make_crds, the transposition and the reshape of fields; the places by arithmetic of indices in C order.
* **C264** Model memory as buffers and arrays as offsets and strides; show that numpy's flag means that places are positions in C order, and that copies are in new buffers.
* **C265** Model elements as trees, find and findall, and dictionaries by reference; induction over the Information elements.
* **C266** Extend the memory model of Contig by source, cache, zyx_native and copy; invariants over histories: a field that is its own source, and a frame of buffers a field may touch.
* **C267** Model lists by reference; refinement of every history to a map of parents per node, with the invariant that every list has one node.
* **C268** Follow the caller's list beside the state of the bucket of C05; use its invariant for every history.
* **C269** Extend the memory model of C266 by loading a list of components; induction over the components with memory that only gets new arrays, and the frame of C266.
* **C270** Model the loop over axis names with KeyError as a flag; induction over the names.
* **C271** Extend the meshes of C78 by lists of arrays with types; use C78 for the layout, and conversion is the identity on values of the type.

## What is modelled

From the headers of the model files; each definition cites its lines.

* `A2b.lean`: `viscid/rotation.py`: angles between vectors, rotations from vectors to vectors, for stacks of vectors nan is `none`. (cites rotation.py, viscid/rotation.py)
* `A2bHeap.lean`: `viscid/rotation.py`: arrays that functions of rotations change in place An array is memory with a type of numbers; a list is made into a new array, as is an array of other numbers than doubles. References are positions in a list of arrays. (cites rotation.py, viscid/rotation.py)
* `AlongLine.lean`: Model of `viscid/calculator/calc.py`: project_along_line As in Model/LineInt.lean numbers are elements of a field K, `nrm` is the Euclidean norm, and the interpolated field is a function of the vertex. (cites calc.py, viscid/calculator/calc.py)
* `Amr.lean`: Model of `viscid/cython/cyamr.pyx` (patch neighbours and point location) and of reductions in `viscid/amr_field.py` Coordinates are rationals (floating point rounding, infinities and NaN are not modelled). (cites amr_field.py, amr_grid.py, cyamr.pyx, cyfield.pyx, viscid/amr_field.py, viscid/cython/cyamr.pyx)
* `AmrCall.lean`: Model of `viscid/amr_field.py`: methods of patches called through an AMR field, `with`, `patch_indices` and `interpolated_slice` Patches are any objects with a state; a method may raise, return anything and change the patch it is called on. (cites amr_field.py, viscid/amr_field.py)
* `AmrSlice.lean`: Model of `viscid/amr_field.py`, `viscid/amr_grid.py`: slices and attributes of AMR fields, numpy functions on them, and when a skeleton is used again Coordinates are rational numbers. Axes of times are not modelled. (cites amr_field.py, amr_grid.py, coordinate.py, sliceutil.py, viscid/amr_field.py, viscid/amr_grid.py, vpic.py, xdmf.py)
* `Arith.lean`: Model of arithmetic on fields `viscid/field.py`: the arithmetic operators, `wrap`, reductions along an axis, `trapz` and `cumtrapz`. A field has, for each axis, its name and the coordinates of its points (nodes or centres of cells, as `get_crds` gives them). Arrays are given by shape and index function, numbers are arrays without axes. Not modelled: types of numbers, names and times of fields, face and edge centred fields, `defer_wrapping` (it is never set), coordinates without axes. (cites coordinate.py, field.py, viscid/field.py)
* `AsCotr.lean`: Model of `as_crd_system` and `as_cotr` (cotr.py:295-333 and 766-811) Objects are nodes of a tree (fields, grids, datasets, files: `tree.Node`), which hold other values as info. The values held as info are no nodes. Text is ASCII. A `Cotr` is known by what it was made with. (cites cotr.py, field.py, openggcm.py, tree.py)
* `Ath2Xdmf.lean`: Model of joining the files of processes: `scripts/athena2xdmf` One time step. Axes are z, y, x (0, 1, 2). Coordinate arrays have at least one entry. `target_arr[list of slices]` is what it is for a tuple of slices. `np.empty` is `none` everywhere. Not modelled: iteration over times, names of files, writing. (cites nothing)
* `Athena.lean`: Model of `viscid/readers/athena.py`: what an AthenaGrid gives by name Fields are real numbers at points of any type; scalar fields only are in the files (athena_bin.py:119-133, athena_tab.py:104-115). A grid has the fields of its file, of which the data are, or are not, in memory already (`loaded`): grid.py:276-281 and field.py:1554-1555 give the field itself in the first case, and else a copy without data. No name that is used here is the name of a coordinate, so that what is not a field is a KeyError. Not modelled: `beta` and `psi` (`calculator/plasma.py`), pretty names. (cites athena.py, athena_bin.py, athena_tab.py, calculator/plasma.py, field.py, grid.py, viscid/readers/athena.py)
* `AthenaBin.lean`: Model of `viscid/readers/athena_bin.py`: Athena's binary files Files are lists of bytes. Floats are their bytes, least significant first, `k` of them (4 or 8). `np.fromfile` reads as many items as there are, up to `count`, and raises nothing. Not modelled: coordinates of nodes (lines 143-166, see C116 for the same formula), files that cannot be opened, negative numbers of cells. (cites athena_bin.py, viscid/readers/athena_bin.py)
* `AxFmt.lean`: Model of the formatters and locators of axes (`viscid/plot/vpyplot.py`) An axis of matplotlib is what was last given to its four setters. What the setters do with it (for instance that a string is made into a formatter, or that a locator remembers its axis) is not modelled. (cites viscid/plot/vpyplot.py, vpyplot.py)
* `AxesKeep.lean`: Model of the keeping of axes: `viscid/plot/from_seaborn.py` and parts of `viscid/plot/vpyplot.py` Numbers are rational instead of floats. Of matplotlib, axes are their spines, ticks and limits, and figures are lists of axes with the parameters of their subplots. (cites from_seaborn.py, viscid/plot/from_seaborn.py, viscid/plot/vpyplot.py, vpyplot.py)
* `Basic.lean`: Decidable equality on results with exceptions, so that concrete runs can be decided. (cites nothing)
* `Bucket.lean`: Model of `viscid/bucket.py` class Bucket `H` handles, `I` item objects (identity), `K` what `_make_hashable` yields up to `==`; `key : I → K` so that `a is b` implies equal keys but not conversely. `ofNat` embeds the integer counter into handles. Unhashable handles are `none : Option H`. NaN-like objects (`x != x`) are not modelled. Logging is dropped. (cites viscid/bucket.py)
* `BucketLists.lean`: Model of the lists of handles that are given to buckets (`viscid/bucket.py`) The bucket is that of Bucket. Here the list of handles that the caller has is followed as well: `handles += [...]` changes it in place. (cites bucket.py, viscid/bucket.py)
* `Calc.lean`: Model of `viscid/calculator/calc.py`: boundary extension and finite differences An array is a shape and a function from indices; values outside the shape are irrelevant. Data and coordinates are elements of an arbitrary field K (floating point is not modelled; a division by zero is 0 here and inf or nan in numpy). (cites calc.py, necalc.py, viscid/calculator/calc.py)
* `CapGuess.lean`: Model of `SphericalCap` of `viscid/seed.py` and of `guess_dipole_moment` of `viscid/dipole.py` Real numbers instead of floats. The field interpolated at a point is a function; nan is not modelled. (cites dipole.py, seed.py, viscid/dipole.py, viscid/seed.py)
* `Cluster.lean`: Model of `viscid/calculator/cluster.py` Indices are integers, coordinates are rational. Distances are kept squared: the code compares square roots of integers, stored as single precision floats, with 1.5 or 1.1; the comparisons that matter (distances 0, 1 and √2) come out as here. (cites cluster.py, viscid/calculator/cluster.py)
* `CmTools.lean`: Model of `viscid/plot/_cm_tools.py` lines 18 to 100: colour maps from arrays and back A colour is a list of numbers. A map of matplotlib has a name and a table of colours; asking it for a number between 0 and 1 gives the colour at the whole part of the number times that of the colours (`Colormap.__call__`). `LinearSegmentedColormap.from_list` makes a table of 256 colours on straight lines between those given, evenly spaced. Numbers out of 0 to 1 are cut by matplotlib; this is not modelled. (cites _cm_tools.py, viscid/plot/_cm_tools.py)
* `Cmap.lean`: Model of `viscid/plot/vlab.py`: colours and limits of mayavi's lookup tables Arrays of colours are lists of rows. Maps that are asked for by name are taken from matplotlib, and are not modelled. (cites viscid/plot/vlab.py, vlab.py)
* `Colorbar.lean`: Model of the colorbar and the labels of `viscid/plot/vpyplot.py: plot2d_field` Options are maps from names to values. Dictionaries of the caller are changed in place, so the map that the caller has after a plot is part of the result. Drawing is modelled by the calls that are made of matplotlib. (cites _mpl_grid1.py, viscid/plot/vpyplot.py, vpyplot.py)
* `Colors.lean`: Model of colours: texts in `viscid/vutil.py` (lines 238-288, 425-440), topologies in `viscid/calculator/topology.py` Names of colours go to matplotlib, which is a parameter: its answer is written as #rrggbbaa (lines 276-279). Texts are of ASCII characters. (cites topology.py, viscid/calculator/topology.py, viscid/vutil.py, vutil.py)
* `Contig.lean`: Model of memory of fields: `as_c_contiguous` and what `as_layout` shares (`viscid/field.py`) Memory is a number of buffers; an ndarray is a buffer, the place of its first element, its shape and its strides (in elements, of any sign). Buffers from `next` on are free. What a field is made from is an ndarray, a file, or an ndarray that is to be laid out anew. Arrays of files that are stored zyx come out of `np.array(...)` of a transposed view, which keeps the order of the view (field.py:871-884). Layouts are as detected (see Layout). Not modelled: parents of fields (`_parent_field`), reflected coordinates, element types and `copy` in `deep_meta` (False, the default: numpy gives the array itself). (cites field.py, viscid/field.py)
* `Cotr.lean`: Model of `viscid/cotr.py`: geophysical coordinate transforms The object `Cotr` with all its caches, as a state machine: a method call takes the state of the object to a result (a value or an exception) and a new state; state changes made before an exception survive it. Simplifications, everywhere below: real numbers instead of floats; `rdim = 3` (with `rdim = 4` every matrix gets one more row and column of the identity); vectors are single 3-vectors (a (3, N) array is transformed column by column); names of systems are given stripped and in lower case (`as_crd_system`, cotr.py:295-333, has been applied); `np.arcsin` outside of [-1, 1] is clamped where numpy gives nan (this does not happen for the table of coefficients: `C72_axis_north`); the time is a real number of days since 1970-01-01T00:00, i.e. rounding of times to microseconds is not modelled. (cites cotr.py, npdatetime.py, viscid/cotr.py)
* `CrdNames.lean`: Model of `viscid/coordinate.py`: coordinate arrays by name and by number, units, extents of reflected axes A name is the list of the codes of its characters (ASCII). What a name is bound to is which array it is (which axis, flat or open, which centering), not the numbers in it: these are in `Crds` and `Yee`. (cites coordinate.py, viscid/coordinate.py)
* `Crds.lean`: Model of `viscid/coordinate.py`: the coordinates of one axis Rational coordinates (no floating point rounding, no datetime axes). Python's slicing of a sequence is `Viscid.Spec.Slice.pyIndices`. (cites coordinate.py, viscid/coordinate.py)
* `Dataset.lean`: Model of `viscid/dataset.py` class DatasetTemporal `C` is the type of child objects (grids, datasets, deferred children) up to identity; what a child answers to `item in child` and `child[item]` is a parameter. Times are numbers: a rational value and whether Python holds it as an `int` (numpy makes an integer array only when all of them are). datetime-like times, selections by lists or arrays, and the `prepare_child` / `tear_down_child` parent bookkeeping (C11, C12) are not modelled here. `resolve()` is the identity for non-deferred children and the callback's result for deferred ones, so only the identity of the child is kept. (cites dataset.py, sliceutil.py, viscid/dataset.py)
* `Dict.lean`: Python dicts as insertion-ordered association lists CPython dict semantics (ordered since 3.7 / OrderedDict): assigning to an existing key keeps its position, a new key is appended, `del` removes. Used by several models. (cites nothing)
* `Dims.lean`: Model of changing the number of dimensions of fields, and their coordinates `viscid/coordinate.py` (`atleast_3d`) and `viscid/field.py` (`atleast_3d`, `atmost_nd`, `adjust_crds`). As in `Arith` a field has, for each axis, its name and the coordinates of its points. Not modelled: what else coordinates hold (units, centres of cells that were given, reflections), and how the text of a selection is understood (see `SelText`, `FillSel`, `Select`); `near` is the index of the point nearest to 0. (cites coordinate.py, field.py, viscid/coordinate.py, viscid/field.py)
* `DipValue.lean`: Model of `dipole_map_value` of `viscid/dipole.py` One point at a time. The interpolation is a parameter: a field of theta and phi and a point (r, theta, phi) to a value, `none` being nan. (cites dipole.py, viscid/dipole.py)
* `Dipole.lean`: Model of `viscid/dipole.py`: field lines of an ideal dipole, and its field at a list of points Real numbers for floats. A division by zero is 0 here, infinite or nan in numpy; the theorems exclude it. (cites dipole.py, viscid/dipole.py)
* `DsetEdit.lean`: Model of `viscid/dataset.py` class Dataset: adding, finding and removing children Children are objects, told apart by numbers; the Bucket with their handles is that of `Verif.Model.Bucket`. What a child is like is given: whether it is a deferred child, and what its callback returns then (always the same object); which fields a grid computes (`_get_…` methods), and what its coordinates are called. The fields that a grid keeps are part of the state, as they can be removed. Children that are datasets are not modelled here (see `Verif.Model.Nested`). (cites bucket.py, dataset.py, grid.py, tree.py, viscid/dataset.py)
* `Earth.lean`: Model of `viscid/plot/vpyplot.py`: the earth in plots Angles are in degrees. Colours are day or night; where a wedge or circle is on the page is not modelled beyond its angles and radius. (cites viscid/plot/vpyplot.py, vpyplot.py)
* `Ecfc.lean`: Model of `viscid/calculator/ecfc.py`: edge and face centred fields An array of shape `n0 × n1 × n2` is a function of three indices together with its shape. Data and coordinates are rationals (rounding not modelled); a division by zero gives `none` (nan or inf). The numexpr and numpy paths compute the same expression. `atleast_3d` (which gives a missing axis one cell between two nodes, coordinate.py:1136-1160, 1371-1376, 1419-1423) is applied before this model starts. Field meta data other than the three keys below are not modelled. (cites calc.py, coordinate.py, ecfc.py, viscid/calculator/ecfc.py)
* `Elementwise.lean`: Model of the elementwise operations of `viscid/calculator/calc.py` and `viscid/calculator/necalc.py` Numbers are rational numbers together with the kind of their type; `none` is a number that is not finite. Rounding and the wrapping of integers out of range are not modelled, nor is broadcasting (fields are on one grid; see `Verif.Model.Arith` for broadcasting): the data of a field is a list. Division of integers is not modelled for numexpr. (cites calc.py, field.py, necalc.py, viscid/calculator/calc.py, viscid/calculator/necalc.py)
* `Euler.lean`: Model of the Euler angle functions of `viscid/rotation.py` Over the reals, for one matrix. Axes are given as three letters; other letters raise in `e_rot`, and orders other than the twelve raise in `rot2angle`. The determinant check only warns by default and is left out. (cites rotation.py, viscid/rotation.py)
* `Evaluator.lean`: Model of the text handling in `viscid/calculator/evaluator.py`, without numexpr Strings are lists of characters; words (`\w`) are taken to be of ASCII letters, digits and underscores. `eval` itself, the fields of the grid and the functions of `calc` and numpy are parameters. (cites evaluator.py, viscid/calculator/evaluator.py)
* `Extent.lean`: Model of `viscid/field.py`, `viscid/amr_field.py`: limits of fields, and the extent of selections (cites amr_field.py, coordinate.py, field.py, viscid/amr_field.py, viscid/field.py)
* `Extools.lean`: Model of the calls of external tools: the making of films and the conversion of meshes Models viscid/extools.py:12-60 (`make_animation`, `meshlab_convert`). Names of files are lists of characters without any that mean something to a shell (space, quote, star, ...), relative to the directory of the process. A program is known only by the files it adds. (cites viscid/extools.py)
* `FieldWrites.lean`: Model of writing to scalar fields, of `clear_cache`, `forget_source` and `rewrap_field` (`viscid/field.py`) Memory and arrays are those of Contig. Fields are scalar, with the default layout. New arrays are taken to be in C order here (numpy keeps the order of what is copied; this does not change values). Arrays have as many elements as the coordinates ask for, and that shape unless they are zyx. `τ` are times, `zero` is 0.0. Not modelled: reflections, parents of fields, transform functions, other metadata. (cites field.py, viscid/field.py)
* `FileCrds.lean`: Model of coordinates of files: `_make_crds` of `viscid/readers/athena_bin.py`, `make_crds` of `viscid/readers/gkeyll.py` Numbers are rational, rounding is not modelled. `none` is an infinite number (`np.inf`) or nan. (cites athena_bin.py, gkeyll.py, viscid/readers/athena_bin.py, viscid/readers/gkeyll.py)
* `FileOpts.lean`: Model of `viscid/readers/vfile.py` and `vfile_bucket.py`: options files are loaded with, and the grids and datasets they make `G` and `D` are the classes of grids and datasets, `V` the values of options. (cites ggcm_logfile.py, vfile.py, vfile_bucket.py, viscid/readers/vfile.py)
* `FillSel.lean`: Model of `viscid/sliceutil.py` fill_nd_sel_list (lines 141-265) An entry of the selection list is modelled after its text has been looked at: an optional axis name (`'name=...'`, lines 157-159), and whether it is an Ellipsis, a newaxis or any other selection (lines 166-182). The parallel lists full_ax_names, full_sel_list and full_newdim_flags are one list of rows (they are always extended together). (cites sliceutil.py, viscid/sliceutil.py)
* `Fluid.lean`: Model of `viscid/fluidtrace.py`: following fluid elements, and curators of seeds Times are rational numbers (rounding is not modelled). Where the streamlines end that begin at the seeds, `viscid.calc_streamlines`, is a parameter, and so are the fields of the grids. Not modelled: the callback, options for streamlines, and vector fields with less than three axes. (cites fluidtrace.py, viscid/fluidtrace.py)
* `FortUnit.lean`: Model of `viscid/readers/_fortfile_wrapper.py` and `_fortfile.F90`: Fortran units for files The runtime of Fortran is the file that every unit is connected to. Units above 10000 are not used. `FortranFile` objects (handles) are numbered; `name h` is the file of handle `h`. Opening has two steps, the search for a unit and the connection, so that threads may come in between; the lock is held from the first to the second. What fails in `open` of Fortran (`iostat`) depends on the name only. Files that do not exist are made by Fortran, and are not told apart here. (cites _fortfile_wrapper.py, viscid/readers/_fortfile_wrapper.py)
* `Fortbin.lean`: Model of `viscid/readers/ggcm_fortbin.py`: OpenGGCM's binary files Files are lists of bytes, floats their four bytes, least significant first; names are their bytes (`decode` of bytes that are no ASCII is not modelled). The place in the file is not part of the state of a wrapper: everything but `inquire_next` seeks first, and a file that is opened again is at its start. Not modelled: negative sizes, and fields without axes (their number of values is a float). (cites ggcm_fortbin.py, openggcm.py, viscid/readers/ggcm_fortbin.py)
* `Frames.lean`: Model of datasets turned into tables and back `viscid/dataset.py` (`to_dataframe`, `from_dataframe`, `Dataset.to_dataframe`, `DatasetTemporal.to_dataframe`) and `viscid/grid.py` (`Grid.to_dataframe`). A pandas DataFrame has the labels of its rows and named columns. The entries are numbers, times are seconds and dates seconds since 1970; `none` is nan, NaT or None. Rounding is not modelled (times become whole microseconds), nor are selections (`selection=...` is what is modelled), coordinates that are dates, and what coordinates become after `arrays2crds` (C157): axes are the arrays given to it. A field has the points of its own centering and, for a vector field, more values than points. (cites dataset.py, grid.py, tree.py, viscid/dataset.py, viscid/grid.py)
* `FwdSlice.lean`: Model of `viscid/sliceutil.py` make_fwd_slice, one dimension The loop body of make_fwd_slice (lines 909-975) for one dimension of length `L`. The newaxis bookkeeping around it (lines 897-900, 970-979) only inserts and removes list entries and is not modelled. (cites sliceutil.py, viscid/sliceutil.py)
* `GgcmFile.lean`: Model of the file handling in `viscid/readers/openggcm.py` Regular expressions, `float` and the file system are parameters. Floating point numbers are rationals. (cites npdatetime.py, openggcm.py, viscid/readers/openggcm.py)
* `Gkeyll.lean`: Model of `viscid/readers/gkeyll.py` and of the grouping in `viscid/readers/athena.py` Computed fields of a GkeyllGrid, names of the components of a file, and groups of files. Fields are real numbers at points of any type. Not modelled: coordinates, times, pretty names, HDF5. (cites athena.py, gkeyll.py, grid.py, viscid/readers/athena.py, viscid/readers/gkeyll.py)
* `Globbed.lean`: Model of `viscid/vutil.py`: `slice_globbed_filenames`, for patterns with a slice What `glob` finds, and the regular expression that finds what is in the place of the slice in a name, are not modelled: a file is a name and the number that its text is, if it is one (`float` raises ValueError otherwise). Numbers are rational. Of the regular expression for slices it is modelled which parts between colons may be missing, but not how numbers are written. Not modelled: nan as a number, dates and times in slices, and patterns with more than one slice. (cites sliceutil.py, viscid/vutil.py, vutil.py)
* `GreatCircle.lean`: Model of `great_circle` in `viscid/mapfield.py` (cites mapfield.py, viscid/mapfield.py)
* `Grid.lean`: Looking up fields on a grid: `viscid/grid.py`, and the getters of `viscid/readers/openggcm.py` Fields are values of an arbitrary type `F`. Names are lists of characters and only strings are modelled: the counter handles of the bucket (`grid[0]`) are not. Python's recursion limit is the fuel; every nested lookup uses one unit, where CPython uses a few stack frames. What the stored dictionary holds is what `Bucket.__getitem__` finds (Model/Bucket.lean). (cites evaluator.py, field.py, grid.py, openggcm.py, viscid/grid.py, viscid/readers/openggcm.py)
* `Hdf5.lean`: Model of saving fields as an HDF5 file with its XDMF file, and of loading them `viscid/readers/hdf5.py` (`save_fields`, H5pyDataWrapper), the parts of `viscid/readers/xdmf.py` that read what it writes, and fields with data in the order zyx (`viscid/field.py`). An HDF5 file is a list of arrays by path; arrays of coordinates are lists of rationals. The text of the XDMF file is taken as its elements: the Time, the Geometry and the Attributes; what XML does not allow in an attribute is a parse error. Not modelled: compression, groups of HDF5 files (names with slashes that are prefixes of each other), globs (names that are not found are a KeyError), entities in names, other white space than blanks, files that are left behind by a `save_fields` that fails, face and edge centred fields, reflected axes, the crd_system, OpenGGCM's time string, units, the types of numbers. (cites coordinate.py, field.py, hdf5.py, viscid/field.py, viscid/readers/hdf5.py, viscid/readers/xdmf.py, xdmf.py)
* `Hdf5Wrap.lean`: Model of `H5pyDataWrapper` of `viscid/readers/hdf5.py` An array in an hdf5 file, or one component of it, that is read when it is used. The file does not change, and its element type is not modelled. h5py reads forward only (`LazySlice.h5index`). (cites hdf5.py, viscid/readers/hdf5.py)
* `Helix.lean`: Model of `viscid/plot/_cm_cubehelix.py`: colour maps of the cubehelix Real numbers instead of floats. (cites _cm_cubehelix.py, viscid/plot/_cm_cubehelix.py)
* `Injector.lean`: Model of the way the package puts its modules' names into its own namespace, and of the proxies of modules that are missing Models viscid/__init__.py:100-129 (`_on_injected_import_error`, `import_injector`), 210-257 (`check`), viscid/verror.py:10-34 (`UnimportedModule`) and viscid/cython/__init__.py:46-58 (`_dummy`). Python's import system is a parameter: for every name of the list, what the import of it does at its turn. (cites viscid/__init__.py, viscid/cython/__init__.py, viscid/verror.py)
* `Integrate.lean`: Model of `viscid/cython/integrate.pyx`: the six integrators and the step-size controller Over ℝ (floating point rounding and NaN are not modelled). The vector field is an arbitrary function `v`: `vscale[d] * _c_interp_trilin(fld, d, x)`; the interpolation cache does not change its values (C17_cache_independent). The code unrolls every stage; the model keeps each method's coefficients in a table and evaluates the stages by one recursion, in the same order and with the same zero-field test after each stage. (cites integrate.pyx, viscid/cython/integrate.pyx)
* `Interior.lean`: Model of `viscid/sliceutil.py`: interior slices, and the ends of selections As in `Model/Select.lean`, coordinates are rationals and axes of times are not modelled. (cites sliceutil.py, viscid/sliceutil.py)
* `Interp.lean`: Model of `viscid/cython/cycalc.pyx`: interpolation on a rectilinear grid Coordinates, data and query points are rationals (floating point rounding, NaN and the overflow of `<int> floor(...)` are not modelled). The file is compiled with boundscheck=False and wraparound=False, so an index outside an array is undefined behaviour: a read is modelled as an `Option`, `none` being a read outside the axis (cyfield.pyx:56-71 pads shorter axes with NaN; such reads are counted as outside too). (cites cycalc.pyx, cyfield.pyx, viscid/cython/cycalc.pyx)
* `InterpSlice.lean`: Model of `Field.interpolated_slice`, `StructuredCrds.slice_interp` and `ScalarField.downsample` Coordinates and data are rational. An array that is written to is modelled by what it is afterwards: the field is an argument and a result. (cites coordinate.py, cyfield.pyx, field.py)
* `IonoFile.lean`:  (cites field.py, ggcm_fortbin.py, openggcm.py)
* `Jrrle.lean`: Model of the JRRLE codec (`viscid/readers/_jrrle.f90`) and of the field lookup of `viscid/readers/ggcm_jrrle.py` Characters are their codes (`Nat`, 0..255 in the file). A line is a list of codes. Integer arithmetic is unbounded. Writes outside a declared array bound are reported as the error `overrun` (in Fortran: undefined behaviour). Header formatting (`3e14.7`) is not modelled. (cites _jrrle.f90, ggcm_jrrle.py, viscid/readers/_jrrle.f90, viscid/readers/ggcm_jrrle.py)
* `JrrleReal.lean`: Quantisation of JRRLE data (`viscid/readers/_jrrle.f90` wrn2, rdn2), over the reals Single precision rounding and the formatting of z1, z2 with 7 digits in the header are not modelled. (cites _jrrle.f90, viscid/readers/_jrrle.f90)
* `KlsNames.lean`: Model of looking classes up by name: readers (`VFile.resolve_type`), fields (`field_type`), coordinates (`lookup_crds_type`) `kls.__subclasses__()` is the tree of `Verif.Model.Readers`. Characters are ASCII, as far as lower case goes. (cites coordinate.py, field.py, vfile.py, vutil.py)
* `Labels.lean`: Model of `viscid/plot/mpl_direct_label.py`: labels at lines Positions are numbers, one coordinate at a time. Which paths meet a box is asked of matplotlib, and is a parameter here; so is the order in which candidates with the same distance are sorted. (cites mpl_direct_label.py, viscid/plot/mpl_direct_label.py)
* `Layout.lean`: Layouts of vector fields: `viscid/field.py` An array is its shape and a function of the index. Element types, memory order (`C_CONTIGUOUS` is a parameter), reflected coordinates, transform functions and `zyx_native` sources are not modelled. (cites field.py, viscid/field.py)
* `LazySlice.lean`: Slicing a field whose data is still on disk: `viscid/field.py` `_finalize_slice` The source is an hdf5 data set (`_hypersliceable`), stored either x first or z first (`zyx_native`); axes may be reflected. Selections arrive as one integer or slice per axis (`make_slice` of the coordinates made them, see `Select` and `FillSel`). Not modelled: index arrays and new axes in the selection, transform functions applied after reading, forced layouts, the coordinates of the result and the conversion of a single number. (cites coordinate.py, field.py, readers/hdf5.py, sliceutil.py, viscid/field.py)
* `LineColors.lean`: Model of `viscid/plot/vpyplot.py`: colours and markers of lines, and the choice of a plot What `_prep_lines` gives (modelled elsewhere) is the input here, as are the directions of the plane. A dictionary of options is the list of its items, in order. Colours are any type. (cites viscid/plot/vpyplot.py, vpyplot.py)
* `LineInt.lean`: Model of `viscid/calculator/calc.py`: integrate_along_lines Numbers are elements of a field K. `nrm` is the Euclidean norm (a square root, so it is a parameter here and the real one in the statements that need it). The interpolated field is a function of the vertex: `viscid.interp` works vertex by vertex (Model/Interp.lean, C17 and C18: its cache does not change values). (cites calc.py, viscid/calculator/calc.py)
* `Lines2d.lean`: Model of `viscid/plot/vpyplot.py`: lines and points in a plane A segment of a line is its two points. `plot2d_lines` gives the segments to `_xyzind_from_symdir`, whose first axis then is that of segments and not that of directions. (cites viscid/plot/vpyplot.py, vpyplot.py)
* `Loader.lean`: Model of `viscid/readers/vfile_bucket.py` and of loading and unloading in `viscid/readers/vfile.py` File names are those that `slice_globbed_filenames` gave (see Globbed). Detection of types is an argument (see Readers), and so are what is a file, what reading does and which children a file loads. Files that fail to load do so before they load children. What a function did before an exception stays done: functions give the state also if there is one. Not modelled: contents of files (but whether there are any), glob characters in names of children, files that are their own children, `clear_cache`, `handle_name` of files outside of the bucket, arguments for constructors and warnings. (cites readers/__init__.py, vfile.py, vfile_bucket.py, viscid/readers/vfile.py, viscid/readers/vfile_bucket.py)
* `Loc.lean`: Model of `viscid/field.py`: `Field.loc` and `Field.iloc` (`_FldSlcProxy`, lines 404-468) Items are numbers, lists of numbers, slices, Ellipsis and newaxis. Not modelled: texts (which are rewritten by regular expressions), arrays, times, and that a list of numbers that are not whole is refused as an index later. (cites field.py, sliceutil.py, viscid/field.py)
* `LogFile.lean`: Model of `viscid/readers/ggcm_logfile.py` Lines are strings that have been stripped. How a line is taken apart is a parameter: `_parse_param` (with `_parse_value`), the two regular expressions and the test for a time step. Not modelled: opening the file, and `unload`. (cites ggcm_logfile.py, viscid/readers/ggcm_logfile.py)
* `LogMsg.lean`:  (cites textwrap.py, viscid/__init__.py)
* `LogValue.lean`: Model of values of parameters in log files: `viscid/readers/ggcm_logfile.py` `_parse_value`, `_parse_param` Texts are lists of characters; blanks, digits and letters are those of ASCII. `float(s)` is a parameter, as are the text of a float and the float of an integer (rounding is not modelled), and integers are not limited to 64 bits in arrays. (cites ggcm_logfile.py, viscid/readers/ggcm_logfile.py)
* `MakeField.lean`: Model of coordinates and fields made of arrays `viscid/coordinate.py` (`arrays2crds`) and `viscid/field.py` (`arrays2field`, `dat2field`, `full`, `full_like`, `wrap_field`). Arrays of coordinates are lists of rationals. Not modelled: coordinates that are times, single arrays given for a list of arrays, `center` of `arrays2field` (it converts the field afterwards: C65), face and edge centred fields, names and types of numbers. (cites coordinate.py, field.py, viscid/coordinate.py, viscid/field.py)
* `ManyVecs.lean`: Model of `viscid/cotr.py`: arrays of vectors, and the functions of the module that make their own `Cotr` `rdim` is 3. A time is the number of days since 1970-01-01. (cites cotr.py, viscid/cotr.py)
* `MapField.lean`: Model of `viscid/mapfield.py`: fields of theta and phi, of latitude and longitude, and for polar plots Numbers are real and rounding is not modelled. Fields have two axes; their data is a function of indices of the array, of which the first or the last is the component, if there are any. Coordinates are those of the points of the data (node-centred fields): that both bounds of uniform coordinates are transformed instead of all of them makes no difference, as the transforms are linear. Not modelled: data types, deferred reflections and warnings. (cites field.py, mapfield.py, viscid/mapfield.py)
* `MapPlot.lean`: Model of `viscid/plot/vpyplot.py` plot2d_mapfield (lines 981 to 1112) and plot_iono (lines 1206 to 1242) Latitudes are in degrees. Names of hemispheres are already without spaces and in lower case. (cites viscid/plot/vpyplot.py, vpyplot.py)
* `Marble.lean`: Model of `viscid/plot/vlab.py`: the picture of Earth on a sphere Real arithmetic. VTK's plane source puts the place `(u, v)` of a picture (from its lower left corner, both from 0 to 1) at `origin + u (point1 - origin) + v (point2 - origin)`, in `x_resolution` times `y_resolution` cells; its spherical transform takes (radius, colatitude, longitude), in radians, to (x, y, z). (cites cotr.py, npdatetime.py, viscid/plot/vlab.py, vlab.py)
* `Mats.lean`: Model of `viscid/cotr.py`: vectors with four components, matrices of rotations and translations, axis and angle of a matrix Real numbers instead of floats. (cites cotr.py, viscid/cotr.py)
* `MeshGrid.lean`: Model of `Field.meshgrid`, `Field.meshgrid_flat` (`viscid/field.py`) and `StructuredCrds.as_mesh` (`viscid/coordinate.py`) Arrays are shapes with functions of indices (`Layout.Arr`). The coordinates of a field are those of its centering, one list for each axis. Axes are asked for by their numbers. (cites coordinate.py, field.py, viscid/coordinate.py, viscid/field.py)
* `Minvar.lean`: Model of `viscid/calculator/minvar_tools.py`: minimum variance analysis and boundary normal coordinates Numbers are real, and nan or infinite if there is none (`Option`); rounding is not modelled. `np.linalg.eig` is a parameter. The field along the line, `viscid.interp_trilin`, and `viscid.Line` are modelled elsewhere (`Interp`, `SeedGrid`); here the samples are given. (cites minvar_tools.py, viscid/calculator/minvar_tools.py)
* `Mpause.lean`: Model of `viscid/calculator/mpause.py`: paraboloids, the edges of the magnetopause and the shear across it Numbers are real and rounding is not modelled; nan is none. The edges and the shear are modelled for one column of the block (one y and z), as they do not depend on the others; edges without a mask (`maskval=None`). Not modelled: the fit, the cache, and interpolation of AMR fields. (cites mpause.py, viscid/calculator/mpause.py)
* `Multiplot.lean`: Model of `viscid/multiplot.py`: `make_multiplot`, `_do_multiplot` `make_multiplot` is modelled for any function that makes a picture; such a function may change the objects it is given, which are kept in a state of type σ. What `_do_multiplot` asks matplotlib and the grid for is modelled as a list of panels; the pictures themselves, and exceptions while they are made, are not. Texts are lists of characters. (cites multiplot.py, viscid/multiplot.py)
* `Nested.lean`: Model of trees of datasets: `viscid/dataset.py` classes Dataset, DatasetTemporal and DeferredChild, with `viscid/grid.py` class Grid at the leaves A static dataset keeps its children in a Bucket: for each child the handles it has there (names and numbers; which ones is the model of C01). Its active child is one of them, given by its place; children that are deleted are not modelled here. A temporal dataset keeps pairs of times and children; its active child can be an object that is not in the list (what a deferred child resolved to). A deferred child is what its callback returns; callbacks are without other effects. Fields of grids that are computed (`_get_…`, equations, `_process_…`), coordinates and slices of fields are not modelled here, and neither are caches. (cites bucket.py, dataset.py, grid.py, tree.py, viscid/dataset.py, viscid/grid.py)
* `NpTime.lean`: Model of the unit handling in `viscid/npdatetime.py` A numpy `datetime64` or `timedelta64` scalar is a 64-bit integer counting a unit since 1970 (`NaT` is the smallest integer). The units are `as` to `W`; the last two of `ORDERED_UNITS`, months and years, have no fixed size and are not modelled: times in them do not occur, and the loop over the units ends with weeks. Numpy's conversion between units is `cast`: it multiplies in 64 bits, wrapping silently, or divides rounding down, and raises OverflowError if it considers the factor too big. Which factors are too big differs between versions of numpy, so that is a parameter `big`; the theorems only assume that factors that do not fit into 64 bits are (`Sane`). (cites npdatetime.py, viscid/npdatetime.py)
* `Npz.lean`: Model of `viscid/readers/numpy_binary.py`: fields in npz files A file is a dict of arrays; `A` is the type of arrays of numbers, `ndim` their number of dimensions. Arrays of strings are lists. Not modelled: the layout of vector fields, names numpy cannot use as names of members of an archive, numbers in the place of the arrays of names (the reader gets a KeyError for them, as it does for names that are not there). (cites field.py, numpy_binary.py, viscid/readers/numpy_binary.py)
* `Nulls.lean`: Null finding: `viscid/cython/null_tools.pyx` A vector field on a grid of `nx * ny * nz` points is a function of indices and component. Numbers are reals; rounding is not modelled. (cites null_tools.pyx, viscid/cython/null_tools.pyx)
* `PMap.lean`: Model of `viscid/parallel.py`: `map`, `map_async`, `sanitize_nr_procs` `f a` is `func(*a, **args_kw)`: a value or an exception, without other effects. The work is done by workers that take the next part of it and finish it at any time after, in any order: a schedule is a list of events. Python's `ThreadPoolExecutor.map` and `Pool.map_async` are modelled by what they do with parts and results (`concurrent/futures/_base.py`, `multiprocessing/pool.py` of the standard library); pickling, timeouts (the default is 3 years) and workers that die are not. (cites concurrent/futures/_base.py, multiprocessing/pool.py, parallel.py, viscid/parallel.py)
* `Parallel.lean`: Model of `viscid/parallel.py` chunking and of the scatter/gather in `viscid/cython/streamline.pyx` Lists stand for Python sequences / 1-d numpy arrays, `Nat` for the (non-negative) integers involved. Exceptions are values of `Except Err`. (cites parallel.py, streamline.pyx, viscid/cython/streamline.pyx, viscid/parallel.py)
* `Parents.lean`: Model of the lists of parents of nodes (`viscid/tree.py`, `viscid/amr_grid.py`, `viscid/field.py`) Lists are by reference: `ref` is the list that a node has, `lists` what is in it. Nodes are numbers. `in` and `remove` are taken to compare by identity, as nodes without `__eq__` do. Not modelled: parents given as a tuple, which can not be appended to. (cites amr_grid.py, dataset.py, field.py, grid.py, tree.py, viscid/amr_grid.py, viscid/field.py, viscid/tree.py)
* `Plasma.lean`: Model of `viscid/calculator/plasma.py`: the flux function and the plasma beta Numbers are those of a field (rounding is not modelled). Arrays are functions of their indices, with sizes beside them. (cites plasma.py, sliceutil.py, viscid/calculator/plasma.py)
* `Plot1d.lean`: Model of plots of one-dimensional fields: `viscid/plot/vpyplot.py` `plot1d_field`, `_prepare_time_axes`, `_apply_actions`, `_set_default_cbar_pad` What is drawn is a list of points and the calls that set limits. Numbers are rational, `none` is nan. Matplotlib itself is not modelled but for its refusal of lines whose coordinates differ in length. Labels and formats of ticks are not modelled. (cites viscid/plot/vpyplot.py, vpyplot.py)
* `Plot2d.lean`: Model of what plots draw and what they write: `viscid/plot/vpyplot.py` `_plot2d_single` The arrays that a field holds (cached node and cell coordinates, cached data) are the same objects that the plot works on: what the plot writes to them in place is in the field afterwards. nan is `none`. Not modelled: `latlon`, dates on axes, colours of patches, matplotlib itself; arrays of integers (for which `*=` with a float raises). (cites viscid/plot/vpyplot.py, vpyplot.py)
* `PlotAxes.lean`: Model of `_autolimit_to_vertices` and `_xyzind_from_symdir` of `viscid/plot/vpyplot.py` Arrays of points are lists of rows (x, y, z), all of the same length. Rounding is not modelled. Axes of matplotlib are their limits. (cites viscid/plot/vpyplot.py, vpyplot.py)
* `PlotNorm.lean`: Model of colour scales: `viscid/plot/vpyplot.py` `_extract_actions_and_norm` (its part about norms) and `plot2d_field` (its part about norms) nan is `none`; False as a value is the number 0. Not modelled: the actions, other options, colour maps themselves. (cites viscid/plot/vpyplot.py, vpyplot.py)
* `PlotOpts.lean`: Model of plot options given as text: `viscid/plot/vpyplot.py` `plot_opts_to_kwargs`, `_pop_axis_opts`, `viscid/pyeval.py` `parse` Texts are lists of characters; names are ASCII. What python's parser makes of an expression that is not just one name, and yaml, are parameters. (cites pyeval.py, viscid/plot/vpyplot.py, viscid/pyeval.py, vpyplot.py)
* `PointDeriv.lean`: Model of `viscid/calculator/calc.py`: derivatives at a point and at an index Rational coordinates and values; interpolation is the model of Model/Interp.lean, with its cache carried through the six points, started at zero for each component. (cites calc.py, cycalc.pyx, viscid/calculator/calc.py)
* `PointSeeds.lean`: Seeds given as arrays: `Point`, `MeshPoints` and `RectilinearMeshPoints` of `viscid/seed.py` Element types are not modelled, nor that arrays may share memory. (cites seed.py, viscid/seed.py)
* `Polar.lean`: Model of `viscid/mapfield.py`: fields and points for polar plots (`as_polar_mapfield` and `pts2polar_mapfield`) Numbers are real and rounding is not modelled, nor is `strip().lower()` of the hemisphere. Fields are as in the model of `as_mapfield` (node-centred, two axes). Selection by value is without its tolerance (a ten thousandth of a spacing). Units are not kept, as `wrap_crds` is not given any. (cites mapfield.py, viscid/mapfield.py)
* `PrepLines.lean`: Standardising lines for plotting: `viscid/vutil.py` `prepare_lines` A line is the list of its columns, one list of numbers per vertex. Scalars are 2d arrays of rationals, i.e. what is left after `np.atleast_2d`; text colours and fields as scalars are not modelled. Numbers are exact. (cites viscid/vutil.py, vutil.py)
* `Psc.lean`: Model of `viscid/readers/psc.py`: names of files and fields of PSC runs Real numbers instead of floats; not-a-number is `none`. (cites grid.py, psc.py, vfile.py, viscid/readers/psc.py)
* `Quiver.lean`: Model of `viscid/plot/vpyplot.py`: arrows of a vector field in a plane For fields that have been reduced to two axes already, with three components. `Axis` and its slices are those of `Model.Crds`. (cites field.py, viscid/plot/vpyplot.py, vpyplot.py)
* `RFind.lean`: Model of `viscid/vjson.py`: `rfind_all` Texts are lists of characters. rfind_all is a generator, so the model gives what the first n calls of `next` give: the positions, and whether the generator has ended. (cites viscid/vjson.py, vjson.py)
* `Rc.lean`: Model of `viscid/_rc.py`: settings read from a file Objects (modules, classes, instances) are numbers. What `yaml` or `vjson` make of a text is not modelled: the file is what they give. (cites _rc.py, viscid/_rc.py)
* `Readers.lean`: Model of `viscid/readers/vfile.py`: serialize_subclasses and VFile.detect_type `kls.__subclasses__()` is a tree: a class with several bases occurs once below each of them. Whether a class accepts a file name (vfile.py:250-253: `_detector` truthy, `re.match` and `_detector_func`), its `_priority` and whether its name contains the preferred string (vfile.py:265, case-insensitively) are parameters; a `_detector_func` that raises is not modelled. (cites vfile.py, viscid/readers/vfile.py)
* `Recenter.lean`: Model of changing the centering of fields `viscid/field.py`: `shell_copy`, `as_centered`, `as_cell_centered` and `as_node_centered` of node and cell centred fields, with the cache of the data that a converted field shares with the field it was made of. The memory is a heap of arrays; a numpy array is a view of one of them, mirrored or not (`reflect_fld_arr` gives a view that runs backwards along the reflected axes, coordinate.py:431-448). The contents of an array are opaque. Not modelled: face and edge centred fields, sources stored z first, forced layouts, the `copy` flag of `deep_meta` (it is False unless asked for), errors of reading files. (cites coordinate.py, field.py, readers/openggcm.py, viscid/field.py)
* `Region.lean`: Model of `viscid/dipole.py`: set_in_region Arrays and broadcasting are those of `Verif.Model.Arith`. Numbers are rational; arrays of integers are told apart because numbers put into them lose their fraction. Masks that are vector fields are taken after `as_centered` and `as_layout` (dipole.py:227-228). numexpr and numpy give the same values here. (cites dipole.py, viscid/dipole.py)
* `Resample.lean`: Model of `resample_lines` (viscid/calculator/calc.py:375-416). A line is the list of its rows (one row of numbers for each axis) and whether its array holds whole numbers. Rounding of floats is not modelled. Only `kind="linear"` is modelled; for it scipy's `interp1d` and `np.interp` give the same values at points of [0, 1]. (cites viscid/calculator/calc.py)
* `Resolve.lean`: Model of `viscid/vutil.py`: finding things by globbed paths (lines 170-236) The hierarchy is one of dicts, which may have attributes beside their items. `fnmatch.fnmatchcase` is a parameter. Not modelled: hierarchies that take a path of several parts as a key (h5py), or that have items without a name. (cites viscid/vutil.py, vutil.py)
* `RotConv.lean`: Model of conversions of stacks of rotations: `viscid/rotation.py` `check_orthonormality`, `rot2quat`, `dcm2quat`, `rot2wxyz`, `rot2axang`, `quat2axang` Angles are in radians (for units see `Verif.Model.A2b`). nan is `none`. The numpy-quaternion module is not imported. (cites rotation.py, viscid/rotation.py)
* `RotStack.lean`: Stacks of rotations: `viscid/rotation.py` for arrays with more than one rotation An argument is one value (shape (3, 3), (4,), (3,) or ()) or a stack of values (one more axis in front). The numpy-quaternion module is not imported. nan is `none`. (cites rotation.py, viscid/rotation.py)
* `Rotation.lean`: Model of `viscid/rotation.py`: matrices, quaternions, axis-angle and Euler angles Everything is over the real numbers (floating point rounding is not modelled), for single values (the stacked versions apply the same formulas row by row). `np.arctan2(y, x)` is the argument of `x + i y` (signed zeros are not modelled: `arctan2(-0.0, -1)` is `-pi` in numpy). A division by a zero norm, which gives nan in numpy, is `none`. That `quat2rot` normalises and `a2b_rot` divides in place (changing arrays of the caller) is not modelled. (cites rotation.py, viscid/rotation.py)
* `Scene3d.lean`: Model of what is put into 3D scenes: nulls, the earth and ionospheric fields of `viscid/plot/vlab.py` Real numbers instead of floats; what mayavi draws is not modelled, only what it is asked to. (cites viscid/plot/vlab.py, vlab.py)
* `SceneBox.lean`: Model of `viscid/plot/vlab.py`: `fancy_axes`, `to_mpl`, `remove_source`, `clear_data` and `clf` Numbers are exact. Mayavi is modelled by what it is asked to do: the grid of the box and its labels, whether the figure is fitted, and the sources in scenes with the state that is set. Colours, opacities and line widths are not modelled. AutoLocator is any function from an interval to a list of ticks. (cites viscid/plot/vlab.py, vlab.py)
* `Scripts.lean`: Model of the command line tools `scripts/bitmaskbits`, `scripts/rgb2hex` and of `scripts/viscid_diff` up to where it compares Texts are lists of characters; numbers on the command line are already read (`int(s, base=0)`, `float(s)`), and exact. (cites viscid/dataset.py)
* `Seed.lean`: Model of the geometry of seeds: `viscid/seed.py` Real numbers for floats; `none` stands for a vector of nan, which is what a division of the zero vector by its length gives. Seeds with an integer `dtype` are not modelled. (cites seed.py, viscid/seed.py)
* `SeedGrid.lean`: Model of the enumeration of seed points: `viscid/seed.py`, `viscid/coordinate.py` Lists for one dimensional arrays; an array of shape (d, N) is the list of its d rows. The elements are of any type. (`np.prod` of no lengths is 1.0, a float; recent versions of numpy refuse it as a number of repetitions in `Volume._make_local_points`, where it is not converted. That is not modelled: the product is the number 1.) (cites coordinate.py, seed.py, viscid/coordinate.py, viscid/seed.py)
* `SegLines.lean`: Model of `_prep_lines` of `viscid/plot/vpyplot.py` What `prepare_lines` returns (`Model/PrepLines.lean`) is the input: columns of vertices, columns of scalars (of no rows if there are none) and connections. Interpolation is linear; other kinds, bytes for colours and rounding are not modelled. `scipy` is whether scipy can be imported, `junk` is what is in memory that `np.empty` hands out. (cites viscid/plot/vpyplot.py, vpyplot.py)
* `SelText.lean`: Model of `viscid/sliceutil.py`: selections given as text, and components in selections Strings are lists of characters; `strip` and `lower` are those of ASCII. Python's `int`, `float` and `complex` of a string, arrays in brackets and everything about times are parameters. (cites field.py, sliceutil.py, viscid/sliceutil.py)
* `Select.lean`: Model of `viscid/sliceutil.py` std_sel2index: selection by value on one axis Coordinates and values are rationals (floating point rounding not modelled); only floating point axes are modelled, not datetime64 / timedelta64 ones. (cites sliceutil.py, viscid/sliceutil.py)
* `Separator.lean`: Model of `viscid/calculator/separator.py` Coordinates are rationals (rounding is not modelled). Tracing is a parameter: the topology of a point of the uv map is `topo (u, v)`, which stands for `seed.to_3d`, `seed.uv_to_local` and `calc_streamlines`. Plotting and printing are dropped. (cites seed.py, separator.py, streamline.pyx, viscid/calculator/separator.py)
* `Series.lean`: Series of files: `load`, `_parse` and `reload` of the readers that take several files as one viscid/readers/openggcm.py (GGCMFileFortran), ggcm_jrrle.py, ggcm_fortbin.py, ggcm_xdmf.py, athena_bin.py, athena_tab.py, athena_xdmf.py, gkeyll.py, vfile.py. Names are absolute, without `~` and `$`. What is in a file is given by a world, which may be another one when the file is loaded again. Of what is in a file there are the time, the names of the fields and the coordinates; how these are read is the matter of other models (Jrrle, Fortbin, AthenaBin, TextFile, Gkeyll, Xdmf). Not modelled: log files, values of fields, files that cannot be read, the readers of `iof`, `mp_info` and `topo` files in XDMF, and `reload` of the files a series consists of, which `ContainerFile.reload` calls first: they are no longer part of the series after that. (cites athena.py, athena_bin.py, athena_tab.py, athena_xdmf.py, dataset.py, ggcm_fortbin.py, ggcm_jrrle.py, ggcm_xdmf.py, gkeyll.py, openggcm.py, vfile.py, viscid/readers/openggcm.py, xdmf.py)
* `SetSlice.lean`: Assigning to a selection of a field: `viscid/field.py` `set_slice` The data is in memory (`self.data` loads it, field.py:765-771, 827-832), in the order of the coordinates. Selections arrive as one integer or slice per axis, and new axes (`make_slice` of the coordinates made them, see `Select` and `FillSel`). Not modelled: index arrays, and views of the data that others hold. (cites field.py, viscid/field.py)
* `SphCart.lean`: Model of the conversions between Cartesian, spherical and latitude-longitude coordinates `viscid/mapfield.py`. One point at a time (the code works on the columns of a 3xN array); real numbers for floats. The type of the elements matters: the results are stored into an array of the type of the input, so for an array of integers every result is truncated towards zero. (cites mapfield.py, viscid/mapfield.py)
* `Streamline.lean`: Model of `viscid/cython/streamline.pyx`: tracing one direction, one line, many lines Coordinates, step sizes and times live in an arbitrary linearly ordered field (floating point rounding, NaN, infinities and the width of C `int` are not modelled). The integrator together with the activation of an AMR patch is an arbitrary state transformer: nothing about it is assumed unless a theorem says so. (cites calculator/topology.py, streamline.pyx, viscid/cython/streamline.pyx)
* `TextFile.lean`: Model of readers of text files: `viscid/readers/athena_tab.py`, `athena_hst.py`, `ascii.py` The numbers of a file are a list of rows (what `np.loadtxt` reads when it skips lines that begin with #), without rounding. Lines of headers are lists of ASCII characters. (cites ascii.py, athena_hst.py, athena_tab.py, field.py, viscid/readers/athena_tab.py)
* `TimeDelta.lean`: Model of `as_timedelta64` in `viscid/npdatetime.py`, of numbers and strings Floating point numbers are rationals (rounding and nan are not modelled). (cites npdatetime.py, viscid/npdatetime.py)
* `TimeLike.lean`: Model of what `viscid/npdatetime.py` takes for a time, and of how it reads text `float` is Python's `float` of a text (`none`: ValueError; infinities and nan are not modelled), `parse` is the constructor `np.datetime64(text)` or `np.datetime64(text, unit)` of a numpy that knows no time zones (`_NP_TZ` is false). Errors other than ValueError and OverflowError are not modelled. (cites npdatetime.py, viscid/npdatetime.py)
* `TimeText.lean`: Model of the text formats in `viscid/npdatetime.py`: `as_isotime` and `format_time`; and of `linspace_datetime64` (cites npdatetime.py, viscid/npdatetime.py)
* `Timeit.lean`: Model of the timing of functions Models viscid/vutil.py:110-168 (`timereps`, `timeit`). The function called is any that changes a state and may raise; the clock is a sequence of readings. Times are rational; the rounding of `np.mean` and the text printed are not modelled, only how many lines there are. (cites viscid/vutil.py)
* `Tree.lean`: Model of `viscid/tree.py` class Node The object graph is given by `parents : N → List N` and `info : N → Dict Key Val` (`_info`). `N` stands for object identity (`id(obj)`). The `while` loop of `_parent_bfs` takes fuel; running out of fuel is reported as `none`, and the theorems show it never happens on a finite graph. Aliasing of `_info` dicts between nodes is not modelled. (cites viscid/tree.py)
* `TsTool.lean`: Model of the command line tool `scripts/viscid_ts` and of `viscid.vutil.common_argparse` Texts are lists of characters. argparse calls the actions of options in the order of the command line; that, and its own errors (unknown options), are not modelled. Values of fields are exact numbers. Drawing is not modelled beyond which numbers and labels are drawn, with which options. (cites viscid/vutil.py)
* `Turn.lean`: Turning what OpenGGCM files hold from MHD to GSE: `viscid/readers/openggcm.py`, `GGCMGrid` Whether a grid is turned is decided elsewhere (`GgcmFile`, C115); here `turn` is the decision. Fields are on disk or are arrays; their values are rational numbers. Not modelled: arrays of whole numbers (which `*=` with a fraction refuses), that without `copy_on_transform` the array is changed in place (`Recenter`, C162), coordinates that were looked at before they were given to the grid. (cites coordinate.py, field.py, openggcm.py, readers/ggcm_fortbin.py, readers/xdmf.py, viscid/readers/openggcm.py)
* `VecAlg.lean`: Model of the algebra of vector fields `viscid/calculator/calc.py` and `viscid/calculator/necalc.py`: `magnitude`, `dot`, `cross`, `project`, `normalize` and `project_vector` with the two backends, on top of the model of fields, arrays, `wrap` and reductions in `Verif.Model.Arith`. Numbers are real numbers: rounding, types of numbers and nan are not modelled, so division by zero is only used in theorems that exclude it. Names are only modelled in so far as setting one fails. numexpr broadcasts like numpy. (cites calc.py, field.py, necalc.py, viscid/calculator/calc.py, viscid/calculator/necalc.py)
* `VecLoad.lean`: Model of loading vector fields that are made of scalar fields (`viscid/field.py`) Memory, arrays and scalar fields are those of FieldWrites. The components are different fields. Not modelled: conversion of types, layouts other than the default. (cites field.py, viscid/field.py)
* `Vjson.lean`: Model of `viscid/vjson.py`: `find_all` and the text clean-up of `loads` Strings are lists of characters; the result is the text handed to the standard `json.loads`, which is not modelled. (cites viscid/vjson.py, vjson.py)
* `Vpic.lean`: Model of `viscid/readers/vpic.py`: VPIC runs Numbers are rationals; files are lists of bytes on a little endian machine, `np.fromfile` is the one of `Verif.Model.AthenaBin`. The global file is taken as parsed (vpic.py:273-373): its grid, and the variables of the fields and of the species. Not modelled: negative numbers of cells, files that cannot be opened, the getters of VPIC_Grid. (cites viscid/readers/vpic.py, vpic.py)
* `VpicGlobal.lean`: Model of the global file of a VPIC run: `_VPICGlobalFile` of `viscid/readers/vpic.py` The file is the list of its lines. Python's `float` is a parameter. Negative numbers of blocks are not modelled. (cites viscid/readers/vpic.py, vpic.py)
* `Vtk.lean`: Model of `viscid/plot/vlab.py`: fields as sources of VTK Arrays are shapes with functions of indices (`Layout.Arr`). The order of bytes and the types of the numbers are not modelled. (cites viscid/plot/vlab.py, vlab.py)
* `WrapMesh.lean`: Model of data on the mesh of a sphere (`viscid/seed.py`) The meshes are those of SeedGrid. Here there are several arrays with their types, and what is made is converted to the type of the array. Numbers are rational; rounding is not modelled. (cites seed.py, viscid/seed.py)
* `Xdmf.lean`: Model of `viscid/readers/xdmf.py`: the grids of an XDMF file A file is a list of `Grid` elements. `G` is the type of coordinate objects; `_parse_geometry` is a value of the element: coordinates, or the exception it raises (given a Topology). Fields are their names. Not modelled: `Information` elements, the data of fields (their time is that of their grid), names made up for grids without `Name`, patches with different numbers of dimensions, files that have a time of their own. (cites amr_grid.py, dataset.py, tree.py, viscid/readers/xdmf.py, xdmf.py)
* `XdmfGeo.lean`: Model of `FileXDMF._parse_geometry`: the coordinates of a grid in an XDMF file Numbers are rationals (no rounding to the Precision of a data item). The types are the strings of the file, `GeometryType` in upper case. A data item is its Name and what `_parse_dataitem` makes of it, an array or an exception. Not modelled: data items with an invalid Format, Dimensions that are no natural numbers, arrays of integers. (cites coordinate.py, xdmf.py)
* `XdmfInfo.lean`: Model of `Information` elements in `viscid/readers/xdmf.py`, and of the info of AMR grids in `viscid/amr_grid.py` XML elements are trees. What `_parse_dataitem` gives for a DataItem (an array, or an exception) is an argument. Dictionaries are objects: an info is kept by reference. Not modelled: searching parents for info (see Tree) and the other parts of grids (see Xdmf). (cites amr_grid.py, tree.py, viscid/amr_grid.py, viscid/readers/xdmf.py, xdmf.py)
* `Yee.lean`: Model of `viscid/coordinate.py`, `viscid/field.py`, `viscid/dipole.py`: face and edge centered coordinates, make_spherical_mask, fill_dipole, make_dipole Coordinates are rational numbers, fields are real. Vector fields have three components. (cites coordinate.py, dipole.py, field.py, viscid/coordinate.py, viscid/dipole.py, viscid/field.py)

## Results

* **C01** Contiguous chunking is a balanced partition: *proved*. chunk_slices and chunk_list; zero chunks raises (C01_zero_chunks). Theorems: `C01_chunkSlices_partition`, `C01_chunkList_partition`, `C01_zero_chunks`.
* **C02** Chunk sizes agree with both chunkings: *proved*. chunk_sizes vs chunk_slices and chunk_interslices. Theorems: `C02_sizes_eq_slices`, `C02_sizes_eq_interslices`, `C02_interslice_elements`.
* **C03** Scatter/gather of streamline work is independent of the number of workers: *proved*. Order of results of the process pool's map is assumed (trusted). Theorems: `C03_scatter_gather`, `C03_worker_independent`, `C03_history_dependence_matters`.
* **C04** The size argument of the chunk functions controls chunk size: *partial*. Violated: the code computes nchunks from itself, ignoring size. C04_size_violated is the witness; C04_size_partial says what holds. Theorems: `C04_size_violated`, `C04_size_partial`.
* **C05** Bucket bookkeeping stays consistent: *proved*. Invariant over every sequence of operations, failing ones included. Theorems: `C05_consistent`, `C05_no_shared_handle`.
* **C06** Bucket lookup returns the last item set under a handle: *proved*. Refinement to a handle->item map for items compared by identity; last-set-wins for arbitrary item keys. C06_values_can_be_stale records a finding. Theorems: `C06_refines_map`, `C06_last_set_wins`, `C06_values_can_be_stale`.
* **C07** Bucket reference counts keep an item alive exactly while it is referenced: *proved*.  Theorems: `C07_refcount`.
* **C08** Metadata lookup finds the nearest ancestor: *proved*. Breadth-first order characterised exactly; get_all_info and update_info included; cyclic graphs allowed. Theorems: `C08_find_info`, `C08_nearest`, `C08_get_all_info`, `C08_update_strict`, `C08_update_info`.
* **C09** Attribute lookup through parents returns the attribute or the default: *partial*. Violated: the condition reads an unbound variable, so every successful search raises NameError. The not-found part is proved. Theorems: `C09_find_attr_violated`, `C09_statement_violated`, `C09_find_attr_partial`.
* **C10** JRRLE records round-trip: *proved*. Every nonempty record of at most 64 values in the writer's character range. Theorems: `C10_record_round_trip`.
* **C11** JRRLE quantised values round-trip with sign: *proved*. Over the reals; single-precision rounding and header formatting not modelled. C11_zero_not_preserved records that exact zeros are not preserved. Theorems: `C11_chars_round_trip`, `C11_array_round_trip`, `C11_zero_not_preserved`.
* **C12** JRRLE decoding of arbitrary lines is memory safe and detects corruption: *partial*. Violated: a run of more than 64 values can overrun the buffer, undetected changes by multiples of 92 exist, and the header count is trusted. What is guaranteed is proved in the _partial theorems. Theorems: `C12_at_most_64_partial`, `C12_no_overrun_partial`, `C12_memory_safety_violated`, `C12_checksum_partial`, `C12_corruption_violated`, `C12_header_overrun_violated`.
* **C13** JRRLE field lookup does not depend on access history: *proved*. Every history of operations on the wrapper, including re-inquiry, reads and reopen. Theorems: `C13_lookup_history_independent`.
* **C14** Forward-only slicing is equivalent to the requested slice: *partial*. Sound and accepting outside three named cases; violated for explicit start == L with negative step, empty slices, and negative integer indices of reversed axes. Theorems: `C14_sound_partial`, `C14_accepts_partial`, `C14_start_at_length_violated`, `C14_rejects_violated`, `C14_statement_violated`, `C14_int_partial`, `C14_int_negative_violated`.
* **C15** Selecting by value picks the nearest / enclosed grid points: *partial*. Single value: nearest point (all axes). Slices: exact set of selected points outside the two named edges; violated when stop lies within tol below the first coordinate, and on one-point axes the tolerance is 1. Without val_endpoint the last enclosed point is dropped. Theorems: `C15_nearest`, `C15_nearest_empty`, `C15_forward_partial`, `C15_backward_partial`, `C15_forward_guarantee`, `C15_edge_violated`, `C15_single_point_violated`.
* **C16** Selections expand to one entry per axis: *partial*. Shape proved for every accepted selection (with an Ellipsis: when there are no more selections than axes); exact result and rejection proved for unnamed selections; two ellipses rejected. Violated: too many entries with an Ellipsis and a named newaxis is accepted with a wrong result. Theorems: `C16_shape_partial`, `C16_unnamed`, `C16_ellipsis`, `C16_two_ellipses`, `C16_names_distinct_partial`, `C16_name_clash_violated`, `C16_too_many_violated`.
* **C17** Trilinear interpolation is exact at grid points and never overshoots: *proved*. Over exact rationals; rounding not modelled. Theorems: `C17_in_bounds`, `C17_grid_exact`, `C17_no_overshoot`, `C17_multilinear_exact`, `C17_clamped`, `C17_cache_independent`.
* **C18** Bracketing index search is correct and independent of its cache: *proved*. Over exact rationals. At or above the last coordinate nonuniform axes give n-1, uniform axes n-2 (the docstring promises n-2 for both). Theorems: `C18_nonuniform`, `C18_uniform`, `C18_cache_independent`, `C18_same_bracket`.
* **C19** Nearest-neighbour interpolation returns the nearest sample: *proved*. Over exact rationals. Theorems: `C19_nearest`.
* **C20** AMR neighbour lists are symmetric: *partial*. Neighbour relation, symmetry, masks and the capacity of 48 fully proved; only the documented meaning of the axis bits (x = 0b100) is violated: x is 0b001. Theorems: `C20_neighbors`, `C20_symmetric`, `C20_masks`, `C20_capacity`, `C20_doc_bits_violated`.
* **C21** AMR point location finds a containing patch whenever one exists: *partial*. Containment, uniqueness and histories proved for all inputs; nearest centre proved when some centre is closer than sqrt(1e37), violated beyond. Theorems: `C21_contains`, `C21_nearest_partial`, `C21_unique`, `C21_history`, `C21_shared_face_history`, `C21_far_violated`.
* **C22** AMR whole-field reductions equal reductions over all data: *partial*. sum, prod, any, all, min, max proved; mean only for equal patch sizes; mean and ptp violated. Theorems: `C22_sum_prod_any_all`, `C22_min_max`, `C22_mean_partial`, `C22_mean_violated`, `C22_ptp_violated`.
* **C23** Streamline buffers are never overrun and the seed is on the line: *proved*. Any integrator, any ordered field; every line is a block of written points containing the seed. Buffer writes proved in bounds. Theorems: `C23_line`, `C23_size`.
* **C24** Streamline tracing always terminates: *proved*. At most maxit steps per direction for any integrator; the retry loop of the adaptive methods ends within a number of passes that depends only on the step and the floor. Theorems: `C24_retries_finite`, `C24_bounded_steps`.
* **C25** Adaptive step size stays within its limits: *partial*. Sign, ceiling, strictly smaller retries and the floor after a too-large error proved; the floor is violated after accepted steps, without any lower bound. Theorems: `C25_controller`, `C25_floor_violated`.
* **C26** Integrator coefficient tables are consistent: *proved*. All rooted-tree order conditions up to the advertised orders; exact on constant fields; zero fields reported. The convergence theorem behind order conditions is not formalised. Theorems: `C26_orders`, `C26_constant_field`, `C26_zero_field`.
* **C27** max_length and max_t limit the streamline: *partial*. max_length: exact for fixed-step methods without max_t (arc length proved for euler1). Violated: dt accumulates so travel time is counted more than once; adaptive methods add the wrong length. Theorems: `C27_euler_arc_length_partial`, `C27_adaptive_length_violated`, `C27_max_length_partial`, `C27_max_t_never_late_partial`, `C27_max_t_violated`.
* **C28** End-point classification is total and prioritised: *proved*. Exact classification for every point. Theorems: `C28_classify`.
* **C29** Magnetosphere topology codes are well defined: *partial*. Topology proved for lines traced both ways; violated when only one direction is traced. Colours proved. Theorems: `C29_topology_partial`, `C29_one_direction_violated`, `C29_colors`.
* **C30** Comment-tolerant JSON leaves valid JSON unchanged: *partial*. For texts whose strings have no escaped quote and no comma before a bracket: exactly the tokens outside comments minus trailing commas. json.loads itself is not modelled. Violated: commas inside strings, escaped quotes before a marker, apostrophes before a comment. Theorems: `C30_cleanup_partial`, `C30_valid_json_partial`, `C30_comma_violated`, `C30_escape_violated`, `C30_apostrophe_violated`.
* **C31** Discrete vector identities hold: *partial*. div(curl) = 0 for every field, curl(grad) = 0 for cell-centred ones; partial because grad of a node-centred field raises, see C32. Theorems: `C31_div_curl`, `C31_curl_grad_partial`.
* **C32** Finite differences are exact for linear fields up to the boundary: *partial*. grad, div and curl exact on affine fields at every point, boundary included. Violated for node-centred scalar fields: grad allocates a cell-centred result and raises ValueError (C32_grad_node_violated). Theorems: `C32_grad_partial`, `C32_div`, `C32_curl`, `C32_invariant_axis`, `C32_grad_node_violated`.
* **C33** Point derivatives agree with calculus on linear fields: *partial*. Violated: cycalc.closest_ind is not visible from Python, so the at_point functions always raise (C33_at_point_violated). If it were, Jacobian and divergence would be exact (partial) and curl wrong (C33_curl_violated). jacobian_at_ind is proved exact. Theorems: `C33_at_point_violated`, `C33_jacobian_div_partial`, `C33_given_spacing`, `C33_default_spacing`, `C33_curl_value`, `C33_curl_violated`, `C33_jacobian_at_ind`.
* **C34** Boundary extension preserves the interior: *partial*. Interior, order 0, order 1, component axis, unknown order. Violated for the default axes='all', which raises TypeError for every array (C34_default_axes_violated). Theorems: `C34_interior`, `C34_order0`, `C34_order1`, `C34_order1_profile`, `C34_components`, `C34_bad_order`, `C34_default_axes_violated`.
* **C35** Clusters are the connected components of the points: *partial*. Full statement proved for axes with different end coordinates; on an axis of one point the means are nan (C35_one_point_axis_violated). Theorems: `C35_components`, `C35_bad_input`, `C35_one_point_axis_violated`.
* **C36** Uniform cell-centred extents match the cell-centred coordinates: *partial*. Violated on every axis of nonzero length (division by n instead of n - 1) and for one-node axes; node extents and cell counts proved. Theorems: `C36_nodes`, `C36_centres`, `C36_extent_violated`, `C36_single_node_violated`, `C36_extent_partial`.
* **C37** Cell-centred coordinates interleave node coordinates: *partial*. Proved when cell centres are derived; explicitly given centres are not reflected (C37_given_centres_violated). Theorems: `C37_interleave`, `C37_single`, `C37_reflect`, `C37_given_centres_violated`.
* **C38** Temporal datasets stay time-ordered: *partial*. Time order, ties, iteration, index, get_times by slices of ints and nearest-time lookup are proved for all histories; fails when every time is a Python int (get_child by time raises). Theorems: `C38_time_ordered`, `C38_iter`, `C38_order_unique`, `C38_nearest`, `C38_int_times_violated`, `C38_index`, `C38_get_times`, `C38_slice_never`.
* **C39** Membership test of a temporal dataset agrees with retrieval: *partial*. Violated: index 0, negative indices, float times, times outside the range are retrievable but not members. Proved: indices 1..n-1 agree, membership implies retrieval, a time string is a member iff in the time range. Theorems: `C39_index_partial`, `C39_sound_partial`, `C39_time_range`, `C39_zero_violated`, `C39_others_violated`, `C39_zero_always_violated`, `C39_empty_violated`.
* **C40** File type detection is deterministic and respects priority: *proved*. Proved for every class hierarchy, accept predicate, priority and preference. Regex matching is a parameter. Theorems: `C40_registry_complete`, `C40_derived_first`, `C40_none_iff`, `C40_detect`, `C40_most_derived`, `C40_prefer`.
* **C41** Face-centred divergence satisfies the discrete divergence theorem: *partial*. Divergence theorem proved for all leading fields with >= 2 cells per axis and all raw OpenGGCM face fields with >= 3; constants reproduced. Violated (nan everywhere) when an axis has one cell, i.e. for every 2-D field. Theorems: `C41_divergence_theorem_partial`, `C41_divergence_theorem_raw_partial`, `C41_zero_flux`, `C41_single_cell_violated`, `C41_fc2cc_constant`, `C41_ec2cc_constant`.
* **C42** Line integrals are trapezoid sums that do not mix lines: *partial*. Scalar fields proved; dot proved for lines without repeated vertices (nan otherwise); mag holds for the first line only and is wrong or raises for later ones; an empty first line raises. Theorems: `C42_scalar`, `C42_dot_partial`, `C42_dot_repeated_vertex_violated`, `C42_mag_first_partial`, `C42_mag_second_violated`, `C42_mag_raises_violated`, `C42_empty_first_line_violated`, `C42_errors`.
* **C43** Quaternion and matrix rotations agree: *proved*. quat2rot, quatmul, quat_rotate, rot2quat over the reals, single values; rot2quat as a relation over every eigenvector the solver may return. Theorems: `C43_orthonormal`, `C43_renormalises`, `C43_quatmul`, `C43_homomorphism`, `C43_homomorphism_two`, `C43_quat_rotate`, `C43_neg`, `C43_rot2quat`, `C43_quat2rot_rot2quat`.
* **C44** Euler angles round-trip: *partial*. All twelve orders, degrees and radians, all eight conversion functions. Partial: middle angles strictly within 1e-10 of the singularity are treated as singular, so the matrix is not exactly reproduced (proved by a witness). Theorems: `C44_e_rot`, `C44_orders`, `C44_round_trip`, `C44_round_trip_eul`, `C44_round_trip_dcm`, `C44_round_trip_dcm2eul`, `C44_reproduces_partial`, `C44_bad_order`, `C44_near_singular_violated`.
* **C45** Geophysical coordinate transforms compose: *proved*. All names, times and call histories; rdim=3. The caches (including the scalar ones) are modelled and proved to be invisible, also after exceptions. Theorems: `C45_history_independent`, `C45_compose`, `C45_identity`, `C45_inverse`, `C45_rotation`, `C45_defined`, `C45_refused`.
* **C46** The dipole axis is the z axis of SM and MAG coordinates: *proved*. For objects whose angles follow from the time; the moment in SM for all objects. Theorems: `C46_axis`, `C46_moment`.
* **C47** Building a Cotr from a dipole moment reproduces the moment: *partial*. Violated for every nonzero moment: the returned object has the opposite moment (proved, for gse and mhd). dip_tilt and dip_gsm describe the axis, which is opposite to the moment. Theorems: `C47_opposite_partial`, `C47_violated`, `C47_refused`.
* **C48** Dipole mapping stays on the field line: *partial*. For every Cotr (time or orientation), system, history, point off the axis and off the magnetic equator and 0 < r <= L: distance r, same L-shell, half plane and hemisphere; own distance gives the point back; as_spherical gives the same point with angles in [0,180] and [0,360). On the equator it is violated: np.sign(0) = 0, so the point is moved along its radius and leaves its field line. Theorems: `C48_same_field_line_partial`, `C48_identity_partial`, `C48_equator_violated`, `C48_spherical`.
* **C49** Spherical and Cartesian conversions are inverse: *partial*. Radians: both compositions proved (origin, and the poles where phi is undefined, excluded). Degrees: sph2cart proved; violated for cart2sph (it converts its copied input, not the result, so deg has no effect) and hence for cart2latlon in degrees, the default. In radians cart2latlon returns longitudes in (-2pi, 0]: positive ones come back lowered by 2pi (violated, and proved exactly). Theorems: `C49_cart_sph_cart`, `C49_sph_cart_sph`, `C49_sph2cart_deg`, `C49_degrees_violated`, `C49_latlon_partial`, `C49_latlon_positive_partial`, `C49_latlon_violated`.
* **C50** Plane seed coordinates are orthonormal and invertible: *proved*. Plane.__init__, to_3d and to_local over the reals, for directions that are not parallel (for parallel ones see C75): axes are orthonormal, N is the normal direction, and to_local inverts to_3d. Theorems: `C50_plane`.
* **C51** Seed point enumeration is the Cartesian product in C order: *proved*. Grids of seeds (Volume, Plane, Sphere): get_points, iter_points and the uv / mesh layout agree on C order for all sizes; a Volume without a dimension of size 1 has no uv shape (RuntimeError). Theorems: `C51_get_points_iter_points`, `C51_c_order`, `C51_volume_uv`, `C51_volume_no_uv`, `C51_plane`, `C51_sphere`.
* **C52** calc_dip evaluates the dipole formula at every point: *partial*. Proved for one point (as a (3,) or (1,3) array). Violated for every other number of points: N x 3 arrays raise ValueError unless N = 3, when the columns are mixed up. Theorems: `C52_one_partial`, `C52_raises_violated`, `C52_three_violated`.
* **C53** Null-cell screening keeps every cell that can contain a null: *partial*. Candidates: proved for every field and grid. Faces: proved for the YZ and ZX faces. Disagreement: in the table of offsets corner d of both XY faces is corner b again, so the interpolant is wrong there. Theorems: `C53_candidates`, `C53_once`, `C53_faces_partial`, `C53_xy_faces_violated`.
* **C54** Roots found on a face are roots of the bilinear interpolants inside the face: *proved*. Over the reals; comparisons with nan or infinite y are false, as in numpy. Theorems: `C54_sound`.
* **C55** Vector layout conversion is lossless: *partial*. All shapes and numbers of components. Disagreement: if every axis of the grid has as many points as there are components (e.g. 3 x 3 x 3), interlaced arrays are taken as flat and converting back mixes components; everything else is proved. Theorems: `C55_detect`, `C55_to_interlaced`, `C55_to_flat_partial`, `C55_round_trip_partial`, `C55_cube_violated`.
* **C56** Field lookup on a grid follows a fixed resolution order: *proved*. For arbitrary fields, getters, post-processors and evaluators; recursion depth is the fuel. An equation's symbols are looked up with the selection and its result is not sliced again. Text names only. Theorems: `C56_stored`, `C56_computed`, `C56_equation`, `C56_disabled`, `C56_unknown`, `C56_item`, `C56_once`, `C56_set`.
* **C57** A failed streamline call does not poison later calls: *partial*. The lock is free again after successful calls and after argument errors; an error during tracing blocks every later call (violated). Theorems: `C57_lock_free_partial`, `C57_poisoned_violated`.
* **C58** Combined line geometry keeps lines separate: *proved*. All lines, including those with one or no vertex. Theorems: `C58_connections`, `C58_once`, `C58_vertices`, `C58_count`.
* **C59** A rotation taking a to b exists for every pair of directions: *partial*. Proper rotation for all nonzero pairs; maps exactly unless the directions are within 1e-8 of (anti)parallel without being so, where the error is at most 2e-8 (proved) and not zero (witness). Theorems: `C59_rotation`, `C59_maps_partial`, `C59_close`, `C59_exact_violated`.
* **C60** Setting a node's time takes effect: *partial*. Violated: datetime and timedelta values are computed but never stored. Numbers are stored. Theorems: `C60_set_time_violated`, `C60_set_time_witness`, `C60_set_time_partial`.
* **C61** Interpolating over AMR patches stays inside each patch's arrays: *partial*. Proved when all patches have the same shape; violated otherwise (search starts at an index outside the smaller patch's arrays, with bounds checks off). Theorems: `C61_same_shape_partial`, `C61_stale_cache_violated`.
* **C62** Arithmetic on AMR fields is patchwise: *partial*. Proved when patches do not have exactly one cell; violated for one-cell patches. Theorems: `C62_binary_partial`, `C62_mismatch`, `C62_unary_partial`, `C62_one_cell_violated`.
* **C63** Convective derivative of an affine field is the directional derivative: *proved*. Boundary points included. Theorems: `C63_convective_affine`.
* **C64** Periodic clusters and single clusters: *partial*. Violated in the corners, for clusters that wind around more than once, and for multiple=False. Theorems: `C64_corner_violated`, `C64_winding_violated`, `C64_single_violated`.
* **C65** nc2cc turns nodes into cell centres: *partial*. Holds for full arrays of at least three equally spaced nodes; violated for uniform coordinates, unequal spacing, one and two nodes. Theorems: `C65_uniform_violated`, `C65_equidistant_partial`, `C65_full_arrays_violated`.
* **C66** Slicing keeps coordinates with the data: *partial*. Node centring proved; cell centring proved for step one and nonnegative start (any stop) and for nonnegative kept indices and -1; violated for negative starts, bounded backward slices, strides, kept indices below -1, and the recorded location. Theorems: `C66_node`, `C66_forward_partial`, `C66_keep_partial`, `C66_negative_start_violated`, `C66_backward_violated`, `C66_stride_violated`, `C66_keep_violated`, `C66_reduced_location_violated`.
* **C67** Indexing a temporal dataset reaches its children: *partial*. Violated for every dataset and item: children is a list of tuples, so the membership test of __getitem__ never succeeds. Theorems: `C67_getitem_violated`.
* **C68** Face and edge averages use the faces and edges of the same cell: *partial*. Proved for leading fields and raw fields (any flip; edges need equal staggering). Violated: edge fields with different staggering per axis, raw fields with a single-cell axis raise, padded shape is one too large for non-OpenGGCM fields. Theorems: `C68_fc2cc_leading_partial`, `C68_fc2cc_raw_partial`, `C68_ec2cc_raw_partial`, `C68_mixed_staggering_violated`, `C68_raw_single_cell_violated`, `C68_shape_raw_partial`, `C68_bnd_interior`, `C68_shape_violated`.
* **C69** Axis-angle conversions: *partial*. Holds for quick=True, exact half turns and identity included; violated for quick=False, which calls eigh on a matrix that is not symmetric. A matrix with an antisymmetric part in (0, 1e-8] is not covered. Theorems: `C69_wxyz2rot`, `C69_wxyz2quat`, `C69_rot2wxyz`, `C69_not_quick_violated`.
* **C70** a2b_rot with new_x orients the x axis: *partial*. Violated when the unrolled image of x is exactly opposite to new_x: np.sign(0) makes the roll zero. Theorems: `C70_new_x_partial`, `C70_opposite_violated`.
* **C71** Great circles join their end points: *partial*. Proved for non-collinear points outside the C70 case; violated for great_circle((-1,0,0),(0,-1,0)), which starts at (1,0,0), and for collinear points not perpendicular to y. Theorems: `C71_path_partial`, `C71_ends_partial`, `C71_opposite_violated`, `C71_collinear_violated`.
* **C72** The dipole axis follows the IGRF coefficients: *partial*. Violated at every ordinary time: the latitude is 90 - arcsin(|(g11,h11)|/|g10|), it should be arctan. Proved: interpolation, longitude and hemisphere. Theorems: `C72_coefficients`, `C72_axis_partial`, `C72_direction_violated`.
* **C73** No dipole tilt on 1 Jan 1967: *partial*. Violated at midnight (the default time of Cotr): 1967-01-01T00:00 is 1966.99925 in datetime64_as_years, outside of the tolerance of 0.0006 years. Proved for a window from about 01:19 to 11:50. Theorems: `C73_window_partial`, `C73_midnight_violated`.
* **C74** Coordinate conversions do not depend on the element type: *partial*. Violated: results are stored in an array of the type of the input, hence truncated; with deg=True it raises. Theorems: `C74_truncated_partial`, `C74_violated`.
* **C75** Planes with parallel directions are refused: *partial*. Disagreement: the normalised direction of parallel vectors is nan and nan is not allclose to 0, so the check never fires; no pair of directions raises. Theorems: `C75_parallel_violated`, `C75_never_raises`.
* **C76** Seed points given as arrays are read in order: *partial*. Proved for every array; to_seeds documents N x 3 arrays, and a 3 x 3 array is read as 3 x N (its columns). Theorems: `C76_point`, `C76_three_violated`.
* **C77** Seeds of a sphere lie on it and are distinct: *partial*. Over the reals. Angles from the pole are exact if the pole is along +-z or at least 1e-8 from it (limit of a2b_rot, see C59); for every other pole they are proved up to 2e-8 of the radius (C77_angle_close, C77_circle_close), and for poles in the y-z plane that close to z the exact claim is refuted (C77_angle_violated). Distances and distinctness need no such condition. 'auto' end points. Theorems: `C77_distance`, `C77_angle_partial`, `C77_thetas`, `C77_distinct`, `C77_circle_partial`, `C77_angle_close`, `C77_circle_close`, `C77_angle_violated`.
* **C78** Sphere meshes match their data: *partial*. Layout proved for all sizes. The points added at the poles are right for limits in increasing order; for thetalim=(180, 0) the opposite pole is added. Theorems: `C78_as_mesh`, `C78_arr2mesh`, `C78_correspond`, `C78_poles_partial`, `C78_reversed_violated`, `C78_poles_close`.
* **C79** Spherical patches lie on the sphere or are refused: *partial*. Proved for angles from 0 to 90 degrees. Disagreement: angles beyond 90 degrees, e.g. (180, 45), pass the check and seeds are nan. Theorems: `C79_patch_partial`, `C79_range_violated`.
* **C80** Line seeds are evenly spaced: *proved*. Over the reals, all n >= 2. Theorems: `C80_line`.
* **C81** Spline seeds are repeatable: *partial*. scipy's splprep/splev is a parameter. Disagreement: a user given degree k is popped from the options by the first call, and later calls use the default degree. Theorems: `C81_spline_partial`, `C81_degree_violated`.
* **C82** The face root finder misses no root: *partial*. Proved if the first function depends on y at the root. Disagreement: otherwise y is 0/0 and the root is dropped, e.g. x = 1/2 and y = 1/2. Theorems: `C82_complete_partial`, `C82_once`, `C82_missed_violated`.
* **C83** find_nulls always returns: *partial*. Disagreement: with no candidates or no nulls the empty index arrays have float elements, and find_nulls raises ValueError or IndexError. Theorems: `C83_points_partial`, `C83_no_nulls_violated`.
* **C84** find_nulls finds isolated nulls: *partial*. Disagreement: (x, y, z) - 1/2 on a single cell: the only null is in the middle of the cell and is not found. No positive theorem: completeness of the face parity test does not hold with the defects of C53 and C82. Theorems: `C84_missed_violated`.
* **C85** Nulls are classified by their eigenvalues: *proved*. The eigenvalues themselves (numpy.linalg.eig) are a parameter. Degenerate nulls are reported as O (one vanishing eigenvalue) or dropped with a message. Theorems: `C85_order`, `C85_kinds`, `C85_reversed`.
* **C86** as_layout returns a field: *partial*. Disagreement: asked for the layout the field has with force_c_contiguous=False, as_layout returns None. Theorems: `C86_none_violated`, `C86_same_partial`.
* **C87** Setting layout converts the field: *partial*. Disagreement: nr_comp stays cached when the layout is set, and reading the data raises ValueError if the data or shape was read before. Theorems: `C87_set_layout_partial`, `C87_after_read_violated`.
* **C88** Data that does not fit its grid is noticed: *partial*. Disagreement: sshape2 is computed from the data's own shape, so one of the earlier cases always applies and 'other' is never returned. Theorems: `C88_never_other_violated`.
* **C89** Transposed fields keep coordinates and values together: *proved*. For nonnegative axes. The layout of the result is detected from its shape, see C55. Theorems: `C89_transpose`.
* **C90** Derived GGCM fields come from whatever is in the file: *partial*. Disagreement: _get_b asks for bx, whose getter asks for b, so that unless b or all of bx, by, bz are stored the lookup exceeds the recursion limit and the face-centred fall-back is never reached. Proved for every recursion limit. The electric field is right. Theorems: `C90_components_partial`, `C90_fallback_violated`, `C90_electric_partial`, `C90_derived_partial`.
* **C91** A field that is not there is a KeyError: *partial*. Disagreement: the same for v, vx, vy, vz (and b). Proved for names nobody computes and for computed names off the loops. Theorems: `C91_missing_violated`, `C91_unknown_partial`, `C91_computed_partial`.
* **C92** Scalars stay with their lines and vertices: *proved*. Colours per line for numbers of lines other than 3 and 4 (square arrays are ambiguous). Theorems: `C92_per_line`, `C92_per_vertex`, `C92_color_per_line`.
* **C93** Vertices can have colours: *partial*. Disagreement: always ValueError with more than 4 vertices, because the array is transposed the wrong way. Theorems: `C93_vertex_colors_violated`, `C93_colored_lines_violated`.
* **C94** Colours become the nearest bytes: *partial*. Disagreement: numbers from 255.5 up to 256 become 0. Theorems: `C94_fractions_partial`, `C94_bytes_partial`, `C94_refused_partial`, `C94_wrap_violated`.
* **C95** A single colour may be given as a tuple: *partial*. Disagreement: TypeError, since the entries of the tuple are assigned to. Proved for lists. Theorems: `C95_list_partial`, `C95_tuple_violated`.
* **C96** Slicing a field before its data are loaded gives what slicing after loading gives: *partial*. Proved: what loading gives (storage order, mirrored axes), equality of both paths and acceptance for scalar fields and vector fields stored z first. Violated: vector fields stored x first (the component's entry is inserted twice into the same list: IndexError for every selection), data sets lacking a trailing axis of length 1 (IndexError), an index one past the end of a reflected axis (a value instead of IndexError). Theorems: `C96_same_partial`, `C96_loaded_values`, `C96_accepts_partial`, `C96_xyz_vector_violated`, `C96_missing_axis_violated`, `C96_past_end_violated`.
* **C97** Separator bisection only returns places where the topologies meet: *partial*. Proved for all maps, checks and depths over exact rationals; max_depth=0 returns a list with an empty string (C97_max_depth_zero_violated). Theorems: `C97_sound`, `C97_four_topologies`, `C97_max_depth_zero_violated`.
* **C98** Separator bisection ends and misses no separator its walks can see: *partial*. Every chain of quarters that pass the check is found; the search ends for positive max_depth. Violated: regions the walks do not touch are missed, and a negative max_depth never ends. Theorems: `C98_found`, `C98_ends_partial`, `C98_negative_depth_violated`, `C98_missed_violated`.
* **C99** topology_bitor_clusters finds the smallest windows that contain all topologies: *partial*. Windows, their minimal size and location proved for grids that are not periodic. Violated: windows grow by one point per iteration, not by a factor of two; max_depth=0 raises. Missing: periodic axes. Theorems: `C99_windows`, `C99_resolution_violated`, `C99_max_depth_zero_violated`.
* **C100** Separators can be looked for on every kind of seed: *partial*. Violated: item assignment to a tuple (TypeError) for every sphere that reaches a pole; IndexError for spheres that do not span phi. Proved for other seeds with at least 11 points per direction. Theorems: `C100_sphere_violated`, `C100_other_seeds_partial`.
* **C101** trace_separator follows separators from null to null: *partial*. Shape of the lines proved for every outcome of the searches. Violated: only one null raises ValueError, and nothing bounds the loop. Theorems: `C101_lines_partial`, `C101_one_null_violated`, `C101_ends_violated`.
* **C102** trace_separator's result does not depend on earlier calls: *partial*. Violated: the file name has only directory, run and rounded time, and cache=False still reads the file. Proved for histories whose calls agree whenever they share a file. Theorems: `C102_history_partial`, `C102_arguments_violated`, `C102_time_violated`.
* **C103** Times brought to a common unit keep their value: *partial*. Proved for units as..W and any numpy that refuses factors beyond 64 bits: whenever as many times come back as went in, they are all in one unit, rounded down, in the finest unit possible, and nothing overflows silently (C103_one_unit_partial); otherwise no unit will do (C103_short_only_if_blocked). Violated then: the code does not raise but returns a list without the offending time, IndexError for single times. Months and years not modelled. Theorems: `C103_one_unit_partial`, `C103_short_only_if_blocked`, `C103_lost_violated`.
* **C104** round_time rounds to the nearest unit: *partial*. Violated: values are rounded down (1999 ms -> 1 s). Proved: coarser times untouched, others rounded down, allow0=False semantics, PrecisionError only for times between 0 and one unit. Theorems: `C104_down_partial`, `C104_precision`, `C104_nearest_violated`.
* **C105** Sums and differences of times do not overflow: *partial*. Violated: both operands fit into the common unit but the sum/difference may wrap around, and most_precise=True makes that likely (2200 minus 1700 is negative). Proved: exact whenever the result fits. Theorems: `C105_diff_partial`, `C105_sum_partial`, `C105_overflow_violated`.
* **C106** Numbers become the times they stand for: *partial*. Violated: the test for integers has a relative tolerance of 1e-4, so 7200.25 s becomes 7200 s and every time above 5000 s loses its fraction (also in timedelta_as_seconds); days are refused. Proved: result is the nearest integer in the coarsest unit within 0.01 %, integers are exact, errors characterised. Theorems: `C106_close_partial`, `C106_integers`, `C106_fraction_violated`, `C106_long_violated`, `C106_decimals_violated`, `C106_days_violated`.
* **C107** Durations can be given as strings: *partial*. Violated: '-1:30' is -30 s; unit ignored for strings. Proved: the fields are weighted 3600, 60, 1, for every float(); everything else refused. Theorems: `C107_fields_partial`, `C107_refused`, `C107_sign_and_unit_violated`.
* **C108** Times with colons become ISO 8601: *partial*. Violated: a fraction of hours or minutes becomes the next field ('2010:06:21:12.5' is 12:05), and arrays are returned unconverted. Proved for all the documented formats. Theorems: `C108_colons_partial`, `C108_fraction_violated`, `C108_array_violated`.
* **C109** Durations are formatted as documented: *partial*. Violated: 'hms' drops whole days (the documentation's own example), '1 day' lacks a blank, times before 1970 are off by a day. Proved for the first day ('hms'), for all days but the second from 1970 on ('dhms'), and the seconds in parentheses. Theorems: `C109_first_day_partial`, `C109_days_partial`, `C109_seconds`, `C109_before`, `C109_violated`.
* **C110** Fractions of a second are rounded correctly in text: *partial*. Violated: fractions that round up lose the carry (59.96 -> 59.0); dates without separators are rewritten as fractions. Proved for formats whose texts have no six digits in a row or a digit before %f, and no carry; for every correct rounding. Theorems: `C110_digits_partial`, `C110_violated`.
* **C111** linspace_datetime64 starts and ends where asked: *partial*. Violated for dates: the times pass through doubles in ns, so ends are off by up to 128 ns. Proved below 2^53 units. Only the conversion of the ends to doubles is rounded in the model. Theorems: `C111_spaced_partial`, `C111_ends_violated`.
* **C112** Base time of GGCM file headers: *partial*. Bound of 0.05 s + 0.01 % of t, exact for whole seconds. Violated: a leading blank is not stripped; base times of one run differ when t has a fraction and exceeds 5000 s. Theorems: `C112_base_partial`, `C112_whole`, `C112_refused`, `C112_blank_violated`, `C112_drift_violated`.
* **C113** Grouping of GGCM file names: *proved*. Full: partition, order of groups and files, errors. Theorems: `C113_groups`, `C113_refused`.
* **C114** Searching a file up the directory tree: *partial*. Nearest of seven directories. Violated: max_depth is overwritten (openggcm.py:55) and not passed on. Theorems: `C114_nearest_partial`, `C114_depth_violated`.
* **C115** Deciding whether to turn a GGCM grid into GSE: *partial*. Holds when the grid knows about its log file. Violated: KeyError without _viscid_log_fname even for False; requests starting with 'auto' are never refused. Theorems: `C115_request_partial`, `C115_once`, `C115_nolog_violated`, `C115_invalid_violated`.
* **C116** Cells from a grid2 file: *partial*. Exact for even spacing and for the first and last cell; centres stay inside their cells. Violated for stretched grids; one cell raises IndexError. Theorems: `C116_nodes_partial`, `C116_even`, `C116_stretched_violated`, `C116_one_violated`.
* **C117** Location of plane files: *partial*. Holds for True and False. Violated: strings such as 'auto' and 'false' are true for the plane, so its sign changes although the grid is not turned. Theorems: `C117_sign_partial`, `C117_nearest`, `C117_auto_violated`.
* **C118** Double underscores are never evaluated: *proved*. Text up to eval; ASCII words only. The numexpr path and eval itself are not modelled. Theorems: `C118_no_dunder`, `C118_text`.
* **C119** Names in equations: *partial*. Proved for equations of fields, calls, numbers and operators without quotes. Violated: the exponent of '2.e3', keyword arguments and names in double quotes are taken for fields; a field hides the function of the same name; fields with two underscores in a row cannot be named. Theorems: `C119_names_partial`, `C119_unknown`, `C119_exponent_violated`, `C119_keyword_violated`, `C119_clash_violated`.
* **C120** Parameters in log files: *partial*. Proved for files whose views of watched classes end with a blank line and whose MHD type, if any, is an integer. Violated: without a blank line parameters are recorded under the previous class; a file cut off within the heading of a view raises StopIteration. Taking lines apart (_parse_param, _parse_value, regular expressions) is a parameter. Theorems: `C120_views_partial`, `C120_last`, `C120_views_violated`.
* **C121** Name of the MHD type in log files: *partial*. Proved for types that are natural numbers, and for logs without a type. Violated: negative numbers count from the end (-1 is MT_GKEYLL); a type that is no integer raises TypeError. Which values are integers is a parameter. Theorems: `C121_names_partial`, `C121_negative_violated`, `C121_recorded`, `C121_file_violated`.
* **C122** Vector components in selections: *partial*. Proved if no text is found in a string of names except as a single character. Without that it fails (C122_substring_violated): names are looked for as substrings, so 'yz' is the second component and a trailing comma the first, and a scalar field raises AssertionError. Theorems: `C122_component_partial`, `C122_substring_violated`.
* **C123** Selections as text are split at commas outside brackets: *partial*. Proved for text without '@' and underscores within parts. Otherwise names of axes are split at underscores, and '@' becomes a comma (C123_underscore_violated). Theorems: `C123_parts_partial`, `C123_underscore_violated`.
* **C124** Text and values select the same: *partial*. Proved with the parsers of numbers as parameters and without times and arrays, up to a step of None being 1. Empty text raises IndexError, and the step of text stays None (C124_empty_violated). Theorems: `C124_value_partial`, `C124_slice_partial`, `C124_empty_violated`.
* **C125** Interior selections: *partial*. Proved for steps of one and minus one and coordinates on the axis. Larger steps raise RuntimeError although enclosing points exist, and coordinates off the axis raise RuntimeError or IndexError (C125_step_violated). Theorems: `C125_forward_partial`, `C125_backward_partial`, `C125_step_violated`.
* **C126** Ends of a selection: *partial*. Proved for coordinates and open ends with a step. An open end without a step raises TypeError, and the stop index reports the point after the last one selected or raises IndexError (C126_ends_violated). Theorems: `C126_values_partial`, `C126_single_partial`, `C126_ends_violated`.
* **C127** Flux functions: *partial*. Proved for fields with two axes in the order of xyz, for every size, spacing and field, over any field of numbers. With axes in another order the result is no flux function (C127_order_violated); with three axes of more than one point IndexError is raised (C127_third_violated). Rounding is not modelled. Theorems: `C127_flux_partial`, `C127_second_partial`, `C127_order_violated`, `C127_third_violated`.
* **C128** Plasma beta: *partial*. The code divides by |B| instead of B^2: it is the beta times |B| (C128_magnitude_partial), right only where |B| is one or there is no pressure (C128_beta_partial) and wrong everywhere else (C128_beta_violated). Theorems: `C128_beta_partial`, `C128_magnitude_partial`, `C128_beta_violated`.
* **C129** Selections by loc and iloc: *partial*. Proved for scalar fields, and for interlaced vector fields with fewer items than axes. An item for each axis of a vector field raises IndexError (C129_interlaced_violated, C129_flat_violated); if components come first, items go to the axis after theirs (C129_flat_violated); lists are overwritten (C129_list_violated). Texts, arrays and times as items are not modelled. Theorems: `C129_plain_partial`, `C129_ellipsis_partial`, `C129_interlaced_partial`, `C129_interlaced_ellipsis_partial`, `C129_interlaced_violated`, `C129_flat_violated`, `C129_list_violated`.
* **C130** Globbed paths: *partial*. All matches are proved (C130_all, C130_parts, C130_name). For the first match only: what is found is the first of all (C130_first_partial) and it is found if all but the last part are names (C130_last_partial), but in general it may be missed since only the first name matching a part is looked into (C130_first_violated). fnmatch is a parameter. Theorems: `C130_parts`, `C130_all`, `C130_name`, `C130_first_partial`, `C130_last_partial`, `C130_first_violated`.
* **C131** Texts for colours: *partial*. Proved for all codes and names. Codes of seven digits are accepted with any rgba code beside them, and those of five or seven digits raise NotImplementedError otherwise (C131_digits_violated). The colours of names are a parameter (matplotlib). Theorems: `C131_colours_partial`, `C131_digits_violated`.
* **C132** Colours of topologies: *proved*. For numbers and flat sequences of numbers, or fields. Theorems: `C132_colour`, `C132_magnetosphere`.
* **C133** Fluid elements are followed step by step from the start to the stop: *partial*. The steps, their times, seeds and fields are proved for any number of steps, both directions, and the defaults. Violated: nothing is returned, though the points are documented to be (C133_return_violated); with equal start and stop and one grid the loop never ends (C133_endless_violated). Rounding of times is not modelled. Theorems: `C133_steps_partial`, `C133_direction_partial`, `C133_default_partial`, `C133_return_violated`, `C133_endless_violated`.
* **C134** Fields between two times are interpolated linearly: *partial*. Proved: the two grids are the ones before and after, and the last one after the end. Violated: the weights are swapped, so the field goes backward between two times and at the time of a grid is that of the one before (C134_swapped_violated); on the line only halfway or where both are the same. Theorems: `C134_between_partial`, `C134_after_partial`, `C134_line_partial`, `C134_swapped_violated`.
* **C135** Curators remove, add or replace seeds as documented: *partial*. Violated for continuous curators: seeds out of bounds stay until new ones are added, nothing is ever added going backward in time, and with a cadence of dt they are added every second step (C135_continuous_violated); and for replacement curators without originals, which are then the seeds after the first step (C135_original_violated). Theorems: `C135_remove`, `C135_bounds`, `C135_replace_partial`, `C135_original_violated`, `C135_cadence_partial`, `C135_continuous_violated`.
* **C136** Minimum variance analysis finds the directions of least and most variance: *proved*. Relative to np.linalg.eig (a parameter: pairs of eigenvalues and unit eigenvectors that span; shown to exist for all symmetric matrices). The eigenvectors are columns; 'evecs[0, :]' in the docstring is a row. Rounding is not modelled. Theorems: `C136_minvar`.
* **C137** Boundary normal coordinates are a right-handed frame: *partial*. Violated for a basis that is parallel the other way round (minus n) or zero: that is not noticed, and l and m are nan (C137_antiparallel_violated). As the sign of an eigenvector is arbitrary, whether the basis (0, 0, 1) works for a normal along z is left to chance. Theorems: `C137_basis_partial`, `C137_max_partial`, `C137_near_partial`, `C137_antiparallel_violated`, `C137_around`, `C137_samples_partial`, `C137_most_partial`.
* **C138** The normal of a paraboloid is perpendicular to it: *proved*. Tangents are derivatives (HasDerivAt) of the modelled paraboloid. Theorems: `C138_normal`, `C138_unique`.
* **C139** The edges of the magnetopause are where the current exceeds the threshold first and last: *proved*. Without a mask (maskval=None); masked arrays are not modelled. Theorems: `C139_edges`, `C139_width`.
* **C140** The magnetic shear is the angle between the fields on both sides of the magnetopause: *partial*. Violated: the field on the side of the magnetosphere is taken six points from the sheath edge instead of the sphere edge (C140_shear_violated); right only if the edges are the same. Theorems: `C140_shear_partial`, `C140_outside_partial`, `C140_shear_violated`.
* **C141** Fields on spheres and maps: *partial*. Proved for scalars, for vectors with components last, and for those with components first if phi is the first axis; for the round trip in the usual orders. Vectors with components first and theta as the first axis have their components reversed instead of their data (C141_flat_violated); fields in radians are taken for degrees if no units are asked for (C141_radians_violated); units given as a tuple are a TypeError (C141_tuple_violated). Rounding, cell-centred fields and more than two axes are not modelled. Theorems: `C141_mapfield_partial`, `C141_spherefield_partial`, `C141_roundtrip_partial`, `C141_default_partial`, `C141_same`, `C141_range`, `C141_flat_violated`, `C141_radians_violated`, `C141_tuple_violated`.
* **C142** Points for polar plots: *partial*. Proved for arrays of floats with two axes and hemispheres north and south. Points that are whole numbers stay whole in radians (C142_whole_violated); hemispheres that do not exist are the south (C142_hemisphere_violated). Rounding is not modelled. Theorems: `C142_points_partial`, `C142_axes`, `C142_whole_violated`, `C142_hemisphere_violated`.
* **C143** Fields for polar plots: *partial*. Proved for scalars that pass the check, and for make_periodic with coordinates that are not uniform. The check for values compares latitudes with angles from the pole: fields that do not have the pole are a ValueError by default (C143_default_violated), and some others are too (C143_check_violated); 40 degrees are never the default (C143_sphere_violated); vectors are an IndexError (C143_vector_violated); uniform longitudes do not become periodic (C143_uniform_violated). The tolerance of selections and rounding are not modelled. Theorems: `C143_polar_partial`, `C143_periodic_partial`, `C143_uniform_violated`, `C143_hemisphere`, `C143_check_violated`, `C143_default_violated`, `C143_sphere_violated`, `C143_vector_violated`.
* **C144** A slice in a file name pattern selects files by their numbers: *partial*. Slices by value are proved without a step, for more than one file and numbers that differ. False of the code (proved): slices with a step but no stop (`[::2]`, and the second example of the documentation) are not recognised as slices and are left to glob; slices with negative steps come in increasing order; the third example of the documentation, `[20j:2]`, is one file instead of two; `[]` is an IndexError. Theorems: `C144_indices_partial`, `C144_backward_violated`, `C144_values_partial`, `C144_closest`, `C144_listing`, `C144_errors`, `C144_index`, `C144_pattern`, `C144_step_violated`, `C144_empty`, `C144_example_violated`, `C144_reversed_violated`.
* **C145** Loading files gives one file for each name, and the same one again: *partial*. Proved for readers that group no files, as long as nothing fails to be read. False of the code otherwise (proved): another selection of a time series that is loaded already gives the files loaded before, as both have the same collective name; after an IOError, None is kept under the name, and later loads give None even if the file can be read by then. Theorems: `C145_load_partial`, `C145_unknown`, `C145_again`, `C145_new`, `C145_group_violated`, `C145_failed_violated`.
* **C146** Children stay loaded as long as a file that refers to them is loaded: *partial*. Proved of membership in the bucket, for children without children of their own, that users do not load themselves. False of the code (proved): remove_item of a file with one reference is a KeyError; unloading a file twice takes references of others; a shared child is emptied, though it stays; a child that a user loaded, too, is removed or emptied; unload_all_files is an AttributeError if a file failed to load, and leaves the contents of files that have children; a child that has children itself is a RuntimeError. Theorems: `C146_references_partial`, `C146_all`, `C146_remove_violated`, `C146_twice_violated`, `C146_shared_violated`, `C146_user_violated`, `C146_failed_violated`, `C146_kept_violated`, `C146_nested_violated`.
* **C147** Athena binary files are read as they were written: *partial*. Proved for less than 128 variables in big endian files and less than 1000 in little endian ones. False of the code otherwise (proved): the endianness is guessed from the number of variables as a signed little endian number, so big endian files with 128 to 255 variables are read as little endian ones, and little endian files with 1000 or more as big endian ones. Theorems: `C147_read_partial`, `C147_cell_partial`, `C147_big_violated`, `C147_big_header_violated`, `C147_little_violated`, `C147_refused`, `C147_short`, `C147_truncated`.
* **C148** Reading an XDMF file finds every uniform grid it describes: *partial*. Proved for files in which uniform grids have their own topology, geometry and at least one field, and collections have no geometry (C148_read_partial). Violated: topology and geometry of a collection are never inherited, the grids are dropped (C148_shared_violated), and if one of them has its own the file cannot be read (C148_both_violated); unsupported grids in the Domain and unknown collections are AttributeErrors (C148_ignored_violated, C148_collection_violated); grids without fields are lost (C148_nofields_violated); nested spatial collections (C148_nested_violated). Theorems: `C148_read_partial`, `C148_incomplete`, `C148_shared_violated`, `C148_both_violated`, `C148_ignored_violated`, `C148_collection_violated`, `C148_topology`, `C148_nofields_violated`, `C148_nested_violated`.
* **C149** Grids of an XDMF file have the time the file gives them: *partial*. Proved for single times, none within something that has a time already, and children of series with a time (C149_times_partial). Violated: times of a list or of start and step are never used (C149_list_violated, C149_list_zero_violated); the time of a grid in a collection with a time is never looked at (C149_inner_violated, C149_inner_one_violated); a snapshot of one patch with its own time is filed at time 0 (C149_patch_violated). Refused times: C149_refused, C149_refused_series. Theorems: `C149_times_partial`, `C149_list_violated`, `C149_list_zero_violated`, `C149_inner_violated`, `C149_inner_one_violated`, `C149_patch_violated`, `C149_run_violated`, `C149_refused`, `C149_refused_series`.
* **C150** Fields saved in an npz file are loaded as they were: *partial*. Proved for fields at time 0 with the same coordinates and names the file does not use itself (C150_roundtrip_partial), and for files of plain arrays (C150_plain). Violated: times are lost (C150_time_violated); coordinates of all fields but the first are not saved (C150_crds_violated); a field with the name of an axis or of an array of names makes a file that cannot be loaded (C150_axis_violated, C150_reserved_violated); a field called file cannot be saved (C150_file_violated); of fields with the same name only the last is saved (C150_duplicate_violated). Theorems: `C150_roundtrip_partial`, `C150_time_violated`, `C150_crds_violated`, `C150_axis_violated`, `C150_file_violated`, `C150_reserved_violated`, `C150_duplicate_violated`, `C150_plain`, `C150_missing_axis_violated`, `C150_refused`.
* **C151** The coordinates of a grid in an XDMF file are those the file gives: *partial*. Proved: X_Y_Z arrays on rectangles exactly (C151_arrays, an equivalence), VXVYVZ with capital V (C151_varrays_partial), origin and spacing in three dimensions (C151_origin), evenly spaced arrays on uniform grids (C151_even_partial), clearly uneven ones refused (C151_uneven_refused), other topologies refused (C151_refused), exceptions of data items (C151_item_errors), Dimensions of spheres (C151_sphere_dims). Violated: names vx, vy, vz (C151_smallv_violated); uneven arrays on a scale below 1e-8 are silently replaced (C151_uneven_violated, the default atol of allclose); two-dimensional grids (C151_plane_violated); NumberOfElements (C151_elements_violated); points on spheres and rectangles given by points are not used (C151_sphere_violated, C151_points_violated); unknown geometries are ignored (C151_unknown_violated). Theorems: `C151_arrays`, `C151_varrays_partial`, `C151_smallv_violated`, `C151_origin`, `C151_even_partial`, `C151_uneven_violated`, `C151_uneven_refused`, `C151_plane_violated`, `C151_elements_violated`, `C151_sphere_violated`, `C151_points_violated`, `C151_refused`, `C151_item_errors`, `C151_unknown_violated`, `C151_sphere_dims`.
* **C152** The blocks of a VPIC run cover it, each cell once: *proved*. Proved: number and nodes of the blocks by number of file (C152_block), existence and uniqueness of block and cell (C152_tiles). Over the rationals; np.linspace without rounding. Theorems: `C152_block`, `C152_tiles`.
* **C153** The fields of a VPIC run have the data of their components: *partial*. Proved: names and numbers of the fields (C153_names, C153_sets), the bytes of every cell (C153_data), truncated files (C153_short), foreign files (C153_foreign). Violated: integers (the materials) are read as floats (C153_material_violated); variables with more than fourteen components are an IndexError for the whole run (C153_many_violated); files of another shape are read if the number of cells is the same (C153_shape_violated). Theorems: `C153_names`, `C153_data`, `C153_short`, `C153_foreign`, `C153_sets`, `C153_many_violated`, `C153_material_violated`, `C153_shape_violated`.
* **C154** The times of a VPIC run are its steps: *partial*. Proved for directories of steps and names without a number after a dot (C154_times_partial). Violated by copies of a directory, which give a step twice (C154_copies_violated), and by any other name with a number after a dot, which gives a time without data (C154_other_violated). Theorems: `C154_times_partial`, `C154_copies_violated`, `C154_other_violated`.
* **C155** Data in the order zyx is read as data in the order xyz: *partial*. Proved: scalar fields (C155_scalar), one component read as scalar field (C155_single), components that come first in the file (saved interlaced; C155_interlaced), components that come last in the file with three axes unless all sizes equal the number of components (C155_flat_partial). Violated: if they are equal the components are mixed up with the points (C155_cube_violated); with fewer than three axes reading is a ValueError (C155_plane_violated). Theorems: `C155_scalar`, `C155_mismatch`, `C155_single`, `C155_interlaced`, `C155_flat_partial`, `C155_cube_violated`, `C155_plane_violated`.
* **C156** Fields that are saved in an HDF5 file with its XDMF file are the same when loaded: *partial*. Proved for fields with different safe names on the same coordinates at the same time (C156_round_trip_partial; a missing axis becomes one with a single point, one-component vectors become scalars). Violated: axes are renamed and only coordinates and time of the first field are kept (C156_first_violated), no time (C156_time_violated), names with colons (C156_colon_violated), with <, & or quotes (C156_xml_violated), ending with blanks (C156_blank_violated), duplicates (C156_duplicate_violated), a field with a single value (C156_single_violated), more than three axes (C156_axes_violated). Theorems: `C156_round_trip_partial`, `C156_empty`, `C156_axes_violated`, `C156_single_violated`, `C156_duplicate_violated`, `C156_time_violated`, `C156_xml_violated`, `C156_first_violated`, `C156_colon_violated`, `C156_blank_violated`.
* **C157** Coordinates made of arrays have these arrays as nodes: *partial*. Proved: sizes, names and ends (C157_ends), arrays that are kept (C157_arrays), evenly spaced arrays are unchanged (C157_even), replaced ones are within the tolerance (C157_close_partial). Violated: uneven arrays of small numbers are replaced (C157_small_violated); the absolute tolerance of 1e-8 does not scale, uneven axes are dropped if uniform coordinates are asked for (C157_uniform_violated), axes beyond the names are dropped (C157_many_violated), an empty array is an IndexError (C157_empty_violated). Theorems: `C157_ends`, `C157_arrays`, `C157_even`, `C157_close_partial`, `C157_small_violated`, `C157_uniform_violated`, `C157_many_violated`, `C157_empty_violated`, `C157_other`.
* **C158** Fields made of arrays have the values of the arrays: *partial*. Proved: scalar arrays (C158_scalar), components last or first with conditions (C158_interlaced_partial, C158_flat_partial), other shapes (C158_refused), dat2field (C158_dat2field, C158_dat2field_flat_partial, C158_dat2field_errors), full (C158_full), full_like (C158_full_like). Violated: with as many points along each axis as components, components that come last are taken to come first, although the caller asked for interlaced (C158_cube_violated, C158_full_layout_violated); flat arrays whose sizes go up by one are taken for cell centred interlaced ones (C158_dat2field_flat_violated); the documentation of full says integers are the shape, but the default centering gives one point less along each axis (C158_full_shape_violated). Theorems: `C158_scalar`, `C158_interlaced_partial`, `C158_flat_partial`, `C158_cube_violated`, `C158_refused`, `C158_dat2field`, `C158_dat2field_flat_partial`, `C158_dat2field_flat_violated`, `C158_dat2field_errors`, `C158_full`, `C158_full_layout_violated`, `C158_full_shape_violated`, `C158_full_like`.
* **C159** Arithmetic on fields acts on the values at each point: *partial*. Proved: two scalar fields (C159_scalar), a field and a number (C159_number), vector fields with the same layout (C159_vector_partial), vector and scalar field (C159_vector_scalar), scalar field and vector field with the components first (C159_scalar_vector_partial), grids of different size (C159_sizes), single values (C159_single). Violated: scalar * vector with the components last is a ValueError (C159_scalar_interlaced_violated) or takes the scalar at another point (C159_scalar_interlaced_wrong_violated), different layouts are a ValueError (C159_mixed_violated), grids of the same size at different places are combined (C159_places_violated), the sum cannot be read if the first has one point along an axis (C159_grow_violated), the components of cubes change places (C159_cube_violated). Theorems: `C159_scalar`, `C159_number`, `C159_vector_partial`, `C159_vector_scalar`, `C159_scalar_vector_partial`, `C159_scalar_interlaced_violated`, `C159_scalar_interlaced_wrong_violated`, `C159_mixed_violated`, `C159_places_violated`, `C159_grow_violated`, `C159_cube_violated`, `C159_sizes`, `C159_single`.
* **C160** Reductions along an axis are those of the lines along the axis: *partial*. Proved: scalar fields along any axis (C160_scalar, C160_keepdims), components (C160_components), vector fields with the components last (C160_interlaced_partial, if no other axis has one point). Violated: the last axis of vector fields with the components first is an IndexError (C160_flat_last_violated), other axes drop the wrong coordinates (C160_flat_axis_violated), axis=-1 of vector fields with the components last makes components of points (C160_last_violated), the data of argsort along an axis cannot be read (C160_argsort_violated). Theorems: `C160_scalar`, `C160_keepdims`, `C160_components`, `C160_interlaced_partial`, `C160_flat_last_violated`, `C160_flat_axis_violated`, `C160_last_violated`, `C160_argsort_violated`.
* **C161** trapz is the trapezoid rule along an axis: *partial*. Proved: scalar fields along any axis, also from the end (C161_scalar), one axis (C161_line), vector fields with axes from the start (C161_vector_partial), order (C161_order), exact for linear functions (C161_exact), cumtrapz (C161_cumtrapz_partial: an initial value other than 0 is put at the first point only). Violated: the default axis of vector fields with the components last is the components (C161_default_violated), one value left is an AttributeError (C161_single_violated), initial=None gives data that cannot be read (C161_initial_none_violated). Theorems: `C161_exact`, `C161_scalar`, `C161_vector_partial`, `C161_order`, `C161_default_violated`, `C161_single_violated`, `C161_line`, `C161_cumtrapz_partial`, `C161_initial_none_violated`.
* **C162** Changing the centering of a field keeps its data: *partial*. Proved for histories without assignment: data that is not written (C162_unwritten_partial), data in memory with writes (C162_shared_partial), any field that is read before it is converted (C162_read_first_partial); the centering of the result, no other field is changed (C162_convert); every operation on an existing field is defined (C162_total); forced copies are independent of the field (C162_shell_copy). Violated: reflected axes are lost and the cache of the original is overwritten with unmirrored data (C162_reflected_violated), assigned data is mirrored when read back (C162_assign_reflected_violated), assigned data is shown or not, depending on the order of reads (C162_assign_converted_violated, C162_assign_original_violated), writes are lost (C162_write_lost_violated, C162_clear_violated), transforms are repeated (C162_transform_violated), adjust_crds (C162_adjusted_violated). That copies have the centering of the original and are made for fields not yet read is C162_copy; that assigning forgets earlier conversions is C162_assign_partial. Theorems: `C162_unwritten_partial`, `C162_shared_partial`, `C162_read_first_partial`, `C162_convert`, `C162_total`, `C162_copy`, `C162_assign_partial`, `C162_reflected_violated`, `C162_assign_reflected_violated`, `C162_assign_converted_violated`, `C162_assign_original_violated`, `C162_write_lost_violated`, `C162_clear_violated`, `C162_transform_violated`, `C162_adjusted_violated`, `C162_shell_copy`.
* **C163** Coordinates of fields with changed centering are the points the data belongs to: *partial*. Proved: arrays, nodes are the centres (C163_arrays_partial), equidistant arrays there and back (C163_even_arrays_partial), uniform axes there and back (C163_node_cell_node_partial, C163_cell_node_cell_partial). Violated: on uniform axes the new nodes are not the centres (C163_uniform_violated), axes with one node move (C163_one_node_violated), uneven arrays (C163_uneven_violated). Numbers are rational, rounding is not modelled. Theorems: `C163_arrays_partial`, `C163_even_arrays_partial`, `C163_node_cell_node_partial`, `C163_cell_node_cell_partial`, `C163_uniform_violated`, `C163_one_node_violated`, `C163_uneven_violated`.
* **C164** atleast_3d adds axes with one point and keeps the values: *partial*. Proved: the axes (C164_axes_partial, C164_xyz), scalar fields (C164_scalar_partial), vector fields with the components first that were read (C164_flat_partial) or not (C164_unread_vector_partial), fields with three axes (C164_already). Violated: vector fields with the components last that were read are a ValueError (C164_interlaced_violated), fields that were not read show the raw data (C164_unread_violated), names can be doubled (C164_names_violated), single values become numbers (C164_single_violated). Theorems: `C164_axes_partial`, `C164_xyz`, `C164_scalar_partial`, `C164_flat_partial`, `C164_unread_vector_partial`, `C164_already`, `C164_interlaced_violated`, `C164_unread_violated`, `C164_names_violated`, `C164_single_violated`.
* **C165** atmost_nd leaves at most n axes, those with one point go first: *partial*. Proved: which axes are cut (C165_which), the number of axes and the values (C165_values_partial). Violated: a field with n axes or fewer loses its first axis if it has one point (C165_too_few_violated). The index of the point nearest to 0 is a parameter; selecting by it is the subject of C03 and others. Theorems: `C165_which`, `C165_values_partial`, `C165_too_few_violated`.
* **C166** adjust_crds changes the coordinates it is asked to, in a new field only: *partial*. Proved: arrays, with the field's own coordinates unchanged if no names are changed (C166_adjust_partial), one adjustment for all axes (C166_all), changing one name (C166_rename_partial). Violated: with a map of names the coordinates of the field itself are broken (C166_original_violated), two names cannot be exchanged (C166_exchange_violated). Making coordinates of the arrays is C157, the data of the copy is in C162_adjusted_violated. Theorems: `C166_adjust_partial`, `C166_all`, `C166_rename_partial`, `C166_original_violated`, `C166_exchange_violated`.
* **C167** The table of a dataset has one row for each point and time, with the coordinates and values of that point: *partial*. Partial: fields must be scalar, on the same points, with a time, and with names other than those of the axes and times. It fails otherwise: time_sel given is an AssertionError, no time a TypeError, fields without base time a NoBasetimeError (but not grids), vector fields or fields of other sizes a ValueError; a field named like an axis replaces the coordinates. C167_names: with names given only those fields are columns and an unknown name is a KeyError; C167_one_time: fields of one time give the table of a grid of them. Theorems: `C167_grid_partial`, `C167_temporal_partial`, `C167_fields_partial`, `C167_names`, `C167_one_time`, `C167_time_sel_violated`, `C167_no_time_violated`, `C167_no_basetime_violated`, `C167_other_size_violated`, `C167_axis_name_violated`.
* **C168** Reading fields of the table of a dataset gives the dataset again: *partial*. Partial: for distinct times, points that differ along each axis, and the names of the axes given or at least two points along the last axis. It fails otherwise: a last axis of one point becomes a field; a missing base time becomes NaT, and then reading the table again is an IndexError if there are two times; a table without the row labelled 0 loses its times; a column of dates of another name loses the base time; rows in another order give values at other points without an error; one row without names of the axes is a ValueError. Rounding of times to microseconds is not modelled. Theorems: `C168_round_partial`, `C168_grid_partial`, `C168_nat_violated`, `C168_rows_violated`, `C168_datetime_col_violated`, `C168_one_point_violated`, `C168_order_violated`, `C168_one_row_violated`, `C168_columns`.
* **C169** A parallel map gives what a loop gives, for every schedule of its workers: *partial*. Partial: for threads, one process, and for processes if func does not fail, the result is that of the loop for every schedule (C169_map_partial); every schedule can be completed and takes at most two steps per piece of work (C169_ends). It fails otherwise: with a given pool the call is a ValueError after all work is done since an open pool is joined (C169_pool_violated), and with processes which exception is raised depends on the schedule (C169_exception_violated). Pickling, time limits and workers that die are not modelled. Theorems: `C169_ends`, `C169_map_partial`, `C169_error_partial`, `C169_some`, `C169_threads_result`, `C169_procs_result`, `C169_workers`, `C169_pool_violated`, `C169_exception_violated`, `C169_procs`.
* **C170** Resampled lines keep their ends and get evenly placed points: *partial*. Partial: holds for lines of floats with a numpy that takes sizes given as floats, before 1.12. It fails otherwise: with any later numpy every factor other than 1 is a TypeError (C170_sizes_violated), and lines of integers lose the fractions of the new points (C170_integers_violated). The list of the caller is changed (C170_inplace). Only kind='linear'. Theorems: `C170_even_partial`, `C170_ends`, `C170_whole`, `C170_factor`, `C170_sizes_violated`, `C170_integers_violated`, `C170_inplace`.
* **C171** Magnitude, dot, cross, project, normalize and project_vector are the algebra of vectors at each point: *partial*. Partial: project_vector with numpy only if the components come first. It fails otherwise: project_vector with numpy and the components last is a ValueError (C171_project_vector_violated); on a grid of one point the result is a number and setting its name an AttributeError (C171_one_point_violated); with numexpr only three components are possible (C171_components_violated); with numpy a field with the components last on a grid of three points along each axis is an IndexError (C171_cube_violated). Layouts that differ are a ValueError of dot with numpy. Zero vectors, which give nan, are excluded for project and normalize. Theorems: `C171_magnitude`, `C171_dot`, `C171_dot_layouts`, `C171_project`, `C171_cross`, `C171_normalize`, `C171_unit`, `C171_project_vector_partial`, `C171_project_vector_violated`, `C171_one_point_violated`, `C171_components_violated`, `C171_cube_violated`.
* **C172** An operation uses the backend asked for, or fails if only that will do: *proved*.  Theorems: `C172_preferred`, `C172_forms`, `C172_fallback`, `C172_one_of`.
* **C173** The projection of a field along a line is its component along the direction of the line at each point: *partial*. Partial: for four or more points, at each point but the last, where the direction is that of the difference of the neighbours (at the first point of the third and the first), and at all points of straight lines. It fails otherwise: at the last point the direction two points before is used (C173_last_violated); lines of two and three points are a ValueError and one point gives an empty list (C173_short_violated). Theorems: `C173_points_partial`, `C173_straight`, `C173_last_violated`, `C173_short_violated`.
* **C174** In a tree of datasets get_grid, get_field, iter_field_items, field_dict and [] lead to the same grid: *partial*. Partial: get_grid in full (C174_grid); get_field, iter_field_items and [] if no active child on the way is still deferred; field_dict if also no temporal dataset is below a temporal one. It fails otherwise: with a deferred active child get_field is an AttributeError and [] a TypeError while get_grid works (C174_deferred_violated, C174_deferred_temporal_violated); without active child get_field is None, get_grid AttributeError and [] KeyError (C174_empty_violated); field_dict(time) of a temporal dataset drops the time (C174_dict_violated). Computed fields, coordinates and deleted children are not in this model. Theorems: `C174_grid`, `C174_field_partial`, `C174_leaf`, `C174_child`, `C174_item_partial`, `C174_deferred_violated`, `C174_deferred_temporal_violated`, `C174_empty_violated`, `C174_dict_partial`, `C174_dict_violated`.
* **C175** After activate_time(t), fields are those of time t: *partial*. Partial: if no temporal dataset is below a temporal one, and the call returns. It fails otherwise: below a temporal dataset nothing is activated (C175_below_violated); a slice, which a temporal dataset refuses, is ignored by the dataset around it (C175_slice_violated); an exception of one child leaves those before it activated (C175_half_violated). Theorems: `C175_activate_partial`, `C175_all_partial`, `C175_error`, `C175_handle`, `C175_below_violated`, `C175_slice_violated`, `C175_half_violated`, `C175_stop`.
* **C176** nr_times, get_times, iter_times and get_time agree: *partial*. Partial: nr_times and get_times without deferred children; get_time for temporal datasets, and for datasets of grids at times. It fails otherwise: get_times of deferred children is an AttributeError while nr_times counts them and iter_times resolves them (C176_deferred_violated); a deferred dataset is skipped by nr_times but not by get_times (C176_skip_violated); an empty dataset hides the times of those after it (C176_hidden_violated); get_time of a dataset is a grid where get_times has datasets (C176_time_violated). Theorems: `C176_count_partial`, `C176_first_partial`, `C176_grids`, `C176_deferred_violated`, `C176_skip_violated`, `C176_hidden_violated`, `C176_time`, `C176_time_partial`, `C176_time_violated`.
* **C177** set_in_region is alpha a + beta b where the mask is True, and leaves the rest alone: *partial*. Partial: scalar fields, vector fields with the components first, masks of the shape of the data, and vector fields with the components last unless each size of the grid is 1 or that of the next axis (the last one the number of components). On those grids, cubes of 3 by 3 by 3 for example (C177_cube), the mask is taken at the point with the indices shifted by one (C177_shifted_violated). Without out, numbers outside the mask are whatever was in memory (C177_no_out_violated). If a holds integers, the factors lose their fractions (C177_integers_violated). Arrays of another shape as masks are an AttributeError (C177_array). Masks that are vector fields are modelled after they were brought to the centering and layout of a. Theorems: `C177_all_partial`, `C177_scalar_partial`, `C177_first_partial`, `C177_last_partial`, `C177_vector_partial`, `C177_shifted_violated`, `C177_cube`, `C177_no_out_violated`, `C177_integers_violated`, `C177_array`.
* **C178** Face and edge centered coordinates are those of a staggered grid: *partial*. Partial: the shaped coordinates in full, for axes without explicit cell centers, and the flat ones along axes with more than one node. An axis with a single node has one shaped coordinate but no flat one (C178_flat_violated); on a grid with two axes there is none for the third component of face centered fields (C178_plane_violated). Theorems: `C178_shaped_partial`, `C178_flat_partial`, `C178_flat_violated`, `C178_plane_violated`, `C178_count_partial`.
* **C179** make_spherical_mask is True exactly between the two spheres: *partial*. Partial: for rmin and rmax that are not negative, and for face and edge centered fields with a numpy that takes lists of slices as indices. With a numpy that does not, masks of those fields raise (C179_index_violated). A negative rmin excludes points nearer than its absolute value (C179_negative_violated). Without explicit cell centers; overflow of squares is not modelled. Theorems: `C179_points_partial`, `C179_staggered_partial`, `C179_index_violated`, `C179_negative_violated`.
* **C180** fill_dipole and make_dipole put the field of a dipole at the place of each component: *partial*. Partial: without mask in full, off the origin; with scalar masks if the components are first, with masks of the shape of the data for both layouts; make_dipole for cell centers. With the components last a scalar mask, as make_spherical_mask gives, raises (C180_last_violated). make_dipole with face or edge centers has one cell less than asked for along each axis (C180_face_violated). twod and nonuniform, moments from times, and the orientation that is stored are not modelled. Theorems: `C180_fill_partial`, `C180_mask_partial`, `C180_vector_mask_partial`, `C180_last_violated`, `C180_strength_partial`, `C180_make_partial`, `C180_face_violated`.
* **C181** A selection by value of an AMR field takes the patches that have points of it: *partial*. Partial: exact if the selection does not begin near the upper boundary of a patch, where near is a part in 100000 of the value or atol (C181_exact_partial); in all cases what is taken has points within atol, and a patch with points is missed only if the selection begins near its upper boundary and another one is taken (C181_sound_partial). The latter loses points: from 999.995 to 1500 nothing of the patch up to 1000 is taken (C181_near_violated). The upper boundary of the whole field is in no patch, and the slice an AttributeError (C181_upper_violated). A component can not be selected (C181_component_violated). Numbers are rational; the names of axes in selections are resolved before, see C16. Theorems: `C181_exact_partial`, `C181_sound_partial`, `C181_index`, `C181_component_violated`, `C181_near_violated`, `C181_upper_violated`.
* **C182** A slice of an AMR field is the slices of its patches, with the same axes: *partial*. Partial: if one of the slices has all the axes the others have, in order. If one loses one axis and another one another, the result has patches with different axes (C182_axes_violated). A single point in more than one patch is an AttributeError (C182_number_violated); no values at all are a ValueError (C182_no_values). The data of the slices are abstract. Theorems: `C182_axes_partial`, `C182_single`, `C182_no_values`, `C182_number_violated`, `C182_axes_violated`.
* **C183** An attribute of an AMR field is that of all its patches: *partial*. Partial: for attributes that are numbers, text, arrays with values, or objects compared by identity. For attributes that are fields, like amr.real, it is that of the first patch, whatever the others are (C183_field_violated). For arrays without values it is a ValueError although all are the same (C183_no_values_violated). Arrays that broadcast with each other are not modelled. Theorems: `C183_attribute_partial`, `C183_empty`, `C183_field_violated`, `C183_no_values_violated`.
* **C184** A numpy function of an AMR field is the function of each patch: *partial*. Partial: if all patches have the same shape; otherwise it is a ValueError (C184_shapes_violated). Functions with more arguments are not modelled. Theorems: `C184_function_partial`, `C184_shapes_violated`.
* **C185** The skeleton of an AMR grid in a series describes that grid: *partial*. Partial: the number of patches, the number of their cells, and the lower corners to within a part in 100000; exact when the patches are not like those of the skeleton before. Patches with as many cells and the same lower corners, but larger, keep the upper corners of the time before (C185_upper_violated), and those that moved a little stay where they were (C185_lower_violated). Theorems: `C185_skeletons_partial`, `C185_upper_violated`, `C185_lower_violated`.
* **C186** An interpolated slice has interpolated values and leaves the field alone: *partial*. Partial: for cell centered fields whose coordinates were just made the values are those of the interpolation, and exact for functions linear in each coordinate (C186_cell_partial). For every node centered field they are never interpolated: they are those of the nearest nodes, with the coordinates that were asked for, because the coordinates of the field itself are overwritten first (C186_node_violated, C186_changed_violated); of cell centered fields the nodes are overwritten as well (C186_cell_changed_violated). What `slice_reduce` does then is C05 and C129; numbers are rational. Theorems: `C186_node_violated`, `C186_changed_violated`, `C186_cell_partial`, `C186_cell_changed_violated`.
* **C187** downsample halves the grid of a scalar field: *partial*. Violated for every field: the slice is given to get_clist as its axes, a TypeError, or before that a ValueError if the even and odd values of a half do not have sizes that broadcast (C187_downsample_violated). Theorems: `C187_downsample_violated`.
* **C188** What is assigned to a selection of a field is what the selection gives: *partial*. Partial: for fields with the components last no new axis may come after as many entries as there are axes. Otherwise the component is put in another place than when the field is read: fld[:, None] = fld[:, None] is a ValueError (C188_trailing_violated), and with two new axes before the last axis the value goes to another element (C188_exchanged_violated). Index arrays are not modelled. Theorems: `C188_set_partial`, `C188_raises_partial`, `C188_broadcast_partial`, `C188_trailing_violated`, `C188_exchanged_violated`.
* **C189** Fields of OpenGGCM's binary files are read as they were written: *partial*. Partial: the table of contents is right if all fields have the same sizes (C189_contents_partial, C189_series_partial). The scan goes on by the size of the first field of the file: with fields of different sizes the later ones are silently missing (C189_sizes_violated). Reading at a known place is right always (C189_read, C189_other, C189_behind). Names and times are ASCII, names have no blanks; fields without axes are not modelled. Theorems: `C189_read`, `C189_other`, `C189_behind`, `C189_contents_partial`, `C189_series_partial`, `C189_sizes_violated`.
* **C190** The reader of binary files can be used again: *partial*. Partial: after any history of scans and of readings where there are fields, inquire_all_fields gives the right contents (C190_history_partial), and a first reading by name is right (C190_first_partial). Every later reading by name is an AttributeError, as the class has no method seek (C190_again_violated), and after one reading behind the end inquire_all_fields finds nothing (C190_failed_violated). Theorems: `C190_first_partial`, `C190_again_violated`, `C190_failed_violated`, `C190_history_partial`.
* **C191** What is removed from a dataset is gone, and nothing else: *partial*. Partial: removing a child that is not deferred removes it and its handles and nothing else (C191_del_partial, C191_removeAll), `in` agrees with `[]` for what grids keep (C191_contains_partial). Violated: a deferred child can not be removed, KeyError (C191_deferred_violated); the removed child stays the active one, so that get_field and ds[name] still give its fields (C191_active_violated, C191_stale_violated); without an active grid `in` is a TypeError (C191_empty_violated); computed fields and coordinates are not `in` (C191_computed_violated); a child is `in` but is no key (C191_object_violated); nothing can be removed from a temporal dataset (C191_temporal_violated). Children that are datasets are in C174 to C176. Theorems: `C191_add`, `C191_del_partial`, `C191_deferred_violated`, `C191_active_violated`, `C191_contains_partial`, `C191_empty_violated`, `C191_activate`, `C191_computed_violated`, `C191_object_violated`, `C191_removeAll`, `C191_stale_violated`, `C191_temporal_violated`, `C191_inactive`, `C191_deferred_active_violated`.
* **C192** Turning a grid from MHD to GSE turns all of it: *partial*. Proved: vector fields (C192_vector), scalar fields under the names of OpenGGCM's files (C192_scalar), vectors made of components (C192_assembled), grids that are not turned (C192_vector_as_is); scalar fields with names of vectors are refused (C192_reserved); slices of scalar fields (C192_sliced_partial). Violated: slicing a vector field of a turned grid before it is read is an AttributeError (C192_sliced_violated); components under other names keep their sign (C192_names_violated); what is assigned to the data of a field of a turned grid is mirrored and changes its sign (C192_assign_violated), and so does a computed field that is added to the grid (C192_added_violated). Face and edge centred fields are in C68; centres that were given with the nodes in C37. Theorems: `C192_vector`, `C192_vector_as_is`, `C192_scalar`, `C192_reserved`, `C192_names_violated`, `C192_assembled`, `C192_sliced_partial`, `C192_sliced_violated`, `C192_assign_violated`, `C192_assign_partial`, `C192_added_violated`.
* **C193** Coordinate arrays are those the names stand for, and each axis has its unit: *partial*. Partial. For axis names without capitals, with a letter, and none of them another one with an ending: C193_names, C193_other, C193_get, C193_range, C193_contains. C193_axes: names given with capitals are a KeyError. Violated: shaped=True with a name that has an ending is a KeyError (C193_shaped_ending_violated); 'xnccc' in crds (C193_contains_violated); axes without letters lose their flat arrays (C193_letters_violated); a list of units that is too short is not filled up and get_unit is an IndexError (C193_units_short_violated); apply_reflections drops the units (C193_units_reflected_violated). Names are ASCII; spaces around units are left out; attempts to assign or delete are exceptions and not modelled. Theorems: `C193_names`, `C193_other`, `C193_get`, `C193_range`, `C193_axes`, `C193_contains`, `C193_shaped_ending_violated`, `C193_contains_violated`, `C193_letters_violated`, `C193_units`, `C193_units_other`, `C193_units_short_violated`, `C193_units_reflected_violated`.
* **C194** The ends, lengths and widths of an axis are those of its nodes: *partial*. Partial: C194_ends, C194_widths for StructuredCrds (reflected or not); C194_uniform, C194_apply for UniformCrds of two or more nodes. Violated: get_xl and get_xh of UniformCrds with reflect_axes (as the crds of a grid turned to GSE) are those before the reflection (C194_reflected_violated); a uniform axis of one node with different ends (C194_single_violated). Node centering only: C36 is about cells. Theorems: `C194_ends`, `C194_widths`, `C194_width_single`, `C194_uniform`, `C194_reflected_violated`, `C194_apply`, `C194_single_violated`.
* **C195** Fields of Athena grids are the same quantity, whether the file has primitive or conserved variables: *partial*. Partial: values are right (C195_stored, _velocity, _momentum, _consistent, _magnetic, _vector, _scalars, _history). Violated: vz gets the name 'bz' (C195_names_violated); asking for bx renames the stored field when it is in memory (C195_renamed_violated); j, jx, jy, jz and jmag raise NotImplementedError (C195_current_violated). beta and psi are functions of calculator/plasma and not part of this model. Theorems: `C195_stored`, `C195_velocity`, `C195_momentum`, `C195_consistent`, `C195_magnetic`, `C195_vector`, `C195_scalars`, `C195_history`, `C195_names_violated`, `C195_renamed_violated`, `C195_current_violated`.
* **C196** Bulk velocities and pressures of Gkeyll grids are those of the moments in the file: *partial*. Partial: C196_velocity, C196_missing, C196_vector; pressures for xx, xy, xz, yz (C196_pressure_partial). Violated: Pyy and Pzz of both species take off rho ux ux instead of rho uy uy and rho uz uz, so they are right exactly where the squares of the velocities are the same (C196_pressure_violated); u_e and u_i have the same name 'u' (C196_name_violated). Reals, without rounding. Theorems: `C196_velocity`, `C196_pressure_partial`, `C196_pressure_violated`, `C196_missing`, `C196_vector`, `C196_name_violated`.
* **C197** Gkeyll and Athena files: components have their names after any files were opened, and files are grouped by run in order of time: *partial*. Partial: C197_template (by the invariant that the lists are those at first with 'phi_E', 'phi_B' any number of times after them), C197_gkeyll, C197_athena, C197_refused. Violated: the kind of a file is the letter in its name when it is one of a collection (C197_kind_violated). What the regular expression finds in a name is a parameter. Theorems: `C197_template`, `C197_kind_violated`, `C197_gkeyll`, `C197_athena`, `C197_refused`.
* **C198** Athena tab files: time, names, coordinates and data are those of the file: *partial*. Partial: C198_header_partial (times without exponent), C198_crds_partial (two or more cells along each axis; the centres are those of the file exactly where cells are evenly spaced), C198_data. Violated: the exponent of a time as 1.5e-05 is lost (C198_exponent_violated); one cell along an axis is a ValueError, although the code has a branch for this (C198_single_violated). `int(line.split('=')[1])` and np.loadtxt are parameters: the table of numbers is given; rounding to float32 is not modelled. Theorems: `C198_header_partial`, `C198_exponent_violated`, `C198_crds_partial`, `C198_single_violated`, `C198_data`.
* **C199** Columns of text files and blocks of .nda files are the fields with their names: *partial*. Partial: C199_ascii_partial, C199_history, C199_nda, C199_nda_refused. Violated: a .txt or .asc file of one row or one column is an IndexError although the code has a condition for it (C199_ascii_violated). What np.loadtxt and np.fromstring read is given; data types and vector fields of .nda files are not modelled; history files have two or more rows. Theorems: `C199_ascii_partial`, `C199_ascii_violated`, `C199_history`, `C199_nda`, `C199_nda_refused`.
* **C200** An array in an HDF5 file, or one component of it, is read as the numpy array it stands for: *partial*. Partial: C200_component, C200_transposed, C200_whole, C200_item_partial (integers and slices forward), C200_dots, C200_bad_axis, C200_bad_component, C200_len_partial. Violated: with transpose, len is the length of the last axis (C200_len_violated) and an index is applied to the axes of the file (C200_transposed_item_violated); a list of integers is taken for a tuple (C200_list_violated); whole axes are added behind the indices also after dots, so [..., p] picks from another axis (C200_dots_violated). The ValueError of the code for the axis is unreachable, as C200_bad_axis is an IndexError before. Theorems: `C200_component`, `C200_transposed`, `C200_item_partial`, `C200_dots`, `C200_whole`, `C200_bad_axis`, `C200_bad_component`, `C200_len_partial`, `C200_len_violated`, `C200_transposed_item_violated`, `C200_list_violated`, `C200_dots_violated`.
* **C201** Functions of rotations treat stacks of rotations entry by entry: *partial*. Partial: C201_rotmul, C201_quatmul, C201_refused, C201_rotate, C201_wxyz2rot, C201_axang hold as stated; C201_wxyz2quat_partial for as many angles as axes, or one axis; C201_quat2wxyz_partial for quaternions of the same norm. Violated: one angle for several axes is a ValueError in wxyz2quat (C201_wxyz2quat_violated); quat2wxyz divides all quaternions by the norm of the last one, so if the last one is 0 all results are nan (C201_last_zero_violated), and if it is large the axes of the others are lost (C201_last_large_violated). Not modelled: stacks in quat_rotate, the numpy-quaternion module. Theorems: `C201_rotmul`, `C201_quatmul`, `C201_refused`, `C201_rotate`, `C201_wxyz2rot`, `C201_wxyz2quat_partial`, `C201_wxyz2quat_violated`, `C201_axang`, `C201_quat2wxyz_partial`, `C201_last_zero_violated`, `C201_last_large_violated`.
* **C202** The angle between vectors is the angle between vectors: *proved*. Proved over the reals: C202_angle, C202_refused, C202_symmetric, C202_lengths, C202_same_direction. Not modelled: rounding (the quotient can exceed 1 by rounding for parallel vectors, and is then nan), vectors with different numbers of components, space other than ASCII. Theorems: `C202_angle`, `C202_refused`, `C202_symmetric`, `C202_lengths`, `C202_same_direction`.
* **C203** Rotations from vectors to vectors are found entry by entry for stacks: *partial*. Partial: C203_single and C203_new_x_single (for one of each it is the rotation of C59 and C70), C203_stacks_partial (as many vectors to rotate from as rotations, or none of the vectors to rotate to along the one), C203_new_x_partial (sizes and directions as stated), C203_roll_and_new_x. Violated: from one vector to several, any of them parallel or opposite, is an IndexError (C203_one_start_violated); several rolls that are all 0 give one matrix (C203_rolls_violated); several new x axes, some along the vector to rotate to and some not, are a ValueError (C203_new_x_mixed_violated), as are several vectors to rotate from with one new x axis (C203_new_x_starts_violated); for single vectors and several new x axes only the first rotation is returned (C203_new_x_first_violated). Theorems: `C203_single`, `C203_stacks_partial`, `C203_one_start_violated`, `C203_new_x_single`, `C203_new_x_partial`, `C203_new_x_mixed_violated`, `C203_new_x_starts_violated`, `C203_new_x_first_violated`, `C203_roll_and_new_x`, `C203_rolls_violated`.
* **C204** Functions of rotations do not change the arrays they are given: *partial*. Partial: results are right for all memory, aliasing and histories (C204_result, C204_history, C204_quaternions); arrays of other numbers than doubles, arrays not passed and vectors of length 1 are kept (C204_kept_partial), as are quaternions of norm close to 0 or 1 (C204_quaternions_kept_partial). Violated: any array of doubles with a vector of another length is normalised in place (C204_changed_violated), quaternions likewise (C204_quaternions_violated); the bits of integers are taken for doubles, so every quaternion of integers not negative and below 2^52 gives the identity to 1e-8 (C204_integers_violated). Not modelled: integers that are negative or larger, single precision. Theorems: `C204_result`, `C204_history`, `C204_kept_partial`, `C204_changed_violated`, `C204_quaternions`, `C204_quaternions_kept_partial`, `C204_quaternions_violated`, `C204_integers_violated`.
* **C205** The coordinate system of a thing is the nearest name, stripped and in lower case: *partial*. Partial: C205_text, C205_text_one, C205_default, C205_value_default hold; C205_node_partial for fields, OpenGGCM grids and nodes with none of these above them. Violated: None gives 'Unknown', which is not lower case and whose own name is 'unknown' (C205_unknown_violated; every other name is its own name: C205_again_partial); a node of another kind below a field or OpenGGCM grid gets a NameError from find_attr whatever its info and the default (C205_below_violated). Not modelled: bytes, info values that are nodes. Theorems: `C205_text`, `C205_text_one`, `C205_node_partial`, `C205_default`, `C205_value_default`, `C205_unknown_violated`, `C205_again_partial`, `C205_below_violated`.
* **C206** as_cotr makes a transformation of whatever says when or how: *partial*. Partial: C206_value, C206_default hold; C206_grid_partial for OpenGGCM grids that hold a time themselves; C206_node_partial for nodes with no OpenGGCM grid above them. Violated: mappings are never understood although documented (C206_mapping_violated); an OpenGGCM grid without a time of its own gives NotImplemented, no Cotr and no exception, whatever the default (C206_grid_violated); a field on an OpenGGCM grid gets a NameError (C206_field_violated); a default is not used if an info is there that is not understood (C206_info_violated). Not modelled: which texts are times (a parameter; see C118 and following for the parser), lists of times. Theorems: `C206_value`, `C206_default`, `C206_mapping_violated`, `C206_grid_partial`, `C206_grid_violated`, `C206_field_violated`, `C206_node_partial`, `C206_info_violated`.
* **C207** Matrices of rotations and translations, and vectors with a fourth component, do what they say: *partial*. Partial: C207_rotation, C207_rotation4, C207_sum, C207_back, C207_translation, C207_translation_short, C207_nvec, C207_nvec_point hold; C207_plane_partial for rdim=2 about z; C207_refused_partial for angles other than 0. Violated: with rdim=2 the matrices about x and y are no rotations, their determinant is cos(theta) (C207_plane_violated); an invalid axis is not refused if theta is 0 (C207_axis_violated). Real numbers; unsigned and integer arrays are not modelled. Theorems: `C207_rotation`, `C207_rotation4`, `C207_plane_partial`, `C207_plane_violated`, `C207_refused_partial`, `C207_axis_violated`, `C207_sum`, `C207_back`, `C207_translation`, `C207_translation_short`, `C207_nvec`, `C207_nvec_point`.
* **C208** get_rotation_wxyz finds the axis and the angle of a rotation matrix: *partial*. Partial: C208_axis holds for all rotations and all eigenvectors; C208_refused for invertible matrices whose inverse is not close to the transpose. Violated: mirrors (orthogonal, determinant -1) pass the check and something is returned although they are no rotation (C208_mirror_violated). numpy.linalg.eig is a relation: some eigenpair over the complex numbers with the eigenvalue closest to one, real if the eigenvalue is. Real numbers; a missing np.clip before arccos (nan by rounding) is not visible. Theorems: `C208_axis`, `C208_refused`, `C208_mirror_violated`.
* **C209** A settings file sets exactly the attributes its lines name: *partial*. Partial: C209_lines_partial for files without hopeless lines, C209_raises says for which files an exception comes out, C209_missing, C209_warning and (for objects with a __name__) C209_blame_partial hold. Violated: an empty file raises AttributeError (C209_empty_violated), and so does a line whose key is no text or whose path ends at something on which nothing can be set: the lines after it are not read and no post actions run (C209_hopeless_violated); import viscid fails then. If an instance or a value lacks the part, the warning says that the object before it lacks an attribute which it has (C209_blame_violated). Not modelled: yaml and JSON (the file is what they give), exceptions of imported modules other than ImportError, properties and __slots__, post actions themselves. Theorems: `C209_lines_partial`, `C209_raises`, `C209_hopeless_violated`, `C209_missing`, `C209_empty_violated`, `C209_warning`, `C209_blame_partial`, `C209_blame_violated`.
* **C210** Readers asked for by name: *partial*. Partial: C210_found_partial, C210_none_partial and C210_exact_partial (no other class has the name in its own) for texts with at most one 'file' in them. Violated: the name of a class does not find it if a class below it has the name in its own (C210_exact_violated): 'FileXDMF' finds AthenaFileXDMF. A text of nothing ('', 'file', '_') finds a class, whatever the tree (C210_nothing_violated). A text with a second 'file' loses another one at every level of the tree (not proved about, modelled). Lower case is that of ASCII. Theorems: `C210_found_partial`, `C210_none_partial`, `C210_exact_partial`, `C210_exact_violated`, `C210_nothing_violated`.
* **C211** Types of fields and of coordinates by name: *partial*. Partial: C211_first, C211_none, C211_fields, C211_crds and C211_class hold. Violated: a TypeError of the constructor of a known type is reported as an unknown type, NotImplementedError (C211_blame_violated). Lower case is that of ASCII; constructors are a parameter. Theorems: `C211_first`, `C211_none`, `C211_fields`, `C211_class`, `C211_crds`, `C211_blame_violated`.
* **C212** Stacks of rotations are checked and turned into quaternions and axes and angles, one by one: *partial*. Partial: C212_check says exactly what the check does: it is one of the determinants; C212_check_rotations and C212_dcm2quat hold; C212_rot2axang_partial for the quick method and rotations whose antisymmetric part is zero or longer than 1e-8; C212_quat2axang_partial for stacks of quaternions of the same norm whose vector part is zero or longer than 1e-8. Violated: matrices that are not orthonormal pass: every shear does (C212_orthonormal_violated); a word for bad_matrix that means nothing is not refused, and bad matrices then go through without a message (C212_word_violated). Radians only; eigenvectors are a relation (whatever numpy finds). Theorems: `C212_check`, `C212_check_rotations`, `C212_orthonormal_violated`, `C212_word_violated`, `C212_refused`, `C212_not_refused`, `C212_dcm2quat`, `C212_rot2axang_partial`, `C212_quat2axang_partial`.
* **C213** Values of parameters in log files keep their meaning: *partial*. Partial: C213_integer, C213_decimal, C213_float, C213_text, C213_list and C213_integers (numbers without exponents), C213_param, C213_no_param hold; C213_kinds says for all texts what they are read as; C213_words_partial for words without blanks. Violated: numbers with commas between them of which the first has an exponent stay text (C213_exponent_violated); a text that only begins with two numbers and a comma is torn at its commas (C213_torn_violated); blanks beside colons stay in the words (C213_blanks_violated). float() is a parameter; blanks, digits and letters are those of ASCII; arrays hold integers of any size. Theorems: `C213_integer`, `C213_decimal`, `C213_float`, `C213_kinds`, `C213_list`, `C213_integers`, `C213_text`, `C213_words_partial`, `C213_blanks_violated`, `C213_exponent_violated`, `C213_torn_violated`, `C213_param`, `C213_no_param`.
* **C214** Plotting a field draws its data and does not change it: *partial*. Partial: C214_picture, C214_picture_node, C214_style, C214_patches and C214_apart hold; the field is unchanged only without scale, factors and contours (C214_unchanged_partial). Violated: `dat *= scale` multiplies the data of the field itself (C214_scale_violated, C214_twice_violated), `X *= mod[0]` the coordinates (C214_mod_violated), contours of a cell centred field move its first and last cell centres to the boundary for good (C214_contour_violated), all_masked is never true (C214_masked_violated). Not modelled: latlon, dates, what matplotlib draws, integer arrays. Theorems: `C214_picture`, `C214_picture_node`, `C214_style`, `C214_unchanged_partial`, `C214_unchanged_node`, `C214_apart`, `C214_scale_violated`, `C214_twice_violated`, `C214_mod_violated`, `C214_contour_violated`, `C214_masked_violated`, `C214_patches`.
* **C215** Limits of colour scales: *partial*. Partial: C215_asked (precedence), C215_scale, C215_lin, C215_sym, C215_log, C215_nan, C215_many, C215_text, C215_norescale, C215_map hold. Violated: a LogNorm that is given is taken for a linear scale, since it is a Normalize too (C215_given_violated); the limits are those of the data before they are multiplied by scale (C215_scaled_violated). Rounding is not modelled. Theorems: `C215_asked`, `C215_scale`, `C215_lin`, `C215_sym`, `C215_log`, `C215_nan`, `C215_many`, `C215_text`, `C215_norescale`, `C215_map`, `C215_given_violated`, `C215_scaled_violated`.
* **C216** Plot options given as text: *partial*. Partial: C216_options_partial (options with several values that are not all texts), C216_empty, C216_yaml, C216_error, C216_axis hold. Violated: values with underscores (cmap_jet_r) become the list of their characters (C216_underscore_violated); a text of blanks is an IndexError (C216_blank_violated); values that are words of python (and, is, in) are a SyntaxError (C216_keyword_violated). What python makes of expressions that are not one name, and yaml, are parameters. Theorems: `C216_options_partial`, `C216_empty`, `C216_blank_violated`, `C216_underscore_violated`, `C216_yaml`, `C216_error`, `C216_keyword_violated`, `C216_axis`.
* **C217** Files of processes are joined to the whole box: *partial*. Partial: C217_coords and C217_times hold; C217_cells_partial for cell centred fields if all grids have the same number of cells along each axis. Violated: starts are summed over grids in the order of files, so with different sizes values are misplaced and cells never set (C217_sizes_violated); node centred fields cannot be joined (C217_node_violated); ends of arrays are not compared (C217_ends_violated); overlap is found in one order of the files only (C217_overlap_violated). One field of one time step; the list of slices is taken as a tuple. Theorems: `C217_coords`, `C217_cells_partial`, `C217_node_violated`, `C217_sizes_violated`, `C217_times`, `C217_lengths`, `C217_ends_violated`, `C217_overlap_violated`.
* **C218** The command line tools for bits, colours and differences: *partial*. Partial: C218_bits, C218_negative, C218_rgb_partial, C218_fractions, C218_refused hold. Violated: the text for 0 is never printed, since a text is compared with a number (C218_zero_violated); colours of 0 to 255 that are all at most 1 are taken as fractions, so the darkest ones come out as the brightest (C218_dark_violated); viscid_diff always ends with a TypeError, since iter_fields has no argument `named` (C218_diff_violated). Reading of numbers from texts is not modelled. Theorems: `C218_bits`, `C218_zero_violated`, `C218_negative`, `C218_rgb_partial`, `C218_fractions`, `C218_refused`, `C218_dark_violated`, `C218_diff_violated`.
* **C219** Limits and directions of axes of plotted points: *partial*. Partial: C219_limits_partial needs limits that differ (matplotlib widens equal ones itself); with equal limits the axis is turned around (C219_equal_violated). C219_named, C219_refused, C219_plane, C219_two hold. Limits are rational numbers; no nan. Theorems: `C219_limits_partial`, `C219_equal_violated`, `C219_named`, `C219_refused`, `C219_plane`, `C219_two`.
* **C220** Segments of plotted lines: *partial*. Partial: C220_segments_partial, C220_kept; with scipy, lines of one vertex only if there is one coordinate. Violated: a line of one vertex keeps its first coordinate only, the others are uninitialised memory (C220_single_violated), as interp1d refuses one vertex (as the comment in the code says; newer scipy may not) and only row j = 0 is set. Linear interpolation; colours as bytes not modelled. Theorems: `C220_segments_partial`, `C220_kept`, `C220_single_violated`.
* **C221** Values mapped along field lines of the dipole: *partial*. Partial: C221_value_partial (fields in degrees on theta and phi, or latitude and longitude, at nodes), C221_fillna. Violated: fld.is_spherical is a method and not called, so fields of x, y, z are taken for spherical ones and raise ValueError (C221_cartesian_violated, modelled for two axes, that of three is the same branch); fields in radians are asked at numbers of degrees (C221_radians_violated). One point at a time; rounding is not modelled. Theorems: `C221_value_partial`, `C221_cartesian_violated`, `C221_radians_violated`, `C221_fillna`.
* **C222** Coordinates read from Athena binary and Gkeyll files: *partial*. Athena: nodes are half way between centres, increasing centres lie between their nodes (C222_between), equally spaced centres are the middles of the nodes (C222_spaced), a one-cell axis is as wide as the least spacing of the others (C222_one, C222_least). Fails for stretched grids, whose centres are not the middles of the nodes that are made (C222_stretched_violated), and a file of a single cell gets infinite nodes (C222_point_violated). Gkeyll: uniform, rectilinear and structured grids come as they are in the file (C222_axes, C222_uniform, C222_arrays), others are refused (C222_refused); a uniform file with fewer bounds than axes silently loses axes because the IndexError is passed over (C222_skipped_violated). h5py's error for too many indices is taken to be a ValueError; rounding is not modelled. Theorems: `C222_between`, `C222_spaced`, `C222_stretched_violated`, `C222_one`, `C222_least`, `C222_point_violated`, `C222_axes`, `C222_uniform`, `C222_arrays`, `C222_skipped_violated`, `C222_refused`.
* **C223** What is taken for a time, and text read as a time: *partial*. Scalars by type (C223_types), lists by their elements (C223_lists), arrays of numpy's types and of Python's objects (C223_arrays), text that cannot be a duration is read by numpy after as_isotime (C223_text, C223_text_like), numbers as text are no times if conservative (C223_conservative), as_datetime's second attempt never changes the outcome (C223_datetime). Fails: every text of up to three numbers between colons is read as a duration first, so YYYY:MM:DD becomes hours:minutes:seconds after 1970 (C223_date_violated) and a year so many seconds after 1970 (C223_year_violated); durations as text are rounded as instants (C223_seconds_violated); the empty list is both (C223_empty_violated); bool is a duration (C223_bool_violated); arrays of numbers are not durations though lists of numbers are, because dtype.type is compared with abstract types (C223_array_violated). Python's float and numpy's parser are parameters; infinities, errors other than ValueError and OverflowError, and numpy versions with time zones are not modelled. Theorems: `C223_types`, `C223_bool_violated`, `C223_lists`, `C223_empty_violated`, `C223_arrays`, `C223_array_violated`, `C223_text`, `C223_text_like`, `C223_date_violated`, `C223_year_violated`, `C223_seconds`, `C223_time`, `C223_seconds_violated`, `C223_conservative`, `C223_datetime`.
* **C224** The global file of a VPIC run is read line by line into variables, species and axes: *partial*. Two parts fail and are proved to: a comment or blank line among the lines of variables has the file refused (ValueError), and of two species with the same base name the variables of the earlier cannot be found in the table. float() is a parameter; negative numbers of blocks are not modelled. Theorems: `C224_read`, `C224_without`, `C224_without_axis`, `C224_order`, `C224_version`, `C224_short`, `C224_comment_violated`, `C224_value`, `C224_dict`, `C224_dict_violated`.
* **C225** Points given as arrays of any number of axes become seeds, each once and in the order of the array: *partial*. Four parts fail and are proved to: a grid of points with coordinates last is gone through first index fastest, so seeds are in another order than the array's; arrays with both first and last axis of length 3 are always taken with coordinates first; get_local_shape of a mesh calls itself without end; rectilinear meshes along z are refused (KeyError). Theorems: `C225_first`, `C225_last`, `C225_once`, `C225_list`, `C225_last_violated`, `C225_three_violated`, `C225_refused`, `C225_again`, `C225_mesh`, `C225_values`, `C225_shape_violated`, `C225_axes`, `C225_z_violated`.
* **C226** Looking for texts from the right: *partial*. rfind_all is a generator; the model gives what the first n values are and whether it has ended. Proved for all inputs: what is given is a place of one of the texts and not before the start; single characters are all found, in order, between start and end, and the generator ends; texts of m characters are all found if at least m-1 other characters are before the first and between each two (C226_words_partial). False of the code: of a text of two or more characters that stands twice in a row only the second is found (C226_adjacent_violated, any text); with such a text at the beginning of s and nowhere else, the generator gives 0 without end (C226_forever_violated), because the end becomes negative and counts from the right; the empty text is found at the end for ever; a negative start finds nothing. Theorems: `C226_sound`, `C226_chars`, `C226_words_partial`, `C226_adjacent_violated`, `C226_forever_violated`, `C226_empty_violated`, `C226_negative_violated`.
* **C227** make_multiplot makes one picture for each time: *partial*. The function that makes a picture is a parameter; it may change a state that stands for the objects it is given (C227_state says what each call finds: with one process what the call before has left, with several what was given at the beginning of each part). False of the code: with 'subplot_params' in kwopts nothing is assigned to r and there is an UnboundLocalError before any picture (C227_subplot_violated); kwopts=None is a TypeError although _do_multiplot takes None. Theorems: `C227_each`, `C227_empty`, `C227_state`, `C227_one`, `C227_fails`, `C227_procs`, `C227_subplot_violated`, `C227_none_violated`.
* **C228** Panels, fields, options and files of pictures of several times: *partial*. What is asked of matplotlib and the grid is modelled; drawing is not. False of the code: global_popts are appended to the dict of the variable again for every picture the same process makes (C228_again_violated gives the text for every number of pictures). With options with commas this changes nothing, as the last of a name counts (C228_meaning_partial, with the model of C216, for texts without blanks at the ends); with options in the way of yaml the second picture asks yaml for two mappings with a comma between them (C228_yaml_violated). Theorems: `C228_field`, `C228_every`, `C228_panels`, `C228_hat`, `C228_again_violated`, `C228_same`, `C228_meaning_partial`, `C228_yaml_violated`, `C228_files`, `C228_show`, `C228_subplots`.
* **C229** Series of files have one entry for each file, in order of time: *partial*. The regular expressions are modelled at the level of characters and proved to take exactly the names that fit (C229_names). False of the code: in a series of Athena's XDMF files every grid is there twice (C229_twice_violated); for jrrle, fortbin, tab and Gkeyll files all entries say they have the fields of the first file (C229_fields_violated), and for all but XDMF the coordinates of the first file (C229_crds_violated). Absolute names without line feeds, and ASCII white space and digits. Theorems: `C229_names`, `C229_times`, `C229_alone`, `C229_xdmf`, `C229_twice_violated`, `C229_fields_partial`, `C229_fields_violated`, `C229_crds_violated`, `C229_refused`.
* **C230** Reloading a file shows what is in it: *partial*. Proved: an XDMF file that is no series is read again (C230_xdmf_partial), and an unchanged file stays the same (C230_same_partial). False of the code: a single file of the other readers keeps fields and coordinates of its first load through any history of reloads (C230_stale_violated); reloading a series that is not XDMF is an AttributeError and leaves it empty, because its name is the collective one, which no reader takes (C230_series_violated); a series of XDMF files is afterwards only its first file (C230_first_violated). Values of fields, which are read when they are used, are not part of the model. Theorems: `C230_xdmf_partial`, `C230_same_partial`, `C230_stale_violated`, `C230_series_violated`, `C230_first_violated`.
* **C231** Meshgrids of a field have the coordinates of its points: *partial*. Proved for scalar fields and vectors with components along the last axis (C231_prune_partial), and without prune for all (C231_all, C231_axes); the flat arrays have the coordinates of a point where data.reshape(-1) has its value (C231_flat), which fit_paraboloid relies on. False of the code: for vectors in the layout flat, prune counts the axis of components: it removes the axis after one with one point, or raises an IndexError (C231_first_violated); vectors of one component raise an IndexError (C231_one_violated); with axes asked for, prune removes by the number of the axis in the field from the list of those asked for (C231_axes_prune_violated). Axes are given by number; names are those of C193. Coordinates are of any type. Theorems: `C231_all`, `C231_axes`, `C231_prune_partial`, `C231_flat`, `C231_first_violated`, `C231_one_violated`, `C231_axes_prune_violated`.
* **C232** Meshes of coordinates with two meaningful dimensions: *partial*. Proved for three axes (C232_three_partial, C232_thick). False of the code: coordinates with two axes have two rows, which cannot be reshaped to three, so as_mesh of every two dimensional field with points is a ValueError (C232_two_violated); so is that of four axes with two of one point (C232_four_violated). Node and cell centering (face and edge have lists of arrays). Theorems: `C232_three_partial`, `C232_thick`, `C232_two_violated`, `C232_four_violated`.
* **C233** Many vectors are transformed at once: *partial*. Columns, single vectors and short vectors are proved. Violated by cotr_transform: vectors in rows, the documented shape, are refused when there are four or more, and mixed with each other when there are three. Theorems: `C233_each`, `C233_refused`, `C233_one`, `C233_short`, `C233_empty`, `C233_long`, `C233_rows_violated`, `C233_three_violated`.
* **C234** Dipole moments from angles and from times agree: *proved*. Proved, on real numbers. The agreement of the two functions is for gse, gsm, sm and mhd. Theorems: `C234_angles`, `C234_mag`, `C234_signs`, `C234_length`, `C234_time`.
* **C235** Files and fields of PSC runs: *partial*. Vectors and epar are proved. Violated: the pattern of names is not anchored at its end, so any name that goes on after the name of a field file is taken; and open_psc_file raises a ValueError for every step, as its format asks for a precision of an integer. Theorems: `C235_names_partial`, `C235_names_violated`, `C235_open_violated`, `C235_vectors`, `C235_b`, `C235_missing`, `C235_epar`, `C235_unique`, `C235_none`.
* **C236** Options with which files are loaded: *partial*. The class of grids of a new file, the options of the reader and names of datasets are proved. Violated: grid_opts given when a file is loaded are stored under a name nothing reads and reach no grid; options are ignored when the file was loaded before; a class is refused as a type of dataset. Theorems: `C236_grids_partial`, `C236_opts_violated`, `C236_load`, `C236_again_violated`, `C236_datasets_partial`, `C236_class_violated`.
* **C237** Limits of fields, and the extent of selections: *partial*. The limits, and selections of values, are proved. Violated: open ends are infinite, as the limits are put only where there is nan, and nan has raised an error before; selections by index are refused; and so is every field with fewer than three axes. Theorems: `C237_limits`, `C237_skeleton`, `C237_values_partial`, `C237_open_violated`, `C237_index_violated`, `C237_axes_violated`.
* **C238** Sources of VTK hold the values of fields at their points: *proved*.  Theorems: `C238_points`, `C238_cells`, `C238_own`, `C238_flat`.
* **C239** Arrows are drawn at every so many points, where these are: *partial*. Proved for fields with their components last. Violated if these are first: the number of components is taken for that of points of the first axis, and so on, so the first arrow may be beyond the second axis and no arrow is drawn. Theorems: `C239_arrows_partial`, `C239_one_step`, `C239_flat_violated`.
* **C240** The earth in plots has its day side toward the sun: *partial*. Size proved for all planes, sides for planes of constant y and z. Violated: planes of constant x in GSE are coloured the wrong way round; from a field in such a plane the colour is always night; rot is ignored in GSE. Theorems: `C240_size`, `C240_sides_partial`, `C240_x_violated`, `C240_field_violated`, `C240_rot_violated`.
* **C241** Colour tables of 3D plots hold the colours, limits and opacities given: *partial*. Violated: bytes that are all 0 or 1 are taken for fractions and become full intensity; with any byte above 1 they are kept. Theorems: `C241_fractions`, `C241_columns`, `C241_bytes_partial`, `C241_dark_violated`, `C241_refused`, `C241_limits`, `C241_alpha`, `C241_alpha_only`.
* **C242** Colour maps keep their colours, and reversed have them the other way round: *partial*. Proved: samples for all sizes, reversal for maps of 256 colours, ends for arrays. Violated: a linear map that is not reversed keeps its own name; to_listed_cmap swaps name and colours, or gives back a linear map. Interpolation and lookup of matplotlib are modelled as documented; clipping is not. Theorems: `C242_rgba`, `C242_reverse`, `C242_linear`, `C242_ends`, `C242_name_violated`, `C242_listed_violated`.
* **C243** Labels are put at the best place beside their lines: *partial*. Violated: colours that are numbers are refused for every label; it is an IndexError to place a label if more labels than there are paths were placed before; a padding in fractions of the axes includes the place of the axes; the default padding in pixels is right only for 72 dots per inch. Which paths meet a box is a parameter. Theorems: `C243_best`, `C243_box`, `C243_on_line`, `C243_colors_partial`, `C243_numbers_violated`, `C243_rows`, `C243_penalty`, `C243_filled_violated`, `C243_padding_violated`, `C243_default_violated`, `C243_size`.
* **C244** Maps of hemispheres are of the right one and labelled with their latitudes: *partial*. Violated: plot_iono of a southern hemisphere is always a ValueError, as it selects theta from a field of longitude and latitude. Drawing itself and basemap are not modelled. Theorems: `C244_hemisphere`, `C244_bound`, `C244_circles`, `C244_labels`, `C244_local_time`, `C244_north_partial`, `C244_south_violated`.
* **C245** Lines and points are drawn in the plane asked for, or in their own: *partial*. Points proved. Lines are violated: the array of segments is indexed where directions are meant, so a named direction is refused for fewer than three segments; without a name, lines of three or more moving segments are drawn by x and y whatever their plane; a single segment is drawn by x against x; and there is an IndexError where the two moving segments are not among the first three. Theorems: `C245_points`, `C245_lines_partial`, `C245_short_violated`, `C245_plane_violated`, `C245_single_violated`, `C245_index_violated`.
* **C246** Colours of the cubehelix have the intensity asked for and the hues given: *partial*. Proved over the reals; the intensity is exact up to less than a millionth, by the rounding of the coefficients in the code. Violated: rot turns the helix three times as far as the convention of start, in which 3 is once around; and the helix does not begin at start unless rot times the first intensity is whole. Theorems: `C246_range`, `C246_intensity`, `C246_increasing`, `C246_black_white`, `C246_hues`, `C246_rot_violated`, `C246_start_violated`.
* **C247** Axes keep their limits, spines and ticks as asked: *partial*. Trimming is proved for ticks in ascending order of which one is within. Violated: ticks in descending order all vanish; ticks all beyond one limit are an IndexError; a tight layout of a figure that is not the current one is applied to the current one instead, whose limits are not restored. Theorems: `C247_spines`, `C247_side`, `C247_trim_partial`, `C247_descending_violated`, `C247_no_tick_violated`, `C247_limits`, `C247_current_violated`, `C247_edge`.
* **C248** Nulls, the earth and ionospheric fields are put where they belong in 3D scenes: *partial*. Violated: A nulls are drawn exactly if O nulls are, whatever their number and colour; of ionospheric fields from pole to pole and once around, as the reader for OpenGGCM makes them, no value is at its colatitude but the middle ones, and none at its longitude but the first. The earth is proved; fields are proved where they reach neither pole nor once around. Rotation by date and the clipping by bounding_lat are not modelled here. Theorems: `C248_nulls_partial`, `C248_a_nulls_violated`, `C248_earth`, `C248_earth_whole`, `C248_iono_partial`, `C248_iono_violated`.
* **C249** The package has every name in its list, whatever modules are missing: *partial*. Violated: with fatal=True the failed import of a module whose name is bound already is neither raised nor logged; a proxy called with arguments raises a TypeError instead of the exception it has. A module that raises anything but an ImportError, or lacks a name it shares, stops the import of the package. C249_fatal_partial is for a failure at the head of the list. Theorems: `C249_list`, `C249_namespace`, `C249_all_bound`, `C249_surprise`, `C249_fatal_partial`, `C249_fatal_violated`, `C249_check`, `C249_proxy`, `C249_dummy`, `C249_call_violated`.
* **C250** Making a film removes only its own frames, and converting a mesh changes only its extension: *partial*. Violated: frames of any other prefix that begins with this one and an underscore are removed too; frames are removed though no film was made, if the program fails, is not ffmpeg, or the name of the film is empty; with neither film nor prefix, files None_*.png are removed; a mesh without an extension is written to a file without a name or outside of a directory with a dot. Characters with a meaning to a shell are not modelled. Theorems: `C250_no_film`, `C250_keep`, `C250_film`, `C250_frames`, `C250_args`, `C250_others_violated`, `C250_lost_violated`, `C250_none_violated`, `C250_mesh_partial`, `C250_mesh_violated`.
* **C251** Timing calls the function as asked and gives its last result: *partial*. Violated: the keyword documented to quiet all output (timeit_quet) is passed on to the function and quiets nothing. Times are rational: rounding is not modelled. Theorems: `C251_calls`, `C251_stats`, `C251_errors`, `C251_lines`, `C251_timereps`, `C251_quet_violated`.
* **C252** A spherical cap lies within its angles, and the guess of the dipole points at the strongest field: *partial*. Violated: theta_endpoint of SphericalCap is dropped, so the far edge is never among the points; a cap without a hole has its pole nphi times; cap.angle reads back in radians; guess_dipole_moment does not see the sign of the field, so it gives the same answer for opposite moments, always points north for a positive strength, and is on the wrong side for moments like that of the Earth. Partial: the pole must not be nearly along the z axis unless equal to it, as in C77. Theorems: `C252_within_partial`, `C252_endpoint_violated`, `C252_pole_violated`, `C252_angle_violated`, `C252_guess`, `C252_sign_violated`.
* **C253** Elementwise operations give the value at each place, whatever backend there is: *partial*. Violated: scale cuts its factor to an integer for fields of integers (scale(0.5, f) is zero everywhere); add, diff and mul of a number and a field, in this order, raise with numexpr and work with numpy; relative_diff is documented as abs(a - b) / a but keeps the sign of a - b; the named operations raise for fields of one value. Rounding, wrapping of integers and the division of integers by numexpr are not modelled; relative_diff is proved where one field has floats. Theorems: `C253_unary`, `C253_binary`, `C253_number`, `C253_left_violated`, `C253_scale_partial`, `C253_scale_violated`, `C253_axpby`, `C253_relative_partial`, `C253_relative_violated`, `C253_one_violated`, `C253_sizes`, `C253_absmax`.
* **C254** A plot of a line shows all values, scaled as asked and within its limits: *partial*. Violated: a scale or mod of zero is not applied; a field of integers cannot be scaled by a float; symmetric limits are not numbers if the first value is nan; _set_default_cbar_pad with inplace=False changes the dict of the caller. C254_symmetric_partial is for a first value that is not nan. Matplotlib, labels and formats of ticks are not modelled. Theorems: `C254_line`, `C254_zero_violated`, `C254_integer_violated`, `C254_symmetric_partial`, `C254_nan_violated`, `C254_limits`, `C254_log`, `C254_times`, `C254_pad`, `C254_inplace_violated`.
* **C255** Methods called through an AMR field are called on every patch: *partial*. Violated: patch_indices is a number for one patch and None for no patch, where a list is documented; interpolated_slice raises for a selection within one patch. Both are proved for two patches or more. Which patches a selection overlaps is C181. Theorems: `C255_call`, `C255_raise`, `C255_missing`, `C255_not_callable`, `C255_with`, `C255_indices_partial`, `C255_indices_violated`, `C255_interpolated_partial`, `C255_interpolated_violated`, `C255_interpolated_nothing`.
* **C256** viscid_ts plots the time series that the command line asks for: *partial*. Violated: of several -o in a row only the last counts; an equation with a comma is cut off at it; if the times are integers (athena history files) every value is cut to an integer. Parsing by argparse itself and drawing are not modelled. Theorems: `C256_options`, `C256_popts_violated`, `C256_parts`, `C256_comma_violated`, `C256_series_partial`, `C256_integer_violated`, `C256_errors`, `C256_output`, `C256_verbosity`.
* **C257** Axes around a 3-D scene enclose it, and clearing figures frees all their sources: *partial*. Violated: symmetric has no effect but to undo tight; limits given as integers raise TypeError; one label along an axis divides by zero; to_mpl tests a function in place of its result and never fits for fit=None. AutoLocator is any function; set_view_interval of the locator is taken to exist. Theorems: `C257_box_partial`, `C257_nice`, `C257_symmetric_violated`, `C257_integer_violated`, `C257_one_violated`, `C257_labels`, `C257_fit_partial`, `C257_fit_violated`, `C257_clear`, `C257_clear_none`.
* **C258** The colorbar of a 2-D plot is where and how the options say: *partial*. Violated: the dictionary of the caller is changed, so that with the same dictionary a colorbar on top (left) is at the bottom (right) in the second plot, aspect and shrink are back to defaults, and the ticks are those chosen for the first scale; axes with use_grid1=True raise AssertionError; xlabel and ylabel are ignored. Sizes of the new axes and drawing are not modelled. Theorems: `C258_position`, `C258_unknown`, `C258_options`, `C258_reuse_violated`, `C258_ticks_violated`, `C258_cax_partial`, `C258_cax_violated`, `C258_cbarlabel`, `C258_labels_partial`, `C258_labels_violated`.
* **C259** Lines and points in plots have the colours and markers asked for: *partial*. Violated: explicit colours are not used for markers; the dictionary marker_kwargs of the caller is changed, so that markers of the next plot have the colours of the first. Resampling of lines and the search for the plane are modelled elsewhere; drawing is matplotlib's. Theorems: `C259_lines`, `C259_zloc`, `C259_markers`, `C259_space`, `C259_colors_violated`, `C259_markers_violated`, `C259_scatter`, `C259_choice`.
* **C260** The picture of Earth is put on the sphere where it belongs: *partial*. Violated: the angles are multiplied by the radius, so the picture is right only for radius one; for a radius that is no whole number its left and right edges are apart, and for radius two the South Pole is at the top. An angle and axis that are given raise TypeError. Real arithmetic; the plane source and spherical transform of VTK are modelled by their formulas. Theorems: `C260_sphere`, `C260_place_partial`, `C260_radius_violated`, `C260_pole_violated`, `C260_pictures`, `C260_rotation`, `C260_rotation_violated`.
* **C261** Handles of Fortran files read their own files, whatever threads do: *partial*. Proved by an invariant over all schedules for handles of different files. Violated: an inner with closes the file of the outer one; two handles of the same file share a unit, so that after one is closed the other raises RuntimeError, or reads from whatever file gets the unit next. Fortran's units are modelled by the file each is connected to; that it makes files that are missing is not modelled. Theorems: `C261_own_partial`, `C261_threads`, `C261_with`, `C261_error`, `C261_nested_violated`, `C261_same_violated`.
* **C262** Messages of the logger are shown whole, in lines of 65 characters below their label: *partial*. Proved for messages without arguments and words of up to 65 characters. Violated: a longer word is broken after 65 characters; the text is wrapped before its arguments are put in, so that what stands for %s is neither wrapped nor aligned, and a %s that is broken in two loses the message. Where textwrap may break at hyphens is a parameter; white space outside ASCII and conversions other than %s and %% are not modelled. Theorems: `C262_short`, `C262_lines`, `C262_words_violated`, `C262_args_violated`, `C262_format_violated`.
* **C263** The ionosphere in OpenGGCM's binary files is on the whole sphere, with every value at its place: *partial*. Proved for files whose fields all have the sizes of the first one. Violated: a field of as many values with its axes the other way round is not refused but reshaped, so that values are at the wrong nodes. Rests on the model of the binary format (C189); rounding, layouts and transformations are not modelled. Theorems: `C263_coordinates`, `C263_values_partial`, `C263_refused`, `C263_sizes_violated`.
* **C264** Memory of contiguous and converted fields: *partial*. as_c_contiguous is proved. Violated for as_flat and as_interlaced of fields in memory: the conversion is done when the result is first read, so that what is written to the field until then shows in it. numpy's C_CONTIGUOUS flag and np.ascontiguousarray are modelled with strides; parents of fields and element types are not. Theorems: `C264_order`, `C264_loaded`, `C264_sharing`, `C264_late_violated`.
* **C265** Information elements of XDMF files: *partial*. Proved for Information elements with Value or without DataItem. Violated: DataItem elements have no children, so `if _di:` is false for them and the info is the text in front of the DataItem; and an AMR grid shares the dictionary of its first patch. What _parse_dataitem gives is an argument; the truth value of elements is that of ElementTree. Theorems: `C265_info_partial`, `C265_attributes`, `C265_errors`, `C265_data_violated`, `C265_amr_violated`.
* **C266** What is written to a field stays there: *partial*. Proved for fields made from arrays without copy and zyx_native whose elements have places of their own, and for any source after forget_source without copy and zyx_native; values of rewrap_field are independent for every history. Violated: writes to fields from files are lost with the cache; with copy, as in rewrap_field, those after the first clear_cache are; after forget_source of a zyx_native field, clear_cache transposes its data; rewrap_field gives time 0. Only scalar fields in the default layout; writes of one element at a time. Theorems: `C266_array_partial`, `C266_forget_partial`, `C266_file_violated`, `C266_zyx_violated`, `C266_copy_violated`, `C266_rewrap`, `C266_time_violated`.
* **C267** Parents of grids, fields and datasets: *partial*. Proved for every history without AMR grids; that a parent is there at most once, and there after adding and gone after removing, also with them. Violated: an AMR grid has the list of parents of its first patch, so a dataset that it is added to becomes a parent of that patch. Parents are compared by identity: for parents that are fields, `in` compares values, which is not modelled; neither are tuples of parents. Theorems: `C267_own_partial`, `C267_once`, `C267_amr_violated`.
* **C268** Lists of handles given to a bucket: *partial*. Proved for `bucket[list] = item`, and for set_item with an item that is there already or index_handle=False, and only then. Violated otherwise: set_item puts the number of the item in the caller's list; the next item that is stored with it takes that number, and the first is lost if it has no other handle. The universal counterexample begins with an empty list. Theorems: `C268_list_partial`, `C268_list_violated`.
* **C269** Vector fields made of scalar fields: *partial*. Values, and that they stay, are proved for all components; that components keep their values, for those made from arrays without copy and zyx_native. Violated: loading the vector field clears the caches of its components, so what was written to a component from a file is gone from it. Components are different fields of the same shape; types are not modelled. Theorems: `C269_values`, `C269_keep_partial`, `C269_file_violated`.
* **C270** Formatters and locators of the axes of a plot: *proved*. An axis of matplotlib is what was last given to its four setters; what matplotlib makes of it (and that a locator shared by two axes remembers one of them) is not modelled. Theorems: `C270_axes`, `C270_order`, `C270_error`.
* **C271** Data on the mesh of a sphere: *partial*. Layout, order, types and values of seeds are proved for all arrays, with and without filling of holes; the mean at poles for arrays of floats. Violated: what arr2mesh makes is converted back to the type of the array, so with integers or truth values a pole does not have the mean (it is cut off towards 0, or true if any seed of the ring is). Numbers are rational; rounding is not modelled. Theorems: `C271_filled`, `C271_plain`, `C271_mean_partial`, `C271_mean_violated`.

## Disagreements between the code and the properties

Every theorem whose name contains `_violated`; the notes above say what goes wrong.

* C04: `C04_size_violated`
* C09: `C09_find_attr_violated`, `C09_statement_violated`
* C12: `C12_memory_safety_violated`, `C12_corruption_violated`, `C12_header_overrun_violated`
* C14: `C14_start_at_length_violated`, `C14_rejects_violated`, `C14_statement_violated`, `C14_int_negative_violated`
* C15: `C15_edge_violated`, `C15_single_point_violated`
* C16: `C16_name_clash_violated`, `C16_too_many_violated`
* C20: `C20_doc_bits_violated`
* C21: `C21_far_violated`
* C22: `C22_mean_violated`, `C22_ptp_violated`
* C25: `C25_floor_violated`
* C27: `C27_adaptive_length_violated`, `C27_max_t_violated`
* C29: `C29_one_direction_violated`
* C30: `C30_comma_violated`, `C30_escape_violated`, `C30_apostrophe_violated`
* C32: `C32_grad_node_violated`
* C33: `C33_at_point_violated`, `C33_curl_violated`
* C34: `C34_default_axes_violated`
* C35: `C35_one_point_axis_violated`
* C36: `C36_extent_violated`, `C36_single_node_violated`
* C37: `C37_given_centres_violated`
* C38: `C38_int_times_violated`
* C39: `C39_zero_violated`, `C39_others_violated`, `C39_zero_always_violated`, `C39_empty_violated`
* C41: `C41_single_cell_violated`
* C42: `C42_dot_repeated_vertex_violated`, `C42_mag_second_violated`, `C42_mag_raises_violated`, `C42_empty_first_line_violated`
* C44: `C44_near_singular_violated`
* C47: `C47_violated`
* C48: `C48_equator_violated`
* C49: `C49_degrees_violated`, `C49_latlon_violated`
* C52: `C52_raises_violated`, `C52_three_violated`
* C53: `C53_xy_faces_violated`
* C55: `C55_cube_violated`
* C57: `C57_poisoned_violated`
* C59: `C59_exact_violated`
* C60: `C60_set_time_violated`
* C61: `C61_stale_cache_violated`
* C62: `C62_one_cell_violated`
* C64: `C64_corner_violated`, `C64_winding_violated`, `C64_single_violated`
* C65: `C65_uniform_violated`, `C65_full_arrays_violated`
* C66: `C66_negative_start_violated`, `C66_backward_violated`, `C66_stride_violated`, `C66_keep_violated`, `C66_reduced_location_violated`
* C67: `C67_getitem_violated`
* C68: `C68_mixed_staggering_violated`, `C68_raw_single_cell_violated`, `C68_shape_violated`
* C69: `C69_not_quick_violated`
* C70: `C70_opposite_violated`
* C71: `C71_opposite_violated`, `C71_collinear_violated`
* C72: `C72_direction_violated`
* C73: `C73_midnight_violated`
* C74: `C74_violated`
* C75: `C75_parallel_violated`
* C76: `C76_three_violated`
* C77: `C77_angle_violated`
* C78: `C78_reversed_violated`
* C79: `C79_range_violated`
* C81: `C81_degree_violated`
* C82: `C82_missed_violated`
* C83: `C83_no_nulls_violated`
* C84: `C84_missed_violated`
* C86: `C86_none_violated`
* C87: `C87_after_read_violated`
* C88: `C88_never_other_violated`
* C90: `C90_fallback_violated`
* C91: `C91_missing_violated`
* C93: `C93_vertex_colors_violated`, `C93_colored_lines_violated`
* C94: `C94_wrap_violated`
* C95: `C95_tuple_violated`
* C96: `C96_xyz_vector_violated`, `C96_missing_axis_violated`, `C96_past_end_violated`
* C97: `C97_max_depth_zero_violated`
* C98: `C98_negative_depth_violated`, `C98_missed_violated`
* C99: `C99_resolution_violated`, `C99_max_depth_zero_violated`
* C100: `C100_sphere_violated`
* C101: `C101_one_null_violated`, `C101_ends_violated`
* C102: `C102_arguments_violated`, `C102_time_violated`
* C103: `C103_lost_violated`
* C104: `C104_nearest_violated`
* C105: `C105_overflow_violated`
* C106: `C106_fraction_violated`, `C106_long_violated`, `C106_decimals_violated`, `C106_days_violated`
* C107: `C107_sign_and_unit_violated`
* C108: `C108_fraction_violated`, `C108_array_violated`
* C109: `C109_violated`
* C110: `C110_violated`
* C111: `C111_ends_violated`
* C112: `C112_blank_violated`, `C112_drift_violated`
* C114: `C114_depth_violated`
* C115: `C115_nolog_violated`, `C115_invalid_violated`
* C116: `C116_stretched_violated`, `C116_one_violated`
* C117: `C117_auto_violated`
* C119: `C119_exponent_violated`, `C119_keyword_violated`, `C119_clash_violated`
* C120: `C120_views_violated`
* C121: `C121_negative_violated`, `C121_file_violated`
* C122: `C122_substring_violated`
* C123: `C123_underscore_violated`
* C124: `C124_empty_violated`
* C125: `C125_step_violated`
* C126: `C126_ends_violated`
* C127: `C127_order_violated`, `C127_third_violated`
* C128: `C128_beta_violated`
* C129: `C129_interlaced_violated`, `C129_flat_violated`, `C129_list_violated`
* C130: `C130_first_violated`
* C131: `C131_digits_violated`
* C133: `C133_return_violated`, `C133_endless_violated`
* C134: `C134_swapped_violated`
* C135: `C135_original_violated`, `C135_continuous_violated`
* C137: `C137_antiparallel_violated`
* C140: `C140_shear_violated`
* C141: `C141_flat_violated`, `C141_radians_violated`, `C141_tuple_violated`
* C142: `C142_whole_violated`, `C142_hemisphere_violated`
* C143: `C143_uniform_violated`, `C143_check_violated`, `C143_default_violated`, `C143_sphere_violated`, `C143_vector_violated`
* C144: `C144_backward_violated`, `C144_step_violated`, `C144_example_violated`, `C144_reversed_violated`
* C145: `C145_group_violated`, `C145_failed_violated`
* C146: `C146_remove_violated`, `C146_twice_violated`, `C146_shared_violated`, `C146_user_violated`, `C146_failed_violated`, `C146_kept_violated`, `C146_nested_violated`
* C147: `C147_big_violated`, `C147_big_header_violated`, `C147_little_violated`
* C148: `C148_shared_violated`, `C148_both_violated`, `C148_ignored_violated`, `C148_collection_violated`, `C148_nofields_violated`, `C148_nested_violated`
* C149: `C149_list_violated`, `C149_list_zero_violated`, `C149_inner_violated`, `C149_inner_one_violated`, `C149_patch_violated`, `C149_run_violated`
* C150: `C150_time_violated`, `C150_crds_violated`, `C150_axis_violated`, `C150_file_violated`, `C150_reserved_violated`, `C150_duplicate_violated`, `C150_missing_axis_violated`
* C151: `C151_smallv_violated`, `C151_uneven_violated`, `C151_plane_violated`, `C151_elements_violated`, `C151_sphere_violated`, `C151_points_violated`, `C151_unknown_violated`
* C153: `C153_many_violated`, `C153_material_violated`, `C153_shape_violated`
* C154: `C154_copies_violated`, `C154_other_violated`
* C155: `C155_cube_violated`, `C155_plane_violated`
* C156: `C156_axes_violated`, `C156_single_violated`, `C156_duplicate_violated`, `C156_time_violated`, `C156_xml_violated`, `C156_first_violated`, `C156_colon_violated`, `C156_blank_violated`
* C157: `C157_small_violated`, `C157_uniform_violated`, `C157_many_violated`, `C157_empty_violated`
* C158: `C158_cube_violated`, `C158_dat2field_flat_violated`, `C158_full_layout_violated`, `C158_full_shape_violated`
* C159: `C159_scalar_interlaced_violated`, `C159_scalar_interlaced_wrong_violated`, `C159_mixed_violated`, `C159_places_violated`, `C159_grow_violated`, `C159_cube_violated`
* C160: `C160_flat_last_violated`, `C160_flat_axis_violated`, `C160_last_violated`, `C160_argsort_violated`
* C161: `C161_default_violated`, `C161_single_violated`, `C161_initial_none_violated`
* C162: `C162_reflected_violated`, `C162_assign_reflected_violated`, `C162_assign_converted_violated`, `C162_assign_original_violated`, `C162_write_lost_violated`, `C162_clear_violated`, `C162_transform_violated`, `C162_adjusted_violated`
* C163: `C163_uniform_violated`, `C163_one_node_violated`, `C163_uneven_violated`
* C164: `C164_interlaced_violated`, `C164_unread_violated`, `C164_names_violated`, `C164_single_violated`
* C165: `C165_too_few_violated`
* C166: `C166_original_violated`, `C166_exchange_violated`
* C167: `C167_time_sel_violated`, `C167_no_time_violated`, `C167_no_basetime_violated`, `C167_other_size_violated`, `C167_axis_name_violated`
* C168: `C168_nat_violated`, `C168_rows_violated`, `C168_datetime_col_violated`, `C168_one_point_violated`, `C168_order_violated`, `C168_one_row_violated`
* C169: `C169_pool_violated`, `C169_exception_violated`
* C170: `C170_sizes_violated`, `C170_integers_violated`
* C171: `C171_project_vector_violated`, `C171_one_point_violated`, `C171_components_violated`, `C171_cube_violated`
* C173: `C173_last_violated`, `C173_short_violated`
* C174: `C174_deferred_violated`, `C174_deferred_temporal_violated`, `C174_empty_violated`, `C174_dict_violated`
* C175: `C175_below_violated`, `C175_slice_violated`, `C175_half_violated`
* C176: `C176_deferred_violated`, `C176_skip_violated`, `C176_hidden_violated`, `C176_time_violated`
* C177: `C177_shifted_violated`, `C177_no_out_violated`, `C177_integers_violated`
* C178: `C178_flat_violated`, `C178_plane_violated`
* C179: `C179_index_violated`, `C179_negative_violated`
* C180: `C180_last_violated`, `C180_face_violated`
* C181: `C181_component_violated`, `C181_near_violated`, `C181_upper_violated`
* C182: `C182_number_violated`, `C182_axes_violated`
* C183: `C183_field_violated`, `C183_no_values_violated`
* C184: `C184_shapes_violated`
* C185: `C185_upper_violated`, `C185_lower_violated`
* C186: `C186_node_violated`, `C186_changed_violated`, `C186_cell_changed_violated`
* C187: `C187_downsample_violated`
* C188: `C188_trailing_violated`, `C188_exchanged_violated`
* C189: `C189_sizes_violated`
* C190: `C190_again_violated`, `C190_failed_violated`
* C191: `C191_deferred_violated`, `C191_active_violated`, `C191_empty_violated`, `C191_computed_violated`, `C191_object_violated`, `C191_stale_violated`, `C191_temporal_violated`, `C191_deferred_active_violated`
* C192: `C192_names_violated`, `C192_sliced_violated`, `C192_assign_violated`, `C192_added_violated`
* C193: `C193_shaped_ending_violated`, `C193_contains_violated`, `C193_letters_violated`, `C193_units_short_violated`, `C193_units_reflected_violated`
* C194: `C194_reflected_violated`, `C194_single_violated`
* C195: `C195_names_violated`, `C195_renamed_violated`, `C195_current_violated`
* C196: `C196_pressure_violated`, `C196_name_violated`
* C197: `C197_kind_violated`
* C198: `C198_exponent_violated`, `C198_single_violated`
* C199: `C199_ascii_violated`
* C200: `C200_len_violated`, `C200_transposed_item_violated`, `C200_list_violated`, `C200_dots_violated`
* C201: `C201_wxyz2quat_violated`, `C201_last_zero_violated`, `C201_last_large_violated`
* C203: `C203_one_start_violated`, `C203_new_x_mixed_violated`, `C203_new_x_starts_violated`, `C203_new_x_first_violated`, `C203_rolls_violated`
* C204: `C204_changed_violated`, `C204_quaternions_violated`, `C204_integers_violated`
* C205: `C205_unknown_violated`, `C205_below_violated`
* C206: `C206_mapping_violated`, `C206_grid_violated`, `C206_field_violated`, `C206_info_violated`
* C207: `C207_plane_violated`, `C207_axis_violated`
* C208: `C208_mirror_violated`
* C209: `C209_hopeless_violated`, `C209_empty_violated`, `C209_blame_violated`
* C210: `C210_exact_violated`, `C210_nothing_violated`
* C211: `C211_blame_violated`
* C212: `C212_orthonormal_violated`, `C212_word_violated`
* C213: `C213_blanks_violated`, `C213_exponent_violated`, `C213_torn_violated`
* C214: `C214_scale_violated`, `C214_twice_violated`, `C214_mod_violated`, `C214_contour_violated`, `C214_masked_violated`
* C215: `C215_given_violated`, `C215_scaled_violated`
* C216: `C216_blank_violated`, `C216_underscore_violated`, `C216_keyword_violated`
* C217: `C217_node_violated`, `C217_sizes_violated`, `C217_ends_violated`, `C217_overlap_violated`
* C218: `C218_zero_violated`, `C218_dark_violated`, `C218_diff_violated`
* C219: `C219_equal_violated`
* C220: `C220_single_violated`
* C221: `C221_cartesian_violated`, `C221_radians_violated`
* C222: `C222_stretched_violated`, `C222_point_violated`, `C222_skipped_violated`
* C223: `C223_bool_violated`, `C223_empty_violated`, `C223_array_violated`, `C223_date_violated`, `C223_year_violated`, `C223_seconds_violated`
* C224: `C224_comment_violated`, `C224_dict_violated`
* C225: `C225_last_violated`, `C225_three_violated`, `C225_shape_violated`, `C225_z_violated`
* C226: `C226_adjacent_violated`, `C226_forever_violated`, `C226_empty_violated`, `C226_negative_violated`
* C227: `C227_subplot_violated`, `C227_none_violated`
* C228: `C228_again_violated`, `C228_yaml_violated`
* C229: `C229_twice_violated`, `C229_fields_violated`, `C229_crds_violated`
* C230: `C230_stale_violated`, `C230_series_violated`, `C230_first_violated`
* C231: `C231_first_violated`, `C231_one_violated`, `C231_axes_prune_violated`
* C232: `C232_two_violated`, `C232_four_violated`
* C233: `C233_rows_violated`, `C233_three_violated`
* C235: `C235_names_violated`, `C235_open_violated`
* C236: `C236_opts_violated`, `C236_again_violated`, `C236_class_violated`
* C237: `C237_open_violated`, `C237_index_violated`, `C237_axes_violated`
* C239: `C239_flat_violated`
* C240: `C240_x_violated`, `C240_field_violated`, `C240_rot_violated`
* C241: `C241_dark_violated`
* C242: `C242_name_violated`, `C242_listed_violated`
* C243: `C243_numbers_violated`, `C243_filled_violated`, `C243_padding_violated`, `C243_default_violated`
* C244: `C244_south_violated`
* C245: `C245_short_violated`, `C245_plane_violated`, `C245_single_violated`, `C245_index_violated`
* C246: `C246_rot_violated`, `C246_start_violated`
* C247: `C247_descending_violated`, `C247_no_tick_violated`, `C247_current_violated`
* C248: `C248_a_nulls_violated`, `C248_iono_violated`
* C249: `C249_fatal_violated`, `C249_call_violated`
* C250: `C250_others_violated`, `C250_lost_violated`, `C250_none_violated`, `C250_mesh_violated`
* C251: `C251_quet_violated`
* C252: `C252_endpoint_violated`, `C252_pole_violated`, `C252_angle_violated`, `C252_sign_violated`
* C253: `C253_left_violated`, `C253_scale_violated`, `C253_relative_violated`, `C253_one_violated`
* C254: `C254_zero_violated`, `C254_integer_violated`, `C254_nan_violated`, `C254_inplace_violated`
* C255: `C255_indices_violated`, `C255_interpolated_violated`
* C256: `C256_popts_violated`, `C256_comma_violated`, `C256_integer_violated`
* C257: `C257_symmetric_violated`, `C257_integer_violated`, `C257_one_violated`, `C257_fit_violated`
* C258: `C258_reuse_violated`, `C258_ticks_violated`, `C258_cax_violated`, `C258_labels_violated`
* C259: `C259_colors_violated`, `C259_markers_violated`
* C260: `C260_radius_violated`, `C260_pole_violated`, `C260_rotation_violated`
* C261: `C261_nested_violated`, `C261_same_violated`
* C262: `C262_words_violated`, `C262_args_violated`, `C262_format_violated`
* C263: `C263_sizes_violated`
* C264: `C264_late_violated`
* C265: `C265_data_violated`, `C265_amr_violated`
* C266: `C266_file_violated`, `C266_zyx_violated`, `C266_copy_violated`, `C266_time_violated`
* C267: `C267_amr_violated`
* C268: `C268_list_violated`
* C269: `C269_file_violated`
* C271: `C271_mean_violated`

## Axioms

* no axioms: `C01_zero_chunks`, `C14_start_at_length_violated`, `C14_rejects_violated`, `C14_statement_violated`, `C60_set_time_violated`, `C60_set_time_witness`, `C60_set_time_partial`, `C67_getitem_violated`, `C76_three_violated`, `C114_depth_violated`, `C135_bounds`, `C214_masked_violated`, `C215_given_violated`, `C225_shape_violated`, `C236_opts_violated`, `C249_call_violated`
* propext: `C03_history_dependence_matters`, `C04_size_violated`, `C06_values_can_be_stale`, `C08_nearest`, `C12_header_overrun_violated`, `C56_disabled`, `C56_item`, `C57_lock_free_partial`, `C57_poisoned_violated`, `C62_mismatch`, `C62_unary_partial`, `C76_point`, `C103_lost_violated`, `C104_nearest_violated`, `C105_overflow_violated`, `C118_no_dunder`, `C120_views_violated`, `C121_negative_violated`, `C121_file_violated`, `C145_group_violated`, `C145_failed_violated`, `C146_twice_violated`, `C146_shared_violated`, `C146_user_violated`, `C146_failed_violated`, `C146_kept_violated`, `C146_nested_violated`, `C147_big_header_violated`, `C150_duplicate_violated`, `C155_mismatch`, `C156_duplicate_violated`, `C162_convert`, `C162_total`, `C162_reflected_violated`, `C162_assign_reflected_violated`, `C162_assign_converted_violated`, `C162_assign_original_violated`, `C162_write_lost_violated`, `C162_clear_violated`, `C162_transform_violated`, `C162_adjusted_violated`, `C162_shell_copy`, `C183_empty`, `C183_field_violated`, `C183_no_values_violated`, `C184_shapes_violated`, `C189_behind`, `C191_empty_violated`, `C191_activate`, `C191_computed_violated`, `C191_removeAll`, `C191_stale_violated`, `C191_inactive`, `C191_deferred_active_violated`, `C192_reserved`, `C193_letters_violated`, `C200_len_violated`, `C218_zero_violated`, `C218_diff_violated`, `C222_arrays`, `C222_refused`, `C225_refused`, `C225_z_violated`, `C227_empty`, `C227_subplot_violated`, `C227_none_violated`, `C228_show`, `C228_subplots`, `C235_vectors`, `C238_own`, `C249_check`, `C250_mesh_partial`, `C250_mesh_violated`, `C254_pad`, `C254_inplace_violated`, `C255_not_callable`, `C255_with`, `C256_parts`, `C256_comma_violated`, `C257_fit_partial`, `C257_fit_violated`, `C259_lines`, `C259_colors_violated`, `C259_scatter`, `C262_args_violated`, `C264_loaded`, `C266_array_partial`, `C266_forget_partial`, `C266_time_violated`
* propext, Classical.choice, Quot.sound: `C01_chunkList_partition`, `C02_sizes_eq_interslices`, `C03_scatter_gather`, `C03_worker_independent`, `C05_consistent`, `C05_no_shared_handle`, `C06_refines_map`, `C06_last_set_wins`, `C07_refcount`, `C08_find_info`, `C08_get_all_info`, `C08_update_strict`, `C08_update_info`, `C09_find_attr_violated`, `C09_find_attr_partial`, `C10_record_round_trip`, `C11_chars_round_trip`, `C11_array_round_trip`, `C11_zero_not_preserved`, `C12_memory_safety_violated`, `C12_checksum_partial`, `C12_corruption_violated`, `C13_lookup_history_independent`, `C14_sound_partial`, `C14_accepts_partial`, `C14_int_partial`, `C15_nearest`, `C15_nearest_empty`, `C15_forward_partial`, `C15_backward_partial`, `C15_forward_guarantee`, `C15_edge_violated`, `C15_single_point_violated`, `C16_shape_partial`, `C16_unnamed`, `C16_ellipsis`, `C16_names_distinct_partial`, `C17_in_bounds`, `C17_grid_exact`, `C17_no_overshoot`, `C17_multilinear_exact`, `C17_clamped`, `C17_cache_independent`, `C18_nonuniform`, `C18_uniform`, `C18_cache_independent`, `C18_same_bracket`, `C19_nearest`, `C20_neighbors`, `C20_symmetric`, `C20_masks`, `C20_capacity`, `C20_doc_bits_violated`, `C21_contains`, `C21_nearest_partial`, `C21_unique`, `C21_history`, `C21_shared_face_history`, `C21_far_violated`, `C22_sum_prod_any_all`, `C22_min_max`, `C22_mean_partial`, `C22_mean_violated`, `C22_ptp_violated`, `C23_line`, `C23_size`, `C24_retries_finite`, `C24_bounded_steps`, `C25_controller`, `C25_floor_violated`, `C26_orders`, `C26_constant_field`, `C26_zero_field`, `C27_euler_arc_length_partial`, `C27_adaptive_length_violated`, `C27_max_length_partial`, `C27_max_t_never_late_partial`, `C27_max_t_violated`, `C28_classify`, `C29_topology_partial`, `C29_one_direction_violated`, `C30_cleanup_partial`, `C30_valid_json_partial`, `C30_comma_violated`, `C30_escape_violated`, `C30_apostrophe_violated`, `C31_div_curl`, `C31_curl_grad_partial`, `C32_grad_partial`, `C32_div`, `C32_curl`, `C32_invariant_axis`, `C32_grad_node_violated`, `C33_at_point_violated`, `C33_jacobian_div_partial`, `C33_given_spacing`, `C33_default_spacing`, `C33_curl_value`, `C33_curl_violated`, `C33_jacobian_at_ind`, `C34_interior`, `C34_order0`, `C34_order1`, `C34_order1_profile`, `C34_components`, `C34_bad_order`, `C34_default_axes_violated`, `C35_components`, `C35_bad_input`, `C35_one_point_axis_violated`, `C36_nodes`, `C36_centres`, `C36_extent_violated`, `C36_single_node_violated`, `C36_extent_partial`, `C37_interleave`, `C37_single`, `C37_reflect`, `C37_given_centres_violated`, `C38_time_ordered`, `C38_iter`, `C38_order_unique`, `C38_nearest`, `C38_int_times_violated`, `C38_index`, `C38_slice_never`, `C39_index_partial`, `C39_sound_partial`, `C39_time_range`, `C39_zero_violated`, `C39_others_violated`, `C39_zero_always_violated`, `C40_none_iff`, `C40_prefer`, `C41_divergence_theorem_partial`, `C41_divergence_theorem_raw_partial`, `C41_zero_flux`, `C41_single_cell_violated`, `C41_fc2cc_constant`, `C41_ec2cc_constant`, `C42_scalar`, `C42_dot_partial`, `C42_dot_repeated_vertex_violated`, `C42_mag_first_partial`, `C42_mag_second_violated`, `C42_mag_raises_violated`, `C42_empty_first_line_violated`, `C43_orthonormal`, `C43_renormalises`, `C43_quatmul`, `C43_homomorphism`, `C43_homomorphism_two`, `C43_quat_rotate`, `C43_neg`, `C43_rot2quat`, `C43_quat2rot_rot2quat`, `C44_e_rot`, `C44_orders`, `C44_round_trip`, `C44_round_trip_eul`, `C44_round_trip_dcm`, `C44_round_trip_dcm2eul`, `C44_reproduces_partial`, `C44_bad_order`, `C44_near_singular_violated`, `C45_history_independent`, `C45_compose`, `C45_identity`, `C45_inverse`, `C45_rotation`, `C45_defined`, `C45_refused`, `C46_axis`, `C46_moment`, `C47_opposite_partial`, `C47_violated`, `C47_refused`, `C48_same_field_line_partial`, `C48_identity_partial`, `C48_equator_violated`, `C48_spherical`, `C49_cart_sph_cart`, `C49_sph_cart_sph`, `C49_sph2cart_deg`, `C49_degrees_violated`, `C49_latlon_partial`, `C49_latlon_positive_partial`, `C49_latlon_violated`, `C50_plane`, `C51_get_points_iter_points`, `C51_c_order`, `C51_volume_uv`, `C51_volume_no_uv`, `C52_one_partial`, `C52_raises_violated`, `C52_three_violated`, `C53_candidates`, `C53_once`, `C53_faces_partial`, `C53_xy_faces_violated`, `C54_sound`, `C55_detect`, `C55_to_interlaced`, `C55_to_flat_partial`, `C55_round_trip_partial`, `C55_cube_violated`, `C56_unknown`, `C58_connections`, `C58_once`, `C58_vertices`, `C58_count`, `C59_rotation`, `C59_maps_partial`, `C59_close`, `C59_exact_violated`, `C61_same_shape_partial`, `C61_stale_cache_violated`, `C63_convective_affine`, `C64_corner_violated`, `C64_winding_violated`, `C64_single_violated`, `C65_uniform_violated`, `C65_equidistant_partial`, `C65_full_arrays_violated`, `C66_node`, `C66_forward_partial`, `C66_keep_partial`, `C66_negative_start_violated`, `C66_backward_violated`, `C66_stride_violated`, `C66_keep_violated`, `C66_reduced_location_violated`, `C68_fc2cc_leading_partial`, `C68_fc2cc_raw_partial`, `C68_ec2cc_raw_partial`, `C68_mixed_staggering_violated`, `C68_raw_single_cell_violated`, `C68_shape_raw_partial`, `C68_shape_violated`, `C69_wxyz2rot`, `C69_wxyz2quat`, `C69_rot2wxyz`, `C69_not_quick_violated`, `C70_new_x_partial`, `C70_opposite_violated`, `C71_path_partial`, `C71_ends_partial`, `C71_opposite_violated`, `C71_collinear_violated`, `C72_coefficients`, `C72_axis_partial`, `C72_direction_violated`, `C73_window_partial`, `C73_midnight_violated`, `C74_truncated_partial`, `C74_violated`, `C75_parallel_violated`, `C75_never_raises`, `C77_distance`, `C77_angle_partial`, `C77_thetas`, `C77_distinct`, `C77_circle_partial`, `C77_angle_close`, `C77_circle_close`, `C77_angle_violated`, `C78_arr2mesh`, `C78_correspond`, `C78_poles_partial`, `C78_reversed_violated`, `C78_poles_close`, `C79_patch_partial`, `C79_range_violated`, `C80_line`, `C81_spline_partial`, `C81_degree_violated`, `C82_complete_partial`, `C82_once`, `C82_missed_violated`, `C83_points_partial`, `C83_no_nulls_violated`, `C84_missed_violated`, `C85_order`, `C85_kinds`, `C85_reversed`, `C86_same_partial`, `C87_set_layout_partial`, `C87_after_read_violated`, `C89_transpose`, `C90_components_partial`, `C90_fallback_violated`, `C90_electric_partial`, `C90_derived_partial`, `C91_missing_violated`, `C91_unknown_partial`, `C91_computed_partial`, `C92_per_line`, `C92_per_vertex`, `C92_color_per_line`, `C93_vertex_colors_violated`, `C93_colored_lines_violated`, `C94_fractions_partial`, `C94_bytes_partial`, `C94_refused_partial`, `C94_wrap_violated`, `C95_list_partial`, `C95_tuple_violated`, `C96_same_partial`, `C96_loaded_values`, `C96_accepts_partial`, `C96_xyz_vector_violated`, `C96_missing_axis_violated`, `C96_past_end_violated`, `C97_sound`, `C97_four_topologies`, `C97_max_depth_zero_violated`, `C98_found`, `C98_ends_partial`, `C98_negative_depth_violated`, `C98_missed_violated`, `C99_windows`, `C99_resolution_violated`, `C99_max_depth_zero_violated`, `C100_sphere_violated`, `C100_other_seeds_partial`, `C101_lines_partial`, `C101_ends_violated`, `C102_history_partial`, `C102_arguments_violated`, `C102_time_violated`, `C103_one_unit_partial`, `C103_short_only_if_blocked`, `C104_down_partial`, `C104_precision`, `C105_diff_partial`, `C105_sum_partial`, `C106_close_partial`, `C106_integers`, `C106_fraction_violated`, `C106_long_violated`, `C106_decimals_violated`, `C106_days_violated`, `C107_fields_partial`, `C107_refused`, `C107_sign_and_unit_violated`, `C108_fraction_violated`, `C109_first_day_partial`, `C109_days_partial`, `C109_seconds`, `C109_before`, `C109_violated`, `C110_digits_partial`, `C110_violated`, `C111_spaced_partial`, `C111_ends_violated`, `C112_base_partial`, `C112_whole`, `C112_refused`, `C112_blank_violated`, `C112_drift_violated`, `C113_groups`, `C113_refused`, `C114_nearest_partial`, `C115_request_partial`, `C115_once`, `C115_nolog_violated`, `C115_invalid_violated`, `C116_nodes_partial`, `C116_even`, `C116_stretched_violated`, `C116_one_violated`, `C117_sign_partial`, `C117_nearest`, `C117_auto_violated`, `C118_text`, `C119_names_partial`, `C119_unknown`, `C119_exponent_violated`, `C119_keyword_violated`, `C119_clash_violated`, `C120_views_partial`, `C121_recorded`, `C122_component_partial`, `C122_substring_violated`, `C123_parts_partial`, `C123_underscore_violated`, `C124_value_partial`, `C124_slice_partial`, `C124_empty_violated`, `C125_forward_partial`, `C125_backward_partial`, `C125_step_violated`, `C126_ends_violated`, `C127_flux_partial`, `C127_second_partial`, `C127_order_violated`, `C128_beta_partial`, `C128_magnitude_partial`, `C128_beta_violated`, `C129_plain_partial`, `C129_ellipsis_partial`, `C129_interlaced_partial`, `C129_interlaced_ellipsis_partial`, `C129_interlaced_violated`, `C129_flat_violated`, `C130_all`, `C130_first_violated`, `C131_colours_partial`, `C131_digits_violated`, `C132_colour`, `C132_magnetosphere`, `C133_steps_partial`, `C133_direction_partial`, `C133_default_partial`, `C133_return_violated`, `C133_endless_violated`, `C134_between_partial`, `C134_after_partial`, `C134_line_partial`, `C134_swapped_violated`, `C135_remove`, `C135_replace_partial`, `C135_original_violated`, `C135_cadence_partial`, `C135_continuous_violated`, `C136_minvar`, `C137_basis_partial`, `C137_max_partial`, `C137_near_partial`, `C137_antiparallel_violated`, `C137_around`, `C137_samples_partial`, `C137_most_partial`, `C138_normal`, `C138_unique`, `C139_edges`, `C139_width`, `C140_shear_partial`, `C140_outside_partial`, `C140_shear_violated`, `C141_mapfield_partial`, `C141_spherefield_partial`, `C141_roundtrip_partial`, `C141_default_partial`, `C141_same`, `C141_range`, `C141_flat_violated`, `C141_radians_violated`, `C141_tuple_violated`, `C142_points_partial`, `C142_axes`, `C142_whole_violated`, `C142_hemisphere_violated`, `C143_polar_partial`, `C143_periodic_partial`, `C143_uniform_violated`, `C143_hemisphere`, `C143_check_violated`, `C143_default_violated`, `C143_sphere_violated`, `C143_vector_violated`, `C144_indices_partial`, `C144_backward_violated`, `C144_values_partial`, `C144_closest`, `C144_listing`, `C144_errors`, `C144_index`, `C144_pattern`, `C144_step_violated`, `C144_empty`, `C144_example_violated`, `C144_reversed_violated`, `C145_load_partial`, `C145_again`, `C145_new`, `C146_references_partial`, `C146_all`, `C146_remove_violated`, `C148_read_partial`, `C148_shared_violated`, `C148_ignored_violated`, `C148_nofields_violated`, `C149_times_partial`, `C149_list_zero_violated`, `C149_inner_one_violated`, `C150_roundtrip_partial`, `C150_plain`, `C150_refused`, `C151_arrays`, `C151_varrays_partial`, `C151_smallv_violated`, `C151_origin`, `C151_even_partial`, `C151_uneven_violated`, `C151_uneven_refused`, `C151_plane_violated`, `C151_elements_violated`, `C151_sphere_violated`, `C151_points_violated`, `C151_refused`, `C151_item_errors`, `C151_unknown_violated`, `C151_sphere_dims`, `C152_block`, `C152_tiles`, `C153_data`, `C153_short`, `C153_foreign`, `C153_material_violated`, `C153_shape_violated`, `C154_other_violated`, `C155_interlaced`, `C155_flat_partial`, `C155_cube_violated`, `C155_plane_violated`, `C156_round_trip_partial`, `C156_time_violated`, `C156_xml_violated`, `C156_first_violated`, `C156_colon_violated`, `C156_blank_violated`, `C157_ends`, `C157_arrays`, `C157_even`, `C157_close_partial`, `C157_small_violated`, `C157_uniform_violated`, `C157_many_violated`, `C157_empty_violated`, `C157_other`, `C158_scalar`, `C158_interlaced_partial`, `C158_flat_partial`, `C158_cube_violated`, `C158_refused`, `C158_dat2field`, `C158_dat2field_flat_partial`, `C158_dat2field_flat_violated`, `C158_dat2field_errors`, `C158_full`, `C158_full_layout_violated`, `C158_full_shape_violated`, `C158_full_like`, `C159_number`, `C159_vector_partial`, `C159_vector_scalar`, `C159_scalar_vector_partial`, `C159_scalar_interlaced_wrong_violated`, `C159_mixed_violated`, `C159_grow_violated`, `C159_cube_violated`, `C159_sizes`, `C160_scalar`, `C160_keepdims`, `C160_components`, `C160_interlaced_partial`, `C160_flat_axis_violated`, `C160_last_violated`, `C160_argsort_violated`, `C161_exact`, `C161_scalar`, `C161_vector_partial`, `C161_order`, `C161_default_violated`, `C161_single_violated`, `C161_line`, `C161_cumtrapz_partial`, `C161_initial_none_violated`, `C162_unwritten_partial`, `C162_assign_partial`, `C163_arrays_partial`, `C163_even_arrays_partial`, `C163_node_cell_node_partial`, `C163_cell_node_cell_partial`, `C163_uniform_violated`, `C163_one_node_violated`, `C163_uneven_violated`, `C164_axes_partial`, `C164_xyz`, `C164_scalar_partial`, `C164_flat_partial`, `C164_unread_vector_partial`, `C164_already`, `C164_interlaced_violated`, `C164_unread_violated`, `C164_names_violated`, `C164_single_violated`, `C165_which`, `C165_values_partial`, `C165_too_few_violated`, `C166_adjust_partial`, `C166_all`, `C166_rename_partial`, `C166_original_violated`, `C166_exchange_violated`, `C167_grid_partial`, `C167_temporal_partial`, `C167_fields_partial`, `C167_one_time`, `C167_time_sel_violated`, `C167_no_time_violated`, `C167_no_basetime_violated`, `C167_other_size_violated`, `C167_axis_name_violated`, `C168_round_partial`, `C168_grid_partial`, `C168_nat_violated`, `C168_rows_violated`, `C168_datetime_col_violated`, `C168_one_point_violated`, `C168_order_violated`, `C168_one_row_violated`, `C168_columns`, `C169_map_partial`, `C169_error_partial`, `C169_threads_result`, `C169_procs_result`, `C169_pool_violated`, `C169_procs`, `C170_even_partial`, `C170_ends`, `C170_whole`, `C170_factor`, `C170_sizes_violated`, `C170_integers_violated`, `C170_inplace`, `C171_magnitude`, `C171_dot`, `C171_dot_layouts`, `C171_project`, `C171_cross`, `C171_normalize`, `C171_unit`, `C171_project_vector_partial`, `C171_project_vector_violated`, `C171_one_point_violated`, `C171_components_violated`, `C171_cube_violated`, `C172_forms`, `C173_points_partial`, `C173_straight`, `C173_last_violated`, `C174_grid`, `C174_field_partial`, `C174_leaf`, `C174_item_partial`, `C174_deferred_violated`, `C174_deferred_temporal_violated`, `C174_empty_violated`, `C174_dict_partial`, `C174_dict_violated`, `C175_activate_partial`, `C175_all_partial`, `C175_error`, `C175_handle`, `C175_below_violated`, `C175_slice_violated`, `C175_half_violated`, `C175_stop`, `C176_count_partial`, `C176_first_partial`, `C176_grids`, `C176_deferred_violated`, `C176_skip_violated`, `C176_hidden_violated`, `C176_time`, `C176_time_partial`, `C176_time_violated`, `C177_all_partial`, `C177_scalar_partial`, `C177_first_partial`, `C177_last_partial`, `C177_vector_partial`, `C177_shifted_violated`, `C177_no_out_violated`, `C177_integers_violated`, `C177_array`, `C178_shaped_partial`, `C178_flat_partial`, `C178_flat_violated`, `C178_plane_violated`, `C178_count_partial`, `C179_points_partial`, `C179_staggered_partial`, `C179_index_violated`, `C179_negative_violated`, `C180_fill_partial`, `C180_mask_partial`, `C180_vector_mask_partial`, `C180_last_violated`, `C180_strength_partial`, `C180_make_partial`, `C180_face_violated`, `C181_exact_partial`, `C181_sound_partial`, `C181_index`, `C181_component_violated`, `C181_near_violated`, `C181_upper_violated`, `C182_axes_partial`, `C182_single`, `C182_no_values`, `C182_number_violated`, `C185_skeletons_partial`, `C185_upper_violated`, `C185_lower_violated`, `C186_node_violated`, `C186_changed_violated`, `C186_cell_partial`, `C186_cell_changed_violated`, `C187_downsample_violated`, `C188_set_partial`, `C188_raises_partial`, `C188_trailing_violated`, `C188_exchanged_violated`, `C189_read`, `C189_series_partial`, `C191_add`, `C191_del_partial`, `C191_deferred_violated`, `C191_active_violated`, `C191_object_violated`, `C191_temporal_violated`, `C192_vector`, `C192_vector_as_is`, `C192_scalar`, `C192_names_violated`, `C192_assembled`, `C192_sliced_partial`, `C192_sliced_violated`, `C192_assign_violated`, `C192_assign_partial`, `C192_added_violated`, `C193_names`, `C193_other`, `C193_get`, `C193_axes`, `C193_contains`, `C193_shaped_ending_violated`, `C194_ends`, `C194_widths`, `C194_width_single`, `C194_uniform`, `C194_reflected_violated`, `C194_apply`, `C194_single_violated`, `C195_stored`, `C195_velocity`, `C195_momentum`, `C195_consistent`, `C195_magnetic`, `C195_vector`, `C195_scalars`, `C195_history`, `C195_names_violated`, `C195_renamed_violated`, `C195_current_violated`, `C196_velocity`, `C196_pressure_partial`, `C196_pressure_violated`, `C196_missing`, `C196_vector`, `C196_name_violated`, `C197_gkeyll`, `C197_athena`, `C197_refused`, `C198_header_partial`, `C198_exponent_violated`, `C198_crds_partial`, `C198_single_violated`, `C198_data`, `C199_ascii_partial`, `C199_history`, `C199_nda`, `C200_component`, `C200_transposed`, `C200_item_partial`, `C200_dots`, `C200_bad_component`, `C200_len_partial`, `C200_transposed_item_violated`, `C200_list_violated`, `C200_dots_violated`, `C201_rotmul`, `C201_quatmul`, `C201_refused`, `C201_rotate`, `C201_wxyz2rot`, `C201_wxyz2quat_partial`, `C201_wxyz2quat_violated`, `C201_axang`, `C201_quat2wxyz_partial`, `C201_last_zero_violated`, `C201_last_large_violated`, `C202_angle`, `C202_refused`, `C202_symmetric`, `C202_lengths`, `C202_same_direction`, `C203_single`, `C203_stacks_partial`, `C203_one_start_violated`, `C203_new_x_single`, `C203_new_x_partial`, `C203_new_x_mixed_violated`, `C203_new_x_starts_violated`, `C203_new_x_first_violated`, `C203_roll_and_new_x`, `C203_rolls_violated`, `C204_result`, `C204_history`, `C204_kept_partial`, `C204_changed_violated`, `C204_quaternions`, `C204_quaternions_kept_partial`, `C204_quaternions_violated`, `C204_integers_violated`, `C205_text`, `C205_node_partial`, `C205_default`, `C205_value_default`, `C205_unknown_violated`, `C205_again_partial`, `C205_below_violated`, `C206_value`, `C206_default`, `C206_mapping_violated`, `C206_grid_partial`, `C206_grid_violated`, `C206_field_violated`, `C206_node_partial`, `C206_info_violated`, `C207_rotation`, `C207_rotation4`, `C207_plane_partial`, `C207_plane_violated`, `C207_refused_partial`, `C207_axis_violated`, `C207_sum`, `C207_back`, `C207_translation`, `C207_translation_short`, `C207_nvec`, `C207_nvec_point`, `C208_axis`, `C208_refused`, `C208_mirror_violated`, `C209_raises`, `C210_found_partial`, `C210_none_partial`, `C210_exact_partial`, `C210_exact_violated`, `C210_nothing_violated`, `C211_fields`, `C211_class`, `C211_crds`, `C211_blame_violated`, `C212_check`, `C212_check_rotations`, `C212_orthonormal_violated`, `C212_word_violated`, `C212_refused`, `C212_not_refused`, `C212_dcm2quat`, `C212_rot2axang_partial`, `C212_quat2axang_partial`, `C213_integer`, `C213_decimal`, `C213_float`, `C213_kinds`, `C213_list`, `C213_integers`, `C213_text`, `C213_words_partial`, `C213_blanks_violated`, `C213_exponent_violated`, `C213_torn_violated`, `C213_param`, `C213_no_param`, `C214_picture`, `C214_picture_node`, `C214_style`, `C214_unchanged_partial`, `C214_unchanged_node`, `C214_apart`, `C214_scale_violated`, `C214_twice_violated`, `C214_mod_violated`, `C214_contour_violated`, `C214_patches`, `C215_asked`, `C215_lin`, `C215_sym`, `C215_log`, `C215_nan`, `C215_many`, `C215_text`, `C215_norescale`, `C215_map`, `C215_scaled_violated`, `C216_options_partial`, `C216_empty`, `C216_blank_violated`, `C216_underscore_violated`, `C216_yaml`, `C216_error`, `C216_keyword_violated`, `C216_axis`, `C217_coords`, `C217_cells_partial`, `C217_node_violated`, `C217_sizes_violated`, `C217_times`, `C217_lengths`, `C217_ends_violated`, `C217_overlap_violated`, `C218_bits`, `C218_negative`, `C218_rgb_partial`, `C218_fractions`, `C218_refused`, `C218_dark_violated`, `C219_limits_partial`, `C219_equal_violated`, `C219_named`, `C219_refused`, `C219_plane`, `C219_two`, `C220_segments_partial`, `C220_kept`, `C220_single_violated`, `C221_value_partial`, `C221_cartesian_violated`, `C221_radians_violated`, `C221_fillna`, `C222_between`, `C222_spaced`, `C222_stretched_violated`, `C222_one`, `C222_least`, `C222_point_violated`, `C222_axes`, `C222_uniform`, `C222_skipped_violated`, `C223_types`, `C223_bool_violated`, `C223_lists`, `C223_empty_violated`, `C223_arrays`, `C223_array_violated`, `C223_text`, `C223_text_like`, `C223_date_violated`, `C223_year_violated`, `C223_seconds`, `C223_time`, `C223_seconds_violated`, `C223_conservative`, `C223_datetime`, `C224_read`, `C224_without`, `C224_without_axis`, `C224_order`, `C224_version`, `C224_short`, `C224_comment_violated`, `C224_value`, `C224_dict`, `C224_dict_violated`, `C225_once`, `C225_again`, `C225_mesh`, `C226_chars`, `C226_words_partial`, `C227_each`, `C227_state`, `C228_field`, `C228_panels`, `C228_hat`, `C228_again_violated`, `C228_same`, `C228_meaning_partial`, `C228_yaml_violated`, `C228_files`, `C229_names`, `C229_times`, `C229_alone`, `C229_xdmf`, `C229_twice_violated`, `C229_fields_partial`, `C229_fields_violated`, `C229_crds_violated`, `C229_refused`, `C230_xdmf_partial`, `C230_same_partial`, `C230_stale_violated`, `C230_series_violated`, `C230_first_violated`, `C231_all`, `C231_axes`, `C231_prune_partial`, `C231_flat`, `C231_first_violated`, `C231_one_violated`, `C232_three_partial`, `C232_two_violated`, `C232_four_violated`, `C233_each`, `C233_refused`, `C233_one`, `C233_short`, `C233_empty`, `C233_long`, `C233_rows_violated`, `C233_three_violated`, `C234_angles`, `C234_mag`, `C234_signs`, `C234_length`, `C234_time`, `C235_names_partial`, `C235_names_violated`, `C235_open_violated`, `C235_epar`, `C235_unique`, `C235_none`, `C236_grids_partial`, `C236_again_violated`, `C236_datasets_partial`, `C236_class_violated`, `C237_limits`, `C237_skeleton`, `C237_values_partial`, `C237_open_violated`, `C237_index_violated`, `C237_axes_violated`, `C238_points`, `C238_cells`, `C239_arrows_partial`, `C239_one_step`, `C239_flat_violated`, `C240_size`, `C240_sides_partial`, `C240_x_violated`, `C240_field_violated`, `C240_rot_violated`, `C241_fractions`, `C241_columns`, `C241_bytes_partial`, `C241_dark_violated`, `C241_refused`, `C241_limits`, `C241_alpha`, `C241_alpha_only`, `C242_reverse`, `C242_linear`, `C242_ends`, `C242_name_violated`, `C242_listed_violated`, `C243_best`, `C243_box`, `C243_on_line`, `C243_padding_violated`, `C243_default_violated`, `C243_size`, `C244_hemisphere`, `C244_bound`, `C244_circles`, `C244_labels`, `C244_local_time`, `C245_points`, `C245_lines_partial`, `C245_short_violated`, `C245_plane_violated`, `C245_single_violated`, `C245_index_violated`, `C246_range`, `C246_intensity`, `C246_increasing`, `C246_black_white`, `C246_hues`, `C246_rot_violated`, `C246_start_violated`, `C247_trim_partial`, `C247_descending_violated`, `C247_no_tick_violated`, `C247_limits`, `C247_current_violated`, `C247_edge`, `C248_nulls_partial`, `C248_a_nulls_violated`, `C248_earth`, `C248_earth_whole`, `C248_iono_partial`, `C248_iono_violated`, `C249_list`, `C249_namespace`, `C249_all_bound`, `C249_surprise`, `C249_fatal_partial`, `C249_proxy`, `C249_dummy`, `C250_no_film`, `C250_keep`, `C250_film`, `C250_frames`, `C250_args`, `C250_others_violated`, `C250_lost_violated`, `C250_none_violated`, `C251_calls`, `C251_stats`, `C251_errors`, `C251_lines`, `C251_timereps`, `C251_quet_violated`, `C252_within_partial`, `C252_endpoint_violated`, `C252_pole_violated`, `C252_angle_violated`, `C252_guess`, `C252_sign_violated`, `C253_unary`, `C253_binary`, `C253_number`, `C253_left_violated`, `C253_scale_partial`, `C253_scale_violated`, `C253_axpby`, `C253_relative_partial`, `C253_relative_violated`, `C253_one_violated`, `C253_sizes`, `C253_absmax`, `C254_line`, `C254_zero_violated`, `C254_integer_violated`, `C254_symmetric_partial`, `C254_nan_violated`, `C254_limits`, `C254_log`, `C255_indices_partial`, `C255_indices_violated`, `C255_interpolated_partial`, `C255_interpolated_violated`, `C255_interpolated_nothing`, `C256_options`, `C256_series_partial`, `C256_integer_violated`, `C256_errors`, `C256_output`, `C256_verbosity`, `C257_box_partial`, `C257_nice`, `C257_symmetric_violated`, `C257_integer_violated`, `C257_one_violated`, `C257_labels`, `C257_clear`, `C258_position`, `C258_unknown`, `C258_options`, `C258_reuse_violated`, `C258_ticks_violated`, `C258_cax_partial`, `C258_cax_violated`, `C259_zloc`, `C259_markers`, `C259_space`, `C259_markers_violated`, `C260_sphere`, `C260_place_partial`, `C260_radius_violated`, `C260_pole_violated`, `C260_pictures`, `C260_rotation`, `C260_rotation_violated`, `C261_with`, `C261_nested_violated`, `C262_short`, `C262_words_violated`, `C262_format_violated`, `C263_coordinates`, `C263_values_partial`, `C263_refused`, `C263_sizes_violated`, `C264_order`, `C265_info_partial`, `C265_data_violated`, `C266_copy_violated`, `C266_rewrap`, `C267_once`, `C267_amr_violated`, `C268_list_partial`, `C268_list_violated`, `C269_values`, `C270_axes`, `C270_order`, `C270_error`, `C271_filled`, `C271_plain`, `C271_mean_partial`, `C271_mean_violated`
* propext, Quot.sound: `C01_chunkSlices_partition`, `C02_sizes_eq_slices`, `C02_interslice_elements`, `C04_size_partial`, `C09_statement_violated`, `C12_at_most_64_partial`, `C12_no_overrun_partial`, `C14_int_negative_violated`, `C16_two_ellipses`, `C16_name_clash_violated`, `C16_too_many_violated`, `C29_colors`, `C38_get_times`, `C39_empty_violated`, `C40_registry_complete`, `C40_derived_first`, `C40_detect`, `C40_most_derived`, `C42_errors`, `C51_plane`, `C51_sphere`, `C56_stored`, `C56_computed`, `C56_equation`, `C56_once`, `C56_set`, `C62_binary_partial`, `C62_one_cell_violated`, `C68_bnd_interior`, `C78_as_mesh`, `C86_none_violated`, `C88_never_other_violated`, `C101_one_null_violated`, `C108_colons_partial`, `C108_array_violated`, `C120_last`, `C121_names_partial`, `C126_values_partial`, `C126_single_partial`, `C127_third_violated`, `C129_list_violated`, `C130_parts`, `C130_name`, `C130_first_partial`, `C130_last_partial`, `C145_unknown`, `C147_read_partial`, `C147_cell_partial`, `C147_big_violated`, `C147_little_violated`, `C147_refused`, `C147_short`, `C147_truncated`, `C148_incomplete`, `C148_both_violated`, `C148_collection_violated`, `C148_topology`, `C148_nested_violated`, `C149_list_violated`, `C149_inner_violated`, `C149_patch_violated`, `C149_run_violated`, `C149_refused`, `C149_refused_series`, `C150_time_violated`, `C150_crds_violated`, `C150_axis_violated`, `C150_file_violated`, `C150_reserved_violated`, `C150_missing_axis_violated`, `C153_names`, `C153_sets`, `C153_many_violated`, `C154_times_partial`, `C154_copies_violated`, `C155_scalar`, `C155_single`, `C156_empty`, `C156_axes_violated`, `C156_single_violated`, `C159_scalar`, `C159_scalar_interlaced_violated`, `C159_places_violated`, `C159_single`, `C160_flat_last_violated`, `C162_shared_partial`, `C162_read_first_partial`, `C162_copy`, `C167_names`, `C169_ends`, `C169_some`, `C169_workers`, `C169_exception_violated`, `C172_preferred`, `C172_fallback`, `C172_one_of`, `C173_short_violated`, `C174_child`, `C177_cube`, `C182_axes_violated`, `C183_attribute_partial`, `C184_function_partial`, `C188_broadcast_partial`, `C189_other`, `C189_contents_partial`, `C189_sizes_violated`, `C190_first_partial`, `C190_again_violated`, `C190_failed_violated`, `C190_history_partial`, `C191_contains_partial`, `C193_range`, `C193_contains_violated`, `C193_units`, `C193_units_other`, `C193_units_short_violated`, `C193_units_reflected_violated`, `C197_template`, `C197_kind_violated`, `C199_ascii_violated`, `C199_nda_refused`, `C200_whole`, `C200_bad_axis`, `C205_text_one`, `C209_lines_partial`, `C209_hopeless_violated`, `C209_missing`, `C209_empty_violated`, `C209_warning`, `C209_blame_partial`, `C209_blame_violated`, `C211_first`, `C211_none`, `C215_scale`, `C225_first`, `C225_last`, `C225_list`, `C225_last_violated`, `C225_three_violated`, `C225_values`, `C225_axes`, `C226_sound`, `C226_adjacent_violated`, `C226_forever_violated`, `C226_empty_violated`, `C226_negative_violated`, `C227_one`, `C227_fails`, `C227_procs`, `C228_every`, `C231_axes_prune_violated`, `C232_thick`, `C235_b`, `C235_missing`, `C236_load`, `C238_flat`, `C242_rgba`, `C243_colors_partial`, `C243_numbers_violated`, `C243_rows`, `C243_penalty`, `C243_filled_violated`, `C244_north_partial`, `C244_south_violated`, `C247_spines`, `C247_side`, `C249_fatal_violated`, `C254_times`, `C255_call`, `C255_raise`, `C255_missing`, `C256_popts_violated`, `C257_clear_none`, `C258_cbarlabel`, `C258_labels_partial`, `C258_labels_violated`, `C259_choice`, `C261_own_partial`, `C261_threads`, `C261_error`, `C261_same_violated`, `C262_lines`, `C264_sharing`, `C264_late_violated`, `C265_attributes`, `C265_errors`, `C265_amr_violated`, `C266_file_violated`, `C266_zyx_violated`, `C267_own_partial`, `C269_keep_partial`, `C269_file_violated`
