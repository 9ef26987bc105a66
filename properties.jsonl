{"id": "C01", "title": "Strong-component ordering is memory safe and emits a permutation", "statement": "tarjan(nv, ia, ja, vert, comp, ncomp, work), called with buffers of exactly the documented sizes (vert: nv, comp: nv+1, work: 3*nv), terminates, never reads or writes outside those buffers although it keeps its two stacks at the tail ends of vert and comp while the results grow from their heads, and leaves in vert[0..nv) every vertex exactly once and in comp[0..ncomp] strictly increasing block boundaries from 0 to nv.", "quantifier": "every nv >= 0 and every well-formed CSR graph on nv vertices (any edges, self loops, duplicates)", "why_tests_cant": "The stacks and the results share storage; whether they collide depends on the interleaving of pushes and emitted components for the whole graph, so it must be established for every graph shape.", "anchors": ["opm/core/transport/reorder/tarjan.c:tarjan"]}
{"id": "C02", "title": "Strong-component ordering computes exactly the strongly connected components in dependency order", "statement": "After tarjan returns, two vertices lie in the same block vert[comp[i]..comp[i+1]) iff each is reachable from the other, and every edge leads from a block to the same block or an earlier one (reverse topological order).", "quantifier": "every well-formed CSR graph, every pair of vertices and every edge", "why_tests_cant": "Reachability quantifies over paths of any length in graphs of any size; low-link bugs surface only on particular visiting orders.", "anchors": ["opm/core/transport/reorder/tarjan.c:tarjan"]}
{"id": "C03", "title": "Upwind sequence respects flow direction", "statement": "compute_sequence(grid, flux, sequence, components, ncomponents) lists every cell once, and whenever some interior face carries flow from cell u into cell d, u's component does not come after d's component; cells of one component are exactly those on a common flow cycle.", "quantifier": "every grid whose cell-face and face-cell tables describe the same adjacency and every real-valued face flux field", "why_tests_cant": "The set of flux sign patterns grows exponentially with the number of faces; only the induced order for all of them makes a cell-by-cell transport sweep legal.", "anchors": ["opm/core/transport/reorder/reordersequence.cpp:make_upwind_graph, compute_reorder_sequence_graph, compute_sequence", "opm/core/transport/reorder/tarjan.c:tarjan"]}
{"id": "C04", "title": "Reordered transport solves every cell exactly once, upstream first", "statement": "ReorderSolverInterface::reorderAndTransport hands each cell of the grid to solveSingleCell or solveMultiCell exactly once in total, one-cell components to solveSingleCell and larger components as a whole to solveMultiCell, in the order of the computed sequence.", "quantifier": "every grid/flux combination and every solver implementation", "why_tests_cant": "Depends on component layout produced for arbitrary cyclic flow patterns.", "anchors": ["opm/core/transport/reorder/ReorderSolverInterface.cpp:reorderAndTransport"]}
{"id": "C05", "title": "Connected-component colouring by depth-first search", "statement": "dfs(size, ia, ja, ncolors, color, work) on a symmetric graph whose self connections, if any, are listed first in their rows gives two vertices the same colour iff they are connected, uses exactly the colours 0..ncolors-1, terminates and stays within its 2*size work array. (With self connections elsewhere in a row the result can be wrong.)", "quantifier": "every symmetric CSR graph of any size; the failure part exhibits a concrete graph with self connections", "why_tests_cant": "Stack depth and colour equivalence depend on the complete traversal order of arbitrary graphs.", "anchors": ["opm/core/pressure/msmfem/dfs.c:dfs"]}
{"id": "C06", "title": "Partition compression is an order-preserving renumbering", "statement": "partition_compress(n, p) rewrites p so that the block numbers used are exactly 0..m without gaps, cells shared a block before iff they do after, the relative order of block numbers is kept, and the largest new block number m is returned.", "quantifier": "every n and every vector of non-negative block numbers", "why_tests_cant": "Must hold for any gap pattern in the block numbers.", "anchors": ["opm/core/pressure/msmfem/partition.c:partition_compress"]}
{"id": "C07", "title": "Partition inversion lists each block's cells exactly once", "statement": "partition_invert(nc, p, pi, inverse) produces pi[0]=0, pi nondecreasing up to nc, and inverse[pi[b]..pi[b+1]) containing exactly the cells of block b, each once, in increasing order; every array access stays in bounds.", "quantifier": "every number of cells and every partition vector with block numbers in 0..nblk-1", "why_tests_cant": "The in-place push-back counting sort reuses pi as a cursor; an off-by-one shows only for particular block-size patterns.", "anchors": ["opm/core/pressure/msmfem/partition.c:partition_invert"]}
{"id": "C08", "title": "Local indices within a partition", "statement": "partition_localidx assigns to each cell its rank inside its own block: indices of one block are exactly 0..size-1.", "quantifier": "every partition with its inverse mapping", "why_tests_cant": "Ranges over all block-size patterns.", "anchors": ["opm/core/pressure/msmfem/partition.c:partition_localidx"]}
{"id": "C09", "title": "Uniform Cartesian partitioning is load balanced", "statement": "partition_unif_idx assigns each fine Cartesian cell to a valid coarse block; along each axis the blocks are contiguous and nonempty and block sizes differ by at most one; the coarse index is the lexicographic combination of the per-axis indices.", "quantifier": "every number of dimensions, all fine dimensions and coarse dimensions with 1 <= coarse <= fine", "why_tests_cant": "Truncating integer division with a remainder correction must balance for every size pair.", "anchors": ["opm/core/pressure/msmfem/partition.c:partition_unif_idx, partition_loadbal, coord_idx, lin_idx"]}
{"id": "C10", "title": "Splitting disconnected blocks yields connected blocks", "statement": "partition_split_disconnected(nc, nneigh, neigh, p) refines p so that cells are in the same new block iff they were in the same old block and are connected inside it; it returns the number of additional blocks created.", "quantifier": "every neighbourship list and partition", "why_tests_cant": "Connectivity inside arbitrary blocks requires reasoning about paths of any length; the routine relies on dfs on graphs that do have self connections.", "anchors": ["opm/core/pressure/msmfem/partition.c:partition_split_disconnected", "opm/core/pressure/msmfem/dfs.c:dfs"]}
{"id": "C11", "title": "Integer hash set behaves as a set", "statement": "Any sequence of hash_set_insert calls on a set made by hash_set_allocate leaves exactly the inserted keys as members (each stored once), always finds a slot, terminates and keeps its capacity a power of two, whatever the collisions and re-expansions.", "quantifier": "every sequence of non-negative keys, every initial capacity and every hash function", "why_tests_cant": "Probe sequences, collisions and growth interact; an adversarial key sequence is needed to expose a missed slot.", "anchors": ["opm/core/pressure/msmfem/hash_set.c:hash_set_allocate, hash_set_insert, insert_node/hash_set_insert_core, hash_set_expand"]}
{"id": "C12", "title": "Compressed-sparse-row construction by counting and push-back", "statement": "csrmatrix_new_count_nnz + csrmatrix_new_elms_pushback + one push per counted entry yields row pointers delimiting exactly the pushed columns of each row in push order, without writing outside ja.", "quantifier": "every matrix size and every sequence of (row, column) pushes matching the counts", "why_tests_cant": "The shifted cursor idiom must land every element in the right row for any interleaving of rows.", "anchors": ["opm/core/linalg/sparse_sys.c:csrmatrix_new_count_nnz, csrmatrix_new_elms_pushback"]}
{"id": "C13", "title": "Sorted CSR rows and element lookup", "statement": "csrmatrix_sortrows permutes each row into nondecreasing column order without changing row contents, and csrmatrix_elm_index(i,j,A) returns the position of column j in row i whenever present.", "quantifier": "every CSR matrix, every (i,j) with a stored element", "why_tests_cant": "Binary search correctness over all row shapes.", "anchors": ["opm/core/linalg/sparse_sys.c:csrmatrix_sortrows, csrmatrix_elm_index"]}
{"id": "C14", "title": "SparseTable is a list of rows", "statement": "Every history of constructor/assign/appendRow/allocate/clear/swap calls on SparseTable leaves an object whose size, rowSize, operator[], dataSize, empty and equality agree with a plain list of rows; invalid row sizes are rejected.", "quantifier": "every history of operations and every element type", "why_tests_cant": "Observers must agree with the abstract list after arbitrarily long histories, including re-assignments and failures.", "anchors": ["opm/core/utility/SparseTable.hpp:SparseTable"]}
{"id": "C15", "title": "SparseVector is a finitely supported function", "statement": "Every history of constructor/addElement/clear on SparseVector leaves element(i) returning the value added for i, and the default otherwise; nonzeroSize/nonzeroIndex/nonzeroElement enumerate exactly the added entries in increasing order.", "quantifier": "every strictly increasing sequence of added indices below the declared size", "why_tests_cant": "Lookup is by binary search and insertion requires order; must hold for any history.", "anchors": ["opm/core/utility/SparseVector.hpp:SparseVector"]}
{"id": "C16", "title": "Table lookup finds the bracketing interval", "statement": "tableIndex(table, x) returns an index i with 0 <= i <= n-2 such that x lies between table[i] and table[i+1] when x is inside the table, and the first/last interval when it is outside, for increasing and decreasing tables alike.", "quantifier": "every strictly monotone table with at least two entries and every x", "why_tests_cant": "Binary search boundaries over all table lengths and positions.", "anchors": ["opm/core/utility/linearInterpolation.hpp:tableIndex"]}
{"id": "C17", "title": "Linear interpolation reproduces and bounds the data", "statement": "linearInterpolation(xv, yv, x) equals yv[i] at x = xv[i], lies between the neighbouring values for x in between, is affine outside the table, is monotone when the data are monotone, and its derivative function returns the slope of the interval used.", "quantifier": "every strictly monotone abscissa vector, every ordinate vector of equal length and every x", "why_tests_cant": "Holds for all tables and all arguments, not samples.", "anchors": ["opm/core/utility/linearInterpolation.hpp:linearInterpolation, linearInterpolationDerivative"]}
{"id": "C18", "title": "Non-uniform table: inverse undoes evaluation", "statement": "NonuniformTableLinear::inverse(f(x)) = x for strictly monotone tables, increasing or decreasing; after rescaleDomain the table evaluates as the affinely transported function on the new domain, and inverse must follow the rescaled table.", "quantifier": "every strictly monotone table, every x in the domain, every history of inverse/rescaleDomain calls", "why_tests_cant": "Cached reversed vectors make the answer depend on the call history.", "anchors": ["opm/core/utility/NonuniformTableLinear.hpp:NonuniformTableLinear"]}
{"id": "C19", "title": "Uniform table evaluation and clamping", "statement": "UniformTableLinear evaluates to the stored value at each node and between neighbouring values in each interval, clamps arguments outside the domain to the nearest end (closest-value policy), rejects the selection of any other left/right policy, and never indexes outside its value vector.", "quantifier": "every table with at least two samples, every domain and every argument", "why_tests_cant": "Boundary arguments (x = xmax) and policies interact for all sizes.", "anchors": ["opm/core/utility/UniformTableLinear.hpp:UniformTableLinear"]}
{"id": "C20", "title": "Root finder keeps its bracket and returns a point inside it", "statement": "RegulaFalsi::solve(f,a,b,...), with or without an initial guess inside the bracket, either reports failure according to the error policy or returns a point of [min(a,b), max(a,b)]; f has opposite signs at the bracket ends at every iteration, f is evaluated only inside the bracket and at most max_iter + 1 times in the loop; when it stops by tolerance the bracket width or residual is within tolerance.", "quantifier": "every function f, bracket, tolerance and iteration limit", "why_tests_cant": "The safeguarding steps (Pegasus scaling) must preserve the bracket for every f.", "anchors": ["opm/core/utility/RootFinders.hpp:RegulaFalsi::solve, regulaFalsiStep"]}
{"id": "C21", "title": "Bracketing search returns a sign change", "statement": "bracketZero(f, x0, dx, a, b) either fails after its bounded number of doublings or returns an interval at whose ends f has different signs.", "quantifier": "every function f, start x0 and step dx", "why_tests_cant": "Depends on f at unboundedly many scales.", "anchors": ["opm/core/utility/RootFinders.hpp:bracketZero"]}
{"id": "C22", "title": "Wells structure is a list of wells", "statement": "Any history of create_wells/add_well/append_well_controls/set_current_control/clear_well_controls yields a Wells object whose observable contents (names, types, reference depths, compositions, perforated cells and indices via well_connpos, controls) equal a plain list of wells, whatever the pre-allocation hints, and all writes are inside allocated storage.", "quantifier": "every history of successful API calls, every number of phases and perforations", "why_tests_cant": "Geometric growth and fill with defaults must be invisible for all histories.", "anchors": ["opm/core/wells/wells.c:create_wells, add_well, append_well_controls, set_current_control, clear_well_controls, wells_reserve, well_controls_reserve"]}
{"id": "C23", "title": "Cloned wells equal the original", "statement": "clone_wells(W) yields a structure wells_equal-like identical to W for each W reachable through the API.", "quantifier": "every history of API calls followed by clone_wells", "why_tests_cant": "The clone replays the construction API, which may reject states the original legitimately reached.", "anchors": ["opm/core/wells/wells.c:clone_wells"]}
{"id": "C24", "title": "Boundary-condition container is a list of conditions", "statement": "Any history of flow_conditions_construct/append/append_multi/clear leaves conditions whose type, value and face set (via cond_pos) equal the appended list, with geometric growth invisible.", "quantifier": "every history of appends and clears, any initial capacities", "why_tests_cant": "Two independently growing arrays (conditions, faces) must stay consistent for all histories.", "anchors": ["opm/core/pressure/flow_bc.c:flow_conditions_append, flow_conditions_append_multi, flow_conditions_clear"]}
{"id": "C25", "title": "Source-term containers are lists of sources", "statement": "Any history of append_transport_source / append_compr_source_term / clear leaves exactly the appended (cell, pressure, flux, saturation, volume) tuples in order; calls with a wrong number of phases are rejected without effect; all writes are within the allocated storage.", "quantifier": "every history, any phase count and initial capacity", "why_tests_cant": "Capacity doubling and interleaved per-phase storage over arbitrary histories.", "anchors": ["opm/core/transport/implicit/transport_source.c:append_transport_source", "opm/core/pressure/tpfa/compr_source.c:append_compr_source_term"]}
{"id": "C26", "title": "Compressible boundary-condition container stays within its storage", "statement": "Appending any number of conditions with compr_bc_append stores all of them within the allocated tables.", "quantifier": "every history of compr_bc_append/compr_bc_clear calls", "why_tests_cant": "Whether the recorded capacity agrees with the allocated storage shows only in histories of at least two appends.", "anchors": ["opm/core/pressure/tpfa/compr_bc.c:compr_bc_append, expand_source_tables"]}
{"id": "C27", "title": "Simulation timer consistency", "statement": "For every history of init/setCurrentStepNum/++/setTotalTime the current time equals the sum of the step lengths before the current step, total time is the sum of all steps, done() iff the current step equals the number of steps, and an out-of-range step number is rejected.", "quantifier": "every list of step lengths and every history of calls", "why_tests_cant": "Accumulated time must match for all histories; argument validation concerns all integers.", "anchors": ["opm/core/simulator/SimulatorTimer.cpp:init, setCurrentStepNum, currentTime, operator++, setTotalTime, done"]}
{"id": "C28", "title": "Cartesian grid topology is consistent", "statement": "create_grid_cart2d/3d (and the hexahedral variants) number cells, faces and nodes bijectively; each cell lists its 4/6 faces with the documented tags, each face lists its two neighbours with -1 outside, a cell lists a face iff the face lists the cell, and the face normal points from the first to the second neighbour.", "quantifier": "all grid dimensions nx, ny, nz >= 1", "why_tests_cant": "Index arithmetic must be consistent for every dimension triple.", "anchors": ["opm/core/grid/cart_grid.c:create_grid_cart2d, create_grid_cart3d, fill_cart_topology_2d, fill_cart_topology_3d"]}
{"id": "C29", "title": "Cartesian grid geometry", "statement": "In a Cartesian grid built with spacings dx, dy, dz the cell volume is dx*dy*dz, face areas, normals and centroids are those of the boxes, and the volumes add up to the bounding box.", "quantifier": "all dimensions and all real spacings", "why_tests_cant": "All sizes at once.", "anchors": ["opm/core/grid/cart_grid.c:fill_cart_geometry_2d, fill_cart_geometry_3d"]}
{"id": "C30", "title": "Parameter groups: inserted parameters are retrieved", "statement": "After ParameterGroup::insertParameter(name, value), the parameter is stored at the path the name spells: a query for that path through get returns value and has returns true; a later insertion at the same path wins; paths that neither extend nor lead to it are unaffected; has is true exactly when something is stored at the path.", "quantifier": "every tree of groups, every sequence of insertions with names whose path components are non-empty (leading, repeated and one trailing slash allowed on insertion), not passing through an existing plain parameter", "why_tests_cant": "Paths of arbitrary depth and arbitrary previous contents.", "anchors": ["opm/core/utility/parameters/ParameterGroup.cpp:insertParameter, has, insert", "opm/core/utility/parameters/ParameterTools.cpp:splitParam"]}
{"id": "C31", "title": "Parameter insertion terminates", "statement": "insertParameter and the parameter-file reader terminate on every name and every file line.", "quantifier": "every string name / every input line", "why_tests_cant": "Non-termination depends on degenerate names (empty, only delimiters) that sample inputs avoid.", "anchors": ["opm/core/utility/parameters/ParameterGroup.cpp:insertParameter, readParam"]}
{"id": "C32", "title": "Parameter lookup falls back to enclosing groups", "statement": "A parameter missing from a group is looked up in the enclosing groups outward; getDefault returns the default exactly when no enclosing group defines it.", "quantifier": "every chain of nested groups", "why_tests_cant": "Any nesting depth.", "anchors": ["opm/core/utility/parameters/ParameterGroup_impl.hpp:get, getDefault, translate"]}
{"id": "C33", "title": "Parameter requirements accept exactly the documented values", "statement": "ParameterRequirementProbability/Positive/Negative/NonPositive/NonNegative/NonZero/Nonempty/MemberOf/And report no error iff the value satisfies the predicate their name and message state.", "quantifier": "every value", "why_tests_cant": "Predicates are over all reals/strings.", "anchors": ["opm/core/utility/parameters/ParameterRequirement.hpp"]}
{"id": "C34", "title": "Deck repeat counts expand to the documented vector", "statement": "readVectorData/readDefaultedVectorData on a record of values with repeat counts n*v and defaults n* produce the concatenation of the expanded items up to the terminating slash and never write outside the caller's buffer.", "quantifier": "every record and every buffer size", "why_tests_cant": "Overshooting repeats appear only for specific count/size combinations.", "anchors": ["opm/core/io/eclipse/EclipseGridParserHelpers.hpp:readVectorData, readDefaultedVectorData"]}
{"id": "C35", "title": "Explicit upwind transport conserves mass", "statement": "One step of spu_explicit changes the saturation of each cell by dt times its water source minus dt times the net outflow of an upstream-weighted water flux carried by interior faces only, so that the total over all cells changes exactly by the contributions of the sources: what leaves one cell through a face enters its neighbour.", "quantifier": "every grid, total flux and gravity flux field, saturation, mobilities, sources and time step", "why_tests_cant": "Conservation is an identity over all meshes and fields.", "anchors": ["opm/core/transport/minimal/spu_explicit.c:spu_explicit"]}
{"id": "C36", "title": "TPFA transmissibilities are the harmonic combination of half-transmissibilities", "statement": "tpfa_trans_compute returns for each face the harmonic combination of the half-transmissibilities of its sides, is positive when these are, is independent of the cell traversal order, and tpfa_eff_trans_compute does the same with mobilities applied.", "quantifier": "every grid topology and all positive half-transmissibilities", "why_tests_cant": "Accumulation over arbitrary cell-face tables.", "anchors": ["opm/core/pressure/tpfa/trans_tpfa.c:tpfa_trans_compute, tpfa_eff_trans_compute"]}
{"id": "C37", "title": "Incompressible TPFA fluxes are locally conservative", "statement": "If x solves the linear system assembled by ifs_tpfa_assemble (non-singular case), the face and well fluxes reported by ifs_tpfa_press_flux satisfy for each cell: net outflow through its faces = its source + boundary inflow + inflow from wells perforating it.", "quantifier": "every grid, transmissibility field, gravity term, wells with admissible controls, boundary conditions and sources", "why_tests_cant": "An algebraic identity between the assembled matrix and the flux reconstruction over all meshes.", "anchors": ["opm/core/pressure/tpfa/ifs_tpfa.c:assemble_incompressible, assemble_well_contrib, assemble_bc_contrib, ifs_tpfa_press_flux, boundary_fluxes, well_solution"]}
{"id": "C38", "title": "Well constraints hold in the incompressible solution", "statement": "If x solves the assembled system, a BHP-controlled well has its target pressure (when its total mobility-weighted index is nonzero), a reservoir-rate controlled well's perforation fluxes add up to its target, and a shut well has zero perforation fluxes and does not influence the cells.", "quantifier": "every well configuration supported by the assembler", "why_tests_cant": "Over all well/cell connectivity patterns.", "anchors": ["opm/core/pressure/tpfa/ifs_tpfa.c:assemble_bhp_well, assemble_rate_well, assemble_shut_well, well_solution"]}
{"id": "C39", "title": "Singular pressure systems are fixed without spoiling conservation", "statement": "When no pressure condition is present and the sources sum to zero, the modified system (first diagonal entry doubled) has only solutions with zero pressure in cell 0 that also solve the original system.", "quantifier": "every grid and every compatible source field", "why_tests_cant": "A statement about all solutions of a family of linear systems.", "anchors": ["opm/core/pressure/tpfa/ifs_tpfa.c:ifs_tpfa_assemble"]}
{"id": "C40", "title": "Pillar point de-duplication keeps every corner within tolerance", "statement": "finduniquepoints succeeds on every grid description with arrays of the right sizes and never leaves its buffers (in particular the coordinate buffer of eight points per cell suffices). On each pillar the points are more than the tolerance apart, are depths of active corners, and include the deepest; each active corner has a point within the tolerance. In a column whose depths do not decrease downwards each active corner is given the number of the first point within the tolerance of it, so corners that coincide share a point.", "quantifier": "all pillars, depth values, activity flags and tolerances >= 0", "why_tests_cant": "Clusters of nearly equal depths of any length can chain.", "anchors": ["opm/core/grid/cpgpreprocess/uniquepoints.c:createSortedList, uniquify, assignPointNumbers"]}
{"id": "C41", "title": "Corner-point cell numbering is a bijection onto the active cells", "statement": "process_grdecl's final compressed numbering lists each non-collapsed cell exactly once in increasing Cartesian order and rewrites face neighbours with the matching local numbers.", "quantifier": "all grid dimensions and all collapse patterns", "why_tests_cant": "Every subset of cells may be collapsed.", "anchors": ["opm/core/grid/cpgpreprocess/preprocess.c:process_horizontal_faces, process_grdecl"]}
{"id": "C42", "title": "Corner-point horizontal faces connect vertically adjacent cells", "statement": "In each column process_horizontal_faces emits for each non-collapsed cell exactly one top face whose lower neighbour is the cell and exactly one bottom face, joining directly stacked cells across collapsed ones and -1 at voids and the ends.", "quantifier": "every column height and every pattern of collapsed cells and gaps", "why_tests_cant": "All 2^n patterns of pinch-outs.", "anchors": ["opm/core/grid/cpgpreprocess/preprocess.c:process_horizontal_faces"]}
{"id": "C43", "title": "ZCORN orientation check and permutation", "statement": "get_zcorn_sign reports no error only if the (sign-adjusted) depths are non-decreasing between vertically adjacent active cells, and the permutation routines copy each value to the position with the vertical index running fastest, a bijection.", "quantifier": "all dimensions and depth arrays", "why_tests_cant": "Index arithmetic over all dimension triples.", "anchors": ["opm/core/grid/cpgpreprocess/preprocess.c:get_zcorn_sign, copy_and_permute_actnum, copy_and_permute_zcorn, ind2sub, linearindex"]}
{"id": "C44", "title": "Coarse grid connections represent the fine inter-block faces exactly", "statement": "coarse_topology_create yields one coarse face per pair of neighbouring blocks (and per block and the outside), with neighbours the two blocks, sub-faces listing exactly the fine faces between them, each once, and blkfacepos/blkfaces listing for each block exactly its coarse faces.", "quantifier": "every fine neighbourship and partition", "why_tests_cant": "All connectivity patterns, binary-insertion hash order etc.", "anchors": ["opm/core/pressure/msmfem/coarse_conn.c:coarse_topology_create, derive_block_faces, coarse_topology_build"]}
{"id": "C45", "title": "Transport source terms account for wells and boundary fluxes", "statement": "computeTransportSource produces for each cell the sum of its explicit source, its boundary inflows and the rates of the perforations in it. Outflow counts in full; explicit and boundary inflow is scaled by the inflow fraction; injection through injectors is scaled by the first-phase fraction of the well; injection through producers is ignored. Previous contents of the output do not matter.", "quantifier": "all grids, source fields, fluxes and wells", "why_tests_cant": "Accumulation over arbitrary incidence.", "anchors": ["opm/core/utility/miscUtilities.cpp:computeTransportSource"]}
{"id": "C46", "title": "Wells-to-source conversion preserves well rates", "statement": "wellsToSrc returns a source vector whose entry for each cell is the total rate of the wells perforating it (the first-phase rate for injectors) and zero elsewhere.", "quantifier": "all well sets satisfying its documented preconditions", "why_tests_cant": "Two wells in one cell or a re-used vector are needed to distinguish assignment from accumulation.", "anchors": ["opm/core/utility/miscUtilities.cpp:wellsToSrc"]}
{"id": "C47", "title": "Two-phase saturation packing round-trips", "statement": "toWaterSat(toBothSat(sw)) = sw, and toBothSat output sums to one per cell.", "quantifier": "all saturation vectors", "why_tests_cant": "All vectors of all lengths.", "anchors": ["opm/core/utility/miscUtilities.cpp:toWaterSat, toBothSat"]}
{"id": "C48", "title": "Per-well phase rates add up", "statement": "computeFlowRatePerWell appends one total per well, the sum over its perforations. computePhaseFlowRatesPerWell gives per well and phase the sum of perforation rate times the fractional flow of the perforated cell. Summed over phases these equal the totals whenever the fractional flows sum to one.", "quantifier": "all well/perforation layouts and phase counts", "why_tests_cant": "All layouts.", "anchors": ["opm/core/utility/miscUtilities.cpp:computeFlowRatePerWell, computePhaseFlowRatesPerWell"]}
{"id": "C49", "title": "Group targets are shared among wells in proportion to guide rates", "statement": "Applying a group rate target gives each eligible child a share proportional to its guide rate and the shares sum to the target.", "quantifier": "every well-group tree with positive total guide rate", "why_tests_cant": "Trees of any depth.", "anchors": ["opm/core/wells/WellsGroup.cpp:applyProdGroupControls, applyInjGroupControls"]}
{"id": "C50", "title": "Vertical column extraction partitions the cells into connected vertical stacks", "statement": "extractColumn returns columns that contain each cell exactly once; all cells of one column share (i,j), appear by increasing k, consecutive cells are face neighbours, and columns are maximal in that order.", "quantifier": "every grid with an injective global cell map and any adjacency", "why_tests_cant": "All gap patterns in all columns.", "anchors": ["opm/core/grid/ColumnExtract.hpp:extractColumn"]}
{"id": "C51", "title": "Monotone cubic interpolation reproduces and respects its data", "statement": "For every MonotCubicInterpolator reached by construction followed by any sequence of addPair, scaleData, shrinkFlatAreas calls and evaluations: evaluate reproduces the data at the nodes, is constant outside the data range, and for monotone data is monotone and never leaves the range of the two neighbouring values; between two nodes it is one cubic. The direction queries are exact and the extreme values are attained until the data are scaled. Data that are not monotone may be overshot.", "quantifier": "every data set and every argument", "why_tests_cant": "Real-valued arguments and all data sets.", "anchors": ["opm/core/utility/MonotCubicInterpolator.cpp:evaluate, computeInternalFunctionData, computeSimpleDerivatives, adjustDerivativesForMonotoneness"]}
{"id": "C52", "title": "Rock compressibility is the logarithmic derivative of the pore-volume multiplier", "statement": "RockCompressibility::rockComp(p) is poroMult'(p)/poroMult(p); poroMult is 1 at the reference pressure and positive.", "quantifier": "every pressure and every table", "why_tests_cant": "All real arguments.", "anchors": ["opm/core/props/rock/RockCompressibility.cpp:poroMult, rockComp"]}
{"id": "C53", "title": "Uniform monotone table construction samples the function", "statement": "buildUniformMonotoneTable(xv, yv, samples, table) yields a uniform table over [xv.front(), xv.back()] whose node values are those of the monotone cubic interpolation of the data at the nodes.", "quantifier": "every data set and sample count >= 2", "why_tests_cant": "All sizes.", "anchors": ["opm/core/utility/buildUniformMonotoneTable.hpp:buildUniformMonotoneTable"]}
{"id": "C54", "title": "Parameter files round-trip", "statement": "Writing a ParameterGroup with writeParam and reading the file with readParam into an empty group gives a group with the same value at every path, as long as names and values contain no '=', no line break and no comment marker, and no group is empty.", "quantifier": "every such tree of groups, of any depth and width", "why_tests_cant": "Trees of arbitrary shape; the interaction of the path separator with the comment marker needs all names.", "anchors": ["opm/core/utility/parameters/ParameterGroup.cpp:readParam, writeParam, writeParamToStream"]}
{"id": "C55", "title": "Command-line parameters override parameter files", "statement": "If the command line contains name=value, the parameter at that path has that value after ParameterGroup::parseCommandLine, whatever the parameter files on the command line contain and wherever they stand, unless a later assignment on the command line touches the same path.", "quantifier": "every argument list, every content of the files", "why_tests_cant": "All orders of files and assignments and all file contents.", "anchors": ["opm/core/utility/parameters/ParameterGroup_impl.hpp:parseCommandLineArguments, ParameterGroup"]}
{"id": "C56", "title": "The pressure system has exactly one solution", "statement": "With nonnegative transmissibilities, if each cell is linked through faces and rate-well connections of positive transmissibility to a pressure condition or a pressure-controlled well (or, in the modified singular system, to cell 0; or the rock is compressible in every cell) and each well has a connection of positive transmissibility, the system assembled by ifs_tpfa_assemble / ifs_tpfa_assemble_comprock has exactly one solution.", "quantifier": "every mesh, wells, boundary conditions, sources and coefficients with the stated connectivity", "why_tests_cant": "Regularity of a family of matrices of unbounded size; a solver run on a few meshes cannot show it.", "anchors": ["opm/core/pressure/tpfa/ifs_tpfa.c:ifs_tpfa_assemble, ifs_tpfa_assemble_comprock"]}
{"id": "C57", "title": "Compressible-rock pressure steps conserve volume", "statement": "If x solves the system of ifs_tpfa_assemble_comprock, the fluxes of ifs_tpfa_press_flux balance, in each cell, source plus well inflow minus pore volume * rock compressibility * pressure change / dt. If dx solves the system of ifs_tpfa_assemble_comprock_increment, the fluxes at prev + dx balance source plus well inflow minus (pore volume linearised at prev - initial pore volume) / dt.", "quantifier": "every mesh, forces, pore volumes, compressibilities, nonzero time step, previous pressures", "why_tests_cant": "An algebraic identity between assembly and flux reconstruction over all meshes and all Newton iterates.", "anchors": ["opm/core/pressure/tpfa/ifs_tpfa.c:ifs_tpfa_assemble_comprock, ifs_tpfa_assemble_comprock_increment, mult_csr_matrix, ifs_tpfa_press_flux"]}
{"id": "C58", "title": "Pore volumes and porosities are consistent", "statement": "computePorevolume gives porosity times cell volume for each cell; with rock compressibility, times the pore volume multiplier at the cell pressure; and what computePorosity returns, times the cell volume, is that pore volume.", "quantifier": "all meshes, porosity fields, pressures and rock models", "why_tests_cant": "All meshes and fields.", "anchors": ["opm/core/utility/miscUtilities.cpp:computePorevolume, computePorosity"]}
{"id": "C59", "title": "Average saturations are weighted means", "statement": "computeSaturatedVol returns per phase the pore volume it occupies; computeAverageSat divides by the total pore volume, so each average lies between the least and greatest saturation of that phase in any cell; both reject vectors whose lengths do not match.", "quantifier": "all pore volume and saturation vectors, any number of phases", "why_tests_cant": "All lengths and phase counts.", "anchors": ["opm/core/utility/miscUtilities.cpp:computeSaturatedVol, computeAverageSat"]}
{"id": "C60", "title": "Mobilities and fractional flows", "statement": "computeTotalMobility returns the sum over phases of relative permeability over viscosity per cell; computeTotalMobilityOmega the mobility-weighted mean density; computeFractionalFlow the phase mobilities divided by their sum, hence numbers that sum to one per cell.", "quantifier": "all fluids with positive viscosities, all cell lists and saturations", "why_tests_cant": "All fluids and cell lists.", "anchors": ["opm/core/utility/miscUtilities.cpp:computeTotalMobility, computeTotalMobilityOmega, computeFractionalFlow, computePhaseMobilities"]}
{"id": "C61", "title": "Injected and produced volumes account for all sources", "statement": "computeInjectedProduced returns per phase the injected volume (first phase only) and the produced volume, split by the fractional flow of the cell; injected minus produced summed over phases equals time step times the sum of all sources.", "quantifier": "all meshes, source vectors, saturations and fluids", "why_tests_cant": "Any mixture of sinks and sources in any cells.", "anchors": ["opm/core/utility/miscUtilities.cpp:computeInjectedProduced"]}
{"id": "C62", "title": "Cell velocities are exact for uniform flow", "statement": "estimateCellVelocity returns, for fluxes of a uniform velocity field on cells whose faces close up, exactly that velocity in each cell; on Cartesian boxes the condition always holds.", "quantifier": "all meshes, dimensions, geometries and uniform fields", "why_tests_cant": "All meshes and dimensions.", "anchors": ["opm/core/utility/miscUtilities.cpp:estimateCellVelocity"]}
{"id": "C63", "title": "Transport sources close the volume balance", "statement": "If the fluxes, explicit sources and perforation rates conserve volume in each cell and all that is injected is the first phase, the vector from computeTransportSource equals the net outflow of each cell through interior faces.", "quantifier": "all valid meshes, wells and conservative fluxes", "why_tests_cant": "All meshes with any number of wells and boundary faces.", "anchors": ["opm/core/utility/miscUtilities.cpp:computeTransportSource"]}
{"id": "C64", "title": "Well pressure offsets", "statement": "computeWDP appends one number per perforation: the saturation-weighted density (of the perforated cell or of the perforation) times depth below the well reference depth times gravity; that density lies between the least and greatest phase density.", "quantifier": "all wells, saturations, densities, with saturations given per cell or per perforation", "why_tests_cant": "All wells and both indexing modes.", "anchors": ["opm/core/utility/miscUtilities.cpp:computeWDP"]}
{"id": "C65", "title": "Points of a corner-point grid lie on their pillars", "statement": "Every point finduniquepoints creates lies on the line through the two end points of its pillar, at the depth of an active corner; for a pillar whose ends have the same depth it lies straight above or below the first end.", "quantifier": "all grids and pillars", "why_tests_cant": "All pillar geometries, including degenerate ones.", "anchors": ["opm/core/grid/cpgpreprocess/uniquepoints.c:interpolate_pillar, finduniquepoints"]}
{"id": "C66", "title": "Faces between faulted stacks", "statement": "Along a pair of pillars findconnections makes exactly one face for each pair of layers (cell or gap, not both gaps) of the two stacks whose interiors overlap in the plane between the pillars, in lexicographic order, with the two cell numbers as neighbours (-1 for a gap) and the corners of the common part, in cyclic order, as its points; each crossing of two lines is recorded once with the four points that define it and is used with the same number by all faces that meet there; nothing outside the buffers is touched.", "quantifier": "all pairs of stacks with any number of layers, collapsed layers, gaps and crossings, all depths compatible with the point numbers", "why_tests_cant": "Unboundedly many layers and fault patterns.", "anchors": ["opm/core/grid/cpgpreprocess/facetopology.c:findconnections, computeFaceTopology, faceintersection"]}
{"id": "C67", "title": "Faces of a cell cover its side", "statement": "Every point of the side of a cell that is not on a line of the neighbouring stack lies inside exactly one layer of that stack, and findconnections has made the face between the two, so no part of a side is without a face and no part belongs to two.", "quantifier": "all pairs of stacks, all cells, all points of the side", "why_tests_cant": "A continuum of points and unbounded stacks.", "anchors": ["opm/core/grid/cpgpreprocess/facetopology.c:findconnections"]}
{"id": "C68", "title": "Faces are simple polygons", "statement": "Every face made by findconnections has at least three and at most six points, all different, when points of the two pillars have different numbers.", "quantifier": "all pairs of stacks", "why_tests_cant": "The code only has a debugging print for repeated nodes; all fault patterns matter.", "anchors": ["opm/core/grid/cpgpreprocess/facetopology.c:computeFaceTopology"]}
{"id": "C69", "title": "Faces between corner-point cells of neighbouring columns", "statement": "Two cells of a processed corner-point grid share a face of tag 0 or 1 if and only if their columns are neighbours in that direction and, at the depths given, the sides facing each other have a part in common; they never share two faces.", "quantifier": "all proper inputs of process_grdecl (any dimensions, depths sorted along pillars, activity flags) for which it succeeds", "why_tests_cant": "All fault throws, including crossing lines, on all grid sizes.", "anchors": ["opm/core/grid/cpgpreprocess/preprocess.c:process_grdecl, process_vertical_faces", "opm/core/grid/cpgpreprocess/facetopology.c:findconnections"]}
{"id": "C70", "title": "Nodes of processed corner-point grids lie on their pillars", "statement": "Each corner of an active cell is represented by a node on the pillar of the corner, not more than the tolerance above or below the corner.", "quantifier": "all proper inputs of process_grdecl for which it succeeds", "why_tests_cant": "Depends on all coordinates, tolerances and on the sign convention of depths.", "anchors": ["opm/core/grid/cpgpreprocess/preprocess.c:process_grdecl", "opm/core/grid/cpgpreprocess/uniquepoints.c:finduniquepoints"]}
{"id": "C71", "title": "Corner-point processing does not fail on proper input", "statement": "process_grdecl, given arrays of the right sizes, depths sorted along the pillars and at least one active cell of nonzero thickness, never accesses memory outside its arrays and produces a grid.", "quantifier": "all proper inputs of process_grdecl and all contents of fresh memory", "why_tests_cant": "Array capacities are guessed and enlarged; the number of crossings depends on all depths.", "anchors": ["opm/core/grid/cpgpreprocess/preprocess.c:process_grdecl, checkmemory"]}
{"id": "C72", "title": "The condition check reports exactly the broken well and group limits", "statement": "conditionsMet answers true exactly when every well honours all controls it is not currently operated on and every group honours its rate limits (up to the code's tolerance for limits it operates on); when only wells are in breach, the first such well, and no other, is switched to the first of its broken controls.", "quantifier": "every group tree, every wells structure reachable through its interface, every vector of pressures and rates", "why_tests_cant": "Trees of any depth and any combination of controls and rates.", "anchors": ["opm/core/wells/WellsGroup.cpp:WellsGroup::conditionsMet, WellNode::conditionsMet", "opm/core/wells/WellCollection.cpp:conditionsMet"]}
{"id": "C73", "title": "The phase numbering made from a deck is consistent", "statement": "phaseUsageFromDeck accepts exactly the decks with oil and at least one other of water and gas; the phases in use then occupy each of the positions 0..num_phases-1 exactly once, in the order water, oil, gas.", "quantifier": "every combination of the WATER, OIL and GAS keywords, and every numbering so made", "why_tests_cant": "Everything indexing rates by phase rests on the bijection.", "anchors": ["opm/core/props/phaseUsageFromDeck.hpp:phaseUsageFromDeck"]}
{"id": "C74", "title": "Reinjection and voidage replacement give injectors what the group produces", "statement": "applyExplicitReinjectionControls on a group with mode REIN (VREP) gives its injectors together the prescribed fraction of the group's produced surface volume of the injected phase (of its produced reservoir volume), split in proportion to injection guide rates; no other well is changed.", "quantifier": "every group tree below the reinjecting group, every vector of rates", "why_tests_cant": "Trees of any depth, all rates.", "anchors": ["opm/core/wells/WellsGroup.cpp:applyExplicitReinjectionControls, getTotalProductionFlow"]}
{"id": "C75", "title": "Wells read from a deck are what the deck says", "statement": "When WellsManager is constructed from a deck that it accepts, there is exactly one well for each name in WELSPECS, in order of first appearance, and each well has the name and the reference depth of its last WELSPECS record (the depth of its highest perforated cell if defaulted), one perforation for each layer its COMPDAT records ask for, in that order, in the active cell with that Cartesian position and with the given or computed connection factor, the type fixed by WCONINJE/WCONPROD, exactly the limits of its last control record with the proper signs and phase weights, the current control of the mode of that record (complemented if shut, after all WELOPEN records), and the injected fluid.", "quantifier": "all decks (any number of records of each keyword, any names and templates, repeated and interleaved records), all grids with or without inactive cells, all permeability fields and well models", "why_tests_cant": "the outcome depends on the interplay of seven keywords with arbitrary record lists, name templates, defaults and repetitions; tests can only cover some combinations", "anchors": ["opm/core/wells/WellsManager.cpp: WellsManager::WellsManager", "opm/core/wells/WellsManager.cpp: getCubeDim", "opm/core/wells/WellsManager.cpp: ProductionControl::mode, InjectionControl::mode"]}
{"id": "C76", "title": "Which decks the well manager accepts", "statement": "Construction of WellsManager from a deck succeeds if and only if the grid is three-dimensional, at least two phases including oil are active, control records exist, WELTARG is absent, every COMPDAT record fits a declared well and asks only for active cells whose connection factor can be computed, every control record names a declared well of its kind literally and has a usable mode, available phases and no tubing head limit, every declared well has a control record, and WELOPEN records name declared wells and say OPEN or SHUT. There are no wells exactly if WELSPECS or COMPDAT is missing.", "quantifier": "all decks, all grids whose arrays have the proper lengths", "why_tests_cant": "acceptance is a condition on all records together; a test shows it for single decks only, in particular it cannot show that no other deck is rejected", "anchors": ["opm/core/wells/WellsManager.cpp: WellsManager::WellsManager"]}
{"id": "C77", "title": "The group hierarchy of a deck is built as the deck says", "statement": "For a deck whose wells have different names and whose groups are neither wells nor members of themselves, the collection of WellsManager is a forest in which every name occurs once, the children of every group are exactly the wells whose WELSPECS record names it and the groups whose last GRUPTREE record names it, wells are numbered in the order of WELSPECS, and every group and well has the modes and limits of the last record about it, whatever the order of the records.", "quantifier": "all decks with such a hierarchy, of any depth and with records in any order", "why_tests_cant": "the tree is assembled from a map sorted by child name, so parents may be created before or after their members and roots are moved under later parents; only an invariant over all insertion orders shows the final tree is the one described", "anchors": ["opm/core/wells/WellCollection.cpp: WellCollection::addChild, findNode", "opm/core/wells/WellsGroup.cpp: createWellsGroup", "opm/core/wells/WellsManager.cpp: WellsManager::WellsManager"]}
{"id": "C78", "title": "Group targets of a deck reach the wells", "statement": "After construction of WellsManager from a deck that can be read and whose group targets can be shared, every producer below a group with a production target operates on a control whose target is minus its share of the group's limit, in proportion to the guide rates of the last WGRUPCON records (one if absent) among all producers below the group at any depth, with the phases of the group's mode; injectors likewise for injection targets; and every well below no such group has exactly the perforations, controls and state its own records describe.", "quantifier": "all readable decks with sharable group targets, all grids with proper arrays, all group hierarchies", "why_tests_cant": "it links records of nine keywords through tree building, numbering of wells, guide rates and the control arrays of the C structure; each new combination of hierarchy and records is a different path", "anchors": ["opm/core/wells/WellsManager.cpp: WellsManager::WellsManager", "opm/core/wells/WellCollection.cpp: WellCollection::addChild, applyGroupControls", "opm/core/wells/WellsGroup.cpp: createWellsGroup, WellsGroup::applyProdGroupControls, applyInjGroupControls, WellNode::applyProdGroupControl, applyInjGroupControl"]}
{"id": "C79", "title": "Tables in a deck are read column by column, with gaps interpolated", "statement": "Reading PVT or relative permeability tables from deck text yields, for every number of tables and any layout with blanks and comments, one table per record (dead fluids, rock tables, relative permeabilities) or one table per slash-terminated group of records (live fluids), in order and after any tables already held. Columns hold the record's values row by row. In relative permeability tables a missing value is replaced by the value on the line through its neighbouring values in the same column (through the first or last two if it lies outside), given values are unchanged, and a column without values becomes zero. The next keyword is left unread for the next reader.", "quantifier": "every list of well-formed tables, any values, blanks, comments and remarks, any number of columns, followed by a keyword or the end of the file", "why_tests_cant": "the text of decks, the number of tables and the pattern of missing values are unbounded; tests read a few decks", "anchors": ["opm/core/io/eclipse/EclipseGridParserHelpers.hpp: readPvtTable, readPvdTable, readSGWOF, readRelPermTable, insertDefaultValues, next_action"]}
{"id": "C80", "title": "Time of flight solves the upwind equations", "statement": "TofReorder::solveTof (single-point upwinding), for fluxes without circulation where something leaves every cell, returns for each cell the time of flight satisfying: time of flight times what leaves the cell (through faces and sinks) equals pore volume plus, for each neighbour feeding the cell, the flow rate times the neighbour's time of flight; fluid from sources and the boundary enters with time zero. This is the only solution, and it is positive when pore volumes are. Sources that do not nearly add up to zero are rejected.", "quantifier": "every valid mesh, every flux field without circulation, all pore volumes and sources", "why_tests_cant": "meshes, fluxes and the order of cells are unbounded; a test compares one flow field", "anchors": ["opm/core/tof/TofReorder.cpp: solveTof, solveSingleCell, solveMultiCell", "opm/core/transport/reorder/ReorderSolverInterface.cpp: reorderAndTransport"]}
{"id": "C81", "title": "Tracers partition the flow between sources", "statement": "TofReorder::solveTofTracer returns one tracer per cell with a source: one in its own source cell, zero in other source cells, transported by the upwind equation elsewhere. When volume is conserved and nothing enters through the boundary, the tracers are nonnegative and add up to one in every cell. The times of flight are those of solveTof.", "quantifier": "every valid mesh, every flux field without circulation, all sources", "why_tests_cant": "meshes, fluxes and source patterns are unbounded", "anchors": ["opm/core/tof/TofReorder.cpp: solveTofTracer, solveSingleCell"]}
{"id": "C82", "title": "Implicit two-phase transport solves the upwind equations", "statement": "TransportSolverTwophaseReorder::solve returns, for saturations in [0,1] and proper fluids, water saturations in [0,1] (oil is the rest) such that in every cell the implicit upwind equation holds up to the tolerance of the root finder, unless the root finder ran out of iterations in the cell. The root is always bracketed, so the result never comes from a failed bracketing. It uses the new saturations of all upstream cells; within a group of cells in circulation they may be off by 300e-9. It throws only when fluid circulates and the sweeps do not converge. Without circulation the change of the total volume of water equals injection minus production up to the residuals.", "quantifier": "every valid mesh, every flux field, all sources, pore volumes, time steps and relative permeability functions", "why_tests_cant": "meshes, fluxes, fluids and orders of solution are unbounded; a test compares one displacement", "anchors": ["opm/core/transport/reorder/TransportSolverTwophaseReorder.cpp: solve, Residual, solveSingleCell, solveMultiCell, fracFlow", "opm/core/utility/RootFinders.hpp: RegulaFalsi"]}
{"id": "C83", "title": "Gravity segregation solves the column equations", "statement": "The gravity step of the two-phase reordering transport solver treats every vertical column of cells by implicit segregation: it either throws for lack of convergence, storing nothing, or every water saturation stays within the range the fluid gives for its cell, water and oil add up to one, and in every cell the change of water equals what is exchanged with the cell above and the cell below (each phase with the mobility of the cell it comes from) up to the tolerance, with neighbour saturations that differ from the stored ones by at most two tolerances. Hence the water in a column is conserved up to an amount bounded by the tolerances. The driving force of a face is transmissibility times density difference times difference of gravity potential, zero on the boundary, so heavier water moves downwards.", "quantifier": "all valid meshes, columns, gravity vectors, densities, transmissibilities, pore volumes, time steps, tolerances, iteration limits and fluids whose mobilities are not negative and vanish at the ends of the saturation range", "why_tests_cant": "Tests run a few columns with one fluid; the bound on the neighbour lag and the guarantee that the scalar solver always has a bracket must hold for every fluid, flux and time step.", "anchors": ["opm/core/transport/reorder/TransportSolverTwophaseReorder.cpp: solveGravity, solveGravityColumn, solveSingleCellGravity, initGravity, GravityResidual"]}
{"id": "C84", "title": "Fluid properties of many points are those of the single points", "statement": "For every kind of fluid (dead, constant compressibility, live oil, live gas) a call for n points of viscosity, formation volume factor, solution factor or their derivatives succeeds exactly if each single-point call with the pressure and surface volumes of that point succeeds, and then returns exactly those values, in order. What was in the output arrays does not matter.", "quantifier": "every fluid, every number of points, all pressures, surface volumes and previous contents of the output arrays", "why_tests_cant": "A test compares a few points; an index error depends on the number of phases and points.", "anchors": ["opm/core/props/pvt/SinglePvtInterface.hpp", "opm/core/props/pvt/SinglePvtDead.cpp:mu,B,dBdp,R,dRdp", "opm/core/props/pvt/SinglePvtConstCompr.hpp", "opm/core/props/pvt/SinglePvtLiveOil.cpp", "opm/core/props/pvt/SinglePvtLiveGas.cpp"]}
{"id": "C85", "title": "Dead fluids reproduce their tables, and their derivatives are slopes", "statement": "A dead fluid built from a table of increasing pressures, nonzero formation volume factors and viscosities returns the tabulated values at the tabulated pressures and values between neighbouring ones elsewhere within the table; between table pressures the derivative it returns is the slope of the formation volume factor it returns. The variant resampled at equal spacing returns the first or last tabulated formation volume factor outside of the table; if the tabulated factors never increase with pressure, the returned ones never increase either and stay positive and between the tabulated extremes, and its derivative is the slope between samples. The solution factor is zero.", "quantifier": "every table with increasing pressures and positive values, every pressure, every number of samples", "why_tests_cant": "Tests evaluate a few pressures of one table.", "anchors": ["opm/core/props/pvt/SinglePvtDead.cpp", "opm/core/props/pvt/SinglePvtDeadSpline.cpp", "opm/core/utility/NonuniformTableLinear.hpp", "opm/core/utility/UniformTableLinear.hpp", "opm/core/utility/buildUniformMonotoneTable.hpp"]}
{"id": "C86", "title": "Fluids of constant compressibility", "statement": "A fluid of constant compressibility returns its reference values at the reference pressure, stays positive at every pressure, and returns as derivative of the formation volume factor the exact slope of the formation volume factor it returns; with positive compressibility the formation volume factor never grows with pressure.", "quantifier": "every table line and every pressure", "why_tests_cant": "Tests look at a few pressures near the reference, where the quadratic approximation behaves.", "anchors": ["opm/core/props/pvt/SinglePvtConstCompr.hpp"]}
{"id": "C87", "title": "Live oil reproduces its table, dissolves no more gas than there is, and its derivatives are slopes", "statement": "A live oil built from a table whose dissolved gas, bubble points and pressures increase (pressures by more than one unit), whose formation volume factors are positive and whose last record has undersaturated points, can always be built, although other records may have a bubble point only. It returns every tabulated formation volume factor, viscosity and dissolved gas for oil with exactly the gas of the record at the pressure of the point; with more gas than can be dissolved it returns the interpolated values of the bubble points; the dissolved gas is the saturated amount or all the gas there is, if less; away from tabulated pressures and from the bubble point of the mixture the derivatives returned are the slopes of the values returned; if in every record oil gets denser and more viscous with pressure, so does undersaturated oil between them.", "quantifier": "every such table with any number of records and points, every pressure, all surface volumes with oil present", "why_tests_cant": "The filling of missing undersaturated data depends on the whole pattern of records with and without data; tests try one table.", "anchors": ["opm/core/props/pvt/SinglePvtLiveOil.cpp", "opm/core/props/pvt/SinglePvtLiveOil.hpp"]}
{"id": "C88", "title": "Live gas reproduces its table, vaporises no more oil than there is, and its derivatives are slopes", "statement": "A live gas built from a table with at least two records of increasing pressure, each with at least two points of decreasing vaporised oil, returns every tabulated formation volume factor, viscosity and amount of vaporised oil for gas with the oil of the point at the pressure of the record. With more oil than can be vaporised it returns the interpolated values of the saturated points; undersaturated gas has the mean of the two neighbouring records at its own amount of oil, and outside of the table the values of the first or last record. The vaporised oil is the saturated amount, or all the oil there is if less; without gas the formation volume factor is one. Away from tabulated pressures and the dew point of the mixture the derivatives returned within the table are the slopes of the values returned.", "quantifier": "every such table with any number of records and points, every pressure, all surface volumes", "why_tests_cant": "Which of the branches applies depends on pressure, volumes and the whole table; tests try a few points of one table.", "anchors": ["opm/core/props/pvt/SinglePvtLiveGas.cpp", "opm/core/props/pvt/SinglePvtLiveGas.hpp"]}
{"id": "C89", "title": "All fluids of a black-oil deck answer like the single fluids of its keywords", "statement": "Initialising the black-oil fluids from a deck needs oil together with water or gas and the keyword DENSITY, and orders the phases used water, oil, gas. Each phase gets the fluid of its keyword (PVTW or incompressible water; PVDO before PVTO before PVCDO; PVDG before PVTG) and its surface density from DENSITY. For any number of points, viscosity, formation volume factor, solution factor and their derivatives of a phase at a point are stored at (number of phases)*(point)+(phase), and are exactly what the fluid of this phase gives for that pressure and the volumes of that point alone; the call succeeds exactly if all of these are defined. This holds if the deck has gas or no live oil; live oil without gas reads outside of the volumes of a point.", "quantifier": "every deck, every number of points, all pressures and surface volumes", "why_tests_cant": "Tests look at one deck and a few points; a result of another point or phase in the wrong place shows only for some counts and orders of phases.", "anchors": ["opm/core/props/phaseUsageFromDeck.hpp", "opm/core/props/pvt/BlackoilPvtProperties.cpp", "opm/core/props/BlackoilPropertiesFromDeck.cpp:viscosity"]}
{"id": "C90", "title": "The matrix from reservoir to surface volumes, its derivative, and the mass of phases", "statement": "The matrix of a point, column by column, has 1/B of each phase on the diagonal, R/B for gas in oil and oil in gas if both are present, and zeros elsewhere, with the B and R of that point; it exists exactly if all of these do. Where the derivatives of B and R are slopes, the returned derivative of each entry is the slope of this entry as a function of pressure. The density of a phase is the sum of its column weighted with the surface densities, so that the mass of any reservoir volumes counted by phases equals the mass of the corresponding surface volumes counted by components.", "quantifier": "every set of fluids as initialised, every number of points, all pressures and volumes", "why_tests_cant": "The derivative is computed in place in three steps; an error in one entry is seen only for certain combinations of live oil and live gas.", "anchors": ["opm/core/props/BlackoilPropertiesFromDeck.cpp:matrix", "opm/core/props/BlackoilPropertiesFromDeck.cpp:density", "opm/core/props/BlackoilPropertiesBasic.cpp:density"]}
{"id": "C91", "title": "Constant fluids and incompressible fluids of a deck give the given data", "statement": "Fluids of constant properties can be made for one to three phases and return for every point the given viscosities, unit formation volume factors, the identity matrix and a zero derivative of it. Incompressible fluids of a deck with exactly water and oil and DENSITY, PVTW and PVCDO return the surface densities, the densities divided by the formation volume factors and the viscosities of these keywords; other decks are rejected.", "quantifier": "every number of phases and points, all data, every deck", "why_tests_cant": "Tests use two phases and few points; three phases are accepted but the matrix then fails an assertion.", "anchors": ["opm/core/props/pvt/PvtPropertiesBasic.cpp", "opm/core/props/BlackoilPropertiesBasic.cpp", "opm/core/props/pvt/PvtPropertiesIncompFromDeck.cpp"]}
{"id": "C92", "title": "Derivatives of relative permeabilities and capillary pressures are their slopes", "statement": "For every model of saturation functions and every two- or three-phase set of tables, the matrix of derivatives returned together with the relative permeabilities (entry (i,j) is the derivative of phase i by saturation j, column by column) gives, along every change of saturations that keeps their sum, the slope of the relative permeability of each phase as returned without derivatives, and the values returned are the same; likewise for capillary pressures. Shown for two phases in general; for three phases with the simple model where the oil value is not clipped, with the segregated model above connate water, and with Stone's second model for water and gas and for oil along changes of water; the remaining cases are false in the code and have counterexamples.", "quantifier": "all tables, all saturations at which the tables have a slope, all directions", "why_tests_cant": "Tests compare derivatives with differences at a few points; wrong entries at clipped or connate saturations, or one wrong column, stay unnoticed.", "anchors": ["opm/core/props/satfunc/SatFuncSimple.cpp:evalKrDeriv", "opm/core/props/satfunc/SatFuncGwseg.cpp:evalKrDeriv", "opm/core/props/satfunc/SatFuncStone2.cpp:evalKrDeriv", "opm/core/props/satfunc/SatFuncSimple.cpp:evalPcDeriv"]}
{"id": "C93", "title": "Saturation functions reproduce the tables of the deck and its critical saturations", "statement": "With two phases, at every saturation of a row of SWOF (or SGOF) the relative permeabilities and capillary pressure are those of the row; between rows they neither leave the values of the neighbouring rows nor change the direction of the table. The connate, maximal and critical saturations found for a table are right: water is immobile exactly up to the critical water saturation, oil exactly from one minus the critical oil saturation on, and the stored end values are those of the functions there. With three phases, all models give the water-oil table without gas (Stone's model with negative values cut off), the segregated model gives the gas-oil table at connate water and lies between the tables otherwise, and capillary pressures are those of both tables.", "quantifier": "all tables with increasing saturations, all rows and saturations", "why_tests_cant": "Tests use one table and a few saturations.", "anchors": ["opm/core/props/satfunc/SatFuncSimple.cpp:init", "opm/core/props/satfunc/SatFuncSimple.cpp:evalKr", "opm/core/props/satfunc/SatFuncGwseg.cpp:evalKr", "opm/core/props/satfunc/SatFuncStone2.cpp:evalKr"]}
{"id": "C94", "title": "Every cell uses the saturation functions of its region", "statement": "Initialising saturation functions from a deck needs oil with water or gas, the tables of these phases in equal number, and not fewer than the largest region number of SATNUM; each table becomes one set of functions, and each cell uses the set with the number at its position in the deck (the first set without SATNUM). For any number of points, relative permeabilities, capillary pressures, their derivatives and saturation ranges of point i are those of its cell at the saturations of point i, in block i of the result; nothing else is written, and the call succeeds exactly if each point does. A region number below one is undefined.", "quantifier": "every deck, grid with or without inactive cells, number of points, cells and saturations", "why_tests_cant": "Mixing points, cells and positions in the deck is invisible in tests with one region or without inactive cells.", "anchors": ["opm/core/props/satfunc/SaturationPropsFromDeck_impl.hpp:init", "opm/core/props/satfunc/SaturationPropsFromDeck_impl.hpp:relperm", "opm/core/props/satfunc/SaturationPropsFromDeck_impl.hpp:capPress", "opm/core/props/satfunc/SaturationPropsFromDeck_impl.hpp:satRange"]}
{"id": "C95", "title": "End-point scaling honours the end points of each cell", "statement": "With end-point scaling each quantity of a cell comes from its keyword at the position of the cell in the deck, or from the table of depths of its region within the depths of the table, and is that of the saturation functions otherwise. Water is immobile exactly up to the critical saturation of the cell and has its largest relative permeability from the maximal saturation of the cell on; the same for oil; both never decrease with their own saturation; with three-point scaling, the relative permeability at the saturation where the other phase becomes immobile in the cell is the one of the table at that point. With given values of relative permeability, the values at these points are the given ones and values between are rescaled linearly. Derivatives are refused. The claim for given values fails for water where the largest saturation is the one at which oil becomes immobile.", "quantifier": "all tables and end points in the right order, all cells and saturations", "why_tests_cant": "There are many combinations of given and missing quantities; tests look at few of them.", "anchors": ["opm/core/props/satfunc/SaturationPropsFromDeck_impl.hpp:initEPS", "opm/core/props/satfunc/SaturationPropsFromDeck_impl.hpp:relpermEPS"]}
{"id": "C96", "title": "Formula saturation functions: values, diagonal derivatives, no capillary pressure", "statement": "The basic saturation functions accept one or two phases and constant (one phase only), linear or quadratic relative permeabilities and reject everything else. For any number of points, every result is 1, s or s^2 of the saturation at the same place; the derivative matrix of each point has the slope of each phase on the diagonal and zeros elsewhere whatever was in the array; capillary pressures and their derivatives are zero; saturations range from 0 to 1.", "quantifier": "all parameters, numbers of points and saturations, any previous content of arrays", "why_tests_cant": "Tests use a few points in fresh arrays.", "anchors": ["opm/core/props/satfunc/SaturationPropsBasic.cpp"]}
{"id": "C97", "title": "Porosity and permeability of a deck", "statement": "For every deck and grid, the porosity of a cell is PORO at its position in the deck (1 without PORO), and its permeability is a symmetric tensor with non-negative diagonal: PERMX/PERMY/PERMZ on the diagonal, with a missing one taken from the first one given, and off the diagonal the given component or its mirror image. Decks with a component off the diagonal but without those of its row and column on the diagonal are rejected, and no others.", "quantifier": "all sets of keywords PORO, PERM??, all values, all grids with and without a map to the deck", "why_tests_cant": "2^9 sets of keywords and any number of cells and positions", "anchors": ["opm/core/props/rock/RockFromDeck.cpp: init, assignPorosity, assignPermeability, classifyPermeability, fillTensor"]}
{"id": "C98", "title": "Constant rock and properties of incompressible problems", "statement": "For every number of dimensions and cells, constant rock has the given porosity and a permeability tensor with the given value on the diagonal and zero elsewhere; incompressible properties report the densities, viscosities and phases they were given, in the documented units, are accepted exactly for the documented numbers of phases and names, and, from a deck, are exactly those of rock, fluid and saturation functions.", "quantifier": "all numbers of dimensions, cells and phases, all data, decks and grids", "why_tests_cant": "unbounded numbers of dimensions and cells and arbitrary decks", "anchors": ["opm/core/props/rock/RockBasic.cpp: init", "opm/core/props/IncompPropertiesBasic.cpp: IncompPropertiesBasic", "opm/core/props/IncompPropertiesFromDeck.cpp: IncompPropertiesFromDeck"]}
{"id": "C99", "title": "Initial states from parameters are in equilibrium", "statement": "initStateBasic for incompressible two-phase properties gives, for any grid whose arrays fit and for any previous contents of the state: with water_oil_contact, the largest water saturation below the contact, the smallest above and hydrostatic pressure around it; with segregation testing the mirror image with exchanged densities; with init_saturation that saturation everywhere and the weight of the mixture; without parameters the smallest water saturation and the weight of oil; with convection testing water on the left at constant pressure. Saturations of a cell sum to one, and the pressure of a face is that of its cell at the boundary and the inverse-distance mean between two cells. Other numbers of phases, and segregation without a contact, are rejected.", "quantifier": "all grids, properties, parameters, gravities and previous states", "why_tests_cant": "The claim is about every cell and face of every grid and each combination of parameters; tests look at one small grid.", "anchors": ["opm/core/simulator/initState_impl.hpp:initStateBasic", "opm/core/simulator/initState_impl.hpp:initHydrostaticPressure", "opm/core/simulator/initState_impl.hpp:initFacePressure", "opm/core/simulator/TwophaseState.hpp:TwophaseState"]}
{"id": "C100", "title": "Initial states from a deck, and their surface volumes", "statement": "initStateFromDeck takes pressures and saturations of a cell from the deck at the cell's logical position, with the remaining phase filling the rest, so that saturations sum to one; with EQUIL for water and oil it gives the contact and the hydrostatic pressure of incompressible fluids from the datum. Decks with a missing array, with several equilibration regions, with gas in EQUIL or with other phases than the properties are rejected. initBlackoilSurfvol gives each cell its matrix applied to its saturations. WellState starts from the pressure target of a well, or the pressure of its first perforated cell.", "quantifier": "all grids, decks, property matrices and wells", "why_tests_cant": "Must hold for every active-cell mapping, phase combination and well control; a test fixes one deck.", "anchors": ["opm/core/simulator/initState_impl.hpp:initStateFromDeck", "opm/core/simulator/initState_impl.hpp:initBlackoilSurfvol", "opm/core/simulator/WellState.hpp:WellState::init"]}
{"id": "C101", "title": "Initial pressures of compressible fluids are hydrostatic", "statement": "The pressure with which cells of black-oil fluids are initialised is the hydrostatic one for contact and datum: it is interpolated from points obtained from the density by explicit Euler steps, which for fluids of constant density are exactly those of the hydrostatic pressure, throughout the depths of the grid, wherever the datum is and also without a contact.", "quantifier": "all grids, fluids, contacts and data", "why_tests_cant": "Depends on the relative position of datum, contact and grid for all depths and densities.", "anchors": ["opm/core/simulator/initState_impl.hpp:initHydrostaticPressure", "opm/core/simulator/initState_impl.hpp:initStateBasic"]}
{"id": "C102", "title": "Face normals, areas and centroids", "statement": "compute_face_geometry gives every face of a three-dimensional grid the vector area of its closed polygon of nodes (independent of the point it is triangulated about), perpendicular to the face when its nodes lie in a plane; its area is the sum of the areas of the triangles about its centre, never smaller than the length of the normal and equal to it for faces without folds; the centroid is the area-weighted mean of those of the triangles. In two dimensions normals are perpendicular to edges, of the edge's length, and point to the same side. All arrays are written completely and only inside their bounds. Faces without nodes or without area have no finite centroid.", "quantifier": "all grids whose arrays fit, all polygons of any number of nodes", "why_tests_cant": "Ranges over all polygons and grids; planarity and folds matter.", "anchors": ["opm/core/grid/cornerpoint_grid.c: compute_geometry", "opm/core/grid/cpgpreprocess/geometry.c: compute_face_geometry"]}
{"id": "C103", "title": "Cell volumes and centroids of polyhedral cells", "statement": "For every cell whose faces close up, the outward normals sum to zero, and compute_cell_geometry gives as volume and centroid exactly the volume and centroid (by the divergence theorem) of the polyhedron bounded by the triangles of its faces, whatever the point from which it is decomposed, so long as no face folds back about its centre and the volume is not zero. Should hold for all plane faces, but with a face that is not star-shaped about the mean of its nodes volume and area are too large.", "quantifier": "all grids, all closed polyhedra with any number of faces and nodes", "why_tests_cant": "Ranges over all polyhedra; unit tests are cubes.", "anchors": ["opm/core/grid/cpgpreprocess/geometry.c: compute_cell_geometry"]}
{"id": "C104", "title": "Geometry of two-dimensional cells", "statement": "Areas of polygonal cells of two-dimensional grids that are star-shaped about the mean of their corners are those of the shoelace formula, whatever the direction in which edges are stored, and normals around a cell sum to zero. The centroid should be the centroid of the polygon; the code gives the mean of the corners, which is different for a trapezoid.", "quantifier": "all polygons and all two-dimensional grids whose arrays fit", "why_tests_cant": "Ranges over all polygons and orders of edges.", "anchors": ["opm/core/grid/cpgpreprocess/geometry.c: compute_edge_geometry_2d, compute_cell_geometry_2d"]}
{"id": "C105", "title": "Conditions on the sides of a grid reach exactly the faces of the side", "statement": "FlowBCManager holds the list of conditions of the calls made since construction or the last clear. pressureSide appends one condition with exactly the faces of the cells on that side (minimal or maximal logical coordinate) that carry the side's tag, fluxSide one condition per such face with fluxes in proportion to areas that add up to the given total; a tagged face inside the grid, missing tags or a side the grid does not have are rejected. In a Cartesian grid these are exactly the boundary faces of that side of the box, each once. Cells at the boundary behind inactive cells are not on the side, and with no cell on the side pressureSide is undefined.", "quantifier": "all grids whose arrays fit, all sides, all histories of calls", "why_tests_cant": "Ranges over all grids, active-cell patterns and call histories.", "anchors": ["opm/core/pressure/FlowBCManager.cpp: FlowBCManager::pressureSide, fluxSide, append, clear", "opm/core/pressure/flow_bc.c"]}
{"id": "C106", "title": "Compressible implicit transport balances water in surface volumes", "statement": "For every valid mesh, flux field, sources, pore volumes before and after the step, formation volume factors without miscibility and time step, TransportSolverCompressibleTwophaseReorder::solve either throws (only when fluid circulates) or leaves saturations in [0,1] that add up to one, surface volumes that are the phase matrices applied to the saturations, and in every cell an implicit upwind balance of water in surface volumes that holds up to the tolerance with the new saturations upstream (up to 300e-9 for cells in circulation), unless the full cell could not take up the water coming in or the root finder ran out of iterations. Without circulation, water over the mesh changes by what is injected minus what is produced, up to the residuals.", "quantifier": "all valid meshes, flux fields (with or without circulation), sources, pore volumes, formation volumes, relative permeabilities, viscosities, time steps and initial states", "why_tests_cant": "The statement ranges over all meshes, flux topologies and fluid functions; a test fixes one of each and cannot see missing terms that vanish in it.", "anchors": ["opm/core/transport/reorder/TransportSolverCompressibleTwophaseReorder.cpp: solve, Residual, solveSingleCell, solveMultiCell, fracFlow", "opm/core/utility/miscUtilitiesBlackoil.cpp: computeSurfacevol"]}
{"id": "C107", "title": "Mobilities, reports and sources of black-oil problems", "statement": "Phase mobilities are relative permeability over viscosity at the pressure, surface volumes and saturations of each cell; total mobility is their sum and fractional flows are their shares, adding up to one. The injected surface volume is the time step times what flows in, as the first phase; the produced surface volume of a component is the time step times what flows out of each cell, divided among the phases by mobility and converted by the matrix of the cell. Transport sources count production in full and injection through injectors as surface volume of the first phase. After an implicit compressible transport step the surface volume of water is what it was plus the reported injection minus the reported production, up to the residuals of the solved equations. Calls with fewer cells than the properties have are undefined.", "quantifier": "all numbers of phases and cells, properties, pressures, saturations, sources, wells and meshes without circulation", "why_tests_cant": "the balances hold for every mesh, fluid and source distribution; a test compares a few numbers", "anchors": ["opm/core/utility/miscUtilitiesBlackoil.cpp: computePhaseMobilities, computeTotalMobility, computeFractionalFlow, computeInjectedProduced, computeTransportSource", "opm/core/transport/reorder/TransportSolverCompressibleTwophaseReorder.cpp: solve"]}
{"id": "C108", "title": "Quadrature on cells and faces integrates quadratic functions", "statement": "For every cell or face and every polynomial of degree two, the sum of weights times values over the quadrature points of degree two is the integral over the triangles that the centroid forms with the faces or sides (exactly for cells in the plane and for faces in the plane and in space), and for cells in space the integral over the tetrahedra formed by the cell centroid and the triangles of the faces, up to an error below 1e-33 times a sum of volumes times squared sides, since the constant of the rule is rounded. Degree one is the centroid with the stored volume or area; higher degrees and dimensions are rejected. On a line degree two announces one point and then fails an assertion.", "quantifier": "all grids with valid arrays, all cells and faces with any number of nodes, all polynomials of degree two", "why_tests_cant": "exactness is a statement about all polynomials and all shapes; tests compare a few sums", "anchors": ["opm/core/grid/CellQuadrature.hpp: CellQuadrature", "opm/core/grid/FaceQuadrature.hpp: FaceQuadrature"]}
{"id": "C109", "title": "Hybrid (mimetic) pressure solution obeys Darcy's law, mass balance and the boundary conditions", "statement": "For every valid mesh, symmetric positive definite inner products, boundary conditions, sources and gravity terms, the assembly of the hybridised incompressible pressure system succeeds on zeroed data, and every solution of the assembled system yields cell pressures and face fluxes such that in every cell the fluxes follow the discrete Darcy law, the net outflow equals the source, prescribed pressures and fluxes are taken, and closed faces carry no flux. Without a prescribed pressure the sources must match the prescribed fluxes, and then the pressure of the first face is zero.", "quantifier": "all valid meshes, inner products, boundary conditions, sources and solutions of the linear system", "why_tests_cant": "Tests solve a few Cartesian systems; balance in every cell must hold for any mesh, any degree of the cells and any mix of conditions, and depends on elimination and static condensation being exact.", "anchors": ["opm/core/pressure/mimetic/hybsys.c:hybsys_schur_comp_symm", "opm/core/pressure/mimetic/hybsys.c:hybsys_cellcontrib_symm", "opm/core/pressure/mimetic/hybsys_global.c:hybsys_global_assemble_cell", "opm/core/pressure/fsh_common.c", "opm/core/pressure/ifsh.c:ifsh_assemble", "opm/core/pressure/fsh.h:fsh_press_flux"]}
{"id": "C110", "title": "Compressible hybrid pressure solution balances accumulation and flux", "statement": "For every valid mesh and every compressible problem with regular cell blocks, every solution of the hybrid system assembled on zeroed data yields single-valued face fluxes and cell pressures with the Darcy law, the weighted balance (fluxes times one minus their compressibility weight, minus the accumulation term times the pressure, equals the source) in every cell, and the boundary conditions.", "quantifier": "all valid meshes, inner products, weights, accumulation terms, boundary conditions, sources and solutions", "why_tests_cant": "The unsymmetric Schur complement mixes two different factors per cell; an error in either shows only in particular cells and boundary configurations.", "anchors": ["opm/core/pressure/mimetic/hybsys.c:hybsys_schur_comp_unsymm", "opm/core/pressure/mimetic/hybsys.c:hybsys_cellcontrib_unsymm", "opm/core/pressure/cfsh.c:cfsh_assemble", "opm/core/pressure/fsh.h:fsh_press_flux"]}
{"id": "C111", "title": "Mimetic inner products are symmetric, positive definite and exact for linear pressures", "statement": "For every mesh of closed cells in one to three dimensions and every symmetric positive definite permeability, the inverse inner products computed for all cells are symmetric and positive definite, and for every pressure field that is linear in a cell they give exactly the Darcy flux through each of its faces; gravity terms, mobility and density updates act cell by cell as documented.", "quantifier": "all meshes, geometries, permeabilities, linear pressures", "why_tests_cant": "Consistency and stability of the inner product must hold for every polyhedral cell; a wrong sign, transposed index or scaling passes on cubes with scalar permeability.", "anchors": ["opm/core/pressure/mimetic/mimetic.c:mim_ip_simple_all", "opm/core/pressure/mimetic/mimetic.c:mim_ip_span_nullspace", "opm/core/pressure/mimetic/mimetic.c:mim_ip_linpress_exact", "opm/core/pressure/mimetic/mimetic.c:mim_ip_compute_gpress", "opm/core/pressure/mimetic/mimetic.c:mim_ip_mobility_update", "opm/core/pressure/mimetic/mimetic.c:mim_ip_density_update"]}
{"id": "C112", "title": "The incompressible pressure solver returns conservative Darcy fluxes on every call", "statement": "For an IncompTpfa object built without active rock compressibility on a mesh whose cells conduct to their faces, after any number of successful solve() calls with any states and well controls: if the linear solver solves solvable systems, every cell is linked (over faces and perforations of rate wells) to a pressure boundary condition or to a perforation of a pressure-controlled well, and every well has a perforation with positive well index, then solve() returns. The face fluxes obey Darcy's law with the harmonic combination of mobility times half-transmissibility and the mobility-weighted densities at the saturations given to this call; boundary conditions hold; in every cell the net outflow equals source plus well inflow; pressure- and rate-controlled wells meet their targets, shut wells carry nothing and keep their reported pressure. Wells with another number of phases than the fluid are refused.", "quantifier": "all meshes, rock and fluid properties, gravity vectors, sources, boundary conditions, wells, and all histories of calls on one object", "why_tests_cant": "tests run a few meshes with one call each; the claim is about every mesh, every combination of controls and every history of calls on the object, through five modules that share mutable arrays", "anchors": ["opm/core/pressure/IncompTpfa.cpp: IncompTpfa::IncompTpfa, solve, solveIncomp, computeStaticData, computePerSolveDynamicData", "opm/core/pressure/tpfa/ifs_tpfa.c", "opm/core/pressure/tpfa/trans_tpfa.c"]}
{"id": "C113", "title": "Wells are in hydrostatic balance with the fluid given to the pressure solve", "statement": "In every IncompTpfa::solve() the rate of each perforation of an open well is mobility times well index times (bottom-hole pressure plus hydrostatic difference between perforation and reference depth, at the densities of the saturations given to this call, minus cell pressure).", "quantifier": "all meshes, fluids, wells and all histories of solve() calls on one object", "why_tests_cant": "the defect shows only from the second call on one object on, when saturations around a well have changed; tests make one call per object", "anchors": ["opm/core/pressure/IncompTpfa.cpp: computePerSolveDynamicData (wdp_)", "opm/core/utility/miscUtilities.cpp: computeWDP"]}
{"id": "C114", "title": "Pressure solve with rock compressibility: accepted states conserve volume, or the call throws", "statement": "For every grid, fluid, rock with positive pore-volume multiplier and compressibility, wells, sources and boundary conditions accepted by the pressure solver, after any history of earlier solves on the same object, and for every positive time step: solve either throws, or returns fluxes that obey Darcy's law and the boundary conditions at the given saturations, and pressures accepted by one of the documented tests: volume (source plus wells minus net outflow minus change of pore volume over the step) balances in each cell up to the residual tolerance, or balances exactly with pore volumes linearised at pressures within the change tolerance. Wells then obey their rate or pressure controls. A call that did not converge is never returned as a success.", "quantifier": "all grids, fluids, rocks, wells, sources, boundary conditions, tolerances, iteration limits, time steps, states and histories of calls on one object", "why_tests_cant": "A test runs one nonlinear problem to convergence; it cannot show that every way out of the iteration is either an error or an acceptable state, on every history of calls.", "anchors": ["opm/core/pressure/IncompTpfa.cpp: solveRockComp, computePerIterationDynamicData, computeResults, residualNorm, incrementNorm", "opm/core/pressure/tpfa/ifs_tpfa.c: ifs_tpfa_assemble_comprock_increment", "opm/core/props/rock/RockCompressibility.cpp: poroMult, rockComp"]}
{"id": "C115", "title": "Implicit two-phase transport: every step leaves admissible saturations, and a step reported as converged balances water in each cell", "statement": "For every grid with at least one cell, positive half-transmissibilities, fluid with positive total mobility and constant viscosities and densities, gravity and capillary pressure, after any history of steps on the same object, for every time step and every linear solver that returns as many numbers as unknowns: solve returns, leaves pressures and fluxes as they were, and sets the water saturation of each cell to the admissible saturation closest to old saturation plus computed change, and the oil saturation to one minus that. If the step is reported as converged by its residual, the reported norm bounds in every cell the imbalance between water stored, water flowing by phase-wise upstream mobilities with gravity and capillarity, and sources, and is below the absolute tolerance, or below the relative tolerance times the imbalance of the initial guess in some cell. Pore volumes that differ in the first cell from those at construction are refused with an exception.", "quantifier": "all grids, fluids, rocks, gravities, states, sources, time steps, control parameters with at least one iteration, linear solver answers, and histories of steps on one object", "why_tests_cant": "A test runs a few steps that converge with one linear solver; the guarantees must hold at every exit of the Newton iteration and of the line search, for any answers of the linear solver and with whatever earlier steps left in the object's memory.", "anchors": ["opm/core/transport/implicit/TransportSolverTwophaseImplicit.cpp: solve, initTransport", "opm/core/transport/implicit/ImplicitTransport.hpp: ImplicitTransport::solve", "opm/core/transport/implicit/ImplicitAssembly.hpp: ImplicitAssembly", "opm/core/transport/implicit/SinglePointUpwindTwoPhase.hpp: SinglePointUpwindTwoPhase", "opm/core/transport/implicit/JacobianSystem.hpp", "opm/core/transport/implicit/CSRMatrixBlockAssembler.hpp"]}
{"id": "C116", "title": "Implicit two-phase transport conserves water", "statement": "After every implicit transport step that returns, the volume of water in all cells has changed by what sources and sinks supplied during the step, up to the tolerances of the solver.", "quantifier": "all grids, fluids, states, sources, time steps, linear solver answers, and histories of steps on one object", "why_tests_cant": "Conservation must follow from the assembled equations and the acceptance test for every grid and flow, not from comparing one run with a reference.", "anchors": ["opm/core/transport/implicit/TransportSolverTwophaseImplicit.cpp: solve", "opm/core/transport/implicit/ImplicitTransport.hpp: ImplicitTransport::solve", "opm/core/transport/implicit/SinglePointUpwindTwoPhase.hpp: fluxConnection, accumulation, sourceTerms"]}
{"id": "C117", "title": "Compressible pressure residual and Jacobian", "statement": "Assembling the compressible pressure system succeeds for every valid input, also on reused data; the residual of a cell is its pore volume less the volume of what it holds after fluxes through faces and perforations during the step and less explicit sources; the residual of a well is its deviation from its control; the matrix is the exact linearisation of these with mobilities and fluid matrices of faces kept; rock compressibility adds the change of pore volume; a Newton step therefore meets well controls and fills the pores to first order.", "quantifier": "all valid grids, wells and controls, sources, fluid matrices with regular cell matrices, pressures, time steps and histories of use of one data object", "why_tests_cant": "The sparse matrix is accumulated face by face and perforation by perforation; that it is the derivative of the residual must hold for every mesh and well pattern, not the few in the tests.", "anchors": ["opm/core/pressure/tpfa/cfs_tpfa_residual.c: cfs_tpfa_res_construct, cfs_tpfa_res_assemble, cfs_tpfa_res_comprock_assemble"]}
{"id": "C118", "title": "Compressible pressure systems without a pressure level are adjusted", "statement": "The assembled compressible system is adjusted, and the adjustment reported, exactly when nothing fixes the level of pressure: fluids and rock do not change volume with pressure and no well has a pressure control.", "quantifier": "all valid inputs of the assembly", "why_tests_cant": "Whether the system is singular depends on all cells, wells and controls together.", "anchors": ["opm/core/pressure/tpfa/cfs_tpfa_residual.c: cfs_tpfa_res_assemble, assemble_well_contrib, assemble_cell_contrib", "opm/core/pressure/CompressibleTpfa.cpp: CompressibleTpfa::singularPressure"]}
{"id": "C119", "title": "Fluxes of the compressible solver are the ones balanced", "statement": "Face fluxes and perforation rates computed from pressures are the total phase volumes with which the cell balances were assembled at these pressures; face pressures are averages of cell pressures weighted with half-transmissibilities.", "quantifier": "all valid grids, wells, mobilities, pressures", "why_tests_cant": "Agreement of two separately coded flux computations must hold for every face and perforation and every direction of flow.", "anchors": ["opm/core/pressure/tpfa/cfs_tpfa_residual.c: cfs_tpfa_res_flux, compute_flux, compute_wflux, cfs_tpfa_res_fpress"]}
{"id": "C120", "title": "Compressible pressure solver: outcome of a call", "statement": "Construction succeeds for valid input and refuses wells with another number of phases. After any history of calls and whatever the linear solver answers, a solve either throws, and then some cell or well is off by more than the residual tolerance, or returns a state with unchanged fluids whose fluxes, face pressures, perforation pressures and rates belong to the returned pressures; the pressures were accepted either because the pores are filled and well controls met up to the residual tolerance or because no pressure changed by more than the change tolerance; singularity is reported exactly when nothing fixes the level of pressure.", "quantifier": "all valid grids, geometries, fluids, rock compressibilities, wells and changes of controls, states, time steps, answers of the linear solver, iteration limits and histories of calls on one object", "why_tests_cant": "Newton's method may stop for several reasons after any number of iterations, and the object carries data from call to call; tests see a few converging runs.", "anchors": ["opm/core/pressure/CompressibleTpfa.cpp: CompressibleTpfa::CompressibleTpfa, solve, computePerSolveDynamicData, computePerIterationDynamicData, assemble, computeResults, singularPressure"]}
{"id": "C121", "title": "Compressible pressure solver: properties of faces come from upstream", "statement": "Mobilities and fluid matrices of a face between two cells are, phase by phase, those of the cell from which the phase flows, judged by the phase potentials including gravity.", "quantifier": "all valid grids, fluids, states and faces", "why_tests_cant": "Phases may flow in opposite directions in any combination of pressures, densities and depths.", "anchors": ["opm/core/pressure/CompressibleTpfa.cpp: CompressibleTpfa::computeFaceDynamicData"]}
{"id": "C122", "title": "Generalised barycentric coordinates partition unity and reproduce the point", "statement": "A WachspressCoord object can be made for a grid exactly if in each vertex of each cell as many faces of the cell meet as there are dimensions; its corner tables then list, cell by cell, the distinct vertices in increasing order with consecutive corner numbers, the faces that meet there, the volume spanned by their normals, and the other faces. For a point inside a cell, on one of its faces, edges or vertices, cartToBary writes numbers that are not negative, have sum one, and vanish for all vertices that are not on a face the point is on; at a vertex they are one for this vertex and zero for all others. If the cell is convex, then the vertices weighted with the coordinates have the point as their mean. Where the total weight is zero there are no finite coordinates.", "quantifier": "all grids in two and three dimensions with cells of any numbers of faces, all cells and all points", "why_tests_cant": "Cells may have any number of faces in any order and orientation; the identities are about all points, including the limits on faces, edges and vertices where the original formula divides by zero.", "anchors": ["opm/core/utility/WachspressCoord.cpp: WachspressCoord::WachspressCoord, numCorners, cartToBary", "opm/core/utility/WachspressCoord.hpp: CornerInfo, cornerInfo, adjacentFaces"]}
{"id": "C123", "title": "Velocities interpolated from fluxes are exact for constant fields and have continuous normal components", "statement": "With VelocityInterpolationECVI, after setupFluxes, interpolate yields in each point of a cell a velocity such that: on a face of the cell, its product with the face normal is the given flux of that face, so the normal component is the same from both sides; and if the fluxes are those of a constant velocity, this velocity is found in all points of the cell. Velocities stored by earlier calls have no influence. With VelocityInterpolationConstant the velocity of a cell is the sum of the outward fluxes times the vectors from the cell centroid to the face centroids, divided by the volume, which is exact for constant velocities.", "quantifier": "all grids in two and three dimensions whose vertices have independent normals, all fluxes, all cells and points, all earlier contents of the object", "why_tests_cant": "Continuity is a statement about all points of all faces and all flux fields; the corner velocities are addressed through global corner numbers that depend on all preceding cells.", "anchors": ["opm/core/utility/VelocityInterpolation.cpp: VelocityInterpolationConstant::interpolate, VelocityInterpolationECVI::setupFluxes, VelocityInterpolationECVI::interpolate"]}
{"id": "C124", "title": "The discontinuous Galerkin bases evaluate, differentiate, shift and scale the function they stand for", "statement": "For a basis of bounded total degree or a multilinear basis of degree 0 or 1 on a grid of one to three dimensions: evalFunc returns the value of the sum of coefficients times polynomials whatever earlier calls left behind; evalGrad writes the partial derivatives of these polynomials; functionAverage is the value at the cell centroid, and the average over every mass distribution centred there (over every centred box, for the multilinear basis); addConstant turns f into f + increment; multiplyGradient scales the difference to the average by the factor and keeps the average; neither touches coefficients of other cells. Constructors throw for other degrees and for more dimensions.", "quantifier": "every basis, cell, point, coefficient array, increment, factor and history of calls", "why_tests_cant": "Evaluations at sample points do not settle an identity between polynomials for all points and coefficients, and the cached buffer makes results depend on earlier calls unless shown otherwise.", "anchors": ["opm/core/tof/DGBasis.cpp: DGBasisInterface::evalFunc, DGBasisBoundedTotalDegree, DGBasisMultilin", "opm/core/tof/DGBasis.hpp"]}
{"id": "C125", "title": "The limiter of the discontinuous Galerkin time of flight enforces its lower bound", "statement": "Let the bound of a cell be the smallest value at the other side of its upstream faces (at the corners of the face, or the average; zero at the boundary), or zero if that is larger or there is no upstream face; a face is upstream if more than the given fraction of the cell's total flux enters through it. After the limiter was applied to a cell, no value of the cell at a corner is below the bound; the average is kept unless it was below the bound, in which case the cell gets the bound as its constant value; the values move towards the average only; a cell that already meets the bound is not changed; coefficients of other cells are not touched. The same holds for all cells if it is applied to all at once.", "quantifier": "every grid, flux field, threshold, solution, cell and order of the cells, both limiter methods and both bases", "why_tests_cant": "The bound must hold for every solution and every combination of upstream faces; degenerate cases such as a vanishing denominator or a cell fed by a source only are reached by no test.", "anchors": ["opm/core/tof/TofDiscGalReorder.cpp: applyLimiter, applyMinUpwindLimiter, applyLimiterAsPostProcess, applyLimiterAsSimultaneousPostProcess, totalFlux, minCornerVal"]}
{"id": "C126", "title": "The discontinuous Galerkin time of flight solves its equations in all cells", "statement": "Without limiter, solveTof returns coefficients such that in every cell to which fluid that left it does not come back, and for every basis function b: minus the integral over the cell of u v\u00b7grad b, plus the integrals over faces with outflow of u b times the normal velocity, plus the integral of u b times the density of a sink, equals the pore volume density times the integral of b minus the integrals over inner faces with inflow of the neighbour's function times b and the (negative) normal velocity; integrals are those of the quadrature rules. For fluxes without circulation the solution is the only one if the cells' equations are regular. Solving one cell changes no coefficient of another cell; a failure of LAPACK is reported by an exception. In particular what leaves a cell is its pore volume plus what enters, and with piecewise constants the equations are those of the single-point upwind method. With the limiter during computations the result of a cell is the limiter applied to that solution; with the limiter afterwards it is applied to the result, to the cells in the order in which they were solved or to all at once.", "quantifier": "every mesh in one to three dimensions, flux field, pore volumes, sources, velocity interpolation, both bases of degree 0 or 1", "why_tests_cant": "The equations couple all cells in the order of the flow; a wrong sign, index or quadrature degree in the assembly shows only for some fluxes, and an order that visits a cell too early only for some meshes.", "anchors": ["opm/core/tof/TofDiscGalReorder.cpp: solveTof, solveSingleCell, solveMultiCell", "opm/core/transport/reorder/ReorderSolverInterface.cpp: reorderAndTransport"]}
{"id": "C127", "title": "The time of flight with multidimensional upwinding solves its equations", "statement": "With multidimensional upwinding, solveTof returns times of flight for which there are values at the faces such that: in every cell what leaves through faces with outflow (flux times the value at the face) and through a sink (rate times the cell's value) is the pore volume plus what enters through faces; the value at a face with outflow is the mean, over the faces of its upstream cell that meet it in an edge (a vertex in two dimensions), of the cell's value and the value at that face, weighted by inflow there as part of inflow and outflow; values are zero where fluid enters through the boundary. These equations have one solution, values at faces stay between those they are made of, and times of flight are not negative if the faces of each cell have equally many vertices.", "quantifier": "every mesh, flux field without circulation, pore volumes and sources", "why_tests_cant": "The weights depend on the sizes and signs of all fluxes of a cell and on which faces meet; faces without flux, as on closed boundaries, are a case of their own.", "anchors": ["opm/core/tof/TofReorder.cpp: solveSingleCellMultidimUpwind, multidimUpwindTerms, solveTof"]}
{"id": "C128", "title": "A grid given by widths of cells in a deck has its lines at the sums of the widths", "statement": "GridManager(deck), for a deck without ZCORN and COORD but with DXV, DYV and DZV whose numbers of values are the logical size (DIMENS, else SPECGRID): without DEPTHZ and TOPS the grid is a valid mesh of boxes between lines at the sums of the widths, starting at zero; with DEPTHZ each node lies below the depth given for its column by the sum of the widths above it; with TOPS below that one depth. An exception is thrown if a number of values differs from the logical size, if DEPTHZ has not one value for each column of nodes, if values of TOPS differ, if the logical size is missing, or if neither format is complete.", "quantifier": "every deck, numbers of cells and widths", "why_tests_cant": "Sums, numbers of nodes and the order of coordinates depend on the sizes in all three directions; tests use few.", "anchors": ["opm/core/grid/GridManager.cpp: GridManager(const EclipseGridParser&), initFromDeckTensorgrid, coordsFromDeltas", "opm/core/grid/cart_grid.c: create_grid_tensor3d"]}
{"id": "C129", "title": "The inspector of corner-point grids gives the cells' coordinates, volumes, limits and dips", "statement": "EclipseGridInspector, made from a deck with COORD, ZCORN and a size (SPECGRID, else DIMENS): cellIdxToLogicalCoords inverts the numbering i + nx (j + ny k); cellZvals gives the depths of the eight corners; cellVolumeVerticalPillars is the area of the column times the mean thickness along the four pillars, which on a tilted rectangle is the product of the three lengths; getGridLimits gives the least and the greatest x, y and z; cellDips gives the mean increase of depth over length along the edges that do not touch the top or the bottom of the model, which on a tilted rectangle are its slopes. Coordinates outside the grid and keywords of wrong sizes are reported by an exception, and nothing is read out of bounds.", "quantifier": "every deck, logical size, cell and values of COORD and ZCORN", "why_tests_cant": "The numbering, the offsets into COORD and ZCORN and the edges that are left out depend on all sizes and values.", "anchors": ["opm/core/io/eclipse/EclipseGridInspector.cpp: EclipseGridInspector, cellIdxToLogicalCoords, cellZvals, cellVolumeVerticalPillars, getGridLimits, cellDips, checkLogicalCoords"]}
{"id": "C130", "title": "A part cut out of a corner-point grid is the grid between the limits", "statement": "CornerPointChopper(deck).chop(imin, imax, jmin, jmax, zmin, zmax, resettoorigin): the limits are narrowed to lie between the greatest depth of the top and the least depth of the bottom of the grid, and an exception is thrown if nothing is left. Otherwise the new grid has the chosen columns and a range of layers; every layer left out lies wholly above or wholly below the limits; each corner has its old depth moved between the limits (minus the upper limit if the origin is reset); and each corner has its old place in the plane (minus that of the first pillar if the origin is reset). Fields for cells (PORO, PERMX, ...) have for each new cell the value of its old cell. Nothing is read or written out of bounds.", "quantifier": "every corner-point grid, range of columns within it, limits and choice of the origin", "why_tests_cant": "Offsets and layers depend on all sizes, on the part and on the depths; a mistake shows only for some combinations.", "anchors": ["opm/core/io/eclipse/CornerpointChopper.hpp: CornerPointChopper, chop"]}
