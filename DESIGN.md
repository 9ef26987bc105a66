# Formal model of opm-core: design

## 1. Approach

The code in `/repo` is read as text and modelled function by function in Lean 4
(`/verif/lean/Verif`).  Nothing in `/repo` is built or run; the tie between
model and code is the citation (file and lines) on every model definition.

Layout of the Lean project

* `Verif/Core/…`   – shared infrastructure: outcome monad, checked arrays.
* `Verif/Model/…`  – the model of the code, one file per source file or class.
* `Verif/Spec/…`   – small specifications that do not mention the model.
* `Verif/Proofs/…` – helper lemmas.
* `Verif/Props/…`  – the property theorems (what `MANIFEST.json` names) and,
  beside each, `example`s showing that a concrete non-trivial case meets the
  hypotheses, plus the negative results (counterexamples) for findings.

### Outcome monad and undefined behaviour

C/C++ functions are modelled in `Except Err`, where `Err` has the cases
`ub` (out-of-bounds access, null dereference, integer division by zero, …),
`assertFail` (a failed `assert`/`ASSERT`), `thrown` (a C++ exception raised with
`THROW`/`throw`) and `timeout` (fuel ran out).  A theorem that a call equals `ok r`
therefore says that none of these occurs.  Array reads and writes go through
`rd`/`wr`, which check the index against the length of the modelled buffer.

Loops with a static trip count are folds / structural recursion.  `while` loops
whose termination is not structural take a fuel argument; the theorems then say
that all sufficiently large fuel values give the same, successful result (so
termination is part of the claim).

### Standing simplifications

* `int`/`size_t` are unbounded `Int`/`Nat`.  Overflow is out of scope unless a
  property is about it.
* `double` is an exact ordered field (`ℚ`, `ℝ` or an arbitrary linearly ordered field).
  Rounding, NaN and infinities are not modelled; where the code tests for them
  (`isnan`) the test is modelled as false.
* `malloc`/`realloc` succeed.  Failure paths are not modelled except where noted.
  Storage obtained from `malloc` is given an arbitrary content parameter where
  the code could read it before writing.
* I/O (reading files, printing) is modelled by its input data (lists of tokens,
  strings), never by the file system.
* C++ templates are modelled at an arbitrary type.

## 2. Plan per property
| id | model | how it is proved |
|----|-------|------------------|
| C01 | `tarjan.c` with the real shared arrays `vert`, `comp`, `work`, fuelled `while` | simulation of an abstract machine with explicit lists; storage invariant `#components + stack depth ≤ nv` |
| C02 | same | low-link invariant of the abstract machine; closure of finished set under edges |
| C03 | `make_upwind_graph` + tarjan | count/fill of the CSR graph equals the upwind relation, then C02 |
| C04 | `reorderAndTransport` loop with an abstract solver log | induction over components, C03 |
| C05 | `dfs.c` with the shared work array | invariant over the explicit stack; counterexample with self loops |
| C06 | `partition_compress` | counting argument: prefix sums of the presence bitmap |
| C07 | `partition_invert` | generic push-back counting-sort lemma |
| C08 | `partition_localidx` | induction over blocks |
| C09 | `coord_idx`, `lin_idx`, `partition_unif_idx` | integer division lemmas |
| C10 | `partition_split_disconnected` | dfs with self connections first, C05-like invariant |
| C11 | `hash_set.c` for an arbitrary hash | probe sequence covers a power-of-two table; refinement to a finite set |
| C12 | `sparse_sys.c` count/push-back | same generic lemma as C07 |
| C13 | `csrmatrix_sortrows`, `csrmatrix_elm_index` | `qsort`/`bsearch` as contracts (parameters) |
| C14 | `SparseTable.hpp` | refinement to `List (List α)` over operation histories |
| C15 | `SparseVector.hpp` | refinement to association function |
| C16, C17 | `linearInterpolation.hpp` over a linearly ordered field | loop invariant of the bisection; field arithmetic |
| C18 | `NonuniformTableLinear.hpp` with its cached state | algebra + history counterexample |
| C19 | `UniformTableLinear.hpp` | algebra with `floor` |
| C20, C21 | `RootFinders.hpp` | loop invariant (bracket), arbitrary `f` |
| C22, C23 | `wells.c` | refinement to list of wells; clone replay; counterexample |
| C24 | `flow_bc.c` | refinement over histories |
| C25, C26 | `transport_source.c`, `compr_source.c`, `compr_bc.c` | capacity invariant; C26 has a counterexample |
| C27 | `SimulatorTimer.cpp` | invariant over histories; validation counterexample |
| C28, C29 | `cart_grid.c` | index arithmetic, div/mod |
| C30–C32 | `ParameterGroup*` as a tree of string maps | induction over path / chain of groups |
| C33 | `ParameterRequirement.hpp` | decision logic |
| C34 | `EclipseGridParserHelpers.hpp` token level | induction over tokens, overflow counterexample |
| C35 | `spu_explicit.c` | sums over faces cancel in pairs |
| C36 | `trans_tpfa.c` | accumulation sums |
| C37–C39 | `ifs_tpfa.c` over a field, CSR matrix | row identities; telescoping of column sums |
| C40 | `uniquepoints.c` | induction over the sorted list |
| C41–C43 | `preprocess.c` | induction over columns, index bijections |
| C44 | `coarse_conn.c` | invariants over the face loop |
| C45–C48 | `miscUtilities.cpp` | accumulation sums, round trips |
| C49 | `WellsGroup.cpp` | recursion over the group tree |
| C50 | `ColumnExtract.hpp` | induction over cells, splitting lemma |
| C51 | `MonotCubicInterpolator.cpp` | polynomial inequalities |
| C52 | `RockCompressibility.cpp` | algebra |
| C53 | `buildUniformMonotoneTable.hpp` | algebra |
| C54 | writer and reader of `.param` text as functions on strings | induction over the tree of groups |
| C55 | argument list folded over the group | induction over arguments |
| C56 | `ifs_tpfa_assemble*` with CSR arrays | energy argument for the assembled matrix |
| C57 | compressible-rock assembly, increment form | row identities, telescoping sums |
| C58 | pore volume and porosity loops | round trip, field arithmetic |
| C59 | saturated volume, average saturation | accumulation lemmas |
| C60 | mobility and fractional-flow loops, fluid arbitrary | pointwise characterisation |
| C61 | `computeInjectedProduced` | accumulation lemmas |
| C62 | `estimateCellVelocity` | divergence identity of cells; discharged for Cartesian meshes |
| C63 | `computeTransportSource` | per-cell balance with boundary and wells |
| C64 | `computeWDP` | characterisation of all perforations |
| C65 | `interpolate_pillar` | algebra |
| C66 | `findconnections`, `faceintersection` | invariant of the two-pointer sweep, all line pairs |
| C67 | same | interval covering |
| C68 | `computeFaceTopology` | finite case analysis of orderings, lifted to all values |
| C69 | `process_vertical_faces` over the grid | composition of C66 with the numbering of points |
| C70 | `process_grdecl` | composition of C65 with sign handling; counterexample |
| C71 | `process_grdecl` with checked memory | bounds of all buffers; counterexample |
| C72 | `conditionsMet` | recursion over the tree |
| C73 | `phaseUsageFromDeck` | finite case analysis |
| C74 | reinjection / voidage | recursion over the tree |
| C75, C76 | `WellsManager` deck constructor | record-by-record invariants; exact acceptance conditions |
| C77, C78 | `WellCollection`, group tree from records | invariant over the list of records, composition with C49 |
| C79 | table readers | induction over tokens |
| C80, C81 | `TofReorder` | invariant over the causal order of C03 |
| C82 | `TransportSolverTwophaseReorder` without gravity | C03/C04, root finder contract of C20, summation by faces |
| C83 | gravity columns | invariant of the column sweeps, summation by faces |
| C84–C91 | fluid classes with tables; calls over n points | pointwise refinement; slopes by algebra |
| C92–C96 | saturation functions, regions, end points | piecewise-linear algebra, pointwise refinement |
| C97, C98 | rock and incompressible properties | index maps, case analysis over keywords |
| C99–C101 | `initState_impl.hpp` | loop characterisation, telescoping sums of pressure |
| C102–C104 | `geometry.c` | vector identities over triangles, signed volumes |
| C105 | `FlowBCManager` | filter characterisation over cells of the side |
| C106 | compressible transport | as C82, in surface volumes |
| C107 | black-oil utilities | pointwise refinement, sums |
| C108 | quadrature rules | exact integrals on simplices (Mathlib) against the rule |
| C109, C110 | `hybsys*.c`, `ifsh.c`, `cfsh.c` | block elimination identities, CSR assembly invariant |
| C111 | `mimetic.c` | matrix identities over an arbitrary field |
| C112, C113 | `IncompTpfa.cpp` (constructor, `solve` without rock compressibility) | composition of C32, C60, C69, C107-style lemmas; invariant of the members over all histories of calls |
| C114 | `IncompTpfa.cpp` (`solveRockComp`), `RockCompressibility.cpp` | invariant of the iteration; composition with the linear-system lemmas of C112 |
| C115, C116 | `transport/implicit`: `TransportSolverTwophaseImplicit.cpp`, `ImplicitTransport.hpp`, `ImplicitAssembly.hpp`, `JacobianSystem.hpp`, `CSRMatrixBlockAssembler.hpp`, `SinglePointUpwindTwoPhase.hpp`, `SimpleFluid2pWrappingProps_impl.hpp` | invariant of Newton iteration and line search over arbitrary linear-solver answers; assembled residual equals the balance of the specification; invariant of the object over all histories |
| C117, C118, C119 | `cfs_tpfa_residual.c` with LAPACK as a parameter | loop invariants over faces, perforations and cells; assembled matrix row times a vector equals the linearised balance of the specification |
| C120, C121 | `CompressibleTpfa.cpp`, with LAPACK and the linear solver as parameters and fluid properties as functions | loop invariants for the data of cells, faces and wells; induction over Newton iterations; invariant of the object over all histories; composition with C117 |
| C122 | `Model/Wachspress.lean`: constructor (incidences, corner tables, set difference, determinants), `numCorners`, `cartToBary` | `Props/Wachspress.lean`, `Props/WachspressLinear.lean`: invariant over cells and vertices for the tables; coordinates in closed form; the mean of the vertices by cancellation at the two ends of each edge (Cramer, in two and three dimensions) |
| C123 | `Model/Wachspress.lean`: both `VelocityInterpolation` classes, `dgesv_` as a parameter | `Props/VelocityInterpolation.lean`: invariant over corner numbers for `setupFluxes`; velocity as weighted sum of corner velocities |
| C124 | `Model/DGBasis.lean`: both classes, function by function | `Props/DGBasis.lean`: loop invariants for the arrays; polynomial identities in one to three dimensions |
| C125 | `Model/TofLimiter.lean`: the limiter of `TofDiscGalReorder.cpp`, division as in C++ | `Props/TofLimiter.lean`: the minima as least bounds by an invariant over the faces; case analysis of the multiplier; induction over the cells |
| C126 | `Model/TofDiscGal.lean`: `solveSingleCell`, `solveMultiCell`, `solveTof`; quadrature and limiter from their models, velocity and LAPACK as parameters | `Props/TofDiscGal.lean`: sums over quadrature points by loop invariants for vector and matrix; linearity; induction along the order of the cells (C04) |
| C127 | `Model/TofMultidim.lean`: `multidimUpwindTerms`, `solveSingleCellMultidimUpwind`, `solveTof` with the option set; division by zero flux as the outcome not finite | `Props/TofMultidim.lean`: loop invariants; the equations of solved cells are kept, since faces downstream only are written later (order of C04); non-negativity by exchanging sums over pairs of faces that meet |
| C128 | `Model/GridManager.lean`: the constructor from a deck, `initFromDeckTensorgrid`, `coordsFromDeltas`, `create_grid_tensor3d` with depths (its nodes) | `Props/GridManager.lean`: induction for the partial sums; the theorems of C28 and C29 for the grid |
| C129 | `Model/GridInspector.lean`: the constructor, `cellIdxToLogicalCoords`, `cellZvals`, `cellVolumeVerticalPillars`, `getGridLimits`, `cellDips` | `Props/GridInspector.lean`: division with remainder; invariant of the loop over pillars; case distinction over the edges that count |
| C130 | `Model/Chopper.lean`: the constructor and `chop`; the greatest element exceeds a limit iff some element does | `Props/Chopper.lean`: each entry written has the value given by decoding its index, so nested loops fill the arrays; first and last hit of a search |

## 3. Results per property

`proved`: the whole statement of `properties.jsonl`; `partial`: see the note (the negation of the rest is
proved wherever the code violates it).  Theorem names are in `MANIFEST.json`.

| id | property | status | where | note |
|----|----------|--------|-------|------|
| C01 | Strong-component ordering is memory safe and emits a permutation | proved | `Tarjan` | For all CSR graphs and buffer contents; explicit linear fuel bound. |
| C02 | Strong-component ordering computes exactly the strongly connected components in dependency order | proved | `Tarjan` | Blocks are exactly the strong components, in reverse topological order. |
| C03 | Upwind sequence respects flow direction | proved | `Reorder` | All valid meshes and flux fields; on an empty mesh the code trips its own assertion (finding). |
| C04 | Reordered transport solves every cell exactly once, upstream first | proved | `Reorder` | All valid nonempty meshes. |
| C05 | Connected-component colouring by depth-first search | proved | `Dfs` | All symmetric CSR graphs with self connections first in their rows; the second theorem is a witness that the restriction is needed (finding). |
| C06 | Partition compression is an order-preserving renumbering | proved | `Partition` | All non-empty non-negative vectors. |
| C07 | Partition inversion lists each block's cells exactly once | proved | `Partition` | All non-negative vectors, any buffer contents. |
| C08 | Local indices within a partition | proved | `Partition` | All non-negative vectors; composed with partition_invert. |
| C09 | Uniform Cartesian partitioning is load balanced | proved | `Partition` | Any number of dimensions, 1 <= coarse <= fine; otherwise division by zero (witness). |
| C10 | Splitting disconnected blocks yields connected blocks | partial | `PartitionSplit` | The code violates the property (pc2c[0] is never reset): two witnesses. Proved for partitions where cell 0 is alone in its block, and in full for the function with the missing reset added. |
| C11 | Integer hash set behaves as a set | proved | `HashSet` | any hash function with values in range; capacity at most 2^63 |
| C12 | Compressed-sparse-row construction by counting and push-back | proved | `SparseSys` | counting order may differ from push order |
| C13 | Sorted CSR rows and element lookup | proved | `SparseSys` | qsort modelled by its unique result; bsearch as in the GNU C library |
| C14 | SparseTable is a list of rows | proved | `SparseTable` | Refinement over all histories without caught exceptions; the third theorem records that a refused assign leaves a corrupt table. |
| C15 | SparseVector is a finitely supported function | proved | `SparseVector` | Refinement to a finitely supported function over every operation history; finding: addElement accepts a negative first index. |
| C16 | Table lookup finds the bracketing interval | proved | `Interp` |  |
| C17 | Linear interpolation reproduces and bounds the data | proved | `Interp` |  |
| C18 | Non-uniform table: inverse undoes evaluation | partial | `NonuniformTable` | The full property is false: rescaleDomain leaves the cached reversed vectors of decreasing tables stale (witness proved). Proved for histories without a rescale after a cached inverse, and in full for the repaired code. |
| C19 | Uniform table evaluation and clamping | proved | `UniformTable` |  |
| C20 | Root finder keeps its bracket and returns a point inside it | proved | `RootFinders` | Exact arithmetic, tolerance >= 0. Finding: with an initial guess the tolerant policies may return the end point with the larger residual. |
| C21 | Bracketing search returns a sign change | proved | `RootFinders` |  |
| C22 | Wells structure is a list of wells | proved | `Wells` | Refinement of the structure of arrays to a list of wells, all histories, all allocation hints; also shows the stale distribution after clear_well_controls. |
| C23 | Cloned wells equal the original | partial | `Wells` | The clone equals the original exactly when each current control exists; proved for all histories without clear_well_controls. The full claim is false: cleared wells cannot be cloned. |
| C24 | Boundary-condition container is a list of conditions | proved | `FlowBc` | Refinement to a list of conditions. |
| C25 | Source-term containers are lists of sources | proved | `Sources` | Refinement to lists. |
| C26 | Compressible boundary-condition container stays within its storage | partial | `Sources` | Holds within the initial capacity only: the capacity field is never updated; full claim proved for the repaired variant. |
| C27 | Simulation timer consistency | partial | `SimulatorTimer` | Holds for histories of ++/setTotalTime/in-range setCurrentStepNum after one init. The code does not refuse out-of-range step numbers (guard tests the old step) and re-init keeps the old time; both are proved as findings. |
| C28 | Cartesian grid topology is consistent | proved | `CartGrid` | All dimensions >= 1; a zero dimension yields dangling neighbours (witness). Valid includes: a cell lists a face iff the face lists the cell. |
| C29 | Cartesian grid geometry | proved | `CartGrid` | Exact rational coordinates. |
| C30 | Parameter groups: inserted parameters are retrieved | proved | `Param` | names with empty components can be inserted but not queried under the same spelling (leading_slash_is_not_found) |
| C31 | Parameter insertion terminates | partial | `Param` | the property is false for empty names, names of slashes only and names ending in two slashes (proved); blank lines in parameter files hang the reader (proved) |
| C32 | Parameter lookup falls back to enclosing groups | proved | `Param` |  |
| C33 | Parameter requirements accept exactly the documented values | partial | `Requirement` | NonEmpty accepts exactly the empty string (proved), so the property is false for it; all others proved |
| C34 | Deck repeat counts expand to the documented vector | partial | `DeckReader` | Character-level model of the input stream and of both readers. vector_of_record: every record without defaults, integers and decimals, is expanded and the rest of the text is left. defaulted_record_partial / defaulted_stops_partial: records with defaults, below and at the allowed number of values. readers_end: no hang on any text. The full statement is false: repeats_overflow and negative_default write outside the buffer; slash_remark, slash_after_default are rejected. |
| C35 | Explicit upwind transport conserves mass | proved | `SpuExplicit` | spu_explicit.c. Conservation holds for all data with admissible mobilities. Upstream weighting fails for zero total flux with negative gravity flux; this is recorded as a proved counterexample. |
| C36 | TPFA transmissibilities are the harmonic combination of half-transmissibilities | proved | `CartTrans`, `Trans` | trans_tpfa.c. cartesian_trans composes grid construction, half-transmissibilities and transmissibilities. A face without cells gets an infinite value (recorded). |
| C37 | Incompressible TPFA fluxes are locally conservative | proved | `IfsTpfa` | For every admissible problem (Spec/IfsTpfa, Problem) and every solution of the assembled system. Boundary inflow is the flux of the boundary faces, which flux_law ties to the conditions. Forces without totmob/wdp but with wells are outside ForcesOk (the flux computation would dereference NULL). |
| C38 | Well constraints hold in the incompressible solution | proved | `IfsTpfa` | Connection transmissibilities assumed nonnegative; holds in the singular case too. |
| C39 | Singular pressure systems are fixed without spoiling conservation | proved | `IfsTpfa` | Needs cell 0 to have a neighbour across a face of positive transmissibility (otherwise the doubled entry is zero), nonnegative transmissibilities, and all sources, flux conditions and rate targets to add up to zero. |
| C40 | Pillar point de-duplication keeps every corner within tolerance | proved | `UniquePoints` | Whole function, all dimensions, activity patterns, depths and tolerances >= 0. In columns that are not sorted the point may be far below the corner; a concrete case is shown. |
| C41 | Corner-point cell numbering is a bijection onto the active cells | proved | `Preprocess` | cells listed in increasing order, each once, iff active and (tolerance 0) of nonzero thickness; neighbours rewritten: all clauses of Processed refer to the local numbers |
| C42 | Corner-point horizontal faces connect vertically adjacent cells | proved | `Preprocess` | exactly one top and one bottom face per cell; joins stacked cells exactly if bottom and top coincide; other neighbours are -1 or existing cells (Processed.range) |
| C43 | ZCORN orientation check and permutation | proved | `Preprocess` | sign and error flag characterised; the permutations are onto all positions |
| C44 | Coarse grid connections represent the fine inter-block faces exactly | proved | `CoarseConn` | every valid fine neighbourship and partition, every hash function with values in range, every contents of uninitialised memory |
| C45 | Transport source terms account for wells and boundary fluxes | proved | `TransportSource` | All valid meshes, all wells with two phases. |
| C46 | Wells-to-source conversion preserves well rates | partial | `WellRates` | Proved when no two wells share a cell and the vector is empty or zero. False in general: the code assigns instead of adding, and resize keeps old entries; both proved by witnesses that satisfy the documented preconditions. |
| C47 | Two-phase saturation packing round-trips | proved | `MiscUtil` | All vectors. |
| C48 | Per-well phase rates add up | proved | `WellRates` | All perforation layouts and phase counts. |
| C49 | Group targets are shared among wells in proportion to guide rates | partial | `WellsGroup`, `WellsGroupCases`, `WellsGroupCollection` | Proved for trees of any shape when a target is forced on a group, and for deck targets when wells below a target group have no own or nested targets; the code does not share properly otherwise, which the negative theorems show with concrete trees. |
| C50 | Vertical column extraction partitions the cells into connected vertical stacks | proved | `ColumnExtract` | for every valid grid with injective Cartesian map and any correct std::sort; the vector must be empty on entry (witness proved) |
| C51 | Monotone cubic interpolation reproduces and respects its data | proved | `MonotCubic` | over any linearly ordered field with a square root that may round up; findings scale_keeps_flags, missingX_unspecified, chop_never_chops, overshoots_rough_data are negative results with witnesses |
| C52 | Rock compressibility is the logarithmic derivative of the pore-volume multiplier | partial | `RockCompressibility` | proved for tables; false without a table away from the reference pressure, and the multiplier may be negative outside the table (witnesses) |
| C53 | Uniform monotone table construction samples the function | proved | `UniformMonotone` | also: all other input is rejected, and monotone data give a monotone table |
| C54 | Parameter files round-trip | proved | `Param` |  |
| C55 | Command-line parameters override parameter files | proved | `Param` |  |
| C56 | The pressure system has exactly one solution | proved | `IfsTpfa` | Existence and uniqueness by an energy argument. |
| C57 | Compressible-rock pressure steps conserve volume | proved | `IfsTpfa` | The increment assembly needs non-null forces: increment_needs_forces shows a null pointer is dereferenced otherwise. |
| C58 | Pore volumes and porosities are consistent | proved | `MiscUtil` | The multiplier is any total function of pressure. |
| C59 | Average saturations are weighted means | proved | `MiscUtil` | Also proved: empty vectors are an integer division by zero. |
| C60 | Mobilities and fractional flows | proved | `Mobility` | The fluid is any object with positive viscosities; total mobility must not vanish where it is divided by. |
| C61 | Injected and produced volumes account for all sources | proved | `Mobility` | Single-vector version with all sources in cells. |
| C62 | Cell velocities are exact for uniform flow | proved | `CellVelocity` | Cartesian case for the meshes built by create_grid_cart3d. |
| C63 | Transport sources close the volume balance | proved | `TransportSource` | All valid meshes. |
| C64 | Well pressure offsets | proved | `WellRates` | Both indexing modes. |
| C65 | Points of a corner-point grid lie on their pillars | proved | `UniquePoints` | Field line of PillarOk. |
| C66 | Faces between faulted stacks | proved | `FaceTopology` | Specification Connections in Spec/FaceTopology.lean; the buffers are assumed to have room, see the property on memory. |
| C67 | Faces of a cell cover its side | proved | `FaceTopology` |  |
| C68 | Faces are simple polygons | proved | `FaceTopology` |  |
| C69 | Faces between corner-point cells of neighbouring columns | proved | `Preprocess` | iff for tolerance 0 in terms of input depths; for other tolerances in terms of the depths of the nodes (Processed.sides) |
| C70 | Nodes of processed corner-point grids lie on their pillars | partial | `Preprocess` | holds for depths increasing downwards; refuted for inputs given by heights (sign -1) on leaning pillars |
| C71 | Corner-point processing does not fail on proper input | partial | `Preprocess` | proved if lines of neighbouring columns do not cross or both columns are filled; refuted in general: heap overflow of the crossings array |
| C72 | The condition check reports exactly the broken well and group limits | proved | `WellsGroup`, `WellsGroupBreach`, `WellsGroupCases`, `WellsGroupCollection` | The verdict and the switching of wells; the remaining theorems show defects in how group breaches are handled. |
| C73 | The phase numbering made from a deck is consistent | proved | `WellsGroup` |  |
| C74 | Reinjection and voidage replacement give injectors what the group produces | proved | `WellsGroup`, `WellsGroupCases` | For the group on which the function is called; groups further down are ignored by the code (negative theorem). |
| C75 | Wells read from a deck are what the deck says | proved | `WellsManager`, `WellsManagerCases` | For every accepted deck; the Peaceman formula is a parameter. The negative theorems show what the stated meaning implies for templates in COMPDAT and for wells under group control. |
| C76 | Which decks the well manager accepts | proved | `WellsManager`, `WellsManagerCases` | Exact characterisation of the accepted decks. |
| C77 | The group hierarchy of a deck is built as the deck says | proved | `WellTree`, `WellTreeCases` | The negative theorems show what happens to decks outside the hypotheses: a well as group is undefined behaviour, circles are silently lost, a repeated WELSPECS record shifts the numbers of wells. |
| C78 | Group targets of a deck reach the wells | proved | `WellTree`, `WellTreeCases` | End to end: deck records to control arrays. default_guide_injects: the defaulted guide rate -1 is used as it is and turns a producer's target positive. |
| C79 | Tables in a deck are read column by column, with gaps interpolated | proved | `DeckTables` | For well-formed tables. Tables of relative permeabilities need increasing arguments and no column with exactly one value (undefined behaviour otherwise, single_value_undefined). What malformed tables do silently is recorded in the other theorems. |
| C80 | Time of flight solves the upwind equations | proved | `Tof` | With circulation the cells are visited once without solving the coupled equations (circulation_not_solved). Multidimensional upwinding is not modelled. |
| C81 | Tracers partition the flow between sources | partial | `Tof` | Proved when no other cell feeds a source cell; otherwise false in the code (fed_source_spoils_tracers: a tracer of -1). |
| C82 | Implicit two-phase transport solves the upwind equations | proved | `TwophaseReorder` | With circulation and large time steps the sweeps stop early and water is not conserved (circulation_creates_water). |
| C83 | Gravity segregation solves the column equations | proved | `GravitySegregation` | Consecutive cells of a column are assumed to have at most one common face; only_last_face shows that otherwise only the last one counts. The scalar root finder may run out of iterations, which the statement names. Exact rational arithmetic. |
| C84 | Fluid properties of many points are those of the single points | proved | `Pvt` | For live fluids the phases they read must be among the active ones (Reads); without that a point reads the next one's volumes. |
| C85 | Dead fluids reproduce their tables, and their derivatives are slopes | proved | `Pvt` | Numbers are exact; outside of the table of the unresampled variant the extrapolation may be negative (dead_extrapolates_below_zero). |
| C86 | Fluids of constant compressibility | partial | `Pvt` | The last claim is false far below the reference pressure: const_swells is a counterexample, const_shrinks_partial proves it from refPress - 1/comp upwards. The other claims are proved in full. |
| C87 | Live oil reproduces its table, dissolves no more gas than there is, and its derivatives are slopes | proved | `LiveOil` | Findings: the formation volume factor jumps at bubble points between records (jump_at_bubble_point); without oil the dissolved gas and the formation volume factor contradict each other (no_oil_inconsistent); a last record without undersaturated data, or a single record, is undefined behaviour (last_record_needs_data, single_record_undefined). |
| C88 | Live gas reproduces its table, vaporises no more oil than there is, and its derivatives are slopes | proved | `LiveGas` | Findings: outside of the table the derivative of undersaturated gas is not zero although the value is constant (derivative_outside_table); a record with undersaturated points beside one without is undefined behaviour (mixed_records_undefined), and so are pressures outside of a table with saturated points only (single_points_outside_undefined); without oil and gas the viscosity is not a number (viscosity_without_fluid). |
| C89 | All fluids of a black-oil deck answer like the single fluids of its keywords | proved | `Blackoil`, `BlackoilBasic` | Live oil in a deck without gas is the excluded case; live_oil_without_gas is the witness that it reads outside of the volumes of a point. |
| C90 | The matrix from reservoir to surface volumes, its derivative, and the mass of phases | proved | `Blackoil`, `BlackoilBasic` | The hypotheses on derivatives of single fluids are the conclusions of C86-C88. |
| C91 | Constant fluids and incompressible fluids of a deck give the given data | partial | `BlackoilBasic` | The matrix of constant fluids needs at most two phases: with three, which are accepted, the code fails an assertion (basic_matrix_three_phases). All other parts are proved in full. |
| C92 | Derivatives of relative permeabilities and capillary pressures are their slopes | partial | `SatDeriv`, `SatThree` | Two phases and all capillary pressures in full. Three phases: simple model where oil is not clipped, segregated model above connate water, Stone's model without the derivative of oil by gas. The other cases are false in the code (witnesses given). |
| C93 | Saturation functions reproduce the tables of the deck and its critical saturations | proved | `SatEnds`, `SatThree` | Simple and Stone's models do not give the gas-oil table at connate water; below and above a table values are extrapolated and may be negative (witnesses). |
| C94 | Every cell uses the saturation functions of its region | proved | `EndPoints`, `SatProps` | Region numbers below one are undefined (in init_from_deck). |
| C95 | End-point scaling honours the end points of each cell | partial | `EndPoints`, `SatProps` | Saturations in full; values where the maximum is more than 1e-6 above the saturation at which the other phase becomes immobile. Otherwise the code tests the wrong quantity for water (witnesses), and models other than the simple one have no end points. |
| C96 | Formula saturation functions: values, diagonal derivatives, no capillary pressure | proved | `SatBasic` |  |
| C97 | Porosity and permeability of a deck | proved | `Rock` | Threshold of permeability zero, the only value used. Findings: PERMXY and PERMYX with different values are accepted and the first is ignored; tensors need not be positive definite; a deck without permeability is accepted with zero permeability. |
| C98 | Constant rock and properties of incompressible problems | proved | `IncompProps` | The last comparison of the numbers of phases in IncompPropertiesFromDeck never fails. Sampling parameters of saturation tables are arguments of the model. |
| C99 | Initial states from parameters are in equilibrium | proved | `InitBasic`, `InitDeck`, `InitState` | Distances to faces via an arbitrary square root function; faces must not touch both centroids. The findings init_one_phase and init_keeps_old_values concern TwophaseState::init itself. |
| C100 | Initial states from a deck, and their surface volumes | proved | `InitBasic`, `InitDeck` | Arrays of the deck have at least the length of the logical grid. |
| C101 | Initial pressures of compressible fluids are hydrostatic | partial | `InitDeck` | False in general: without a contact the number of steps overflows (comp_default_undefined), a flat grid divides by zero, with the datum at the top nothing is computed below the contact (datum_at_top), and with the datum above the grid oil is weighed below the contact (datum_above_grid). Proved: the points are hydrostatic when the datum is within the grid. Missing: the error of the monotone interpolation between the points. |
| C102 | Face normals, areas and centroids | proved | `Geometry`, `GeometryArrays`, `GeometryCases` | Square roots are a parameter, with the defining equation as hypothesis where needed |
| C103 | Cell volumes and centroids of polyhedral cells | partial | `Geometry`, `GeometryArrays`, `GeometryCases` | Exact for faces that do not fold about the mean of their nodes; folded_face proves that volume and area are wrong for a prism over a non-convex quadrilateral |
| C104 | Geometry of two-dimensional cells | partial | `GeometryCases` | Areas and normals proved; the centroid part is false of the code, see centre_not_centroid |
| C105 | Conditions on the sides of a grid reach exactly the faces of the side | proved | `FlowBcCart`, `FlowBcManager` | The undefined case (no cell on the side) is proved as such |
| C106 | Compressible implicit transport balances water in surface volumes | proved | `CompressibleReorder` | Circulation included. The last two record that excess water is lost silently and that miscibility is only checked in the first cell. The gravity part of the file is not modelled. |
| C107 | Mobilities, reports and sources of black-oil problems | proved | `MiscBlackoil` | The properties are arbitrary functions of pressure, surface volumes, saturations and cell. The combined balance is for meshes without circulation and immiscible fluids. |
| C108 | Quadrature on cells and faces integrates quadratic functions | proved | `Quadrature` | Integrals are real integrals over parametrised simplices, from Mathlib. The stored centroids of faces in the plane must be the midpoints. |
| C109 | Hybrid (mimetic) pressure solution obeys Darcy's law, mass balance and the boundary conditions | proved | `Hybsys` | Incompressible hybrid system without wells. The caller has to zero the matrix: assembled_twice shows that successive assemblies add up. Prescribed fluxes are positive out of the reservoir, unlike in the two-point solver. The back substitution with wells is modelled only to show its wrong offset (well_correction_wrong). |
| C110 | Compressible hybrid pressure solution balances accumulation and flux | partial | `Hybsys` | Proved when a pressure is prescribed somewhere. Without one the claim is false: the first matrix element is doubled although the system is regular (closed_compressible_leaks). |
| C111 | Mimetic inner products are symmetric, positive definite and exact for linear pressures | proved | `Mimetic` | Over an arbitrary (ordered) field; the LAPACK orthonormalisation is a parameter of which its documented result is assumed. The geometric identity of closed cells is a hypothesis. |
| C112 | The incompressible pressure solver returns conservative Darcy fluxes on every call | proved | `IncompTpfa` | Linear solver is a parameter assumed exact; exact arithmetic. |
| C113 | Wells are in hydrostatic balance with the fluid given to the pressure solve | partial | `IncompTpfa` | True of the first call on an object; false of later calls: computeWDP appends to wdp_, which is never cleared, so later calls use the offsets of the first call. stale_well_offsets proves the negation for every input where the offsets differ. |
| C114 | Pressure solve with rock compressibility: accepted states conserve volume, or the call throws | partial | `IncompRock` | Throws or returns an accepted state with Darcy fluxes, over all histories, for at least one allowed iteration. Missing: the size of the imbalance when wells exist and the initial pressures were accepted as they are. The last sentence is false with an iteration limit of zero: an unconverged state is returned without error (no_iterations_no_error). |
| C115 | Implicit two-phase transport: every step leaves admissible saturations, and a step reported as converged balances water in each cell | proved | `ImplicitTransport` | All exits of Newton iteration and line search, any linear solver answers of the right length, all histories of one object. Assumes that on faces without total flux the upstream mobilities are not both zero (StateOk.moving); without it the code asserts (Demo.settled_column_asserts). |
| C116 | Implicit two-phase transport conserves water | partial | `ImplicitTransport` | Proved for steps reported as converged by their residual, with the initial guess in the admissible range. The full claim is false: a step that does not converge returns normally (unconverged_returns), and the absolute tolerance is not related to pore volumes (small_cells_half). |
| C117 | Compressible pressure residual and Jacobian | proved | `CfsTpfa` | LAPACK is assumed to solve small systems with regular matrices (exists_lapack shows the assumption can be met); doubles are rationals |
| C118 | Compressible pressure systems without a pressure level are adjusted | partial | `CfsTpfa` | proved: the exact condition under which the system is adjusted. The property is false of the code: a shut well counts as a pressure control (shut_well_not_adjusted); with rock the condition also requires the pore volume not to have changed |
| C119 | Fluxes of the compressible solver are the ones balanced | partial | `CfsTpfa` | faces: proved if every boundary face has a mobile phase, otherwise 0/0 (immobile_boundary). Perforations: proved for flow into the reservoir; for flow into a well with its own mobilities the rates differ (crossflow_mismatch) |
| C120 | Compressible pressure solver: outcome of a call | partial | `CompressibleTpfa` | The outcome of every call is characterised; acceptance by one of the tolerances is proved when at least one iteration is allowed and refuted otherwise: with maxiter <= 0 any state is accepted. |
| C121 | Compressible pressure solver: properties of faces come from upstream | partial | `CompressibleTpfa` | Proved when all phases flow in the same direction (always with one phase). Refuted in general: the code compares vectors of potentials inside the loop over phases, so the first phase with different potentials decides for all. |
| C122 | Generalised barycentric coordinates partition unity and reproduce the point | proved | `Wachspress`, `WachspressLinear` | Square with a triangle beside it and tetrahedron as examples. |
| C123 | Velocities interpolated from fluxes are exact for constant fields and have continuous normal components | proved | `VelocityInterpolation` | dgesv_ is a parameter that solves regular systems. |
| C124 | The discontinuous Galerkin bases evaluate, differentiate, shift and scale the function they stand for | partial | `DGBasis` | All parts are proved except addConstant for the multilinear basis of degree 1, of which the claim is false: it adds increment divided by the number of basis functions (addConstant_multilin), and so fails for every cell and every increment but zero (addConstant_multilin_wrong). |
| C125 | The limiter of the discontinuous Galerkin time of flight enforces its lower bound | partial | `TofLimiter`, `TofLimiterExample` | The bound is proved for cells with an upstream face and, for the multilinear basis, an average not below the bound. It is false otherwise: a cell without upstream face is left alone even where it is negative (no_upstream_untouched, source_cell_not_limited), and with the multilinear basis a low average is raised by a fraction of what is missing only (multilin_flat, multilin_not_limited). A constant solution equal to its bound makes the call fail (constant_at_bound_fails). |
| C126 | The discontinuous Galerkin time of flight solves its equations in all cells | proved | `TofDiscGal`, `TofDiscGalExample` | Regularity of the cells' small matrices (proved for degree 0), the points and weights of the quadrature (their construction is another property) and the velocities are hypotheses; squares_exact meets them with linear functions on two squares and finds the exact solution. LAPACK is a parameter that solves regular systems. |
| C127 | The time of flight with multidimensional upwinding solves its equations | partial | `TofMultidim` | The code violates the property: a face without flux beside a face with inflow makes the result not a number (solveTof_fails; channel_fails is a channel between two walls). Proved for all other meshes (solveTof_partial), so that the two theorems together say for each mesh without circulation what happens. |
| C128 | A grid given by widths of cells in a deck has its lines at the sums of the widths | proved | `GridManager` | The geometry computed from the nodes of a layered grid is that of the properties on compute_geometry. Not verified by the code although its comment says so: keywords of the other format (inactive_cell_kept). |
| C129 | The inspector of corner-point grids gives the cells' coordinates, volumes, limits and dips | partial | `GridInspector` | Coordinates, depths, volumes, limits and exceptions are proved in full. The code violates the claim on dips: they are not numbers for a cell all of whose edges along a direction touch the top or the bottom of the model (dips_fail, flat_fails), and an exception is thrown for decks with DIMENS only (dimens_fails); dips_partial and dips_tilted_partial hold otherwise. |
| C130 | A part cut out of a corner-point grid is the grid between the limits | partial | `Chopper` | Columns, layers, depths, pillars, fields for cells and exceptions are proved (part, field, empty_thrown). The code violates the claim on the place in the plane: slanted pillars are distorted if the origin is reset (slanted_fails); corner_x_partial covers kept and vertical pillars. The length of the pillars belongs to the limits asked for and not to those used (length_fails). |

## 4. Findings

Each item is a place where the code does not do what a caller would expect.
"(`name`)" is a theorem that proves it of the model, with a concrete witness;
items without a name were seen while modelling and are not proved.

**Graphs, partitions, ordering.** `dfs.c` needs self connections first in the row
(witness in C05).  `partition_split_disconnected` never resets `pc2c[0]` (C10).
`compute_sequence` asserts on an empty mesh (C03).  `partition_unif_idx` divides by
zero if coarse > fine (C09).  `coarse_conn.c` leaves `nblocks`/`nfaces` unset without
valid sub-faces.

**Containers and interpolation.** `SparseVector::addElement` accepts a negative first index.
A refused `SparseTable::assign` leaves a corrupt table.  `NonuniformTableLinear`
keeps stale reversed vectors after `rescaleDomain`.  `UniformTableLinear` implements only
the closest-value policy.  `RegulaFalsi` with an initial guess may return the end point with the
larger residual.  `MonotCubicInterpolator`: `chopFlatEndpoints` is undefined behaviour whenever
anything is chopped (`chop_never_chops`), `scaleData` keeps stale flags, `getMissingX` depends on
unspecified evaluation order, `evaluate` on empty data is undefined.

**Wells and groups.** `clear_well_controls` keeps `current` (cleared wells cannot be
cloned) and the old distribution.  `wells.c`/`compr_bc.c`: capacity never updated in
`compr_bc.c`.  `WellsGroup.cpp`: nested own-control producers are set to zero, subgroups with own
target lose their share, GRAT group targets throw, zero guide rates divide by zero,
`conditionsMet` may report false without changing anything (endless loop for the caller), an empty
subgroup is a NULL dereference, shutting twice reopens, LRAT in oil–gas systems counts oil twice,
non-root REIN/VREP are ignored (all in `Props/WellsGroupCases.lean`).  `WellsManager`: wildcards in
WCONINJE/WCONPROD rejected, COMPDAT wildcard perforates only the first match, I > nx aliases another cell,
WELSPECS well without control line is undefined, SHUT with GRUP control opens the well.
`WellTree`: a well as parent group is undefined behaviour, cycles are silently lost, repeated WELSPECS
shift well numbers, the default guide rate −1 is used as is.

**Deck reading and parameters.** `readDefaultedVectorData` overflows the heap when repeats go beyond the
buffer, accepts negative default counts; `2* 5` repeats 5; "/remark" and "1*/" are rejected.  Tables: incomplete rows dropped,
a negative first number taken as a comment, a single known value is undefined behaviour.
Parameters: `insertParameter` with names of slashes and blank lines in files hang; `NonEmpty` accepts
exactly the empty string; an empty group writes `dummy=0`.

**Grids and geometry.** `cart_grid.c` with a zero dimension leaves dangling neighbours.  `preprocess.c`: heap overflow of
the intersections array (`crossings_overflow`); inputs given by heights put nodes off sloped
pillars (`nodes_off_pillars`); `get_zcorn_sign` returns −3 when both signs fail; return values of `finduniquepoints`
ignored.  `geometry.c`: folded faces get too large areas and wrong cell volumes (`folded_face`), plane cell centres
are vertex means (`centre_not_centroid`).  `ColumnExtract` keeps old columns.  `CellQuadrature` on a line announces
one point of degree 2 and then asserts (`one_dimension`); the constant of the rule in space is rounded.
`FlowBCManager`: cells behind inactive cells are not on the side; without cells on the side `pressureSide` is undefined behaviour,
`fluxSide` silently drops the flux.

**Pressure.** `ifs_tpfa.c`: the increment assembly dereferences NULL forces (`increment_needs_forces`);
an isolated first cell leaves the system singular.  `ifsh_assemble`/`cfsh_assemble` never reset the
matrix (`assembled_twice`); flux conditions have the opposite sign of `ifs_tpfa.c`; `cfsh_assemble`
doubles the first element of a regular system, so fluid passes closed faces (`closed_compressible_leaks`);
`hybsys_compute_press_flux_well` moves by `2·ngconn` instead of `ngconn²` (`well_correction_wrong`);
`ifsh_impose_well_control` uses the wrong stride; `trans_tpfa.c` gives a face without cells an infinite value.

**Transport.** `spu_explicit.c` is not upstream for zero total flux with negative gravity flux.  `TofReorder`: tracers of fed source
cells are spoiled (`fed_source_spoils_tracers`), circulation is not solved.  `TransportSolverTwophaseReorder`: with circulation and large time
steps the sweeps stop early and water is not conserved (`circulation_creates_water`); with several common faces
of column neighbours only the last counts (`only_last_face`).  Compressible: water in excess of what a full cell can hold is lost
(`excess_water_lost`); miscibility is checked in the first cell only (`miscibility_undetected`).

**Fluid and rock properties.** Constant compressibility swells far below the reference pressure (`const_swells`);
dead-fluid extrapolation may be negative; live oil jumps at bubble points (`jump_at_bubble_point`), is inconsistent without oil, is undefined
with one record; live gas: non-zero derivative where the value is constant, mixed records undefined; viscosity
is NaN without fluid while B is 1.  Live oil in a deck without gas reads the next point (`live_oil_without_gas`).
`BlackoilPropertiesBasic::matrix` asserts with three accepted phases.  Saturation functions: Stone2 ∂kr_o/∂s_g
wrong (`stone2_derivative_wrong`), Gwseg derivative not finite, clip not applied to derivative, extrapolation negative,
SATNUM ≤ 0 undefined.  End-point scaling: water tests KRO instead of KRW, ENDSCALE with models other than the simple one reads
members that are never set, derivatives with scaling always throw.  Rock: PERMXY/PERMYX contradictions accepted,
tensors need not be positive definite, a deck without permeability has zero permeability.
`RockCompressibility`: without a table the reported compressibility is not that of the multiplier away from the reference pressure.

**Initial states and utilities.** Single-phase initialisation undefined; re-initialisation keeps old
values; without contact the number of steps overflows `int`; flat grids divide by zero; datum at the top or above the grid gives
wrong pressures.  `wellsToSrc` overwrites shared cells; `computePhaseMobilities` (black oil) loops over
`props.numCells()` instead of the given cells; crossflow into producers is ignored by transport sources.
`SimulatorTimer::setCurrentStepNum` does not refuse bad steps.

**Incompressible pressure solver.** `IncompTpfa` never clears `wdp_`, and `computeWDP` appends: from the second call on, wells use
the hydrostatic offsets of the first call's saturations (`stale_well_offsets`).  Other hazards seen while modelling: on
two-dimensional grids with wells `gravity_[2]` and `cell_centroids[3*c+2]` are read past the end; with wells but no perforations the
offsets are a null pointer; `maxiter <= 0` returns an unconverged state without an error
(`no_iterations_no_error`); with rock compressibility shut wells are reported with pressure zero, without it their pressure is kept.

**Implicit transport solver.** `TransportSolverTwophaseImplicit::solve` prints the Newton report and returns normally, also when the
iteration did not converge (`unconverged_returns`).  The absolute tolerance is a volume of 1e-6 which no parameter changes, and the default
initial guess is one half: cells with smaller pore volumes are set to 1/2 although nothing flows (`small_cells_half`).  A settled column
(water below oil, no total flux) fails the assertion `mt > 0`, or computes 0/0, when the lower cell is the first side of the face
(`settled_column_asserts`), and works when the face is turned round (`settled_column_reversed`).  Only the first pore volume is compared
with the one at construction.  If the last line-search iterate is out of range the residual in memory belongs to an earlier iterate.  With the
two-phase deck properties d kr_o / d s_w is stored off the diagonal, while `SinglePointUpwindTwoPhase` reads diagonal entries only, so
its Jacobian ignores the oil mobility's derivative.

**Compressible pressure residual.** A shut well sets the flag that marks a pressure condition, so a system with incompressible fluids and
only shut and rate-controlled wells is singular but neither adjusted nor reported (`shut_well_not_adjusted`).  `compute_flux` divides by the
total mobility of boundary faces to obtain a flux of zero, which is 0/0 where no phase is mobile (`immobile_boundary`).  `compute_wflux` takes
cell mobilities for flow into a well, while the assembly takes the perforation's; for injectors with cross flow the reported rates are not the
balanced ones (`crossflow_mismatch`).

**Compressible pressure solver.** `computeFaceDynamicData` compares the vectors of phase potentials (`pot[0] < pot[1]`) inside the loop over
phases instead of their elements, so the first phase whose potentials differ chooses the upstream cell for all phases; under gravity a phase can
get the mobility of the downstream cell (`Demo.wrong_upstream`).  With `maxiter <= 0` a call returns without error whatever the residual
(`idle_call`, `Demo.unconverged_accepted`).  After a small increment fluxes use mobilities at the previous pressures, and the residual at the
returned pressures is not checked (in the statement of `compressible_solve`).

**Discontinuous Galerkin basis and limiter.** `DGBasisMultilin::addConstant` adds `increment/nb` to each of the `nb` coefficients; the basis
functions sum up to one, so it adds `increment/nb` to the function, not `increment` (`addConstant_multilin_wrong`).  The limiter relies on it:
with the tensorial basis a cell whose average is below the bound stays below it (`multilin_flat`).  A cell without upstream face is not limited
at all, though its values may be negative, because both minima are set to zero and the multiplier is one (`no_upstream_untouched`).  A constant
solution equal to its bound gives 0/0 and fails the assertion (`constant_at_bound_fails`).
`solveMultiCell` of the discontinuous Galerkin method solves each cell of a circulation once, so their equations are not solved even if they
have a solution (`Opm.TofDiscGal.circulation_not_solved`).
With multidimensional upwinding `solveSingleCellMultidimUpwind` calls `multidimUpwindTerms` for faces without flux too, though that function
is documented to require a flux other than zero.  If such a face is beside one with inflow, infinity is divided by infinity and the time of
flight of the cell is not a number: in every mesh without circulation with one such pair of faces (`Opm.TofMultidim.solveTof_fails`), for
instance a channel between two closed walls (`channel_fails`).
`GridManager` is documented to verify that a deck in tensor format has no `ACTNUM`, and one in corner-point format no `DXV`, `TOPS` and so on.
It does not: `ACTNUM` is ignored and inactive cells are in the grid (`Opm.GridManager.inactive_cell_kept`).  `TOPS` without values is read out
of bounds (`empty_tops`).
`EclipseGridInspector::cellDips` divides by the number of edges that do not touch the top or the bottom of the model.  In a flat model of one
layer there is none and the dips are not numbers (`Opm.GridInspector.Props.dips_fail`, `flat_fails`).  `getGridLimits` insists on `SPECGRID`, although
the constructor accepts a deck with `DIMENS` only; limits and dips of such a deck end in an exception (`dimens_fails`).
`CornerPointChopper::chop` with the origin reset gives the two ends of each pillar new depths but keeps their places in the plane.  Slanted
pillars are distorted (`Opm.Chopper.Props.slanted_fails`).  The new length is computed from the limits asked for, before they are narrowed (`length_fails`).

## 5. What is modelled and what is not

Modelled (every definition in `Verif/Model` cites file and lines):

* graphs and ordering: `tarjan.c`, `reordersequence.cpp`, `dfs.c`, `ReorderSolverInterface.cpp`;
* coarsening: `partition.c`, `coarse_conn.c`, `hash_set.c`;
* linear algebra containers: `sparse_sys.c`, `SparseTable.hpp`, `SparseVector.hpp`;
* grids: `cart_grid.c`, `GridManager.cpp` (grids from decks), `EclipseGridInspector.cpp`, `CornerpointChopper.hpp`, `preprocess.c`, `facetopology.c`, `uniquepoints.c`, `geometry.c`, `ColumnExtract.hpp`,
  `CellQuadrature.hpp`, `FaceQuadrature.hpp`;
* pressure: `IncompTpfa.cpp`, `CompressibleTpfa.cpp`, `ifs_tpfa.c`, `cfs_tpfa_residual.c`, `trans_tpfa.c`, `hybsys.c`, `hybsys_global.c`, `fsh_common_impl.c`, `ifsh.c`, `cfsh.c`, `mimetic.c`,
  `flow_bc.c`, `FlowBCManager.cpp`, `compr_bc.c`, `compr_source.c`, `transport_source.c`;
* transport: `spu_explicit.c`, `transport/implicit` (all but `makefhfQPeriodic`), `TransportSolverTwophaseReorder.cpp`, `TransportSolverCompressibleTwophaseReorder.cpp` (without
  its gravity part), `TofReorder.cpp` (single-point and multidimensional upwinding), `DGBasis.cpp`, `TofDiscGalReorder.cpp` (without its parameters);
* wells: `wells.c`, `WellsGroup.cpp`, `WellCollection.cpp`, `WellsManager.cpp` (deck constructor);
* properties: all of `props/pvt`, `props/satfunc`, `props/rock`, `BlackoilProperties*`, `IncompProperties*`, `phaseUsageFromDeck.hpp`;
* states and time: `initState_impl.hpp`, `TwophaseState.hpp`, `BlackoilState.hpp`, `WellState.hpp`, `SimulatorTimer.cpp`;
* utilities: `WachspressCoord.cpp`, `VelocityInterpolation.cpp`, `miscUtilities.cpp`, `miscUtilitiesBlackoil.cpp`, `linearInterpolation.hpp`, `*TableLinear.hpp`,
  `MonotCubicInterpolator`, `RootFinders.hpp`, `buildUniformMonotoneTable.hpp`, parameters (`ParameterGroup*`, `ParameterRequirement.hpp`);
* deck text: `EclipseGridParserHelpers.hpp`.

Not modelled: the multiscale solvers (`coarse_sys.c`, `ifsh_ms.c`), the older compressible solver `cfs_tpfa.c`,
wells in the hybrid systems, the main loop of
`EclipseGridParser.cpp`, output (`vtk`, `vag`, ECL files), TinyXML, external linear solvers (UMFPACK, AGMG, Istl; a
solver is represented by the hypothesis that its result solves the system), the simulator main loops, rounding,
NaN propagation (a division by zero is the outcome `nonFinite`), integer overflow except where a property names it, memory
exhaustion and concurrency (the code is sequential).

## 6. Trusted base

* Lean 4.33.0's kernel and the statements of Mathlib's definitions used (fields, finite sums, integrals in C108 only).
* Axioms: every one of the 655 theorems named in `MANIFEST.json` depends at most on `propext`, `Classical.choice` and
  `Quot.sound` (checked with `#print axioms`).  No axioms are added, and no `sorry`, `native_decide`
  or `bv_decide` is used.
* The reading of the C/C++ source recorded in the comments of the model, and the standing simplifications above.
* Parameters with a stated contract in place of library code: `qsort`/`std::sort` (a sorted permutation), `bsearch`,
  the hash function, square roots, LAPACK orthonormalisation, the linear solver.

Wrong programs: `seeded/LOG.jsonl` lists the edits of the model that were tried, the theorems that failed for each, and those
that had to be tightened because they survived.
