{
 "claims": [
  {
   "property": "C01",
   "status": "proved",
   "theorems": [
    "Opm.Tarjan.Props.tarjan_safe_permutation"
   ],
   "note": "For all CSR graphs and buffer contents; explicit linear fuel bound."
  },
  {
   "property": "C02",
   "status": "proved",
   "theorems": [
    "Opm.Tarjan.Props.tarjan_strong_components",
    "Opm.Tarjan.Props.tarjan_acyclic_order"
   ],
   "note": "Blocks are exactly the strong components, in reverse topological order."
  },
  {
   "property": "C03",
   "status": "proved",
   "theorems": [
    "Opm.Reorder.Props.compute_sequence_upwind",
    "Opm.Reorder.Props.upwind_graph_exact",
    "Opm.Reorder.Props.compute_sequence_empty_mesh"
   ],
   "note": "All valid meshes and flux fields; on an empty mesh the code trips its own assertion (finding)."
  },
  {
   "property": "C04",
   "status": "proved",
   "theorems": [
    "Opm.Reorder.Props.reorderAndTransport_order"
   ],
   "note": "All valid nonempty meshes."
  },
  {
   "property": "C05",
   "status": "proved",
   "theorems": [
    "Opm.Dfs.dfs_components",
    "Opm.Dfs.dfs_self_connections_wrong"
   ],
   "note": "All symmetric CSR graphs with self connections first in their rows; the second theorem is a witness that the restriction is needed (finding)."
  },
  {
   "property": "C06",
   "status": "proved",
   "theorems": [
    "Opm.Partition.compress_renumbers"
   ],
   "note": "All non-empty non-negative vectors."
  },
  {
   "property": "C07",
   "status": "proved",
   "theorems": [
    "Opm.Partition.invert_lists_blocks"
   ],
   "note": "All non-negative vectors, any buffer contents."
  },
  {
   "property": "C08",
   "status": "proved",
   "theorems": [
    "Opm.Partition.localidx_rank"
   ],
   "note": "All non-negative vectors; composed with partition_invert."
  },
  {
   "property": "C09",
   "status": "proved",
   "theorems": [
    "Opm.Partition.unif_idx_balanced",
    "Opm.Partition.unif_idx_too_many_bins"
   ],
   "note": "Any number of dimensions, 1 <= coarse <= fine; otherwise division by zero (witness)."
  },
  {
   "property": "C10",
   "status": "partial",
   "theorems": [
    "Opm.Partition.split_disconnected_partial",
    "Opm.Partition.split_disconnected_repaired",
    "Opm.Partition.split_disconnected_heap_overflow",
    "Opm.Partition.split_disconnected_wrong_split"
   ],
   "note": "The code violates the property (pc2c[0] is never reset): two witnesses. Proved for partitions where cell 0 is alone in its block, and in full for the function with the missing reset added."
  },
  {
   "property": "C100",
   "status": "proved",
   "theorems": [
    "Opm.InitState.deck_equil",
    "Opm.InitState.deck_two_phases",
    "Opm.InitState.deck_three_phases",
    "Opm.InitState.deck_rejects",
    "Opm.InitState.surface_volumes",
    "Opm.InitState.well_state"
   ],
   "note": "Arrays of the deck have at least the length of the logical grid."
  },
  {
   "property": "C101",
   "status": "partial",
   "theorems": [
    "Opm.InitState.march_steps",
    "Opm.InitState.points_hydrostatic_partial",
    "Opm.InitState.depth_range",
    "Opm.InitState.flat_undefined",
    "Opm.InitState.default_undefined",
    "Opm.InitState.comp_default_undefined",
    "Opm.InitState.datum_at_top",
    "Opm.InitState.datum_above_grid"
   ],
   "note": "False in general: without a contact the number of steps overflows (comp_default_undefined), a flat grid divides by zero, with the datum at the top nothing is computed below the contact (datum_at_top), and with the datum above the grid oil is weighed below the contact (datum_above_grid). Proved: the points are hydrostatic when the datum is within the grid. Missing: the error of the monotone interpolation between the points."
  },
  {
   "property": "C102",
   "status": "proved",
   "theorems": [
    "Opm.Geometry.face_geometry",
    "Opm.Geometry.face_geom",
    "Opm.Geometry.face_geom_undefined",
    "Opm.Geometry.normal_perpendicular",
    "Opm.Geometry.area_ge_normal",
    "Opm.Geometry.area_eq_normal",
    "Opm.Geometry.edge_geometry"
   ],
   "note": "Square roots are a parameter, with the defining equation as hypothesis where needed"
  },
  {
   "property": "C103",
   "status": "partial",
   "theorems": [
    "Opm.Geometry.cell_geometry",
    "Opm.Geometry.cell_geom",
    "Opm.Geometry.closed_normals",
    "Opm.Geometry.tetrahedron",
    "Opm.Geometry.folded_face"
   ],
   "note": "Exact for faces that do not fold about the mean of their nodes; folded_face proves that volume and area are wrong for a prism over a non-convex quadrilateral"
  },
  {
   "property": "C104",
   "status": "partial",
   "theorems": [
    "Opm.Geometry.cell_geometry_2d",
    "Opm.Geometry.polygon_geom",
    "Opm.Geometry.edge_normals",
    "Opm.Geometry.centre_not_centroid"
   ],
   "note": "Areas and normals proved; the centroid part is false of the code, see centre_not_centroid"
  },
  {
   "property": "C105",
   "status": "proved",
   "theorems": [
    "Opm.FlowBcManager.manager_is_a_list",
    "Opm.FlowBcManager.find_side_faces",
    "Opm.FlowBcManager.find_side_rejects",
    "Opm.FlowBcManager.pressure_side",
    "Opm.FlowBcManager.flux_side",
    "Opm.FlowBcManager.shares",
    "Opm.FlowBcManager.cart_side_faces",
    "Opm.FlowBcManager.behind_inactive_cells",
    "Opm.FlowBcManager.pressure_side_without_cells"
   ],
   "note": "The undefined case (no cell on the side) is proved as such"
  },
  {
   "property": "C106",
   "status": "proved",
   "theorems": [
    "Opm.CompressibleReorder.transport_solved",
    "Opm.CompressibleReorder.transport_solved_upwind",
    "Opm.CompressibleReorder.water_balance",
    "Opm.CompressibleReorder.surfacevol_matrix",
    "Opm.CompressibleReorder.excess_water_lost",
    "Opm.CompressibleReorder.miscibility_undetected"
   ],
   "note": "Circulation included. The last two record that excess water is lost silently and that miscibility is only checked in the first cell. The gravity part of the file is not modelled."
  },
  {
   "property": "C107",
   "status": "proved",
   "theorems": [
    "Opm.MiscBlackoil.phase_mobilities_eq",
    "Opm.MiscBlackoil.fewer_cells_undefined",
    "Opm.MiscBlackoil.total_mobility_eq",
    "Opm.MiscBlackoil.fractional_flow_eq",
    "Opm.MiscBlackoil.injected_produced_eq",
    "Opm.MiscBlackoil.injected_produced_sizes",
    "Opm.MiscBlackoil.transport_source_eq",
    "Opm.MiscBlackoil.reported_water_balance"
   ],
   "note": "The properties are arbitrary functions of pressure, surface volumes, saturations and cell. The combined balance is for meshes without circulation and immiscible fluids."
  },
  {
   "property": "C108",
   "status": "proved",
   "theorems": [
    "Opm.Quadrature.cell_quadrature_2d",
    "Opm.Quadrature.cell_quadrature_3d",
    "Opm.Quadrature.face_quadrature_2d",
    "Opm.Quadrature.face_quadrature_3d",
    "Opm.Quadrature.degree_one",
    "Opm.Quadrature.unsupported",
    "Opm.Quadrature.one_dimension"
   ],
   "note": "Integrals are real integrals over parametrised simplices, from Mathlib. The stored centroids of faces in the plane must be the midpoints."
  },
  {
   "property": "C109",
   "status": "proved",
   "theorems": [
    "Opm.Hybsys.hybrid_pressure",
    "Opm.Hybsys.construct_fits",
    "Opm.Hybsys.assembled_twice",
    "Opm.Hybsys.well_correction_wrong"
   ],
   "note": "Incompressible hybrid system without wells. The caller has to zero the matrix: assembled_twice shows that successive assemblies add up. Prescribed fluxes are positive out of the reservoir, unlike in the two-point solver. The back substitution with wells is modelled only to show its wrong offset (well_correction_wrong)."
  },
  {
   "property": "C11",
   "status": "proved",
   "theorems": [
    "Opm.HashSet.hash_set_is_set",
    "Opm.HashSet.hash_set_size_least",
    "Opm.HashSet.hashIdx_lt"
   ],
   "note": "any hash function with values in range; capacity at most 2^63"
  },
  {
   "property": "C110",
   "status": "partial",
   "theorems": [
    "Opm.Hybsys.compressible_hybrid_pressure_partial",
    "Opm.Hybsys.closed_compressible_leaks"
   ],
   "note": "Proved when a pressure is prescribed somewhere. Without one the claim is false: the first matrix element is doubled although the system is regular (closed_compressible_leaks)."
  },
  {
   "property": "C111",
   "status": "proved",
   "theorems": [
    "Opm.Mimetic.inner_products_consistent",
    "Opm.Mimetic.inner_products_positive",
    "Opm.Mimetic.inner_products_for_hybrid",
    "Opm.Mimetic.gravity_terms",
    "Opm.Mimetic.mobility_update",
    "Opm.Mimetic.density_update"
   ],
   "note": "Over an arbitrary (ordered) field; the LAPACK orthonormalisation is a parameter of which its documented result is assumed. The geometric identity of closed cells is a hypothesis."
  },
  {
   "property": "C112",
   "status": "proved",
   "theorems": [
    "Opm.IncompTpfa.incompressible_solve",
    "Opm.IncompTpfa.make_succeeds",
    "Opm.IncompTpfa.make_refuses",
    "Opm.IncompTpfa.exists_exact"
   ],
   "note": "Linear solver is a parameter assumed exact; exact arithmetic."
  },
  {
   "property": "C113",
   "status": "partial",
   "theorems": [
    "Opm.IncompTpfa.first_solve_offsets",
    "Opm.IncompTpfa.incompressible_solve",
    "Opm.IncompTpfa.stale_well_offsets",
    "Opm.IncompTpfa.Demo.second_call_is_wrong"
   ],
   "note": "True of the first call on an object; false of later calls: computeWDP appends to wdp_, which is never cleared, so later calls use the offsets of the first call. stale_well_offsets proves the negation for every input where the offsets differ."
  },
  {
   "property": "C114",
   "status": "partial",
   "theorems": [
    "Opm.IncompTpfa.rock_solve_partial",
    "Opm.IncompTpfa.used_ready_rock",
    "Opm.IncompTpfa.constant_rock",
    "Opm.IncompTpfa.Demo.no_iterations_no_error"
   ],
   "note": "Throws or returns an accepted state with Darcy fluxes, over all histories, for at least one allowed iteration. Missing: the size of the imbalance when wells exist and the initial pressures were accepted as they are. The last sentence is false with an iteration limit of zero: an unconverged state is returned without error (no_iterations_no_error)."
  },
  {
   "property": "C115",
   "status": "proved",
   "theorems": [
    "Opm.ImplicitTransport.implicit_step",
    "Opm.ImplicitTransport.implicit_step_bounds",
    "Opm.ImplicitTransport.changed_porevolume"
   ],
   "note": "All exits of Newton iteration and line search, any linear solver answers of the right length, all histories of one object. Assumes that on faces without total flux the upstream mobilities are not both zero (StateOk.moving); without it the code asserts (Demo.settled_column_asserts)."
  },
  {
   "property": "C116",
   "status": "partial",
   "theorems": [
    "Opm.ImplicitTransport.implicit_step_conserves_partial",
    "Opm.ImplicitTransport.Demo.unconverged_returns",
    "Opm.ImplicitTransport.Demo.small_cells_half",
    "Opm.ImplicitTransport.Demo.settled_column_asserts",
    "Opm.ImplicitTransport.Demo.settled_column_reversed"
   ],
   "note": "Proved for steps reported as converged by their residual, with the initial guess in the admissible range. The full claim is false: a step that does not converge returns normally (unconverged_returns), and the absolute tolerance is not related to pore volumes (small_cells_half)."
  },
  {
   "property": "C117",
   "status": "proved",
   "theorems": [
    "Opm.CfsTpfa.data_made",
    "Opm.CfsTpfa.assembly",
    "Opm.CfsTpfa.rock_assembly",
    "Opm.CfsTpfa.fluxes_affine",
    "Opm.CfsTpfa.newton_fills",
    "Opm.CfsTpfa.newton_wells"
   ],
   "note": "LAPACK is assumed to solve small systems with regular matrices (exists_lapack shows the assumption can be met); doubles are rationals"
  },
  {
   "property": "C118",
   "status": "partial",
   "theorems": [
    "Opm.CfsTpfa.adjusted_iff",
    "Opm.CfsTpfa.rock_assembly",
    "Opm.CfsTpfa.shut_well_not_adjusted"
   ],
   "note": "proved: the exact condition under which the system is adjusted. The property is false of the code: a shut well counts as a pressure control (shut_well_not_adjusted); with rock the condition also requires the pore volume not to have changed"
  },
  {
   "property": "C119",
   "status": "partial",
   "theorems": [
    "Opm.CfsTpfa.face_fluxes_partial",
    "Opm.CfsTpfa.fluxes_and_rates",
    "Opm.CfsTpfa.perf_rates_partial",
    "Opm.CfsTpfa.crossflow_mismatch",
    "Opm.CfsTpfa.immobile_boundary",
    "Opm.CfsTpfa.face_pressures"
   ],
   "note": "faces: proved if every boundary face has a mobile phase, otherwise 0/0 (immobile_boundary). Perforations: proved for flow into the reservoir; for flow into a well with its own mobilities the rates differ (crossflow_mismatch)"
  },
  {
   "property": "C12",
   "status": "proved",
   "theorems": [
    "Opm.SparseSys.csr_construction"
   ],
   "note": "counting order may differ from push order"
  },
  {
   "property": "C120",
   "status": "partial",
   "theorems": [
    "Opm.CompressibleTpfa.make_succeeds",
    "Opm.CompressibleTpfa.make_refuses",
    "Opm.CompressibleTpfa.compressible_solve",
    "Opm.CompressibleTpfa.tolerance_met_partial",
    "Opm.CompressibleTpfa.idle_call",
    "Opm.CompressibleTpfa.Demo.unconverged_accepted"
   ],
   "note": "The outcome of every call is characterised; acceptance by one of the tolerances is proved when at least one iteration is allowed and refuted otherwise: with maxiter <= 0 any state is accepted."
  },
  {
   "property": "C121",
   "status": "partial",
   "theorems": [
    "Opm.CompressibleTpfa.upstream_partial",
    "Opm.CompressibleTpfa.upstream_one_phase",
    "Opm.CompressibleTpfa.face_properties_partial",
    "Opm.CompressibleTpfa.Demo.wrong_upstream"
   ],
   "note": "Proved when all phases flow in the same direction (always with one phase). Refuted in general: the code compares vectors of potentials inside the loop over phases, so the first phase with different potentials decides for all."
  },
  {
   "property": "C122",
   "status": "proved",
   "theorems": [
    "Opm.Wachspress.construct_iff",
    "Opm.Wachspress.construct_made",
    "Opm.Wachspress.numCorners_eq",
    "Opm.Wachspress.cartToBary_bary",
    "Opm.Wachspress.cartToBary_vertex",
    "Opm.Wachspress.cartToBary_linear",
    "Opm.Wachspress.cartToBary_sum"
   ],
   "note": "Square with a triangle beside it and tetrahedron as examples."
  },
  {
   "property": "C123",
   "status": "proved",
   "theorems": [
    "Opm.Wachspress.ecvi_velocity",
    "Opm.Wachspress.interpolateConstant_eq",
    "Opm.Wachspress.interpolateConstant_exact"
   ],
   "note": "dgesv_ is a parameter that solves regular systems."
  },
  {
   "property": "C124",
   "status": "partial",
   "theorems": [
    "Opm.DGBasis.constructor_outcome",
    "Opm.DGBasis.number_of_functions",
    "Opm.DGBasis.eval_writes_values",
    "Opm.DGBasis.evalFunc_value",
    "Opm.DGBasis.gradient_is_derivative",
    "Opm.DGBasis.average_at_centroid",
    "Opm.DGBasis.average_of_mass",
    "Opm.DGBasis.average_over_box",
    "Opm.DGBasis.addConstant_adds_partial",
    "Opm.DGBasis.addConstant_multilin",
    "Opm.DGBasis.addConstant_multilin_wrong",
    "Opm.DGBasis.multiplyGradient_scales"
   ],
   "note": "All parts are proved except addConstant for the multilinear basis of degree 1, of which the claim is false: it adds increment divided by the number of basis functions (addConstant_multilin), and so fails for every cell and every increment but zero (addConstant_multilin_wrong)."
  },
  {
   "property": "C125",
   "status": "partial",
   "theorems": [
    "Opm.TofLimiter.degree_refused",
    "Opm.TofLimiter.only_the_cell",
    "Opm.TofLimiter.limited_partial",
    "Opm.TofLimiter.average_kept",
    "Opm.TofLimiter.raised_to_bound",
    "Opm.TofLimiter.multilin_flat",
    "Opm.TofLimiter.good_cell_untouched",
    "Opm.TofLimiter.returns",
    "Opm.TofLimiter.no_upstream_untouched",
    "Opm.TofLimiter.constant_at_bound_fails",
    "Opm.TofLimiter.simultaneous_limits_partial",
    "Opm.TofLimiter.postProcess_nonneg_partial",
    "Opm.TofLimiter.multilin_not_limited",
    "Opm.TofLimiter.source_cell_not_limited"
   ],
   "note": "The bound is proved for cells with an upstream face and, for the multilinear basis, an average not below the bound. It is false otherwise: a cell without upstream face is left alone even where it is negative (no_upstream_untouched, source_cell_not_limited), and with the multilinear basis a low average is raised by a fraction of what is missing only (multilin_flat, multilin_not_limited). A constant solution equal to its bound makes the call fail (constant_at_bound_fails)."
  },
  {
   "property": "C126",
   "status": "proved",
   "theorems": [
    "Opm.TofDiscGal.solveTof_equations",
    "Opm.TofDiscGal.solution_unique",
    "Opm.TofDiscGal.solves",
    "Opm.TofDiscGal.solves_limited",
    "Opm.TofDiscGal.solveTof_post",
    "Opm.TofDiscGal.unique",
    "Opm.TofDiscGal.singular_thrown",
    "Opm.TofDiscGal.conserved",
    "Opm.TofDiscGal.degree_zero",
    "Opm.TofDiscGal.degree_zero_regular",
    "Opm.TofDiscGal.circulation_not_solved",
    "Opm.TofDiscGal.squares_exact"
   ],
   "note": "Regularity of the cells' small matrices (proved for degree 0), the points and weights of the quadrature (their construction is another property) and the velocities are hypotheses; squares_exact meets them with linear functions on two squares and finds the exact solution. LAPACK is a parameter that solves regular systems."
  },
  {
   "property": "C127",
   "status": "partial",
   "theorems": [
    "Opm.TofMultidim.solveTof_partial",
    "Opm.TofMultidim.solveTof_fails",
    "Opm.TofMultidim.channel_fails",
    "Opm.TofMultidim.cell_solved",
    "Opm.TofMultidim.cell_fails",
    "Opm.TofMultidim.unique",
    "Opm.TofMultidim.faceValue_between",
    "Opm.TofMultidim.nonneg",
    "Opm.TofMultidim.solveTof_nonneg_partial",
    "Opm.TofMultidim.sources_thrown"
   ],
   "note": "The code violates the property: a face without flux beside a face with inflow makes the result not a number (solveTof_fails; channel_fails is a channel between two walls). Proved for all other meshes (solveTof_partial), so that the two theorems together say for each mesh without circulation what happens."
  },
  {
   "property": "C128",
   "status": "proved",
   "theorems": [
    "Opm.GridManager.boxes",
    "Opm.GridManager.with_depthz",
    "Opm.GridManager.with_tops",
    "Opm.GridManager.wrong_size",
    "Opm.GridManager.incomplete",
    "Opm.GridManager.inactive_cell_kept",
    "Opm.GridManager.empty_tops"
   ],
   "note": "The geometry computed from the nodes of a layered grid is that of the properties on compute_geometry. Not verified by the code although its comment says so: keywords of the other format (inactive_cell_kept)."
  },
  {
   "property": "C129",
   "status": "partial",
   "theorems": [
    "Opm.GridInspector.Props.logical_coords",
    "Opm.GridInspector.Props.depths",
    "Opm.GridInspector.Props.volume",
    "Opm.GridInspector.Props.volume_tilted",
    "Opm.GridInspector.Props.rejected",
    "Opm.GridInspector.Props.limits",
    "Opm.GridInspector.Props.dips_partial",
    "Opm.GridInspector.Props.dips_fail",
    "Opm.GridInspector.Props.dips_tilted_partial",
    "Opm.GridInspector.Props.accepted",
    "Opm.GridInspector.Props.dimens_fails",
    "Opm.GridInspector.Props.flat_fails"
   ],
   "note": "Coordinates, depths, volumes, limits and exceptions are proved in full. The code violates the claim on dips: they are not numbers for a cell all of whose edges along a direction touch the top or the bottom of the model (dips_fail, flat_fails), and an exception is thrown for decks with DIMENS only (dimens_fails); dips_partial and dips_tilted_partial hold otherwise."
  },
  {
   "property": "C13",
   "status": "proved",
   "theorems": [
    "Opm.SparseSys.sortrows_sorts",
    "Opm.SparseSys.elm_index_correct",
    "Opm.SparseSys.sortrows_then_elm_index"
   ],
   "note": "qsort modelled by its unique result; bsearch as in the GNU C library"
  },
  {
   "property": "C130",
   "status": "partial",
   "theorems": [
    "Opm.Chopper.Props.part",
    "Opm.Chopper.Props.field",
    "Opm.Chopper.Props.empty_thrown",
    "Opm.Chopper.Props.corner_x_partial",
    "Opm.Chopper.Props.slanted_fails",
    "Opm.Chopper.Props.length_fails"
   ],
   "note": "Columns, layers, depths, pillars, fields for cells and exceptions are proved (part, field, empty_thrown). The code violates the claim on the place in the plane: slanted pillars are distorted if the origin is reset (slanted_fails); corner_x_partial covers kept and vertical pillars. The length of the pillars belongs to the limits asked for and not to those used (length_fails)."
  },
  {
   "property": "C14",
   "status": "proved",
   "theorems": [
    "Opm.SparseTable.C14_sparsetable_refines_rows",
    "Opm.SparseTable.C14_equality_is_row_equality",
    "Opm.SparseTable.C14_failed_assign_corrupts"
   ],
   "note": "Refinement over all histories without caught exceptions; the third theorem records that a refused assign leaves a corrupt table."
  },
  {
   "property": "C15",
   "status": "proved",
   "theorems": [
    "Opm.SparseVector.sparse_vector_is_function",
    "Opm.SparseVector.sparse_vector_constructor",
    "Opm.SparseVector.sparse_vector_constructor_element",
    "Opm.SparseVector.negative_index_accepted"
   ],
   "note": "Refinement to a finitely supported function over every operation history; finding: addElement accepts a negative first index."
  },
  {
   "property": "C16",
   "status": "proved",
   "theorems": [
    "Opm.Interp.table_index_increasing",
    "Opm.Interp.table_index_decreasing"
   ],
   "note": ""
  },
  {
   "property": "C17",
   "status": "proved",
   "theorems": [
    "Opm.Interp.interpolation_reproduces",
    "Opm.Interp.interpolation_between",
    "Opm.Interp.interpolation_extrapolates",
    "Opm.Interp.interpolation_monotone",
    "Opm.Interp.interpolation_monotone_decreasing",
    "Opm.Interp.interpolation_derivative"
   ],
   "note": ""
  },
  {
   "property": "C18",
   "status": "partial",
   "theorems": [
    "Opm.Interp.nonuniform_inverse_partial",
    "Opm.Interp.nonuniform_inverse_repaired",
    "Opm.Interp.inverse_after_rescale_wrong",
    "Opm.Interp.new_accepts_iff",
    "Opm.Interp.repeated_abscissas_divide_by_zero"
   ],
   "note": "The full property is false: rescaleDomain leaves the cached reversed vectors of decreasing tables stale (witness proved). Proved for histories without a rescale after a cached inverse, and in full for the repaired code."
  },
  {
   "property": "C19",
   "status": "proved",
   "theorems": [
    "Opm.Interp.uniform_new",
    "Opm.Interp.uniform_new_proper",
    "Opm.Interp.uniform_rescale",
    "Opm.Interp.uniform_eval",
    "Opm.Interp.uniform_covered",
    "Opm.Interp.uniform_node",
    "Opm.Interp.uniform_outside",
    "Opm.Interp.uniform_derivative",
    "Opm.Interp.uniform_policy",
    "Opm.Interp.uniform_beq_iff"
   ],
   "note": ""
  },
  {
   "property": "C20",
   "status": "proved",
   "theorems": [
    "Opm.RootFinders.regula_falsi_bracket",
    "Opm.RootFinders.regula_falsi_throwing",
    "Opm.RootFinders.regula_falsi_not_bracketed",
    "Opm.RootFinders.regula_falsi_guess_bracket",
    "Opm.RootFinders.guess_returns_worse_end"
   ],
   "note": "Exact arithmetic, tolerance >= 0. Finding: with an initial guess the tolerant policies may return the end point with the larger residual."
  },
  {
   "property": "C21",
   "status": "proved",
   "theorems": [
    "Opm.RootFinders.bracketZero_sign_change"
   ],
   "note": ""
  },
  {
   "property": "C22",
   "status": "proved",
   "theorems": [
    "Opm.Wells.wells_are_a_list",
    "Opm.Wells.one_distribution_per_control",
    "Opm.Wells.stale_distribution_after_clear"
   ],
   "note": "Refinement of the structure of arrays to a list of wells, all histories, all allocation hints; also shows the stale distribution after clear_well_controls."
  },
  {
   "property": "C23",
   "status": "partial",
   "theorems": [
    "Opm.Wells.clone_equals_original_partial",
    "Opm.Wells.clone_equals_original_without_clear",
    "Opm.Wells.clone_rejects_reachable_wells"
   ],
   "note": "The clone equals the original exactly when each current control exists; proved for all histories without clear_well_controls. The full claim is false: cleared wells cannot be cloned."
  },
  {
   "property": "C24",
   "status": "proved",
   "theorems": [
    "Opm.FlowBc.flow_conditions_are_a_list"
   ],
   "note": "Refinement to a list of conditions."
  },
  {
   "property": "C25",
   "status": "proved",
   "theorems": [
    "Opm.Sources.transport_sources_are_a_list",
    "Opm.Sources.compressible_sources_are_a_list"
   ],
   "note": "Refinement to lists."
  },
  {
   "property": "C26",
   "status": "partial",
   "theorems": [
    "Opm.Sources.compr_bc_is_a_list_partial",
    "Opm.Sources.compr_bc_is_a_list_repaired",
    "Opm.Sources.compr_bc_second_append_fails"
   ],
   "note": "Holds within the initial capacity only: the capacity field is never updated; full claim proved for the repaired variant."
  },
  {
   "property": "C27",
   "status": "partial",
   "theorems": [
    "Opm.SimulatorTimer.C27_timer_history_partial",
    "Opm.SimulatorTimer.C27_initParam_total",
    "Opm.SimulatorTimer.C27_initParam_negative",
    "Opm.SimulatorTimer.C27_setCurrentStepNum_accepts_invalid",
    "Opm.SimulatorTimer.C27_reinit_keeps_old_time"
   ],
   "note": "Holds for histories of ++/setTotalTime/in-range setCurrentStepNum after one init. The code does not refuse out-of-range step numbers (guard tests the old step) and re-init keeps the old time; both are proved as findings."
  },
  {
   "property": "C28",
   "status": "proved",
   "theorems": [
    "Opm.Cart.tensor3d_grid",
    "Opm.Cart.tensor2d_grid",
    "Opm.Cart.cart3d_grid",
    "Opm.Cart.cell_numbering",
    "Opm.Cart.node_numbering",
    "Opm.Cart.face_numbering",
    "Opm.Cart.numbering_2d",
    "Opm.Cart.normals_point_from_first_to_second",
    "Opm.Cart.normals_point_from_first_to_second_2d",
    "Opm.Cart.empty_dimension_is_invalid"
   ],
   "note": "All dimensions >= 1; a zero dimension yields dangling neighbours (witness). Valid includes: a cell lists a face iff the face lists the cell."
  },
  {
   "property": "C29",
   "status": "proved",
   "theorems": [
    "Opm.Cart.tensor3d_grid",
    "Opm.Cart.tensor2d_grid",
    "Opm.Cart.hexa3d_grid",
    "Opm.Cart.cart2d_grid",
    "Opm.Cart.normals_match_nodes",
    "Opm.Cart.normals_match_nodes_2d",
    "Opm.Cart.layered_nodes"
   ],
   "note": "Exact rational coordinates."
  },
  {
   "property": "C30",
   "status": "proved",
   "theorems": [
    "Opm.Param.inserted_parameter_is_found",
    "Opm.Param.last_insertion_wins",
    "Opm.Param.has_iff_stored",
    "Opm.Param.leading_slash_is_not_found"
   ],
   "note": "names with empty components can be inserted but not queried under the same spelling (leading_slash_is_not_found)"
  },
  {
   "property": "C31",
   "status": "partial",
   "theorems": [
    "Opm.Param.insertion_terminates_partial",
    "Opm.Param.insertion_hangs",
    "Opm.Param.spells_iff",
    "Opm.Param.blank_line_hangs",
    "Opm.Param.reading_terminates_partial"
   ],
   "note": "the property is false for empty names, names of slashes only and names ending in two slashes (proved); blank lines in parameter files hang the reader (proved)"
  },
  {
   "property": "C32",
   "status": "proved",
   "theorems": [
    "Opm.Param.get_resolves_outward",
    "Opm.Param.get_takes_innermost",
    "Opm.Param.get_fails_iff_undefined",
    "Opm.Param.getDefault_defaults_iff_not_found"
   ],
   "note": ""
  },
  {
   "property": "C33",
   "status": "partial",
   "theorems": [
    "Opm.Param.number_requirement_exact",
    "Opm.Param.string_requirement_exact_partial",
    "Opm.Param.nonEmpty_is_inverted",
    "Opm.Param.get_meets_requirement"
   ],
   "note": "NonEmpty accepts exactly the empty string (proved), so the property is false for it; all others proved"
  },
  {
   "property": "C34",
   "status": "partial",
   "theorems": [
    "Opm.Deck.vector_of_record",
    "Opm.Deck.defaulted_record_partial",
    "Opm.Deck.defaulted_stops_partial",
    "Opm.Deck.readers_end",
    "Opm.Deck.vector_of_ints_safe",
    "Opm.Deck.repeats_overflow",
    "Opm.Deck.negative_default",
    "Opm.Deck.vector_default_repeats",
    "Opm.Deck.slash_remark",
    "Opm.Deck.slash_after_default",
    "Opm.Deck.count_out_of_range"
   ],
   "note": "Character-level model of the input stream and of both readers. vector_of_record: every record without defaults, integers and decimals, is expanded and the rest of the text is left. defaulted_record_partial / defaulted_stops_partial: records with defaults, below and at the allowed number of values. readers_end: no hang on any text. The full statement is false: repeats_overflow and negative_default write outside the buffer; slash_remark, slash_after_default are rejected."
  },
  {
   "property": "C35",
   "status": "proved",
   "theorems": [
    "Opm.Spu.spu_explicit_balance",
    "Opm.Spu.spu_explicit_conserves",
    "Opm.Spu.counterflow_without_total_flux_is_not_upwind"
   ],
   "note": "spu_explicit.c. Conservation holds for all data with admissible mobilities. Upstream weighting fails for zero total flux with negative gravity flux; this is recorded as a proved counterexample."
  },
  {
   "property": "C36",
   "status": "proved",
   "theorems": [
    "Opm.Trans.trans_is_harmonic",
    "Opm.Trans.eff_trans_is_harmonic",
    "Opm.Trans.htrans_formula",
    "Opm.Trans.cartesian_trans",
    "Opm.Trans.trans_of_orphan_face_is_not_finite"
   ],
   "note": "trans_tpfa.c. cartesian_trans composes grid construction, half-transmissibilities and transmissibilities. A face without cells gets an infinite value (recorded)."
  },
  {
   "property": "C37",
   "status": "proved",
   "theorems": [
    "Opm.IfsTpfa.construct_succeeds",
    "Opm.IfsTpfa.assemble_succeeds",
    "Opm.IfsTpfa.fluxes_conserve",
    "Opm.IfsTpfa.flux_law"
   ],
   "note": "For every admissible problem (Spec/IfsTpfa, Problem) and every solution of the assembled system. Boundary inflow is the flux of the boundary faces, which flux_law ties to the conditions. Forces without totmob/wdp but with wells are outside ForcesOk (the flux computation would dereference NULL)."
  },
  {
   "property": "C38",
   "status": "proved",
   "theorems": [
    "Opm.IfsTpfa.well_constraints",
    "Opm.IfsTpfa.shut_well_decoupled"
   ],
   "note": "Connection transmissibilities assumed nonnegative; holds in the singular case too."
  },
  {
   "property": "C39",
   "status": "proved",
   "theorems": [
    "Opm.IfsTpfa.singular_system_fixed"
   ],
   "note": "Needs cell 0 to have a neighbour across a face of positive transmissibility (otherwise the doubled entry is zero), nonnegative transmissibilities, and all sources, flux conditions and rate targets to add up to zero."
  },
  {
   "property": "C40",
   "status": "proved",
   "theorems": [
    "Opm.UniquePoints.unique_points",
    "Opm.UniquePoints.coinciding_corners_share_point"
   ],
   "note": "Whole function, all dimensions, activity patterns, depths and tolerances >= 0. In columns that are not sorted the point may be far below the corner; a concrete case is shown."
  },
  {
   "property": "C41",
   "status": "proved",
   "theorems": [
    "Opm.Cpg.Prop.cells_exact",
    "Opm.Cpg.Prop.cells_kept",
    "Opm.Cpg.Prop.processed"
   ],
   "note": "cells listed in increasing order, each once, iff active and (tolerance 0) of nonzero thickness; neighbours rewritten: all clauses of Processed refer to the local numbers"
  },
  {
   "property": "C42",
   "status": "proved",
   "theorems": [
    "Opm.Cpg.Prop.one_top_one_bottom",
    "Opm.Cpg.Prop.stacked_exact",
    "Opm.Cpg.Prop.processed"
   ],
   "note": "exactly one top and one bottom face per cell; joins stacked cells exactly if bottom and top coincide; other neighbours are -1 or existing cells (Processed.range)"
  },
  {
   "property": "C43",
   "status": "proved",
   "theorems": [
    "Opm.Cpg.Prop.depth_sign",
    "Opm.Cpg.Prop.depths_rearranged",
    "Opm.Cpg.Prop.flags_rearranged"
   ],
   "note": "sign and error flag characterised; the permutations are onto all positions"
  },
  {
   "property": "C44",
   "status": "proved",
   "theorems": [
    "Opm.CoarseConn.coarse_topology_exact"
   ],
   "note": "every valid fine neighbourship and partition, every hash function with values in range, every contents of uninitialised memory"
  },
  {
   "property": "C45",
   "status": "proved",
   "theorems": [
    "Opm.MiscUtil.transport_source_eq",
    "Opm.MiscUtil.transport_source_no_wells"
   ],
   "note": "All valid meshes, all wells with two phases."
  },
  {
   "property": "C46",
   "status": "partial",
   "theorems": [
    "Opm.MiscUtil.wells_to_src_partial",
    "Opm.MiscUtil.wells_to_src_overwrites",
    "Opm.MiscUtil.wells_to_src_keeps_old_entries"
   ],
   "note": "Proved when no two wells share a cell and the vector is empty or zero. False in general: the code assigns instead of adding, and resize keeps old entries; both proved by witnesses that satisfy the documented preconditions."
  },
  {
   "property": "C47",
   "status": "proved",
   "theorems": [
    "Opm.MiscUtil.both_water_round_trip"
   ],
   "note": "All vectors."
  },
  {
   "property": "C48",
   "status": "proved",
   "theorems": [
    "Opm.MiscUtil.flow_rate_per_well_eq",
    "Opm.MiscUtil.phase_rates_eq",
    "Opm.MiscUtil.phase_rates_add_up"
   ],
   "note": "All perforation layouts and phase counts."
  },
  {
   "property": "C49",
   "status": "partial",
   "theorems": [
    "Opm.Groups.prodShares_sum",
    "Opm.Groups.injShares_sum",
    "Opm.Groups.forced_production_is_shared",
    "Opm.Groups.forced_injection_is_shared",
    "Opm.Groups.deck_production_is_shared",
    "Opm.Groups.deck_injection_is_shared",
    "Opm.Groups.group_controls_are_shared",
    "Opm.Groups.own_control_is_overruled",
    "Opm.Groups.subgroup_share_is_lost",
    "Opm.Groups.modeless_producer_is_stopped",
    "Opm.Groups.gas_target_throws",
    "Opm.Groups.injection_without_guide"
   ],
   "note": "Proved for trees of any shape when a target is forced on a group, and for deck targets when wells below a target group have no own or nested targets; the code does not share properly otherwise, which the negative theorems show with concrete trees."
  },
  {
   "property": "C50",
   "status": "proved",
   "theorems": [
    "Opm.ColumnExtract.extract_columns",
    "Opm.ColumnExtract.old_columns_stay"
   ],
   "note": "for every valid grid with injective Cartesian map and any correct std::sort; the vector must be empty on entry (witness proved)"
  },
  {
   "property": "C51",
   "status": "proved",
   "theorems": [
    "Opm.MonotCubic.construct_data",
    "Opm.MonotCubic.construct_rejects",
    "Opm.MonotCubic.arguments_increase",
    "Opm.MonotCubic.addPair_data",
    "Opm.MonotCubic.scaleData_data'",
    "Opm.MonotCubic.evaluate_succeeds",
    "Opm.MonotCubic.evaluate_empty",
    "Opm.MonotCubic.evaluate_reproduces",
    "Opm.MonotCubic.evaluate_outside",
    "Opm.MonotCubic.evaluate_monotone",
    "Opm.MonotCubic.evaluate_between",
    "Opm.MonotCubic.evaluate_is_cubic",
    "Opm.MonotCubic.queries_exact",
    "Opm.MonotCubic.extreme_values",
    "Opm.MonotCubic.scale_keeps_flags",
    "Opm.MonotCubic.missingX_middle",
    "Opm.MonotCubic.missingX_unspecified",
    "Opm.MonotCubic.shrink_thins",
    "Opm.MonotCubic.chop_never_chops",
    "Opm.MonotCubic.overshoots_rough_data"
   ],
   "note": "over any linearly ordered field with a square root that may round up; findings scale_keeps_flags, missingX_unspecified, chop_never_chops, overshoots_rough_data are negative results with witnesses"
  },
  {
   "property": "C52",
   "status": "partial",
   "theorems": [
    "Opm.Rock.rock_comp_is_logarithmic_derivative_partial",
    "Opm.Rock.multiplier_without_table",
    "Opm.Rock.multiplier_with_table",
    "Opm.Rock.constant_compressibility_is_not_derivative",
    "Opm.Rock.multiplier_extrapolated_negative",
    "Opm.Rock.active_iff",
    "Opm.Rock.of_deck_table",
    "Opm.Rock.of_deck_rock",
    "Opm.Rock.of_deck_rigid",
    "Opm.Rock.of_param_units",
    "Opm.Rock.slope_unique"
   ],
   "note": "proved for tables; false without a table away from the reference pressure, and the multiplier may be negative outside the table (witnesses)"
  },
  {
   "property": "C53",
   "status": "proved",
   "theorems": [
    "Opm.UniformMonotone.build_samples",
    "Opm.UniformMonotone.build_succeeds_only",
    "Opm.UniformMonotone.build_monotone",
    "Opm.UniformMonotone.uniform_monotone"
   ],
   "note": "also: all other input is rejected, and monotone data give a monotone table"
  },
  {
   "property": "C54",
   "status": "proved",
   "theorems": [
    "Opm.Param.file_round_trip",
    "Opm.Param.file_round_trip_limits"
   ],
   "note": ""
  },
  {
   "property": "C55",
   "status": "proved",
   "theorems": [
    "Opm.Param.command_line_overrides"
   ],
   "note": ""
  },
  {
   "property": "C56",
   "status": "proved",
   "theorems": [
    "Opm.IfsTpfa.pressure_system_regular",
    "Opm.IfsTpfa.singular_system_regular",
    "Opm.IfsTpfa.comprock_system_regular"
   ],
   "note": "Existence and uniqueness by an energy argument."
  },
  {
   "property": "C57",
   "status": "proved",
   "theorems": [
    "Opm.IfsTpfa.comprock_conserves",
    "Opm.IfsTpfa.increment_conserves",
    "Opm.IfsTpfa.increment_needs_forces"
   ],
   "note": "The increment assembly needs non-null forces: increment_needs_forces shows a null pointer is dereferenced otherwise."
  },
  {
   "property": "C58",
   "status": "proved",
   "theorems": [
    "Opm.MiscUtil.porevolume_eq",
    "Opm.MiscUtil.porevolume_comp_eq",
    "Opm.MiscUtil.porosity_consistent"
   ],
   "note": "The multiplier is any total function of pressure."
  },
  {
   "property": "C59",
   "status": "proved",
   "theorems": [
    "Opm.MiscUtil.saturated_vol_eq",
    "Opm.MiscUtil.average_sat_eq",
    "Opm.MiscUtil.average_sat_bounds",
    "Opm.MiscUtil.average_sat_rejects"
   ],
   "note": "Also proved: empty vectors are an integer division by zero."
  },
  {
   "property": "C60",
   "status": "proved",
   "theorems": [
    "Opm.MiscUtil.phase_mobilities_eq",
    "Opm.MiscUtil.total_mobility_eq",
    "Opm.MiscUtil.omega_eq",
    "Opm.MiscUtil.fractional_flow_eq"
   ],
   "note": "The fluid is any object with positive viscosities; total mobility must not vanish where it is divided by."
  },
  {
   "property": "C61",
   "status": "proved",
   "theorems": [
    "Opm.MiscUtil.injected_produced_eq",
    "Opm.MiscUtil.injected_minus_produced"
   ],
   "note": "Single-vector version with all sources in cells."
  },
  {
   "property": "C62",
   "status": "proved",
   "theorems": [
    "Opm.MiscUtil.cell_velocity_eq",
    "Opm.MiscUtil.cell_velocity_uniform",
    "Opm.MiscUtil.box_encloses",
    "Opm.MiscUtil.cell_velocity_cartesian"
   ],
   "note": "Cartesian case for the meshes built by create_grid_cart3d."
  },
  {
   "property": "C63",
   "status": "proved",
   "theorems": [
    "Opm.MiscUtil.transport_source_balances"
   ],
   "note": "All valid meshes."
  },
  {
   "property": "C64",
   "status": "proved",
   "theorems": [
    "Opm.MiscUtil.wdp_eq",
    "Opm.MiscUtil.mix_density_bounds"
   ],
   "note": "Both indexing modes."
  },
  {
   "property": "C65",
   "status": "proved",
   "theorems": [
    "Opm.UniquePoints.unique_points"
   ],
   "note": "Field line of PillarOk."
  },
  {
   "property": "C66",
   "status": "proved",
   "theorems": [
    "Opm.Cpg.connections"
   ],
   "note": "Specification Connections in Spec/FaceTopology.lean; the buffers are assumed to have room, see the property on memory."
  },
  {
   "property": "C67",
   "status": "proved",
   "theorems": [
    "Opm.Cpg.side_covered"
   ],
   "note": ""
  },
  {
   "property": "C68",
   "status": "proved",
   "theorems": [
    "Opm.Cpg.simple_faces"
   ],
   "note": ""
  },
  {
   "property": "C69",
   "status": "proved",
   "theorems": [
    "Opm.Cpg.Prop.sides_exact",
    "Opm.Cpg.Prop.processed"
   ],
   "note": "iff for tolerance 0 in terms of input depths; for other tolerances in terms of the depths of the nodes (Processed.sides)"
  },
  {
   "property": "C70",
   "status": "partial",
   "theorems": [
    "Opm.Cpg.Prop.nodes_on_pillars_partial",
    "Opm.Cpg.Prop.nodes_off_pillars"
   ],
   "note": "holds for depths increasing downwards; refuted for inputs given by heights (sign -1) on leaning pillars"
  },
  {
   "property": "C71",
   "status": "partial",
   "theorems": [
    "Opm.Cpg.Prop.processing_succeeds_partial",
    "Opm.Cpg.Prop.crossings_overflow"
   ],
   "note": "proved if lines of neighbouring columns do not cross or both columns are filled; refuted in general: heap overflow of the crossings array"
  },
  {
   "property": "C72",
   "status": "proved",
   "theorems": [
    "Opm.Groups.conditionsMet_exact",
    "Opm.Groups.conditionsMet_switches",
    "Opm.Groups.collection_check_exact",
    "Opm.Groups.no_procedure_no_progress",
    "Opm.Groups.smallest_producer_is_shut",
    "Opm.Groups.empty_group_null_pointer",
    "Opm.Groups.shut_twice_opens",
    "Opm.Groups.liquid_counts_oil_twice",
    "Opm.Groups.production_breach_is_shared",
    "Opm.Groups.injection_breach_is_shared"
   ],
   "note": "The verdict and the switching of wells; the remaining theorems show defects in how group breaches are handled."
  },
  {
   "property": "C73",
   "status": "proved",
   "theorems": [
    "Opm.Groups.phaseUsage_valid",
    "Opm.Groups.phaseUsage_bijective"
   ],
   "note": ""
  },
  {
   "property": "C74",
   "status": "proved",
   "theorems": [
    "Opm.Groups.reinjection_is_shared",
    "Opm.Groups.nested_reinjection_ignored"
   ],
   "note": "For the group on which the function is called; groups further down are ignored by the code (negative theorem)."
  },
  {
   "property": "C75",
   "status": "proved",
   "theorems": [
    "Opm.Manager.deck_wells",
    "Opm.Manager.last_record_counts",
    "Opm.Manager.template_perforates_one",
    "Opm.Manager.shut_group_well_is_open",
    "Opm.Manager.opened_group_well_leaves_group"
   ],
   "note": "For every accepted deck; the Peaceman formula is a parameter. The negative theorems show what the stated meaning implies for templates in COMPDAT and for wells under group control."
  },
  {
   "property": "C76",
   "status": "proved",
   "theorems": [
    "Opm.Manager.deck_is_read_iff",
    "Opm.Manager.no_wells_iff",
    "Opm.Manager.control_templates_rejected",
    "Opm.Manager.both_kinds_rejected",
    "Opm.Manager.index_wraps",
    "Opm.Manager.shut_group_well_asserts",
    "Opm.Manager.well_without_controls_ub"
   ],
   "note": "Exact characterisation of the accepted decks."
  },
  {
   "property": "C77",
   "status": "proved",
   "theorems": [
    "Opm.Manager.hierarchy_of_the_deck",
    "Opm.Manager.well_as_group_ub",
    "Opm.Manager.circle_is_lost",
    "Opm.Manager.unknown_guide_asserts",
    "Opm.Manager.repeated_well_ub"
   ],
   "note": "The negative theorems show what happens to decks outside the hypotheses: a well as group is undefined behaviour, circles are silently lost, a repeated WELSPECS record shifts the numbers of wells."
  },
  {
   "property": "C78",
   "status": "proved",
   "theorems": [
    "Opm.Manager.deck_group_targets",
    "Opm.Manager.field_meets",
    "Opm.Manager.default_guide_injects"
   ],
   "note": "End to end: deck records to control arrays. default_guide_injects: the defaulted guide rate -1 is used as it is and turns a producer's target positive."
  },
  {
   "property": "C79",
   "status": "proved",
   "theorems": [
    "Opm.Deck.pvd_tables",
    "Opm.Deck.live_tables",
    "Opm.Deck.sgwof_tables",
    "Opm.Deck.incomplete_row_dropped",
    "Opm.Deck.negative_start_skipped",
    "Opm.Deck.unfinished_table_lost",
    "Opm.Deck.unfinished_table_at_end",
    "Opm.Deck.single_value_undefined",
    "Opm.Deck.two_defaults_fail"
   ],
   "note": "For well-formed tables. Tables of relative permeabilities need increasing arguments and no column with exactly one value (undefined behaviour otherwise, single_value_undefined). What malformed tables do silently is recorded in the other theorems."
  },
  {
   "property": "C80",
   "status": "proved",
   "theorems": [
    "Opm.Tof.time_of_flight",
    "Opm.Tof.unbalanced_sources_rejected",
    "Opm.Tof.circulation_not_solved",
    "Opm.Tof.stagnant_cell"
   ],
   "note": "With circulation the cells are visited once without solving the coupled equations (circulation_not_solved). Multidimensional upwinding is not modelled."
  },
  {
   "property": "C81",
   "status": "partial",
   "theorems": [
    "Opm.Tof.tracers_partition_partial",
    "Opm.Tof.fed_source_spoils_tracers"
   ],
   "note": "Proved when no other cell feeds a source cell; otherwise false in the code (fed_source_spoils_tracers: a tracer of -1)."
  },
  {
   "property": "C82",
   "status": "proved",
   "theorems": [
    "Opm.TwophaseReorder.transport_solved",
    "Opm.TwophaseReorder.transport_solved_upwind",
    "Opm.TwophaseReorder.water_balance",
    "Opm.TwophaseReorder.circulation_creates_water"
   ],
   "note": "With circulation and large time steps the sweeps stop early and water is not conserved (circulation_creates_water)."
  },
  {
   "property": "C83",
   "status": "proved",
   "theorems": [
    "Opm.GravitySegregation.Props.segregation_solved",
    "Opm.GravitySegregation.Props.extracted_columns",
    "Opm.GravitySegregation.Props.segregation_balance",
    "Opm.GravitySegregation.Props.gravity_flux",
    "Opm.GravitySegregation.Props.water_sinks",
    "Opm.GravitySegregation.Props.only_last_face"
   ],
   "note": "Consecutive cells of a column are assumed to have at most one common face; only_last_face shows that otherwise only the last one counts. The scalar root finder may run out of iterations, which the statement names. Exact rational arithmetic."
  },
  {
   "property": "C84",
   "status": "proved",
   "theorems": [
    "Opm.Pvt.batch_b",
    "Opm.Pvt.batch_mu",
    "Opm.Pvt.batch_r",
    "Opm.Pvt.batch_db",
    "Opm.Pvt.batch_dr"
   ],
   "note": "For live fluids the phases they read must be among the active ones (Reads); without that a point reads the next one's volumes."
  },
  {
   "property": "C85",
   "status": "proved",
   "theorems": [
    "Opm.Pvt.dead_reproduces",
    "Opm.Pvt.dead_between",
    "Opm.Pvt.dead_derivative",
    "Opm.Pvt.spline_values",
    "Opm.Pvt.spline_derivative",
    "Opm.Pvt.dead_extrapolates_below_zero"
   ],
   "note": "Numbers are exact; outside of the table of the unresampled variant the extrapolation may be negative (dead_extrapolates_below_zero)."
  },
  {
   "property": "C86",
   "status": "partial",
   "theorems": [
    "Opm.Pvt.const_reference",
    "Opm.Pvt.const_positive",
    "Opm.Pvt.const_derivative",
    "Opm.Pvt.const_new",
    "Opm.Pvt.const_default",
    "Opm.Pvt.const_shrinks_partial",
    "Opm.Pvt.const_swells"
   ],
   "note": "The last claim is false far below the reference pressure: const_swells is a counterexample, const_shrinks_partial proves it from refPress - 1/comp upwards. The other claims are proved in full."
  },
  {
   "property": "C87",
   "status": "proved",
   "theorems": [
    "Opm.Pvt.live_oil_new",
    "Opm.Pvt.live_oil_reproduces",
    "Opm.Pvt.live_oil_dissolved",
    "Opm.Pvt.live_oil_saturated",
    "Opm.Pvt.live_oil_bubble",
    "Opm.Pvt.live_oil_b_derivative",
    "Opm.Pvt.live_oil_r_derivative",
    "Opm.Pvt.live_oil_compresses",
    "Opm.Pvt.jump_at_bubble_point",
    "Opm.Pvt.no_oil_inconsistent",
    "Opm.Pvt.last_record_needs_data",
    "Opm.Pvt.single_record_undefined"
   ],
   "note": "Findings: the formation volume factor jumps at bubble points between records (jump_at_bubble_point); without oil the dissolved gas and the formation volume factor contradict each other (no_oil_inconsistent); a last record without undersaturated data, or a single record, is undefined behaviour (last_record_needs_data, single_record_undefined)."
  },
  {
   "property": "C88",
   "status": "proved",
   "theorems": [
    "Opm.Pvt.live_gas_new",
    "Opm.Pvt.live_gas_reproduces",
    "Opm.Pvt.live_gas_vaporised",
    "Opm.Pvt.live_gas_saturated",
    "Opm.Pvt.live_gas_between",
    "Opm.Pvt.live_gas_outside",
    "Opm.Pvt.live_gas_b_derivative",
    "Opm.Pvt.live_gas_r_derivative",
    "Opm.Pvt.derivative_outside_table",
    "Opm.Pvt.mixed_records_undefined",
    "Opm.Pvt.single_points_outside_undefined",
    "Opm.Pvt.viscosity_without_fluid"
   ],
   "note": "Findings: outside of the table the derivative of undersaturated gas is not zero although the value is constant (derivative_outside_table); a record with undersaturated points beside one without is undefined behaviour (mixed_records_undefined), and so are pressures outside of a table with saturated points only (single_points_outside_undefined); without oil and gas the viscosity is not a number (viscosity_without_fluid)."
  },
  {
   "property": "C89",
   "status": "proved",
   "theorems": [
    "Opm.Blackoil.phase_usage",
    "Opm.Blackoil.phase_usage_throws",
    "Opm.Blackoil.init_ok",
    "Opm.Blackoil.init_usable",
    "Opm.Blackoil.all_mu",
    "Opm.Blackoil.all_b",
    "Opm.Blackoil.all_r",
    "Opm.Blackoil.all_db",
    "Opm.Blackoil.all_dr",
    "Opm.Blackoil.viscosity_derivative_throws",
    "Opm.Blackoil.live_oil_without_gas"
   ],
   "note": "Live oil in a deck without gas is the excluded case; live_oil_without_gas is the witness that it reads outside of the volumes of a point."
  },
  {
   "property": "C90",
   "status": "proved",
   "theorems": [
    "Opm.Blackoil.matrix_entries",
    "Opm.Blackoil.matrix_derivative",
    "Opm.Blackoil.density_values",
    "Opm.Blackoil.density_mass"
   ],
   "note": "The hypotheses on derivatives of single fluids are the conclusions of C86-C88."
  },
  {
   "property": "C91",
   "status": "partial",
   "theorems": [
    "Opm.Blackoil.basic_init",
    "Opm.Blackoil.basic_init_parameters",
    "Opm.Blackoil.basic_values",
    "Opm.Blackoil.basic_matrix_partial",
    "Opm.Blackoil.basic_matrix_three_phases",
    "Opm.Blackoil.basic_init_unchecked",
    "Opm.Blackoil.incomp_values",
    "Opm.Blackoil.incomp_rejects",
    "Opm.Blackoil.incomp_needs_tables"
   ],
   "note": "The matrix of constant fluids needs at most two phases: with three, which are accepted, the code fails an assertion (basic_matrix_three_phases). All other parts are proved in full."
  },
  {
   "property": "C92",
   "status": "partial",
   "theorems": [
    "Opm.SatFunc.water_oil_derivative",
    "Opm.SatFunc.gas_oil_derivative",
    "Opm.SatFunc.simple_derivative_partial",
    "Opm.SatFunc.gwseg_derivative_partial",
    "Opm.SatFunc.stone2_derivative_partial",
    "Opm.SatFunc.water_pc_derivative",
    "Opm.SatFunc.gas_pc_derivative",
    "Opm.SatFunc.three_pc_derivative",
    "Opm.SatFunc.stone2_derivative_wrong",
    "Opm.SatFunc.gwseg_derivative_undefined",
    "Opm.SatFunc.gwseg_derivative_below_connate",
    "Opm.SatFunc.simple_derivative_not_clipped"
   ],
   "note": "Two phases and all capillary pressures in full. Three phases: simple model where oil is not clipped, segregated model above connate water, Stone's model without the derivative of oil by gas. The other cases are false in the code (witnesses given)."
  },
  {
   "property": "C93",
   "status": "proved",
   "theorems": [
    "Opm.SatFunc.water_oil_reproduces",
    "Opm.SatFunc.gas_oil_reproduces",
    "Opm.SatFunc.water_oil_monotone",
    "Opm.SatFunc.critical_saturations",
    "Opm.SatFunc.three_pc_reproduces",
    "Opm.SatFunc.simple_reproduces",
    "Opm.SatFunc.stone2_without_gas",
    "Opm.SatFunc.gwseg_without_gas",
    "Opm.SatFunc.gwseg_connate_water",
    "Opm.SatFunc.gwseg_between",
    "Opm.SatFunc.no_gas_oil_table",
    "Opm.SatFunc.negative_relperm"
   ],
   "note": "Simple and Stone's models do not give the gas-oil table at connate water; below and above a table values are extrapolated and may be negative (witnesses)."
  },
  {
   "property": "C94",
   "status": "proved",
   "theorems": [
    "Opm.SatFunc.init_from_deck",
    "Opm.SatFunc.FromDeck.ready",
    "Opm.SatFunc.krCell_unscaled",
    "Opm.SatFunc.relperm_batch",
    "Opm.SatFunc.relperm_deriv_batch",
    "Opm.SatFunc.cap_press_batch",
    "Opm.SatFunc.cap_press_values",
    "Opm.SatFunc.sat_range_batch"
   ],
   "note": "Region numbers below one are undefined (in init_from_deck)."
  },
  {
   "property": "C95",
   "status": "partial",
   "theorems": [
    "Opm.SatFunc.scaled_by_keyword",
    "Opm.SatFunc.not_scaled",
    "Opm.SatFunc.scaled_by_depth",
    "Opm.SatFunc.two_point_map",
    "Opm.SatFunc.three_point_map",
    "Opm.SatFunc.krCell_scaled",
    "Opm.SatFunc.sound_of_init",
    "Opm.SatFunc.two_point_end_points",
    "Opm.SatFunc.three_point_end_points",
    "Opm.SatFunc.value_two_point",
    "Opm.SatFunc.value_three_point",
    "Opm.SatFunc.value_flat",
    "Opm.SatFunc.relperm_deriv_scaled",
    "Opm.SatFunc.water_reads_missing_values",
    "Opm.SatFunc.water_ignores_value",
    "Opm.SatFunc.end_points_never_set",
    "Opm.SatFunc.oil_not_scaled"
   ],
   "note": "Saturations in full; values where the maximum is more than 1e-6 above the saturation at which the other phase becomes immobile. Otherwise the code tests the wrong quantity for water (witnesses), and models other than the simple one have no end points."
  },
  {
   "property": "C96",
   "status": "proved",
   "theorems": [
    "Opm.SatFunc.basic_init",
    "Opm.SatFunc.basic_functions",
    "Opm.SatFunc.basic_relperm",
    "Opm.SatFunc.basic_relperm_deriv",
    "Opm.SatFunc.basic_cap_press",
    "Opm.SatFunc.basic_sat_range"
   ],
   "note": ""
  },
  {
   "property": "C97",
   "status": "proved",
   "theorems": [
    "Opm.RockData.rock_from_deck",
    "Opm.RockData.permeability_symmetric",
    "Opm.RockData.rock_rejects",
    "Opm.RockData.rock_needs_dimensions",
    "Opm.RockData.contradicting_components",
    "Opm.RockData.tensor_not_positive",
    "Opm.RockData.no_permeability"
   ],
   "note": "Threshold of permeability zero, the only value used. Findings: PERMXY and PERMYX with different values are accepted and the first is ignored; tensors need not be positive definite; a deck without permeability is accepted with zero permeability."
  },
  {
   "property": "C98",
   "status": "proved",
   "theorems": [
    "Opm.RockData.basic_rock",
    "Opm.RockData.incomp_basic",
    "Opm.RockData.incomp_basic_rejects",
    "Opm.RockData.incomp_parameters",
    "Opm.RockData.incomp_parameters_reject",
    "Opm.RockData.incomp_deck"
   ],
   "note": "The last comparison of the numbers of phases in IncompPropertiesFromDeck never fails. Sampling parameters of saturation tables are arguments of the model."
  },
  {
   "property": "C99",
   "status": "proved",
   "theorems": [
    "Opm.InitState.basic_contact",
    "Opm.InitState.basic_segregation",
    "Opm.InitState.basic_constant",
    "Opm.InitState.basic_default",
    "Opm.InitState.basic_convection",
    "Opm.InitState.basic_rejects",
    "Opm.InitState.segregation_needs_contact",
    "Opm.InitState.hydrostatic_pressure",
    "Opm.InitState.face_pressure",
    "Opm.InitState.face_between",
    "Opm.InitState.range_basic",
    "Opm.InitState.range_from_deck",
    "Opm.InitState.state_init",
    "Opm.InitState.init_one_phase",
    "Opm.InitState.init_keeps_old_values"
   ],
   "note": "Distances to faces via an arbitrary square root function; faces must not touch both centroids. The findings init_one_phase and init_keeps_old_values concern TwophaseState::init itself."
  }
 ]
}