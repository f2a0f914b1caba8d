{
 "claims": [
  {
   "property": "C01",
   "status": "proved",
   "theorems": [
    "Verif.Mesh.C01_uniform_mesh_any_arithmetic",
    "Verif.Mesh.C01_uniform_mesh_guard",
    "Verif.Mesh.C01_uniform_mesh"
   ],
   "note": "C01_uniform_mesh_any_arithmetic needs no law of arithmetic; equal widths in exact arithmetic. n = 0 and n < 0 are shown to be UB / an exception (guard theorem)."
  },
  {
   "property": "C02",
   "status": "proved",
   "theorems": [
    "Verif.Mesh.C02_automatic_split",
    "Verif.Mesh.C02_uniform_split"
   ],
   "note": ""
  },
  {
   "property": "C03",
   "status": "proved",
   "theorems": [
    "Verif.Mesh.C03_automatic_mesh_contiguous"
   ],
   "note": ""
  },
  {
   "property": "C04",
   "status": "proved",
   "theorems": [
    "Verif.Mesh.C04_automatic_terminates"
   ],
   "note": "exact arithmetic, tolerance > 0; the oracle hypothesis (Lawful) is proved for every real or NaN error estimate in lawful_ofError."
  },
  {
   "property": "C05",
   "status": "proved",
   "theorems": [
    "Verif.Mesh.C05_jumps_are_boundaries",
    "Verif.Mesh.C05_no_sector_straddles_a_jump"
   ],
   "note": ""
  },
  {
   "property": "C06",
   "status": "partial",
   "theorems": [
    "Verif.Mesh.C06_repeated_jump_gives_empty_sector",
    "Verif.Mesh.C06_repetition_changes_the_mesh",
    "Verif.Mesh.C06_repeated_jump_hangs",
    "Verif.Mesh.C06_repeated_jumps_partial"
   ],
   "note": "The property is FALSE of the code: a repeated jump gives an empty sector, changes the mesh and can make construction loop forever (concrete kernel-checked witnesses). C06_repeated_jumps_partial is what remains true."
  },
  {
   "property": "C07",
   "status": "proved",
   "theorems": [
    "Verif.Mesh.C07_refinement_stops_for_a_reason",
    "Verif.Mesh.C07_enlarging_keeps_tolerance"
   ],
   "note": ""
  },
  {
   "property": "C08",
   "status": "proved",
   "theorems": [
    "Verif.Mesh.C08_find_sector",
    "Verif.Mesh.C08_find_sector_safe",
    "Verif.Mesh.C08_find_sector_empty"
   ],
   "note": ""
  },
  {
   "property": "C09",
   "status": "proved",
   "theorems": [
    "Verif.Mesh.C09_array_evaluation",
    "Verif.Mesh.C09_array_equals_pointwise",
    "Verif.Mesh.C09_array_safe"
   ],
   "note": ""
  },
  {
   "property": "C10",
   "status": "proved",
   "theorems": [
    "Verif.Propag.C10_propagate_domain"
   ],
   "note": ""
  },
  {
   "property": "C11",
   "status": "proved",
   "theorems": [
    "Verif.Propag.C11_propagate_linear"
   ],
   "note": ""
  },
  {
   "property": "C12",
   "status": "proved",
   "theorems": [
    "Verif.Propag.C12_propagate_composes"
   ],
   "note": "exact arithmetic; hypothesis: transfer matrices of determinant 1 on the sector (P.Good)."
  },
  {
   "property": "C13",
   "status": "proved",
   "theorems": [
    "Verif.Propag.C13_propagate_refl",
    "Verif.Propag.C13_propagate_reversible"
   ],
   "note": ""
  },
  {
   "property": "C14",
   "status": "proved",
   "theorems": [
    "Verif.Propag.C14_wronskian_conserved"
   ],
   "note": ""
  },
  {
   "property": "C15",
   "status": "proved",
   "theorems": [
    "Verif.Propag.C15_E_derivative"
   ],
   "note": ""
  },
  {
   "property": "C16",
   "status": "proved",
   "theorems": [
    "Verif.Propag.C16_zero_matching_error",
    "Verif.Propag.C16_match_point_independent"
   ],
   "note": ""
  },
  {
   "property": "C17",
   "status": "proved",
   "theorems": [
    "Verif.Propag.C17_matching_error_derivative"
   ],
   "note": ""
  },
  {
   "property": "C18",
   "status": "partial",
   "theorems": [
    "Verif.Search.C18_bad_indices_never_return",
    "Verif.Search.C18_bad_indices_throw",
    "Verif.Search.C18_valid_indices_never_throw",
    "Verif.Search.C18_negative_index_hangs"
   ],
   "note": "No list is ever returned for bad indices and valid indices never throw. The literal claim 'throws' is FALSE of the code: the check comes after the window search, which runs for ever for Imin < 0 on a problem bounded below (C18_negative_index_hangs); C18_bad_indices_throw gives the throw once the window is found."
  },
  {
   "property": "C19",
   "status": "proved",
   "theorems": [
    "Verif.Search.C19_search_terminates",
    "Verif.Search.C19_depth_bound"
   ],
   "note": ""
  },
  {
   "property": "C20",
   "status": "proved",
   "theorems": [
    "Verif.Search.C20_permutation_of_polished",
    "Verif.Search.C20_sorted"
   ],
   "note": "std::sort modelled by insertion; permutation in any arithmetic, order in exact arithmetic."
  },
  {
   "property": "C21",
   "status": "proved",
   "theorems": [
    "Verif.Search.C21_each_index_once",
    "Verif.Search.C21_eigenvalue_located"
   ],
   "note": "Resolvable makes the hypotheses explicit: strictly increasing angle, separation above (Emax-Emin)/2^31, no eigenvalue exactly on a dyadic bisection point (see C22)."
  },
  {
   "property": "C22",
   "status": "partial",
   "theorems": [
    "Verif.Search.C22_endpoint_eigenvalue_lost",
    "Verif.Search.C22_midpoint_eigenvalue_lost",
    "Verif.Search.C22_open_interval_partial"
   ],
   "note": "FALSE of the code: kernel-checked counterexamples for an eigenvalue exactly at Emin, at Emax and exactly at a bisection point. C22_open_interval_partial: interior eigenvalues are located."
  },
  {
   "property": "C23",
   "status": "proved",
   "theorems": [
    "Verif.Search.C23_window_brackets",
    "Verif.Search.C23_window_contains",
    "Verif.Search.C23_window_terminates"
   ],
   "note": ""
  },
  {
   "property": "C24",
   "status": "proved",
   "theorems": [
    "Verif.Search.C24_newton"
   ],
   "note": ""
  },
  {
   "property": "C25",
   "status": "proved",
   "theorems": [
    "Verif.Search.C25_energies_inside"
   ],
   "note": ""
  },
  {
   "property": "C26",
   "status": "proved",
   "theorems": [
    "Verif.HalfRange.C26_index_range"
   ],
   "note": "exact index arithmetic on int (no overflow); hypothesis: the two underlying index requests answer exactly (C21)."
  },
  {
   "property": "C27",
   "status": "proved",
   "theorems": [
    "Verif.HalfRange.C27_merge_complete",
    "Verif.HalfRange.C27_merge_sorted",
    "Verif.HalfRange.C27_merge_strictly_sorted"
   ],
   "note": ""
  },
  {
   "property": "C28",
   "status": "proved",
   "theorems": [
    "Verif.HalfRange.C28_asymmetric_throws",
    "Verif.HalfRange.C28_symmetric_same",
    "Verif.HalfRange.C28_test_is_equality"
   ],
   "note": ""
  },
  {
   "property": "C29",
   "status": "partial",
   "theorems": [
    "Verif.HalfRange.C29_overloads_disagree",
    "Verif.HalfRange.C29_values_agree_partial"
   ],
   "note": "FALSE of the code: for x < 0 the scalar overload returns the derivative with the wrong sign (kernel-checked witness, both parities). Values and non-negative points agree (C29_values_agree_partial)."
  },
  {
   "property": "C30",
   "status": "proved",
   "theorems": [
    "Verif.HalfRange.C30_array_is_extension",
    "Verif.HalfRange.C30_throws_iff_unsorted",
    "Verif.HalfRange.C30_extension_derivative",
    "Verif.HalfRange.C30_extension_derivative_at_zero",
    "Verif.HalfRange.C30_extension_norm"
   ],
   "note": "array overload; plus: the extension's second component is its derivative, and its norm over [-a,a] equals the half norm."
  },
  {
   "property": "C31",
   "status": "proved",
   "theorems": [
    "Verif.Periodic.C31_bisection_terminates",
    "Verif.Periodic.C31_result_in_bracket",
    "Verif.Periodic.C31_zero_nearby"
   ],
   "note": ""
  },
  {
   "property": "C32",
   "status": "proved",
   "theorems": [
    "Verif.Periodic.C32_by_index",
    "Verif.Periodic.C32_by_energy",
    "Verif.Periodic.C32_by_energy_exact"
   ],
   "note": "any arithmetic; minCoeff/maxCoeff as min/max of two."
  },
  {
   "property": "C33",
   "status": "proved",
   "theorems": [
    "Verif.Periodic.C33_determinant_zero_iff",
    "Verif.Periodic.C33_determinant_derivative"
   ],
   "note": "exact arithmetic; unimodular transfer matrices; derivative over the reals."
  },
  {
   "property": "C34",
   "status": "partial",
   "theorems": [
    "Verif.Periodic.C34_eigenpairs_partial",
    "Verif.Periodic.C34_eigenfunction_not_periodic"
   ],
   "note": "FALSE of the code: PeriodicMatslise::eigenfunction passes the kernel vector of the error matrix as boundary value on both sides (kernel-checked witness: free particle, E = 0). The eigenpairs route is correct (C34_eigenpairs_partial)."
  },
  {
   "property": "C35",
   "status": "proved",
   "theorems": [
    "Verif.YT.C35_div_mul",
    "Verif.YT.C35_mul_div",
    "Verif.YT.C35_det_necessary",
    "Verif.YT.C35_reverse_involutive",
    "Verif.YT.C35_smul_comm"
   ],
   "note": ""
  },
  {
   "property": "C36",
   "status": "proved",
   "theorems": [
    "Verif.Prufer.C36_atan_safe"
   ],
   "note": "over the real numbers, libm functions taken as the mathematical ones"
  },
  {
   "property": "C37",
   "status": "proved",
   "theorems": [
    "Verif.Prufer.C37_rescale"
   ],
   "note": "over the real numbers, libm functions taken as the mathematical ones"
  },
  {
   "property": "C38",
   "status": "proved",
   "theorems": [
    "Verif.Prufer.C38_angle_of_solution"
   ],
   "note": "over the real numbers, libm functions taken as the mathematical ones"
  },
  {
   "property": "C39",
   "status": "proved",
   "theorems": [
    "Verif.Prufer.C39_integer_iff_zero"
   ],
   "note": "over the real numbers, libm functions taken as the mathematical ones"
  },
  {
   "property": "C40",
   "status": "proved",
   "theorems": [
    "Verif.Prufer.C40_prufer_nonneg"
   ],
   "note": "over the real numbers, libm functions taken as the mathematical ones"
  },
  {
   "property": "C41",
   "status": "proved",
   "theorems": [
    "Verif.Legendre.C41_table",
    "Verif.Legendre.C41_recurrence",
    "Verif.Legendre.C41_orthogonal"
   ],
   "note": "table = closed form, recurrence, end values, orthogonality, |P_i|<=1"
  },
  {
   "property": "C42",
   "status": "proved",
   "theorems": [
    "Verif.Legendre.C42_coefficients",
    "Verif.Legendre.C42_asPolynomial",
    "Verif.Legendre.C42_reconstruction",
    "Verif.Legendre.C42_integrate"
   ],
   "note": "nodes/weights of the double tables (decimal literals) in exact arithmetic: every polynomial up to degree 2k-i-1, every interval; reconstruction of degree < n"
  },
  {
   "property": "C43",
   "status": "proved",
   "theorems": [
    "Verif.Poly.C43_eval",
    "Verif.Poly.C43_widen",
    "Verif.Poly.C43_add_sub",
    "Verif.Poly.C43_scalar",
    "Verif.Poly.C43_mul"
   ],
   "note": "all of polynomial.h's arithmetic, any field and any degrees"
  },
  {
   "property": "C44",
   "status": "proved",
   "theorems": [
    "Verif.Poly.C44_derivative_overloads",
    "Verif.Poly.C44_derivative_formal",
    "Verif.Poly.C44_integral_overloads",
    "Verif.Poly.C44_iterated_derivative",
    "Verif.Poly.C44_hasDerivAt",
    "Verif.Poly.C44_integral_hasDerivAt",
    "Verif.Poly.C44_integral_value"
   ],
   "note": "derivative/integral overloads, over any field formally and over R analytically"
  },
  {
   "property": "C45",
   "status": "proved",
   "theorems": [
    "Verif.Liouville.C45_r_tiling",
    "Verif.Liouville.C45_tiling",
    "Verif.Liouville.C45_diverges",
    "Verif.Liouville.C45_x_increases",
    "Verif.Liouville.C45_terminates"
   ],
   "note": "r-tiling for every arithmetic incl. floats; x-tiling, end values in exact arithmetic; termination for continuous positive p, w; divergence when nothing is ever accepted"
  },
  {
   "property": "C46",
   "status": "proved",
   "theorems": [
    "Verif.Liouville.C46_halvings",
    "Verif.Liouville.C46_increasing",
    "Verif.Liouville.C46_preimage",
    "Verif.Liouville.C46_roundtrip"
   ],
   "note": "exactly 50 halvings; within 2^-51 of the inverse for increasing maps and of some preimage for every stored polynomial; global round trip"
  },
  {
   "property": "C47",
   "status": "proved",
   "theorems": [
    "Verif.Liouville.C47_findPiece",
    "Verif.Liouville.C47_empty"
   ],
   "note": "for every contiguous ordered piece list and every value"
  },
  {
   "property": "C48",
   "status": "proved",
   "theorems": [
    "Verif.Liouville.C48_potential",
    "Verif.Liouville.C48_normal_form"
   ],
   "note": "V = q/w + m''/m on a piece; and the normal-form equivalence of the two equations"
  },
  {
   "property": "C49",
   "status": "partial",
   "theorems": [
    "Verif.Liouville.C49_value_partial",
    "Verif.Liouville.C49_corrected_partial",
    "Verif.Liouville.C49_computed_partial",
    "Verif.Liouville.C49_fails",
    "Verif.Liouville.C49_eigenfunction_fails"
   ],
   "note": "FALSE of the code: C49_fails and C49_eigenfunction_fails prove the counterexample; the value components round-trip (C49_value_partial) and the corrected derivative formula would (C49_corrected_partial)"
  },
  {
   "property": "C50",
   "status": "proved",
   "theorems": [
    "Verif.Liouville.C50_z2y",
    "Verif.Liouville.C50_linear",
    "Verif.Liouville.C50_dirichlet_injective",
    "Verif.Liouville.C50_problem"
   ],
   "note": "chain rule with the piece's own p, w polynomials; linear and injective"
  },
  {
   "property": "C51",
   "status": "proved",
   "theorems": [
    "Verif.Eta.C51_recurrence",
    "Verif.Eta.C51_large_exact",
    "Verif.Eta.C51_eta_relations"
   ],
   "note": "Exact arithmetic; the values for 100 ≤ |Z| are the closed forms, recurrence for every Z."
  },
  {
   "property": "C52",
   "status": "proved",
   "theorems": [
    "Verif.CalcT.C52_constant_exact",
    "Verif.CalcT.C52_constant_computed",
    "Verif.CalcT.C52_identity"
   ],
   "note": "exact eta: exact solution operator; computed eta: exact for |Z|>=100, otherwise within 1e-33"
  },
  {
   "property": "C53",
   "status": "proved",
   "theorems": [
    "Verif.CalcT.C53_energy_derivative",
    "Verif.CalcT.C53_omission_bound"
   ],
   "note": "exact derivative formula with the missing last eta term, and its size"
  },
  {
   "property": "C54",
   "status": "proved",
   "theorems": [
    "Verif.Mesh.C54_zero_outside_domain",
    "Verif.Mesh.C54_zero_outside_domain_array"
   ],
   "note": ""
  },
  {
   "property": "C55",
   "status": "proved",
   "theorems": [
    "Verif.Eigen.C55_eigenfunction_single_solution"
   ],
   "note": ""
  },
  {
   "property": "C56",
   "status": "proved",
   "theorems": [
    "Verif.Eigen.C56_unit_norm"
   ],
   "note": "propagation exactness is a hypothesis (values follow a solution and its energy derivative)"
  },
  {
   "property": "C57",
   "status": "proved",
   "theorems": [
    "Verif.Matscs.C57_domain",
    "Verif.Matscs.C57_linear",
    "Verif.Matscs.C57_columns",
    "Verif.Matscs.C57_propagate_values",
    "Verif.Matscs.C57_composes_reversible",
    "Verif.Matscs.C57_wronskian_conserved"
   ],
   "note": "linear, column-wise, value part independent of the angle, composition and reversal, conserved Wronskian for every coupled problem whose transfer matrices are invertible (symplectic for the Wronskian)"
  },
  {
   "property": "C58",
   "status": "partial",
   "theorems": [
    "Verif.Matscs.C58_fails",
    "Verif.Matscs.C58_first_sector_count_partial"
   ],
   "note": "FALSE of the code: C58_fails proves, for every mesh, energy and point list, that all returned values are zero and only points of the first sector get one; the partial theorem keeps the count for points in the first sector"
  },
  {
   "property": "C59",
   "status": "partial",
   "theorems": [
    "Verif.Matscs.C59_step_sign_ignored",
    "Verif.Matscs.C59_outside_is_ub",
    "Verif.Matscs.C59_fails",
    "Verif.Matscs.C59_from_left_partial",
    "Verif.Matscs.C59_from_right_partial"
   ],
   "note": "FALSE of the code: the sign of the step is ignored in every sector (C59_step_sign_ignored), a start outside the domain reads sectors[-1] (C59_outside_is_ub), a concrete round trip gives 3 instead of 1 (C59_fails); partial: from xmin through forward sectors and from xmax through backward sectors it transports y y'^-1 of the solutions"
  },
  {
   "property": "C60",
   "status": "partial",
   "theorems": [
    "Verif.Bindings.C60_checks",
    "Verif.Bindings.C60_fails",
    "Verif.Bindings.C60_sensible_partial"
   ],
   "note": "FALSE of the code: C60_fails (negative tolerances other than -1 and non-positive step counts are accepted and fail later, zero steps with undefined behaviour); C60_checks characterises exactly what is accepted, C60_sensible_partial covers the sensible requests"
  },
  {
   "property": "C61",
   "status": "proved",
   "theorems": [
    "Verif.Bindings.C61_jumps_are_the_inner_ones",
    "Verif.Bindings.C61_jumps_sorted",
    "Verif.Bindings.C61_python_mesh"
   ],
   "note": "membership and multiplicity for any scalar type, sortedness in exact arithmetic, end-to-end mesh statement for distinct jumps"
  },
  {
   "property": "C62",
   "status": "proved",
   "theorems": [
    "Verif.Lifetime.C62_python_no_use_after_free",
    "Verif.Lifetime.C62_raw_use_after_free",
    "Verif.Lifetime.C62_sector_pointer_dangles",
    "Verif.Lifetime.C62_raw_safe_while_alive"
   ],
   "note": "all histories of a reference-counted heap model; negative part: raw pointers (C++/JS) and the internal __sector accessor dangle"
  },
  {
   "property": "C63",
   "status": "proved",
   "theorems": [
    "Verif.HalfRange.C63_eigenpairs",
    "Verif.HalfRange.C63_failure_propagates"
   ],
   "note": ""
  },
  {
   "property": "C64",
   "status": "proved",
   "theorems": [
    "Verif.SectorState.C64_is_a_sector_mean",
    "Verif.SectorState.C64_is_the_smallest"
   ],
   "note": "IEEE comparison laws only"
  },
  {
   "property": "C65",
   "status": "proved",
   "theorems": [
    "Verif.Legendre.C65_samples_inside",
    "Verif.Legendre.C65_only_inside"
   ],
   "note": "all sample points strictly inside the sector, in exact arithmetic; coefficients depend only on interior values"
  },
  {
   "property": "C66",
   "status": "proved",
   "theorems": [
    "Verif.SectorState.C66_last_direction_decides",
    "Verif.SectorState.C66_idempotent_reversible",
    "Verif.SectorState.C66_none_keeps_stale_tables"
   ],
   "note": "any sequence of calls, any coefficient type with involutive negation (scalar and matrix sectors)"
  },
  {
   "property": "C67",
   "status": "proved",
   "theorems": [
    "Verif.Profiler.C67_balanced",
    "Verif.Profiler.C67_balanced_anywhere",
    "Verif.Profiler.C67_guard",
    "Verif.Profiler.C67_identifiers_distinguish_paths"
   ],
   "note": "All runs of nested/consecutive timers; the real time source is a parameter. Report ordering/printing not modelled."
  },
  {
   "property": "C68",
   "status": "proved",
   "theorems": [
    "Verif.Bindings.C68_sector_points",
    "Verif.Bindings.C68_half_range_points"
   ],
   "note": "exact arithmetic"
  },
  {
   "property": "C69",
   "status": "proved",
   "theorems": [
    "Verif.CalcT.C69_residual",
    "Verif.CalcT.C69_local_error",
    "Verif.CalcT.C69_full_step"
   ],
   "note": "for all bounded coefficients, energies and steps: residual order 15/16, local error h^15 (partial step) and h^19 (full step); tables of /repo transcribed into FormulaData and certified in the kernel"
  },
  {
   "property": "C70",
   "status": "proved",
   "theorems": [
    "Verif.HalfRange.C70_parity_by_index",
    "Verif.HalfRange.C70_parity_detected"
   ],
   "note": ""
  },
  {
   "property": "C71",
   "status": "proved",
   "theorems": [
    "Verif.Periodic.C71_pair_ordered",
    "Verif.Periodic.C71_pair_near_zeros"
   ],
   "note": ""
  },
  {
   "property": "C72",
   "status": "proved",
   "theorems": [
    "Verif.Periodic.C72_eigenpairs_match"
   ],
   "note": ""
  },
  {
   "property": "C73",
   "status": "proved",
   "theorems": [
    "Verif.Periodic.C73_by_index_terminates",
    "Verif.Periodic.C73_by_energy_terminates",
    "Verif.Periodic.C73_negative_index_hangs"
   ],
   "note": "exact arithmetic; includes the negative statement for iMin <= -2 (C73_negative_index_hangs)."
  },
  {
   "property": "C74",
   "status": "proved",
   "theorems": [
    "Verif.Prufer.C74_continuous_angle"
   ],
   "note": "exact arithmetic; the exactness of calculateT for constant potentials is C52"
  },
  {
   "property": "C75",
   "status": "proved",
   "theorems": [
    "Verif.Prufer.C75_zero_count"
   ],
   "note": "exact arithmetic"
  },
  {
   "property": "C76",
   "status": "proved",
   "theorems": [
    "Verif.Prufer.C76_index_counts_zeros",
    "Verif.Prufer.C76_one_sector_off_by_one",
    "Verif.Prufer.C76_one_sector_witness"
   ],
   "note": "two or more sectors: proved; one sector: the off-by-one is proved, with a witness (finding 15)"
  },
  {
   "property": "C77",
   "status": "proved",
   "theorems": [
    "Verif.Prufer.C77_tiny_step_adds_pi"
   ],
   "note": "the property is violated by the code: proved with a concrete witness (finding 16)"
  },
  {
   "property": "C78",
   "status": "proved",
   "theorems": [
    "Verif.Prufer.C78_error_zero_iff_eigenvalue"
   ],
   "note": "exact arithmetic, piecewise constant potentials"
  },
  {
   "property": "C79",
   "status": "proved",
   "theorems": [
    "Verif.Mesh.C79_uniform_match_at_lowest",
    "Verif.Mesh.C79_automatic_match_at_lowest"
   ],
   "note": "any arithmetic; ties allowed"
  },
  {
   "property": "C80",
   "status": "proved",
   "theorems": [
    "Verif.Eta.C80_eta_accuracy",
    "Verif.Eta.C80_relative_nonneg",
    "Verif.Eta.C80_absolute"
   ],
   "note": "Truncation error of the series in exact arithmetic."
  },
  {
   "property": "C81",
   "status": "proved",
   "theorems": [
    "Verif.Periodic.C81_periodic_and_antiperiodic",
    "Verif.Periodic.C81_negated_swaps",
    "Verif.Periodic.C81_normal_form",
    "Verif.Periodic.C81_double_index"
   ],
   "note": ""
  },
  {
   "property": "C82",
   "status": "proved",
   "theorems": [
    "Verif.Liouville.C82_array"
   ],
   "note": "array = pointwise for every tiling of pieces"
  },
  {
   "property": "C83",
   "status": "proved",
   "theorems": [
    "Verif.Solver.C83_code_accuracy",
    "Verif.Solver.C83_propagate"
   ],
   "note": "exact real arithmetic; accuracy of eta and coefficients enters as a parameter, met by the code's own (C83_code_accuracy, C87_code_coefficients)"
  },
  {
   "property": "C84",
   "status": "proved",
   "theorems": [
    "Verif.Solver.C84_matching_error"
   ],
   "note": "exact real arithmetic; accuracy of eta and coefficients enters as a parameter, met by the code's own (C83_code_accuracy, C87_code_coefficients)"
  },
  {
   "property": "C85",
   "status": "proved",
   "theorems": [
    "Verif.Solver.C85_small_error_eigenvalue"
   ],
   "note": "exact real arithmetic; accuracy of eta and coefficients enters as a parameter, met by the code's own (C83_code_accuracy, C87_code_coefficients)"
  },
  {
   "property": "C86",
   "status": "proved",
   "theorems": [
    "Verif.Solver.C86_eigenvalue_sign_change"
   ],
   "note": "exact real arithmetic; accuracy of eta and coefficients enters as a parameter, met by the code's own (C83_code_accuracy, C87_code_coefficients)"
  },
  {
   "property": "C87",
   "status": "proved",
   "theorems": [
    "Verif.Solver.C87_code_coefficients",
    "Verif.Solver.C87_uniform_sound",
    "Verif.Solver.C87_uniform_complete"
   ],
   "note": "exact real arithmetic; accuracy of eta and coefficients enters as a parameter, met by the code's own (C83_code_accuracy, C87_code_coefficients)"
  },
  {
   "property": "C88",
   "status": "proved",
   "theorems": [
    "Verif.Solver.C88_newton_converges",
    "Verif.Solver.C88_error_estimate"
   ],
   "note": ""
  },
  {
   "property": "C89",
   "status": "proved",
   "theorems": [
    "Verif.Solver.C89_angle_converges",
    "Verif.Solver.C89_zero_count",
    "Verif.Solver.C89_decrease_adds_pi"
   ],
   "note": "real arithmetic with accuracy parameters; mesh points a, b"
  },
  {
   "property": "C90",
   "status": "proved",
   "theorems": [
    "Verif.Solver.C90_index",
    "Verif.Solver.C90_newton_index"
   ],
   "note": "real arithmetic with accuracy parameters"
  },
  {
   "property": "C91",
   "status": "proved",
   "theorems": [
    "Verif.Solver.C91_search_complete",
    "Verif.Solver.C91_exact_eigenvalues_apart",
    "Verif.Solver.C91_narrow_window"
   ],
   "note": "Under the hypothesis that the evaluated energies avoid the band just above the sector averages of the potential (finding of C89), and that the angle at a point of repeated halving is not exactly a multiple of pi (C22: the code loses such an eigenvalue)."
  },
  {
   "property": "C92",
   "status": "proved",
   "theorems": [
    "Verif.Solver.C92_sturm_count"
   ],
   "note": "AngleFit hypothesis as in C89."
  },
  {
   "property": "C93",
   "status": "proved",
   "theorems": [
    "Verif.Solver.C93_newton_sound",
    "Verif.Solver.C93_results_sound"
   ],
   "note": "C93_newton_sound for one iteration, C93_results_sound for every pair returned by the search. Iterations stopped by the cap of 20 evaluations are excluded (the code accepts them: see C24)."
  },
  {
   "property": "C94",
   "status": "proved",
   "theorems": [
    "Verif.Solver.C94_eigenvalueError"
   ],
   "note": "The estimate is only meaningful for errors above the accuracy of the 14th order method; for errors below it, the theorem gives only the upper bound."
  },
  {
   "property": "C95",
   "status": "proved",
   "theorems": [
    "Verif.Solver.C95_by_index"
   ],
   "note": "Termination of the doubling loops is not part of it (C23 covers what happens when they return). Energies where the angle is not meaningful (the band of C89) are excluded by hypothesis."
  },
  {
   "property": "C96",
   "status": "proved",
   "theorems": [
    "Verif.Solver.C96_energy_derivative"
   ],
   "note": "exact arithmetic up to the stated accuracy of eta and the coefficients"
  },
  {
   "property": "C97",
   "status": "proved",
   "theorems": [
    "Verif.Solver.C97_matching_derivative"
   ],
   "note": "exact arithmetic up to the stated accuracy of eta and the coefficients"
  },
  {
   "property": "C98",
   "status": "proved",
   "theorems": [
    "Verif.Solver.C98_eigenfunction_converges",
    "Verif.Solver.C98_eigenfunction_exists",
    "Verif.Solver.C98_polished_eigenfunction"
   ],
   "note": "Also: every eigenvalue has a normalised eigenfunction (C98_eigenfunction_exists)."
  },
  {
   "property": "C99",
   "status": "proved",
   "theorems": [
    "Verif.HalfRange.C99_half_spectrum",
    "Verif.HalfRange.C99_half_by_index",
    "Verif.HalfRange.C99_half_window",
    "Verif.HalfRange.C99_extension_normalised",
    "Verif.HalfRange.C99_half_eigenfunction",
    "Verif.HalfRange.C99_half_eigenfunction_converges",
    "Verif.HalfRange.C99_equal_sides_not_symmetric"
   ],
   "note": "Accuracy of the inner spectra is a hypothesis of C99_half_by_index/C99_half_window, with C95/C91 giving it for the solver; the eigenfunction statement is end to end. Witness C99_equal_sides_not_symmetric: equal Robin values pass checkSymmetry although the problem is not symmetric."
  },
  {
   "property": "C100",
   "status": "proved",
   "theorems": [
    "Verif.Liouville.C100_spectrum",
    "Verif.Liouville.C100_spectrum_all",
    "Verif.Liouville.C100_eigenfunction",
    "Verif.Liouville.C100_scale",
    "Verif.Liouville.C100_normal_form_exists",
    "Verif.Liouville.C100_z2y",
    "Verif.Liouville.C100_some_condition",
    "Verif.Liouville.C100_by_index",
    "Verif.Liouville.C100_pairs_by_index",
    "Verif.Liouville.C100_error_estimate",
    "Verif.Liouville.C100_perturbed_coefficients",
    "Verif.Liouville.C100_small_error"
   ],
   "note": "The exact normal form is a specification; the code's pieces approximate it. C100_perturbed_coefficients turns a pointwise error of the transformation's potential into a coefficient accuracy; the accuracy of the pieces themselves is the acceptance test of C45 and is not bounded."
  },
  {
   "property": "C101",
   "status": "proved",
   "theorems": [
    "Verif.Solver.C101_estimate_nonneg",
    "Verif.Solver.C101_estimate_meaning",
    "Verif.Solver.C101_estimate_small",
    "Verif.Solver.C101_code_estimate",
    "Verif.Solver.C101_sector_count_any",
    "Verif.Solver.C101_sector_count"
   ],
   "note": ""
  },
  {
   "property": "C102",
   "status": "partial",
   "theorems": [
    "Verif.Solver.C102_sector_count_partial",
    "Verif.Solver.C102_short_sector_estimate",
    "Verif.Solver.C102_jump_near_the_end"
   ],
   "note": "False of the code as stated (C102_jump_near_the_end): after a sector narrower than 1e-12 the step size never recovers. C102_sector_count_partial: the bound holds if no sector that ends at a listed jump is narrower than m."
  },
  {
   "property": "C103",
   "status": "proved",
   "theorems": [
    "Verif.NP.C103_literals"
   ],
   "note": ""
  },
  {
   "property": "C104",
   "status": "proved",
   "theorems": [
    "Verif.NP.C104_step"
   ],
   "note": ""
  },
  {
   "property": "C105",
   "status": "proved",
   "theorems": [
    "Verif.NP.C105_propagateColumn",
    "Verif.NP.C105_code_accuracy"
   ],
   "note": "eigenvectors are assumed exact (SelfAdjointEigenSolver is not modelled)"
  },
  {
   "property": "C106",
   "status": "proved",
   "theorems": [
    "Verif.NP.C106_fine_mesh_reversible"
   ],
   "note": ""
  },
  {
   "property": "C107",
   "status": "proved",
   "theorems": [
    "Verif.Solver.C107_determinant"
   ],
   "note": "Props/PeriodicConverge"
  },
  {
   "property": "C108",
   "status": "proved",
   "theorems": [
    "Verif.Solver.C108_sign_change",
    "Verif.Solver.C108_small_at_eigenvalue",
    "Verif.Solver.C108_bisection"
   ],
   "note": "Props/PeriodicConverge; double eigenvalues are found by eigenvaluePair only through the minimum of the determinant, which is covered by C32/C73/C81"
  },
  {
   "property": "C109",
   "status": "partial",
   "theorems": [
    "Verif.Matscs.C109_argument_mod_two_pi_partial",
    "Verif.Matscs.C109_decoupled_exact_partial",
    "Verif.Matscs.C109_wrong_when_basis_permuted"
   ],
   "note": "modulo 2 pi in general, and exact for decoupled systems whose eigenbasis order is the component order. The full property is violated by the code: propagateDelta multiplies the diagonal factor of the eigenbasis with theta in the original basis, so a permuted eigenbasis gives a wrong multiple of 2 pi (C109_wrong_when_basis_permuted)."
  },
  {
   "property": "C110",
   "status": "proved",
   "theorems": [
    "Verif.Matscs.C110_piecewise_constant_exact"
   ],
   "note": "Exact eta functions; the Legendre coefficients of the constant potential are taken as (V, 0, 0, ...)."
  },
  {
   "property": "C111",
   "status": "proved",
   "theorems": [
    "Verif.Matscs.C111_energy_derivative",
    "Verif.Matscs.C111_family_exists"
   ],
   "note": ""
  },
  {
   "property": "C112",
   "status": "proved",
   "theorems": [
    "Verif.Solver.C112_oscillation"
   ],
   "note": "The specification side of C91–C95, C113: 'the eigenvalue number n' is well defined for every n."
  },
  {
   "property": "C113",
   "status": "proved",
   "theorems": [
    "Verif.Solver.C113_by_index_total"
   ],
   "note": "Strengthens C95, which assumed the window and the return of the call. fuel stands for the number of loop iterations; any fuel >= max(p, q, 2^32 - 1) suffices."
  },
  {
   "property": "C114",
   "status": "proved",
   "theorems": [
    "Verif.Fp.C114_ieee",
    "Verif.Fp.C114_nearest",
    "Verif.Fp.C114_propagate"
   ],
   "note": "IEEE rounding is proved to satisfy the rounding assumptions (C114_ieee). No overflow/NaN; association of products in the tables as in Model/Formulas."
  },
  {
   "property": "C115",
   "status": "proved",
   "theorems": [
    "Verif.Fp.C115_matching_error"
   ],
   "note": ""
  },
  {
   "property": "C116",
   "status": "proved",
   "theorems": [
    "Verif.Fp.C116_sound",
    "Verif.Fp.C116_complete"
   ],
   "note": ""
  },
  {
   "property": "C117",
   "status": "proved",
   "theorems": [
    "Verif.Fp.C117_eta",
    "Verif.Fp.C117_uniform"
   ],
   "note": "Assumes fl 100 = 100 (proved for IEEE types with at least 7 bits)."
  },
  {
   "property": "C118",
   "status": "proved",
   "theorems": [
    "Verif.Fp.C118_coefficients"
   ],
   "note": ""
  },
  {
   "property": "C119",
   "status": "proved",
   "theorems": [
    "Verif.Fp.C119_fit",
    "Verif.Fp.C119_propagate",
    "Verif.Fp.C119_matching_error"
   ],
   "note": "The constant C exists but is not explicit. Angles (theta) are not covered."
  },
  {
   "property": "C120",
   "status": "proved",
   "theorems": [
    "Verif.MInt.C120_search_no_overflow"
   ],
   "note": "All int expressions of the search; conversions of angles outside the range of int remain undefined behaviour in both models."
  },
  {
   "property": "C121",
   "status": "proved",
   "theorems": [
    "Verif.MInt.C121_half_by_index_no_overflow",
    "Verif.MInt.C121_half_window"
   ],
   "note": "Both directions are proved for the window search."
  },
  {
   "property": "C122",
   "status": "proved",
   "theorems": [
    "Verif.MInt.C122_periodic_no_overflow",
    "Verif.MInt.C122_periodic_overflow"
   ],
   "note": "The limit is sharp up to one value; outside it the code has undefined behaviour (C122_periodic_overflow)."
  },
  {
   "property": "C123",
   "status": "proved",
   "theorems": [
    "Verif.Fp.C123_energy_derivative"
   ],
   "note": ""
  },
  {
   "property": "C124",
   "status": "proved",
   "theorems": [
    "Verif.Fp.C124_matching_derivative"
   ],
   "note": ""
  },
  {
   "property": "C125",
   "status": "proved",
   "theorems": [
    "Verif.Fp.C125_newton_converges",
    "Verif.Fp.C125_error_estimate"
   ],
   "note": ""
  },
  {
   "property": "C126",
   "status": "proved",
   "theorems": [
    "Verif.Fp.C126_newton_sound"
   ],
   "note": "The index reported with the energy is not covered in finite precision (angles are arbitrary here); in exact arithmetic it is, C93."
  },
  {
   "property": "C127",
   "status": "proved",
   "theorems": [
    "Verif.Fp.C127_eigenfunction_finite_precision"
   ],
   "note": "Boundary columns have size between 1/M and M and zero energy derivatives; |E|, |λ| ≤ M."
  },
  {
   "property": "C128",
   "status": "proved",
   "theorems": [
    "Verif.Periodic.C128_numbering",
    "Verif.Periodic.C128_pairs"
   ],
   "note": "All numbers and all K of determinant one; the list is proved unique."
  },
  {
   "property": "C129",
   "status": "proved",
   "theorems": [
    "Verif.Periodic.C129_bracket",
    "Verif.Periodic.C129_lowest",
    "Verif.Periodic.C129_bracket_misses",
    "Verif.Periodic.C129_lost_example"
   ],
   "note": "Angles enter through counting hypotheses (shown satisfiable for every problem); C129_bracket_misses and C129_lost_example are Finding 20."
  },
  {
   "property": "C130",
   "status": "proved",
   "theorems": [
    "Verif.Periodic.C130_window_by_index",
    "Verif.Periodic.C130_window_by_energy"
   ],
   "note": "Angles enter through counting hypotheses, plus angle > -1 by energy (shown satisfiable). That the bisections inside a bracket find the pair is C31-C34, C73, C107."
  },
  {
   "property": "C131",
   "status": "proved",
   "theorems": [
    "Verif.Periodic.C131_spurious_example",
    "Verif.Periodic.C131_by_index",
    "Verif.Periodic.C131_by_energy",
    "Verif.Periodic.C131_spurious"
   ],
   "note": "C131_spurious: the by-energy search reports a false eigenvalue with number 0 when eMin lies between the lowest eigenvalue and the energy where both angles reach one (Finding 21)."
  },
  {
   "property": "C132",
   "status": "proved",
   "theorems": [
    "Verif.Liouville.C132_accept",
    "Verif.Liouville.C132_pieces"
   ],
   "note": "Exact arithmetic. The 12-point mean of r(x) is stated as the quadrature the code uses; Legendre::integrate() returns half of it, which the statement shows."
  },
  {
   "property": "C133",
   "status": "proved",
   "theorems": [
    "Verif.Liouville.C133_stored"
   ],
   "note": "The constants are bounds, not sharp; they hold for coefficients of any smoothness."
  }
 ]
}