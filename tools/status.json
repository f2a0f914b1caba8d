{
 "C01": {
  "note": "C01_uniform_mesh_any_arithmetic needs no law of arithmetic; equal widths in exact arithmetic. n = 0 and n < 0 are shown to be UB / an exception (guard theorem)."
 },
 "C04": {
  "note": "exact arithmetic, tolerance > 0; the oracle hypothesis (Lawful) is proved for every real or NaN error estimate in lawful_ofError."
 },
 "C06": {
  "status": "partial",
  "note": "The property is FALSE of the code: a repeated jump gives an empty sector, changes the mesh and can make construction loop forever (concrete kernel-checked witnesses). C06_repeated_jumps_partial is what remains true."
 },
 "C12": {
  "note": "exact arithmetic; hypothesis: transfer matrices of determinant 1 on the sector (P.Good)."
 },
 "C18": {
  "status": "partial",
  "note": "No list is ever returned for bad indices and valid indices never throw. The literal claim 'throws' is FALSE of the code: the check comes after the window search, which runs for ever for Imin < 0 on a problem bounded below (C18_negative_index_hangs); C18_bad_indices_throw gives the throw once the window is found."
 },
 "C22": {
  "status": "partial",
  "note": "FALSE of the code: kernel-checked counterexamples for an eigenvalue exactly at Emin, at Emax and exactly at a bisection point. C22_open_interval_partial: interior eigenvalues are located."
 },
 "C21": {
  "note": "Resolvable makes the hypotheses explicit: strictly increasing angle, separation above (Emax-Emin)/2^31, no eigenvalue exactly on a dyadic bisection point (see C22)."
 },
 "C20": {
  "note": "std::sort modelled by insertion; permutation in any arithmetic, order in exact arithmetic."
 },
 "C26": {
  "note": "exact index arithmetic on int (no overflow); hypothesis: the two underlying index requests answer exactly (C21)."
 },
 "C29": {
  "status": "partial",
  "note": "FALSE of the code: for x < 0 the scalar overload returns the derivative with the wrong sign (kernel-checked witness, both parities). Values and non-negative points agree (C29_values_agree_partial)."
 },
 "C30": {
  "note": "array overload; plus: the extension's second component is its derivative, and its norm over [-a,a] equals the half norm."
 },
 "C34": {
  "status": "partial",
  "note": "FALSE of the code: PeriodicMatslise::eigenfunction passes the kernel vector of the error matrix as boundary value on both sides (kernel-checked witness: free particle, E = 0). The eigenpairs route is correct (C34_eigenpairs_partial)."
 },
 "C32": {
  "note": "any arithmetic; minCoeff/maxCoeff as min/max of two."
 },
 "C33": {
  "note": "exact arithmetic; unimodular transfer matrices; derivative over the reals."
 },
 "C73": {
  "note": "exact arithmetic; includes the negative statement for iMin <= -2 (C73_negative_index_hangs)."
 },
 "C43": {
  "note": "all of polynomial.h's arithmetic, any field and any degrees"
 },
 "C44": {
  "note": "derivative/integral overloads, over any field formally and over R analytically"
 },
 "C36": {
  "note": "over the real numbers, libm functions taken as the mathematical ones"
 },
 "C37": {
  "note": "over the real numbers, libm functions taken as the mathematical ones"
 },
 "C38": {
  "note": "over the real numbers, libm functions taken as the mathematical ones"
 },
 "C39": {
  "note": "over the real numbers, libm functions taken as the mathematical ones"
 },
 "C40": {
  "note": "over the real numbers, libm functions taken as the mathematical ones"
 },
 "C74": {
  "note": "exact arithmetic; the exactness of calculateT for constant potentials is C52"
 },
 "C75": {
  "note": "exact arithmetic"
 },
 "C76": {
  "note": "two or more sectors: proved; one sector: the off-by-one is proved, with a witness (finding 15)"
 },
 "C77": {
  "note": "the property is violated by the code: proved with a concrete witness (finding 16)"
 },
 "C78": {
  "note": "exact arithmetic, piecewise constant potentials"
 },
 "C79": {
  "note": "any arithmetic; ties allowed"
 },
 "C51": {
  "note": "Exact arithmetic; the values for 100 \u2264 |Z| are the closed forms, recurrence for every Z."
 },
 "C80": {
  "note": "Truncation error of the series in exact arithmetic."
 },
 "C81": {
  "note": ""
 },
 "C69": {
  "note": "for all bounded coefficients, energies and steps: residual order 15/16, local error h^15 (partial step) and h^19 (full step); tables of /repo transcribed into FormulaData and certified in the kernel"
 },
 "C41": {
  "note": "table = closed form, recurrence, end values, orthogonality, |P_i|<=1"
 },
 "C42": {
  "note": "nodes/weights of the double tables (decimal literals) in exact arithmetic: every polynomial up to degree 2k-i-1, every interval; reconstruction of degree < n"
 },
 "C52": {
  "note": "exact eta: exact solution operator; computed eta: exact for |Z|>=100, otherwise within 1e-33"
 },
 "C53": {
  "note": "exact derivative formula with the missing last eta term, and its size"
 },
 "C65": {
  "note": "all sample points strictly inside the sector, in exact arithmetic; coefficients depend only on interior values"
 },
 "C45": {
  "note": "r-tiling for every arithmetic incl. floats; x-tiling, end values in exact arithmetic; termination for continuous positive p, w; divergence when nothing is ever accepted"
 },
 "C46": {
  "note": "exactly 50 halvings; within 2^-51 of the inverse for increasing maps and of some preimage for every stored polynomial; global round trip"
 },
 "C47": {
  "note": "for every contiguous ordered piece list and every value"
 },
 "C48": {
  "note": "V = q/w + m''/m on a piece; and the normal-form equivalence of the two equations"
 },
 "C49": {
  "status": "partial",
  "note": "FALSE of the code: C49_fails and C49_eigenfunction_fails prove the counterexample; the value components round-trip (C49_value_partial) and the corrected derivative formula would (C49_corrected_partial)"
 },
 "C50": {
  "note": "chain rule with the piece's own p, w polynomials; linear and injective"
 },
 "C55": {
  "note": ""
 },
 "C56": {
  "note": "propagation exactness is a hypothesis (values follow a solution and its energy derivative)"
 },
 "C57": {
  "note": "linear, column-wise, value part independent of the angle, composition and reversal, conserved Wronskian for every coupled problem whose transfer matrices are invertible (symplectic for the Wronskian)"
 },
 "C58": {
  "status": "partial",
  "note": "FALSE of the code: C58_fails proves, for every mesh, energy and point list, that all returned values are zero and only points of the first sector get one; the partial theorem keeps the count for points in the first sector"
 },
 "C59": {
  "status": "partial",
  "note": "FALSE of the code: the sign of the step is ignored in every sector (C59_step_sign_ignored), a start outside the domain reads sectors[-1] (C59_outside_is_ub), a concrete round trip gives 3 instead of 1 (C59_fails); partial: from xmin through forward sectors and from xmax through backward sectors it transports y y'^-1 of the solutions"
 },
 "C60": {
  "status": "partial",
  "note": "FALSE of the code: C60_fails (negative tolerances other than -1 and non-positive step counts are accepted and fail later, zero steps with undefined behaviour); C60_checks characterises exactly what is accepted, C60_sensible_partial covers the sensible requests"
 },
 "C61": {
  "note": "membership and multiplicity for any scalar type, sortedness in exact arithmetic, end-to-end mesh statement for distinct jumps"
 },
 "C62": {
  "note": "all histories of a reference-counted heap model; negative part: raw pointers (C++/JS) and the internal __sector accessor dangle"
 },
 "C64": {
  "note": "IEEE comparison laws only"
 },
 "C66": {
  "note": "any sequence of calls, any coefficient type with involutive negation (scalar and matrix sectors)"
 },
 "C68": {
  "note": "exact arithmetic"
 },
 "C67": {
  "note": "All runs of nested/consecutive timers; the real time source is a parameter. Report ordering/printing not modelled."
 },
 "C82": {
  "note": "array = pointwise for every tiling of pieces"
 },
 "C83": {
  "note": "exact real arithmetic; accuracy of eta and coefficients enters as a parameter, met by the code's own (C83_code_accuracy, C87_code_coefficients)"
 },
 "C84": {
  "note": "exact real arithmetic; accuracy of eta and coefficients enters as a parameter, met by the code's own (C83_code_accuracy, C87_code_coefficients)"
 },
 "C85": {
  "note": "exact real arithmetic; accuracy of eta and coefficients enters as a parameter, met by the code's own (C83_code_accuracy, C87_code_coefficients)"
 },
 "C86": {
  "note": "exact real arithmetic; accuracy of eta and coefficients enters as a parameter, met by the code's own (C83_code_accuracy, C87_code_coefficients)"
 },
 "C87": {
  "note": "exact real arithmetic; accuracy of eta and coefficients enters as a parameter, met by the code's own (C83_code_accuracy, C87_code_coefficients)"
 },
 "C88": {
  "note": ""
 },
 "C89": {
  "note": "real arithmetic with accuracy parameters; mesh points a, b"
 },
 "C90": {
  "note": "real arithmetic with accuracy parameters"
 },
 "C91": {
  "note": "Under the hypothesis that the evaluated energies avoid the band just above the sector averages of the potential (finding of C89), and that the angle at a point of repeated halving is not exactly a multiple of pi (C22: the code loses such an eigenvalue)."
 },
 "C92": {
  "note": "AngleFit hypothesis as in C89."
 },
 "C93": {
  "note": "C93_newton_sound for one iteration, C93_results_sound for every pair returned by the search. Iterations stopped by the cap of 20 evaluations are excluded (the code accepts them: see C24)."
 },
 "C94": {
  "note": "The estimate is only meaningful for errors above the accuracy of the 14th order method; for errors below it, the theorem gives only the upper bound."
 },
 "C95": {
  "note": "Termination of the doubling loops is not part of it (C23 covers what happens when they return). Energies where the angle is not meaningful (the band of C89) are excluded by hypothesis."
 },
 "C96": {
  "note": "exact arithmetic up to the stated accuracy of eta and the coefficients"
 },
 "C97": {
  "note": "exact arithmetic up to the stated accuracy of eta and the coefficients"
 },
 "C98": {
  "note": "Also: every eigenvalue has a normalised eigenfunction (C98_eigenfunction_exists)."
 },
 "C99": {
  "note": "Accuracy of the inner spectra is a hypothesis of C99_half_by_index/C99_half_window, with C95/C91 giving it for the solver; the eigenfunction statement is end to end. Witness C99_equal_sides_not_symmetric: equal Robin values pass checkSymmetry although the problem is not symmetric."
 },
 "C100": {
  "note": "The exact normal form is a specification; the code's pieces approximate it. C100_perturbed_coefficients turns a pointwise error of the transformation's potential into a coefficient accuracy; the accuracy of the pieces themselves is the acceptance test of C45 and is not bounded."
 },
 "C101": {
  "note": ""
 },
 "C102": {
  "status": "partial",
  "note": "False of the code as stated (C102_jump_near_the_end): after a sector narrower than 1e-12 the step size never recovers. C102_sector_count_partial: the bound holds if no sector that ends at a listed jump is narrower than m."
 },
 "C103": {
  "note": ""
 },
 "C104": {
  "note": ""
 },
 "C105": {
  "note": "eigenvectors are assumed exact (SelfAdjointEigenSolver is not modelled)"
 },
 "C106": {
  "note": ""
 },
 "C107": {
  "note": "Props/PeriodicConverge"
 },
 "C108": {
  "note": "Props/PeriodicConverge; double eigenvalues are found by eigenvaluePair only through the minimum of the determinant, which is covered by C32/C73/C81"
 },
 "C109": {
  "status": "partial",
  "note": "modulo 2 pi in general, and exact for decoupled systems whose eigenbasis order is the component order. The full property is violated by the code: propagateDelta multiplies the diagonal factor of the eigenbasis with theta in the original basis, so a permuted eigenbasis gives a wrong multiple of 2 pi (C109_wrong_when_basis_permuted)."
 },
 "C110": {
  "note": "Exact eta functions; the Legendre coefficients of the constant potential are taken as (V, 0, 0, ...)."
 },
 "C111": {
  "note": ""
 },
 "C112": {
  "note": "The specification side of C91\u2013C95, C113: 'the eigenvalue number n' is well defined for every n."
 },
 "C113": {
  "note": "Strengthens C95, which assumed the window and the return of the call. fuel stands for the number of loop iterations; any fuel >= max(p, q, 2^32 - 1) suffices."
 },
 "C114": {
  "note": "IEEE rounding is proved to satisfy the rounding assumptions (C114_ieee). No overflow/NaN; association of products in the tables as in Model/Formulas."
 },
 "C115": {
  "note": ""
 },
 "C116": {
  "note": ""
 },
 "C117": {
  "note": "Assumes fl 100 = 100 (proved for IEEE types with at least 7 bits)."
 },
 "C118": {
  "note": ""
 },
 "C119": {
  "note": "The constant C exists but is not explicit. Angles (theta) are not covered."
 },
 "C120": {
  "note": "All int expressions of the search; conversions of angles outside the range of int remain undefined behaviour in both models."
 },
 "C121": {
  "note": "Both directions are proved for the window search."
 },
 "C122": {
  "note": "The limit is sharp up to one value; outside it the code has undefined behaviour (C122_periodic_overflow)."
 },
 "C123": {
  "note": ""
 },
 "C124": {
  "note": ""
 },
 "C125": {
  "note": ""
 },
 "C126": {
  "note": "The index reported with the energy is not covered in finite precision (angles are arbitrary here); in exact arithmetic it is, C93."
 },
 "C127": {
  "note": "Boundary columns have size between 1/M and M and zero energy derivatives; |E|, |\u03bb| \u2264 M."
 },
 "C128": {
  "note": "All numbers and all K of determinant one; the list is proved unique."
 },
 "C129": {
  "note": "Angles enter through counting hypotheses (shown satisfiable for every problem); C129_bracket_misses and C129_lost_example are Finding 20."
 },
 "C130": {
  "note": "Angles enter through counting hypotheses, plus angle > -1 by energy (shown satisfiable). That the bisections inside a bracket find the pair is C31-C34, C73, C107."
 },
 "C131": {
  "note": "C131_spurious: the by-energy search reports a false eigenvalue with number 0 when eMin lies between the lowest eigenvalue and the energy where both angles reach one (Finding 21)."
 },
 "C132": {
  "note": "Exact arithmetic. The 12-point mean of r(x) is stated as the quadrature the code uses; Legendre::integrate() returns half of it, which the statement shows."
 },
 "C133": {
  "note": "The constants are bounds, not sharp; they hold for coefficients of any smoothness."
 }
}