{"id": "C01", "title": "Uniform mesh tiles the domain exactly", "statement": "UniformSectorBuilder(n) on [min,max] with n >= 1 returns exactly n sectors, consecutive sectors share their end point, the first starts at min, the last ends at max, and (min < max, exact arithmetic) every sector has the same strictly positive width.", "quantifier": "every n >= 1, every min < max, every outcome of every Sector::compare call", "why_tests_cant": "the order in which sectors are created depends on 2^n comparison outcomes and n is unbounded", "anchors": ["matslise/util/sectorbuilder.cpp: UniformSectorBuilder::operator()"]}
{"id": "C02", "title": "Matching index splits the mesh into forward and backward sectors", "statement": "In every mesh a builder returns, 0 <= matchIndex < sectorCount, the sectors 0..matchIndex have direction forward and all later sectors have direction backward; with two or more sectors the matching sector is never the last one.", "quantifier": "both builders, every size, every comparison and error outcome", "why_tests_cant": "needs every interleaving of forward and backward steps", "anchors": ["matslise/util/sectorbuilder.cpp: UniformSectorBuilder::operator(), AutomaticSectorBuilder::operator()", "matslise/util/sectorbuilder.h: SectorBuilderReturn"]}
{"id": "C03", "title": "Automatic mesh is a contiguous tiling whatever the error estimates are", "statement": "If AutomaticSectorBuilder returns, the returned sectors are contiguous (max of each is the min of the next), the first starts at min and the last ends at max. This holds for arbitrary (even NaN) error estimates, comparison outcomes, jump lists and for arithmetic that obeys no law at all (floating point).", "quantifier": "every jump list, every error/compare oracle, every scalar type", "why_tests_cant": "the mesh is driven by data dependent error estimates of an arbitrary potential", "anchors": ["matslise/util/sectorbuilder.cpp: AutomaticSectorBuilder::operator(), automaticNextSector"]}
{"id": "C04", "title": "Automatic mesh construction terminates with positive-width sectors", "statement": "For min < max, jumps strictly increasing inside (min,max) and any error estimates, AutomaticSectorBuilder terminates, never dereferences a jump iterator past the end, and every sector has strictly positive width.", "quantifier": "every error/compare oracle, every strictly increasing jump list, every min < max (exact arithmetic)", "why_tests_cant": "termination for every potential cannot be established by running it on some potentials", "anchors": ["matslise/util/sectorbuilder.cpp: AutomaticSectorBuilder::operator(), automaticNextSector"]}
{"id": "C05", "title": "Every jump is a sector boundary", "statement": "Every user supplied discontinuity strictly inside the domain is an end point of some sector of the automatic mesh, so no sector straddles a discontinuity.", "quantifier": "every strictly increasing jump list in (min,max), every error/compare oracle", "why_tests_cant": "depends on every interleaving of forward and backward steps relative to the jump list", "anchors": ["matslise/util/sectorbuilder.cpp: AutomaticSectorBuilder::operator()", "matslise/pyslise/pyslise.cpp: Pyslise.__init__ jumps"]}
{"id": "C06", "title": "Repeated jumps are harmless", "statement": "Listing the same discontinuity twice must not change the mesh or create an empty sector. (FALSE of the code: a repeated jump produces a zero-width sector; see DESIGN.)", "quantifier": "every jump list accepted by the Python constructor", "why_tests_cant": "a test suite never lists duplicates; the claim ranges over all lists", "anchors": ["matslise/util/sectorbuilder.cpp: AutomaticSectorBuilder::operator()", "matslise/pyslise/pyslise.cpp:132-141"]}
{"id": "C07", "title": "Refinement only gives up for a stated reason", "statement": "A sector produced by the automatic builder has estimated error not greater than the tolerance, unless its width is at most 1e-3 or ten shrink steps were used; an enlargement that would exceed the tolerance is never kept.", "quantifier": "every error oracle and every starting width", "why_tests_cant": "requires every sequence of error estimates", "anchors": ["matslise/util/sectorbuilder.cpp: automaticNextSector"]}
{"id": "C08", "title": "Sector lookup is total, in bounds and correct", "statement": "On every contiguous ordered mesh find_sector terminates, never reads outside the sector array, returns the index of a sector containing the point when the point is in the domain and -1 when it is not.", "quantifier": "every non-empty ordered mesh of any size, every point", "why_tests_cant": "unbounded mesh size; boundary points", "anchors": ["matslise/util/find_sector.h: find_sector"]}
{"id": "C09", "title": "Array evaluation of an eigenfunction equals pointwise evaluation", "statement": "Evaluating an eigenfunction on an array gives, entry by entry, the value of the scalar overload, for points in any order, and never reads outside the sector array; the only freedom is which of the two sectors sharing a boundary point is used.", "quantifier": "every mesh, every list of points in every order", "why_tests_cant": "the array version carries a cursor whose state depends on the whole history of earlier points", "anchors": ["matslise/matslise/matslise.cpp: MEigenfunction::operator(), findSector"]}
{"id": "C10", "title": "propagate rejects exactly the points outside the domain", "statement": "Matslise::propagate(E,y,a,b) throws if and only if a or b is not in [min,max] (NaN included) and otherwise returns without touching memory outside the sector array.", "quantifier": "every mesh, every E, y, a, b", "why_tests_cant": "unbounded mesh and inputs", "anchors": ["matslise/matslise/matslise.cpp: Matslise::propagate", "matslise/matslise.h: Domain::contains"]}
{"id": "C11", "title": "propagate is linear in the initial values", "statement": "The propagated (y, y') and their E-derivatives depend linearly on the initial (y, y', dy/dE, dy'/dE): propagating a linear combination gives the same combination of the propagated values, for every mesh, E, a, b.", "quantifier": "every mesh, every transfer matrix, every pair of initial values and coefficients", "why_tests_cant": "an algebraic identity over all inputs", "anchors": ["matslise/matslise/matslise.cpp: Matslise::propagate", "matslise/matslise/sector.cpp: Sector::propagate, propagateDelta"]}
{"id": "C12", "title": "propagate composes: a->b->c equals a->c", "statement": "Propagating from a to b and then from b to c gives the same values as propagating from a to c directly, for any three points of the domain in any order (transfer matrices of determinant 1).", "quantifier": "every mesh, every a, b, c in the domain in any relative position", "why_tests_cant": "the number of sectors crossed and the direction of travel vary without bound", "anchors": ["matslise/matslise/matslise.cpp: Matslise::propagate", "matslise/matslise/sector.cpp: Sector::propagate, propagateDelta"]}
{"id": "C13", "title": "propagate is reversible", "statement": "Propagating from a to b and back to a returns the initial values, including the E-derivatives.", "quantifier": "every mesh, a, b, E and initial values, transfer matrices of determinant 1", "why_tests_cant": "infinitely many meshes and points", "anchors": ["matslise/matslise/matslise.cpp: Matslise::propagate", "matslise/util/y.h: T::operator*, T::operator/"]}
{"id": "C14", "title": "propagate conserves the Wronskian", "statement": "For two solutions propagated from a to b with the same E, u*v' - u'*v at b equals its value at a.", "quantifier": "every mesh, E, a, b and pair of initial values, transfer matrices of determinant 1", "why_tests_cant": "an invariant over arbitrarily many sectors", "anchors": ["matslise/matslise/matslise.cpp: Matslise::propagate", "matslise/matslise/sector.cpp: Sector::propagate"]}
{"id": "C15", "title": "The E-derivative returned by propagate is the derivative", "statement": "If the initial dy/dE is the derivative of the initial y with respect to E, and the stored matrices dt are the derivatives of the matrices t, then the dy/dE returned by propagate is the derivative with respect to E of the returned y.", "quantifier": "every mesh, a, b, E, every differentiable family of initial values", "why_tests_cant": "finite differences only approximate a derivative at sampled points", "anchors": ["matslise/util/y.h: T::operator*, T::operator/, Y::reverse", "matslise/matslise/matslise.cpp: Matslise::propagate"]}
{"id": "C16", "title": "Zero matching error means a boundary value solution exists", "statement": "matchingError's first component is zero exactly when the left and right solutions are proportional, i.e. one function satisfies both boundary conditions; the value does not depend on where in the mesh the matching point lies.", "quantifier": "every mesh, matching point, E, non-zero boundary values", "why_tests_cant": "an if-and-only-if over all inputs", "anchors": ["matslise/matslise/matslise.cpp: Matslise::matchingError"]}
{"id": "C17", "title": "matchingError's second component is the E-derivative of the first", "statement": "With E-derivatives as in C15, the second component returned by matchingError is the derivative with respect to E of the first component.", "quantifier": "every mesh, E, boundary values", "why_tests_cant": "derivative claim over a continuum", "anchors": ["matslise/matslise/matslise.cpp: Matslise::matchingError"]}
{"id": "C18", "title": "Index arguments are validated", "statement": "eigenvaluesByIndex throws when Imin < 0 or Imin > Imax and never returns a list in those cases; for valid indices it never throws.", "quantifier": "every Imin, Imax and every matching function", "why_tests_cant": "all integers and all problems", "anchors": ["matslise/matslise/matslise.cpp: computeEigenvaluesHelper, Matslise::eigenvaluesByIndex"]}
{"id": "C19", "title": "The eigenvalue search always terminates", "statement": "The bisection search inside eigenvalues/eigenvaluesByIndex terminates for every (even discontinuous, non-monotone, NaN-valued) matching function and every interval, within 31 levels of subdivision.", "quantifier": "every matching function, Emin, Emax, Imin, Imax", "why_tests_cant": "all functions, not samples", "anchors": ["matslise/matslise/matslise.cpp: computeEigenvaluesHelper"]}
{"id": "C20", "title": "Eigenvalue lists are sorted and contain exactly the polished candidates", "statement": "The list returned by eigenvalues/eigenvaluesByIndex is sorted by (index, eigenvalue) and is a permutation of the results of the Newton polishing of the bracketed candidates.", "quantifier": "every matching function and interval", "why_tests_cant": "ordering of arbitrarily many results", "anchors": ["matslise/matslise/matslise.cpp: computeEigenvaluesHelper"]}
{"id": "C21", "title": "Every index in range is located exactly once", "statement": "If the matching angle is strictly increasing in E and each eigenvalue in the open interval is resolved, then the search produces exactly one candidate for every requested index k in [Imin,Imax) whose eigenvalue lies strictly inside (Emin,Emax), and none other; each candidate bracket contains its eigenvalue.", "quantifier": "every strictly increasing matching function, interval and index range", "why_tests_cant": "completeness (no eigenvalue skipped) is a claim about all matching functions", "anchors": ["matslise/matslise/matslise.cpp: computeEigenvaluesHelper"]}
{"id": "C22", "title": "An eigenvalue at an end of the requested energy interval is reported", "statement": "The documentation promises the eigenvalues in the closed interval [Emin;Emax]. (FALSE of the code: an eigenvalue exactly at Emin is dropped; see DESIGN.)", "quantifier": "every interval and matching function", "why_tests_cant": "needs exact equality at an end point", "anchors": ["matslise/matslise/matslise.cpp: computeEigenvaluesHelper", "matslise/pyslise/pyslise.cpp:33"]}
{"id": "C23", "title": "The energy window found for an index range contains it", "statement": "When the doubling loops of eigenvaluesByIndex stop, the window [Emin,Emax] they hand to the search satisfies Emin < Emax, theta(Emax)/pi >= Imax and theta(Emin)/pi <= Imin (monotone matching angle), so that all requested eigenvalues lie inside; the loops stop whenever the angle tends to infinity and to a value <= Imin.", "quantifier": "every monotone matching function, every 0 <= Imin <= Imax", "why_tests_cant": "unbounded number of doublings", "anchors": ["matslise/matslise/matslise.cpp: Matslise::eigenvaluesByIndex"]}
{"id": "C24", "title": "Newton polishing is bounded and reports a non-negative index", "statement": "Newton polishing performs at least 1 and at most 20 evaluations, stops early only when the last correction is at most the tolerance, and the reported index is never negative.", "quantifier": "every error function (including NaN), start and tolerance", "why_tests_cant": "all functions", "anchors": ["matslise/matslise/matslise.cpp: newtonIteration"]}
{"id": "C25", "title": "Candidates lie inside the requested energy interval", "statement": "Every candidate energy handed to Newton lies in [Emin,Emax], and so does every energy at which the matching function is evaluated by the bisection.", "quantifier": "every matching function, every Emin <= Emax", "why_tests_cant": "all histories of the search queue", "anchors": ["matslise/matslise/matslise.cpp: computeEigenvaluesHelper"]}
{"id": "C26", "title": "Half-range index arithmetic covers [Imin,Imax) exactly", "statement": "MatsliseHalf::eigenvaluesByIndex asks the even problem for k and the odd problem for k' such that {2k} united with {2k'+1} is exactly {Imin,...,Imax-1} with no overlap.", "quantifier": "every 0 <= Imin <= Imax", "why_tests_cant": "all integers, both parities", "anchors": ["matslise/matslise/halfrange.cpp: MatsliseHalf::eigenvaluesByIndex"]}
{"id": "C27", "title": "Merged half-range spectrum is complete and ordered", "statement": "mergeEigenvalues returns every even eigenvalue with index 2k and every odd one with index 2k+1, each once; when both inputs are sorted by index the result is sorted by index, and contiguous inputs give contiguous output.", "quantifier": "every pair of input lists of any length", "why_tests_cant": "unbounded lists", "anchors": ["matslise/matslise/halfrange.cpp: mergeEigenvalues"]}
{"id": "C28", "title": "Half-range problems reject asymmetric boundary conditions", "statement": "On MatsliseHalf the two-sided overloads throw exactly when left != right, and otherwise behave as the one-sided overload.", "quantifier": "every pair of boundary values, every operation", "why_tests_cant": "all inputs", "anchors": ["matslise/matslise.h: AbstractMatslise::checkSymmetry and callers"]}
{"id": "C29", "title": "Half-range eigenfunction overloads agree", "statement": "The scalar and the array overload of a half-range eigenfunction return the same value and derivative at every point. (FALSE of the code: the derivative has the opposite sign for x < 0; values agree.)", "quantifier": "every inner eigenfunction, parity and point", "why_tests_cant": "all points", "anchors": ["matslise/matslise/halfrange.cpp: EigenfunctionHalf::operator()"]}
{"id": "C30", "title": "Half-range eigenfunctions are the even/odd extension", "statement": "For every sorted point list the array overload returns the even (odd) extension of the half-problem eigenfunction and its derivative, scaled by sqrt(1/2), row by row in the order of the points; it throws exactly on unsorted lists.", "quantifier": "every list of points of any length, both parities", "why_tests_cant": "index reversal over unbounded arrays", "anchors": ["matslise/matslise/halfrange.cpp: EigenfunctionHalf::operator()(Array)"]}
{"id": "C31", "title": "Periodic bisection terminates inside its bracket and brackets a sign change", "statement": "binarySearch terminates for every function and eps > 0, its result lies in [eMin,eMax], and if the function changes sign strictly over the initial bracket (and is continuous) there is a zero within eps*max(1,|eMin|) of the result.", "quantifier": "every function, bracket and eps > 0", "why_tests_cant": "all functions", "anchors": ["matslise/matslise/periodic.cpp: binarySearch"]}
{"id": "C32", "title": "Periodic results respect the requested ranges", "statement": "Every reported periodic eigenvalue E with index i satisfies eMin <= E < eMax and i < iMax, single ones have i >= iMin, double ones i+1 >= iMin; indices are strictly increasing, a double eigenvalue with index i excludes i+1, multiplicity is 1 or 2.", "quantifier": "every problem (all matching functions), all ranges", "why_tests_cant": "all histories of the loop", "anchors": ["matslise/matslise/periodic.cpp: eigenpairsHelper, addToResult"]}
{"id": "C33", "title": "Periodic matching determinant detects periodic solutions", "statement": "The determinant of the periodic matching error is zero exactly when a non-zero combination of the two basis solutions satisfies the (K-)periodic boundary condition, and the second value is its E-derivative.", "quantifier": "every mesh, E and K", "why_tests_cant": "if-and-only-if over all inputs", "anchors": ["matslise/matslise/periodic.cpp: calculateMatchingError, PeriodicMatslise::matchingError, periodicInitialValue"]}
{"id": "C34", "title": "PeriodicMatslise::eigenfunction returns periodic solutions", "statement": "Every function returned by PeriodicMatslise::eigenfunction(E) at an eigenvalue has boundary values related by K. (FALSE of the code: the kernel vector is used as boundary value without multiplying by the basis.)", "quantifier": "every K and kernel vector", "why_tests_cant": "all problems", "anchors": ["matslise/matslise/periodic.cpp: PeriodicMatslise::eigenfunction"]}
{"id": "C35", "title": "Boundary-value algebra: T and T^-1 are inverse on values and E-derivatives", "statement": "For det t = 1 with constant determinant, (t/(t*y)) = y and (t*(t/y)) = y including the E-derivative parts, reversing twice is the identity and scaling commutes.", "quantifier": "all 2x2 matrices with det 1, all y", "why_tests_cant": "algebraic identity over all inputs", "anchors": ["matslise/util/y.h: T::operator*, T::operator/, Y::reverse"]}
{"id": "C36", "title": "The safe arctangent has the documented range", "statement": "atan_safe(y,x) lies in (-pi/2, pi/2], has tangent y/x when x != 0, equals pi/2 when x = 0 != y, and is unchanged when (y,x) is negated or scaled by a non-zero factor.", "quantifier": "all real (y,x) != (0,0)", "why_tests_cant": "branch cuts on a continuum", "anchors": ["matslise/util/theta.h: atan_safe"]}
{"id": "C37", "title": "Prufer rescaling is a lift of the tangent rescaling", "statement": "rescale(theta,sigma) for sigma > 0 satisfies: tangent is multiplied by sigma, it commutes with adding pi, fixes multiples of pi/2, and is strictly increasing in theta.", "quantifier": "all theta, sigma > 0", "why_tests_cant": "continuum, branch of atan2", "anchors": ["matslise/matslise/sector.cpp: rescale"]}
{"id": "C38", "title": "The angle returned by propagate is the Prufer angle of the returned solution", "statement": "The angle returned by propagate has tangent scaling*y(b)/y'(b) (it is an angle of the vector (y'(b), scaling*y(b)) modulo pi), whatever the mesh, E, a, b.", "quantifier": "every mesh, E (both sides of the potential), a, b, non-zero initial values", "why_tests_cant": "branch corrections in every sector", "anchors": ["matslise/matslise/matslise.cpp: Matslise::propagate", "matslise/matslise/sector.cpp: Sector::theta0, pruferHelper"]}
{"id": "C39", "title": "Integer matching angle is equivalent to zero matching error", "statement": "matchingError's angle is an integer multiple of pi exactly when its first component is zero, so the eigenvalue counter and the Newton target agree.", "quantifier": "every mesh, E, non-zero boundary values", "why_tests_cant": "if-and-only-if over a continuum", "anchors": ["matslise/matslise/matslise.cpp: Matslise::matchingError, computeEigenvaluesHelper"]}
{"id": "C40", "title": "The Prufer angle never decreases in an oscillatory sector", "statement": "In a sector with E above the sector's mean potential the angle contribution of a left-to-right step is non-negative.", "quantifier": "all y, E, widths", "why_tests_cant": "continuum with three case corrections", "anchors": ["matslise/matslise/sector.cpp: pruferHelper"]}
{"id": "C41", "title": "The stored polynomials are the shifted Legendre polynomials", "statement": "Row i of the 16x16 table holds the coefficients of P_i(2x-1): the rows satisfy the Legendre three-term recurrence, P_i(1)=1, P_i(0)=(-1)^i and are orthogonal on [0,1].", "quantifier": "all 16 rows, all real x", "why_tests_cant": "a sign or digit error in one of 136 entries", "anchors": ["matslise/util/legendre.h: polynomials"]}
{"id": "C42", "title": "Quadrature tables reproduce Legendre coefficients", "statement": "With the stored nodes and weights the computed Legendre coefficients of any polynomial of degree < n equal the exact ones up to a rounding-size constant times the sum of |coefficients|.", "quantifier": "every polynomial of degree < n, every interval", "why_tests_cant": "all polynomials, not samples", "anchors": ["matslise/util/legendre_data.h: nodes, weights", "matslise/util/legendre.h: Legendre::getCoefficients"]}
{"id": "C43", "title": "Polynomial arithmetic agrees with pointwise arithmetic", "statement": "For every x: (p+q)(x)=p(x)+q(x), (p-q)(x)=p(x)-q(x), (p*q)(x)=p(x)*q(x), (c*p)(x)=c*p(x), (-p)(x)=-p(x), converting to a larger degree does not change values.", "quantifier": "all degrees, coefficients and x", "why_tests_cant": "all degrees", "anchors": ["matslise/util/polynomial.h"]}
{"id": "C44", "title": "Polynomial calculus is exact", "statement": "derivative<d>() evaluated at x equals derivative<d>(x) and is the d-th derivative of the polynomial function; integral() is an antiderivative vanishing at 0 and integral(x) is its value.", "quantifier": "all degrees, d, coefficients, x", "why_tests_cant": "all degrees and a continuum", "anchors": ["matslise/util/polynomial.h: derivative, integral"]}
{"id": "C45", "title": "Liouville pieces tile both coordinate domains", "statement": "If the adaptive construction finishes, its pieces are contiguous and ordered in r from rDomain.min to rDomain.max and contiguous in x starting at 0, so xDomain is a single interval.", "quantifier": "every coefficient functions p,w, every acceptance outcome", "why_tests_cant": "adaptive subdivision of unbounded depth", "anchors": ["matslise/liouville/liouville.cpp: constructPiecewise, setXMin"]}
{"id": "C46", "title": "Inverse coordinate map converges to the inverse", "statement": "x2r's bisection terminates after 50 halvings with an interval of width at most 1e-15 that brackets the preimage of x for every increasing r2x.", "quantifier": "every increasing map and target", "why_tests_cant": "all functions", "anchors": ["matslise/liouville/liouville.cpp: x2r_impl"]}
{"id": "C47", "title": "Piece lookup finds the containing piece", "statement": "findPiece returns the piece containing the value for every value in the domain, including its right end, and never runs off the array.", "quantifier": "every ordered contiguous piece list, every value", "why_tests_cant": "unbounded piece lists", "anchors": ["matslise/liouville/liouville.cpp: findPiece"]}
{"id": "C48", "title": "The transformed potential is the Liouville normal form potential", "statement": "V(x) equals q/w + m''/m with m=(p w)^(1/4), the derivative taken with respect to x.", "quantifier": "all smooth positive p, w", "why_tests_cant": "symbolic identity over all functions", "anchors": ["matslise/liouville/liouville.cpp: LiouvilleTransformation::V"]}
{"id": "C49", "title": "Boundary values survive the round trip between r- and x-coordinates", "statement": "y2z(z2y(z)) = z at corresponding points. (FALSE of the code: y2z exchanges value and derivative in the derivative component; the value component round-trips.)", "quantifier": "all positive p,w and all z", "why_tests_cant": "all inputs", "anchors": ["matslise/liouville/liouville.cpp: z2y, y2z"]}
{"id": "C50", "title": "z2y transforms boundary values correctly", "statement": "If z(r) = sigma(r) y(x(r)) with sigma = (p w)^(-1/4) and x' = sqrt(w/p), then z2y maps (z, z') to (y, dy/dx), and is linear, so boundary conditions of the Sturm-Liouville problem become those of the Schrodinger problem.", "quantifier": "all differentiable p,w > 0 and y", "why_tests_cant": "derivative identity over all functions", "anchors": ["matslise/liouville/liouville.cpp: z2y", "matslise/liouville.h: SturmLiouville"]}
{"id": "C51", "title": "Eta functions satisfy their defining relations", "statement": "The values calculateEta returns satisfy the three-term recurrence eta_m = (2m+1) eta_{m+1} + Z eta_{m+2}, and for |Z| >= 100 eta_0, eta_1 are cosh/sinh (cos/sin) of sqrt|Z|; the exact eta functions are entire, eta_m' = eta_{m+1}/2 and eta_0^2 - Z eta_1^2 = 1.", "quantifier": "all real Z", "why_tests_cant": "continuum with a switch of algorithm at |Z| = 100", "anchors": ["matslise/util/calculateEta.h: calculateEta"]}
{"id": "C52", "title": "A constant potential is propagated exactly", "statement": "In a sector where the potential is constant, the transfer matrix is the exact solution operator of -y''+v y = E y: determinant 1, identity at delta = 0 and it solves the differential equation.", "quantifier": "all v, E, delta", "why_tests_cant": "continuum", "anchors": ["matslise/matslise/sector.cpp: Sector::calculateT", "matslise/matslise/matslise_formulas.cpp"]}
{"id": "C53", "title": "The stored derivative matrix is the E-derivative up to the last eta term", "statement": "dt equals dt/dE of the matrix t plus only the contribution of the highest stored eta function.", "quantifier": "all coefficient tables, E, delta", "why_tests_cant": "continuum", "anchors": ["matslise/matslise/sector.cpp: Sector::calculateT"]}
{"id": "C54", "title": "Eigenfunctions vanish outside the domain", "statement": "Both evaluation overloads return (0,0) exactly for points outside [min,max], never reading a sector for them.", "quantifier": "all points and meshes", "why_tests_cant": "all inputs", "anchors": ["matslise/matslise/matslise.cpp: MEigenfunction::operator()"]}
{"id": "C55", "title": "Eigenfunctions are continuous at the matching point", "statement": "When E has zero matching error, the left and right parts of the eigenfunction (value and derivative) agree at the matching point after the scaling chosen by propagationSteps.", "quantifier": "all boundary values and meshes with zero matching error", "why_tests_cant": "all inputs", "anchors": ["matslise/matslise/matslise.cpp: propagationSteps"]}
{"id": "C56", "title": "Eigenfunctions have unit norm", "statement": "The normalisation factor chosen by propagationSteps is the square root of the integral of the squared (unnormalised) eigenfunction over the domain.", "quantifier": "all smooth families of solutions", "why_tests_cant": "an identity between a boundary expression and an integral", "anchors": ["matslise/matslise/matslise.cpp: propagationSteps"]}
{"id": "C57", "title": "Coupled propagation rejects out-of-domain points and is linear and reversible", "statement": "Matscs::propagate/propagateColumn throw exactly when a or b is outside [xmin,xmax], stay inside the sector array, are linear in y, and going back returns the start (invertible transfer matrices).", "quantifier": "every dimension n, mesh, a, b", "why_tests_cant": "all dimensions and meshes", "anchors": ["matslise/matscs/matscs.cpp: propagate, propagateColumn", "matslise/matscs/sector.cpp: propagateColumn, propagateDeltaColumn"]}
{"id": "C58", "title": "Matscs::eigenfunction returns a non-trivial solution at every point", "statement": "(FALSE of the code: it starts from y = 0, so every returned value is zero, and points beyond the first sector make it stop early.)", "quantifier": "every problem and point list", "why_tests_cant": "all inputs", "anchors": ["matslise/matscs/matscs.cpp: Matscs::eigenfunction"]}
{"id": "C59", "title": "propagatePsi back and forth is the identity", "statement": "Propagating the logarithmic-derivative matrix from a to b and back returns the start. (FALSE of the code: the backward branch is unreachable.)", "quantifier": "every mesh, a, b, psi", "why_tests_cant": "all inputs", "anchors": ["matslise/matscs/sector.cpp: propagatePsi_delta"]}
{"id": "C60", "title": "Pyscs argument checks select a usable mesh builder", "statement": "The Pyscs constructor either throws or builds a mesh with a non-negative tolerance or a positive number of steps. (FALSE of the code for negative tolerances other than -1; see DESIGN.)", "quantifier": "every steps, tolerance, jumps", "why_tests_cant": "all argument combinations", "anchors": ["matslise/pyslise/pyscs.cpp:11-34"]}
{"id": "C61", "title": "Python constructor filters and sorts jumps", "statement": "The jump list given to the mesh builder is sorted and contains exactly the user's jumps that lie strictly inside the domain.", "quantifier": "every list of jumps", "why_tests_cant": "unbounded lists", "anchors": ["matslise/pyslise/pyslise.cpp:132-141"]}
{"id": "C62", "title": "Eigenfunction objects keep the problem alive", "statement": "From Python, evaluating an eigenfunction never uses freed memory for any order of creating, evaluating and dropping objects; from C++/JavaScript this only holds while the problem is alive.", "quantifier": "every history of create/evaluate/delete operations", "why_tests_cant": "all histories", "anchors": ["matslise/pyslise/module.h: EigenfunctionWrapper", "matslise/js/module.h: wrapEigenfunction", "matslise/matslise/matslise.cpp: MEigenfunction"]}
{"id": "C63", "title": "Eigenpairs are the eigenvalues paired with their eigenfunctions", "statement": "eigenpairsByIndex returns exactly the (index, E) list of eigenvaluesByIndex in the same order, each with the eigenfunction of that E and index, and fails exactly when eigenvaluesByIndex fails.", "quantifier": "every problem and index range", "why_tests_cant": "all lists", "anchors": ["matslise/matslise/abstract_matslise.cpp: eigenpairsByIndex"]}
{"id": "C64", "title": "estimatePotentialMinimum is the smallest sector mean", "statement": "estimatePotentialMinimum returns a value that occurs as mean potential of some sector and is <= that of every sector.", "quantifier": "every non-empty mesh", "why_tests_cant": "unbounded meshes", "anchors": ["matslise/matslise/matslise.cpp: estimatePotentialMinimum"]}
{"id": "C65", "title": "The potential is only evaluated inside the domain", "statement": "Every point at which a sector construction evaluates the user's potential lies strictly inside that sector, hence strictly inside [min,max]; end-point singularities and jump points are never evaluated.", "quantifier": "every mesh and both builders", "why_tests_cant": "all sectors of all meshes", "anchors": ["matslise/util/legendre.h: Legendre::Legendre", "matslise/util/legendre_data.h: nodes"]}
{"id": "C66", "title": "Changing a sector's direction is reversible", "statement": "setDirection is idempotent, and switching to the opposite direction and back restores the sector's potential coefficients; the coefficients after any sequence of setDirection calls depend only on the last direction.", "quantifier": "every sequence of setDirection calls", "why_tests_cant": "all histories", "anchors": ["matslise/matslise/sector.cpp: Sector::setDirection, Sector::Sector"]}
{"id": "C67", "title": "Profiler bookkeeping is balanced", "statement": "With properly nested scoped timers the profiler stack is empty again after the outermost timer ends, every identifier's count equals the number of completed timers with that call path, and pop/back are never applied to an empty stack.", "quantifier": "every nesting of timers", "why_tests_cant": "all call trees", "anchors": ["matslise/util/scoped_timer.h: Profiler, ScopedTimer"]}
{"id": "C68", "title": "sectorPoints lists the interior mesh points", "statement": "The JavaScript sectorPoints function returns exactly the interior sector boundaries in increasing order (sectorCount-1 of them).", "quantifier": "every mesh", "why_tests_cant": "unbounded meshes", "anchors": ["matslise/js/matslise.cpp: sectorPoints"]}
{"id": "C69", "title": "The perturbation tables solve the differential equation to the claimed order", "statement": "The correction polynomials in the generated formula tables make the residual of y'' = (V - E) y vanish up to the truncation order, the second row is the derivative of the first, and with zero perturbation only the constant-potential propagator remains.", "quantifier": "all values of v1..v15, h, delta, E", "why_tests_cant": "tens of thousands of generated coefficients", "anchors": ["matslise/matslise/matslise_formulas.cpp: calculate_tcoeff_matrix"]}
{"id": "C70", "title": "Half-range parity selection", "statement": "MatsliseHalf::eigenfunction and eigenvalueError with an explicit index use Neumann data at 0 and even extension for even indices, Dirichlet data and odd extension for odd ones; without an index, at an energy that is an eigenvalue of exactly one parity, that parity is used.", "quantifier": "every problem, energy, side and index", "why_tests_cant": "holds for every index and every matching function, tests sample a few", "anchors": ["matslise/matslise/halfrange.cpp: isEven, getY0, MatsliseHalf::eigenfunction, MatsliseHalf::eigenvalueError"]}
{"id": "C71", "title": "Split periodic pairs are close to zeros of the determinant", "statement": "When the periodic search splits a pair into two energies they are ordered, lie in the bracket, and each is within the bisection tolerance of a zero of the periodic determinant (the second under the sign condition at the right end).", "quantifier": "every continuous determinant function, bracket and eps", "why_tests_cant": "continuous family of functions", "anchors": ["matslise/matslise/periodic.cpp: eigenvaluePair, binarySearch"]}
{"id": "C72", "title": "Periodic eigenpairs list the same spectrum as eigenvalues", "statement": "PeriodicMatslise::eigenpairs and eigenpairsByIndex return exactly the indices and energies of eigenvalues and eigenvaluesByIndex in the same order, with as many eigenfunctions as the reported multiplicity.", "quantifier": "every problem, every range, any arithmetic", "why_tests_cant": "two template instantiations must agree on all inputs", "anchors": ["matslise/matslise/periodic.cpp: eigenpairsHelper"]}
{"id": "C73", "title": "Periodic eigenvalue search terminates", "statement": "eigenvaluesByIndex(iMin,iMax) on a periodic problem terminates for every iMin >= -1, every iMax and every determinant function, and eigenvalues(eMin,eMax) too; for iMin <= -2 it never returns.", "quantifier": "every problem whose angle is unbounded above and small far below the spectrum, every range", "why_tests_cant": "termination for all inputs", "anchors": ["matslise/matslise/periodic.cpp: eigenpairsHelper, eigenpairsByIndexHelper"]}
{"id": "C74", "title": "propagate returns the continuous Prüfer angle on piecewise constant problems", "statement": "For a problem whose potential is constant on each sector and whose sector steps are exact, propagate(E,y0,a,b) returns the solution through y0 at a evaluated at b, and the returned theta is the value at b of the continuous angle of (y', scaling*y) that starts in [0,pi) at a (in (0,pi] when b<a).", "quantifier": "every mesh (any number of sectors, forward and backward), every sector potential, every E, every a and b not within 1e-12 of (but different from) a sector end, every non-zero initial column", "why_tests_cant": "the unwrapping of the angle has many branches (oscillatory/non-oscillatory, signs, directions) and must be right for a continuum of inputs", "anchors": ["matslise/matslise/sector.cpp: pruferHelper, theta0, propagateDelta, Sector::propagate", "matslise/matslise/matslise.cpp: Matslise::propagate"]}
{"id": "C75", "title": "The angle counts zeros", "statement": "Under the conditions of C74, floor(theta/pi) is the number of zeros of the solution in (a,b] when a<=b, and 1-ceil(theta/pi) is the number of zeros in [b,a) when b<a.", "quantifier": "as C74", "why_tests_cant": "any missed or double counted zero for one input shifts all eigenvalue indices", "anchors": ["matslise/matslise/sector.cpp: pruferHelper", "matslise/matslise/matslise.cpp: Matslise::propagate"]}
{"id": "C76", "title": "The index of an eigenvalue is the number of zeros of its eigenfunction", "statement": "If y solves the (piecewise constant, exactly propagated) problem at E and satisfies both boundary conditions then matchingError(E) is 0 and its angle component is N*pi with N the number of zeros of y in the open domain, for every mesh with at least two sectors; on a mesh of one sector the angle is (N+1)*pi if y vanishes at the right end.", "quantifier": "every mesh, potential, energy, solution and scaling of the boundary columns", "why_tests_cant": "Sturm oscillation statement about a continuum of problems", "anchors": ["matslise/matslise/matslise.cpp: Matslise::matchingError", "matslise/matslise/sector.cpp: pruferHelper"]}
{"id": "C77", "title": "The angle does not jump over tiny steps", "statement": "Propagating over a distance of at most 1e-12, where the transfer matrix is replaced by the identity, does not change the number of counted zeros. (Violated: from a zero of y in a sector with E <= mean potential the angle gains pi.)", "quantifier": "every start column and every step length", "why_tests_cant": "only visible for steps below 1e-12", "anchors": ["matslise/matslise/sector.cpp: calculateT, pruferHelper"]}
{"id": "C78", "title": "The matching error vanishes exactly at the eigenvalues", "statement": "For a problem with piecewise constant potential and exact steps, matchingError(E) returns error 0 if and only if some non-trivial solution of y''=(V-E)y on the whole domain satisfies both boundary conditions.", "quantifier": "every mesh, potential, energy and pair of non-zero boundary columns", "why_tests_cant": "an equivalence over a continuum of energies and problems", "anchors": ["matslise/matslise/matslise.cpp: Matslise::matchingError, propagate"]}
{"id": "C79", "title": "The match point is next to the lowest sector", "statement": "For both sector builders one of the two sectors meeting at the match point has the lowest mean potential of all sectors of the mesh.", "quantifier": "every number of sectors, potential, tolerance, list of jumps", "why_tests_cant": "depends on the whole history of comparisons during the construction", "anchors": ["matslise/util/sectorbuilder.cpp: UniformSectorBuilder, AutomaticSectorBuilder", "matslise/matslise.h: Sector::compare"]}
{"id": "C80", "title": "calculateEta is accurate for every argument", "statement": "For every real Z each value calculateEta returns differs from the exact eta_m(Z) by at most 1e-38 times eta_m(|Z|); for Z >= 0 the relative error is at most 1e-38 (exact arithmetic: the truncation error of the series and of the recurrence).", "quantifier": "all real Z", "why_tests_cant": "a bound over a continuum with a switch of algorithm", "anchors": ["matslise/util/calculateEta.h: calculateEta"]}
{"id": "C81", "title": "Periodic and antiperiodic problems are told apart", "statement": "Periodic boundary conditions (K = I) pair the indices as 0 | 1 2 | 3 4 ..., antiperiodic ones (K = -I) as 0 1 | 2 3 ...; of K and -K exactly one is of antiperiodic type for every invertible K; a double eigenvalue of a periodic-type problem always has an odd index, of an antiperiodic-type problem an even one.", "quantifier": "every invertible matrix K, every problem and index range", "why_tests_cant": "all matrices and all runs of the search", "anchors": ["matslise/matslise/periodic.cpp: eigenpairsHelper"]}
{"id": "C82", "title": "Sturm-Liouville eigenfunction array evaluation equals pointwise evaluation", "statement": "Evaluating an eigenfunction of a SturmLiouville problem on an array of points returns, in order, exactly the values of the single-point evaluation (given that the Schrodinger eigenfunction underneath does so), and throws exactly when one of the single evaluations throws.", "quantifier": "every piecewise Liouville transformation, every eigenfunction and every array of points", "why_tests_cant": "all arrays over a continuum of points and all transformations", "anchors": ["matslise/liouville/sturm_liouville.cpp: SLEigenfunction::operator()"]}
{"id": "C83", "title": "Propagation converges with order 16", "statement": "For a potential with bounded derivatives, propagate along the mesh returns a value within C*(h^16 + floor) of the exact solution of the differential equation at the mesh boundaries (h^14 without the extra formulas), and within C*(h^15 + floor + d) in the interior where d is the length the step may skip; C depends only on a bound M for the potential's derivatives, the interval length and |E|. The code's own eta functions and Legendre coefficients meet the accuracy hypothesis with an explicit floor.", "quantifier": "every smooth potential, mesh, energy, start and end point, and every solution", "why_tests_cant": "a statement about all potentials and the limit h -> 0", "anchors": ["matslise/matslise/matslise.cpp: propagate", "matslise/matslise/sector.cpp: calculateT, calculateTCoeffs", "matslise/formula_constants.h"]}
{"id": "C84", "title": "The matching error approximates the exact mismatch", "statement": "matchingError differs from the exact mismatch dyL*yR - dyR*yL of the two solutions of the differential equation that satisfy the boundary conditions by at most C*(h^16 + floor) times the sizes of the boundary values.", "quantifier": "every smooth potential, mesh, energy and pair of boundary values", "why_tests_cant": "a statement about all potentials and the limit h -> 0", "anchors": ["matslise/matslise/matslise.cpp: matchingError"]}
{"id": "C85", "title": "A small matching error means a nearby eigenvalue", "statement": "If the relative matching error at E is small there is an exact eigenvalue of the boundary value problem within C*(|error| + h^16 + floor) of E, and it is the only eigenvalue within 1/C of itself.", "quantifier": "every smooth potential, mesh, energy and pair of boundary conditions", "why_tests_cant": "existence of an exact eigenvalue of a differential equation for all potentials", "anchors": ["matslise/matslise/matslise.cpp: matchingError, newtonIteration"]}
{"id": "C86", "title": "Every eigenvalue shows as a sign change of the matching error", "statement": "For every exact eigenvalue lam, the matching errors at lam - delta and lam + delta have opposite signs and are at least delta/C relative to the boundary values, for every delta between C*(h^16 + floor) and 1/C.", "quantifier": "every smooth potential, mesh, eigenvalue and delta", "why_tests_cant": "all potentials and all eigenvalues", "anchors": ["matslise/matslise/matslise.cpp: matchingError, computeEigenvaluesHelper"]}
{"id": "C87", "title": "Uniform mesh: soundness and completeness of the matching condition end to end", "statement": "With the uniform sector builder with n sectors on [a,b], built with its own constructor, a small matching error implies an exact eigenvalue of -y''+Vy=Ey on [a,b] within C*(|error| + ((b-a)/n)^16 + floor), and every exact eigenvalue produces a sign change of the matching error within the same distance; the builder and the matching error always succeed.", "quantifier": "every smooth potential, interval, number of sectors, energy and boundary condition", "why_tests_cant": "all potentials, all n", "anchors": ["matslise/util/sectorbuilder.cpp: UniformSectorBuilder", "matslise/matslise/matslise.cpp: matchingError", "matslise.h: Matslise constructor"]}
{"id": "C88", "title": "Newton polishing converges quadratically to the exact eigenvalue, and eigenvalueError estimates the true error", "statement": "Started within 1/C of an exact eigenvalue lam, the m-th Newton iterate on the solver's own matching error and its computed energy derivative is within 2^(-2^m) + C*(h^16 + floor) of lam; newtonIteration with tolerance tol returns an energy within C*(tol^2 + h^16 + floor) + 2^(-2^20) of lam; and eigenvalueError, which polishes with use_h = false, returns |E - lam| up to C*(tol^2 + h^14 + floor) + 2^(-2^20).", "quantifier": "every smooth potential, mesh, eigenvalue, start, tolerance and pair of boundary conditions", "why_tests_cant": "a limit statement for all potentials; tests can only sample problems with known eigenvalues", "anchors": ["matslise/matslise/matslise.cpp: newtonIteration, eigenvalueError, matchingError", "matslise/matslise/sector.cpp: calculateT (dt)"]}
{"id": "C89", "title": "Propagation's angle converges to the exact Pr\u00fcfer angle and counts zeros", "statement": "For a potential with sixteen bounded derivatives on each sector, propagate from the exact values of a solution at one mesh point to another returns the continuous Pr\u00fcfer angle of the exact solution up to C(H^16 + eps) (H^14 without the high-order correction), so floor(theta/pi) (rightwards) or 1 - ceil(theta/pi) (leftwards) is exactly the number of zeros of the solution passed, unless the solution nearly vanishes at the end point. Excluded is a narrow band of energies just above a sector's mean potential, where any decrease of the computed angle makes the code add pi.", "quantifier": "all potentials within a derivative bound, all meshes, energies, solutions, pairs of mesh points and directions, all eta and coefficient routines of the stated accuracy", "why_tests_cant": "The claim is about every potential and solution and an error constant that does not depend on them; a test sees finitely many problems and cannot show that no branch jumps by pi.", "anchors": ["matslise/matslise/matslise.cpp:propagate", "matslise/matslise/sector.cpp:pruferHelper, theta0, propagateDelta"]}
{"id": "C90", "title": "The index of a computed eigenvalue is the number of zeros of the exact eigenfunction", "statement": "For smooth potentials: near an exact eigenvalue the angle component of matchingError is N*pi up to C(H^16 + eps + |E - lambda|), N the number of zeros of the exact eigenfunction in the open domain, and Newton polishing started near it returns exactly the index N together with an energy within C(tol^2 + H^16 + eps) + 2^(-2^20) of the eigenvalue.", "quantifier": "all potentials within a derivative bound, meshes with at least one sector right of the match point, boundary values, exact eigenvalues, starts and tolerances", "why_tests_cant": "The index must be right for every potential and eigenvalue; tests compare a handful of known spectra.", "anchors": ["matslise/matslise/matslise.cpp:matchingError, newtonIteration", "matslise/matslise/sector.cpp:pruferHelper"]}
{"id": "C91", "title": "eigenvalues(Emin, Emax) on a smooth problem finds every eigenvalue of the window under its correct number, and nothing else", "statement": "For a potential with bounded derivatives on each sector, a mesh of width at most H, and eta functions and coefficients accurate to eps: if no exact eigenvalue lies within C*(H^16+eps) of an end of the window, and the angle is meaningful at the energies the search evaluates, the search produces exactly one candidate for each exact eigenvalue of the window whose number is requested (the number being the count of zeros of the eigenfunction), with the eigenvalue inside its bracket up to C*(H^16+eps), and no other candidate; a candidate within 1/C of its eigenvalue is polished to (number, value) with error at most C*(tol^2+H^16+eps). On a window of width at most 1/C the call returns exactly one pair, or none if the window holds no eigenvalue.", "quantifier": "every potential smooth on the sectors with bound M, every mesh, boundary conditions, window, index range and tolerance; C depends on M only", "why_tests_cant": "the statement compares the output with the exact spectrum of a continuum of problems; tests know a few closed-form spectra and can only sample them", "anchors": ["matslise/matslise/matslise.cpp: computeEigenvaluesHelper 90-141", "eigenvalues 177-183", "newtonIteration 60-79", "matchingError 47-58"]}
{"id": "C92", "title": "The computed matching angle counts the exact eigenvalues", "statement": "Away (more than C*(H^16+eps)) from the exact eigenvalues, the angle returned by matchingError is never a multiple of pi, and between two such energies E < F the number of exact eigenvalues equals ceil(theta(F)/pi) - ceil(theta(E)/pi), their numbers being exactly the integers in between.", "quantifier": "every smooth potential with bound M, mesh, boundary conditions and pair of energies; C depends on M only", "why_tests_cant": "relates the computed angle to the exact spectrum for all problems and energies", "anchors": ["matslise/matslise/matslise.cpp: matchingError 47-58", "matslise/matslise/sector.cpp: pruferHelper 118-156, theta0 106-116"]}
{"id": "C93", "title": "Every eigenvalue returned by a converged Newton iteration is near an exact eigenvalue and carries its number", "statement": "On a smooth problem, if the polishing iteration stops by its tolerance (from any starting energy), the returned value lies within C(tol^2 + accuracy of the solver) of an exact eigenvalue of the differential equation with the boundary conditions, and, when the Pr\u00fcfer angle is meaningful at the last evaluated energy, the returned index is the number of zeros of the exact eigenfunction. No spurious eigenvalues. C depends on the size of the problem only.", "quantifier": "every smooth piecewise potential, mesh, boundary condition, starting energy, tolerance, with or without the correction coefficients", "why_tests_cant": "ranges over all potentials and all starting energies; the exact eigenvalue is not computable by a test", "anchors": ["matslise/matslise/matslise.cpp newtonIteration 60-79", "matslise/matslise/matslise.cpp computeEigenvaluesHelper 90-141"]}
{"id": "C94", "title": "eigenvalueError estimates the distance to the exact eigenvalue", "statement": "For E near an exact eigenvalue, eigenvalueError(E) differs from |E - eigenvalue| by at most C(tol^2 + H^14 + eps) plus a negligible term: it is a two-sided estimate up to the accuracy of the method without correction coefficients.", "quantifier": "every smooth problem, mesh, eigenvalue and E near it", "why_tests_cant": "ranges over all potentials; the exact eigenvalue is unknown to a test", "anchors": ["matslise/matslise/matslise.cpp eigenvalueError 185-190"]}
{"id": "C95", "title": "eigenvaluesByIndex(Imin, Imax) finds exactly the eigenvalues Imin \u2026 Imax-1 on smooth problems", "statement": "When eigenvaluesByIndex returns, with the window found by its doubling loops, and the angle was meaningful at each evaluated energy, the exact eigenvalues with the numbers Imin \u2026 Imax-1 all exist, each has exactly one candidate with its number whose bracket contains it (up to C times the accuracy), there are no other candidates, the result has Imax-Imin entries, and a candidate near its eigenvalue is polished to a value of the expected accuracy with the correct number.", "quantifier": "every smooth problem, mesh, boundary condition, Imin \u2264 Imax, whenever exact eigenvalues of the window are further apart than the window divided by 2^31 plus the accuracy", "why_tests_cant": "ranges over all potentials and windows", "anchors": ["matslise/matslise/matslise.cpp eigenvaluesByIndex 144-175", "matslise/matslise/matslise.cpp computeEigenvaluesHelper 90-141"]}
{"id": "C96", "title": "Computed energy derivatives converge to the true ones", "statement": "Propagating a solution together with its derivative with respect to the energy between two mesh points returns the derivative with respect to the energy of the exact solution, up to C (H^16 + eps) relative to the start values (H^14 without the h terms), in either direction.", "quantifier": "every smooth potential and mesh within a bound M, every energy, every two mesh points, every differentiable family of exact solutions", "why_tests_cant": "a test compares a few derivatives with finite differences; the bound must hold with one constant for all problems, meshes and energies", "anchors": ["matslise/matslise/matslise.cpp propagate", "matslise/matslise/sector.cpp calculateT, Sector::propagate", "matslise/util/y.h"]}
{"id": "C97", "title": "The derivative of the matching error is the derivative of the exact mismatch", "statement": "The second value returned by the matching error (the one Newton divides by) differs from the derivative with respect to the energy of the exact mismatch y_L' y_R - y_R' y_L by at most C (H^16 + eps) relative to the boundary values; the exact mismatch is differentiable and does not depend on the point.", "quantifier": "every smooth potential and mesh within a bound M, every energy, every boundary values with any energy derivatives", "why_tests_cant": "tests check Newton's result, not the derivative, and only on a few problems", "anchors": ["matslise/matslise/matslise.cpp matchingError, newtonIteration"]}
{"id": "C98", "title": "The returned eigenfunction converges to the exact normalised eigenfunction", "statement": "At an energy E near an exact eigenvalue lambda, eigenfunction(E, left, right) returns an object whose value and derivative at every point of the domain, evaluated singly or as an array, are within C (H^15 + eps + d + |E - lambda|) of the exact eigenfunction with unit L2 norm, up to one global sign; outside the domain it is zero. Started near lambda, Newton polishing followed by eigenfunction is within C (tol^2 + H^15 + eps + d + 2^(-2^20)).", "quantifier": "every potential with sixteen bounded derivatives between mesh points, every fit mesh, every eigenvalue, boundary condition, energy nearby, every point and list of points, every tolerance", "why_tests_cant": "tests compare a few eigenfunctions of a few potentials at sample points with the absolute value taken", "anchors": ["matslise/matslise/matslise.cpp MEigenfunction, propagationSteps, newtonIteration", "matslise/matslise/sector.cpp propagate"]}
{"id": "C99", "title": "A half-range problem solves the symmetric problem on the whole domain", "statement": "For an even potential, the eigenvalue numbered 2k (2k+1) of the symmetric problem on [-xmax, xmax] is the one numbered k on [0, xmax] with a Neumann (Dirichlet) condition at 0; so MatsliseHalf::eigenvaluesByIndex and eigenvalues return exactly the requested eigenvalues of the whole-domain problem under their correct numbers, as accurately as the half problem is solved; and the array evaluation of its eigenfunction converges to a normalised eigenfunction of the whole-domain problem. The mirror image of the right condition is meant on the left: for conditions mixing y and y' this is not what equal left and right values mean to Matslise.", "quantifier": "every even continuous potential, every boundary condition, every number, every energy window, every sorted list of points; convergence: every smooth even potential, fit mesh and energy near an eigenvalue", "why_tests_cant": "a test compares a few half-range eigenvalues with tabulated ones; the correspondence of numbers and functions is a statement about every even potential", "anchors": ["matslise/matslise/halfrange.cpp eigenvaluesByIndex, eigenvalues, mergeEigenvalues, EigenfunctionHalf", "matslise/matslise.h checkSymmetry, MatsliseHalf"]}
{"id": "C100", "title": "Sturm\u2013Liouville eigenvalues are those of the transformed problem, with the same numbers", "statement": "For every Sturm\u2013Liouville problem -(p z')' + q z = E w z on [rmin, rmax] with positive p, w having two derivatives, there is an exact Schr\u00f6dinger problem (x with dx/dr = sqrt(w/p), potential q/w + m''/m, m = (pw)^(1/4)) such that E is the n-th eigenvalue of one exactly when it is the n-th eigenvalue of the other with the transformed boundary values; normalised eigenfunctions correspond with the weight w; where the stored coefficient polynomials agree with p, w at the end points, SturmLiouville passes exactly these boundary values to the solver, and lists that are right up to \u03b4 for the transformed problem are right up to \u03b4 for the Sturm\u2013Liouville problem; a small computed matching error means an exact Sturm\u2013Liouville eigenvalue nearby.", "quantifier": "all p, q, w, intervals, boundary values, indices, energies; all piece lists; all meshes and potentials fit for them", "why_tests_cant": "ranges over all functions and over exact solutions of differential equations", "anchors": ["matslise/liouville.h: SturmLiouville", "matslise/liouville/liouville.cpp: z2y, V", "matslise/liouville/sturm_liouville.cpp: eigenpairsByIndex"]}
{"id": "C101", "title": "The local error estimate is small on smooth potentials and the automatic mesh has few sectors", "statement": "The error estimate that steers the automatic mesh is never negative, bounds the scaled difference of the two full-step matrices, and on a potential smooth to order 16 is at most C(h^12 + tau) on a sector of width h, tau being the accuracy of the sampled coefficients. Without listed jumps the automatic mesh for tolerance tol has at most 1 + L / min(0.33 L, g/10) sectors for every g <= 1 with C(g^12 + tau) <= tol (about tol^(-1/12) many), C depending on the smoothness only; for any potential, tolerance and estimate whatever (NaN included) it has at most 1 + L / min(0.33 L, 1e-4) sectors.", "quantifier": "all smooth potentials, domains, positive tolerances, sector widths, energies of the estimate; all error functions for the unconditional bound", "why_tests_cant": "ranges over all potentials and all runs of the adaptive loop", "anchors": ["matslise/matslise/sector.cpp: error, calculateT", "matslise/util/sectorbuilder.cpp: automaticNextSector, Auto"]}
{"id": "C102", "title": "The number of sectors of the automatic mesh does not depend on where jumps lie", "statement": "For a potential smooth between its listed jumps, the automatic mesh has a number of sectors bounded in terms of smoothness, length, tolerance and number of jumps, wherever the jumps are.", "quantifier": "all piecewise smooth potentials, jump lists, tolerances", "why_tests_cant": "ranges over all jump positions, including ones within 1e-12 of a mesh point", "anchors": ["matslise/matslise/sector.cpp: error, calculateT", "matslise/util/sectorbuilder.cpp: automaticNextSector, Auto"]}
{"id": "C103", "title": "Literals of the coupled formulas are the intended rationals", "statement": "Every decimal literal in the generated formula tables for coupled systems is within a relative 5e-12 of a multiple of 1/40320, and the literals multiplying the identity matrix are exact.", "quantifier": "all literals of the tables", "why_tests_cant": "a test evaluates the formulas on some potentials at some accuracy; it cannot tell a wrong digit of one literal from rounding", "anchors": ["matslise/matscs/matscs_formulas.cpp: calculate_tcoeff_matrix"]}
{"id": "C104", "title": "One step of a coupled system is accurate", "statement": "On every sector of width h <= 1, forward or backward, for every coupled potential of any size n whose entries have 16 bounded derivatives, every energy and every solution of y'' = (V - E) y, the transfer matrix of the sector applied to exact values gives the exact values at the other end up to C(h^10 + h(rho+tau) + sigma) (h^9 without use_h) and inside the sector up to C(h^9 + h(rho+tau) + sigma + d), C depending on n, the number of columns and the smoothness only; rho, tau, sigma are the accuracies of literals, coefficients and eta functions, d the length of a skipped piece.", "quantifier": "all sizes, potentials, energies, sectors, directions, solutions, numbers of columns", "why_tests_cant": "convergence order is a statement about all widths and all potentials", "anchors": ["matslise/matscs/matscs_formulas.cpp: calculate_tcoeff_matrix", "matslise/matscs/sector.cpp: Sector, calculateTFromVEd, calculateT", "matslise/util/calculateEta.h: calculateEta"]}
{"id": "C105", "title": "Propagation of a coupled system converges", "statement": "On every sufficiently fine mesh (C(H + eps) <= 1) of a domain, jumps of the coupled potential at mesh points allowed, propagateColumn with exact values at a succeeds and gives every entry of the exact values at b up to C(H^9 + eps + d) (H^8 without use_h) times their size at a, in either direction, for all a and b; with the code's literals, eta functions and quadrature, and exact eigenvectors, eps = 6e-12 M + 37 M H^12.", "quantifier": "all sizes, numbers of columns, potentials, meshes, energies, solutions, end points", "why_tests_cant": "global error over any number of sectors, all potentials", "anchors": ["matslise/matscs.h: Matscs", "matslise/matscs/matscs.cpp: propagateColumn", "matslise/matscs/sector.cpp: calculateT, propagateDeltaColumn, propagateColumn"]}
{"id": "C106", "title": "Propagation of a coupled system is reversible on fine meshes", "statement": "On the meshes of C105 every transfer matrix is invertible, so propagating a -> b -> c equals a -> c and going back returns the start exactly, energy derivatives included.", "quantifier": "all sizes, potentials, meshes, energies, blocks of columns, points", "why_tests_cant": "invertibility for all potentials and energies", "anchors": ["matslise/matscs/matscs.cpp: propagateColumn", "matslise/matscs/sector.cpp: propagateDeltaColumn"]}
{"id": "C107", "title": "The periodic determinant converges", "statement": "For a regular coupled boundary condition (y,y')(dmax)=K(y,y')(dmin), on every sufficiently fine mesh the determinant of the matrix returned by PeriodicMatslise::matchingError is within C(H^16+eps) (H^14 without use_h) of -2 det(Phi(E)-K), Phi the exact monodromy matrix, and its computed energy derivative is as close to the derivative of that function.", "quantifier": "all potentials, meshes, match points, matrices K and energies within a bound M; C depends on M only", "why_tests_cant": "error bound over all potentials and energies", "anchors": ["matslise/matslise/periodic.cpp: periodicInitialValue, propagate, matchingError", "matslise/matslise.h: PeriodicMatslise"]}
{"id": "C108", "title": "A sign change of the periodic determinant encloses an exact eigenvalue", "statement": "On such meshes: computed determinants of opposite sign and above the error bound enclose an exact eigenvalue; at an exact eigenvalue the computed determinant is below the bound, at a double eigenvalue its computed derivative too; and bisection on the determinant ends within (bound/slope + tolerance) of an exact eigenvalue.", "quantifier": "all potentials, meshes, matrices K, brackets, tolerances", "why_tests_cant": "completeness and soundness against exact spectra cannot be sampled", "anchors": ["matslise/matslise/periodic.cpp: calculateMatchingError, same_sign, binarySearch, eigenvaluePair"]}
{"id": "C109", "title": "Angle returned by Matscs::propagate", "statement": "Besides the propagated block Y, Matscs::propagate returns the change of the argument of det((Y'+iY)(Y'-iY)^-1) between a and b, followed continuously along the solution.", "quantifier": "every number of components, energy, mesh, sector direction, a, b and starting block", "why_tests_cant": "the angle is assembled from eigenvalue arguments sector by sector; a missing or extra turn shows only for particular energies, widths and starts", "anchors": ["matslise/matscs/sector.cpp: Sector::propagateDelta", "matslise/matscs/sector.cpp: theta, angle", "matslise/matscs/matscs.cpp: Matscs::propagate"]}
{"id": "C110", "title": "Piecewise constant coupled potentials are solved exactly", "statement": "For a symmetric matrix potential that is constant on every sector, propagateColumn takes the exact values of a solution at a to its exact values at b, whatever the sector widths.", "quantifier": "every number of components and columns, mesh, constant matrices, energy, a, b, sector directions, use_h", "why_tests_cant": "holds for all widths, energies and non-commuting constant matrices; needs every nontrivial term of the formula tables to vanish and the remaining ones to be exact", "anchors": ["matslise/matscs/sector.cpp: calculateTFromVEd", "matslise/matscs/matscs_formulas.cpp", "matslise/matscs/matscs.cpp: propagateColumn"]}
{"id": "C111", "title": "Energy derivative propagated for coupled systems", "statement": "For every family of solution blocks of a coupled system, differentiable in the energy at the starting point, Matscs::propagateColumn started with the exact values and energy derivatives succeeds on every fine enough mesh; the exact block is differentiable in the energy at the end point and both the values and the energy derivatives (yE) returned are within C (H^9 + eps + d) (H^8 without use_h) of the exact ones, C depending only on the dimensions and a bound of the problem. Such families exist for all start values.", "quantifier": "all dimensions, potentials with 16 bounded derivatives per sector (jumps between sectors allowed), meshes, directions, energies, start and end points, accuracies of literals, eta functions and coefficients", "why_tests_cant": "needs all potentials, meshes and energies, and an exact derivative to compare with", "anchors": ["/repo/matslise/matscs/sector.cpp calculateTFromVEd 62-93, calculateT 95-114, propagateDeltaColumn 116-138, propagateColumn 194-215", "/repo/matslise/util/y.h T 139-188", "/repo/matslise/matscs/matscs_formulas.cpp 145-419"]}
{"id": "C112", "title": "Eigenvalue numbers 0, 1, 2, \u2026 all exist, once each, with known bounds", "statement": "The library identifies eigenvalues by number (result of eigenvaluesByIndex and of newtonIteration). For every potential that is continuous in each sector (jumps between sectors allowed) and every pair of boundary conditions, the eigenvalues form a sequence lam 0 < lam 1 < \u2026: the eigenvalue whose eigenfunction has n zeros inside exists for every n and is lam n, and there are no other eigenvalues. With l the length of the domain and m > 0 bounding the slopes prescribed by the boundary conditions: vlo - (m^2 + pi m / l) <= lam n <= vhi + ((n+1) pi / l)^2, and vlo + (n pi / l)^2 <= lam (n+1) for n >= 1.", "quantifier": "all potentials continuous per sector with values in [vlo, vhi], all meshes, all boundary conditions, all numbers n", "why_tests_cant": "Ranges over all continuous potentials and all natural numbers; existence of infinitely many eigenvalues is not observable by running the program.", "anchors": ["matslise/matslise.cpp: newtonIteration, eigenvaluesByIndex", "matslise/matslise.h"]}
{"id": "C113", "title": "eigenvaluesByIndex(Imin, Imax) always returns on a smooth problem, inside a window known in advance", "statement": "For 0 <= i <= j, if 2^p exceeds vhi + ((j+1) pi / l)^2 and -2^q is below vlo - (m^2 + pi m / l), each with a margin of the solver's accuracy C kappa, and the computed angle is meaningful at these two energies (not just above the reference potential of a sector), then eigenvaluesByIndex(i, j) terminates normally, its doubling loops stop with a window inside [-2^q, 2^p] and all energies it evaluates are in that window. If the angle is meaningful at the energies the search evaluated, the result has j - i entries, there is exactly one candidate for each number i \u2026 j-1, the exact eigenvalue with this number lies in its bracket up to C kappa and is found with this number, with the accuracy of Newton's method and the solver.", "quantifier": "all smooth potentials, meshes with small enough sectors, boundary conditions, indices i <= j, tolerances, and both sets of coefficients (use_h)", "why_tests_cant": "Termination of unbounded doubling loops and correctness of the numbering for every potential cannot be tested.", "anchors": ["matslise/matslise.cpp: eigenvaluesByIndex, computeEigenvaluesHelper, newtonIteration, matchingError", "matslise/sector.cpp"]}
{"id": "C114", "title": "propagate converges in finite precision", "statement": "With every arithmetic operation rounded (IEEE 754 round-to-nearest with any number of bits, or any rounding with unit roundoff u and smallest normal number mu), propagate between mesh points succeeds and its result differs from the exact solution by at most C (H^16 + eps) times the size of the initial values, plus C (H^16 + eps) mu, where H is the largest width and eps covers the coefficients' error and one roundoff and one eta error per sector; C depends only on the bound of the potential, energy and domain.", "quantifier": "every rounding, precision, mesh, smooth potential, energy, solution, pair of mesh points, direction", "why_tests_cant": "Rounding errors depend on every operand; no set of runs bounds them for all potentials, meshes, energies and types.", "anchors": ["matslise/matslise/sector.cpp: calculateT, propagateDelta, propagate", "matslise/matslise/matslise_formulas.cpp", "matslise/matslise/matslise.cpp: propagate, matchingError", "matslise/matslise.h: template<typename Scalar> class Matslise"]}
{"id": "C115", "title": "matchingError converges in finite precision", "statement": "With every operation rounded, the first component of matchingError differs from the Wronskian of the exact solutions with the given boundary values by at most C (H^16 + eps) times the sizes of the boundary values.", "quantifier": "every rounding, mesh, smooth potential, energy, boundary values above the smallest normal number", "why_tests_cant": "Rounding errors depend on every operand; no set of runs bounds them for all potentials, meshes, energies and types.", "anchors": ["matslise/matslise/sector.cpp: calculateT, propagateDelta, propagate", "matslise/matslise/matslise_formulas.cpp", "matslise/matslise/matslise.cpp: propagate, matchingError", "matslise/matslise.h: template<typename Scalar> class Matslise"]}
{"id": "C116", "title": "Roots of the computed matching error are eigenvalues, and conversely, in finite precision", "statement": "With every operation rounded: a small computed matching error at E implies an exact eigenvalue near E, within C times the relative matching error plus q = C (H^16 + eps); between two energies with computed matching errors of opposite signs there is, up to q, an exact eigenvalue; and around every exact eigenvalue the computed matching error changes sign within q.", "quantifier": "every rounding, mesh, smooth potential, non-zero boundary values, energies", "why_tests_cant": "Rounding errors depend on every operand; no set of runs bounds them for all potentials, meshes, energies and types.", "anchors": ["matslise/matslise/sector.cpp: calculateT, propagateDelta, propagate", "matslise/matslise/matslise_formulas.cpp", "matslise/matslise/matslise.cpp: propagate, matchingError", "matslise/matslise.h: template<typename Scalar> class Matslise"]}
{"id": "C117", "title": "calculateEta is accurate in finite precision", "statement": "With every operation rounded and elementary functions accurate to a, each of the first ten values returned by calculateEta differs from the exact eta function by at most (exp(320 u + (3 + sqrt|Z|) a) - 1 + 1e-38) cosh sqrt(max(|Z|,1)), for every argument, in both branches.", "quantifier": "every rounding with u <= 1/1000 and mu <= 1e-150, every Z, every requested count 2..10", "why_tests_cant": "The recurrences amplify errors by argument-dependent factors; sampling Z cannot bound them.", "anchors": ["matslise/util/calculateEta.h: calculateEta"]}
{"id": "C118", "title": "The Legendre coefficients are accurate in finite precision", "statement": "With every operation rounded, the coefficients a sector stores, computed from a potential function accurate to delta, differ after scaling by the width from the exact Legendre coefficients by at most 16 M/1e14 + 37 M H^16 + 150 delta + 20000 M u (1 + X), and every point of evaluation stays in the sector.", "quantifier": "every rounding, sector at least 1600 u X wide, smooth potential, both directions", "why_tests_cant": "Rounding errors depend on every operand; no set of runs bounds them for all potentials, meshes, energies and types.", "anchors": ["matslise/util/legendre.h: Legendre::Legendre, integrate, getCoefficients", "matslise/matslise/sector.cpp: Sector::Sector"]}
{"id": "C119", "title": "The whole code in finite precision", "statement": "With the code's own eta functions, coefficients and skip threshold, every operation rounded, propagate and matchingError differ from the exact solution and Wronskian by at most C (H^16 + eps), with explicit eps = codeTau + N (u + codeSigma).", "quantifier": "every rounding, elementary functions, potential function, mesh, energy within the bounds", "why_tests_cant": "Rounding errors depend on every operand; no set of runs bounds them for all potentials, meshes, energies and types.", "anchors": ["matslise/matslise/sector.cpp: calculateT, propagateDelta, propagate", "matslise/matslise/matslise_formulas.cpp", "matslise/matslise/matslise.cpp: propagate, matchingError", "matslise/matslise.h: template<typename Scalar> class Matslise", "matslise/util/calculateEta.h: calculateEta", "matslise/util/legendre.h: Legendre"]}
{"id": "C120", "title": "No int overflow in the eigenvalue search", "statement": "For every matching function, window and index range given as int, the search of Matslise executes no overflowing int operation: with 32-bit machine integers (undefined behaviour on overflow) it returns exactly what it would return with unbounded integers. In particular index ranges up to INT_MAX (as eigenvalues() uses internally) are safe.", "quantifier": "all matching functions (also wrong or discontinuous ones), all behaviours of the polishing, all windows, all int index ranges, any number of rounds", "why_tests_cant": "Overflow depends on the values the angles take and on how deep the search goes; no finite set of potentials shows its absence, and undefined behaviour need not be visible in a test.", "anchors": ["matslise/matslise/matslise.cpp: computeEigenvaluesHelper", "matslise/matslise/matslise.cpp: Matslise::eigenvaluesByIndex", "matslise/matslise/matslise.cpp: Matslise::eigenvalues"]}
{"id": "C121", "title": "No int overflow in the half-range solver", "statement": "MatsliseHalf::eigenvaluesByIndex executes no overflowing int operation for any index range, if the inner solver returns only numbers in the range asked for. MatsliseHalf::eigenvalues does not overflow if and only if the numbers found by the inner solver are below 2^30.", "quantifier": "all int index ranges, all inner solvers, all windows", "why_tests_cant": "See C120.", "anchors": ["matslise/matslise/halfrange.cpp: mergeEigenvalues", "matslise/matslise/halfrange.cpp: MatsliseHalf::eigenvaluesByIndex", "matslise/matslise/halfrange.cpp: MatsliseHalf::eigenvalues"]}
{"id": "C122", "title": "No int overflow in the periodic solver", "statement": "PeriodicMatslise executes no overflowing int operation for index ranges between INT_MIN + 2 and INT_MAX - 3, whatever the problem; by energy, when the converted angles are in that range. Asking for indices up to INT_MAX - 1 or INT_MAX never returns normally.", "quantifier": "all problems, all index ranges, all windows, any number of rounds", "why_tests_cant": "See C120.", "anchors": ["matslise/matslise/periodic.cpp: eigenpairsHelper", "matslise/matslise/periodic.cpp: eigenpairsByIndexHelper"]}
{"id": "C123", "title": "Energy derivative of the solution in finite precision", "statement": "The energy derivatives that propagate returns, computed with every operation rounded (IEEE or any other rounding), are the derivatives with respect to E of the exact solution at the end point, up to C(H^16 + \u03c4 + N(u+\u03c3)) relative to the size of the start values, in both directions between mesh points.", "quantifier": "all rounding functions, meshes, potentials with 16 bounded derivatives per sector, energies, differentiable families of start values", "why_tests_cant": "Tests compare one derivative with one finite difference; the bound is for every rounding, mesh, energy and family of solutions.", "anchors": ["matslise/matslise/matslise.cpp:propagate 15-45", "matslise/util/y.h:T 139-188", "matslise/matslise/sector.cpp:propagate 201-229"]}
{"id": "C124", "title": "Derivative of the matching error in finite precision", "statement": "The derivative matchingError returns when every operation is rounded is the derivative with respect to E of the exact Wronskian of the two boundary solutions, up to C(H^16 + \u03c4 + N(u+\u03c3)) relative to the sizes of the boundary values.", "quantifier": "all rounding functions, meshes, potentials, energies, boundary values not below the smallest normal number", "why_tests_cant": "As C123: a unit test checks one problem at one energy in one precision.", "anchors": ["matslise/matslise/matslise.cpp:matchingError 47-58"]}
{"id": "C125", "title": "Newton's iteration converges in finite precision", "statement": "With every operation rounded, from a start within 1/C of an exact eigenvalue \u03bb the m-th Newton iterate is within 2^(-2^m) + C\u03ba of \u03bb, no iterate moves away by more than C\u03ba, newtonIteration returns an energy within C(tol\u00b2+\u03ba)+2^(-2^20) of \u03bb, and eigenvalueError returns |E-\u03bb| up to the same accuracy (with H^14), \u03ba = H^16 + \u03c4 + N(u+\u03c3).", "quantifier": "all rounding functions, meshes, potentials, boundary values, eigenvalues, starts, tolerances, angle-to-index conversions", "why_tests_cant": "Convergence is a statement about all starts, all tolerances and all precisions; tests sample some eigenvalues of some problems.", "anchors": ["matslise/matslise/matslise.cpp:newtonIteration 60-79", "matslise/matslise/matslise.cpp:eigenvalueError 185-190"]}
{"id": "C126", "title": "Polished energies are near exact eigenvalues in finite precision", "statement": "If Newton's iteration, computed with every operation rounded, stops by its tolerance (fewer than 20 evaluations) at an energy where the computed derivative was not zero and C(tol+\u03ba) \u2264 1, there is an exact eigenvalue of the differential equation within C(tol\u00b2+\u03ba) of the returned energy, whatever the start.", "quantifier": "all rounding functions, meshes, potentials, boundary values, starts and tolerances", "why_tests_cant": "It has to hold for every history of the iteration and every rounding; a test only sees the runs it makes.", "anchors": ["matslise/matslise/matslise.cpp:newtonIteration 60-79", "matslise/matslise/matslise.cpp:matchingError 47-58"]}
{"id": "C127", "title": "The returned eigenfunction in finite precision", "statement": "With every operation of the scalar type rounded, a correctly rounded (or `a`-accurate) square root, eta functions accurate to sigma and coefficients accurate to tau, `eigenfunction(E)` at an energy near an eigenvalue returns an object whose values and derivatives - one point at a time or as an array - are within a constant times H^15 + \u03b5 + eps + |E - \u03bb| of the exact normalised eigenfunction, up to one global sign, at every representable point of the domain; outside the domain it returns zero. The constant does not depend on the mesh, the number of sectors or the arithmetic.", "quantifier": "every rounding function, mesh fitting the potential, energy near an eigenvalue, boundary conditions of moderate size, and evaluation point", "why_tests_cant": "A test evaluates a few eigenfunctions of a few potentials at a few points in double; it cannot exclude a mesh, boundary condition or scalar type for which the normalisation or the match of the two halves loses all digits.", "anchors": ["matslise/matslise.cpp propagationSteps", "matslise/matslise.cpp MEigenfunction", "matslise/matslise/sector.cpp propagate", "matslise/matslise/sector.cpp calculateT", "matslise/util/y.h Y"]}
{"id": "C128", "title": "Eigenvalues of coupled problems interlace with those of separated problems", "statement": "For every bounded problem with coupled boundary conditions (y, y')(max) = K (y, y')(min), det K = 1, there is exactly one nondecreasing list of eigenvalues, double ones listed twice, and it interlaces with the numbered eigenvalues of every separated problem with directions u and K u in the order fixed by the sign of K u and by the corner test the code uses to tell antiperiodic-like problems apart. In particular two eigenvalues can coincide only when their numbers are i - 1 and i of the loop of the search, and in the not-antiperiodic case the eigenvalue with number 0 is simple.", "quantifier": "every mesh, bounded potential continuous on each sector, coupling matrix of determinant one, direction u and index", "why_tests_cant": "needs the existence of infinitely many eigenvalues and a statement about all of them; a test sees finitely many for a few potentials", "anchors": ["matslise/matslise/periodic.cpp: eigenpairsHelper 146-182 (corner test 150, pairs i-1 and i)", "matslise/matslise.h: PeriodicMatslise"]}
{"id": "C129", "title": "Brackets of the periodic pair search", "statement": "When the two columns of the computed angle count the eigenvalues of the separated problems (1, 1) and (1, -1), the loop of the periodic search brackets for each of its numbers i exactly the two eigenvalues with numbers i - 1 and i (for i = 0: only number 0), for every coupling matrix with |K(0,1)| < |K(0,0)| and K(0,0) K(0,1) <= 0. For every other coupling matrix of determinant one each bracket starts at or above the eigenvalue with number i - 1.", "quantifier": "every bounded problem, coupling matrix of determinant one, index i of the loop and bracket ends", "why_tests_cant": "a statement about all potentials, all matrices and all indices; the repository only tests K = I and K = -I", "anchors": ["matslise/matslise/periodic.cpp: periodicInitialValue 9-16, findLow 135-139, findHigh 140-144, eigenpairsHelper 155-182"]}
{"id": "C130", "title": "Windows of the periodic searches", "statement": "When the two columns of the computed angle count the eigenvalues of the separated problems (1, 1) and (1, -1) and |K(0,1)| < |K(0,0)|, K(0,0) K(0,1) <= 0, no requested eigenvalue is lost to the ranges the periodic searches compute. eigenvaluesByIndex(iMin, iMax): every eigenvalue numbered iMin ... iMax-1 lies in the energy window found by the doubling loops, its number is one the loop visits, and the entry is not discarded. eigenvalues(eMin, eMax): every eigenvalue in [eMin, eMax) has a number that the loop visits and that is inside the index range computed from the angles, and is not discarded.", "quantifier": "every bounded problem, coupling matrix of determinant one with the row condition, index range or energy window", "why_tests_cant": "a statement about every potential and every window; tests use a handful", "anchors": ["matslise/matslise/periodic.cpp: addToResult 110-133, start index 149-153, loop 169-182, by energy 186-193, by index 195-208"]}
{"id": "C131", "title": "Periodic searches return the right eigenvalues", "statement": "With exact angles, the exact determinant of the matching error and its derivative, and |K(0,1)| < |K(0,0)|, K(0,0) K(0,1) <= 0, the periodic searches return the right list. eigenvaluesByIndex(iMin, iMax): every eigenvalue numbered iMin ... iMax-1 appears, within 2e-8 relative to max(1, |E|), under its own number or as the second of a double entry, and every entry is within that tolerance of the eigenvalue with its number (a double entry also of the next one). eigenvalues(eMin, eMax): the same for every eigenvalue of the window away from its ends by the tolerance; the only entry that may be wrong is one with number 0 when eMin is above the lowest eigenvalue, and there it does happen: the search reports an energy that is no eigenvalue. The problem must be clear: no eigenvalue within the tolerance of the end of a bracket, one peak of the determinant in the inner half of each bracket, eigenvalues of a pair equal or apart by more than the tolerance.", "quantifier": "every bounded potential (piecewise continuous), every coupling matrix K of determinant one with the sign condition, every pair of indices, every energy window, every run that returns", "why_tests_cant": "the statement is about every coupled problem and every run of five nested loops (doubling, expanding, three bisections per turn); a test compares one potential with one table", "anchors": ["matslise/src/matslise/periodic.cpp eigenpairsHelper, eigenvaluesByIndex, eigenvalues, eigenvaluePair, binarySearch"]}
{"id": "C132", "title": "Accepted Liouville pieces passed the agreement test", "statement": "When the adaptive Liouville construction finishes, its pieces come in pairs of halves of an accepted piece: that piece was shorter than 1e-8 in x, or its x-end, the integrals of x(r), r(x) and p*w over it and the growth of p*w agree with the sums over the two halves up to 1e-14 (1e-12 for the growth), relatively for values above 1 and absolutely below.", "quantifier": "every p, w, interval and number of rounds after which the construction stops", "why_tests_cant": "the rounds taken depend on p and w; tests compare a few end results", "anchors": ["matslise/liouville/liouville.cpp: setXMin, relError, pieceError, constructPiecewise"]}
{"id": "C133", "title": "The polynomials stored in a Liouville piece are close to p, w and p*w", "statement": "On a piece on which p and w vary by at most the fraction eps <= 1/1000 around p0, w0 > 0, the stored polynomials of p, w and p*w stay within 81 eps, 81 eps and 20600 eps of p0, w0, p0 w0 on the whole piece, and its x-length within 180 eps of sqrt(w0/p0)(b-a), the stored map x(r) within 11500 eps of the line of that slope, relatively and up to 1e-9.", "quantifier": "every p, w, interval [a,b], p0, w0, eps", "why_tests_cant": "continuous families of coefficient functions; tests use a handful", "anchors": ["matslise/liouville/liouville.cpp: Piece::Piece, x2r_impl", "matslise/util/legendre.h"]}
