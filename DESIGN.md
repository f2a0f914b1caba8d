# A Lean 4 model of twist-numerical/matslise

Source: `/repo` (C++ headers and sources under `/repo/matslise`), read as text only.
Proof assistant: Lean 4.33.0 with individual Mathlib modules. Build: `cd lean && lake build`.

## 1. Layout

| directory | content |
|---|---|
| `lean/Verif/Model/*.lean` | the model, function by function; every definition cites `file:lines` in `/repo` and says where it simplifies |
| `lean/Verif/Spec/*.lean` | small independent specifications (what a tiling is, what "proportional" means, exact eta series, ...) that do not mention the model |
| `lean/Verif/Lemmas/*.lean` | helper lemmas |
| `lean/Verif/Props/*.lean` | the property theorems `Cnn_...`, each followed by `example`s that concrete non-trivial inputs meet its hypotheses |

## 2. Modelling conventions

* **Outcomes.** `Outcome α = ok a | throws msg | ub why | timeout`. A C++ exception is `throws`; an
  out-of-bounds access, past-the-end iterator, or other undefined behaviour is `ub`; a loop that
  has not finished within its fuel is `timeout`. "Never UB" and "terminates" are then theorems, not
  assumptions. Loops whose termination is a property carry a fuel argument and the theorem gives a
  sufficient fuel plus independence of the result from extra fuel; loops with a syntactic bound
  (`steps < 10`, `++i < 20`) recurse structurally on the remaining count.
* **Scalars.** Control-flow models are written over an arbitrary type with the operations the C++
  uses (`+ - * /`, `<`, `≤`, `=`), so a theorem that needs no algebraic law also covers IEEE
  floating point including NaN (a NaN is just a value for which all comparisons answer `false`).
  Theorems that need arithmetic laws are stated over ordered fields or ℝ; they are therefore
  statements about the algorithm in exact arithmetic (see *Trusted base*).
* **Oracles.** Quantities whose numerical content is irrelevant for a property are universally
  quantified parameters: the error estimate of a sector, `Sector::compare`, the matching function
  θ(E), `pow`, the transfer matrices t and dt, the user's potential.
* **Integers.** C++ `int` is modelled by `ℤ` (or `ℕ` for sizes) with truncated division
  (`Int.tdiv`, `Int.tmod`); overflow of `int` is modelled in C120 – C122 only (`Model/MachineInt`).
* **Undefined conversions.** `(int) ceil(NaN)` is `ub`.

## 3. Trusted base

* Lean's kernel and the three standard axioms `propext`, `Classical.choice`, `Quot.sound`
  (the gate prints the axioms of every theorem). No axiom of our own, no compiled evaluation.
* The reading of the C++ text into the model (cited per definition).
* Exact arithmetic for theorems over ordered fields / ℝ: rounding is not modelled there. C114 – C119 and C123 – C127 model it: `Fl fl` (`Model/Rounded`)
  rounds every single operation with a function `fl` of which only `Rounding u mu fl` is assumed; IEEE 754 round-to-nearest-even with gradual
  underflow is defined in `Model/Ieee` and proved to be such a rounding. Simplifications there: no overflow and no NaN; products in the formula tables are
  associated as in `Model/Formulas`, `(vs[0] - E) * h * h` as in `Model/CalcT`; no fused multiply-add; libm functions are assumed accurate to a parameter `a`; the Prüfer angles are arbitrary.
* Mathlib's definitions used in statements (ℝ, derivatives, integrals, `Real.arctan`, matrices).
* External code that is a parameter of the model: `std::sort` (modelled as a stable insertion /
  merge sort; the theorems use only that it returns a sorted permutation), Eigen linear algebra
  (matrix product = mathematical product; `householderQr().solve` = multiplication with the inverse;
  `EigenSolver` = an arbitrary kernel vector), libm functions (`sqrt`, `sin`, `atan2`, ... = the real functions).
* Generated tables (`Model/FormulaData*`, `Model/LegendreData`) are transcriptions of the literals in the C++
  sources (rational coefficients of `matslise_formulas.cpp`; the decimal literals of the `double` quadrature table read as exact
  rationals). Everything claimed about them is re-checked by the kernel (`decide +kernel` on closed list computations,
  lifted to all arguments by soundness lemmas); no part of the translation script is trusted for the proofs, only for faithfulness to the text.
* Object lifetime (C62) is a reference-count heap: pybind11's keep_alive and holder semantics are the model's rules, not derived.

## 4. What is modelled

`util/sectorbuilder.{h,cpp}`, `util/find_sector.h`, `util/y.h`, `util/theta.h`, `util/polynomial.h`,
`util/legendre.h`, `util/legendre_data.h` (double tables), `util/calculateEta.h`, `util/horner.h`, `util/scoped_timer.h`,
`matslise.h`, `matslise/{matslise,sector,abstract_matslise,halfrange,periodic}.cpp`,
`matslise/matslise_formulas.cpp` (generated tables), `liouville.h`, `liouville/*.cpp`,
`matscs.h`, `matscs/{matscs,sector}.cpp`, `matscs/matscs_formulas.cpp` (generated tables; the eigenvectors of Eigen's
`SelfAdjointEigenSolver` are a parameter assumed orthogonal and diagonalizing), argument handling of `pyslise/*.cpp`, `js/matslise.cpp`.

Not modelled: floating-point rounding outside of C114 – C119, C123 – C127 (and of the comparison-only theorems), int overflow outside of the searches (C120 – C122), memory allocation failures, Eigen's
complex eigenvalue and linear solvers (exact results are assumed), `long double`/`float128` quadrature
tables, printing, pybind11/emscripten themselves, build files, documentation.

## 5. Plan per property

| id | model | proof |
|---|---|---|
| C01 | `Model/Mesh`: `uniformBuild` with compare oracle, writes into a slot array | invariant of the two-pointer loop: slots 0..i and j..n-1 filled |
| C02 | same and `autoBuild` | invariant on directions of the two stacks |
| C03 | `autoBuild` over a law-free scalar | invariant: forward stack contiguous from min, backward stack contiguous to max; loop exit joins them |
| C04 | same over ordered field | every step produces a sector of positive width; measure: remaining gap, jumps left, step width; each step either closes a gap, or keeps the full h, or is > 1e-4 |
| C05 | same | invariant: every jump is a boundary already or strictly inside the open gap or not yet passed |
| C06 | same | concrete counterexample (kernel evaluated) + partial theorem from C04 |
| C07 | `automaticNextSector` | induction on the remaining steps |
| C08 | `findSector` | loop invariant on [a,b) |
| C09 | `evalArray` with cursor | induction over the point list; cursor always a valid index |
| C10–C14 | `Model/Propagate`: sector step and walk over the mesh | each sector step is M(b)·M(a)⁻¹ for the sector's solution matrix; walk composes |
| C15, C17 | same with families in E | `HasDerivAt` product rule; dual-number structure of Y/T |
| C16 | `matchingError` | 2×2 determinant algebra, Wronskian conservation |
| C18–C22, C25 | `Model/Search`: queue loop with matching oracle (Option = NaN) | measure on (depth), multiset invariants; concrete counterexample for C22 |
| C23 | doubling loops with fuel | invariants; Archimedean termination |
| C24 | `newton` bounded by 20 | induction |
| C26–C30 | `Model/HalfRange` | omega / list induction; counterexample for C29 |
| C31–C34 | `Model/Periodic` | bracket invariant, IVT; loop invariant; matrix kernel; counterexample for C34 |
| C35 | `Model/YT` | ring identities |
| C36–C40 | `Model/Prufer` over ℝ | arctan/atan2 analysis via `Complex.arg` |
| C41, C42 | `Model/Legendre`, generated rational tables | finite table by `decide +kernel`, lifted by linearity to all polynomials |
| C43, C44 | `Model/Poly` | induction on coefficient lists, link to `HasDerivAt` |
| C45–C50 | `Model/Liouville` | stack invariant; bisection invariant; derivative calculus; counterexample for C49 |
| C51–C53 | `Model/Eta`, `Model/CalcT` | recurrence induction, power series; `HasDerivAt` |
| C54–C56 | `Model/Eigenfunction` | case analysis; 2×2 algebra; fundamental theorem of calculus |
| C57–C59 | `Model/Matscs` | as C10–C14 over matrices of any size; counterexamples |
| C60–C63, C67, C68 | `Model/Bindings`, `Model/Profiler` | decision tables, state machines |
| C64–C66 | `Model/Sector` | list induction; nodes table |
| C69 | generated `Model/Formulas*` | polynomial identities checked by the kernel on the exact rational tables |
| C70 | `Model/HalfRange` | see Props/HalfRange |
| C71–C73 | `Model/Periodic` | IVT on the bisection bracket; list maps; fuel lemmas |
| C74–C77 | `Model/Prufer`, `Model/Propagate` on piecewise constant problems | uniqueness of continuous lifts; zero counting by crossing argument; witness for C77 |
| C78 | same | gluing of sector solutions from both ends at the match point |
| C79 | `Model/Mesh` | invariant: all built sectors are at least as high as the lower of the two fronts |
| C80 | `Model/Eta` | tail of the η series, error propagation through the downward recurrence |
| C81 | `Model/Periodic` | parity invariant of the search loop |
| C82 | `Model/Liouville` | both evaluations reduce to the same map over the points; `findPiece` never fails on a tiling |
| C83 | `Model/Solver`, `Spec/Problem`, `Spec/Accuracy` | local residual of `calculateT` against the perturbed ODE (Legendre data kernel-checked), Gronwall, telescoping over the walk. Every absolute floor of the code (η accuracy σ, coefficient accuracy τ, skip distance d, threshold EPS) is a universally quantified parameter and C does not depend on it, so the constant cannot absorb the order of convergence |
| C84 | `Model/Solver`, `Spec/Problem` | C83 for both directions; the exact mismatch is a Wronskian, hence constant in x |
| C85 | `Model/Solver`, `Spec/Problem` | C84 + lower bound of the energy derivative of the exact mismatch near its zeros (`Lemmas/Sens`) + intermediate value theorem |
| C86 | `Model/Solver`, `Spec/Problem` | same ingredients, other direction |
| C87 | `Model/Mesh`, `Model/Solver` | uniform builder output is a `FitMesh`; solutions glue over sector boundaries, so eigenvalues are those of the whole interval |
| C88 | `Model/Search`, `Model/Solver` | `Lemmas/EnergyStep`: the computed derivative matrix `dt` is the energy derivative of `t` up to second order; chained over the mesh (`EnergyChain`, `EnergySector`, `EnergyMesh`), bilinear in the matching error (`NewtonNear`); lower bound of the computed derivative from C84 and the sensitivity lemma; then the quadratic recursion |
| C89 | Solver (constructOf), Propagate, Prufer models on FitMesh/AccurateTo/AngleFit | sector-wise: exact turning (Riccati), small-step pruferHelper equals signed rotation, chain of nearby directions; zero count by C1NoDouble lifts |
| C90 | Search.newton run on the Solver's matchingError | C89 from both ends + interior zero count by lifts; C88 iterates stay near; rounding of theta/pi |
| C91 | Model/Search + Model/Solver + Model/Propagate, with the exact problem of Spec/Problem and Spec/EigenNr | count_near (computed angle on the correct side of every multiple of pi away from the eigenvalues) + invariants of the queue with an angle that need not be monotone (Lemmas/CountSearch) + C90 for the polishing |
| C92 | Model/Propagate + Model/Prufer against Spec/EigenNr | exact matching angle is increasing with a positive rate, its multiples of pi are the eigenvalues with their numbers (Lemmas/ExactCount); the computed one is close to it (C89) |
| C93 | Model/Search newton over Model/Solver matchingError | stopping criterion ⇒ small matching error and derivative bounded below (C88 machinery) ⇒ exact eigenvalue nearby (C85), number by C90 |
| C94 | Model/Search eigenvalueError | C88 convergence of Newton without the coefficients h |
| C95 | Model/Search eigenvaluesByIndex, window over Model/Solver matchingError | C23 brackets + counting search (Lemmas/CountSearch) + exact counting function |
| C96 | Model/Propagate, Model/Solver, Model/CalcT | variation-of-constants bound for the dt matrices per sector, DInv fold over the visited sectors, differentiability of exact families from the quadratic remainder (EnergyGlue) |
| C97 | Model/Propagate matchingError on Model/Solver | C96's estimates at the matching point, bilinearity, constancy of the Wronskian |
| C98 | Model/Eigen on Model/Solver; exact eigenfunctions in Spec/Eigenfunction | both propagation chains stay near the exact solution and its energy derivative (C96), so the Wronskian-type norm of the code approaches the exact integral; matching factor and scaling estimated; inside a sector by the flow bound |
| C99 | Model/HalfRange on Model/Eigen and Model/Solver; exact problem in Spec/HalfRange | even and odd parts of a solution, Wronskian at 0, zeros come in mirror pairs; merge lemmas of C26/C27; C98 for the eigenfunction |
| C100 | Model/Liouville + Spec/SturmLiouville | inverse of the change of variable (with derivative, on closed intervals), transformation of solutions both ways, change of variables in the norm integral; composed with C85 |
| C101 | `Model/SectorError` on top of `Model/CalcT` and `Model/Mesh` | `Lemmas/SectorError`: at E = vs[0] the eta functions have value Z = 0, both step matrices are polynomials in h and the coefficients; each coefficient is small by C87's bounds. `Lemmas/MeshCount`: a step is only shrunk when it is rejected, so it stays above g/10; widths add up |
| C102 | `Model/SectorError`, `Model/Mesh` | as C101 with the jumps as end points; counterexample by following the loop from a jump within 1e-12 of the end (`Lemmas/MeshTiny`) |
| C103 | `Model/MatscsTerm`, `MatscsData0..5` (generated from the source by `tools/gen_matscs.py`), `Lemmas/MatscsLit` | kernel computation over every literal of the tables |
| C104 | `Model/MatscsCalc`, `Spec/Coupled`, `Lemmas/NPoly … MatscsMain` | the formulas, read as non-commutative polynomials, solve the equation up to high order: defect polynomials computed by the kernel; Gronwall for matrix equations |
| C105 | `Model/Matscs`, `Model/MatscsCalc`, `Lemmas/MatscsChain`, `MatscsFlow`, `MatscsConverge`, `MatscsMesh`, `MatscsCoeff` | stability of products of near-identity matrices, C104 per sector, composition of propagations (C57) |
| C106 | as C105 | transfer matrices within 1/2 of the identity; C57 |
| C107 | Model/Periodic over Model/Solver's sectors; exact fundamental solutions | end values of each column by C84/C96 machinery, Wronskian identity for the exact determinant, product error bounds |
| C108 | Spec/Periodic eigenvalues by solutions of the ODE | intermediate value theorem on the exact determinant, C107 and C32 |
| C109 | theta, eigenvalue angles (roots of the characteristic polynomial), constant-potential turn, the correction and the walk | modulo 2 pi: exp of the angle against determinants along the walk; exactly for decoupled piecewise constant systems (continuous angles, ceil argument); a counterexample with sorted eigenvectors |
| C110 | the generated formula tables, calculateT with exact eta functions and eps = 0 | kernel evaluation filters the tables to the words in v_0; closed form of constant systems in the eigenbasis; walk invariant |
| C111 | Model/MatscsCalc (dt blocks from the derivatives of the eta functions), Matscs.propagateColumn; specification Spec/CoupledEnergy | block lower triangular (dual number) matrices turn the energy derivative into a step of the ideal method for a doubled system; stability and consistency of pairs (value, derivative) over the mesh; existence of the differentiated solution by Picard-Lindelof |
| C112 | Spec/EigenNr (IsEigenvalueNr), Spec/Problem (IsEigenvalue); the exact matching angle of Lemmas/ExactCount | Right derivative of the lifted scaled angle of a solution; comparison with a line (image_le_of_deriv_right_*) gives the rotation at high energies and a trap at low energies; intermediate value theorem for the strictly increasing matching angle |
| C113 | Model/Search (window, helper, newton) with the matching angle computed by Model/Solver | C112 for the location of the exact eigenvalues, angle_sides (the computed angle is on the correct side of n pi) for the stopping of the loops, C19 for termination of the bisection, C95 for the contents |
| C114 | Model/Rounded (Fl fl: each operation rounded), Model/Ieee (round to nearest even with gradual underflow) | error of every operation of the formula tables relative to majorants; C83 for the exact step; Gronwall over the sectors |
| C115 | Model/Rounded | C114 from both ends, rounding of the products and the difference |
| C116 | Model/Rounded | C115 and the sensitivity of the Wronskian to the energy |
| C117 | Model/Eta at Fl fl; Spec/ElemFl | majorant calculus (Maj) through the series, the downward and the upward recurrences |
| C118 | Model/Legendre at Fl fl; sectorVsGen | majorants of the sample points, sums, powers and quotients; Lipschitz bound of the potential; coeffWithin_sector |
| C119 | all of the above at Fl fl | composition of C114, C115, C117, C118 |
| C120 | `Model/MachineInt`: the search with every `int` sum checked where the code computes it; conversions to `int` that do not fit are undefined | invariant: the depth in the queue is at most 31, and `ia + 1` is only computed when `ia < Imax`; equality with the unbounded model by induction on the rounds |
| C121 | `Model/MachineInt`: merge and index splitting with checked `int` operations | induction on the merge; truncating division |
| C122 | `Model/MachineInt`: start index, loop and `addToResult` with checked `int` operations | invariant: `INT_MIN < i ≤ iMax + 3`; equality with the unbounded model by induction on the rounds |
| C123 | Model/Rounded (Fl), constructGen, Prob.propagate | Perturbed discrete Gronwall inequality for (y, dy, yE, dyE): the rounded sector step is the exact one up to relative errors of size u+σ (Lemmas/FlEnergy) |
| C124 | Prob.matchingError on constructGen | From C123 on both halves; the rounded products of relatively accurate factors (Lemmas/FlNewton) |
| C125 | newton, eigenvalueError on the matchingError of constructGen | One rounded Newton step has error C((E-λ)²+κ) (Lemmas/FlNewtonStep); then the sequence argument of C88 |
| C126 | newton, newtonLoop on the matchingError of constructGen | The stopping test bounds the computed error, C116 gives an eigenvalue near the last evaluation, one rounded Newton step (newton_fl) gives the quadratic bound |
| C127 | Model/Eigen over Fl fl, sectors of Model/Rounded; rounded square root as a parameter with its accuracy | invariant along the mesh for value and energy derivative (FlEigenChain), rounding inside a sector (FlInside), rounded normalisation (FlEigenAlg), combined with the exact eigenfunction theory of C98 |
| C128 | Spec/PeriodicNumbers (PeriodicList), Model/Periodic.isAnti | Floquet theory from the ODE: the derivative of the trace of the monodromy is the crossing function times a sign-definite form, its zeros are the separated eigenvalues (C112), crossing lemmas give one pair per interval |
| C129 | Model/Periodic (findLow, findHigh, isAnti) over an oracle for the angles | C128 for u = (1, 1) and u = (1, -1), sign analysis of the first row of K |
| C130 | Model/Periodic (Range.rejects, startIndex, doubleWhile, byIndex, byEnergy) | C128 gives n <= angle <= n + 1 at the eigenvalue number n for both columns; strict monotonicity of the angles; arithmetic of the start index |
| C131 | the model of the whole search (`byIndex`, `byEnergy`, `helper`, `mainLoop`, `eigenvaluePair`, `bisect`) with an oracle that is exact (`ExactOracle`: angles that count, determinant of the fundamental system, its derivative) | every turn and every entry are traced to a bracket (`helper_turns`, `helper_from`), the bracket to the numbers by Floquet theory (`pair_facts`, `first_facts`), the bisections by their invariants (`bisect_increasing`, `bisect_continuous`, `bisect_peak`) |
| C132 | the acceptance test and the work-list loop as coded, with real numbers | the test unfolded into integrals of the stored polynomials (C44); induction over rounds with every waiting piece a placed fresh piece |
| C133 | piece constructor with the tabulated quadrature rules, exact arithmetic and real square root | amplification of the interpolation bounded from the tables by kernel computation, exactness on constants (C42), values of the inverse map in [0,1] |

No property was found inexpressible; parts that a model in exact arithmetic cannot show
(rounding, NaN propagation through arithmetic, memory lifetime inside pybind11) are named in the
notes of `MANIFEST.json`.


## 6. Findings: behaviour of the code that contradicts what a user would expect

Each item has a kernel-checked witness; the positive theorem beside it states the hypotheses under which the property does hold.

1. `MatsliseHalf::eigenfunction`, scalar overload: for x < 0 the derivative has the wrong sign relative to the array overload (C29).
2. `SturmLiouville` `y2z`: the derivative component uses the wrong component (`C49_fails`).
3. Duplicated jump positions give a zero-width sector or a mesh loop that never ends (C06). The C++ API does not filter jumps; only the Python constructor does.
4. An eigenvalue exactly at `Emin`, `Emax` or a bisection point is lost; clusters deeper than 30 bisections give one result (C22); `Imin` is validated only after the expansion loops, so an invalid index can hang (C18).
5. `Matscs::eigenfunction` starts from a zero vector and keeps a stale sector reference (`C58_fails`).
6. `Matscs::Sector::propagatePsi_delta` ignores the sign of the step, and `propagatePsi` has no domain check, so it can read `sectors[-1]` (C59).
7. `PeriodicMatslise::eigenfunction` uses the kernel vector of the matching matrix directly as the boundary value (C34); `eigenvaluesByIndex` with `iMin ≤ -2` never returns (C73).
8. `PySlise`/`Pyscs`: a negative tolerance different from -1 together with `steps=-1` reaches `UniformSectorBuilder(-1)` (`C60_fails`). A uniform count of 0 is undefined behaviour.
9. `calculateT`: the E-derivative drops the last term of the series (C53), and `T`'s division uses the adjugate, so it needs det = 1 and its derivative 0 (C35).
10. A NaN phase makes `(int) ceil(NaN)` undefined. JS bindings do not keep the problem alive (`C62_raw_use_after_free`); Python's `__sector` pointer dangles (`C62_sector_pointer_dangles`).
11. Array evaluation at a shared sector boundary may use the left sector, scalar evaluation the right one (C09, C54).
12. Liouville: NaN from p < 0 subdivides for ever (`C45_diverges`).
13. One-sector uniform mesh has its match point at the right end: with a Dirichlet condition there the index is off by one (C76). A step of at most 1e-12 at a zero in a non-oscillatory sector adds π (C77).
14. `setDirection(none)` keeps stale tables (`C66_none_keeps_stale_tables`); `MatsliseHalf` lists only the right half of its sector points in the JS bindings.
15. Just above a sector's mean potential (`E` slightly larger than `vs[0]`) any decrease of the computed angle, however small, adds π to the result of `propagate` (`C89_decrease_adds_pi`): there the index of an eigenvalue can be one too large by rounding alone. C89/C90 exclude the band (`AngleFit.clear`).
16. `MatsliseHalf` requires left and right boundary values to be equal entry by entry. For a condition mixing y and y' equal values are not mirror images: `-y'' = E y` on [-1, 1] with y = y' at both ends passes the check, has the eigenvalue -1, and neither half problem has it (`C99_equal_sides_not_symmetric`).
17. A listed jump within 1e-12 of a mesh point or of an end of the domain (`jumps=[0.1*3]` on `[0.3, 1]`) makes the automatic mesh start with a sector of at most 1e-12. There the partial step counts as no step, so the error estimate is 1 or more; the step is too short to be shrunk and, its error being above the tolerance, is never enlarged: the mesh gets one sector per 1e-12, in effect a hang (`C102_jump_near_the_end`).
18. `Matscs::propagate` returns an angle (`argdet`) meant to count eigenvalues. `propagateDelta` multiplies the diagonal constant-potential factor, which lives in the eigenbasis of the sector, with `theta(y0)` in the original basis, without `diagonalize`. Whenever the eigenbasis is not the original one (already for uncoupled equations whose potentials are not in increasing order) the result can be off by a multiple of 2π although the block itself is exact (`C109_wrong_when_basis_permuted`).
19. Index arithmetic in C++ `int`: `PeriodicMatslise::eigenvaluesByIndex(iMin, iMax)` passes `iMax + 2` (and doubles/halves indices) to the search, so a range reaching INT_MAX - 1 is signed overflow, undefined behaviour (`C122_periodic_overflow`); `MatsliseHalf::eigenvalues` doubles the inner index and overflows from inner index 2^30 on. The half-range and full-range index searches do not overflow inside the stated windows (`C120`, `C121`).
20. `PeriodicMatslise` accepts any matrix K with determinant one, but the bracket of a pair, computed from the smallest and the largest of the two angles (columns (1, 1) and (1, -1)), is right only when |K(0,1)| < |K(0,0)| and K(0,0)·K(0,1) ≤ 0 (all diagonal K, so the periodic and the antiperiodic problem, are fine). For every other K the lower end of the bracket is at or above the eigenvalue with number i − 1 (`C129_bracket_misses`); with V = 0 on [0, 1] and K = [[1, 2], [0, 1]] the lowest eigenvalue 0 is lost in exact arithmetic (`C129_lost_example`). The repository tests only K = ±I.
21. `PeriodicMatslise::eigenvalues(eMin, eMax)` (periodic.cpp:149-167, 186-193) can report an energy that is no eigenvalue. When the corner test says periodic and `eMin` lies above the lowest eigenvalue but below the energy where the larger angle is 1, the first index computed is -1 or 0, so the block for the lowest eigenvalue runs on a bracket `[eMin, high]` that contains no eigenvalue; the bisection there does not test for a sign change and returns an end of the bracket, which is accepted as `(0, E, 1)`: `C131_spurious`, `C131_spurious_example`. For V = 0 on [0, 1] and K = I the eigenvalues are 0, 4π², …, and `eigenvalues(1, 20)` reports about π². Everything else in the result is right: `C131_by_energy`.
22. `Legendre::integrate()` (legendre.h:50-58) returns half of the integral: row 0 of the weights is normalised to the mean value, and the result is multiplied by `h = (b - a)/2`
    (`C42_integrate`). Its only user is the acceptance test of `constructPiecewise` (liouville.cpp:99-102), where the test of `∫ r dx` therefore is twice as lax as its tolerance says while the integral is at most 1.
