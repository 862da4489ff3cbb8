# Formal model of moving_mesh_radiative_transfer

The model is written in Lean 4 (`lean/`). It is a hand transcription of the Python
source in `/repo`; nothing in `/repo` is executed or extracted.

## Trusted base

* Lean's kernel (4.33.0) and the Mathlib definitions used in statements.
* Axioms: every property theorem depends on a subset of `propext`,
  `Classical.choice`, `Quot.sound`. No axiom is declared, no `sorry`, no
  `native_decide`, no `bv_decide`.
* The transcription: each model definition cites the file and the lines it copies.
* Numbers: Python/numpy `float64` is idealised as the reals (or any ordered field where
  that is enough). Rounding, overflow, NaN and infinities are not modelled. Decimal literals that
  round a simple fraction (for example `-0.16666666666666666` in `GMAT_sphere.py`)
  are read as that fraction.
* Integers: Python/numba integers are natural numbers or integers without overflow.
* Exceptions: a failed `assert`, an unbound local or an out of range index is an
  explicit error result (`none` / `Except.error`), not a default value.
* Mutable objects: a jitclass instance is a record; a method is a function from the
  record and the arguments to the new record. Aliasing is modelled only where
  noted (arrays shared between two fields).
* Library calls: `numpy`, `scipy.special.expi`, `quadpy`, `h5py`, `solve_ivp` are not
  modelled as code. Where a property needs one, its contract appears as a hypothesis or as a
  mathematical definition (`expi` = any function with derivative `exp u / u` for
  negative `u`; Gauss-Legendre points = any strictly increasing list in (-1,1); the
  HDF5 file = a map from path to value; `solve_ivp` = an arbitrary sequence of calls; in C125 the loop of
  scipy's explicit Runge-Kutta solvers, with step sizes and acceptance left open; in C135 also the
  coefficients and the dense output of scipy's `DOP853`, transcribed from scipy, which is not part of the
  repository).

## Layout

* `Verif/Spec/*`   independent mathematical meaning (integrals, polynomials, stores)
* `Verif/Model/*`  transcription of the code, with citations
* `Verif/Lemmas/*` helper proofs
* `Verif/Props/*`  property theorems, one file per group, each with a concrete
  instance (`example`) that meets the hypotheses
* `seeded/LOG.jsonl` record of deliberately wrong edits of the model and the theorems
  that caught them

Findings (a property false of the code) are stated as a theorem giving a concrete
witness, next to the strongest true version, whose name ends in `_partial`.

## Per property plan

| id | modelled | proof |
|----|----------|-------|
| C01 | `normPn` for one point with the Legendre three-term recurrence as `numpy`'s `Pn` | Legendre polynomials defined by Bonnet recurrence; orthogonality for all n,m by induction; change of variables |
| C02 | `B_LR_func` both geometries | values P_n(±1), T_n(±1) by induction |
| C03 | `eval_Tn` table and its assert | equality with Mathlib's Chebyshev `T` |
| C04 | `L_Const` table and `make_L_slab` | derivative expansion of Legendre polynomials by induction, then integral |
| C05 | `make_G_slab` incl. unwritten entries | time derivative of the basis at fixed x expressed through x P_n', then integral |
| C06 | slab RHS of `rhs_class.py`, flux, matrices | geometric conservation: identities on row/column 0 and edge values |
| C07 | `make_LU`, `make_sol`, `make_h` on all cells | telescoping sum by induction on the number of cells |
| C08 | `make_LU` | case analysis on relative speed |
| C09 | `make_sol`, `extend_mesh`, `is_boundary_source_on` | case analysis |
| C10 | weight normalisation in `build.__init__` | list sum algebra |
| C11 | collision terms of both RHS classes, `make_P` | finite sum algebra |
| C12 | energy and transport branches of `rhs_class.py` | finite sum algebra |
| C13 | the active `rhs_class_1.call` slab branch | false: the slab branch returns its input. Negation with witness, plus the exact value returned |
| C14 | both RHS classes | linear algebra, locality by frame argument |
| C15 | `finite_diff_uneven` | telescoping |
| C16 | same with weights | equivalence with weights proportional to the angular cell widths; witness of failure |
| C17, C18 | `GMatrix`, `MPRIME` tables, all 121 entries each | each entry compared with the integral of the Chebyshev basis products (polynomial antiderivative, ring identity) |
| C19 | reflection index and asserts | index arithmetic |
| C20 | `finite_diff_uneven` on a constant | exact defect; iff condition on the direction set |
| C21 | `finite_diff_uneven_2`, `angular_deriv` | field identity; witness that `angular_deriv` fails on linear functions |
| C22-C31 | mesh state machine: constructors and `move` | invariants over all call histories; witnesses where false |
| C32 | `quadrature` chebyshev branch | Mathlib's Chebyshev-Gauss theorem |
| C33 | `find_nodes` | index arithmetic and convex combination |
| C34 | `bisection` | invariant and termination measure |
| C35 | `newtons`, `newtons2` | big-step relation of the loop; induction on it |
| C36 | `convergence` | logarithm algebra |
| C37 | `time_step_function` | list induction |
| C38, C39, C43 | `square_IC`, `plane`, `shell` branches | measure of an interval of directions |
| C40 | `uncollided_square_s2` and f1..f3 | fundamental theorem of calculus on three pieces |
| C41 | `uncollided_su_olson_s2` | same with two rays; witness for the one wrong branch |
| C42 | dispatcher | homogeneity; witness where the strength is applied twice |
| C44 | MMS source, initial and boundary data | derivatives |
| C45, C46 | Su-Olson temperature, sources | real powers, case analysis |
| C47 | moment cache | invariant over histories for time independent opacity; witness otherwise |
| C48 | `make_vectors` | witness of accumulation; exact value after k calls |
| C49 | index filter of the tensor | orthogonality and parity of Legendre products |
| C50, C51 | `make_phi`, `make_e` | binary search specification |
| C52, C53 | Gaussian elimination, spline assembly | invariants over row operations |
| C54, C55, C58 | file as a map, key construction | store laws over all histories; witnesses of key collision |
| C56, C57 | parameter loading | list reasoning |
| C59 | slab RHS on polynomial fields | streaming and motion matrices as derivative operators on the basis |
| C60 | `BC_func`, `integrate_quad` of the flux | quadrature of the constant, edge values; sphere witness |
| C61 | coupled energy and transport branches | C07 plus C12 summed over cells |
| C62, C63 | active sphere RHS | weak form tested with the constant; matrices assumed exact (`MatsExact`) |
| C64, C65 | tables against mass matrix | transport theorem; positive definiteness of the exact mass matrix |
| C66, C67 | Gaussian closed forms | substitution in Gaussian integrals |
| C68, C69 | plane moments, dispatcher with the stored result | direct computation; witnesses |
| C70, C74, C75, C76 | `make_source`, over call histories | case analysis on the configuration; witnesses |
| C71 | `make_H`, Su-Olson | orthonormality under an exact rule |
| C72, C73 | `make_IC`, `IC_func` | orthonormality; integrals of pulses |
| C77 | `make_vectors`, `make_P` non-constant opacity | triple products expand products of Legendre sums |
| C78, C79 | `get_exit_dist`, `make_e` derivative | cell lookup of C50; derivative table entry by entry |
| C80 | `save_wave_loc`, `call_wavepoints` | store laws; witness |
| C81 | slab right-hand side (`rhs_class.py`), `make_LU`, matrices | quadratic form of streaming; Parseval |
| C82 | same | Gronwall with one-sided derivatives (mesh velocities may jump) |
| C83 | transfer and energy equations of `rhs_class.py`, linear emission | same |
| C84 | slab right-hand side | Gronwall with a residual |
| C85 | slab right-hand side, `make_LU`, boundary data | Legendre parity; uniqueness (C82) |
| C86 | slab right-hand side with `M = 0` | energy estimate for the negative part; explicit state for `M = 1` |
| C87 | slab right-hand side, `is_boundary_source_on` | joint continuity, Picard-Lindelöf on short steps, gluing; uniqueness (C82) |
| C88 | slab right-hand side against the exact equation | rate of the projection on a moving cell (integration by parts), flux defects, energy estimate |
| C89 | slab right-hand side against the exact equation | Taylor polynomial, best approximation, C88 |
| C90 | `fake_sedov`, `sigma_function` | optical depth along a ray as an integral of the opacity; transport equation by differentiation |
| C91 | `run.fake_sedov`, `run.fake_sedov_benchmark` | comparison with C90 |
| C92 | `run.steady_state_gaussian_benchmark` | error function as integral of the opacity |
| C93 | `ss_transport`, `ss_dipole`, `benchmarkfull` | derivatives of the heat kernel, Gaussian integral |
| C94 | `gaussian_IC_bench_full` | same, limit at late times |
| C95 | `noniso_part_bench` | derivative, symmetric rules |
| C96 | `loglog_converge` of self_similar_diffusion.py | logarithms |
| C97 | solver.py 238-241, load_bench.py 28-31 | chain rule, change of variables |
| C98 | `stich_solution`, `__call__` of load_bench.py | first minimum of distances to the edge |
| C99 | energy in `solve`; `make_e` | tagged values for `thermal_couple`; cell lookup |
| C100 | error in solver.py 237-273 | same |
| C101 | active sphere right-hand side with `c = sigma_s` | C62 |
| C102 | reshapes in `solve` and `rhs_class_1.call` | division with remainder |
| C103 | active sphere right-hand side | energy identity: parts in every cell, jumps at the edges, summation by parts in angle; Gronwall |
| C104 | active sphere right-hand side | affine in the state with continuous coefficients on every piece (inverse mass matrix by determinant); Picard-Lindelöf, gluing, Gronwall |
| C105 | `make_mass_sphere`, `make_J_sphere`, `make_L_sphere`, `make_all_matrices` with stored tables | entries as quadratic and linear forms in the two radii with rational coefficients; a form that vanishes at three ratios is zero; perturbed tables as counterexample |
| C106 | `file_reader` | names decoded for indices below 11; files built from tables and read back; name shared by rows of different length from 21 rows on |
| C107 | active sphere right-hand side against solutions of the discrete-ordinates equation | projection in the volume weight and its rate on a moving shell; consistency of flux, redistribution and scattering; Gronwall |
| C108 | same | projection error by a bound on polynomials over half a shell; Taylor |
| C109 | the objects built in `solve` and the whole stateful `rhs_class_1.call` on them, sphere geometry (`Model/System`) | invariant of the shared objects over all call histories; the result equals `activeCall` with matrices, source and mesh of the requested time |
| C110 | same, with the meshes of the point pulse and of the shell, exact tables | discharges the hypotheses of C62, C103, C104 |
| C111 | same, non-constant opacity | absorption and scattering computed exactly; a state whose particle number grows although nothing is emitted |
| C112 | same, with the initial state of `make_IC` | C110 from the state of C73; zero is a solution for the point pulse with uncollided treatment; source vector by C43 |
| C113 | `Model/Results`: the part of `solve` after the integration | mesh of a reached object (C109), `searchsorted` (C50), cell integrals; failing array additions computed |
| C114 | `Model/Quadrature`: Lobatto branch of `quadrature`, big-step relation for the root search | roots of Legendre polynomials and of their derivatives by interlacing and Rolle, distance to a root from the length of a Newton step, exactness by division with remainder, perturbation of points and weights |
| C115 | `Model/Wave`: `_interp1d` with unchecked indices, rows of `wave_loc_array` in memory | the scan stops at the segment of the time; rates by induction over the segments |
| C116 | `Model/Mesh`: `thickFinder`, `thickSquareMove`, `thickSquareInit` | invariant over histories (edges within the source never change); edges outside are affine in the front position, so difference quotients are exact |
| C117 | `Model/Wave`: `find_T_wave`, `find_wave_bounds` | first position of the minimum; case analysis |
| C118 | `Model/System` | C108 applied to `meshAt`, `programMats`, `programSource`; widths and radius are straight lines in time; the projection satisfies the approximation bound of its own error |
| C119 | `Model/System` with `M = 0` | closed form of the rate of an empty direction; the sum of the squared negative parts satisfies a Gronwall inequality; conversely the rate is negative and continuous |
| C120 | `Model/ErrorTables` | injectivity of paths and names; frame lemma for saves that go elsewhere; the folder, the dropped times and the collisions as separate theorems |
| C121 | `Model/RunFunctions`, `Model/Saving`, `Model/Sources` | `argmin` characterised as the first closest entry; load after save from C54 |
| C122 | `Model/RunFunctions` | induction over positions, repetitions and calls |
| C123 | `Model/System`, `Model/RhsCall`, `Model/Flux` | the closed form of the sphere rate is linear in state, source moments and boundary strength; order from C110 applied to the difference |
| C124 | `Model/SphereQuad`, `Model/Sources`, `Model/Uncollided`, `Model/System` | energy inequality with source, Lipschitz bound of the ball flux in the radius away from time zero, one-node rule = π/2 times the midpoint value, particle balance |
| C125 | `Model/TimeStep`, `Model/System` | every evaluation on reached objects returns the same function (C109); Runge-Kutta error recursion with a potential that pays for the jump of the boundary source; C110 and C118 |
| C126 | `Model/TimeStep`, `Model/System` | a Runge-Kutta run commutes with linear maps, so with the superposition of C123 and with the particle number of C110, which makes the run a scalar one; factors of one step by rational arithmetic, their bounds by squaring |
| C127 | `Model/TimeStep`, `Model/System` | the rate is a linear map whose dependence on time is smooth (basis, mass inverse and flux on ordered edges); Taylor expansion of the stages, order conditions as rational identities, Gronwall over the steps; sharpness from the factors of C126 by Bernoulli's inequality |
| C128 | `Model/Solve` (with `Model/TimeStep`, `Model/Results`) | the events of the integration with the list of output times still to be answered; columns identified with a memoryless integrator, then C113 for the report, C127/C125 for the state, and a bound of the basis on the moving cells for what the report makes of an error |
| C129 | `Model/SlabSolve` (with `Model/TimeStep`, `Model/Results`, `Model/Matrices`) | the integrator written for any right-hand side with shared objects; a right-hand side that returns its argument turns every stage into a multiple of the state, so the accepted steps multiply it by the stability polynomial, compared with the exponential series |
| C130 | `Model/Solve`, `Model/Results`, `Model/System` | C118 for the exact answer to the initial state of the program (exists by C110), C127 and C125 for the distance of the integrated state from it, C128 for what is reported; Jensen's inequality from intensities to scalar flux |
| C131 | `Model/Solve`, `Model/System`, `Model/Opacity` | the answer of a call is linear in the state with coefficients that are smooth in time as long as the shells are; existence and uniqueness and the order as for constant opacity (C110, C127), reports by C128 |
| C132 | `Model/Mesh`, `Model/Results`, `Model/Solve`, `Model/SlabSolve` | case split of `move`, induction over the history of requests; the calls of the integrator are one such history; reports by C113/C129 |
| C133 | `Spec/SphereExact`, `Model/Angular`, `Model/ActiveRhs` | limit of the equation divided by r at the centre; sums of reciprocal distances of Legendre roots from one, from Legendre's equation; second moment of the angular cells; power mean inequality |
| C134 | `Model/Solve`, `Model/System`, `Model/ActiveRhs` | energy estimate as for C118 with angular cell widths as weights of the norm; the wrong-signed angular term is bounded by delta/r on all shells, scattering by Cauchy-Schwarz with the weights |
| C135 | `Model/Dop853`, `Model/Solve`, `Model/TimeStep` | local error of a Runge-Kutta step on `y' = A(t) y + g(t)` by Taylor expansion along words of derivatives, which leaves one condition per word; the conditions are checked for the decimals and the doubles by the kernel on integers (`decide +kernel`); dense output is a method with sixteen stages whose weights are polynomials of the position in the step |
| C136 | `Model/SolveOptions`, `Model/SlabSolve`, `Model/Dop853`, `Model/Solve` | options: case analysis of the call. Slab at chosen times: every interpolant that sees proportional stages gives a multiple of the state, so the report is the initial state times the product of stability polynomials and the factor of the dense output; both are compared with the exponential function, for general methods by the order theory of C135 applied to `y' = y` |
| C137 | `Model/MovingShock`, `Model/Opacity` | along a ray the optical thickness is an integral with moving end point, so the fundamental theorem of calculus gives the transport equation; uniqueness by an integrating factor along the ray |
| C138 | `Model/ConvergencePlots`, `Model/ErrorTables` | the misfit of any line is the one of the fitted line plus a positive form in the difference of the parameters; each branch of the plot is a record of what it calls, slices and draws, and the failures follow from the attribute that the loader does not set and from the lengths of the slices |
| C139 | `Spec/SphereTransport`, `Model/Angular`, `Model/ActiveRhs`, `Model/Solve` | Taylor expansion of the angular flux at the edges of the angular cells shows that the discrete redistribution and the weighted sum are consistent; a solution for all directions is therefore a near solution of the equations for the directions of the run, and the error bound of C134 is proved for near solutions |
| C140 | `Model/Angular`, `Props/UnitTests` | the last entry is written out and bounded by 1, while the expected one is 2 sin 1 > 3/2; consistency of the angular difference (C139) gives the rest |
| C141 | `Spec/GaussRule`, `Lemmas/Separation`, `Model/Solve` | inequalities of Chebyshev, Markov and Stieltjes, proved with interpolation of 1/prod (b - x)^2: divided differences of such functions are sums of such functions, so all Newton coefficients are positive; then the bounds of C139 with the offsets and weights of the rule |
| C142 | `Model/OldFunctions` | the old flux terms against the class's, edge by edge; traces of a cell and its neighbour written out with both widths |
| C143 | `Model/Sources` (`icFunction`, `icObject`) | integrals over directions and the line; the Gaussian integral from Mathlib |
| C144 | `Model/Uncollided` (`pointSource`, `uncollidedSolution`) | the integral of an indicator of the shell of width 2e-10 |
| C145 | `Model/UnusedMesh` | loop invariant of one pass; counting the times before t; telescoping sums |
| C146 | `Model/SpareFunctions` | edges as means of first and last positions; induction over the steps of the search; integrands that agree except at three times |
| C147 | `Model/OldMesh` | edges in closed form; derivative of the root; first position of the minimum |
| C148 | `Model/Basis`, `Model/Numerics` | substitution to [-1, 1]; exactness of the Chebyshev rule; `cos` of odd multiples of π/2 |
| C149 | `Model/FrontMesh` | count of the times before the given one; slices written out |
| C150 | `Model/Mesh` | `linspace` at both ends of the three pieces |

## Modelling notes and assumptions

Hypotheses that stand for library behaviour, or for data that is not in the repository:

* `QuadExact` style hypotheses: the quadrature list handed to a class integrates polynomials up to a
  stated degree exactly. Contract of `leggauss`; proved for the Chebyshev rule (C32).
* `MatsExact` (C62, C63): `L`, `J` and `Mass` of the sphere are the integrals they stand for and `Minv`
  inverts `Mass`. The code reads their coefficients from HDF5 files that are not in the repository.
  `c65_matrices_exist` shows that the hypothesis can be met on every cell.
* `expi`: any function with derivative `exp u / u` for negative `u` (`exists_expi` gives one).
  `erf`: the error function, defined in `Spec/Uncollided`.
* `searchsorted`: number of entries smaller than the point, for sorted edges.
* Lobatto nodes given to the square mesh: increasing, symmetric, ends -1 and 1.
* HDF5: names starting with a slash are absolute, groups are implicit, creating a dataset fails when the
  name is taken, a dataset without `dtype` is single precision (parameter `single`).
* `str` of a float: a parameter `fmt`, injective on the floats that occur (`FmtOk fmt F`) and without
  slash or underscore. It cannot be injective on all reals, so `F` is a set.

Simplifications:

* Mesh: an edge array of a size other than `N_space + 1` is a failed construction. The wave-following
  thick mesh is modelled but only its static version is treated by theorems. `print` is left out.
* Loops that may not end (`bisection`, `newtons`, `newtons2`) are big-step relations; termination is a
  separate theorem where it holds.
* A division by zero is an error in `Spline`, the real value zero in `sedovIntegrand`, `dipoleIC` (the
  program gives NaN) and in the S2 closed forms; theorems exclude these cases by hypotheses.
* Opacity: a `sigma_func` with no branch has value 0. Cached edges are stored by value; the code stores
  a reference to an array that `mesh.move` replaces and never changes in place.
* Saving: rows of different length make the save fail; numpy broadcasting of length one is left out.
* Energy equation: `make_P` as in the commented-out version, because the current one multiplies arrays
  of different lengths when there is a material energy row.

## Where the code does not do what the property says

Each item is a theorem with a concrete witness; the id is the property.

Right-hand side, flux, directions

* C13: the active right-hand side (`rhs_class_1.py`) returns its input in slab geometry, so the solution
  grows like `exp t`.
* C16, C20: angular redistribution conserves the counted particles only if the weights are proportional
  to the angular cell widths, and keeps uniform radiation only if each cosine is the midpoint of its cell.
  Neither holds for Gauss-Legendre sets in general.
* C19: the symmetry check never looks at the middle direction of an odd set.
* C21: `angular_deriv` is not exact on quadratics.
* C60: a boundary source in the sphere injects its strength divided by `sqrt pi`.
* C86: nonnegative radiation stays nonnegative only for order 0; for order 1 a step becomes negative.

Mesh

* C29, C24: `edges0` is never set for the slab plane mesh, so `move(0)` puts all edges at zero.
* C25, C30: moving Gaussian meshes, and the square source without finite domain, never move but report
  non-zero velocities.
* C23, C24: in a finite domain the mesh depends on the history of calls; the accelerating mesh can have
  crossed edges when times come out of order, as they do inside `solve_ivp`.
* C24: the thick static square pulse with `move_func` 1 has all edges at zero.
* C26: square meshes have `N_space + 1` edges only if four divides `N_space`, the boundary mesh only if two
  does.
* C28: the accelerating mesh whose target is the domain end stops 1/100 before it.
* C30: a spherical shell mesh with at most two cells never moves.

Numerics

* C34, C35: `bisection` returns an unbound variable for a bracket within the tolerance; `newtons2` stops
  after at most one correction.

Uncollided solutions and sources

* C41: S2 square source too large after the source is off (functions.py 314).
* C42, C74, C75: strength applied twice for square and Gaussian pulses; the source vector grows with the
  square of the strength; slab first-collision source has extra factors `sigma_s` and strength.
* C68: `plane_IC_uncollided_solution_integrated` uses `x0` where the point values use `1e-12`.
* C69: source types without a branch return the result of the previous call.
* C73: the point pulse contains `8 pi / 3` times the stated number of particles.  The half width of
  the static plane pulse is set to the width of two cells (build_problem.py 182-183), so on a mesh
  of two cells half of the particles lie outside (`c73_plane_two_cells_wrong`).
* C76: a volume source in the sphere is never applied without the uncollided treatment; the manufactured
  source is never applied by the active right-hand side.

Opacity, output

* C47: moments of the moving shock opacity are stale on a mesh that stands still.
* C48: `make_vectors` adds to the previous absorption vector.
* C78: `get_exit_dist` with uncollided treatment fails unless there are one or two output points, and then
  uses the wrong points.
* C79: the reported energy derivative lacks the chain factor `2 / width`.

Benchmarks

* C90: the optical depth of the moving shock problem is wrong for particles that enter after the shock has
  passed the left boundary.
* C91: the moving shock benchmark has the left end `-5` hard coded.
* C92: the steady Gaussian benchmark is for an opacity of width 1/2; the solver's Gaussian opacity has width 2.
* C93: `benchmarkfull` takes the similarity variable from a global and ignores the position.
* C96: the last error of a study never enters the estimate (unless as the neighbour of the first).

* C97: the scaled benchmark is only that of the plane pulse; other starts and sources are scaled too.
* C98: the output point nearest to the edge of the stored benchmark always gets zero; odd numbers of
  symmetric points can make the call fail.

Driver

* C99: the reported material energy is always zero: `thermal_couple == 1` compares a dictionary with an
  integer (main_functions.py 247, 269).  The shipped coupled inputs have an integer there and cannot be loaded.
* C100: with benchmarking the error is never computed, for the same reason (solver.py 237, 245).
* C101: the active right-hand side scatters with `sigma_s` and absorbs with 1.
* C102: with material coupling the active right-hand side cannot reshape the state vector; `sol_array`
  mixes times and unknowns (unused).
* C103: the central difference in angle (rhs_class_1.py 271-275) is neutral for the square norm only if
  every direction is the middle of its angular cell.  With the two directions `±mu`, `mu > 1/2`, the
  distance of two solutions can grow.
* C108: for such directions the error bound of C107 contains the reciprocal of the innermost radius.  It is
  open whether the scheme converges then.

Files and parameters

* C54: solution rows are single precision; `psi` and `mus` are at the root of the file; the loader's
  default file is not the saver's; constant heat capacity runs have another problem name in the loader.
* C55, C58: order and number of angles are not in the name; a run without source is saved as `plane_IC`;
  unknown problem types share the folder `none`.
* C57: `major = Ms` uses `N_spaces[1]` and fails for one run; other values are accepted and fail later.
* C80: wave positions are saved to `wavepoints_crc.hdf5` and loaded from `wavepoints.h5`; two branches of
  the loader use an undefined name.

Noticed while reading, without a theorem: the `eval_times` branch calls `find_nodes` without the geometry; `thick_square_moving_init_func`
ignores `x0` for the middle edges; the initial material energy in the sphere mixes the Chebyshev rule with
Legendre functions.
* C109: on a finite domain `mesh.move` keeps what it decided at the final time, so a call there (the
  trial stages of the last step) changes the answers to later calls at earlier times.
* C111: with a non-constant opacity the active right-hand side still absorbs at rate one
  (rhs_class_1.py 338; the vector of `make_vectors` is not used), and scatters with `sigma_s` squared
  times a vector built from Legendre triple products and moments that are summed with the Chebyshev
  rule. At order zero the factor is `(W/2)(Σ w σ/2)`, `W` the sum of the weights (π), against one.
* C112: in the sphere, a point pulse with uncollided treatment is never emitted: the initial state is zero
  and the branch of `make_source` that would add it is commented out (sources.py 139-143).  A shell with
  uncollided treatment is scaled by the strength in `uncollided_solution` and again in `make_source`.
* C113: with uncollided treatment `solve` ends with an error after the integration: `get_exit_dist` adds
  the uncollided flux at the output points to an array of length two (make_phi.py 109-111).  It succeeds
  for one or two output points only, and then adds the flux at these points, not at the edges.
* C113: with `eval_times` and the points of `solve`, `find_nodes(edges, M)` lacks its argument `geometry`
  (main_functions.py 262).
* C113: the reported scalar flux uses the weights of `quadrature`, the equations use weights divided by
  their sum (build_problem.py 103).
* C114: `quadrature(n, 'gauss_lobatto')` has only zero weights for `n = 2`, and for `n = 1`: the outer weights
  are written inside the loop over the inner points (functions.py 645-649).
* C114: Gauss-Lobatto weights are not proportional to the angular cells, so that (C16) redistribution in
  angle does not conserve the counted particles with any such set of 3 to 40 directions.
* C115: `_interp1d` reads one entry behind the arrays (mesh_functions.py 101-103); the result is wrong only when that entry equals the time.
* C116: `thick_square_moving_init_func` does not set `edges0` (and mesh.py 858 is commented out), so that the wave-following mesh collapses to the origin at time zero and its edges within the source coincide from then on.
* C116: `middle = 0.5 * thick_quad` (mesh.py 657) puts the edges within the source into `[-1/2, 1/2]` for every source; for narrower sources the constructed mesh is out of order.
* C117: `left_found = right_found = True` (wave_loc_estimator.py 117-118) switches both searches off. With `find_wave_loc` the run ends with an error anyway: `find_nodes` and `make_output` are called without their last argument (94, 101, 110).
* C119: the redistribution term is a centred difference in the direction cosine (functions.py 575-603 `finite_diff_uneven`). Even with one constant per shell and upwind fluxes the scheme makes nonnegative intensities negative in pure absorbers and in thin central shells: with two directions and `N` equal shells up to radius 1/2 positivity holds exactly for scattering ratios of at least `3 N`.
* C120: `save_RMS` writes to `moving_mesh_transport/local_run_data/…_RMS.h5`, `load_RMS_data` reads `moving_mesh_transport/…_RMS.h5` and `make_RMS_file` creates files with yet other names, so saved tables are never plotted. Tables over orders are filed under `int(tfinal)`, so the tables of times 1 and 1.25 share one dataset, and the name has no number of cells. Tables of time 31.6228 are filed under `t=31` but looked up under `t=31.6228`. (Both calls of the savers in solver.py are commented out.)
* C121: `save_output` and `load_bench` take the entry of `source_type` closest to one. The drivers `boundary_source` (all zeros) and `dipole` (`[2,0,…]`) are saved as `plane_IC` and `self_sim_plane` (`[3,0,…]`) as `square_IC`; they overwrite and are loaded as runs of those sources.
* C122: `All = True` never calls `get_results`, so the object shows stale results; `square_source(All=True)` on a new object fails after four runs; `r_times` accumulates over the four runs.
* C124 (shell source π/2 too strong): In sphere `solve` takes `quadrature(6*M+1, 'chebyshev')`, whose weights are for the weight function 1/√(1−x²), and `integrate_quad_sphere` multiplies by √(1−x²) of the node. The sum is not exact for polynomials: with M = 0 (one node) it is π/2 times the midpoint value, on every mesh, so the collided particles of the shell problem converge to π/2 times the right number as the mesh is refined; for M ≥ 1 it is still strictly too large for a constant.
* C125: in the default input files every method is an explicit Runge-Kutta method (`DOP853`, `RK45`); with `move_type` and meshes of C109 that remember earlier requests rejected steps do leave a trace (`c109_finite_domain_depends_on_history`).
* C126: the unknowns are scaled by the square root of the cell width, so on a growing mesh the integrator has to follow the factor (R0+vt)^(-5/2) that only comes from the mesh; RK23 loses particles and RK45 makes particles in every step although the equations conserve them.
* C127: no loss of order on the moving sphere mesh when no source is in force: 5 for RK45, 3 for RK23, also between the steps for RK45; both orders are attained by the particle number of a scattering pulse.
* C128: `solve` never looks at `sol.status`. Without `estimate_wavespeed` an integration that gives up ends in an error by accident (`sol.y` is an empty list); with it, the state of an earlier time is returned as the result at `tfinal`, on the mesh of `tfinal`.
* C129: in slab geometry `solve` integrates `y' = y`: the array that the right-hand side returns is a copy of its argument and is written only for the sphere. The reported flux grows like `e^t`, independent of opacities and sources; a source alone gives zero.
* C130: no contradiction found; the bound shows that the reported flux is scaled by the sum of the weights of `quadrature` (C113), the equations by normalised weights.
* C131: no contradiction found; the scheme integrates its equations accurately, but their scattering term mixes Legendre moments with Chebyshev coefficients (C111).
* C132: in a finite domain the mesh jumps to linspace(-D/2, D/2, N+1) at the final time and stays there. Slab pulses are reported on [-D/4, D/4] whatever their width; sphere shells get negative radii.
* C133: the redistribution formula is consistent with uniform radiation only for equally spaced directions. With Gauss directions the equations in radius have no smooth solution that is isotropic and not zero at the centre.
- `find_wave_loc=True` cannot work: `build` is a numba class whose `sigma_t` is a `float64`, and `find_wave.__init__` (wave_loc_estimator.py 30) takes `sigma[0]` (C136).
- `save_wave_loc=True` returns lists with a single zero: nothing calls `derivative_saver` of `rhs_class_1` (C136).
- `eval_times=True` with `choose_xs=False` fails (C136).
- `moving_gaussian_shock` is larger than 1 to the left of `x = -5` and grows along rays for negative directions; no opacity setting of the program belongs to it (C137).
- `load_RMS_data` sets `energy_RMS` for Su-Olson names only, but `find_c` and `find_c_semilog` always use it, so the convergence plots with order triangles of all transport problems fail (C138).
- `plot_RMS_vs_cells` at `tfinal` 100 slices `RMS` but not `energy_RMS`, so the fit fails, and it shows the flux errors for the energy names (C138).
- `plot_RMS_vs_Ms` assigns a number to `plt.ylim`; later calls of `plt.ylim` fail (C138).
- `find_c_semilog` judges the fit of the flux errors by the correlation of the energy errors (C138).
- The statement of `ErrorAtMost` in C130, C134 and C135 once let the flux be any function that agrees with the reported values at the reported points; it is now the flux of the returned coefficients, `resultFlux`.
- `test_finite_diff` applies the factor 1-x^2 twice and fails for every number of Gauss-Lobatto points (C140).
- `square_source` with several half widths in `x0` fails after all its runs have been made, at `self.x0 == 2.5` (C122).
- `LU_surf_func` (functions.py 160-188, replaced) scales the neighbour's state with the own cell's width: particles appear or vanish between cells of unequal width (`c142_created`, `c142_half_lost`).
- `make_phi` of functions.py continues the outermost cells outside the mesh (`c142_output_right`, `c142_output_left`).
- The second S2 source of functions.py 368-398 is zero while the source is on and later forgets its far end (`c142_s2_on`).
- `problem_identifier` compares with `==` where it should assign, and fails if none of the first five sources is on (`c142_names`).
- Runs with Gaussian sources at position 5 all save under the first width (`c57_width`).
- The dipole start gets weaker as the mesh is refined, and divides by zero on moving meshes and with odd numbers of cells (`c143_dipole_moment`, `c143_dipole_width`).
- The self-similar start holds 2 sqrt(2) particles, its benchmark one (`c143_self_similar`).
- The uncollided flux of a point pulse in a sphere is nonzero only in a shell of width 2e-10 and holds only 2e-10/t of the particles (`c144_content`).
- At the shock the moving opacity counts the values of both sides (`c90_front`).
- `wavespeed_estimator` (call commented out) gives two thirds of the speed of any falling wave, because index -1 is the last point (`c145_two_thirds`).
- `thick_square_init_func` calls `self.set_func`, which does not exist, except with 4 or 5 cells, where its edges are out of order (`c145_thick_square`).
- `smooth_wave_loc_array` puts an outgoing wave one time ahead (`c145_ahead`).
- `find_edge` (never called) goes on at the right end when it finds nothing to the left (`c146_wraps`), and fails when it finds nothing to the right (`c146_runs_out`); the bounds for both searches are commented out.
- With one cell the arrays of `boundary_source_init_func_outside` have different sizes and numpy stretches one (`c146_one_cell`); `Model/Mesh` treats the method of the class as failing there.
- `mesh_old.py` 209 has 6 where 210 and 211 have 8, so that the thick mesh for square sources is not symmetric (`c147_not_symmetric`).
- `derivative_saver` looks for the largest derivative among the energies (rhs_class_1.py 169), so it does not find the heat front (`c147_saver_wrong`); nothing calls it.
- `test_ortho_Tn_gauss_quad` draws random cells and then sets them to [0, 1] (test_functions.py 117-118); the statement holds for all cells (`c148_gauss_quad`).
- `thick_square_moving_func` (mesh_functions.py 67-69) takes the speed of the interval after the one the time is in (`c149_next_interval`); nothing calls it.
- `chebyshev_matrix_builder.py` uses `math` (35, 60, 91) without importing it: `make_mass`, `make_J` and `make_G` raise a NameError; nothing imports the file.

## Not modelled

* floating point behaviour, performance, plotting, `plots/`, `scripts/`
* the contents of the HDF5 files with the coefficients of the sphere mass, J and L matrices (not in
  the repository; a parameter in C105 and C106, which prove that suitable contents exist)
* how the time integrator chooses the lengths of its steps (any accepted and rejected steps are allowed
  from C125 on) and its implicit methods; existence and smoothness of the exact solution in C88, C89,
  C107, C108, C118 and C130 (C133 shows that smoothness is a real restriction with Gauss directions);
  convergence of the angular discretisation
* YAML parsing, HDF5 on-disk format
