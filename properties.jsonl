{"id": "C01", "title": "Slab basis is orthonormal on every cell", "statement": "The slab basis functions the package evaluates on a cell [a,b] with a<b are orthonormal: the integral over the cell of the product of basis functions n and m is 1 when n=m and 0 otherwise.", "quantifier": "all orders n and m (no upper bound) and all cells a<b", "why_tests_cant": "Orders and cell edges are unbounded; tests integrate a few orders on a few cells by numerical quadrature.", "anchors": ["moving_mesh_transport/solver_classes/functions.py:normPn", "moving_mesh_transport/solver_classes/functions.py:normPn_scalar"]}
{"id": "C02", "title": "Edge values used by the flux are the basis evaluated at the cell edges", "statement": "For a cell [xL,xR], the pair of left/right edge values handed to the numerical flux for basis function i equals that basis function evaluated at xL and at xR, in slab geometry for every i and in sphere geometry for every i the basis table supports.", "quantifier": "all cells, all basis indices, both geometries", "why_tests_cant": "Wrong signs for odd orders or a wrong normalisation only show up as a slow loss of convergence; an infinite family of cells and orders.", "anchors": ["moving_mesh_transport/solver_classes/numerical_flux.py:LU_surf.B_LR_func", "moving_mesh_transport/solver_classes/functions.py:normPn", "moving_mesh_transport/solver_classes/functions.py:normTn", "moving_mesh_transport/solver_classes/functions.py:surf_func"]}
{"id": "C03", "title": "Tabulated Chebyshev polynomials are the Chebyshev polynomials", "statement": "For every n from 0 to 12 and every real x the tabulated evaluation equals T_n(x) (so T_n(cos θ)=cos nθ); for n greater than 12 the call fails instead of returning a value.", "quantifier": "all n and all real x", "why_tests_cant": "Polynomial identity over the reals; tests only sample points.", "anchors": ["moving_mesh_transport/solver_classes/functions.py:eval_Tn"]}
{"id": "C04", "title": "Slab streaming matrix is the exact Galerkin integral", "statement": "The slab streaming matrix built for a cell equals, entry by entry, the integral over the cell of (derivative of basis i) times (basis j).", "quantifier": "every polynomial order M, every i,j ≤ M, every cell xL<xR", "why_tests_cant": "Infinite family of orders and cells; tests compare a few low-order entries.", "anchors": ["moving_mesh_transport/solver_classes/matrices.py:G_L.__init__", "moving_mesh_transport/solver_classes/matrices.py:G_L.make_L_slab"]}
{"id": "C05", "title": "Slab mesh-motion matrix is the exact Galerkin integral", "statement": "When the cell edges move with velocities dxL and dxR, the slab mesh-motion matrix equals, entry by entry, the integral over the cell of (time derivative at fixed x of basis i) times (basis j).", "quantifier": "every order M, every i,j ≤ M, every cell xL<xR and every pair of edge velocities", "why_tests_cant": "Continuum of geometries and velocities and unbounded order.", "anchors": ["moving_mesh_transport/solver_classes/matrices.py:G_L.make_G_slab"]}
{"id": "C06", "title": "Uniform fields are preserved on any moving slab mesh", "statement": "If the angular flux is the same constant in every cell (and on the boundary side), the streaming, mesh-motion and numerical flux parts of the slab right-hand side together leave that constant field unchanged: the physical field reconstructed from the coefficients has zero rate of change, whatever the mesh velocities.", "quantifier": "every constant, every M, every angle cosine, every interior cell and every choice of edge positions and velocities", "why_tests_cant": "The geometric conservation law must hold for every mesh motion; a test can only try a few.", "anchors": ["moving_mesh_transport/solver_classes/rhs_class.py:rhs_class.call", "moving_mesh_transport/solver_classes/numerical_flux.py:LU_surf.make_LU", "moving_mesh_transport/solver_classes/matrices.py:G_L.make_G_slab", "moving_mesh_transport/solver_classes/matrices.py:G_L.make_L_slab"]}
{"id": "C07", "title": "Numerical flux is single valued, so transport between cells conserves particles", "statement": "The flux leaving a cell through its right edge equals the flux entering the next cell through its left edge, so that the sum over cells of the rate of change of the particle content caused by streaming and mesh motion equals inflow minus outflow at the two outer edges.", "quantifier": "all numbers of cells, all coefficients, all mesh positions and velocities, all angles", "why_tests_cant": "Conservation is an identity over all states; a run can only show approximate balance for one state.", "anchors": ["moving_mesh_transport/solver_classes/numerical_flux.py:LU_surf.make_LU", "moving_mesh_transport/solver_classes/numerical_flux.py:LU_surf.make_sol", "moving_mesh_transport/solver_classes/numerical_flux.py:LU_surf.make_h"]}
{"id": "C08", "title": "Upwinding always takes the state from the side the characteristic comes from", "statement": "At each edge the state used is the one on the left of the edge when the particle velocity relative to the moving edge is positive and the one on the right when it is negative; at zero relative velocity the edge contributes nothing.", "quantifier": "all angles, edge velocities, coefficients, cell indices and geometries", "why_tests_cant": "Sign conditions on a continuum of speeds; the boundary cases are measure zero for tests.", "anchors": ["moving_mesh_transport/solver_classes/numerical_flux.py:LU_surf.make_LU"]}
{"id": "C09", "title": "With no boundary source nothing enters from outside", "statement": "When no boundary source is active, the state used for inflow at the left edge of the first slab cell and at the right edge of the last cell is zero.", "quantifier": "all times, states, meshes and angles in configurations without an active boundary source", "why_tests_cant": "Needs all states and schedules of calls on a shared mutable flux object.", "anchors": ["moving_mesh_transport/solver_classes/numerical_flux.py:LU_surf.make_sol", "moving_mesh_transport/solver_classes/numerical_flux.py:LU_surf.is_boundary_source_on"]}
{"id": "C10", "title": "Angular weights used in the solve sum to one", "statement": "Whatever quadrature rule supplies raw weights with non-zero sum, the weights used for scattering in the solve sum to one and keep the signs and ratios of the raw weights when the raw sum is positive.", "quantifier": "all finite weight lists with non-zero (positive) sum", "why_tests_cant": "All lengths and values.", "anchors": ["moving_mesh_transport/solver_classes/build_problem.py:build.__init__"]}
{"id": "C11", "title": "Isotropic scattering conserves particles up to absorption", "statement": "Summed with the angular weights, the collision terms of the transport right-hand side change the scalar flux by exactly (c-1) times the scalar flux: no change when the scattering ratio is one, a loss when it is below one and the scalar flux is positive.", "quantifier": "all numbers of angles, coefficients, weights summing to one and scattering ratios", "why_tests_cant": "Linear identity over all states.", "anchors": ["moving_mesh_transport/solver_classes/rhs_class.py:rhs_class.call", "moving_mesh_transport/solver_classes/rhs_class_1.py:rhs_class.call", "moving_mesh_transport/solver_classes/phi_class.py:scalar_flux.make_P"]}
{"id": "C12", "title": "Radiation and material energy exchange balance", "statement": "In the coupled slab radiative-transfer right-hand side without external source and with scattering plus absorption fractions summing to one, the energy gained by the material from exchange equals the energy lost by the radiation (twice the weighted angular sum).", "quantifier": "all states, opacities, scale lengths l ≠ 0, numbers of angles", "why_tests_cant": "Identity over all states.", "anchors": ["moving_mesh_transport/solver_classes/rhs_class.py:rhs_class.call"]}
{"id": "C13", "title": "The active right-hand side advances slab problems with the transport operator", "statement": "In slab geometry the right-hand side handed to the time integrator equals the discrete transport operator (streaming + mesh motion - flux - collision + scattering + source) applied to the state.", "quantifier": "all states, times and slab configurations", "why_tests_cant": "Must hold for every state; in the code a missing branch is silent.", "anchors": ["moving_mesh_transport/solver_classes/rhs_class_1.py:rhs_class.call", "moving_mesh_transport/solver_functions/main_functions.py:solve"]}
{"id": "C14", "title": "The transport right-hand side is linear and local", "statement": "Without external sources the transport right-hand side is a linear function of the state, and the rate in a cell depends only on the state in that cell and its two neighbours.", "quantifier": "all states, all cells, all scalars", "why_tests_cant": "Quantifies over all pairs of states.", "anchors": ["moving_mesh_transport/solver_classes/rhs_class.py:rhs_class.call", "moving_mesh_transport/solver_classes/rhs_class_1.py:rhs_class.call", "moving_mesh_transport/solver_classes/numerical_flux.py:LU_surf.make_sol"]}
{"id": "C15", "title": "Angular redistribution in the sphere telescopes", "statement": "Summed with the widths of the angular cells implied by the direction set, the discrete angular derivative of (1-μ²)ψ is zero, so that angular redistribution neither creates nor destroys particles in that sum.", "quantifier": "all numbers of directions ≥ 2, all increasing direction sets, all ψ", "why_tests_cant": "All direction sets and all states.", "anchors": ["moving_mesh_transport/solver_classes/functions.py:finite_diff_uneven", "moving_mesh_transport/solver_classes/rhs_class_1.py:rhs_class.call"]}
{"id": "C16", "title": "Angular redistribution conserves the particles the solver counts", "statement": "Summed with the quadrature weights that the solver uses for the scalar flux, the discrete angular derivative is zero for every ψ.", "quantifier": "all direction sets and matching weights produced by the quadrature routine, all ψ", "why_tests_cant": "All states; the failure is a slow drift.", "anchors": ["moving_mesh_transport/solver_classes/functions.py:finite_diff_uneven", "moving_mesh_transport/solver_classes/functions.py:quadrature", "moving_mesh_transport/solver_classes/rhs_class_1.py:rhs_class.call", "moving_mesh_transport/solver_classes/build_problem.py:build.__init__"]}
{"id": "C17", "title": "Sphere mesh-motion matrix table is the exact Galerkin integral", "statement": "For every pair of basis indices up to 10 the tabulated mesh-motion entry equals π times the integral over the cell of r² times (time derivative at fixed r of basis i) times (basis j).", "quantifier": "all i,j in 0..10, all cells a<b, all edge velocities", "why_tests_cant": "Rational functions of four real variables; a typo in one of 121 entries is invisible to a test at one point with 1e-5 tolerance and M=3.", "anchors": ["moving_mesh_transport/solver_classes/GMAT_sphere.py:GMatrix", "moving_mesh_transport/solver_classes/matrices.py:G_L.make_G_sphere", "moving_mesh_transport/solver_classes/functions.py:normTn"]}
{"id": "C18", "title": "Sphere mass-derivative table is the time derivative of the mass matrix", "statement": "For every pair of basis indices up to 10 the tabulated entry equals π times the time derivative of the integral over the moving cell of r² times basis i times basis j.", "quantifier": "all i,j in 0..10, all cells a<b, all edge velocities", "why_tests_cant": "Polynomial identity in four real variables per entry.", "anchors": ["moving_mesh_transport/solver_classes/GMAT_sphere.py:MPRIME", "moving_mesh_transport/solver_classes/matrices.py:G_L.make_MPRIME", "moving_mesh_transport/solver_classes/functions.py:normTn"]}
{"id": "C19", "title": "Reflecting centre uses the opposite direction", "statement": "At the innermost cell in sphere geometry the inflow for an outgoing direction is taken from the direction with opposite cosine, and a direction set that is not symmetric about zero is rejected.", "quantifier": "all direction sets and states", "why_tests_cant": "Index arithmetic over all sizes including odd ones.", "anchors": ["moving_mesh_transport/solver_classes/rhs_class_1.py:rhs_class.call", "moving_mesh_transport/solver_classes/numerical_flux.py:LU_surf.make_sol"]}
{"id": "C20", "title": "Uniform isotropic radiation is an equilibrium of the spherical operator", "statement": "For an angularly and spatially uniform flux on a static mesh the discrete angular derivative cancels the radial part, i.e. it equals -2μ ψ for every direction.", "quantifier": "all direction sets, all constants", "why_tests_cant": "All direction sets; the defect is small for fine sets.", "anchors": ["moving_mesh_transport/solver_classes/functions.py:finite_diff_uneven", "moving_mesh_transport/solver_classes/functions.py:angular_deriv"]}
{"id": "C21", "title": "Three point derivative is exact on quadratics", "statement": "On any three distinct increasing points the non-uniform interior difference formula returns the exact derivative of every quadratic polynomial, and the one sided formulas are exact on linear functions.", "quantifier": "all increasing triples and all quadratics", "why_tests_cant": "Continuum of stencils.", "anchors": ["moving_mesh_transport/solver_classes/functions.py:finite_diff_uneven_2", "moving_mesh_transport/solver_classes/functions.py:angular_deriv"]}
{"id": "C22", "title": "A static mesh never moves", "statement": "When the mesh is created with moving switched off, no later sequence of move requests changes any edge, and all edge velocities are zero.", "quantifier": "all configurations with moving off, all finite sequences of move times", "why_tests_cant": "All histories of calls.", "anchors": ["moving_mesh_transport/solver_classes/mesh.py:mesh_class.initialize_mesh", "moving_mesh_transport/solver_classes/mesh.py:mesh_class.move"]}
{"id": "C23", "title": "Mesh positions are a function of time only", "statement": "The edges and velocities after a move request for time t do not depend on which other times were requested before (the ODE integrator asks for times out of order).", "quantifier": "all configurations, all finite histories of move requests", "why_tests_cant": "All histories.", "anchors": ["moving_mesh_transport/solver_classes/mesh.py:mesh_class.move", "moving_mesh_transport/solver_functions/main_functions.py:solve"]}
{"id": "C24", "title": "Mesh edges stay strictly ordered", "statement": "If the edges are strictly increasing when the mesh is created, they are strictly increasing after every move request for a time in [0, tfinal].", "quantifier": "all configurations with finite parameters, all move histories", "why_tests_cant": "Continuum of times and parameters.", "anchors": ["moving_mesh_transport/solver_classes/mesh.py:mesh_class.move", "moving_mesh_transport/solver_classes/mesh.py:mesh_class.simple_moving_init_func", "moving_mesh_transport/solver_classes/mesh.py:mesh_class.thin_square_init_func_legendre", "moving_mesh_transport/solver_classes/mesh.py:mesh_class.shell_source", "moving_mesh_transport/solver_classes/mesh.py:mesh_class.boundary_source_init_func"]}
{"id": "C25", "title": "Reported edge velocities are the time derivative of the edge positions", "statement": "After a move request the velocity array is the derivative with respect to time of the edge positions the mesh would report.", "quantifier": "all moving configurations and all times (away from the switch-over times)", "why_tests_cant": "Derivative statement over all times.", "anchors": ["moving_mesh_transport/solver_classes/mesh.py:mesh_class.move", "moving_mesh_transport/solver_classes/mesh.py:mesh_class.move_middle_edges"]}
{"id": "C26", "title": "The mesh has one more edge than cells", "statement": "Mesh construction yields exactly N_space+1 edges.", "quantifier": "all N_space for every initial mesh constructor", "why_tests_cant": "All N; only particular residues fail.", "anchors": ["moving_mesh_transport/solver_classes/mesh.py:mesh_class.thin_square_init_func_legendre", "moving_mesh_transport/solver_classes/mesh.py:mesh_class.thin_square_init_func", "moving_mesh_transport/solver_classes/mesh.py:mesh_class.shell_source", "moving_mesh_transport/solver_classes/mesh.py:mesh_class.boundary_source_init_func", "moving_mesh_transport/solver_classes/mesh.py:mesh_class.simple_moving_init_func"]}
{"id": "C27", "title": "Slab meshes are symmetric about the origin", "statement": "For the slab square-source mesh and the slab plane-source mesh, edge number k is minus edge number N_space-k and the velocities are antisymmetric in the same way, at every time.", "quantifier": "all N_space (multiple of four for the square mesh), all half widths and speeds, all times", "why_tests_cant": "Continuum of parameters and times.", "anchors": ["moving_mesh_transport/solver_classes/mesh.py:mesh_class.thin_square_init_func_legendre", "moving_mesh_transport/solver_classes/mesh.py:mesh_class.simple_moving_init_func", "moving_mesh_transport/solver_classes/mesh.py:mesh_class.move"]}
{"id": "C28", "title": "Accelerating square-source mesh reaches its target", "statement": "After the source is switched off the edges start from where the constant-velocity phase left them with the same velocity, and at tfinal they are the uniform grid on [-pad,pad].", "quantifier": "all N, all t0<tfinal, all pads", "why_tests_cant": "Continuum of parameters.", "anchors": ["moving_mesh_transport/solver_classes/mesh.py:mesh_class.move_middle_edges", "moving_mesh_transport/solver_classes/mesh.py:mesh_class.move"]}
{"id": "C29", "title": "The plane-source slab mesh starts at its initial edges", "statement": "A move request for time zero puts the edges of a slab plane-source mesh at the positions they had when the mesh was created, a non-degenerate grid.", "quantifier": "all N_space ≥ 1, x0>0, edge speeds", "why_tests_cant": "All parameters.", "anchors": ["moving_mesh_transport/solver_classes/mesh.py:mesh_class.simple_moving_init_func", "moving_mesh_transport/solver_classes/mesh.py:mesh_class.move"]}
{"id": "C30", "title": "Moving mesh covers the light cone of the initial support", "statement": "With edge speed at least one the outermost edges of the moving meshes stay outside the region reachable by particles from the initial support.", "quantifier": "all times and parameters", "why_tests_cant": "Continuum.", "anchors": ["moving_mesh_transport/solver_classes/mesh.py:mesh_class.move", "moving_mesh_transport/solver_classes/mesh.py:mesh_class.shell_source", "moving_mesh_transport/solver_classes/mesh.py:mesh_class.simple_moving_init_func", "moving_mesh_transport/solver_classes/mesh.py:mesh_class.thin_square_init_func_legendre"]}
{"id": "C31", "title": "Boundary-source mesh follows the shock and fixes the outer edges", "statement": "For the boundary-source mesh the outer edges never move, the middle edge is at -v0 t, and edges stay ordered up to tfinal while the shock stays inside the domain.", "quantifier": "all even N, x0, v0, t in [0,tfinal]", "why_tests_cant": "Continuum.", "anchors": ["moving_mesh_transport/solver_classes/mesh.py:mesh_class.boundary_source_init_func", "moving_mesh_transport/solver_classes/mesh_functions.py:boundary_source_init_func_outside"]}
{"id": "C32", "title": "Chebyshev rule is exact", "statement": "The n-point Chebyshev rule returned by the package integrates p(x)/sqrt(1-x²) over [-1,1] exactly for every polynomial p of degree below 2n; its nodes are strictly decreasing in (-1,1) and symmetric, and its weights sum to π.", "quantifier": "all n ≥ 1 and all polynomials of degree < 2n", "why_tests_cant": "All n and all polynomials.", "anchors": ["moving_mesh_transport/solver_classes/functions.py:quadrature"]}
{"id": "C33", "title": "Evaluation nodes lie inside their cells", "statement": "Every evaluation node produced for an edge list lies strictly inside the cell it belongs to, nodes come cell by cell, and there are (number of cells) times (number of quadrature points) of them.", "quantifier": "all increasing edge lists, all quadrature point lists inside (-1,1)", "why_tests_cant": "All meshes.", "anchors": ["moving_mesh_transport/solver_classes/functions.py:find_nodes"]}
{"id": "C34", "title": "Bisection brackets and converges", "statement": "If the end values have different signs, every interval visited keeps a sign change and has half the previous width; the loop terminates for every positive tolerance and the returned point is within the tolerance of a point bracketed by a sign change (a root when f is continuous).", "quantifier": "all functions f, all a<b, all tolerances", "why_tests_cant": "All functions.", "anchors": ["moving_mesh_transport/solver_classes/functions.py:bisection"]}
{"id": "C35", "title": "Newton iteration only stops at an approximate fixed point", "statement": "If the Newton routine returns, the last correction was at most the tolerance; a root of f with non-zero derivative is returned unchanged; the alternative routine newtons2 instead always returns after exactly one correction.", "quantifier": "all f, f', starting points", "why_tests_cant": "All functions.", "anchors": ["moving_mesh_transport/solver_classes/functions.py:newtons", "moving_mesh_transport/solver_classes/functions.py:newtons2"]}
{"id": "C36", "title": "Convergence order estimate recovers the order", "statement": "If errors behave as C x^(-p) at two resolutions then the reported order is p.", "quantifier": "all C>0, p real, distinct positive resolutions", "why_tests_cant": "Continuum.", "anchors": ["moving_mesh_transport/solver_classes/functions.py:convergence"]}
{"id": "C37", "title": "Time steps sum to the elapsed time", "statement": "The list of time steps has one entry fewer than the list of times, its sum is last minus first, and all entries are positive when the times increase.", "quantifier": "all non-empty time lists", "why_tests_cant": "All lengths.", "anchors": ["moving_mesh_transport/solver_functions/main_functions.py:time_step_function"]}
{"id": "C38", "title": "Square-pulse uncollided flux is the free-streaming solution", "statement": "The uncollided scalar flux returned for a square pulse equals, up to a relative factor 1+1e-12/t, exp(-t) times half the measure of directions μ in [-1,1] for which x-μt lies in the pulse.", "quantifier": "all x, all t>0, all half widths x0>0", "why_tests_cant": "Continuum of x and t with five branches.", "anchors": ["moving_mesh_transport/solver_classes/uncollided_solutions.py:uncollided_solution.square_IC_uncollided_solution"]}
{"id": "C39", "title": "Uncollided fluxes respect causality, symmetry and positivity", "statement": "The plane and square uncollided fluxes are zero outside the light cone of their initial support, even in x and never negative.", "quantifier": "all x, t ≥ 0, x0>0, non-negative source strength", "why_tests_cant": "Continuum.", "anchors": ["moving_mesh_transport/solver_classes/uncollided_solutions.py:uncollided_solution.plane_IC_uncollided_solution", "moving_mesh_transport/solver_classes/uncollided_solutions.py:uncollided_solution.square_IC_uncollided_solution", "moving_mesh_transport/solver_classes/functions.py:uncollided_square_s2", "moving_mesh_transport/solver_classes/functions.py:uncollided_su_olson_s2"]}
{"id": "C40", "title": "Square-source uncollided flux is the time integral of square pulses", "statement": "The uncollided scalar flux for a square source that is on until t0 equals the integral over emission times τ from 0 to min(t,t0) of exp(-(t-τ)) times half the measure of directions from which a particle emitted at τ reaches x.", "quantifier": "all x, t>0, x0>0, t0>0", "why_tests_cant": "Continuum with exponential integrals and clamped interval ends.", "anchors": ["moving_mesh_transport/solver_classes/functions.py:uncollided_square_s2", "moving_mesh_transport/solver_classes/functions.py:f1", "moving_mesh_transport/solver_classes/functions.py:f2", "moving_mesh_transport/solver_classes/functions.py:f3"]}
{"id": "C41", "title": "S2 square-source uncollided flux is the two-ray time integral", "statement": "The S2 uncollided flux equals the integral over emission times from 0 to min(t,t0) of half exp(-(t-τ)) times the number of the two S2 rays through x that pass the source at τ.", "quantifier": "all x, t, x0, t0>0", "why_tests_cant": "Continuum; wrong only in one branch.", "anchors": ["moving_mesh_transport/solver_classes/functions.py:uncollided_su_olson_s2", "moving_mesh_transport/solver_classes/functions.py:su_olson_s2_integrand"]}
{"id": "C42", "title": "Uncollided flux is proportional to the source strength", "statement": "Scaling the source strength by a factor scales the uncollided flux by the same factor for every source type.", "quantifier": "all source types, strengths, points, times", "why_tests_cant": "All strengths; strength 1 hides it.", "anchors": ["moving_mesh_transport/solver_classes/uncollided_solutions.py:uncollided_solution.uncollided_solution"]}
{"id": "C43", "title": "Shell uncollided flux counts visible directions", "statement": "The sphere shell-pulse uncollided flux equals exp(-t) times the constant pulse density times 2π times the measure of directions pointing back into the ball, evaluated at the regularised time.", "quantifier": "all r>0, t ≥ 0, x0>0", "why_tests_cant": "Continuum with clamping.", "anchors": ["moving_mesh_transport/solver_classes/uncollided_solutions.py:uncollided_solution.shell_IC_uncollided_solution"]}
{"id": "C44", "title": "Manufactured source makes the manufactured solution exact", "statement": "With scattering ratio one, the manufactured flux exp(-x²/2)/(2(1+t)) satisfies the transport equation with half the manufactured source inside the source region, and matches the initial condition and boundary data used.", "quantifier": "all x in the region, t ≥ 0, μ", "why_tests_cant": "Identity of functions.", "anchors": ["moving_mesh_transport/solver_classes/sources.py:source_class.MMS_source", "moving_mesh_transport/solver_classes/mutables.py:IC_func.MMS_IC", "moving_mesh_transport/solver_classes/numerical_flux.py:LU_surf.BC_func"]}
{"id": "C45", "title": "Emission recovers the material energy in the Su-Olson model", "statement": "In the linearised (Su-Olson) model the emission term a·T⁴ with the sign correction equals the material energy density for every real energy, including negative ones.", "quantifier": "all real energies, positive radiation constants", "why_tests_cant": "All reals.", "anchors": ["moving_mesh_transport/solver_classes/radiative_transfer.py:T_function.su_olson_source", "moving_mesh_transport/solver_classes/radiative_transfer.py:T_function.T_func"]}
{"id": "C46", "title": "Solid sources switch off", "statement": "The square source is one exactly for |x| ≤ x0 and t<t0 and zero otherwise; the gaussian source is zero for t>t0; both are never negative and even in x.", "quantifier": "all x and t", "why_tests_cant": "Continuum.", "anchors": ["moving_mesh_transport/solver_classes/sources.py:source_class.square_source", "moving_mesh_transport/solver_classes/sources.py:source_class.gaussian_source"]}
{"id": "C47", "title": "Opacity moments are those of the current mesh", "statement": "After every update the stored opacity moments of each cell equal the moments of the opacity function at the requested time on the requested edges.", "quantifier": "all sequences of update requests, all opacity functions", "why_tests_cant": "Cache correctness over all histories.", "anchors": ["moving_mesh_transport/solver_classes/opacity.py:sigma_integrator.sigma_moments"]}
{"id": "C48", "title": "Absorption vector depends only on the current state", "statement": "The absorption vector computed for a state is the same however many times it was computed before.", "quantifier": "all states and histories of calls", "why_tests_cant": "All histories.", "anchors": ["moving_mesh_transport/solver_classes/opacity.py:sigma_integrator.make_vectors"]}
{"id": "C49", "title": "Skipped triple products are zero", "statement": "Every triple-product integral of basis functions that the opacity tensor skips is zero.", "quantifier": "all i,j,k", "why_tests_cant": "Unbounded orders.", "anchors": ["moving_mesh_transport/solver_classes/opacity.py:sigma_integrator.create_integral_matrices", "moving_mesh_transport/solver_classes/opacity.py:sigma_integrator.both_even_or_odd"]}
{"id": "C50", "title": "Output looks up the cell containing the point", "statement": "For every evaluation point inside the mesh, the reported flux is the expansion of a cell whose closed interval contains the point; for points outside it is zero apart from the uncollided part.", "quantifier": "all increasing edge lists with at least two edges, all points", "why_tests_cant": "All meshes and points incl. edges.", "anchors": ["moving_mesh_transport/solver_classes/make_phi.py:make_output.make_phi", "moving_mesh_transport/solver_classes/make_phi.py:make_output.make_e"]}
{"id": "C51", "title": "Scalar flux output is the weighted sum of angular flux output", "statement": "The reported scalar flux minus the uncollided part equals the sum over angles of raw weight times reported angular flux at every point.", "quantifier": "all states, weights, points", "why_tests_cant": "All states.", "anchors": ["moving_mesh_transport/solver_classes/make_phi.py:make_output.make_phi"]}
{"id": "C52", "title": "Gaussian elimination solves the system", "statement": "If the elimination meets no zero pivot, the returned vector solves the original system exactly, regardless of row swaps.", "quantifier": "all sizes N and all N by N systems", "why_tests_cant": "All systems.", "anchors": ["moving_mesh_transport/solver_classes/cubic_spline.py:GaussElim", "moving_mesh_transport/solver_classes/cubic_spline.py:BackSub", "moving_mesh_transport/solver_classes/cubic_spline.py:swap_rows"]}
{"id": "C53", "title": "Cubic spline interpolates and is twice continuously differentiable", "statement": "If the coefficient vector solves the assembled system, the piecewise cubic passes through every data point, neighbouring pieces agree in value, first and second derivative at interior knots, and the second derivative vanishes at both ends.", "quantifier": "all numbers of knots n ≥ 1 and all data", "why_tests_cant": "All data.", "anchors": ["moving_mesh_transport/solver_classes/cubic_spline.py:cubic_spline.points", "moving_mesh_transport/solver_classes/cubic_spline.py:cubic_spline.first_deriv", "moving_mesh_transport/solver_classes/cubic_spline.py:cubic_spline.second_deriv", "moving_mesh_transport/solver_classes/cubic_spline.py:cubic_spline.eval_spline"]}
{"id": "C54", "title": "A saved solution can be loaded back", "statement": "After saving a run and then loading with the same problem, source, time, size and switches, the loaded points, flux, angular flux, directions, weights, edges and coefficients are those of the most recent save with these identifiers.", "quantifier": "all histories of saves, all runs", "why_tests_cant": "All histories of writes to a shared file.", "anchors": ["moving_mesh_transport/loading_and_saving/save_output.py:save_output.save_solution", "moving_mesh_transport/loading_and_saving/load_solution.py:load_sol.call_sol"]}
{"id": "C55", "title": "Different runs do not overwrite each other", "statement": "Saving a run does not change what a load returns for a run that differs in polynomial order, number of angles, source or problem type.", "quantifier": "all pairs of runs", "why_tests_cant": "All histories.", "anchors": ["moving_mesh_transport/loading_and_saving/save_output.py:save_output.__init__", "moving_mesh_transport/loading_and_saving/save_output.py:save_output.save_solution"]}
{"id": "C56", "title": "At most one option of an exclusive group is accepted", "statement": "Loading a group of exclusive switches fails when two or more are true, otherwise copies the group unchanged.", "quantifier": "all groups", "why_tests_cant": "All dictionaries.", "anchors": ["moving_mesh_transport/loading_and_saving/load_parameters.py:dictionary_loader"]}
{"id": "C57", "title": "Run lists of unequal length are rejected", "statement": "Parameter loading fails unless the lists of cell counts, angle counts and orders have the same length, and in every accepted configuration every run index below that length selects one entry of each.", "quantifier": "all lists", "why_tests_cant": "All lengths.", "anchors": ["moving_mesh_transport/loading_and_saving/load_parameters.py:parameter_load_class.__init__", "moving_mesh_transport/solver_functions/main_functions.py:parameter_function"]}
{"id": "C58", "title": "Source name used for saving identifies the source", "statement": "Two source type vectors that select different sources are saved under different source names.", "quantifier": "all source type vectors", "why_tests_cant": "All vectors.", "anchors": ["moving_mesh_transport/loading_and_saving/save_output.py:save_output.__init__"]}
{"id": "C59", "title": "Polynomial fields are advected exactly on a moving slab mesh", "statement": "If the angular flux is one polynomial on a cell and its two neighbours, the streaming, mesh-motion and flux terms of the slab right-hand side equal the rate of change of the expansion coefficients of that polynomial advected with the particle velocity, on the moving cell.", "quantifier": "every polynomial representable in the cells, every order, direction, cell and edge motion", "why_tests_cant": "All polynomials, orders, mesh motions; tests see one mesh motion and a combined error.", "anchors": ["moving_mesh_transport/solver_classes/rhs_class.py:rhs_class.call", "moving_mesh_transport/solver_classes/numerical_flux.py:LU_surf.make_LU", "moving_mesh_transport/solver_classes/matrices.py:G_L.make_all_matrices"]}
{"id": "C60", "title": "An active boundary source injects its strength", "statement": "When a boundary source is active at an end of the domain, the state used for inflow through that end equals the configured boundary source strength, for every cell width.", "quantifier": "all strengths, cell widths, orders, quadrature rules exact up to the order, both geometries", "why_tests_cant": "All widths and orders; depends on ghost cell projection being exact.", "anchors": ["moving_mesh_transport/solver_classes/numerical_flux.py:LU_surf.make_sol", "moving_mesh_transport/solver_classes/numerical_flux.py:LU_surf.integrate_quad", "moving_mesh_transport/solver_classes/numerical_flux.py:LU_surf.is_boundary_source_on"]}
{"id": "C61", "title": "Total energy of the coupled slab problem changes only through the ends", "statement": "In the coupled radiative-transfer slab problem without external source, with scattering and absorption fractions summing to one and no boundary source, the sum of material energy and radiation energy over the moving mesh changes only by transport across the two outer edges.", "quantifier": "all states, emission laws, mesh motions, numbers of cells and angles, orders", "why_tests_cant": "All states and mesh motions; combines flux telescoping with exchange balance.", "anchors": ["moving_mesh_transport/solver_classes/rhs_class.py:rhs_class.call", "moving_mesh_transport/solver_classes/numerical_flux.py:LU_surf.make_LU"]}
{"id": "C62", "title": "Particle balance of the spherical solver", "statement": "In sphere geometry the right-hand side handed to the integrator changes the number of particles on the moving mesh (angular sum with the solver weights of the shell integrals of r² times the flux) only by outflow through the outer surface, collisions with the given scattering ratio and the source, when the directions are symmetric, the weights match the angular cells and the centre is at rest; in general the only further terms are the current through the inner surface and the weighted redistribution defect.", "quantifier": "all states, moving meshes, sources, orders up to 10, numbers of cells and directions", "why_tests_cant": "Conservation must hold for every state and every mesh motion, and mixes tables, fluxes, redistribution and reflection.", "anchors": ["moving_mesh_transport/solver_classes/rhs_class_1.py:rhs_class.call", "moving_mesh_transport/solver_classes/numerical_flux.py:LU_surf.make_LU", "moving_mesh_transport/solver_classes/GMAT_sphere.py:GMatrix", "moving_mesh_transport/solver_classes/GMAT_sphere.py:MPRIME"]}
{"id": "C63", "title": "Uniform radiation on a moving spherical mesh", "statement": "With scattering ratio one and no source, the spherical right-hand side keeps a uniform isotropic flux exactly uniform on any moving mesh in a given direction if and only if the discrete redistribution of a uniform flux equals -2μ in that direction.", "quantifier": "all mesh motions, cells not touching the outer surface, orders up to 10, direction sets", "why_tests_cant": "Geometric conservation law for arbitrary edge velocities; a wrong table entry shows only for particular motions.", "anchors": ["moving_mesh_transport/solver_classes/rhs_class_1.py:rhs_class.call", "moving_mesh_transport/solver_classes/GMAT_sphere.py:GMatrix", "moving_mesh_transport/solver_classes/GMAT_sphere.py:MPRIME"]}
{"id": "C64", "title": "Sphere tables satisfy the transport theorem", "statement": "For all indices up to 10 the mesh-motion table plus its transpose plus the edge terms r² r' B_i B_j equals the mass-derivative table.", "quantifier": "all indices up to 10, all cells, all edge velocities", "why_tests_cant": "121 identities between rational functions of four variables.", "anchors": ["moving_mesh_transport/solver_classes/GMAT_sphere.py:GMatrix", "moving_mesh_transport/solver_classes/GMAT_sphere.py:MPRIME"]}
{"id": "C65", "title": "The sphere mass matrix can always be inverted", "statement": "On every cell with distinct edges the matrix of integrals of r² B_i B_j is positive definite, so the inversion in the right-hand side never fails for exact entries, including the cell that touches the centre.", "quantifier": "all cells a<b, all orders", "why_tests_cant": "All cells and orders; near-singular cells are not sampled.", "anchors": ["moving_mesh_transport/solver_classes/rhs_class_1.py:rhs_class.call", "moving_mesh_transport/solver_classes/matrices.py:G_L.make_mass_sphere"]}
{"id": "C66", "title": "Gaussian-pulse uncollided flux is the free-streaming solution", "statement": "The uncollided scalar flux returned for a Gaussian pulse equals, up to a relative factor 1+1e-12/t, source strength times exp(-t) times half the integral over directions of the pulse at the starting point; the integrand used for the Gaussian source is that flux of a pulse emitted at each time. With more than two directions, the flux returned for a Gaussian source converges, with the number of Gauss points for the times of emission, to that of all pulses emitted until min(t,t0); with any rule of non-negative weights it is off by at most 2 min(t,t0) times the distance of that flux from polynomials of the rule's degree.", "quantifier": "all x, all t>0, all widths σ>0", "why_tests_cant": "an identity between a closed form with error functions and an integral over a continuum of directions", "anchors": ["moving_mesh_transport/solver_classes/uncollided_solutions.py:uncollided_solution.gaussian_IC_uncollided_solution", "moving_mesh_transport/solver_classes/uncollided_solutions.py:uncollided_solution.gaussian_source_integrand"]}
{"id": "C67", "title": "S2 Gaussian-source uncollided flux is the two-ray time integral", "statement": "The closed form for the S2 Gaussian source, and the integrand used in its place for wide sources, are those of the integral over emission times from 0 to min(t,t0) of half exp(-(t-τ)) times the sum of the source at the starting points of the two S2 rays through x. With two directions, uncollided_solution returns the strength times that integral for widths up to 5, and for wider sources converges to it with the number of Gauss points.", "quantifier": "all x, t, t0 and all widths σ>0", "why_tests_cant": "the closed form has five error function terms whose agreement with the integral must hold for every argument", "anchors": ["moving_mesh_transport/solver_classes/functions.py:uncollided_s2_gaussian", "moving_mesh_transport/solver_classes/uncollided_solutions.py:uncollided_solution.gaussian_s2_thick_integrand"]}
{"id": "C68", "title": "Plane-source cell moments are those of the plane uncollided flux", "statement": "The value written as first source moment for a moving plane-source mesh is the moment of the plane uncollided flux over the cell, and the moments left at zero are zero, for every cell inside the light cone.", "quantifier": "all times, all cells within [-t,t], all polynomial orders, all x0", "why_tests_cant": "the value uses the parameter x0 where the flux uses a fixed regularisation, which agree for one value of x0 only", "anchors": ["moving_mesh_transport/solver_classes/uncollided_solutions.py:uncollided_solution.plane_IC_uncollided_solution_integrated", "moving_mesh_transport/solver_classes/sources.py:source_class.make_source"]}
{"id": "C69", "title": "Uncollided flux does not depend on earlier calls", "statement": "The uncollided flux returned has one entry per point and depends only on the points, the time and the configuration, not on what was computed before.", "quantifier": "all configurations, all histories of calls", "why_tests_cant": "the result is kept in an attribute that some configurations never overwrite; only a statement over all configurations shows which", "anchors": ["moving_mesh_transport/solver_classes/uncollided_solutions.py:uncollided_solution.uncollided_solution"]}
{"id": "C70", "title": "Source moments do not depend on earlier calls", "statement": "The source vector after make_source at given time and cell is the one a fresh object would give, whatever sequence of calls (other times, other cells) came before.", "quantifier": "all configurations, all finite call sequences, all times and cells", "why_tests_cant": "All call histories.", "anchors": ["moving_mesh_transport/solver_classes/sources.py:source_class.make_source", "moving_mesh_transport/solver_classes/sources.py:source_class.make_source_not_isotropic"]}
{"id": "C71", "title": "Su-Olson emission vector is the material energy vector", "statement": "In the linearised model the emission vector H of a cell equals the coefficients of the material energy in that cell, for every order and cell, including negative energies.", "quantifier": "all coefficient vectors, all cells, all orders, every quadrature exact to degree 2M", "why_tests_cant": "All real vectors, all orders.", "anchors": ["moving_mesh_transport/solver_classes/radiative_transfer.py:T_function.make_H", "moving_mesh_transport/solver_classes/radiative_transfer.py:T_function.make_e"]}
{"id": "C72", "title": "Initial projection reproduces polynomial data", "statement": "If the initial flux is a polynomial of the order of the method inside a cell, make_IC stores its coefficients exactly, in slab and in sphere geometry; the initial material energy field is the constant e_initial.", "quantifier": "all cells, all orders (up to 12 in the sphere), all polynomial data", "why_tests_cant": "Continuum of data and meshes.", "anchors": ["moving_mesh_transport/solver_classes/build_problem.py:build.make_IC", "moving_mesh_transport/solver_classes/build_problem.py:build.integrate_quad", "moving_mesh_transport/solver_classes/build_problem.py:build.integrate_quad_sphere"]}
{"id": "C73", "title": "Initial pulses contain the stated number of particles", "statement": "On a mesh whose cells do not straddle the ends of the pulse, the projected plane, point and spherical pulses contain source_strength particles, and the square pulse 2 x0 source_strength.", "quantifier": "all aligned meshes, orders, strengths and pulse widths", "why_tests_cant": "All meshes.", "anchors": ["moving_mesh_transport/solver_classes/mutables.py:IC_func.function", "moving_mesh_transport/solver_classes/build_problem.py:build.make_IC"]}
{"id": "C74", "title": "Source is proportional to the source strength", "statement": "Multiplying source_strength by k multiplies the source vector by k.", "quantifier": "all configurations, times, cells, factors", "why_tests_cant": "All reals.", "anchors": ["moving_mesh_transport/solver_classes/sources.py:source_class.make_source", "moving_mesh_transport/solver_classes/uncollided_solutions.py:uncollided_solution.uncollided_solution"]}
{"id": "C75", "title": "Uncollided treatment adds the first-collision source", "statement": "With the uncollided treatment the right-hand side receives exactly the moments of c phi / 2, where phi is the uncollided scalar flux and c the scattering ratio.", "quantifier": "all uncollided fluxes, cells, directions, orders", "why_tests_cant": "All functions.", "anchors": ["moving_mesh_transport/solver_classes/sources.py:source_class.make_source", "moving_mesh_transport/solver_classes/rhs_class.py:rhs_class.call", "moving_mesh_transport/solver_classes/rhs_class_1.py:rhs_class.call"]}
{"id": "C76", "title": "A configured volume source is applied", "statement": "While a square source is on, the source vector in every cell inside the source region represents the constant source_strength; this holds in both geometries, and the manufactured source is applied too.", "quantifier": "all cells, times, call histories", "why_tests_cant": "All meshes and histories.", "anchors": ["moving_mesh_transport/solver_classes/sources.py:source_class.make_source"]}
{"id": "C77", "title": "Absorption and scattering vectors are projections of opacity times flux", "statement": "For a non-constant opacity the first absorption vector computed for a cell is, order by order, the integral over the cell of total cross section times projected opacity times angular flux times basis function, and the scattering vector is the same with the scattering cross section and the scalar flux.", "quantifier": "all opacities, meshes, states, orders M and Msigma, all quadrature rules exact to degree 2M+Msigma", "why_tests_cant": "All orders, cells and states; needs the exactness of the triple product tensor.", "anchors": ["moving_mesh_transport/solver_classes/opacity.py:sigma_integrator.make_vectors", "moving_mesh_transport/solver_classes/phi_class.py:scalar_flux.make_P"]}
{"id": "C78", "title": "Exit distribution is the trace of the boundary cells", "statement": "The exit distribution holds for every direction the expansion of the first cell at the left end of the mesh and that of the last cell at the right end, and the exit scalar flux is its angular quadrature plus the uncollided flux at the two ends.", "quantifier": "all increasing meshes, states, weights, sets of output points", "why_tests_cant": "All meshes and states.", "anchors": ["moving_mesh_transport/solver_classes/make_phi.py:make_output.get_exit_dist"]}
{"id": "C79", "title": "Reported energy derivative is the derivative of the expansion", "statement": "Inside every cell the reported derivative of the material energy is the spatial derivative of the expansion of the cell.", "quantifier": "all increasing meshes, coefficients, points, orders up to 11", "why_tests_cant": "All cell widths and points.", "anchors": ["moving_mesh_transport/solver_classes/make_phi.py:make_output.make_e", "moving_mesh_transport/solver_classes/functions.py:dx_normPn"]}
{"id": "C80", "title": "Saved wave positions are the ones later loaded", "statement": "The wave positions written by a run that tracks the wave are the ones read by a later run, with the same problem, source and final time, whose mesh follows the wave.", "quantifier": "all histories of saves, all problem types, all arrays", "why_tests_cant": "All histories of writes and all problem types.", "anchors": ["moving_mesh_transport/loading_and_saving/save_output.py:save_output.save_wave_loc", "moving_mesh_transport/loading_and_saving/load_solution.py:load_sol.call_wavepoints"]}
{"id": "C81", "title": "Square norm of the slab solution is dissipated", "statement": "Without source and with vacuum outside, the weighted square norm of the discrete angular flux decreases at exactly the rate given by the squared jumps at the edges, each times the speed relative to the edge, plus collision losses minus scattering gains; the same rate holds for the difference of two solutions with equal source and boundary data. It holds for any motion of the mesh.", "quantifier": "all orders, cell counts, angular sets, ordered meshes and edge velocities, states", "why_tests_cant": "It is an identity over all states and meshes; a run shows one trajectory with integrator error.", "anchors": ["moving_mesh_transport/solver_classes/rhs_class.py:rhs_class.call", "moving_mesh_transport/solver_classes/numerical_flux.py:LU_surf.make_LU", "moving_mesh_transport/solver_classes/build_problem.py:build"]}
{"id": "C82", "title": "Slab solutions are stable and unique", "statement": "Two exact solutions of the slab equations with the same source and boundary data differ in square norm by at most the initial difference times exp(2 (c-1) t); for a scattering ratio at most one the difference never grows, and equal initial coefficients give equal solutions.", "quantifier": "all trajectories on any interval, all ordered moving meshes, sources, boundary data, scattering ratios >= 0, nonnegative weights with sum one", "why_tests_cant": "Quantifies over all pairs of trajectories.", "anchors": ["moving_mesh_transport/solver_classes/rhs_class.py:rhs_class.call", "moving_mesh_transport/solver_classes/numerical_flux.py:LU_surf.make_LU"]}
{"id": "C83", "title": "Coupled radiation and material with linear emission is stable", "statement": "When emission equals the material energy density and absorption and scattering ratios sum to one, the combined square norm of radiation and material energy of the difference of two solutions decreases at exactly the rate given by jumps, anisotropy and exchange imbalance, so it never grows.", "quantifier": "all trajectories, ordered moving meshes, sources, boundary data, length scales > 0", "why_tests_cant": "Quantifies over all pairs of trajectories.", "anchors": ["moving_mesh_transport/solver_classes/rhs_class.py:rhs_class.call"]}
{"id": "C84", "title": "Residual bound for approximate slab trajectories", "statement": "A trajectory that satisfies the slab equations up to a residual whose square norm is at most R stays within the solution of E' = (2c - 1) E + R of the exact trajectory, where E is the square norm of the difference and E starts at its initial value.", "quantifier": "all pairs of trajectories, residuals, ordered moving meshes, sources, boundary data", "why_tests_cant": "It bounds the effect of any time-integration error; a run has one unknown error.", "anchors": ["moving_mesh_transport/solver_classes/rhs_class.py:rhs_class.call", "moving_mesh_transport/main_functions.py:solve"]}
{"id": "C85", "title": "Slab solver commutes with reflection", "statement": "Reflecting mesh, edge velocities, state and source about x = 0 and then evaluating the slab right-hand side gives the reflection of the right-hand side, for vacuum outside or the same constant boundary source at both ends; hence a symmetric problem keeps a symmetric solution for all time.", "quantifier": "all orders, cell counts, symmetric angular sets, ordered meshes, states, sources; all trajectories", "why_tests_cant": "Symmetry for every state and mesh; runs show it for some data up to rounding.", "anchors": ["moving_mesh_transport/solver_classes/rhs_class.py:rhs_class.call", "moving_mesh_transport/solver_classes/numerical_flux.py:LU_surf.make_LU", "moving_mesh_transport/solver_classes/build_problem.py:build"]}
{"id": "C86", "title": "Piecewise constant slab solutions stay nonnegative and ordered", "statement": "With one coefficient per cell (order 0), nonnegative initial field, source and boundary values give a nonnegative angular flux at all later times; more initial radiation and source give more radiation everywhere; and the field never exceeds a bound that the initial field, the boundary values and the balance of source and absorption respect.", "quantifier": "all cell counts, angles, ordered moving meshes, sources, boundary data; all trajectories, with finitely many switching times", "why_tests_cant": "Positivity for every initial state and mesh motion; a run shows one. For order 1 and above it is false.", "anchors": ["moving_mesh_transport/solver_classes/rhs_class.py:rhs_class.call", "moving_mesh_transport/solver_classes/numerical_flux.py:LU_surf.make_LU"]}
{"id": "C87", "title": "Slab equations are well posed", "statement": "From every initial state the system that the solver hands to solve_ivp has a solution on the whole requested time interval, and only one, although edge velocities, volume source and boundary source may jump at finitely many times.", "quantifier": "all orders, cell counts, angles, initial states, ordered meshes with continuous edges, piecewise continuous velocities and sources", "why_tests_cant": "Existence and uniqueness of the object the time integrator approximates is not observable in a run.", "anchors": ["moving_mesh_transport/solver_classes/rhs_class.py:rhs_class.call", "moving_mesh_transport/main_functions.py:solve", "moving_mesh_transport/solver_classes/numerical_flux.py:LU_surf.is_boundary_source_on"]}
{"id": "C88", "title": "Error of the slab scheme is controlled by the projection error at the edges", "statement": "For an exact solution of the discrete-ordinates equation that is smooth on each cell of the moving mesh (jumps and kinks may sit on edges), a trajectory of the scheme stays as close to the projection of the exact solution as E' = 2(c-1)E + (N+1) A d^2 allows, where d is the projection error at cell edges and A the largest relative speed of particles and edges. The motion of the mesh adds no other error.", "quantifier": "all orders, cell counts, angles, ordered moving meshes, sources, inflow data, exact solutions, trajectories and times", "why_tests_cant": "A convergence study measures a few runs; the bound holds for every solution and mesh motion with explicit constants.", "anchors": ["moving_mesh_transport/solver_classes/rhs_class.py:rhs_class.call", "moving_mesh_transport/solver_classes/matrices.py:G_L.make_G", "moving_mesh_transport/solver_classes/numerical_flux.py:LU_surf.make_LU"]}
{"id": "C89", "title": "The slab scheme converges with order M + 1/2", "statement": "If the exact solution has M+1 bounded space derivatives on every cell, the squared L2 distance between discrete and exact solution exceeds the initial one by at most a constant times h^(2M+1), on any family of moving meshes with cell width at most h and number of cells at most of order 1/h, for scattering ratio at most one.", "quantifier": "all orders M, cell counts, angles, meshes, solutions, trajectories and times", "why_tests_cant": "Order of convergence is a statement about a limit over all meshes.", "anchors": ["moving_mesh_transport/solver_classes/rhs_class.py:rhs_class.call", "moving_mesh_transport/solver_classes/matrices.py:G_L.make_G", "moving_mesh_transport/solver_classes/numerical_flux.py:LU_surf.make_LU"]}
{"id": "C90", "title": "Uncollided flux of the moving shock problem is the attenuated boundary beam", "statement": "The angular and scalar uncollided fluxes used for the boundary problem with a moving shock (`fake_sedov`) equal the particles that entered through the left boundary during the source window, attenuated by the integral of the moving-shock opacity along their path, and vanish where no such particle can be; they solve the transport equation with the same opacity the absorption term uses.", "quantifier": "all shock speeds, half widths, angles, times and positions", "why_tests_cant": "The exponent is a closed form of an integral over a path crossing a moving shock; samples cannot show equality for every path.", "anchors": ["moving_mesh_transport/solver_classes/uncollided_solutions.py:uncollided_solution.fake_sedov", "moving_mesh_transport/solver_classes/uncollided_solutions.py:uncollided_solution.fake_sedov_integrand", "moving_mesh_transport/solver_classes/opacity.py:sigma_integrator.sigma_function"]}
{"id": "C91", "title": "Moving shock benchmark equals the uncollided flux of the solver", "statement": "The benchmark for the moving-shock problem in run_functions gives, for absorption only, the same angular and scalar flux as the uncollided solution of the solver.", "quantifier": "all angles, times, positions, quadrature rules and half widths", "why_tests_cant": "Two formulas with different Heaviside conventions and a hard coded boundary are compared at every point.", "anchors": ["moving_mesh_transport/solver_functions/run_functions.py:run.fake_sedov", "moving_mesh_transport/solver_functions/run_functions.py:run.fake_sedov_benchmark"]}
{"id": "C92", "title": "Steady benchmark for the Gaussian opacity is the attenuated boundary beam", "statement": "The steady benchmark for the absorber with Gaussian opacity is the boundary beam attenuated by the integral of that opacity, summed with the quadrature weights.", "quantifier": "all positions, half widths and quadrature rules", "why_tests_cant": "The optical depth is an integral in closed form with error functions.", "anchors": ["moving_mesh_transport/solver_functions/run_functions.py:run.steady_state_gaussian_benchmark", "moving_mesh_transport/solver_classes/opacity.py:sigma_integrator.sigma_function"]}
{"id": "C93", "title": "Self-similar benchmarks solve the diffusion equation", "statement": "The plane-pulse and dipole benchmarks used to check convergence to diffusion, and the unscaled `benchmarkfull`, solve the diffusion equation (coefficient 1/3 in mean free paths for the first two); the plane pulse contains one particle at all times and the dipole vanishes at the plane of symmetry.", "quantifier": "all speeds, opacities, distances, times and positions", "why_tests_cant": "That a formula solves a differential equation is a statement about derivatives at every point.", "anchors": ["self_similar_diffusion.py:ss_transport", "self_similar_diffusion.py:ss_dipole", "self_similar_diffusion.py:benchmarkfull"]}
{"id": "C94", "title": "Gaussian-start diffusion benchmark", "statement": "The Gaussian-start benchmark solves the diffusion equation, starts from the stated Gaussian, keeps its mass and approaches the self-similar profile at late times.", "quantifier": "all widths, amplitudes, positions and times", "why_tests_cant": "Involves derivatives, integrals over the line and limits.", "anchors": ["self_similar_diffusion.py:gaussian_IC_bench_full", "self_similar_diffusion.py:gaussian_IC_benchmark"]}
{"id": "C95", "title": "Anisotropic part of the diffusion benchmark", "statement": "The anisotropic part decays exponentially with the collision rate from the stated start and carries no scalar flux for any symmetric quadrature rule.", "quantifier": "all positions, widths, angles, times and symmetric rules", "why_tests_cant": "Holds for all quadrature rules and times.", "anchors": ["self_similar_diffusion.py:noniso_part_bench"]}
{"id": "C96", "title": "Order estimate of the diffusion convergence study", "statement": "If the errors are exactly C x^(-p) at distinct sizes, the log-log estimate of the diffusion study is p, wherever the averaging starts. The last error has no influence on the estimate unless the averaging starts at the first point.", "quantifier": "all sampling points, constants, orders and start indices", "why_tests_cant": "Holds for all real orders and sampling points.", "anchors": ["self_similar_diffusion.py:loglog_converge"]}
{"id": "C97", "title": "Benchmark for a scattering ratio below one", "statement": "With `c_scaling`, the benchmark the flux is compared with, c exp(-(1-c)t) times the benchmark for ratio one at (cx, ct), is the solution of the problem with scattering ratio c: it solves the transport equation with ratio c, has the right number of particles and the start of the problem.", "quantifier": "all scattering ratios, times, positions, angles and benchmarks", "why_tests_cant": "Concerns derivatives, integrals over the line and a limit at time zero.", "anchors": ["moving_mesh_transport/solver.py:main_class.main", "moving_mesh_transport/loading_and_saving/load_bench.py:load_bench.__init__"]}
{"id": "C98", "title": "Benchmark is continued by zero", "statement": "At output points beyond the last stored point the benchmark is zero, at all others it is the interpolated benchmark.", "quantifier": "all increasing or symmetric sets of output points and all stored intervals", "why_tests_cant": "Depends on the position of every output point relative to the edge.", "anchors": ["moving_mesh_transport/loading_and_saving/load_bench.py:load_bench.stich_solution", "moving_mesh_transport/loading_and_saving/load_bench.py:load_bench.__call__"]}
{"id": "C99", "title": "Material energy in the results", "statement": "The material energy returned for a coupled problem is the expansion of the energy unknowns at the output points.", "quantifier": "all inputs, states, meshes and output points", "why_tests_cant": "A test of `make_e` does not see that the result is never used.", "anchors": ["moving_mesh_transport/solver_functions/main_functions.py:solve", "moving_mesh_transport/solver_classes/make_phi.py:make_output.make_e", "moving_mesh_transport/loading_and_saving/load_parameters.py:parameter_load_class.__init__"]}
{"id": "C100", "title": "Error against the benchmark", "statement": "A run with benchmarking reports the root mean square of the deviation from the benchmark at the output points.", "quantifier": "all inputs, fluxes and benchmarks", "why_tests_cant": "Holds for all inputs that can be loaded.", "anchors": ["moving_mesh_transport/solver.py:main_class.main"]}
{"id": "C101", "title": "A pure scatterer conserves particles in the active solver", "statement": "If sigma_s = sigma_t and there is no source, the number of particles in the sphere changes only by outflow, whatever the value of sigma_t.", "quantifier": "all opacities, orders, meshes, directions, states", "why_tests_cant": "Tests use unit opacity.", "anchors": ["moving_mesh_transport/solver_classes/rhs_class_1.py:rhs_class.call", "moving_mesh_transport/solver_classes/rhs_class_1.py:rhs_class.__init__"]}
{"id": "C102", "title": "State vector keeps angles, cells and orders apart", "statement": "The vector handed to the integrator, the array the right-hand side works with and the array the output is made from contain the same number for the same angle, cell and order.", "quantifier": "all sizes, with and without material coupling, all states", "why_tests_cant": "Concerns all index triples and sizes.", "anchors": ["moving_mesh_transport/solver_functions/main_functions.py:solve", "moving_mesh_transport/solver_classes/rhs_class_1.py:rhs_class.call"]}
{"id": "C103", "title": "Stability of the sphere scheme", "statement": "In sphere geometry two solutions with the same source and boundary data do not move apart when the scattering ratio is at most one: the weighted square integral of their difference never increases, on every moving mesh.", "quantifier": "all moving meshes from the centre outwards, orders up to 10, direction sets, sources, boundary data and pairs of solutions", "why_tests_cant": "A statement about all pairs of solutions of a system of differential equations; a run shows one solution.", "anchors": ["moving_mesh_transport/solver_classes/rhs_class_1.py:rhs_class.call", "moving_mesh_transport/solver_classes/numerical_flux.py:LU_surf.make_LU"]}
{"id": "C104", "title": "The sphere equations have exactly one solution", "statement": "In sphere geometry the system handed to the time integrator has exactly one solution for every initial state over the whole run, although mesh velocities and sources may jump at finitely many times.", "quantifier": "all moving meshes from the centre outwards with piecewise continuous velocities, orders up to 10, direction sets that pass the program's checks, piecewise continuous sources, initial states and run lengths", "why_tests_cant": "Existence and uniqueness of solutions of a system of differential equations; an integrator returns numbers whether or not they approximate a unique solution.", "anchors": ["moving_mesh_transport/solver_classes/rhs_class_1.py:rhs_class.call", "moving_mesh_transport/solver_functions/main_functions.py:solve"]}
{"id": "C105", "title": "Stored coefficients can give exact sphere matrices on every cell, and three cells decide whether they do", "statement": "The mass, J and L matrices of a sphere cell are computed from one fixed set of stored integer coefficients and denominators. There are stored values for which the matrices equal the Galerkin integrals on every cell, for all edge velocities and after any earlier calls; values that are right on three cells with different ratios of the radii are right on all cells; agreement on two cells (the built-in test uses one) does not suffice.", "quantifier": "all cells with inner radius below outer radius, all edge velocities, orders up to 10, all tables and all histories of calls", "why_tests_cant": "The built-in check compares one cell with printed numbers; the claim is about all cells, and tables that pass on one or two cells can be wrong everywhere else.", "anchors": ["moving_mesh_transport/solver_classes/matrices.py:G_L.make_mass_sphere", "moving_mesh_transport/solver_classes/matrices.py:G_L.make_J_sphere", "moving_mesh_transport/solver_classes/matrices.py:G_L.make_L_sphere", "moving_mesh_transport/solver_classes/matrices.py:G_L.matrix_test", "moving_mesh_transport/solver_classes/functions.py:sqrt_two_mass_func"]}
{"id": "C106", "title": "The table reader loses nothing for orders up to 10", "statement": "The reader finds the coefficients of an entry under a name built by concatenating its two indices. For indices below 11 the name is unique except for one symmetric pair, every admissible set of tables can be stored and is read back unchanged, and files exist that give exact matrices for all orders up to 10. For 21 or more rows two entries with rows of different length share a name and no files give exact matrices.", "quantifier": "all files (sizes, denominators, datasets), all orders up to 10, all cells and histories of calls", "why_tests_cant": "The claim covers all file contents, including sizes for which no files are shipped; the reader has no tests and the files are not part of the sources.", "anchors": ["moving_mesh_transport/solver_functions/Chebyshev_matrix_reader.py:file_reader.__init__"]}
{"id": "C107", "title": "Error of the sphere scheme is controlled by the projection error", "statement": "For an exact solution of the discrete-ordinates equation in spherical symmetry (with the program's angular difference) that is smooth on every shell of the moving mesh, a trajectory of the sphere scheme stays as close to the exact solution as E' = (c(1+k) - 1 + 2 d C/h) E + (N+1) A R^2 e^2 + R (2e/W)^2 allows, where e is the error of the best polynomials on the shells, A the largest speed of particles relative to edges, R the outer radius, W the smallest angular width, d the offset of directions from the middle of their angular cells, h the radius of the innermost shell, and k = 1 for weights equal to half the angular widths.", "quantifier": "all orders up to 10, numbers of shells, direction sets, weights, moving meshes from the centre outwards, sources, exact solutions, trajectories and times", "why_tests_cant": "A convergence study measures a few runs; the bound holds for every solution and mesh motion.", "anchors": ["moving_mesh_transport/solver_classes/rhs_class_1.py:rhs_class.call", "moving_mesh_transport/solver_classes/matrices.py:G_L.make_G", "moving_mesh_transport/solver_classes/numerical_flux.py:LU_surf.make_LU"]}
{"id": "C108", "title": "The sphere scheme converges with order M + 1/2", "statement": "If the exact solution of the discrete-ordinates equation in spherical symmetry has M+1 bounded radial derivatives on every shell, the squared distance between discrete and exact solution is at most a constant, independent of the mesh, times the initial squared distance plus h^(2M+1), on any family of moving meshes with shells of width at most h and number of shells at most of order 1/h.", "quantifier": "all orders up to 10, numbers of shells, direction sets, weights, meshes, solutions, trajectories and times", "why_tests_cant": "Order of convergence is a statement about a limit over all meshes.", "anchors": ["moving_mesh_transport/solver_classes/rhs_class_1.py:rhs_class.call", "moving_mesh_transport/solver_classes/matrices.py:G_L.make_G", "moving_mesh_transport/solver_classes/numerical_flux.py:LU_surf.make_LU"]}
{"id": "C109", "title": "The sphere right-hand side is a function of time and state", "statement": "In sphere geometry, whatever calls the time integrator has made before (times out of order, rejected steps, any states), the array that the right-hand side returns for a time and a state vector is the same as from freshly built objects.", "quantifier": "all arguments of solve, all sequences of earlier calls, all times and states", "why_tests_cant": "Mesh, matrices, flux, source, opacity and scalar flux objects are shared and mutated by every call; a test exercises a few call sequences.", "anchors": ["moving_mesh_transport/solver_classes/rhs_class_1.py:rhs_class.call", "moving_mesh_transport/solver_functions/main_functions.py:solve", "moving_mesh_transport/solver_classes/mesh.py:mesh_class.move", "moving_mesh_transport/solver_classes/matrices.py:G_L.make_all_matrices", "moving_mesh_transport/solver_classes/sources.py:source_class.make_source", "moving_mesh_transport/solver_classes/opacity.py:sigma_integrator.sigma_moments", "moving_mesh_transport/solver_classes/phi_class.py:scalar_flux.make_P", "moving_mesh_transport/solver_classes/numerical_flux.py:LU_surf.make_LU"]}
{"id": "C110", "title": "The sphere program integrates well posed, conservative, stable equations", "statement": "For the point pulse and shell meshes with constant opacity the equations that solve integrates have exactly one solution from every initial state; its particle number is the initial one times exp((sigma_s - 1) t) plus what the source has emitted since, attenuated alike, when the outer edge is at least as fast as every direction; two solutions never drift apart when sigma_s is at most one and no direction lies left of the middle of its angular cell.", "quantifier": "all orders up to 10, numbers of cells, direction sets as named, sources, initial states, times and earlier calls", "why_tests_cant": "Solutions of the differential equations are continuum objects; all initial states and times.", "anchors": ["moving_mesh_transport/solver_classes/rhs_class_1.py:rhs_class.call", "moving_mesh_transport/solver_functions/main_functions.py:solve", "moving_mesh_transport/solver_classes/mesh.py:mesh_class.move", "moving_mesh_transport/solver_classes/matrices.py:G_L.make_all_matrices", "moving_mesh_transport/solver_classes/sources.py:source_class.make_source", "moving_mesh_transport/solver_classes/opacity.py:sigma_integrator.sigma_moments", "moving_mesh_transport/solver_classes/phi_class.py:scalar_flux.make_P", "moving_mesh_transport/solver_classes/numerical_flux.py:LU_surf.make_LU"]}
{"id": "C111", "title": "A pure scatterer with space dependent opacity conserves particles in the sphere solver", "statement": "If sigma_s = sigma_t, the opacity varies in space and there is no source, the number of particles in the sphere changes only by outflow.", "quantifier": "all opacity functions, orders, meshes, directions and states", "why_tests_cant": "All states and opacities.", "anchors": ["moving_mesh_transport/solver_classes/rhs_class_1.py:rhs_class.call", "moving_mesh_transport/solver_functions/main_functions.py:solve", "moving_mesh_transport/solver_classes/opacity.py:sigma_integrator.sigma_moments", "moving_mesh_transport/solver_classes/phi_class.py:scalar_flux.make_P"]}
{"id": "C112", "title": "A sphere run carries the strength asked for", "statement": "For the shell and for the point pulse, solve builds an initial state and integrates equations that have exactly one solution from it, in which the number of particles at time t is source_strength times exp((sigma_s-1) t); with uncollided treatment the collided flux is driven by the uncollided flux of source_strength particles.", "quantifier": "all strengths, orders up to 10, cell numbers, direction sets, times and call histories", "why_tests_cant": "All times and parameters, and equality of the whole run, not of samples.", "anchors": ["moving_mesh_transport/solver_functions/main_functions.py:solve", "moving_mesh_transport/solver_classes/build_problem.py:build.make_IC", "moving_mesh_transport/solver_classes/rhs_class_1.py:rhs_class.call", "moving_mesh_transport/solver_classes/sources.py:source_class.make_source"]}
{"id": "C113", "title": "solve reports the fluxes of the state that was found", "statement": "In the sphere, solve returns the scalar flux, the angular fluxes and the values at both ends of the mesh of the state at each output time, on the mesh of that time, with and without uncollided treatment, for points asked for and for its own points; integrated over the ball the reported flux gives the number of particles in the run.", "quantifier": "all states, output points and times, orders up to 10, direction sets and histories of integrator calls", "why_tests_cant": "All states and all histories of the shared mesh object; the integral is over all radii, not over samples.", "anchors": ["moving_mesh_transport/solver_functions/main_functions.py:solve", "moving_mesh_transport/solver_classes/make_phi.py:make_output.make_phi", "moving_mesh_transport/solver_classes/make_phi.py:make_output.get_exit_dist", "moving_mesh_transport/solver_classes/functions.py:find_nodes"]}
{"id": "C114", "title": "gauss_lobatto returns the Gauss-Lobatto rule", "statement": "quadrature(n,'gauss_lobatto') returns n increasing points from -1 to 1, symmetric about zero, with positive symmetric weights, that integrate every polynomial of degree at most 2n-3 up to an error of the order of the tolerance of its root search; eval_legendre_deriv and eval_second_legendre_deriv are the derivatives of the Legendre polynomials.", "quantifier": "all numbers of points, all polynomials up to the degree, all points x", "why_tests_cant": "All n and all polynomials; the existing test compares a few n with quadpy.", "anchors": ["moving_mesh_transport/solver_classes/functions.py:quadrature", "moving_mesh_transport/solver_classes/functions.py:eval_legendre_deriv", "moving_mesh_transport/solver_classes/functions.py:eval_second_legendre_deriv", "moving_mesh_transport/solver_classes/functions.py:newtons"]}
{"id": "C115", "title": "Stored heat front positions are interpolated", "statement": "_interp1d returns the position on the straight line between the two stored positions around the time asked for, the stored position at a stored time, and continues the last segment after the last time; the looked-up front never moves faster or slower than the stored one.", "quantifier": "all numbers of stored times, all increasing times, all positions, all times asked for", "why_tests_cant": "All tables and all times; the index that runs past the end of an unchecked array shows only for special values of unrelated memory.", "anchors": ["moving_mesh_transport/solver_classes/mesh_functions.py:_interp1d", "moving_mesh_transport/solver_classes/mesh.py:thick_wave_loc_and_deriv_finder", "moving_mesh_transport/solver.py:main"]}
{"id": "C116", "title": "The wave-following mesh surrounds the heat front", "statement": "The thick square source mesh with move_type 1 keeps its edges strictly ordered for every sequence of requested times, keeps three edges at the distances pad around the looked-up front and the last at leader_pad, mirrors the left half, spaces the other outer edges equally, and reports velocities at which its edges really move.", "quantifier": "all numbers of cells, tables, pads, sequences of times", "why_tests_cant": "All histories of requests and all front positions.", "anchors": ["moving_mesh_transport/solver_classes/mesh.py:thick_square_moving_init_func", "moving_mesh_transport/solver_classes/mesh.py:thick_wave_loc_and_deriv_finder", "moving_mesh_transport/solver_classes/mesh.py:thick_square_moving_func_2", "moving_mesh_transport/solver_classes/mesh.py:move"]}
{"id": "C117", "title": "Heat front estimates follow the solution", "statement": "find_T_wave returns the distance from the origin of the point where the material energy falls most steeply; find_wave_bounds returns the interval in which the solution changes.", "quantifier": "all arrays of points and derivatives, all source types and opacities", "why_tests_cant": "All solutions.", "anchors": ["moving_mesh_transport/solver_functions/wave_loc_estimator.py:find_T_wave", "moving_mesh_transport/solver_functions/wave_loc_estimator.py:find_wave_bounds"]}
{"id": "C118", "title": "The sphere solver converges to the solution of the transport equation", "statement": "In a sphere every exact-in-time run of the composed right-hand side stays within a distance of the solution of the discrete-ordinates transport equation that depends on the initial distance, the widths of the shells, the derivatives of the solution and the time; started from the projection on N equal shells with degree M the squared distance is at most a constant times N^-(2M+1).", "quantifier": "all problems without source, all polynomial degrees up to 10, all meshes moving at constant velocities, all numbers of shells and directions, all histories of calls, all solutions of the transport equation with M+1 derivatives", "why_tests_cant": "Tests compare a few runs with tabulated benchmarks; the rate is a statement about all refinements.", "anchors": ["moving_mesh_transport/solver_classes/rhs_class_1.py:175-366", "moving_mesh_transport/solver_classes/mesh.py:70-260", "moving_mesh_transport/solver_functions/main_functions.py:100-330"]}
{"id": "C119", "title": "Intensities stay nonnegative with one constant per shell", "statement": "For M = 0 in a sphere with constant opacity and without boundary source, runs from nonnegative intensities stay nonnegative if in every shell and for every direction but the last the scattering ratio times the weight of the next direction is at least the rate at which the redistribution term subtracts the next direction; if this fails somewhere, the run from a state in that next direction alone has a negative intensity at once. It fails for every pure absorber and for every central shell that is thin enough.", "quantifier": "all meshes moving at constant velocities, all direction sets, all nonnegative weights, scattering ratios and initial states, shell source or no source, all histories of calls", "why_tests_cant": "All initial states and all times; a failing state needs a single direction filled, which no benchmark has.", "anchors": ["moving_mesh_transport/solver_classes/rhs_class_1.py:175-366", "moving_mesh_transport/solver_classes/functions.py:575-603"]}
{"id": "C120", "title": "What becomes of saved tables of errors", "statement": "A table of errors saved by save_RMS or save_RMS_P1_su_olson is found in the file it was saved to by the reading code of the plotter, when asked for under its own source, time, order and kind, with the values saved (in single precision), whatever other tables were saved since. But the plotter opens files in another folder, so no saved table ever changes what it loads; final times other than 1, 5, 10, 1.25, 0.8333 and 31.6228 are dropped in silence; tables over orders at times 1 and 1.25 overwrite each other; tables of time 31.6228 are filed under 31. A list with neither one entry nor one per number of cells makes the save fail. The errors of the energy density are loaded for exactly the thick Gaussian and Su-Olson problems with 2 or 8 directions and six further names.", "quantifier": "all tables, all histories of saves, all contents of the files, all queries", "why_tests_cant": "The repository has no test of these functions; which tables collide is a statement about all pairs of runs.", "anchors": ["moving_mesh_transport/loading_and_saving/save_output.py:13-154", "moving_mesh_transport/plots/make_plots.py:26-167"]}
{"id": "C121", "title": "Names of sources in saved runs and benchmarks", "statement": "The name under which a run is saved and the benchmark it is compared with stand at the first position of source_type whose entry is closest to one. For the six sources with a one at their own position this is their own name. The boundary-source and dipole drivers are saved as plane pulses and the self-similar driver as a square pulse although they start from other states, and such a run is what a load of a plane pulse returns. The two-direction benchmarks are selected for exactly four kinds of problem, each with its own material dataset.", "quantifier": "all source_type lists, all cross sections and widths, all histories of saves", "why_tests_cant": "The repository has no test of these functions; the statement covers all lists.", "anchors": ["moving_mesh_transport/loading_and_saving/save_output.py:41-44", "moving_mesh_transport/loading_and_saving/load_bench.py:44-72", "moving_mesh_transport/solver_functions/main_functions.py:56-76", "moving_mesh_transport/misc_functions.py:3-17", "moving_mesh_transport/input_scripts/transport.yaml:30-120"]}
{"id": "C122", "title": "What a run object shows", "statement": "After an ordinary call of a method of run, whatever was called before on the object, the results shown are those of the last entry of N_angles with the switches of that call, and the times are averages over the repetitions; main fails exactly when some solve fails. A call with All = True makes four runs and shows none of them (the object keeps the results of an earlier call), its times are sums over the four runs, and square_source(All = True) fails on a new object. square_source with several entries in x0 fails after its runs.", "quantifier": "all sequences of calls on one object, all numbers of repetitions and entries, all outcomes of solve, all measured times", "why_tests_cant": "A property of all sequences of calls; the repository has no test of the class.", "anchors": ["moving_mesh_transport/solver_functions/run_functions.py:39-303", "moving_mesh_transport/solver.py:104-230"]}
{"id": "C123", "title": "Sphere runs superpose and scale with the strengths", "statement": "If V and W are runs of the same sphere problem with strengths (s1, b1) and (s2, b2) of source and boundary, xV + yW is a run with boundary strength x b1 + y b2 and a source strength whose square is x s1^2 + y s2^2 (any source strength when no uncollided source is asked). Hence the difference of two runs of one problem is a run with both strengths zero, a run whose initial state and boundary strength and square of the source strength are x times those of another is x times the other at all times, and for one constant per shell with enough scattering two runs started in order stay in order.", "quantifier": "all sphere problems of the setup, all meshes, orders, directions, cross sections, strengths, times and initial states", "why_tests_cant": "Relates infinitely many pairs of runs; tests compare single runs with tables.", "anchors": ["moving_mesh_transport/solver_classes/rhs_class.py:120-365", "moving_mesh_transport/solver_classes/sources.py:75-240", "moving_mesh_transport/solver_classes/phi_class.py", "moving_mesh_transport/solver_classes/numerical_flux.py", "moving_mesh_transport/solver_functions/main_functions.py:100-330"]}
{"id": "C124", "title": "The shell source in sphere is integrated with the wrong weights, and refining the mesh does not help", "statement": "Two runs of one sphere problem whose sources differ by the moments of a function f differ, in square norm, by at most what they differ at the start plus the time integral of the square norm of f, times exp(2 sigma_s t). The run with the exactly integrated source of uncollided particles exists. With one constant per shell (M = 0) and the quadrature that solve uses, the distance of the program's run from pi/2 times the exact-source run is bounded by the widths of the shells and tends to zero with them; so on fine meshes the program makes at least 3/2 of the particles it should, as long as nothing leaves the mesh. For every order M the program's first source moment is strictly larger than the exact one in each shell inside the part of the ball not yet reached by its edge.", "quantifier": "all sphere problems of the setup with the shell source, all meshes, directions, cross sections, strengths, radii and times; the limit is uniform over all meshes with the same data and radius bound", "why_tests_cant": "The error is a factor that does not go away under refinement, so comparing two meshes shows nothing; the claim is a limit over all meshes.", "anchors": ["moving_mesh_transport/solver_functions/main_functions.py:117-120", "moving_mesh_transport/solver_classes/sources.py:83-86", "moving_mesh_transport/solver_classes/sources.py:150-180", "moving_mesh_transport/solver_classes/uncollided_solutions.py:231-238", "moving_mesh_transport/solver_functions/Chebyshev_matrix_reader.py"]}
{"id": "C125", "title": "Time integration by solve_ivp: rejected steps leave no trace and short steps converge", "statement": "solve hands the sphere right-hand side, which works on shared objects that every evaluation changes, to an explicit Runge-Kutta method of scipy. For every tableau, every sequence of tried step sizes, acceptances, rejections and extra evaluations, and every initial state: the integration never fails; the time is the sum of the accepted steps; time, state and stored rate depend only on the start and on the accepted steps; the rate stored for the next step is what a fresh program would answer. If the nodes lie in the step and the weights add up to one, then for accepted steps no longer than some eta, started within eta of the solution of the program's equations, the state and the dense output are within epsilon of it, also when the boundary source is switched off inside a step. For smooth exact solutions on the mesh of a point pulse without source the state at the final time is then, in squared distance, within twice the bound of C118 plus epsilon of the exact solution. The dense output of RK45 and DOP853 at the final time, which solve reads, is the new state of the last step.", "quantifier": "all sphere problems of the setup with meshes of constant edge velocities, all explicit Runge-Kutta tableaux, all step sequences and controllers, all initial states, all final times; epsilon and eta in the usual order", "why_tests_cant": "A run shows one controller and one sequence of steps; independence of all rejected attempts and convergence for all step sequences are statements about every history.", "anchors": ["moving_mesh_transport/solver_functions/main_functions.py:168-190", "moving_mesh_transport/solver_functions/main_functions.py:207-217", "moving_mesh_transport/solver_classes/rhs_class_1.py:175-366", "moving_mesh_transport/input_scripts/transport.yaml:29"]}
{"id": "C126", "title": "Sphere runs as integrated in time: exact superposition, and a particle number that the integrator does not keep", "statement": "What solve_ivp returns for the sphere, not only the equations it is given: with the same accepted steps the results superpose exactly in the initial state, the squared source strength and the boundary strength; without source an empty start stays exactly empty, so a point pulse with uncollided treatment is returned as zero; on the even mesh of a point pulse whose edge is at least as fast as every direction, the particle number after any run is ((R0+v t)/R0)^(5/2) times the run of the same method on the scalar equation r' = (c-1-5/2 v/(R0+v t)) r, times the initial number. With scattering ratio one, where the equations keep the number exactly, a step h with z = h v / R multiplies it by explicit functions of z: for RK23 the factor is below one for every z > 0 and negative for z > 4/5; for RK45 it is above one for every z > 0. A point pulse of the program integrated with RK45 therefore has more than 8 pi / 3 strength particles after its first step of positive size and at all later times.", "quantifier": "all sphere problems of the setup, all usable explicit Runge-Kutta tableaux for superposition and the number formula, RK23 and RK45 for the factors, all step sequences with accepted and rejected steps, all initial states", "why_tests_cant": "Tests compare runs with tolerances; the sign of the drift for every step size and the exact superposition of the computed results are statements about all runs.", "anchors": ["moving_mesh_transport/solver_functions/main_functions.py:168-190", "moving_mesh_transport/solver_classes/rhs_class_1.py:175-366", "moving_mesh_transport/solver_classes/mesh.py:198-233"]}
{"id": "C127", "title": "Order of the time integration of sphere runs, at the steps and between them", "statement": "For every sphere problem of the setup without source and without boundary source in force, and every solution V of the equations of the program on [0, T]: there are C and eta0 such that every integration with RK45 whose accepted steps are at most eta <= eta0 and whose initial state is within delta of V(0) is, at the time t it reached, within C (delta + eta^5) of V(t) in every coefficient; with RK23 within C (delta + eta^3). Rejected steps, probes and unequal steps are allowed. The dense output of RK45, from which solve_ivp answers t_eval, is within C (delta + eta^5) of V at every time inside a step, too. The orders are not better: with scattering ratio one on the even growing mesh of a point pulse, equal steps eta over a fixed time multiply the particle number by at least 1 + c eta^5 (RK45) or at most 1 / (1 + c eta^3) (RK23), so the error in some coefficient is at least c eta^5 resp. c eta^3.", "quantifier": "all sphere problems without source in force, all solutions, all sequences of accepted and rejected steps below a bound, all times inside a step; sharpness for all scattering runs with positive particle number", "why_tests_cant": "Tests run a few tolerances; an order is a statement about all small steps, and depends on coefficients, on the smoothness of mesh motion and mass matrices, and on the upwind choice not switching.", "anchors": ["moving_mesh_transport/solver_functions/main_functions.py:168-190", "moving_mesh_transport/solver_classes/rhs_class_1.py:175-366", "moving_mesh_transport/solver_classes/mesh.py:198-233", "moving_mesh_transport/solver_classes/matrices.py:1-140"]}
{"id": "C128", "title": "What solve returns for a sphere, from its arguments to its results", "statement": "For every sphere problem of the setup with constant opacity, without uncollided treatment and with tfinal > 0, every explicit Runge-Kutta method of solve_ivp whose dense output ends in the new state (RK23, RK45, DOP853) and every integration whose accepted steps arrive at tfinal: solve returns; xs are the requested points or the nodes of the mesh at tfinal, edges are the edges at tfinal, phi, psi, exit_dist, exit_phi and sol_last are those of the state that the integration of the program's own initial state reaches at tfinal. Rejected steps, extra evaluations, the dense output and estimate_wavespeed do not change any of it. With RK45 all returned fluxes are within C eta^5 of those of the run of the program (RK23: C eta^3; any consistent method: as close as one likes), eta the largest accepted step, C independent of the output points; with eval_times and given points this holds for every requested time, also inside a step. In a purely scattering medium the flux returned with RK45 for a point pulse contains more particles than were emitted. An integration that stops before tfinal, or before a requested time, or unordered times make solve fail. With estimate_wavespeed this check is missing: solve then returns, on the mesh of tfinal, the state of the last of 10000 evenly spread times that was reached, in the extreme the initial state. With the uncollided treatment, and with eval_times without given points, solve always fails (one or two given points excepted).", "quantifier": "all sphere problems of the setup, all methods, all sequences of accepted and rejected steps, all output points and times", "why_tests_cant": "The chain from arguments to results passes through stateful objects, an adaptive integrator whose decisions depend on tolerances, and output code; tests compare single runs with benchmark tables and never see an integration that gives up.", "anchors": ["moving_mesh_transport/solver_functions/main_functions.py:154-276", "moving_mesh_transport/solver_functions/build_problem.py:172-218", "moving_mesh_transport/solver_classes/make_phi.py:53-112"]}
{"id": "C129", "title": "What solve returns for a slab", "statement": "For every slab problem whose mesh can be constructed, every explicit Runge-Kutta method of solve_ivp, every list of accepted and rejected steps that arrives at tfinal: if solve returns, sol_last is the initial state times a number that depends on the method and the accepted steps alone (the product of the values of the stability polynomial at the step sizes), and without uncollided treatment solve returns and phi, psi, exit_dist and exit_phi are those of the initial state on the mesh of tfinal times that number. With RK45 and steps of at most eta <= 1 the number lies between e^tfinal and e^tfinal*exp(tfinal*eta^5/3600), with RK23 between e^tfinal*exp(-5*tfinal*eta^3/96) and e^tfinal. So cross sections, boundary sources and rejected steps do not change any result, volume and boundary sources give zero everywhere, and on a static mesh the number of particles of a square pulse in a pure absorber is multiplied by at least e^tfinal. With uncollided treatment solve fails unless one or two points are requested, and for one point reports the uncollided flux alone.", "quantifier": "for all slab problems, methods, step sequences, output points and initial states", "why_tests_cant": "the claim is about all cross sections, sources and step sequences at once; a test sees one run with one source and one list of steps", "anchors": ["moving_mesh_transport/solver_classes/rhs_class_1.py:175-366", "moving_mesh_transport/solver_functions/main_functions.py:101-276"]}
{"id": "C130", "title": "Error of what solve returns for a sphere, against the transport equation", "statement": "For every sphere problem of the setup without sources, run without uncollided treatment, and every solution u of the discrete-ordinates transport equation that is smooth in each shell: if solve_ivp arrives at tfinal with accepted steps of at most eta, solve returns, the edges are those of tfinal, and the mean square distance of the returned intensities (sol_last on edges) from u(tfinal) is at most 2*E + C*eta^10 with RK45, 2*E + C*eta^6 with RK23 and 2*E + epsilon with any consistent Runge-Kutta method and short enough steps. E contains the distance of the initial state that the program forms from u(0) and K^2 B^2 h^(2M+1) times constants, with h the largest shell, B a bound of the derivatives of order M+1 and K depending on M alone. The reported scalar flux, taken at whatever output points, is within the square of the sum of the weights times that bound of the flux of u.", "quantifier": "for all problems of the setup, solutions u, step sequences with rejected steps, output points", "why_tests_cant": "an error bound for all meshes, orders and step sequences against all smooth solutions; the tests compare single runs with tables", "anchors": ["moving_mesh_transport/solver_functions/main_functions.py:101-276", "moving_mesh_transport/solver_classes/rhs_class_1.py:175-366", "moving_mesh_transport/solver_classes/make_phi.py:53-112"]}
{"id": "C131", "title": "Accuracy of sphere runs with an opacity that depends on position", "statement": "For every sphere problem of the setup with an opacity that depends on the radius but not on time, without a source: the differential equations that rhs_class_1.call answers have exactly one solution from every initial state; RK45 and RK23 solve them with order five and three; solve returns the integrated state at tfinal, and everything it returns is within C*eta^5 (RK45), C*eta^3 (RK23), or epsilon (any consistent Runge-Kutta method and short enough steps) of what it would return for the exact solution, where eta bounds the accepted steps.", "quantifier": "for all problems of the setup, steady opacity functions, initial states, step sequences with rejected steps, output points", "why_tests_cant": "existence, uniqueness and rates for all opacities, meshes and step sequences; the tests have no case with such an opacity in the sphere", "anchors": ["moving_mesh_transport/solver_functions/main_functions.py:101-276", "moving_mesh_transport/solver_classes/rhs_class_1.py:175-366", "moving_mesh_transport/solver_classes/opacity.py:78-174", "moving_mesh_transport/solver_classes/phi_class.py:71-93"]}
{"id": "C132", "title": "Square pulses in a finite domain are reported on the uniform mesh of the domain", "statement": "With finite_domain and a square pulse, any request for the final time puts the edges onto linspace(-D/2, D/2, N+1), whatever requests came before; from then on the edges do not move and every later request for another time finds zero velocities. So everything solve returns, at the final time and at all eval_times, is read on that mesh. In the slab a square pulse is reported as non-zero only for |x| <= D/4 and constant on each middle cell, whatever its half width x0, the final time and the cross sections. In the sphere the inner half of the shells is reported at negative radii and only the outer half of the shells is seen at positive radii.", "quantifier": "for all configurations with a square pulse in a finite domain, histories of requests, methods and step sequences, output points", "why_tests_cant": "the tests run no finite domain; the defect depends on the history of calls of the integrator", "anchors": ["moving_mesh_transport/solver_classes/mesh.py:156-262", "moving_mesh_transport/solver_functions/main_functions.py:101-276", "moving_mesh_transport/solver_classes/make_phi.py:53-112"]}
{"id": "C133", "title": "With the Gauss directions that solve uses, the sphere equations do not admit smooth isotropic radiation at the centre", "statement": "For every smooth solution of the equation that the sphere solver discretises, at every time and in every direction, the discrete redistribution at the centre equals -2 mu times the intensity. If the radiation is isotropic and not zero at the centre, the directions are the equally spaced ones -1+(2l+1)/N. With Gauss-Legendre directions (any number), with Gauss-Lobatto directions (any set beginning with -1) the value is zero; with two directions +-m other than +-1/2 the radiation is zero at the centre whether isotropic or not. The program does not keep uniform radiation in a purely scattering medium for any number of Gauss-Legendre directions, and its redistribution conserves the scalar flux for no number of them above two. Weights of the angular cells with directions at or right of their middles are never those of a rule exact on the first two powers.", "quantifier": "for all numbers of directions, meshes and motions, sources, cross sections, times", "why_tests_cant": "a statement about all solutions and all numbers of directions; runs only show a dip near the centre", "anchors": ["moving_mesh_transport/solver_classes/functions.py:575-633", "moving_mesh_transport/solver_classes/rhs_class_1.py:228-330"]}
{"id": "C134", "title": "Error and stability of what solve returns for a sphere, for all directions and weights", "statement": "For every sphere problem of the setup without sources, with any increasing directions in [-1,1] and any weights: if solve_ivp arrives at tfinal with accepted steps of at most eta, solve returns, and the square norm of the returned intensities over shells and angular cells is at most twice that of the initial state times exp(max(sigma_s(1+kappa)-1+2 delta C/rho, 0) tfinal), up to D eta^10 with RK45. Here delta bounds how far directions are left of the middle of their angular cells, rho is a lower bound of the innermost edge, kappa measures the distance of the weights from the widths of the angular cells and C depends on the order M alone. Against every solution of the discrete-ordinates transport equation that is smooth in each shell the error obeys the bound of C130 with the same exponential factor, with RK45, RK23 and every consistent Runge-Kutta method; the reported flux follows with the factor given by the weights. With delta = 0 the innermost radius does not enter.", "quantifier": "for all problems of the setup, directions, weights, solutions u, step sequences with rejected steps, output points", "why_tests_cant": "a bound for all quadratures, meshes, orders and step sequences; tests run a few quadratures", "anchors": ["moving_mesh_transport/solver_functions/main_functions.py:101-276", "moving_mesh_transport/solver_classes/rhs_class_1.py:175-366", "moving_mesh_transport/solver_classes/functions.py:575-633"]}
{"id": "C135", "title": "What solve returns with DOP853, the integrator that nearly all input files name", "statement": "For every sphere problem of the setup without sources, with scipy's DOP853 (twelve stages, dense output with three more evaluations): if solve_ivp arrives at tfinal with accepted steps of at most eta, solve returns, and the reported points, mesh, intensities, fluxes and exit values are within C(eps + eta^8) of what belongs to the run of the program at tfinal. With eval_times and given points the flux for every time, also inside a step, is within C(eps + eps' + eta^8). Here eps and eps' are what the coefficients miss the order conditions by: 1e-28 and 1e-25 as written, 1e-15 and 1e-11 as the doubles python makes of them, each within 2^-53 of the number written; order nine is missed. C and the admissible steps depend on the problem alone, not on the coefficients. Against smooth solutions of the transport equation the bound of C134 holds with D(eps + eta^8)^2 for the time integration. In general every explicit Runge-Kutta method is as accurate on these runs as its order conditions for linear equations say.", "quantifier": "for all problems of the setup, directions, weights, step sequences with rejected steps, output points and times, coefficient sets that meet the conditions", "why_tests_cant": "the order of accuracy for all problems and step sequences, and the effect of rounded coefficients, cannot be read off runs at a few tolerances", "anchors": ["moving_mesh_transport/solver_functions/main_functions.py:167-276", "moving_mesh_transport/loading_and_saving/load_parameters.py:60-140"]}
{"id": "C136", "title": "Which combinations of the options of solve return, and what slab runs report at chosen times", "statement": "solve with find_wave_loc never returns: the problem wants sigma_t as a float and the search takes sigma_t[0]. All wave data solve returns are a single zero, also with save_wave_loc. Without find_wave_loc the report does not depend on save_wave_loc. The returned times are the ones asked for; without eval_times the last one is tfinal. eval_times without choose_xs never returns. With both, a slab run without uncollided treatment on which no call fails returns, and reports for every time t the coefficients of time 0, unchanged on the mesh of t, times a number g(t) that depends on the steps alone: with steps of at most eta, |g(t) - e^t| <= e^(2t)(t+1) eta^5 for RK45, eta^3 for RK23, and for DOP853 within e^((1+k)t)(k t + k'), with k = C(eps + eta^8), k' = C(eps' + eta^8), where eps and eps' are the defects of the coefficients. For every explicit Runge-Kutta method that meets the conditions of order p up to eps the factor at tfinal is within e^((1+k)T)(T+eta)k of e^T, k = C(eps + eta^p).", "quantifier": "for all problems, option combinations, step sequences with rejected steps, increasing times in [0, tfinal] and output points; for all explicit methods", "why_tests_cant": "the combinations of options and step sequences are unlimited, and no test calls solve with find_wave_loc or in slab geometry with chosen times", "anchors": ["moving_mesh_transport/solver_functions/main_functions.py:98-276", "moving_mesh_transport/solver_functions/wave_loc_estimator.py:15-31", "moving_mesh_transport/solver_classes/rhs_class_1.py:120-174", "moving_mesh_transport/solver_classes/build_problem.py:35-98"]}
{"id": "C137", "title": "The benchmark for a travelling Gaussian opacity is exact for directions to the right", "statement": "For directions mu > 0 moving_gaussian_shock is the only solution of the transport equation with opacity exp(-(x + t/4)^2/8), incoming intensity 1 at x = -5 and empty start, at all points to the right of -5 off the front; such a solution exists. It lies between 0 and 1 there, is 1 at x = -5 and 0 ahead of the front. Left of -5 it exceeds 1, and for mu < 0 it grows along rays instead of decaying. moving_gaussian_shock_benchmark draws it at 25 equidistant points from the first to the last output point, in direction 1 and in a direction of the run closest to 0.6, which is positive if some direction lies in (0, 1.2). No opacity of the program equals the one of this benchmark.", "quantifier": "for all times, positions, directions, lists of directions and output points, opacity settings", "why_tests_cant": "no test calls the benchmark, and exactness is a statement about all solutions of a transport equation", "anchors": ["moving_mesh_transport/solver_functions/run_functions.py:435-450", "moving_mesh_transport/solver_functions/run_functions.py:497-513", "moving_mesh_transport/solver_classes/opacity.py:129-160"]}
{"id": "C138", "title": "What the convergence plots show, and when they can be drawn", "statement": "find_c returns the constant C when the errors follow C n^(-p) from the second entry on, for any p; find_c_semilog returns -k when they follow C exp(-k M); in general both are the unique least squares lines. Whether find_c_semilog prints a bad correlation does not depend on the errors it fits. order_triangle has its corners on (1 - 1/dx) C x^(-order). The orders written into the figure depend on source, M, time and mesh alone, not on the errors. For every table loaded for a source that is not one of the Su-Olson names both fits fail, so plot_RMS_vs_cells fails at tfinal 10, for the moving mesh with uncollided solution at tfinal 1, 1.25 and 0.8333333333333334, and for MMS with M 6 or 2, and never draws a triangle. At tfinal 100 the thick Su-Olson plot with uncollided solution and M 4 fails for every table, and plots for the energy density show the errors of the flux; at tfinal 1 they show the ones of the energy density. After plot_RMS_vs_Ms for MMS, gaussian_IC or gaussian_s, plots over the number of cells that set limits fail in the same session.", "quantifier": "for all tables of errors, files, sources, orders, times and meshes", "why_tests_cant": "the plotting scripts have no tests; which combinations fail depends on attributes set by another function", "anchors": ["moving_mesh_transport/plots/make_plots.py:47-76", "moving_mesh_transport/plots/make_plots.py:169-458", "moving_mesh_transport/plots/make_plots.py:460-548", "moving_mesh_transport/plots/plot_functions/order_triangle.py:12-38"]}
{"id": "C139", "title": "What solve returns for a sphere, against the transport equation in all directions", "statement": "For every sphere problem of the setup without sources, run without uncollided treatment: let psi(r, mu, t) solve the transport equation of a sphere in all directions mu in [-1,1] (scattering by the integral over all directions, redistribution by the derivative in mu), with bounded derivatives up to order two in mu and M+1 in r. With any increasing directions whose angular cells are at most Delta wide, and any weights whose sums over the directions are off by at most omega times the derivatives of the summed function (for instance Delta plus the total deviation of the weights from half the cell widths), what the program leaves out by using finitely many directions is at most D(9 Delta + R sigma_s omega). If solve_ivp arrives at tfinal with accepted steps of at most eta, solve returns, and the mean square distance of the returned intensities from psi at tfinal is at most 2*E + C eta^10 with RK45, 2*E + C (epsilon + eta^8)^2 with DOP853 whose coefficients are within epsilon of ones that meet the order conditions, 2*E + epsilon with any consistent method and short enough steps, where E adds the initial distance, the radial mesh error and the square of the angular error; the flux is off by at most that plus the error of the angular sum. As directions and shells are refined, with directions left of the middle of their cells by no more than a multiple of the first shell, the integrated solutions converge to psi uniformly in time.", "quantifier": "for all smooth solutions of the transport equation, all directions and weights, shells, expansion orders up to 10 and step sequences", "why_tests_cant": "a test compares with one benchmark at one resolution; here the exact solution and all discretisation parameters are arbitrary", "anchors": ["moving_mesh_transport/solver_functions/main_functions.py:101-276", "moving_mesh_transport/solver_classes/rhs_class_1.py:175-366", "moving_mesh_transport/solver_classes/functions.py:575-633"]}
{"id": "C140", "title": "The unit test of the angular difference cannot pass", "statement": "test_finite_diff hands (1-x^2) sin(x) to finite_diff_uneven, which multiplies by 1-x^2 itself, and compares with the derivative of (1-x^2) sin(x). For every increasing list of points in [-1,1] that ends with 1, as Gauss-Lobatto points do, the last entry is off by at least 1/2, so the comparison with tolerances 1e-6 fails. At every point the result is within 63 cell widths of the derivative of (1-x^2)^2 sin(x). With sin(x) handed over every entry would be within 9 cell widths of the derivative the test compares with.", "quantifier": "for all increasing lists of at least two points in [-1,1] and all positions", "why_tests_cant": "it is about the test itself, for all numbers of points", "anchors": ["moving_mesh_transport/tests/test_functions.py:189-206", "moving_mesh_transport/solver_classes/functions.py:575-603"]}
{"id": "C141", "title": "What solve returns for a sphere with Gauss or Lobatto directions", "statement": "Take directions and weights with the exactness of Gauss (degree 2n-2) or, if -1 and 1 are directions, of Lobatto (2n-3). Then the weights sum to 2, none is negative, the sum of the weights before a direction does not pass the direction and the sum including its own weight reaches it, and no weight is more than twice the width of its angular cell in the redistribution term. Sums over directions are off by at most twice the widest angular cell, which is at most 3 sqrt(pi/(n-2)); the cells of a Gauss rule are at least 1/n^2 wide, those of the Lobatto rule of quadrature at least 1/(n(n-1)). The roots of the Legendre polynomials have such weights, and quadrature with gauss_lobatto gives such a rule if its points are the roots. For every run of solve in a sphere with such directions, without sources and uncollided treatment, the mean square distance of what solve returns from a smooth solution of the transport equation in all directions is at most 2*E + C eta^10 with RK45 and 2*E + C(epsilon + eta^8)^2 with DOP853, where E adds the initial distance, the radial mesh error and the square of D(9 + 2 R sigma_s) Delta, times an exponential with exponent sigma_s(1+2) - 1 + C Delta/rho, rho the inner edge of the second shell. With many directions against 1/rho^2 and narrow shells against the narrowest cell, the integrated solutions converge uniformly in time.", "quantifier": "for all numbers of directions, all rules of that exactness, all smooth solutions, shells, expansion orders up to 10 and step sequences", "why_tests_cant": "tests run few directions and compare with one benchmark; here the number of directions, the exact solution and all discretisation parameters are arbitrary", "anchors": ["moving_mesh_transport/solver_functions/main_functions.py:101-276", "moving_mesh_transport/solver_classes/functions.py:575-633", "moving_mesh_transport/solver_classes/functions.py:612-650"]}
{"id": "C142", "title": "Replaced functions kept in functions.py: flux terms, output, second S2 source, names, stored shape", "statement": "LU_surf_func gives the flux terms of the class lu_surf in every cell whose neighbours have its width. It scales the state of a neighbouring cell with the width of the own cell, so at edges between cells of unequal width it makes or loses particles; between cells of widths 1 and 4, half of those that cross are lost. make_phi of functions.py agrees with the class output inside the mesh and continues the outermost cells beyond it, where the class has zero. uncollided_su_olson_s2_2 returns zero while the source is on; afterwards it agrees with the first version well inside the source, and elsewhere is too large as soon as the far end goes out of sight. problem_identifier compares instead of assigning for sources after the fifth, so it fails exactly if none of the first five is on. The stored sizes of the state belong to one order more than the state has.", "quantifier": "for all meshes, expansion orders, coefficients, points, times and source types", "why_tests_cant": "the functions are not called by the tests; the disagreement needs unequal cells, points outside the mesh or late times", "anchors": ["moving_mesh_transport/solver_classes/functions.py:116-188", "moving_mesh_transport/solver_classes/functions.py:333-398", "moving_mesh_transport/solver_classes/functions.py:458-463", "moving_mesh_transport/solver_classes/rhs_class_1.py:136"]}
{"id": "C143", "title": "Starts of slab runs other than plane and square pulses", "statement": "Without uncollided treatment, the flux of a Gaussian pulse at the start is strength*exp(-x^2/sigma^2), with strength*sigma*sqrt(pi) particles in all; the variant that is not isotropic has the same flux, all in directions to the right. The start for the manufactured solution is exp(-x^2/2)/2, the value of its boundary condition at time zero, whatever the strength. The dipole start on an even static mesh contains no particles and has the dipole moment strength times the width of a cell, so refining the mesh weakens the dipole; on moving meshes or with an odd number of cells the width handed over is zero, by which the start divides. The self-similar start contains 2 sqrt(2) particles where the benchmark has one.", "quantifier": "for all strengths, widths, positions and directions", "why_tests_cant": "tests sample few positions; totals over the line and all parameters need proof", "anchors": ["moving_mesh_transport/solver_classes/mutables.py:47-132", "moving_mesh_transport/solver_classes/build_problem.py:194-209"]}
{"id": "C144", "title": "Uncollided flux of the point pulse in a sphere", "statement": "With uncollided treatment of a point pulse in a sphere, the flux that uncollided_solution returns at time t is zero at every radius further than 1e-10 from t; integrated over space it holds strength*exp(-t)*2e-10/t particles, where strength*exp(-t) have not collided. So all but 2e-10/t of the particles are missing from the source of the collided flux and from the result.", "quantifier": "for all times beyond 1e-10, strengths, radii and earlier calls", "why_tests_cant": "tests evaluate finitely many radii, which almost never meet the shell of width 2e-10", "anchors": ["moving_mesh_transport/solver_classes/uncollided_solutions.py:294-301", "moving_mesh_transport/solver_classes/uncollided_solutions.py:302-336"]}
{"id": "C145", "title": "Mesh methods that nothing calls and the estimate of wave speeds", "statement": "smooth_wave_loc_array replaces each position by the next one if that is further out: a wave that moves out is put one time ahead, one that moves in is unchanged. recalculate_wavespeed, when a time of the table is passed, sets speeds with which the edges reach the tabulated positions at the time after the next, or stay if they are further out; before the first time all speeds stay zero, and beyond the last but one time it reads outside of the table. thick_square_init_func calls a method the class lacks, so it fails unless there are four or five cells, and then its edges are out of order. simple_thick_square_init_func_2 gives N+1 edges only for multiples of four, and a mesh that stands still, is even inside the source and ends 1e-14 beyond it. wavespeed_estimator takes the point before the first to be the last, and so gives two thirds of the speed for every falling wave with flat ends. derivative_estimator and second_derivative_estimator are exact for lines and parabolas at all points they do not leave zero; the first of them is a backward difference.", "quantifier": "for all tables, meshes, times, profiles and numbers of points", "why_tests_cant": "nothing calls these functions, tests included", "anchors": ["moving_mesh_transport/solver_classes/mesh.py:269-272", "moving_mesh_transport/solver_classes/mesh.py:343-412", "moving_mesh_transport/solver_classes/mesh.py:620-636", "moving_mesh_transport/solver_classes/mesh.py:677-754", "moving_mesh_transport/solver_functions/wavespeed_estimator.py:14-80"]}
{"id": "C146", "title": "Functions of other files that no run calls", "statement": "boundary_source_init_func_outside makes the mesh that boundary_source_init_func of the class makes, for all arguments with more than one cell; for an even number of cells its middle edge is at -v0 t at all times, the outer edges stay and the edges remain in order while the shock stays inside; odd numbers of cells other than one are refused, and with one cell both edges end on the shock. set_func puts positions and speeds at the listed places and changes nothing else. find_edge returns the nearest places to both sides of the old ones where the derivative is at most 1e-13; if there is none to the left it goes on at the right end and returns a negative index, if there is none to the right it fails. The integral of su_olson_s2_integrand over the time of the source is the flux of the square source with two directions at all places and times, and uncollided_su_olson_s2 returns it while the source is on. rttwo_mistake_undoer is 2 if one index is zero and the other even and not zero, otherwise 1. gaussian_plane has the integral one.", "quantifier": "for all speeds, widths, times, numbers of cells, lists, arrays and indices", "why_tests_cant": "nothing calls these functions, tests included", "anchors": ["moving_mesh_transport/solver_classes/mesh_functions.py:18-25", "moving_mesh_transport/solver_classes/mesh_functions.py:122-138", "moving_mesh_transport/solver_functions/wavespeed_estimator.py:82-117", "moving_mesh_transport/solver_classes/functions.py:318-319", "moving_mesh_transport/solver_classes/functions.py:722-736", "moving_mesh_transport/solver_classes/mutables.py:101-104"]}
{"id": "C147", "title": "The earlier mesh class, the heat fronts the right-hand side could store, and coefficients for plots", "statement": "mesh_old: a moving mesh of the first or third kind is at all times the first one times 1 + speed t/x0 and stays in order; the velocities it reports are the rates of change of its edges, except that edges that move with the root of the time stand still before 1e-10 while a velocity of 400000 times the constant is reported; the mesh for square sources exists for multiples of four cells only, keeps the edges of the source and moves its outer edges with the given speed; a mesh that stands still is in order and reaches (tfinal + x0) speed; the thick one for square sources with more than four cells has its middle edge at sqrt(tfinal) speed instead of the origin. derivative_saver stores the place whose energy is nearest to the largest derivative, which for a step of the energy is the first point, wherever the step is. coeff_con is a mean over the directions.", "quantifier": "for all meshes, times, energies, positions and weights", "why_tests_cant": "nothing calls these functions, tests included", "anchors": ["moving_mesh_transport/solver_classes/mesh_old.py:37-212", "moving_mesh_transport/solver_classes/rhs_class_1.py:157-172", "moving_mesh_transport/plots/plot_functions/coeff_con.py:10-31"]}
{"id": "C148", "title": "The unit tests of the basis functions and of the nodes hold for all cells and orders", "statement": "For every cell and orders up to 12: 0.5 (b-a) times the sum of the Chebyshev weights times normTn(i) 2 normTn(j) at the images of the nodes is 1 for i = j and 0 otherwise as soon as i + j is less than twice the number of nodes; the integral over the cell of normTn(i) weight_func_Tn normTn(j) is 1 for i = j and 0 otherwise; normTn(M) vanishes at all points find_nodes puts in the cell for M >= 1. For the slab: a rule exact up to degree i + j gives the same for normPn, and normPn(M) vanishes at the points of find_nodes if the library gives the zeros of the Legendre polynomial.", "quantifier": "for all cells a < b, orders (at most 12 in spheres), numbers of nodes that are enough, edges and cells", "why_tests_cant": "the tests try a few random cells and orders up to 10 with a tolerance; one of them overwrites its random cell with [0, 1]", "anchors": ["moving_mesh_transport/tests/test_functions.py:31-176", "moving_mesh_transport/solver_classes/functions.py:41-49", "moving_mesh_transport/solver_classes/functions.py:183-206", "moving_mesh_transport/solver_classes/functions.py:505-521"]}
{"id": "C149", "title": "The mesh that followed both heat fronts uses the speeds of the wrong interval", "statement": "thick_square_moving_func: with at least eight cells it fails unless four divides their number; the velocities of the two halves are opposite; at the start (tactual zero) the first edge is put at once at minus the tabulated position of the front at the next time, minus the extra distance, whatever the time; later, for a time in the interval after entry j of the table, the first edge moves with the mean velocity of the front in the interval after entry j+1, so that an edge on the front stays on it from entry to entry exactly if the two mean velocities agree; after the last but one entry the call fails.", "quantifier": "for all numbers of cells, tables in order, states and times", "why_tests_cant": "nothing calls the function; which interval is meant shows only for fronts that change their speed", "anchors": ["moving_mesh_transport/solver_classes/mesh_functions.py:27-86"]}
{"id": "C150", "title": "First edges and velocities of the meshes for square sources", "statement": "For 4 q cells thin_square_init_func gives edges with ends 1e-12 outside of the source, entries q and 3q on the edges of the source, entry 2q at the origin, ends moving outward with the speed of the mesh, and entry 3q keeping the velocity it had times the speed; simple_thick_square_init_func gives the same layout with its ends at the last tabulated position of the front plus the extra distance and no moving edge. For numbers of cells that four does not divide both fail.", "quantifier": "for all numbers of cells, sources, speeds and states", "why_tests_cant": "the tests look at solutions only, with a few numbers of cells", "anchors": ["moving_mesh_transport/solver_classes/mesh.py:440-461", "moving_mesh_transport/solver_classes/mesh.py:556-576"]}
