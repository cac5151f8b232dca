{"id": "C01", "title": "Seed blocks become the documented neighbour differences", "statement": "Building a particle set from N left, N right, N top and N bottom points (plus N front and N back in 3D), stacked block after block, yields N groups whose right-left difference is right[i]-left[i], top-bottom difference is top[i]-bottom[i], front-back difference (3D) is front[i]-back[i], and whose centroid is the mean of the group's own four (six) points.", "quantifier": "for every group count N, every i < N, dimension 2 and 3, and all point values", "why_tests_cant": "The grouping is an index calculation over an array of arbitrary length; a test fixes N and a few values, while an off-by-one block boundary may only show for some N.", "anchors": ["src/pyftle/particles.py: NeighboringParticles, compute_delta_right_left, compute_delta_top_bottom, compute_delta_front_back, compute_centroid", "src/pyftle/file_readers.py: read_seed_particles_coordinates"]}
{"id": "C02", "title": "Particle construction accepts exactly well-grouped arrays", "statement": "A 2-column position array is accepted iff its row count is a multiple of 4, a 3-column one iff it is a multiple of 6; every other row count raises (AssertionError or ValueError) and no particle set is produced.", "quantifier": "for every row count and dimension 2 or 3", "why_tests_cant": "The assertion in the code is weaker than the real requirement (multiple of 4 OR 6 regardless of the dimension); only a case analysis over all residues shows that the later split closes the gap.", "anchors": ["src/pyftle/particles.py: NeighboringParticles.__post_init__"]}
{"id": "C03", "title": "Reference geometry survives integration", "statement": "The initial neighbour differences, initial centroids and number of neighbours recorded at construction are never changed by advecting the particles: after any sequence of integration steps with any integrators, time steps and velocity data they equal the values computed from the seed positions, while the current differences are those of the advected positions.", "quantifier": "for every finite sequence of integration calls (any mix of integrators, steps, velocity fields)", "why_tests_cant": "It is an invariant over all histories of in-place updates; tests run a handful of steps with one integrator.", "anchors": ["src/pyftle/particles.py: NeighboringParticles", "src/pyftle/integrate.py: EulerIntegrator.integrate, AdamsBashforth2Integrator.integrate, RungeKutta4Integrator.integrate"]}
{"id": "C04", "title": "Seed file reader: which files are accepted and how they are read", "statement": "A seed file is accepted only if left, right, top and bottom are present (ValueError otherwise); if front and back are both present the result is a 3D set built from six blocks in the order left, right, top, bottom, front, back, otherwise a 4-block set. A 3D file in which front or back is missing must not be accepted silently.", "quantifier": "for every set of keys present in the file and every block length and column count", "why_tests_cant": "The dangerous inputs are particular combinations of key set, column count and N modulo 3; sampling does not find them.", "anchors": ["src/pyftle/file_readers.py: read_seed_particles_coordinates", "src/pyftle/particles.py: NeighboringParticles.__post_init__"]}
{"id": "C05", "title": "Neighbour blocks of unequal length are rejected", "statement": "If the left/right/top/bottom blocks of a seed file do not all have the same number of points, reading the file raises instead of pairing neighbours of different groups.", "quantifier": "for every choice of block lengths", "why_tests_cant": "The silent mis-grouping happens only for length vectors whose sum is a multiple of four; a test would have to pick one.", "anchors": ["src/pyftle/file_readers.py: read_seed_particles_coordinates", "src/pyftle/particles.py: NeighboringParticles.__post_init__"]}
{"id": "C06", "title": "Flow-map Jacobian is exact for affine flow maps", "statement": "If every particle is moved by one affine map x -> A x + b and the seed stencil is axis aligned with non-zero spacings (which may differ per group and per axis), the Jacobian reported for every group is exactly A, in 2D and 3D.", "quantifier": "for every matrix A, shift b, group count, group centres and non-zero spacings", "why_tests_cant": "Universally quantified over real matrices and spacings; a swapped row/column or wrong denominator can agree on symmetric or isotropic test data.", "anchors": ["src/pyftle/cauchy_green.py: compute_flow_map_jacobian_2x2, compute_flow_map_jacobian_3x3"]}
{"id": "C07", "title": "Jacobian does not depend on where the particles are", "statement": "Shifting all final positions of a group by one common vector, or shifting all seed positions by one common vector, leaves the reported Jacobian unchanged.", "quantifier": "for every particle configuration and every shift", "why_tests_cant": "A relational (two-run) property over all configurations.", "anchors": ["src/pyftle/cauchy_green.py: compute_flow_map_jacobian_2x2, compute_flow_map_jacobian_3x3", "src/pyftle/particles.py: NeighboringParticles"]}
{"id": "C08", "title": "Degenerate stencils fail loudly, others always succeed", "statement": "The Jacobian computation raises ZeroDivisionError iff some group has zero x-extent between right and left, zero y-extent between top and bottom or (3D) zero z-extent between front and back; otherwise it returns exactly one matrix per group.", "quantifier": "for every particle set", "why_tests_cant": "Needs both directions over all inputs; tests exercise one degenerate example at most.", "anchors": ["src/pyftle/cauchy_green.py: compute_flow_map_jacobian_2x2, compute_flow_map_jacobian_3x3"]}
{"id": "C09", "title": "Jacobian of an affine map does not depend on stencil orientation", "statement": "For an affine flow map the reported Jacobian equals the map's matrix for every non-degenerate seed stencil, including rotated or sheared ones.", "quantifier": "for every affine map and every stencil whose axis extents are non-zero", "why_tests_cant": "The code only divides by one component of each seed difference, so failure needs a stencil with off-axis components, which the test fixtures never use.", "anchors": ["src/pyftle/cauchy_green.py: _compute_flow_map_jacobian_in_numba, _compute_flow_map_jacobian_in_numba_3x3"]}
{"id": "C10", "title": "Closed-form 2x2 eigenvalue is real and greatest", "statement": "For every real symmetric 2x2 matrix the closed-form eigenvalue routine never takes the square root of a negative number and returns the greatest eigenvalue of the matrix.", "quantifier": "for every real symmetric 2x2 matrix (exact arithmetic)", "why_tests_cant": "An inequality over all real matrices.", "anchors": ["src/pyftle/ftle.py: max_eigenvalue_2x2"]}
{"id": "C11", "title": "Cauchy-Green tensor is symmetric positive semidefinite and its largest eigenvalue is that of F^T F", "statement": "The 2D tensor is exactly F^T F; the 3D routine may use either ordering, but its characteristic polynomial, and hence the FTLE derived from it, is that of F^T F; both tensors are symmetric with non-negative eigenvalues.", "quantifier": "for every real Jacobian", "why_tests_cant": "The 3D code computes F F^T, not the documented F^T F; equality of spectra is a theorem about all matrices, not a sampled fact.", "anchors": ["src/pyftle/ftle.py: compute_cauchy_green_2x2, compute_cauchy_green_3x3, max_eigenvalue_3x3"]}
{"id": "C12", "title": "FTLE is the log of the maximal stretching divided by the period", "statement": "For every invertible (indeed non-zero) Jacobian F and positive period T the reported FTLE equals (1/T) ln of the maximum of |F u| over unit vectors u, in 2D and 3D.", "quantifier": "for every non-zero real Jacobian and every positive period", "why_tests_cant": "The maximum over all directions cannot be tested exhaustively.", "anchors": ["src/pyftle/ftle.py: compute_ftle_2x2, compute_ftle_3x3"]}
{"id": "C13", "title": "FTLE is objective", "statement": "Multiplying the Jacobian on either side by an orthogonal matrix (rotating or reflecting the initial or the final frame) does not change the FTLE.", "quantifier": "for every Jacobian and all orthogonal matrices on both sides, 2D and 3D", "why_tests_cant": "Relational property over all rotations.", "anchors": ["src/pyftle/ftle.py: compute_ftle_2x2, compute_ftle_3x3"]}
{"id": "C14", "title": "Incompressible flow maps have non-negative FTLE", "statement": "If |det F| = 1 the FTLE is >= 0 for every positive period; more generally it is at least ln|det F| / (d T); the identity has FTLE exactly 0.", "quantifier": "for every Jacobian with the stated determinant and every positive period", "why_tests_cant": "Inequality over a continuum of matrices.", "anchors": ["src/pyftle/ftle.py: compute_ftle_2x2, compute_ftle_3x3"]}
{"id": "C15", "title": "FTLE scaling laws", "statement": "Scaling the Jacobian by c != 0 adds ln|c|/T; multiplying the period by k > 0 divides the FTLE by k.", "quantifier": "for every non-zero Jacobian, c != 0, T > 0, k > 0", "why_tests_cant": "Algebraic law over reals.", "anchors": ["src/pyftle/ftle.py: compute_ftle_2x2, compute_ftle_3x3"]}
{"id": "C16", "title": "FTLE degenerate cases are exactly the zero Jacobian and the zero period", "statement": "A zero period raises ZeroDivisionError; with a non-zero period the field entry is finite iff its Jacobian is non-zero, and for the zero Jacobian it is -infinity when the period is positive and +infinity when it is negative.", "quantifier": "for every batch of Jacobians and every period", "why_tests_cant": "Needs the exact boundary of the failing inputs.", "anchors": ["src/pyftle/ftle.py: compute_ftle_2x2, compute_ftle_3x3"]}
{"id": "C17", "title": "FTLE entries are computed independently per group", "statement": "The field has one value per group and entry i depends on the i-th Jacobian and the period only: changing, adding or permuting other groups does not change it.", "quantifier": "for every batch of Jacobians", "why_tests_cant": "Relational, any batch size.", "anchors": ["src/pyftle/ftle.py: compute_ftle_2x2, compute_ftle_3x3"]}
{"id": "C18", "title": "All integrators are exact in uniform steady flow", "statement": "In a velocity field that is the same vector everywhere, n steps of any integrator (Euler, AB2, RK4) move every particle by exactly n*h*v.", "quantifier": "for every n, h, v, particle set and integrator", "why_tests_cant": "Induction over the number of steps.", "anchors": ["src/pyftle/integrate.py: EulerIntegrator, AdamsBashforth2Integrator, RungeKutta4Integrator"]}
{"id": "C19", "title": "Integrators realise the documented stability polynomials on linear flows", "statement": "For v(x) = A x, n steps multiply every position by (I + hA)^n for Euler and by (I + hA + (hA)^2/2 + (hA)^3/6 + (hA)^4/24)^n for RK4; AB2 follows the two-step recurrence x_{k+1} = (I + 3/2 hA) x_k - 1/2 hA x_{k-1} after one Euler step.", "quantifier": "for every matrix A, step h, number of steps n and initial positions", "why_tests_cant": "Wrong stage weights agree with the right ones on many data; the law must hold for all A and n.", "anchors": ["src/pyftle/integrate.py: euler_step_inplace, adams_bashforth_2_step_inplace, runge_kutta_4_step_inplace and their integrators"]}
{"id": "C20", "title": "RK4 samples the velocity at intermediate times", "statement": "As documented (k2 = f(t+h/2, ...), k4 = f(t+h, ...)), one RK4 step integrates a flow that depends on time only with the intermediate-time samples, i.e. better than an Euler step.", "quantifier": "for every sequence of spatially uniform snapshots", "why_tests_cant": "The code evaluates all stages in the same snapshot; that RK4 then coincides with Euler for every time-dependent uniform flow is a statement about all snapshot sequences.", "anchors": ["src/pyftle/integrate.py: RungeKutta4Integrator.integrate", "src/pyftle/ftle_solver.py: FTLESolver.run"]}
{"id": "C21", "title": "Particles do not influence each other", "statement": "When the velocity at a point depends on that point only, the trajectory of each particle is the same whatever other particles are integrated with it and in whatever order they are stored; this holds for any arithmetic, including rounded floating point.", "quantifier": "for every pointwise velocity source, every integrator, any number of steps, any particle selection/permutation", "why_tests_cant": "Relational over all batches; vectorised code with reused buffers can leak between rows.", "anchors": ["src/pyftle/integrate.py: all integrators"]}
{"id": "C22", "title": "Integrator scratch buffers never leak", "statement": "Whatever was integrated before (other particle sets, other shapes), the next Euler or RK4 step gives the same positions as a freshly created integrator; AB2 differs from a fresh one only through the stored previous velocity, and if the particle count changes it raises instead of mixing data.", "quantifier": "for every previous history of calls", "why_tests_cant": "Quantifies over all histories of a stateful object.", "anchors": ["src/pyftle/integrate.py: EulerIntegrator, AdamsBashforth2Integrator, RungeKutta4Integrator"]}
{"id": "C23", "title": "Backward time equals forward time in the reversed flow", "statement": "Integrating with time step -h in a velocity source V gives the same positions as integrating with +h in the source -V, for all integrators and any number of steps; the resulting FTLE is the same.", "quantifier": "for every velocity source, h, number of steps, integrator", "why_tests_cant": "Relational property between two runs over all inputs.", "anchors": ["src/pyftle/integrate.py: all integrators", "src/pyftle/ftle_solver.py: FTLESolver.run, _compute_ftle"]}
{"id": "C24", "title": "Structured-grid kernels reproduce multilinear fields exactly inside the grid", "statement": "For every query strictly below the last grid line (index coordinates in [0, n-1) on each axis) the bilinear/trilinear kernel returns the exact value of any field that is multilinear in the index coordinates, in particular the nodal value at nodes.", "quantifier": "for every grid size, every multilinear field and every in-range query", "why_tests_cant": "A wrong corner weight can be invisible on symmetric data; exactness over all fields and query points is algebra.", "anchors": ["src/pyftle/grid_interp/GridInterp.cpp: interp2d_vec_inplace, interp3d_vec_inplace"]}
{"id": "C25", "title": "Structured-grid kernels never overshoot", "statement": "Every interpolated value of an in-range query lies between the minimum and maximum of the surrounding grid values; every other query yields exactly 0.", "quantifier": "for every grid, field and query point", "why_tests_cant": "Convexity over all real weights.", "anchors": ["src/pyftle/grid_interp/GridInterp.cpp: interp2d_vec_inplace, interp3d_vec_inplace"]}
{"id": "C26", "title": "Structured-grid kernels never read outside the velocity array", "statement": "For every query point (finite, arbitrarily far away) all memory reads of the kernel fall inside the array, including the effect of 32-bit index arithmetic.", "quantifier": "for every grid size and query point", "why_tests_cant": "Out-of-bounds reads usually do not crash a test, and the critical queries are at 2^31 cells distance.", "anchors": ["src/pyftle/grid_interp/GridInterp.cpp: interp2d_vec_inplace, interp3d_vec_inplace"]}
{"id": "C27", "title": "The interpolated field covers the whole closed grid", "statement": "A query located exactly on a grid node, including nodes on the last grid line of an axis, returns the stored nodal velocity.", "quantifier": "for every grid and every node", "why_tests_cant": "Only the boundary nodes fail, and tests sample the interior.", "anchors": ["src/pyftle/grid_interp/GridInterp.cpp: interp2d_vec_inplace, interp3d_vec_inplace", "src/pyftle/interpolate.py: HighPerfInterpolator"]}
{"id": "C28", "title": "2D fast grid interpolator reads the flattened data with x fastest", "statement": "After update(velocities, points) with points forming a uniform nx-by-ny grid, interpolating at grid node (i, j) with i < nx-1 and j < ny-1 returns the two velocity components stored at flat index i + nx*j.", "quantifier": "for every nx, ny >= 2, grid origin and positive spacing, all velocity data, every interior node", "why_tests_cant": "Layout conventions (C versus Fortran order) coincide on square symmetric test data.", "anchors": ["src/pyftle/interpolate.py: HighPerfInterpolator.update, interpolate, _initialize_interpolator", "src/pyftle/grid_interp/grid_interp.py: Interp2D"]}
{"id": "C29", "title": "Fast grid interpolator can be updated with velocities only", "statement": "After an initial update with coordinates, update(velocities) without coordinates followed by interpolate gives the same result as update(velocities, coordinates) followed by interpolate.", "quantifier": "for every grid shape, velocity data and query set", "why_tests_cant": "Equivalence of two call histories for all data.", "anchors": ["src/pyftle/interpolate.py: HighPerfInterpolator.update", "src/pyftle/grid_interp/GridInterp.cpp: interp2d_vec_inplace, interp3d_vec_inplace", "src/pyftle/data_source.py: FileBatchSource.get_data_for_step"]}
{"id": "C30", "title": "3D fast grid interpolator maps grid axes to space axes", "statement": "After update(velocities, points) with points forming a uniform nx-by-ny-by-nz grid in one fixed flattening order, interpolating at an interior node returns the velocity stored for that node, for all nx, ny, nz.", "quantifier": "for every grid shape and every interior node", "why_tests_cant": "The axis swap is invisible when nx = ny and the data are symmetric in x and y.", "anchors": ["src/pyftle/interpolate.py: HighPerfInterpolator._initialize_interpolator", "src/pyftle/grid_interp/grid_interp.py: Interp3D"]}
{"id": "C31", "title": "SciPy grid interpolator uses one data layout for all snapshots", "statement": "For the structured 'linear'/'nearest'/'cubic' interpolator, the node values used after update(velocities) without coordinates are the same as after update(velocities, coordinates).", "quantifier": "for every grid shape and velocity data, 2D and 3D", "why_tests_cant": "Equivalence of two histories; the two reshapes agree on degenerate shapes.", "anchors": ["src/pyftle/interpolate.py: GridInterpolator.update, _initialize_interpolator"]}
{"id": "C32", "title": "Scattered-data interpolators fill every velocity component", "statement": "For 2D data interpolate returns both components, for 3D data all three components, computed from the velocity data, for any number of query points.", "quantifier": "for every number of query points and both dimensions", "why_tests_cant": "The code tests the number of query points instead of the dimension, so only the exact value 3 behaves differently.", "anchors": ["src/pyftle/interpolate.py: LinearInterpolator.interpolate, NearestNeighborInterpolator.interpolate, CubicInterpolator.interpolate"]}
{"id": "C33", "title": "Interpolator protocol errors are detected", "statement": "Interpolating before any update raises; a structured interpolator rejects data whose number of points differs from the product of the grid shape or whose dimension is not 2 or 3.", "quantifier": "for every call history and every shape", "why_tests_cant": "Quantifies over histories and shapes.", "anchors": ["src/pyftle/interpolate.py: Interpolator.update, GridInterpolator._initialize_interpolator, GridInterpolator.interpolate, HighPerfInterpolator.update, HighPerfInterpolator.interpolate"]}
{"id": "C34", "title": "Component factories follow the documented decision table", "statement": "create_integrator accepts exactly euler, ab2, rk4 in any letter case; create_interpolator accepts exactly cubic, linear, nearest, grid, analytical in any case, chooses the structured implementation iff a grid shape is given, and requires a callable for analytical; create_writer accepts exactly mat and vtk. Everything else raises.", "quantifier": "for every string, optional grid shape and optional callable", "why_tests_cant": "All strings.", "anchors": ["src/pyftle/integrate.py: create_integrator", "src/pyftle/interpolate.py: create_interpolator", "src/pyftle/file_writers.py: create_writer"]}
{"id": "C35", "title": "Every step uses its own snapshot and its own coordinates", "statement": "In a file-based run, the velocity field used for step k is interpolated from snapshot k located at the coordinates listed for snapshot k, whether or not the static-grid shortcut is taken.", "quantifier": "for every list of snapshots and coordinates and every step", "why_tests_cant": "Equivalence between an optimised and an unoptimised run for all file lists and steps.", "anchors": ["src/pyftle/data_source.py: FileBatchSource.get_data_for_step, update_interpolator", "src/pyftle/interpolate.py: Interpolator.update"]}
{"id": "C36", "title": "Progress protocol", "statement": "A run that integrates successfully publishes exactly (id,0), (id,1), ..., (id,n-1), (id,'done') in this order, one progress message per integrated snapshot; a run failing at step k publishes exactly the first k progress messages and never 'done'.", "quantifier": "for every number of steps and every failing step", "why_tests_cant": "All step counts and crash points.", "anchors": ["src/pyftle/ftle_solver.py: FTLESolver.run"]}
{"id": "C37", "title": "The FTLE is normalised by the time actually integrated", "statement": "The period used to normalise the FTLE equals the total time over which the particles were advected.", "quantifier": "for every number of snapshots and time step", "why_tests_cant": "Off by one step: the relative error tends to 0 with many snapshots, so tolerance-based tests pass.", "anchors": ["src/pyftle/ftle_solver.py: FTLESolver.run, _compute_ftle"]}
{"id": "C38", "title": "Analytical runs evaluate the velocity at the batch times", "statement": "In an analytical run, step k of field i evaluates the user's velocity function at time (i+k)*dt, so that different fields start at different times.", "quantifier": "for every velocity function, field index and step", "why_tests_cant": "Steady test flows cannot reveal which time is passed.", "anchors": ["src/pyftle/api.py: AnalyticalSolver._create_batches, run", "src/pyftle/data_source.py: AnalyticalBatchSource.update_interpolator", "src/pyftle/interpolate.py: AnalyticalInterpolator"]}
{"id": "C39", "title": "Running the same batch again gives the same field", "statement": "Calling run twice on the same solver object returns the same FTLE field.", "quantifier": "for every source, integrator and number of repetitions", "why_tests_cant": "Hidden state (mutated seed particles, stored AB2 velocity) shows only in particular combinations.", "anchors": ["src/pyftle/ftle_solver.py: FTLESolver.run", "src/pyftle/data_source.py: FileBatchSource.get_particles, AnalyticalBatchSource.get_particles", "src/pyftle/integrate.py: AdamsBashforth2Integrator"]}
{"id": "C40", "title": "'done' is published only after the result exists", "statement": "When a task is reported as done on the progress queue, its FTLE field has been computed and, if a writer is configured, written.", "quantifier": "for every crash point during FTLE evaluation and writing", "why_tests_cant": "Quantifies over crash points between two effects.", "anchors": ["src/pyftle/ftle_solver.py: FTLESolver.run"]}
{"id": "C41", "title": "End-to-end FTLE of linear flows", "statement": "For a linear velocity field v(x) = A x and axis-aligned seeds, a complete Euler (RK4) run of p steps of size h reports for every group the FTLE (1/((p-1)|h|)) ln ||M^p||, with M the one-step matrix of the integrator, and an AB2 run the one of the matrix M_p of its two-step recurrence, independent of group position and spacing.", "quantifier": "for every A, h, p >= 2, seed set, dimension 2 and 3", "why_tests_cant": "Composition of all stages for all inputs.", "anchors": ["src/pyftle/ftle_solver.py: FTLESolver.run, _compute_ftle", "src/pyftle/integrate.py", "src/pyftle/cauchy_green.py", "src/pyftle/ftle.py"]}
{"id": "C42", "title": "The FTLE converges to the exact exponent as the time step is refined", "statement": "For the stretching flow v = (a x, -a y), with the total period fixed and the time step tending to 0, the FTLE reported by an Euler, AB2 or RK4 run converges to the exact value |a|.", "quantifier": "limit over all refinements", "why_tests_cant": "A limit statement.", "anchors": ["src/pyftle/ftle_solver.py: FTLESolver.run, _compute_ftle", "src/pyftle/integrate.py"]}
{"id": "C43", "title": "Batches are exactly the sliding windows", "statement": "n snapshots with p snapshots per flow-map period give exactly n-p+1 tasks; task i uses snapshots i..i+p-1 in order, coordinate file (i+k) mod m for its k-th snapshot and particle file i mod q.", "quantifier": "for all n, p with 1 <= p <= n, and all non-empty coordinate and particle lists", "why_tests_cant": "Index arithmetic over all list lengths; cyclic reuse interacts with window offsets.", "anchors": ["src/pyftle/__main__.py: MultipleFTLEProcessManager._create_batches"]}
{"id": "C44", "title": "Infeasible periods are reported as an error, never as partial windows", "statement": "If the period needs more snapshots than available (p > n), or p < 1, no task is ever executed and the run raises.", "quantifier": "for all n and p outside 1 <= p <= n", "why_tests_cant": "All sizes, including negative slice arithmetic.", "anchors": ["src/pyftle/__main__.py: MultipleFTLEProcessManager._create_batches, run", "src/pyftle/parallel.py: ParallelExecutor.run"]}
{"id": "C45", "title": "Backward runs use the mirrored windows with the same file pairing", "statement": "A negative time step produces the forward windows in mirrored order with reversed contents, and each snapshot keeps the coordinate file it has in the forward run.", "quantifier": "for all list lengths", "why_tests_cant": "Depends on divisibility of the lengths; equal-length or single-file tests always pass.", "anchors": ["src/pyftle/__main__.py: MultipleFTLEProcessManager._handle_time_direction, _create_batches"]}
{"id": "C46", "title": "Every task writes its own output file", "statement": "Distinct tasks of a run write to distinct output names, so no field is lost by overwriting.", "quantifier": "for all snapshot path lists and analytical time steps", "why_tests_cant": "Name collisions require particular path pairs or very small time steps.", "anchors": ["src/pyftle/data_source.py: FileBatchSource.id, AnalyticalBatchSource.id", "src/pyftle/ftle_solver.py: FTLESolver.run"]}
{"id": "C47", "title": "Number of snapshots per period", "statement": "If the period is k time steps, the number of snapshots per window is k+1 (k positive integer), with binary64 inputs and division.", "quantifier": "for every binary64 pair (T, dt) with T = k*dt", "why_tests_cant": "Rounding of the quotient before truncation depends on the exact bits of the inputs.", "anchors": ["src/pyftle/__main__.py: MultipleFTLEProcessManager._create_batches", "src/pyftle/api.py: AnalyticalSolver.__init__"]}
{"id": "C48", "title": "Results are returned in task order for every completion order", "statement": "If all tasks succeed, the executor returns the list whose i-th entry is the result of the i-th task, whatever the order in which workers start and finish.", "quantifier": "for every task list, worker count >= 1 and schedule", "why_tests_cant": "All interleavings.", "anchors": ["src/pyftle/parallel.py: ParallelExecutor.run"]}
{"id": "C49", "title": "A failing task always surfaces", "statement": "If at least one task fails, the executor never returns normally: it raises the exception of the first failed task it observes, no matter which tasks finished before.", "quantifier": "for every task list, outcome assignment and schedule", "why_tests_cant": "All interleavings and failure patterns.", "anchors": ["src/pyftle/parallel.py: ParallelExecutor.run"]}
{"id": "C50", "title": "Scheduling safety and termination", "statement": "At no time do more than n_processes tasks run, no task is started twice, and as long as the caller has neither returned nor raised some progress is possible; every schedule is finite.", "quantifier": "for every task list, worker count >= 1 and schedule", "why_tests_cant": "State-space property.", "anchors": ["src/pyftle/parallel.py: ParallelExecutor.run"]}
{"id": "C51", "title": "Task isolation in the pool", "statement": "The field computed for a task by the process pool equals the field computed by a freshly constructed solver for that task alone: it does not depend on the number of processes, on the other tasks or on the schedule.", "quantifier": "for every task list, integrator and schedule", "why_tests_cant": "Hidden shared state shows only for some schedules.", "anchors": ["src/pyftle/parallel.py: ParallelExecutor.run", "src/pyftle/api.py: AnalyticalSolver._worker", "src/pyftle/__main__.py: MultipleFTLEProcessManager._worker"]}
{"id": "C52", "title": "The progress monitor never crashes and never loses a slot", "statement": "For every interleaving of the messages of at most n_processes workers, each running tasks one after another, the monitor never hits a missing bar, uses each display slot for at most one active task at a time, counts each finished task once, and ends with all slots free.", "quantifier": "for every worker count, task distribution and message interleaving", "why_tests_cant": "All interleavings.", "anchors": ["src/pyftle/parallel.py: ParallelExecutor._monitor_progress"]}
{"id": "C53", "title": "Errors are reported as documented", "statement": "A failing run raises RuntimeError as documented (and the command line entry point turns it into a clean message).", "quantifier": "for every failing task and error type", "why_tests_cant": "All error types.", "anchors": ["src/pyftle/parallel.py: ParallelExecutor.run", "src/pyftle/__main__.py: main"]}
{"id": "C54", "title": "MATLAB output keeps every value with its own location", "statement": "In the structured and the flat MATLAB output the FTLE value and the coordinates stored at the same index belong to the same particle group, every group is stored exactly once, and a mismatching grid shape raises.", "quantifier": "for every grid shape, field and centroids, 2D and 3D", "why_tests_cant": "Index permutation over all shapes.", "anchors": ["src/pyftle/file_writers.py: MatWriter.write"]}
{"id": "C55", "title": "VTK output keeps every value with its own location", "statement": "In every VTK output (2D structured, 3D structured, unstructured) the FTLE value attached to a point belongs to the particle group whose centroid is that point, and every group appears exactly once.", "quantifier": "for every grid shape, field and centroids", "why_tests_cant": "Index permutation over all shapes; invisible on symmetric fields.", "anchors": ["src/pyftle/file_writers.py: VTKWriter.write"]}
{"id": "C56", "title": "Writers validate the grid shape", "statement": "A grid shape of length other than 2 or 3, or whose product differs from the number of values, raises ValueError in both writers and nothing is written.", "quantifier": "for every grid shape and field length", "why_tests_cant": "All shapes, including empty and one-element ones.", "anchors": ["src/pyftle/file_writers.py: MatWriter.write, VTKWriter.write"]}
{"id": "C57", "title": "A writer can be reused for fields of different dimension", "statement": "What is written for a field depends on the arguments of that write call only, not on earlier writes.", "quantifier": "for every history of write calls", "why_tests_cant": "Histories.", "anchors": ["src/pyftle/file_writers.py: FTLEWriter, MatWriter.write, VTKWriter.write"]}
{"id": "C58", "title": "Grid-shape argument parsing", "statement": "A comma separated list is accepted iff it has two or three parts, each a positive integer literal (blanks allowed); the result is the list of integers with one trailing 1 removed; all other strings raise ValueError, which argparse reports as a usage error.", "quantifier": "for every string", "why_tests_cant": "All strings.", "anchors": ["src/pyftle/hyperparameters.py: parse_tuple"]}
{"id": "C59", "title": "Parsed grid shapes are usable by the writers", "statement": "Every grid shape accepted by the argument parser is a shape of length 2 or 3 and is accepted by the writers (for a field of matching size).", "quantifier": "for every accepted string", "why_tests_cant": "Composition of two components over all inputs.", "anchors": ["src/pyftle/hyperparameters.py: parse_tuple", "src/pyftle/file_writers.py: MatWriter.write, VTKWriter.write"]}
{"id": "C60", "title": "Documented command line defaults take effect", "statement": "Omitting --integrator, --interpolator or --output_format selects euler, cubic and mat as documented.", "quantifier": "for every subset of omitted options", "why_tests_cant": "All subsets.", "anchors": ["src/pyftle/hyperparameters.py: argument definitions", "src/pyftle/integrate.py: create_integrator", "src/pyftle/interpolate.py: create_interpolator", "src/pyftle/file_writers.py: create_writer"]}
{"id": "C61", "title": "File lists survive the write/read round trip", "statement": "Reading back a list written by the list writer returns the same list.", "quantifier": "for every non-empty list of paths", "why_tests_cant": "Special characters inside paths (comma, quote, NA strings).", "anchors": ["src/pyftle/file_utils.py: write_list_to_txt, get_files_list"]}
{"id": "C62", "title": "File discovery returns snapshots in time order", "statement": "The discovered list is sorted and contains exactly the entries whose name contains the pattern; if the names carry a fixed-width zero-padded index, the order of the list is the order of the indices.", "quantifier": "for every directory content, pattern without wildcard characters, and index width", "why_tests_cant": "Lexicographic versus numeric order over all indices.", "anchors": ["src/pyftle/file_utils.py: find_files_with_pattern"]}
{"id": "C63", "title": "Elapsed-time formatting", "statement": "The elapsed time is split into days, hours, minutes, seconds with 0<=h<24, 0<=m<60, 0<=s<60 that add up exactly to the elapsed whole seconds.", "quantifier": "for every non-negative duration", "why_tests_cant": "All integers.", "anchors": ["src/pyftle/decorators.py: dhms_from_seconds, date_diff_in_seconds, time_it"]}
{"id": "C64", "title": "Velocity and coordinate readers", "statement": "A velocity/coordinate file is accepted iff it holds the x and y variables of equal size (and, if present, a z variable of equal size); the result has one row per component in x, y, z order and the k-th column is the k-th entry of every variable in row-major order.", "quantifier": "for every file content", "why_tests_cant": "All key sets and shapes.", "anchors": ["src/pyftle/file_readers.py: read_velocity, read_coordinate"]}
{"id": "C65", "title": "Analytical API result shape", "statement": "A run without output returns one field for num_ftles = 1 and otherwise a stack of num_ftles fields, in start-time order, each with one value per particle group; with output it returns None and writes one file per field.", "quantifier": "for every num_ftles >= 1, particle set and schedule", "why_tests_cant": "All sizes and schedules.", "anchors": ["src/pyftle/api.py: AnalyticalSolver.run, _create_batches"]}
{"id": "C66", "title": "2x2 eigenvalue routine never yields NaN in binary64", "statement": "For every finite binary64 Jacobian whose Cauchy-Green entries do not overflow, the value under the square root computed in binary64 is non-negative.", "quantifier": "for every binary64 2x2 matrix F", "why_tests_cant": "Needs a particular pair of nearly equal stretches at rounding level; random tests rarely hit it.", "anchors": ["src/pyftle/ftle.py: compute_cauchy_green_2x2, max_eigenvalue_2x2, compute_ftle_2x2"]}
{"id": "C67", "title": "FTLE functions use the magnitude of the period", "statement": "As documented (sigma = 1/|T| ln sqrt(lambda_max), T negative for backward time), compute_ftle_2x2 / compute_ftle_3x3 called with a negative period give the same field as with the positive period of the same magnitude.", "quantifier": "for every batch of Jacobians and every non-zero period", "why_tests_cant": "The sign convention has to hold for all batches and periods; the solver itself never passes a negative period, so tests through the solver cannot see it.", "anchors": ["src/pyftle/ftle.py: compute_ftle_2x2, compute_ftle_3x3"]}
{"id": "C68", "title": "After a failure is reported nothing new is started", "statement": "As documented ('all remaining tasks are immediately canceled', 'all ongoing computations are stopped'), once the exception of a failing task has been raised by the executor no further task is started.", "quantifier": "for every task list, worker count, outcome assignment and schedule", "why_tests_cant": "Whether a task still starts depends on the position of the call queue at the moment of the failure; a test sees one schedule.", "anchors": ["src/pyftle/parallel.py: ParallelExecutor.run"]}
{"id": "C69", "title": "The monitor process ends with the run", "statement": "Whenever ParallelExecutor.run ends, normally or by an exception, the monitor process has been told to stop, so that no process is left behind.", "quantifier": "for every task list, outcome assignment and schedule", "why_tests_cant": "A test would have to hit the exception paths of the error handler itself, and a hanging child process shows only at interpreter exit.", "anchors": ["src/pyftle/parallel.py: ParallelExecutor.run, _monitor_progress", "src/pyftle/data_source.py: AnalyticalBatchSource.id", "src/pyftle/api.py: AnalyticalSolver._create_batches"]}
{"id": "C70", "title": "Results do not depend on uninitialised memory", "statement": "The field, the exception and the progress messages of a run of a new solver are determined by its inputs: they do not depend on the contents of memory obtained by np.empty / np.empty_like.", "quantifier": "for all inputs, interpolators, integrators, numbers of steps and memory contents", "why_tests_cant": "Fresh memory is usually zero, so a test passes although a value is read that was never written; the statement is about all memory contents.", "anchors": ["src/pyftle/ftle_solver.py: FTLESolver.run", "src/pyftle/integrate.py", "src/pyftle/interpolate.py"]}
{"id": "C71", "title": "Both output formats agree on which node has which value", "statement": "With the same structured grid shape the MAT and VTK outputs assign to every grid node the value of the same particle group.", "quantifier": "for every grid shape and field", "why_tests_cant": "The two writers use different index orders; square grids, constant fields or comparing flattened arrays hide it.", "anchors": ["src/pyftle/file_writers.py: MatWriter.write, VTKWriter.write"]}
{"id": "C72", "title": "Exit status 0 means that every task was computed", "statement": "If a command-line run ends with exit status 0 then every task has returned its result; if a task fails or a worker process dies the status is non-zero.", "quantifier": "for every list of tasks, outcome of each task and interleaving of caller, pool and workers", "why_tests_cant": "It ranges over all interleavings and all ways a task or worker can fail; a test exercises a successful run.", "anchors": ["src/pyftle/__main__.py: main", "src/pyftle/parallel.py: ParallelExecutor.run", "src/pyftle/decorators.py: time_it"]}
{"id": "C73", "title": "What a run saves", "statement": "Running a solver with an output writer performs the same computation and sends the same progress messages as without; the file contains exactly one record per particle group, the FTLE value of the group together with the mean position of its seeds. If the structured shape does not fit the number of groups, the run raises ValueError and writes nothing.", "quantifier": "for all solvers, sources, fields, shapes and both writers (structured: MAT)", "why_tests_cant": "Tests check the writers on hand-made arrays and the solver without output; the association of values and centroids through a whole run is for all inputs.", "anchors": ["src/pyftle/ftle_solver.py: FTLESolver.run", "src/pyftle/file_writers.py: MatWriter.write, VTKWriter.write", "src/pyftle/particles.py: NeighboringParticles.initial_centroid"]}
{"id": "C74", "title": "One flow map for all seeds", "statement": "For a velocity source that acts on points, a run is determined by one map of the space: whatever the seeds and their number, the returned field is the FTLE kernel applied, group by group, to the central differences of that map over the group (and the run raises exactly when one of these evaluations raises).", "quantifier": "for all sources, interpolators, integrators, seed arrays and group counts, in 2-D and 3-D, any arithmetic", "why_tests_cant": "A test compares one seed array with one expected field; that the same map serves every seed array quantifies over all of them.", "anchors": ["src/pyftle/ftle_solver.py: FTLESolver.run, _compute_ftle", "src/pyftle/integrate.py", "src/pyftle/cauchy_green.py"]}
{"id": "C75", "title": "The value of a group does not depend on the other groups", "statement": "If a run succeeds, every run of the same flow on a selection, permutation or repetition of its particle groups succeeds, and each group receives the value it received in the first run.", "quantifier": "for all sources, all four interpolators, all integrators, all seed arrays and all maps from groups to groups, in 2-D and 3-D, any arithmetic", "why_tests_cant": "Splitting or reordering seeds has exponentially many cases and shared work buffers, and vectorised code could mix rows for particular sizes only.", "anchors": ["src/pyftle/ftle_solver.py: FTLESolver.run", "src/pyftle/interpolate.py", "src/pyftle/integrate.py", "src/pyftle/particles.py"]}
{"id": "C76", "title": "Opposite neighbours may be exchanged", "statement": "Exchanging the left and right, top and bottom or front and back seed blocks changes neither the returned field nor the centroids; the order right, left of the class documentation and the order left, right of the code are interchangeable.", "quantifier": "for all sources, interpolators, integrators, seeds and combinations of exchanges, in 2-D and 3-D; field also in binary64 arithmetic", "why_tests_cant": "It relates two runs for all inputs and relies on a sign symmetry of the arithmetic at every operation.", "anchors": ["src/pyftle/particles.py: NeighboringParticles", "src/pyftle/cauchy_green.py", "src/pyftle/file_readers.py: read_seed_particles_coordinates"]}
{"id": "C77", "title": "The command-line program from arguments to output directory", "statement": "For well-formed arguments (plain file lists, one coordinate and one particle file per snapshot or one for all, a period of p snapshots not longer than the list, supported option values) the program starts N-p+1 tasks; if it ends normally, the results are, in order of the snapshots, what each task yields when it is run alone with a new integrator and writer, and with distinct stems the output directory then contains exactly one file per start snapshot with that result and is otherwise unchanged. If a task fails the program ends with the exception of a failing task; a period longer than the list ends with status 1.", "quantifier": "for all file systems, arguments, arithmetic, numbers of processes, schedules and contents of uninitialised memory", "why_tests_cant": "It composes parsing, file lists, batching, workers, pool and writers for every schedule and every input; tests run one schedule of a toy input.", "anchors": ["src/pyftle/__main__.py: MultipleFTLEProcessManager, main", "src/pyftle/file_utils.py", "src/pyftle/parallel.py: ParallelExecutor.run", "src/pyftle/ftle_solver.py: FTLESolver.run"]}
{"id": "C78", "title": "The file-list script", "statement": "create_list_of_input_files.py sorts the MAT files below a directory into three lists by the words velocity, coordinate and particles: each file goes to one list, only .mat files are listed, a warning is printed exactly for the empty lists, the lists can be read back by the program and, for zero-padded names, are in time order.", "quantifier": "for all directory contents", "why_tests_cant": "There are no tests of the script; names that contain several keywords, or keywords in directory names, need all directory contents.", "anchors": ["create_list_of_input_files.py", "src/pyftle/file_utils.py"]}
{"id": "C79", "title": "An executor can be used again", "statement": "A second call of ParallelExecutor.run on the same object behaves as the first call on a new object: the same results and schedules are possible and the monitor follows the new tasks until the last is done.", "quantifier": "for all jobs, histories of the executor, schedules and messages", "why_tests_cant": "It depends on which messages the monitor had read when it was terminated, a race that a test does not control.", "anchors": ["src/pyftle/parallel.py: ParallelExecutor.__init__, _monitor_progress, run"]}
{"id": "C80", "title": "A solver can be run again", "statement": "Two calls of AnalyticalSolver.run on the same object return the same field: the particles and the integrator of the caller are untouched, since the workers change pickled copies.", "quantifier": "for all solvers with a new integrator, all schedules and contents of uninitialised memory", "why_tests_cant": "Equality of two runs has to hold for every interleaving of the workers and every content of their memory.", "anchors": ["src/pyftle/api.py: AnalyticalSolver.run", "src/pyftle/parallel.py", "src/pyftle/particles.py"]}
{"id": "C81", "title": "Hand-written file lists", "statement": "A file list may use the line ends of any system, may contain empty lines anywhere and need not end with a line end: the paths read are the non-empty lines, in order.", "quantifier": "for all lists of plain paths and all mixtures of line ends between them", "why_tests_cant": "The tests use one list written by to_csv; the mixtures of line ends are infinitely many.", "anchors": ["src/pyftle/file_utils.py: get_files_list"]}
{"id": "C82", "title": "Refinement in time converges to the exact flow", "statement": "For a continuously differentiable, possibly unsteady, velocity field, if a period T (of either sign) is divided into p - 1 steps and the velocities evaluated at the steps approach those of the field along the trajectories of the seeds, then for p to infinity the FTLE field of a run converges, for every integrator (Euler, AB2, RK4), to (1/|T|) ln of the largest stretch of the matrix of central differences of the exact flow map.", "quantifier": "for all smooth fields, periods, seeds in groups, integrators, families of sources", "why_tests_cant": "It is a limit over all step sizes for all flows; a test can only compare a few step sizes of a flow with known solution.", "anchors": ["src/pyftle/ftle_solver.py: FTLESolver.run", "src/pyftle/integrate.py", "src/pyftle/ftle.py", "src/pyftle/cauchy_green.py"]}
{"id": "C83", "title": "The field converges to the finite-time Lyapunov exponent", "statement": "If the neighbours of each centre are at distance delta, then, as delta tends to 0 and the steps are refined, the reported values converge to (1/|T|) ln of the spectral norm of the derivative of the exact flow map at the centre, which is the definition of the finite-time Lyapunov exponent, for every integrator.", "quantifier": "for all smooth fields whose flow map is differentiable at the centres, periods, centres, integrators", "why_tests_cant": "It is an iterated limit for all flows; tests compare with tolerance on one grid.", "anchors": ["src/pyftle/ftle_solver.py: FTLESolver.run", "src/pyftle/integrate.py", "src/pyftle/ftle.py", "src/pyftle/cauchy_green.py", "src/pyftle/particles.py"]}
{"id": "C84", "title": "Error bound of a whole run on gridded data", "statement": "For velocity files that sample a Lipschitz velocity field on a uniform grid, read with the fast grid interpolator, every value of the FTLE field differs from (1/T) ln of the largest stretch sigma of the central differences of the exact flow by at most (1/T) b / (sigma - b), with b an explicit expression in the grid spacing, the timestep, the Lipschitz constant, the speed and the acceleration, as long as the trajectories keep a margin to the border of the grid; T = (n - 1) |h| and the exact flow is taken over n h for n snapshots.", "quantifier": "for all fields, grids, numbers of snapshots, timesteps of either sign, seeds in groups, integrators, in 2-D and 3-D", "why_tests_cant": "A test compares one run of one flow to a tolerance; the bound holds for every grid, timestep and flow.", "anchors": ["src/pyftle/ftle_solver.py: FTLESolver.run", "src/pyftle/integrate.py", "src/pyftle/interpolate.py: HighPerfInterpolator", "src/pyftle/grid_interp/GridInterp.cpp", "src/pyftle/cauchy_green.py", "src/pyftle/ftle.py"]}
{"id": "C85", "title": "Accuracy of the 2-D FTLE kernel in binary64", "statement": "With a square root accurate to one rounding and a logarithm of relative error kappa, compute_ftle_2x2 evaluated in binary64 returns, for every Jacobian with largest stretch sigma >= 2^-200 and every period T with 0 < |T| <= 2^1000, NaN or a number within (2^-23 + (kappa + 2^-51) |ln sigma|) / |T| of (1/T) ln sigma. It is never NaN when the two stretches differ by a relative 2^-22, and the constant 2^-23 improves to 2^-46 when one stretch is at least twice the other. NaN does occur for nearly equal stretches.", "quantifier": "for all lists of binary64 2x2 matrices without overflow, periods of either sign, and libraries within the accuracy", "why_tests_cant": "A worst-case rounding bound over all matrices; sampled matrices cannot show that no worse one exists.", "anchors": ["src/pyftle/ftle.py: compute_cauchy_green_2x2, max_eigenvalue_2x2, compute_ftle_2x2"]}
{"id": "C86", "title": "Accuracy of a whole 2-D run in binary64", "statement": "A 2-D run over n >= 2 snapshots in which every operation of the integrator, the Jacobian, the period and the FTLE kernel is rounded to binary64 completes, and each value is NaN or within (2^-22 + 1.02 b/(sigma-b) + (kappa + 2^-50) |ln sigma|)/T of (1/T) ln sigma, where T = (n-1)|h|, sigma is the largest stretch of the exact differences of the exact final positions (after n steps), and b is an explicit bound made of the velocity error, the time step, the rounding of one step and the distances of the neighbours. NaN is excluded when the two stretches differ clearly; 2^-22 becomes 2^-45 when they differ by a factor of about two.", "quantifier": "for all flows with bounded speed and acceleration along the trajectories, all velocity sources within eps + L distance of the flow near them, all integrators, step counts, steps of either sign, seeds and accurate libraries", "why_tests_cant": "It bounds the accumulated rounding of arbitrarily long runs over all flows and seeds; a test compares one run with one reference that is itself rounded.", "anchors": ["src/pyftle/integrate.py", "src/pyftle/ftle_solver.py", "src/pyftle/ftle.py", "src/pyftle/particles.py"]}
{"id": "C87", "title": "Accuracy of a gridded 2-D run in binary64", "statement": "A 2-D run over gridded snapshots with the fast interpolator, in which the index coordinates, the cell search, the bilinear kernel, the integrator, the Jacobian and the FTLE kernel are all rounded to binary64, completes and satisfies the bound of C86 with velocity error (1 + 2^-47)(nu + L((1 + 2^-19) max(dx, dy) + zeta)) + 2^-47 B + 2^-1069 and Lipschitz constant (1 + 2^-47) L, where nu is the error of the samples, zeta the deviation of the nodes from an equally spaced grid and B the speed. The trajectories stay in the grid with a margin r, and away from its last row and column by more than 2^-50 n spacings.", "quantifier": "for all flows, grids of at least two nodes per axis, node and sample errors, snapshot counts, integrators, steps of either sign and seeds, on C++ targets with ISO or x86-64 conversions and separately rounded operations", "why_tests_cant": "Cell search on rounded coordinates is discontinuous and a wrong cell needs a point within one rounding error of a node; a test does not hit these points, and it covers one grid.", "anchors": ["src/pyftle/grid_interp/GridInterp.cpp", "src/pyftle/interpolate.py", "src/pyftle/integrate.py", "src/pyftle/ftle.py"]}
{"id": "C88", "title": "Convergence to the exponent of the variational equation", "statement": "For a continuously differentiable velocity field it is enough that the centres themselves have trajectories: points around them then have trajectories too, the flow map is differentiable at the centres, its derivative is the solution M of the variational equation M' = (grad v) M, M(t0) = 1, which is invertible, and the values of runs with ever smaller groups around the centres and ever more snapshots approach (1/|T|) ln of the largest stretch of M(t0 + T). For a smooth steady field with a Lipschitz constant given to the analytical API nothing else is supposed.", "quantifier": "for all continuously differentiable 2-D and 3-D fields, centres whose trajectories exist over the period, signed periods, integrators, and velocities which approach the flow in a band around these trajectories", "why_tests_cant": "It is a limit statement about all smooth fields; a test compares one field with a known flow map at one resolution.", "anchors": ["src/pyftle/ftle_solver.py", "src/pyftle/integrate.py", "src/pyftle/cauchy_green.py", "src/pyftle/ftle.py"]}
{"id": "C89", "title": "Missing velocities stay with their group", "statement": "If some velocities are missing (NaN), a run with at least two snapshots and a non-zero step ends normally; a group gets NaN exactly if one of its particles meets a missing velocity at some stage, and every other group gets the exponent of the flow of the known velocities: NaN neither spreads to other groups nor disappears.", "quantifier": "for all velocity sources with NaNs evaluated pointwise, 2-D and 3-D, integrators, numbers of snapshots and groups with separated neighbours", "why_tests_cant": "It relates every pattern of missing data to every group; a test masks a few points of one field.", "anchors": ["src/pyftle/integrate.py", "src/pyftle/cauchy_green.py", "src/pyftle/ftle.py:118", "src/pyftle/ftle_solver.py"]}
{"id": "C90", "title": "Missing samples in the grid kernels", "statement": "The result of the fast grid interpolation at a point of the cells is NaN exactly if a sample with positive weight at that point is missing; otherwise it is the weighted sum of the samples.", "quantifier": "for all 2-D and 3-D arrays with NaN entries and all points in the cells, on machines with exact int conversion", "why_tests_cant": "The exceptional points have measure zero, so random queries do not find them, and a node test with one masked neighbour must choose the right side.", "anchors": ["src/pyftle/grid_interp"]}
{"id": "C91", "title": "Runs on masked grids do not depend on the mask values", "statement": "For gridded 2-D snapshots with missing samples on x86-64, a run ends normally, a group gets NaN exactly if one of its particles is evaluated in a cell with a missing corner, and the value of every other group is the exponent of the flow interpolated from any completion of the data.", "quantifier": "for all grids, patterns of missing samples in every snapshot, completions, integrators, numbers of snapshots and groups, provided no particle reaches cell number 2^31 - 1", "why_tests_cant": "It quantifies over all masks and all possible completions.", "anchors": ["src/pyftle/grid_interp", "src/pyftle/interpolate.py", "src/pyftle/ftle_solver.py", "src/pyftle/integrate.py", "src/pyftle/ftle.py"]}
{"id": "C92", "title": "Queries do not influence each other", "statement": "The answer of an interpolator to a query depends on the data it was given and on the query, not on earlier queries or on what uninitialised memory holds: after any sequence of updates and queries (failed ones included) a query gets the answer an object with the same updates and no queries would give.", "quantifier": "for all interpolator classes, sequences of updates and queries of any shapes, memory contents and final queries", "why_tests_cant": "It quantifies over all histories of an object with hidden buffers.", "anchors": ["src/pyftle/interpolate.py"]}
{"id": "C93", "title": "Shapes of velocity arrays", "statement": "An integrator accepts a velocity array exactly if its shape can be stretched to that of the positions, and otherwise raises ValueError with the particles unmoved and nothing sent, computed or written; an accepted array moves each entry by the step times the entry lying under it, so a single vector moves all particles alike, and the transposed layout announced by the annotations is refused.", "quantifier": "for all integrators with fitting buffers, shapes, steps, particle arrays and velocity functions", "why_tests_cant": "It quantifies over all shapes a user function may return; tests use the one layout that works.", "anchors": ["src/pyftle/integrate.py:177", "src/pyftle/integrate.py:223", "src/pyftle/integrate.py:291", "src/pyftle/ftle_solver.py:95"]}
{"id": "C94", "title": "Coverage of the fast interpolator in binary64", "statement": "In binary64 the fast interpolator covers along each axis exactly the numbers from the first node on and before the last one: it finds cells in order, a covered point gets the combination of the samples around it with weights between 0 and 1, and every other point gets 0.", "quantifier": "for all axes with binary64 ends and normal spacing, numbers of nodes below 2^31, binary64 points, fields, and both machines", "why_tests_cant": "Rounding of the spacing decides about points next to the last node and depends on the number of nodes; tests use a few grids and points well inside.", "anchors": ["src/pyftle/interpolate.py", "src/pyftle/grid_interp/GridInterp.cpp:104", "src/pyftle/grid_interp/grid_interp.py:30"]}
{"id": "C95", "title": "Units and origin do not matter", "statement": "If lengths are converted to other units and another origin (x -> a x + b with one b per axis), times to other units (t -> tau t) and velocities accordingly, in all files, the seeds, the velocity function, the times and the time step, then a run raises the same exception or produces the old FTLE field divided by tau, the same events happen in the same order, and the centroids written are the converted ones.", "quantifier": "for all conversions with positive a and tau, all file systems, velocity functions, integrators, new interpolators that assign all velocity components, writers, and contents of uninitialised memory", "why_tests_cant": "Equivariance is a statement about pairs of runs on arbitrary data; any unit-dependent constant (tolerance, default spacing, missing factor) breaks it only for some data.", "anchors": ["src/pyftle/ftle_solver.py", "src/pyftle/interpolate.py", "src/pyftle/integrate.py", "src/pyftle/cauchy_green.py", "src/pyftle/ftle.py", "src/pyftle/particles.py"]}
{"id": "C96", "title": "Grid data are located by their coordinates", "statement": "With a grid shape, each velocity sample is attached to the position given for it in the coordinate file: interpolating at the position of data point k returns the velocity of data point k. (False of the code: only the smallest and largest value of each coordinate row are used; a stretched grid, or one listed with a descending axis, is silently read as an evenly spaced ascending grid.)", "quantifier": "for all coordinate arrays and velocities on grids of every size; for the run, all file systems that differ in the interior coordinates only, all schedules and integrators", "why_tests_cant": "Tests use evenly spaced ascending grids, where the coordinates and the assumed positions agree; the statement is about every other coordinate array.", "anchors": ["src/pyftle/interpolate.py:365-401", "src/pyftle/interpolate.py:602-687", "src/pyftle/grid_interp/grid_interp.py:30"]}
{"id": "C97", "title": "The field does not depend on the motion of the observer", "statement": "If the same flow is recorded by an observer in motion (all positions shifted by the displacement of the observer at that time, all velocities by its velocity), a run on the recorded snapshots gives the same FTLE field. (False of the code for Runge-Kutta 4, whose stages use one snapshot for the whole step, and for particles outside the grid, whose velocity is 0 for every observer.)", "quantifier": "for all gridded snapshots (any size, number, spacing, values), seeds, numbers of groups, displacements of the observer (Euler: any motion, Adams-Bashforth: uniform motion), in 2-D and 3-D", "why_tests_cant": "It relates two runs on different data for every motion of the observer; one comparison of two data sets says nothing about the others.", "anchors": ["src/pyftle/ftle_solver.py", "src/pyftle/integrate.py", "src/pyftle/interpolate.py:602-687", "src/pyftle/cauchy_green.py"]}
{"id": "C98", "title": "What the command line means", "statement": "The command line is a sequence of NAME VALUE and NAME=VALUE in any order, names may be shortened as long as they are unambiguous, of repeated options the last counts, and the options of the program are exactly these values; every other line ends with a usage error (or help). A negative snapshot_timestep selects backward time in whatever notation it is written. (False of the code: -1e-3, -inf or -1. as a separate argument is taken for an unknown option and the run is refused.)", "quantifier": "for all lists of arguments (any strings), all behaviours of float(), all character tables", "why_tests_cant": "The set of command lines is infinite, and abbreviations, repeated options, blanks, dashes and number formats interact; a test tries a few lines.", "anchors": ["src/pyftle/hyperparameters.py:93-258", "README.md:175-225"]}
{"id": "C99", "title": "The output folder", "statement": "All files of a command line run are in outputs/<experiment_name>; nothing else on the disk is changed except that missing directories on the way are made; an output folder that cannot be made is reported by the constructor, and before anything is computed; after the run the folder holds exactly the files of the run. (False of the code in four ways: absolute names and .. lead elsewhere; the OSError is only printed, all fields are computed and then lost; files of earlier runs stay; for a path with both . and .. the error can go unnoticed. The API with an empty name reports an error and then writes to the working directory.)", "quantifier": "for all file systems (trees of directories and files, arbitrary permissions to create and overwrite), all working directories, all path strings, all lists of files", "why_tests_cant": "The outcome depends on what is on the disk at every location the path passes; a test creates one folder in one temporary directory.", "anchors": ["src/pyftle/file_writers.py:32-44", "src/pyftle/file_writers.py:121", "src/pyftle/file_writers.py:219", "src/pyftle/__main__.py:83-86", "src/pyftle/api.py:119-123"]}
{"id": "C100", "title": "What a configuration file means", "statement": "pyftle -c FILE and any further options mean: the entries of FILE in front of the command line, the last value of an option counts. So an option on the command line, in any spelling, has its value there whatever the file says; otherwise the value of the last entry for it in the file; otherwise it is unset and was not mandatory. The lines KEY: VALUE, KEY = VALUE, KEY VALUE with plain or quoted values and comments are read as these entries, a repeated key being one entry at the place of its first line with the value of its last line. The result satisfies what the rest of the program relies on; every other command line ends with status 2 or with the help.", "quantifier": "for all command lines, all files (any text, \\n or \\r\\n line breaks), all interpretations of float(), of digits and of white space", "why_tests_cant": "The meaning is a relation over all command lines and texts; the repository has no test of it and one example file.", "anchors": ["src/pyftle/hyperparameters.py:149-154", "src/pyftle/hyperparameters.py:256-257", "config.yaml:1-12", "README.md:94", "README.md:166-175"]}
{"id": "C101", "title": "Mistakes in the configuration file are noticed, replaced entries are not looked at", "statement": "An entry whose key is not the name of an option stops the program. An entry for an option that the command line also has does not matter, even if its value is invalid. (False of the code: an abbreviated key such as integ is taken for the option, an unknown key with the value [] is passed over; an invalid entry stops the program if the command line has the option in abbreviated form. YAML lists such as [128, 128] are refused for every option.)", "quantifier": "for all command lines and files", "why_tests_cant": "A test tries one misspelt key; the claim is about all keys, and is false for some of them.", "anchors": ["src/pyftle/hyperparameters.py:149-154", "src/pyftle/hyperparameters.py:256-257", "config.yaml:1-12"]}
{"id": "C102", "title": "Order of accuracy of the integrators", "statement": "Euler is of first, Adams-Bashforth 2 of second and Runge-Kutta 4 of fourth order, as documented: on smooth flows, n steps of size h within a fixed time end within C h^p of the exact position, plus C times the error of the velocities; C does not depend on h or n. (False of the code for RK4 on unsteady flows: all its stages use one snapshot, the error is exactly n h^2/2 for the velocity t, so of first order only.)", "quantifier": "for all flows of class C^1, C^2, C^4 (RK4: steady; order one: all methods, all flows of class C^1), all compact time intervals, all trajectories, all h below a threshold of either sign, all n, all velocity errors, all seed arrays", "why_tests_cant": "An order is a bound with a constant for all steps and flows; a test compares two step sizes in one flow.", "anchors": ["src/pyftle/integrate.py:161-195", "src/pyftle/integrate.py:204-258", "src/pyftle/integrate.py:265-330"]}
{"id": "C103", "title": "Order of accuracy of the field", "statement": "The value of every group differs from (1/T) ln of the largest stretching of the exact positions by at most (1/T) C (h^p + error of the velocities), p the order of the integrator and T the period the code divides by. (False of the code against the exponent over the period T itself: p snapshots give p steps but T = (p-1) h, so in the saddle (x, -y) the error times p-1 tends to 1 with AB2 and RK4, first order only.)", "quantifier": "for all smooth flows (order four of RK4: steady ones; order one: all of class C^1, for the field C^3), all groups of seeds, all sources that hand out velocities near the trajectories, all h below a threshold, all numbers of snapshots within the time", "why_tests_cant": "The claim has a constant that must hold for all runs; a test runs one.", "anchors": ["src/pyftle/ftle_solver.py: FTLESolver.run", "src/pyftle/integrate.py", "src/pyftle/cauchy_green.py", "src/pyftle/ftle.py"]}
{"id": "C104", "title": "Order of accuracy of runs from gridded files", "statement": "With velocities sampled on a uniform grid and the fast interpolator, the value of every group differs from (1/T) ln of the largest stretching of the exact positions by at most (1/T) C (h^p + max(dx, dy, dz)^2): the order of the integrator in time, second order in space.", "quantifier": "for all smooth flows (order four of RK4: steady ones; order one: all of class C^1, for the field C^3), all groups of seeds, all uniform grids around the trajectories (3-D: as many nodes in x as in y), all h and spacings below a threshold", "why_tests_cant": "A bound with one constant for all grids and steps; tests compare a few grids.", "anchors": ["src/pyftle/grid_interp/GridInterp.cpp", "src/pyftle/interpolate.py: HighPerfInterpolator", "src/pyftle/integrate.py", "src/pyftle/ftle_solver.py: FTLESolver.run"]}
{"id": "C105", "title": "From the command line to the disk", "statement": "A call of pyftle whose command line, configuration file and lists of files together ask for an experiment starts it, whatever the way of asking; when the process pool returns, whatever the interleaving, every field is in outputs/NAME in a file named after the first snapshot of its window, with the values a fresh solver computes from that window alone; nothing else on the disk has changed except the directories on the way. A call refused before the process pool starts leaves the disk as it was.", "quantifier": "for all command lines, configuration files, lists, disks, environments, schedules, orders of saving; experiments with as many snapshots as asked for and relative names", "why_tests_cant": "Joins the command line, the configuration, the schedule of the processes and the state of the disk: a test fixes all four.", "anchors": ["src/pyftle/__main__.py:44-231", "src/pyftle/hyperparameters.py", "src/pyftle/file_writers.py", "src/pyftle/ftle_solver.py"]}
{"id": "C106", "title": "From the command line to accurate files", "statement": "A call of pyftle with --interpolator grid and .mat or VTK output, on files that hold a flow sampled on a uniform grid, runs to its end, and leaves in outputs/NAME, for every field, a file named after the snapshot at which the field starts; the file has one record per group: the mean position of the seeds, and a value that differs from ln(sigma)/T by at most (1/T) e/(sigma-e), where sigma is the largest stretching of the group by the exact flow from the time of that snapshot and e the error of the stretching, proportional to time step and grid spacing.", "quantifier": "for all command lines and configuration files that ask for the experiment, all flows with Lipschitz velocity, all trajectories that stay in the grid, both directions of time, all integrators, all numbers of fields and processes, all schedules, all contents of the memory", "why_tests_cant": "Joins everything between the command line and the values on the disk for all flows; a test has one flow and one grid.", "anchors": ["src/pyftle/__main__.py:44-231", "src/pyftle/hyperparameters.py", "src/pyftle/ftle_solver.py", "src/pyftle/interpolate.py: HighPerfInterpolator", "src/pyftle/integrate.py", "src/pyftle/file_writers.py"]}
{"id": "C107", "title": "From an API call to the disk", "statement": "AnalyticalSolver(..., save_output=True).run() returns None and leaves num_ftles files ftle_<start time>.mat or .vtp in the folder output_dir_name (relative to the working directory); file i has one record per particle group: the mean of its seeds and the value that a fresh solver computes for start time i alone. Nothing else on the disk changes except the directories on the way. Without output_dir_name the folder is named by the clock, so that no results of an earlier call are lost.", "quantifier": "for all velocity functions, seeds, time steps, numbers of fields and processes, integrators, formats, folders, clock readings, disks that take the files, schedules of the processes and contents of the memory", "why_tests_cant": "Quantifies over all schedules and all disks; two calls within one second are not a case that a test suite has.", "anchors": ["src/pyftle/api.py:57-63", "src/pyftle/api.py:119-123", "src/pyftle/api.py:195-224", "src/pyftle/file_writers.py: FTLEWriter"]}
{"id": "C108", "title": "Turning the experiment", "statement": "The FTLE field does not depend on how the experiment is drawn: renaming the axes and reversing their directions (quarter turns, mirrors), for seeds, velocity functions and gridded snapshots alike, leaves every value as it is; in 2-D binary64 arithmetic to the last bit.", "quantifier": "for all signed permutations of the axes, velocity functions, gridded snapshots (one grid per snapshot), seeds, integrators, time steps, numbers of steps and contents of the memory", "why_tests_cant": "Quantifies over all data; that rounding errors are mirrored as well is a statement about every intermediate result.", "anchors": ["src/pyftle/ftle_solver.py: FTLESolver.run", "src/pyftle/integrate.py", "src/pyftle/cauchy_green.py", "src/pyftle/ftle.py", "src/pyftle/interpolate.py: HighPerfInterpolator"]}
{"id": "C109", "title": "The tutorial for data in files computes its fields", "statement": "pyftle -c config.yaml with the configuration of examples/02_File-based_IO.ipynb (interpolator grid, one coordinate file for a fixed grid, velocity files for at least one period) computes an FTLE field for every start snapshot and saves it in outputs/example_file-based_IO; if it cannot, the exit status says so.", "quantifier": "for all lists of velocity files of at least one period, all contents of the .mat files, all schedules of the processes and contents of the memory", "why_tests_cant": "The suite never runs the fast interpolator on a file source with a fixed grid for more than one snapshot; that no data whatever make the call work is a statement about all files and schedules.", "anchors": ["examples/02_File-based_IO.ipynb", "src/pyftle/interpolate.py: HighPerfInterpolator.update", "src/pyftle/data_source.py: FileBatchSource.get_data_for_step", "src/pyftle/__main__.py: main"]}
{"id": "C110", "title": "The example notebooks show the fields they announce", "statement": "In examples/01_Closed-form_velocity.ipynb and 01_Closed-form_velocity_helical.ipynb, the seeds built from the axes are groups of points around the centres (x_i, y_j[, z_k]), the same particles result when the blocks are saved and read back (02_File-based_IO.ipynb), row j and column i of the picture (or the corresponding point of the 3-D grid) holds the value of that centre, and this value is, up to an error of the order of the integrator, the logarithm of the maximal stretching by the double gyre, for each of the consecutive start times.", "quantifier": "for all axes, spacings, amplitudes, frequencies, integrators, small steps, numbers of fields, schedules and contents of the memory", "why_tests_cant": "Notebooks are not run by the suite; accuracy and layout are statements about all axes and all sufficiently small steps.", "anchors": ["examples/01_Closed-form_velocity.ipynb", "examples/01_Closed-form_velocity_helical.ipynb", "examples/02_File-based_IO.ipynb", "src/pyftle/api.py: AnalyticalSolver", "src/pyftle/interpolate.py: AnalyticalInterpolator.interpolate"]}
{"id": "C111", "title": "From a steady velocity function to accurate arrays and files", "statement": "A call of AnalyticalSolver for a steady flow that is smooth, bounded and Lipschitz, and its run(), return; the array that is returned, or with save_output the files in the output folder under the names of the start times, hold for every group of seeds the logarithm of the maximal stretching of the differences of the exactly transported seeds divided by (n-1)|dt|, up to an error of the order of the integrator.", "quantifier": "for all such flows, all seeds with differences along the axes, all integrators, output formats and numbers of fields, all sufficiently small steps of either sign with n|dt| at most a given time, all schedules of the processes, contents of the memory and disks that take the files", "why_tests_cant": "The suite compares single numbers for a few flows with tolerances; existence of the flow, error constants and all schedules are not testable.", "anchors": ["src/pyftle/api.py: AnalyticalSolver", "src/pyftle/integrate.py", "src/pyftle/ftle.py", "src/pyftle/file_writers.py", "src/pyftle/parallel.py"]}
{"id": "C112", "title": "Accuracy of the 3-D kernel and of whole 3-D runs in binary64", "statement": "compute_ftle_3x3 in binary64 returns for every batch of Jacobians, and its value is within (11 mu + 2^-47 + (kappa + 2^-51) |ln sigma|)/|T| of (1/T) ln sigma for a largest stretch sigma of at least 2^-200; a zero period raises. A 3-D run over n >= 2 snapshots in which every operation of the integrator, the Jacobian, the period and the FTLE kernel is rounded completes, and each value is a number (never NaN) within (12 mu + 2^-46 + 1.02 b/(sigma-b) + (kappa + 2^-50) |ln sigma|)/T of (1/T) ln sigma, where T = (n-1)|h|, sigma is the largest stretch of the exact differences of the exact final positions (after n steps), and b is an explicit bound made of the velocity error, the time step, the rounding of one step and the distances of the neighbours.", "quantifier": "for all flows with bounded speed and acceleration along the trajectories, all velocity sources within eps + L distance of the flow near them, all integrators, step counts, steps of either sign, seeds and libraries of stated accuracy", "why_tests_cant": "It bounds the accumulated rounding of arbitrarily long runs over all flows and seeds; a test compares one run with one reference that is itself rounded.", "anchors": ["src/pyftle/ftle.py: compute_ftle_3x3", "src/pyftle/integrate.py", "src/pyftle/ftle_solver.py", "src/pyftle/particles.py"]}
{"id": "C113", "title": "Accuracy of gridded 3-D runs in binary64", "statement": "A 3-D run with the fast interpolator on snapshots that sample a flow up to nu at the nodes of a grid (as many nodes in x as in y), with index coordinates, cell search and trilinear kernel rounded to binary64 as well, completes, and each value is a number within the bound of C112 with the velocity error (1+2^-47)(nu + L((1+2^-19) max(dx,dy,dz) + zeta)) + 2^-47 B + 2^-1069 and the Lipschitz constant (1+2^-47) L, zeta being the deviation of the nodes from equal spacing.", "quantifier": "for all flows that are Lipschitz in space on the grid with bounded speed and acceleration along the trajectories, all grids up to the limits of the 32-bit integers, all integrators, step counts, steps of either sign, seeds whose trajectories stay in the grid, and libraries of stated accuracy", "why_tests_cant": "It bounds the accumulated rounding and interpolation errors over all flows, grids and seeds; a test compares one run with one reference that is itself rounded.", "anchors": ["src/pyftle/grid_interp/GridInterp.cpp: interp3d_vec_inplace", "src/pyftle/grid_interp/grid_interp.py: Interp3D", "src/pyftle/interpolate.py: HighPerfInterpolator", "src/pyftle/integrate.py", "src/pyftle/ftle_solver.py", "src/pyftle/ftle.py"]}
{"id": "C114", "title": "Accuracy of API calls in binary64", "statement": "A call AnalyticalSolver(...).run() for a steady flow, with the seeds, the time step, the velocity function, the integration, the Jacobian and the kernels rounded to binary64, returns (unless a process is killed) an array with one row per start time, or leaves one file per start time in its folder, whose values are numbers within the explicit bounds of C86 (2-D, NaN only if the stretches of a group are nearly equal) and C112 (3-D) of (1/T) ln sigma, sigma being the maximal stretching of the exact differences of the exact positions.", "quantifier": "for all steady flows, velocity functions that compute them up to eps + L * distance near the trajectories, seeds at least 2^-500 apart, step counts from 2 on, steps of either sign, integrators, numbers of start times and processes, interleavings of the processes, output formats and folders, and libraries of stated accuracy", "why_tests_cant": "It bounds the accumulated rounding errors over all flows and seeds and covers every interleaving of the worker processes; a test compares one run on one schedule with one reference that is itself rounded.", "anchors": ["src/pyftle/api.py", "src/pyftle/integrate.py", "src/pyftle/ftle_solver.py", "src/pyftle/ftle.py", "src/pyftle/parallel.py", "src/pyftle/file_writers.py"]}
{"id": "C115", "title": "From the command line to accurate files in binary64", "statement": "A call of pyftle with --interpolator grid and .mat or VTK output, on files of binary64 numbers that hold up to an error nu a flow sampled on a grid whose nodes are within zeta of equally spaced ones, with every operation of the interpolation, the integration, the Jacobian and the kernels rounded to binary64, runs to its end and leaves in outputs/NAME, for every field, a file named after the snapshot at which the field starts; the file has one record per group: the rounded mean of its seeds and a value within the explicit bounds of C87 (2-D; NaN only if the stretches of the group are nearly equal) and C113 (3-D) of (1/T) ln sigma, sigma being the largest stretching of the group by the exact flow from the time of that snapshot.", "quantifier": "for all command lines and configuration files that ask for the experiment, all unsteady flows with Lipschitz velocity, all trajectories that stay in the grid, both directions of time, all integrators, numbers of fields and processes, schedules, contents of the memory, and libraries of stated accuracy", "why_tests_cant": "Joins everything between the command line and the values on the disk, rounding errors included, for all flows and schedules; a test has one flow, one grid and a reference that is itself rounded.", "anchors": ["src/pyftle/__main__.py:44-231", "src/pyftle/hyperparameters.py", "src/pyftle/ftle_solver.py", "src/pyftle/interpolate.py: HighPerfInterpolator", "src/pyftle/integrate.py", "src/pyftle/ftle.py", "src/pyftle/file_writers.py"]}
{"id": "C116", "title": "Accuracy of runs on scattered data", "statement": "A call of pyftle with --interpolator nearest or linear, without --flow_grid_shape and with .mat or VTK output, on velocities known at arbitrary points of the plane (one coordinate file for all snapshots, or one for each, so that the points may move), runs to its end and leaves in outputs/NAME, for every field, a file named after the snapshot at which the field starts; the file has one record per group: the mean of its seeds and a value within an explicit bound of (1/T) ln sigma, sigma being the largest stretching of the group by the exact flow; the bound is that of C84 for velocities known up to L times the largest distance over which the interpolator blends values.", "quantifier": "for all command lines and configuration files that ask for the experiment, all unsteady flows with Lipschitz velocity, all sets of sample points and all interpolators whose value is a weighted mean of values at sample points within Delta of the query (nearest point: C116_nearest_blends; linear in triangles: C116_linear_blends), all trajectories that keep within the region where this holds, both directions of time, all integrators, numbers of fields and processes, schedules and contents of the memory", "why_tests_cant": "Covers all meshes, also moving ones, all flows and all schedules; a test has one mesh and one flow and needs a reference solution.", "anchors": ["src/pyftle/interpolate.py:116-294", "src/pyftle/interpolate.py:832-901", "src/pyftle/data_source.py:124-197", "src/pyftle/__main__.py:44-231", "src/pyftle/ftle_solver.py"]}
{"id": "C117", "title": "Documented number of FTLE fields", "statement": "After a call of pyftle the folder of the experiment holds N_snapshots - flow_map_period / snapshot_timestep files (README, FTLE Computation Details), for instance 90 for 100 snapshots, a time step of 0.01 and a period of 0.1, each computed from flow_map_period / snapshot_timestep consecutive snapshots.", "quantifier": "for all command lines and configuration files that ask for an experiment, all numbers of snapshots, all periods that are a whole number of time steps, both directions of time, all schedules of the processes", "why_tests_cant": "The outcome depends on the rounding of a quotient of two decimal numbers, which differs from one pair to the next; a test tries a few pairs.", "anchors": ["README.md:257-271", "src/pyftle/__main__.py:103-160"]}
{"id": "C118", "title": "Numbers on the command line", "statement": "The texts after --snapshot_timestep and --flow_map_period are accepted exactly if they are floating-point literals of the Python reference (sign, digits with single underscores, fraction, exponent, the words inf, infinity, nan in any case, blanks around); the value is the binary64 number nearest to the decimal number written, infinite beyond the range; a binary64 number written with 17 significant digits is read as itself; for any two accepted numbers the program gets a window length exactly if the period is finite and the time step is infinite or non-zero with a quotient in range, and otherwise stops with ZeroDivisionError, OverflowError or ValueError.", "quantifier": "for all texts, all binary64 numbers and all pairs of accepted numbers, including infinities and NaN", "why_tests_cant": "Unboundedly many texts; correct rounding needs exact arithmetic to check.", "anchors": ["src/pyftle/hyperparameters.py:192-205", "src/pyftle/__main__.py:133-136"]}
{"id": "C119", "title": "Velocity of the helical notebook", "statement": "The velocity function of the helical notebook returns at every point the velocity of the rotating helical vortex it describes, which depends on the point and the time only; the FTLE fields of the notebook are those of that flow, each group of particles on its own.", "quantifier": "for all arrays of positions, numbers of groups, constants of the vortex, integrators, time steps and numbers of steps", "why_tests_cant": "The function is a closed formula on arrays of any length; that a value depends on the other rows shows only when two different arrays are compared, and the singular points form a curve that sampled grids miss.", "anchors": ["examples/01_Closed-form_velocity_helical.ipynb:40-102", "examples/01_Closed-form_velocity_helical.ipynb:386-394", "examples/01_Closed-form_velocity_helical.ipynb:425-435", "src/pyftle/ftle.py:118-119"]}
{"id": "C120", "title": "Fluid at rest and points without data", "statement": "Where nothing moves the reported exponent is zero, and the points outside the region covered by the velocity data can be told from points where the fluid is at rest.", "quantifier": "for all groups of seeds, velocity data, integrators, time steps and numbers of steps, in real and in binary64 arithmetic", "why_tests_cant": "The value of one group must come out the same whatever the other groups and the velocities in the files are; tests fix one field and compare averages, and none places seeds outside the grid.", "anchors": ["src/pyftle/grid_interp/GridInterp.cpp: interp2d_vec_inplace, interp3d_vec_inplace", "src/pyftle/integrate.py", "src/pyftle/cauchy_green.py:16-76", "src/pyftle/cauchy_green.py:80-153", "src/pyftle/ftle_solver.py"]}
{"id": "C121", "title": "Entries of a configuration file without a value", "statement": "An entry of a configuration file that names an option and gives no value leaves the option unset or stops the program, and a comment on such a line is not taken for the value.", "quantifier": "for all configuration files, options and comments", "why_tests_cant": "The lines are matched by a backtracking regular expression over arbitrary text; the tests of the repository contain no configuration file.", "anchors": ["src/pyftle/hyperparameters.py", "config.yaml:1-12", "README.md:94", "README.md:166-175"]}
{"id": "C122", "title": "Incompressible linear flows and rotating bodies", "statement": "For a linear flow without divergence no reported value is negative, and for a rotating body, in which all distances stay the same, every reported value is zero, whatever the integrator, the time step, the number of snapshots and the direction of time.", "quantifier": "for every matrix without trace, time step other than zero, number of snapshots p >= 2, set of axis-aligned seeds, dimension 2 and 3", "why_tests_cant": "A bound over all flows of a class and all runs; the integrators change distances by amounts too small for the tolerances of tests.", "anchors": ["src/pyftle/ftle_solver.py: FTLESolver.run, _compute_ftle", "src/pyftle/integrate.py", "src/pyftle/ftle.py"]}
{"id": "C123", "title": "Commands over several lines", "statement": "A command written over several lines, with quotes, indentation and comments, as in the README, reaches the program as the options that are written; in particular the command printed in the README sets the twelve options shown, and still the others when the lines of the grid shapes are made comments as it advises.", "quantifier": "for all words, ways to quote and separate them, comments, and files", "why_tests_cant": "The tests call functions; no test passes a text through a shell, and no finite number of texts covers the ways to write a command.", "anchors": ["README.md:180-194", "src/pyftle/hyperparameters.py"]}
{"id": "C124", "title": "Seed coordinates stored as whole numbers", "statement": "The exponents depend on the values of the seed coordinates, not on the type in which the seed file (or the array given to the analytical solver) stores them: seeds stored as integers give the same field as the same seeds stored as floating-point numbers.", "quantifier": "for all seeds with integer coordinates, storage types, flows, interpolators, integrators and numbers of snapshots", "why_tests_cant": "The tests create all seeds as floating-point arrays; that the result is silently zero for integer seeds is a statement about every slow flow and every number of steps.", "anchors": ["src/pyftle/file_readers.py:134-175", "src/pyftle/integrate.py:170-342", "src/pyftle/interpolate.py:475-543", "src/pyftle/grid_interp/grid_interp.py:69-85", "src/pyftle/particles.py"]}
{"id": "C125", "title": "Affine flows", "statement": "When the velocity is A(t) x + b(t), given as a function or sampled in gridded files of any spacing, the exponent at every point is log of the greatest stretching of the matrix of the integrator (the product of its one-step matrices) over the period, as long as the method asks for velocities inside the grid: the offset b, the spacing of the grid, the spacing and the place of the seeds do not matter.", "quantifier": "for all affine flows in two and three dimensions, gradients changing from snapshot to snapshot, offsets, grids, seeds on the axes of their groups, integrators, time steps and numbers of snapshots (at least 2)", "why_tests_cant": "The gradient, the offset, the grid and the number of steps are arbitrary; the two-step method couples all snapshots.", "anchors": ["src/pyftle/integrate.py:55-342", "src/pyftle/interpolate.py:440-543", "src/pyftle/grid_interp/GridInterp.cpp:100-140", "src/pyftle/ftle.py:20-160", "src/pyftle/ftle_solver.py"]}
{"id": "C126", "title": "Forward and backward exponents of incompressible flows", "statement": "In an incompressible affine flow the exponent computed forward in time equals the exponent computed backward in time over the same snapshots.", "quantifier": "for all affine flows with trace-free gradients, integrators, time steps, numbers of snapshots, grids and seeds", "why_tests_cant": "The equality concerns two complete runs for every gradient, time step and number of snapshots; it holds although neither run is the inverse of the other.", "anchors": ["src/pyftle/integrate.py:55-342", "src/pyftle/ftle_solver.py", "src/pyftle/ftle.py:96-160", "src/pyftle/data_source.py"]}
{"id": "C127", "title": "The names of the files do not matter", "statement": "A run depends on the contents of the files it lists, not on their names or folders: two task descriptions listing files with the same contents give the same result. So when the data repeat after q snapshots the fields repeat after q windows, and when all snapshots hold the same velocities all fields are the same.", "quantifier": "for all files, file names, arithmetics, interpolators, integrators, numbers of snapshots and windows", "why_tests_cant": "The files, their names, the interpolator and its state are arbitrary; the code compares names to decide whether coordinates are read again.", "anchors": ["src/pyftle/data_source.py:124-197", "src/pyftle/file_readers.py", "src/pyftle/__main__.py:111-150", "src/pyftle/ftle_solver.py"]}
{"id": "C128", "title": "Long windows in steady flows", "statement": "In a steady flow A x + b the exponents computed by Euler or RK4 over longer and longer windows tend to log(rho)/|h|, where rho is the greatest amplification max |R(h mu)| over the complex eigenvalues mu of A in one step of the method; the exponent of n snapshots is at least n/(n-1) times that limit; and the limit differs from the greatest growth rate of the flow by at most |h| L^2 (Euler) and |h|^4 L^5 / 20 (RK4), L bounding the eigenvalues.", "quantifier": "for all matrices and offsets in two and three dimensions, seeds on the axes of their groups, time steps of either sign, numbers of snapshots", "why_tests_cant": "It is a limit over windows of unbounded length, for arbitrary matrices, also defective ones.", "anchors": ["src/pyftle/integrate.py:55-342", "src/pyftle/ftle_solver.py", "src/pyftle/ftle.py:20-160", "src/pyftle/interpolate.py:765-901"]}
{"id": "C129", "title": "Groups finer than the samples", "statement": "The value of a group depends only on the velocities its own neighbours are handed. If they are handed the same velocities at every stage of every step, as happens with the nearest-point interpolator when all neighbours share their nearest sample points, the value is exactly 0, however strongly the sampled flow stretches. If at every step they are in one affine piece A_j x + b_j of the interpolant, as on a triangle of the linear interpolator, the value is ln(sigma)/T for the product of the matrices of the pieces. Hence linear interpolation of scattered samples is exact for affine flows, whatever the triangulation, and nearest-point interpolation of the same files may report 0.", "quantifier": "for all sources, interpolators, numbers of groups, methods, time steps and windows of at least two snapshots; the pieces may differ from group to group and from step to step", "why_tests_cant": "The neighbours, pieces and sample points are arbitrary, and so are the velocities of the other groups.", "anchors": ["src/pyftle/interpolate.py:188-296", "src/pyftle/integrate.py:55-342", "src/pyftle/ftle_solver.py", "src/pyftle/cauchy_green.py"]}
{"id": "C130", "title": "Time step and distance of the seeds together", "statement": "For groups that are crosses of arm delta around their centres, the value differs from ln(sigma)/T, sigma being the maximal stretching of the deformation along the exact trajectory of the centre (the solution of the variational equation), by at most (1/T) C (|h|^order + delta^2 + eps/delta), where eps bounds the error of the velocities used. C does not depend on the time step h, the arm delta, eps or the number of steps. The powers of delta cannot be improved, and groups whose arms differ are only accurate to first order in delta.", "quantifier": "for all integrators, smooth flows (for RK4 steady ones, or unsteady ones with order one), finitely many centres, sources, time steps, arms and numbers of steps within a compact interval of times", "why_tests_cant": "A convergence study samples some pairs of step and distance in some flows; the bound has one constant for all of them.", "anchors": ["src/pyftle/integrate.py:163-342", "src/pyftle/cauchy_green.py", "src/pyftle/ftle_solver.py", "src/pyftle/particles.py"]}
{"id": "C131", "title": "Interrupting a run", "statement": "When the user interrupts a parallel run (Ctrl-C), no further task is started, the monitor process is told to stop, and the executor leaves with KeyboardInterrupt as soon as the tasks in progress have ended; it never returns a list of results.", "quantifier": "for all numbers of tasks and workers, all interleavings, all moments of the interruption inside the with block, and all sets of workers that receive the signal", "why_tests_cant": "A test would have to send a signal at every point of every schedule; the outcome depends on the state of two queues at that moment.", "anchors": ["src/pyftle/parallel.py:15", "src/pyftle/parallel.py:223-255", "src/pyftle/parallel.py:140-165", "src/pyftle/__main__.py:228-234"]}
{"id": "C132", "title": "Time step, distance of the seeds and spacing of the grid together", "statement": "For velocity files sampled on a regular grid of spacing Delta, interpolated by the fast interpolator, and groups that are crosses of arm delta, the value differs from ln(sigma)/T, sigma being the maximal stretching of the deformation along the exact trajectory of the centre, by at most (1/T) C (|h|^order + delta^2 + min(Delta, Delta^2/delta)). C does not depend on h, delta, Delta or the number of steps, and the three may tend to zero independently. In particular seeds much closer than the grid do not spoil the value; but then the error is of first order in Delta, and no bound of the form C (|h|^order + delta^2 + Delta^2) holds.", "quantifier": "for all integrators, smooth flows (for RK4 steady ones, or unsteady ones with order one), finitely many centres, regular grids containing a neighbourhood of the trajectories, time steps, arms and numbers of steps within a compact interval of times", "why_tests_cant": "The bound has one constant for all triples of step, arm and spacing; a convergence study samples some triples, usually with a fixed ratio of arm and spacing.", "anchors": ["src/pyftle/interpolate.py", "src/pyftle/grid_interp", "src/pyftle/integrate.py:163-342", "src/pyftle/cauchy_green.py", "src/pyftle/ftle_solver.py"]}
{"id": "C133", "title": "Consecutive windows", "statement": "Let a window of n1 + n2 snapshots be cut into its first n1 and last n2 snapshots, and let T be the normalisation of each of the three runs. In affine flows, which may change from snapshot to snapshot, T lambda <= T1 lambda1 + T2 lambda2, and the parts have finite values whenever the whole has. In smooth flows the same holds group by group, when the groups of the second window are placed where the centres of the first have been carried, up to C (|h|^order + delta^2 + min(Delta, Delta^2/delta)) with one constant for all time steps h, arms delta and grid spacings Delta.", "quantifier": "for all integrators, gridded files, flows of the stated kind, ways to cut a window, groups of seeds, steps, arms and spacings", "why_tests_cant": "A relation between three runs, for all flows and all cuts; a test compares some triples of runs.", "anchors": ["src/pyftle/ftle_solver.py", "src/pyftle/integrate.py:163-342", "src/pyftle/cauchy_green.py", "src/pyftle/ftle.py", "src/pyftle/__main__.py:133-166"]}
{"id": "C134", "title": "Calling the program again", "statement": "After one or more calls for an experiment that were stopped at any moment - leaving some of the directories on the way to the output folder and some of its files, complete or cut short - calling the program again for the same experiment until its end leaves the same disk, entry by entry, as a single undisturbed call would have left, whatever the interleaving, the order of saving and the contents of the memory in the two. In particular a second call after a complete one changes nothing.", "quantifier": "for all command lines and configuration files asking for the experiment, disks that take the output, states an earlier call can leave behind, environments, interleavings, saving orders and contents of uninitialised memory", "why_tests_cant": "A relation between the disks left by two concurrent runs, over all crash states and all interleavings.", "anchors": ["src/pyftle/__main__.py:69-89", "src/pyftle/file_writers.py:32-44", "src/pyftle/file_writers.py:121", "src/pyftle/file_writers.py:219", "src/pyftle/parallel.py:223-255"]}
{"id": "C135", "title": "Divergence of the flow, and forward and backward windows", "statement": "Let D be the divergence of the flow accumulated along the trajectory of the centre of a group. On gridded samples of a smooth flow, the value times the period is at least D divided by the number of dimensions, up to C times (h to the order of the method, plus the square of the seed distance, plus the smaller of the grid spacing and its square over the seed distance). In two dimensions a forward window and a backward window from the points the centres are carried to satisfy: forward value minus backward value, times the period, is D up to the same errors. So in incompressible flows no value is below zero, and the two windows report the same, up to these errors. In three dimensions the two windows report values whose sum is at least zero up to these errors.", "quantifier": "for all smooth flows, numbers of groups, time steps, seed distances, grids, methods and both directions of time; constants depend only on the flow and the trajectories", "why_tests_cant": "A relation to the divergence of the flow in the limit of step, seed distance and spacing, with constants uniform in all of them.", "anchors": ["src/pyftle/interpolate.py", "src/pyftle/grid_interp", "src/pyftle/integrate.py:163-342", "src/pyftle/cauchy_green.py", "src/pyftle/ftle_solver.py"]}
{"id": "C136", "title": "Files that are missing", "statement": "The files needed by an experiment are all listed velocity files, as many of the listed coordinate files as there are velocity files, and as many of the listed seed files as there are windows (in the order of the run). If some files of an experiment whose windows can all be computed are taken away, then a call that ends without a dead worker ends normally if all needed files are still there, and with FileNotFoundError and exit status 1 otherwise, whatever the interleaving of the processes. A window that does not fail has found its seed file with the four neighbours, every velocity file with two or three components of equally many samples, and the coordinate files likewise.", "quantifier": "for all experiments, sets of files taken away, interleavings, numbers of processes, interpolators, methods and contents of memory", "why_tests_cant": "All subsets of missing files and all interleavings; that nothing else is looked at is a non-interference statement.", "anchors": ["src/pyftle/data_source.py:169-211", "src/pyftle/file_readers.py:35-182", "src/pyftle/ftle_solver.py:89-120", "src/pyftle/__main__.py"]}
{"id": "C137", "title": "Experiments at the same time", "statement": "Several experiments write their output on one file system at the same time; their folders are there or can be made, their files can be saved, and no file of one is in the way to the folder of another or is a file of another. However the system calls of the processes (stat, mkdir, saving a file) are interleaved, an experiment that has ended has printed no message and met no exception, the way to its folder is there and each of its files is there with its content; every other entry of the disk is as before or is a new directory on the way to one of the folders. From every moment all of them can end. With the same name for two experiments this fails: both end normally and one file has replaced the other.", "quantifier": "for all numbers of experiments, folders, lists of files, initial file systems and interleavings of system calls", "why_tests_cant": "All interleavings of the calls of os.makedirs of unboundedly many processes, including those in which several of them find the same parent missing.", "anchors": ["src/pyftle/file_writers.py:36-41", "src/pyftle/file_writers.py:121", "src/pyftle/file_writers.py:219", "src/pyftle/__main__.py:83"]}
{"id": "C138", "title": "The strain of the data bounds the exponent", "statement": "If the velocities at distance r differ by at most L r, then a value reported after n snapshots with step h is at most (log d + n log G) / T, where d is the number of dimensions, T = (n-1)|h| and G is the growth factor of the method for |h| L (1 + a for Euler, 1 + 2a for Adams-Bashforth, the exponential series up to order four for Runge-Kutta). If the step is small compared with the strain, every value is a number and at least n log(s) / T with the corresponding shrink factor s. For velocities on a grid the differences of neighbouring samples give L: if they are at most a times the spacing, L = d a. The bound needs the queries to stay inside the grid: at its edge the interpolated velocity drops to zero, and samples that are all equal give arbitrarily great exponents.", "quantifier": "for all velocity fields, grids, samples, axis-aligned seeds, integrators, numbers of snapshots and time steps", "why_tests_cant": "A bound over all data and all run lengths; tests evaluate single flows.", "anchors": ["src/pyftle/interpolate.py", "src/pyftle/grid_interp", "src/pyftle/integrate.py:163-342", "src/pyftle/cauchy_green.py", "src/pyftle/ftle_solver.py"]}
{"id": "C139", "title": "More snapshots", "statement": "The program has been called for an experiment; the measurement goes on, snapshots are added at the end of the lists (with coordinate and seed files, if there is one for each snapshot), and the program is called again for the longer experiment. When the second call has ended, every output file of the first call is there with the same content, every new field is in its file, and nothing else on the disk has changed. This fails for backward runs with a list of coordinate files that is repeated, unless the number of added snapshots is a multiple of its length: the windows keep their names and snapshots but get other coordinates, so the earlier files are replaced.", "quantifier": "for all experiments, numbers of added snapshots, time directions, disks, interleavings of the processes, orders of saving and contents of uninitialised memory", "why_tests_cant": "Two complete calls with all interleavings and all lists; the failing case depends on a divisibility.", "anchors": ["src/pyftle/__main__.py:83-166", "src/pyftle/file_writers.py", "src/pyftle/ftle_solver.py"]}
{"id": "C140", "title": "Seeds divided among several runs", "statement": "The groups of a set of seeds are divided among several runs of the same flow, in any way, with repetitions allowed. If the runs of the parts succeed, the run of all the seeds together succeeds, and each of its groups has the value it has in its part. If the parts contain no other groups, the run of the whole succeeds exactly when the runs of the parts do. So a large field may be computed in pieces, on several machines, and put together.", "quantifier": "for all sources, all interpolators that fill all components, all integrators, all seed arrays, all divisions into parts, in 2-D and 3-D, any arithmetic", "why_tests_cant": "The number of divisions is exponential, and an error could depend on the size of a batch or on which points happen to be together in it.", "anchors": ["src/pyftle/ftle_solver.py: FTLESolver.run", "src/pyftle/interpolate.py", "src/pyftle/integrate.py", "src/pyftle/particles.py", "src/pyftle/ftle.py", "src/pyftle/grid_interp/GridInterp.cpp: interp2d_vec_inplace, interp3d_vec_inplace"]}
{"id": "C141", "title": "Error bound of a whole run on measured velocities", "statement": "The velocity files hold, on a uniform grid, values that are each within eta of the velocity of the flow at their node, with errors that may differ from node to node and from snapshot to snapshot. Every value of the FTLE field differs from (1/T) ln of the largest stretch sigma of the central differences of the flow itself by at most (1/T) b / (sigma - b), where b is the bound of C84 with the error of the velocities raised by eta. The same holds for scattered data in the plane, with the bound of C116. Only the flow need be Lipschitz; the data need not be.", "quantifier": "for all flows, all errors of the data of at most eta, all grids, numbers of snapshots, timesteps of either sign, seeds in groups, integrators, in 2-D and 3-D", "why_tests_cant": "A test draws a few samples of noise; the bound holds for the worst errors of the given size at all nodes and all times.", "anchors": ["src/pyftle/ftle_solver.py: FTLESolver.run", "src/pyftle/integrate.py", "src/pyftle/interpolate.py: HighPerfInterpolator", "src/pyftle/grid_interp/GridInterp.cpp", "src/pyftle/cauchy_green.py", "src/pyftle/ftle.py"]}
{"id": "C142", "title": "Little strain gives exponents near zero", "statement": "If the velocities that a run uses differ at distance r by at most L r, every value of the FTLE field is that of a stretching between 1 - d(G^n - 1) and 1 + d(G^n - 1), with the growth factor G of one step of the method, so the values go to zero with L. In particular, if the velocity files describe a fluid that moves without deformation, with errors of at most eta at the nodes, L is 2 d eta divided by the smallest grid spacing: the noise of the field is bounded by the noise of the data per cell, whatever the distance of the seeds of a group.", "quantifier": "for all velocity data of that strain or error, numbers of snapshots, timesteps of either sign, seeds in axis-aligned groups, integrators, in 2-D and 3-D", "why_tests_cant": "A test of uniform flow uses exact data or a few samples of noise; the bound covers the worst errors of that size and all distances of the seeds, where the quotient of two rounding or measurement errors could be expected to blow up.", "anchors": ["src/pyftle/ftle_solver.py: FTLESolver.run", "src/pyftle/integrate.py", "src/pyftle/interpolate.py: HighPerfInterpolator", "src/pyftle/grid_interp/GridInterp.cpp", "src/pyftle/cauchy_green.py", "src/pyftle/ftle.py"]}
{"id": "C143", "title": "Small changes of the data change the field little", "statement": "Two runs with the same seeds, timestep and number of snapshots use velocities that differ by at most eta; those of one of them differ at distance r by at most L r. The final positions of every particle differ by at most E = (G^n - 1) eta / L, with the growth factor G of one step of the method, and a value l of the first field is changed by at most (1/T) b / (exp(T l) - b) in the second, where b is 2 d E times the sum of the reciprocal distances of opposite seeds of the group. For velocity files on a grid, eta is the largest difference of the samples at a node and L follows from the differences of neighbouring samples of one of the two sets.", "quantifier": "for all pairs of data sets, numbers of snapshots, timesteps of either sign, seeds in axis-aligned groups, integrators, in 2-D and 3-D; the other set of data need not be smooth", "why_tests_cant": "A test perturbs one data set in a few ways; the statement is a modulus of continuity of the whole run for arbitrary perturbations at all nodes and times.", "anchors": ["src/pyftle/ftle_solver.py: FTLESolver.run", "src/pyftle/integrate.py", "src/pyftle/interpolate.py: HighPerfInterpolator", "src/pyftle/grid_interp/GridInterp.cpp", "src/pyftle/cauchy_green.py", "src/pyftle/ftle.py"]}
{"id": "C144", "title": "Data refined by interpolation give the same field", "statement": "Velocity files on a grid, and a second set of files that lists on a finer grid (each cell divided into equal parts along every axis) the values interpolated linearly in x, then y (then z) between the nodes of the first. With the same seeds, timestep, number of snapshots and integrator, and as long as the points at which velocities are requested lie in the rectangle (box) of the data, the two runs yield exactly the same field.", "quantifier": "for all data, grid sizes, factors of refinement, numbers of snapshots, timesteps of either sign, seeds, integrators, in 2-D and 3-D", "why_tests_cant": "A test compares two grids for one velocity field; the statement concerns every data set and every factor, including points on the faces between fine cells, where the two grids choose different cells.", "anchors": ["src/pyftle/ftle_solver.py: FTLESolver.run", "src/pyftle/integrate.py", "src/pyftle/interpolate.py: HighPerfInterpolator", "src/pyftle/grid_interp/GridInterp.cpp", "src/pyftle/cauchy_green.py", "src/pyftle/ftle.py"]}
{"id": "C145", "title": "The two linear grid interpolators give the same field", "statement": "With a grid shape, `--interpolator grid` (the C++ code) and `--interpolator linear` (SciPy's RegularGridInterpolator) both interpolate linearly between the nodes of the grid. From the same velocity, coordinate and seed files, with the same options, the two yield the same field as long as velocities are requested inside the grid.", "quantifier": "for all data on uniform grids, grid sizes, numbers of snapshots, timesteps of either sign, seeds, integrators, in 2-D and 3-D, and every SciPy whose linear method is linear in each cell", "why_tests_cant": "The repository tests each interpolator alone with arrays arranged for it; no test gives both the same arrays, and data symmetric in x and y hide the difference.", "anchors": ["src/pyftle/interpolate.py: GridInterpolator._initialize_interpolator, create_interpolator", "src/pyftle/interpolate.py: HighPerfInterpolator._initialize_interpolator"]}
{"id": "C146", "title": "One coordinate file or a copy for every snapshot (SciPy grid interpolator)", "statement": "With `--interpolator linear` and a grid shape, a run in which all snapshots share one coordinate file and a run in which every snapshot has its own copy of that file yield the same field, as long as velocities are requested inside the grid.", "quantifier": "for all data on uniform grids, grid sizes, numbers of snapshots, timesteps, seeds, integrators, in 2-D and 3-D, and every SciPy whose linear method is linear in each cell", "why_tests_cant": "The difference arises in the second snapshot of a run only and vanishes for data symmetric in x and y; the tests always pass coordinates to update.", "anchors": ["src/pyftle/interpolate.py: GridInterpolator.update, GridInterpolator._initialize_interpolator", "src/pyftle/data_source.py: FileBatchSource.get_data_for_step"]}
