# Formal model of pyFTLE in Lean 4: design

Subject: `/repo` (las-unicamp/pyFTLE, pinned commit), read as text.  Nothing in
`/repo` is executed.  The properties are listed in `properties.jsonl`; this file
says how each one is modelled and proved, what is trusted, and where the code
disagrees with its documentation.

## 1. Layout of the Lean project

| directory | content |
|-----------|---------|
| `lean/Verif/Py/` | the fragment of the Python / NumPy / C runtime the models need: exceptions as values, slices, `range`, `cycle`/`islice`, arrays with a shape, C- and F-order index arithmetic |
| `lean/Verif/Model/` | one file per modelled source file; every definition cites file and lines and states its simplifications |
| `lean/Verif/Spec/` | small specifications written without the model (windows, stencils, stretching, layouts, interleavings, binary64) |
| `lean/Verif/Lemmas/` | helper lemmas |
| `lean/Verif/Props/` | the property theorems (one file per group), each with a non-vacuity `example` |

Theorems are named `Cnn_...`; a theorem that covers only part of the property
ends in `_partial`; a theorem showing that the property is false of the code is
named `Cnn_..._fails` and exhibits a concrete witness or an exact characterisation.

## 2. Modelling conventions

* **Exceptions** are values: functions that may raise return `Except PyErr α`
  (`Py α`), and the error branch is part of the theorems.
* **Arithmetic.**  Models of numeric code are polymorphic in the scalar type and
  use the bare operation classes (`Add`, `Mul`, ...).  Structural theorems (which
  row goes where, what is independent of what) are proved for *every* such type,
  hence also for rounded binary64.  Algebraic/analytic theorems are proved over a
  field or over ℝ: they describe the code with exact arithmetic, and say so.
  Claims about binary64 itself (C47, C66, C85, C86, C87, C112, C113, C114, C115, C117) use an explicit round-to-nearest-even
  model on rationals (`Spec/Binary64.lean`).
* **Partial operations are not totalised away.**  Scalar divisions that raise in
  the code (`ZeroDivisionError` inside numba and Python) are modelled as raising;
  `log 0` is `-inf`; the square root of a negative number is reported as NaN.
* **Arrays** are a shape and an index function (`NDArray`); values outside the
  shape are irrelevant, and theorems only speak about valid indices.  `np.empty`
  memory is an arbitrary function (`junk`) so that reading uninitialised memory is
  visible in the theorems.
* **In-place mutation** is state passing.  Stateful objects (particles, integrators,
  interpolators, writers, monitor) are records; methods return the new record.
* **Concurrency** is a nondeterministic transition relation (executor) or an
  arbitrary interleaving (monitor messages); theorems quantify over all runs.
* **External libraries** (SciPy interpolators, LAPACK eigenvalues, pandas CSV, tqdm,
  pickle, the OS) are parameters or small stated contracts, see section 5.

## 3. Plan per property

| id | model | proof |
|----|-------|-------|
| C01–C02 | `NeighboringParticles.__post_init__`, `np.split` on rows | index arithmetic, residues |
| C03 | particles record + integrator steps | invariant by induction over an arbitrary list of calls |
| C04–C05 | `read_seed_particles_coordinates` on a key→array map | case analysis; negation with witness for silently accepted files |
| C06–C09 | Jacobian kernels with raising division | field algebra; C09 false: exact value for general stencils + witness, partial for aligned stencils |
| C10–C17 | FTLE kernels over ℝ; `eigvals` as roots of the characteristic polynomial | real algebra, Rayleigh quotient, `charpoly_mul_comm` |
| C18–C23 | integrators as state machines over a velocity source | induction on steps; C20 false (RK4 = Euler on uniform snapshots) |
| C24–C27 | C++ kernels, with 32-bit `int` conversions made explicit | algebra, convexity, bounds; C27 false on the last grid line |
| C28–C33 | interpolator classes as state machines | layout lemmas; C29, C30, C31, C32 false in stated cases, partial otherwise |
| C34 | factories | exhaustive case analysis over strings |
| C35–C40 | `FileBatchSource`, `FTLESolver.run` with an effect trace | induction over steps; C37, C38, C39, C40 false in stated cases |
| C41–C42 | composition of all of the above over ℝ | matrix powers; limits |
| C43–C47 | batching with Python slices and `cycle` | list lemmas; C45, C46 false in general with exact conditions; C47 binary64 |
| C48–C51 | pool as transition system | invariants over reachable states, measure for termination |
| C52 | monitor automaton | invariant over all interleavings |
| C53 | executor + `main` | false; exact statement of what is raised |
| C54–C57 | writers on `NDArray` | permutation lemmas; C55 false for 3D structured grids, C57 false |
| C58–C60 | argument parser | string model; C59, C60 false with witnesses |
| C61–C62 | file list, discovery | CSV subset model; C61 false for commas etc.; exact set of lists that come back (`C61_round_trip_iff`); lexicographic order theorem |
| C63–C65 | decorators, readers, API | arithmetic, case analysis |
| C66 | binary64 evaluation of the 2x2 kernel | false, witness computed in the kernel; rounding error analysis for separated eigenvalues |
| C67–C73 | signed periods, executor after failures, monitor, uninitialised memory, formats, exit status, saved files | case analysis, invariants; only C73 holds in full |
| C77 | `MultipleFTLEProcessManager.__init__`, `run`, `main` | composition of the above over all executions |
| C78 | `create_list_of_input_files.py` | list lemmas; false in stated cases |
| C79–C80 | executor and solver used again | simulation of executions; C79 false for the monitor |
| C81 | CSV reader on hand-written lists | invariant of the tokenizer |
| C82–C83 | a whole run with refined steps | global error bound of the three integrators with inexact velocities, continuity of the largest stretch |
| C84 | a whole run on gridded data | error of (bi/tri)linear interpolation of a Lipschitz field, velocities known only near the trajectories, perturbation of the largest stretch |
| C85 | the 2-D kernel with every operation rounded (`Model/Ftle64.lean`) | forward error analysis, perturbation of the larger eigenvalue |
| C86 | a whole 2-D run with every operation rounded | rounding of one step as an error of the velocity, then C84's recursion, Jacobian and C85 |
| C87 | C86 with gridded files and the fast interpolator, its operations rounded too | error of the rounded index coordinate (so the cell is the right one or its neighbour), error of the rounded bilinear kernel, then C86. Multiplications and additions of the kernel are rounded one by one: CMakeLists.txt:39 sets `-O3` only, so no fused operations on x86-64; a compiler for arm64 may fuse them, which is not modelled |
| C88 | as C83, without supposing a differentiable flow map | Picard–Lindelöf for the field clamped to a band around the trajectory, Gronwall for the difference from the linearised flow, uniqueness; then C83 |
| C89 | numbers with NaN (`Miss`), "the particle meets a missing velocity" on the stages of the flow map | the structural flow-map theorem over `Miss`, NaN is absorbing, then the kernels; 3-D: false |
| C90 | hat functions and weighted sums | the kernels over `Miss`; equivalence between nodes, counterexample on grid lines, exact characterisation at every point (`C90_exact_2d`, `C90_exact_3d`) |
| C91 | cells with a missing corner, arbitrary completions | C90's kernel lemma at any position (x86), run on a set of positions, core of C89 |
| C92 | histories of updates and queries of one object; the same object without the queries | equality up to buffers, preserved by every call; after a rejected query of other width: false |
| C93 | shapes that stretch to another, the entry lying under an index | `np.copyto` with its broadcasting rule through all stages of the integrators |
| C94 | axis with binary64 ends; outside and inside up to rounding | monotonicity of rounding, error bounds of the index coordinate; next to the last node: false |
| C95 | `Units`: conversion of files, seeds, velocity functions, events (`Spec/Units.lean`) | relation between the states of two runs, preserved by every step of the loop; SciPy equivariant only where it is used |
| C96 | `SameExtent`, `Reaches`, `pointOf`, `Listed` (`Spec/Extent.lean`, `Props/Extent.lean`) | two runs whose interpolators behave alike (`Mimics.run`); a node is reproduced for all velocities iff it lies at its evenly spaced ascending position; in 3-D also with the rows listed as the layout wants them (`Listed3`, `Props/Extent3.lean`) |
| C97 | `Moves`, `Snaps2/3`, `field2/3`, `Within2/3` (`Spec/Frames.lean`) | flow maps of the two observers differ by the displacement (strong induction over steps), central differences of shifted points |
| C98 | `Names`, `Plain`, `Reads`, `ValueOf`, `Denotes` (`Spec/CommandLine.lean`): a grammar of command lines and its meaning, no parser | two inductions: every described line is consumed without remainder, every line consumed without remainder is described |
| C99 | `stations`, `destination`, `Available` (`Spec/Folder.lean`): where the names of a path lead, no file operations | induction on the recursion of `os.makedirs`, invariant: only missing stations become directories |
| C100 | `Says`, `FromFile`, `FileSays` (`Spec/ConfigFile.lean`): entries in front of the command line; `Entry`, `Silent`, `LinesSay`: what lines say, no parser | the search for `-c`, the entries as `--NAME=VALUE` and the final parse each proved to agree with the specification; first match of the backtracking search of the regular expression |
| C101 | `KeyNames`, `Given`, `Mentions` | from C100; concrete files for the failures |
| C102 | `documentedOrder`, `SmoothEnough` (`Spec/Order.lean`), `IsTrajectory` | local error by Taylor's formula along the trajectory (RK4: fourth derivatives by iterated Lie derivatives), stability by a discrete Gronwall inequality, compactness for the constants |
| C103 | a whole run; stretching of the exact positions | C102 for every seed, perturbation of the largest stretch (C84); the failure from C103 itself in the saddle flow |
| C104 | a whole run on gridded data (`Samples2`, `Samples3` of C84) | linear interpolation is exact for affine functions, smooth velocities are affine up to the square of the distance; C103 |
| C105 | `Experiment`, `Asks` (`Spec/Experiment.lean`), `ArgsOf`, `Says`, `FromFile`; model `startCommand` (`Model/Command.lean`) | C98 and C100 give the arguments, C77 the run, C99 the disk; refused calls branch by branch. Inputs are not looked up on the modelled disk, every save is one step |
| C106 | `Survey2/3`, `Resolved2/3`, `Near` (`Spec/Survey.lean`); exact trajectories | C105 for call, schedule and disk; the windows of a survey sample the flow from their starting time; C84 for the values; C54 for `.mat` files, the VTK writer's record lemmas for `.vtp`/`.vts` files (`Props/SurveyVtk.lean`) |
| C107 | `ApiCall.Leaves`, `ApiCall.FilesIn` (`Props/ApiDisk.lean`), `Disk.Takes`; model `startApi`, `WallClock.runName` (`Model/ApiDisk.lean`) | C65 and C73 for what the tasks save, C99 for the disk; the name of the folder is a one-to-one function of the clock reading; two calls in a row for the witness |
| C108 | `Turn`, `Turn.point`, `Turn.Group2/3`, `Turn.origin`, `Turn.data` (`Spec/Turn.lean`) | flow maps and central differences commute with signed permutations in any arithmetic that treats signs alike (`MirrorLaws`, with instances for fields and binary64); the kernels by C13 over ℝ and entry by entry in binary64; interpolation as a sum of tent functions over all nodes, whose terms a turn permutes |
| C109 | the experiment a call asks for (C105), the windows of C43/C44 | false: C29 carried through the loop of the solver, the executor (C49, C51) and the call (C105); the text of the tutorial read by the model of the configuration file |
| C110 | points around a centre, stream function of the double gyre, trajectories, maximal stretching (C103) | index arithmetic of the arrays of the notebooks (`Model/Examples.lean`); the double gyre of the notebook is frozen by C38, so C103 applies to the steady gyre, whose trajectories exist (Picard-Lindelöf) and stay apart (Grönwall), which bounds the stretching from below |
| C111 | trajectories, maximal stretching, disk (C99, C107) | C103 for the flow, which exists by Picard-Lindelöf and keeps seeds apart by Grönwall; the executor by C65, the files by C107. Exact arithmetic; the period `(n-1)|dt|` is the one the code uses (C37) |
| C112 | the 3-D kernel and a whole 3-D run with every operation rounded (`Model/Linalg64.lean`) | perturbation of the largest eigenvalue of a symmetric matrix by the sum of the entries, then as C85 and C86. The accuracy of `@` and `np.linalg.eigvals` is a hypothesis (§5) |
| C113 | C112 with gridded files and the fast interpolator, its operations rounded too | as C87: rounded index coordinate, three rounded linear interpolations one after the other, then C112. Separately rounded operations as in C87 |
| C114 | API calls in binary64: every array entry or file value within the bounds of C86 and C112 | C86/C112 for the run of one start time, C65 and C107 for the call; `Steady64` and `Stretch64` collect the hypotheses of C86 for a steady flow |
| C115 | `Survey64`, `Survey64x3`, `Resolved64`, `Resolved64x3` (`Spec/Survey64.lean`): C106 with rounded files and arithmetic | C105 for call, schedule and disk (the lemmas of C106, now for any scalar); C87 and C113 for the run of one field; examples: a shear in the plane run backwards, a shear in space run forwards; VTK output in `Props/Survey64Vtk.lean` |
| C116 | `SciPy.Blends`, `ScatteredSurvey`, `ScatteredResolved` (`Spec/Scattered.lean`): what is assumed of SciPy's interpolators of scattered data, and C106 for arbitrary sample points | state of the interpolator after every update by induction (points kept when the coordinates are read once), C84 for the run, C105 for call, schedule and disk; the contract is proved for nearest-point and piecewise linear interpolation; VTK output in `Props/ScatteredVtk.lean` |
| C117 | README.md:257-271: number of files = snapshots - period / time step | False of the code for decimal numbers (0.3 / 0.1: one field more, each from one snapshot less) and in the number of snapshots per field (11, not 10, in the example of the README); number of files in the folder from C105, exact multiples and the two possible outcomes for rounded decimals from C47 |
| C118 | grammar of `float()` in the Python reference (`Spec/FloatLiteral.lean`), nearest binary64 number | scanner sound and complete for the grammar; numbers of the grid differ by `2^-53` of the greater one, so 17 digits identify a number; C117 for the real texts |
| C119 | velocity around a helical vortex by its distance from the axis, without angles (`Spec/Helix.lean`); positions with a common scale (`ScaledPath`) | `arctan2` eliminated; greatest entry of an array with NaN; Euler steps of a whole array; NaN spreads through all three integrators; distance from the axis changes by at most `1 + R₀|k|` per unit of length |
| C120 | an interpolator that answers zero at the seeds of one group (`AtRest`), pairs of seeds parallel to the axes (`Aligned2/3`), points off the axes of a grid (`OffGrid64`) | rows of one group stay in place through all three integrators while other rows move; unit-diagonal matrix stretches by 1 only if it is the unit matrix; exact binary64 value of the kernels at the unit matrix |
| C121 | lines with a key and no value in five forms and the value each is given (`Spec/Valueless.lean`) | order of the backtracking search on such lines; no number starts with `t`, `;` or `#` |
| C122 | one finite value for all groups, at least 0 (`ReportsAtLeast`); complex eigenvalues of a real matrix (`HasMode`) | a matrix stretches at least by each of its complex eigenvalues; some eigenvalue of a matrix without trace does not contract |
| C123 | words, ways to write them, what separates them, scripts (`Spec/Shell.lean`) | the shell reads a script word by word; a word that belongs to no option is refused |
| C124 | integer part towards zero, arrays of whole numbers (`Props/Stored.lean`) | a run with `float64` seeds is `Solver.run`; with integer seeds the particles of slow flows do not move (invariant of the loop), RK4 raises in its first step |
| C125 | affine velocities, matrices of a run (`Spec/Affine.lean`) | differences of particle positions under the flow map are multiplied by the matrix of the run (induction over the steps); linear interpolation reproduces affine functions |
| C126 | trace-free gradients, runs with opposite time step | the matrix of the backward run is the adjugate of that of the forward run (Cayley-Hamilton for one step, product reversed by induction); a matrix of the plane and its adjugate have the same greatest stretching |
| C127 | lists of contents (`Spec/Contents.lean`) | two runs side by side (induction over the steps, with an invariant of the interpolator for scattered data); windows of C43 |
| C128 | complex eigenvalues, amplification factors (`Spec/LongRun.lean`) | the run multiplies differences by powers of one matrix (C125); spectral mapping and Gelfand's formula from Mathlib, constants vanish in the limit; lower bound from a complex eigenvector |
| C129 | velocities handed out at the stages of one particle (`stages`), barycentric coordinates | two velocity functions that agree at the stages give the same run; equal velocities keep differences; then C125 group by group; weights of the interpolators as in C116 |
| C130 | trajectory and deformation of the centre (`IsTrajectory`, `IsDeformation`), `SmoothForGroups` | two particles on opposite arms are followed as centre and direction, by a linear change of variables the integrators commute with; that pair runs in a field within `C δ² + ε/δ` of the flow with its linear part; then C102 for the pair; exact values in parallel flows for the bound from below |
| C131 | actions of an execution with an interruption (`poolActions`, `submissions`, `Settled`) | counting invariant for executions without the death of a worker: submitted = waiting + started, started = in progress + finished + aborted; a measure that every action after the interruption decreases |
| C132 | as C130, with files that sample the flow on a grid (`Samples2`, `Samples3`) | the difference of interpolated and exact field is bounded by `C Δ²` and has Lipschitz constant `C Δ` (second differences along each axis, cell by cell); either bound gives the error of the difference quotient across a group, `Δ²/δ` or `Δ`; a group inside one cell of a parallel flow, computed exactly |
| C133 | inequality between the values of three runs; no deformation is mentioned | the matrices of a method without memory multiply, and so do the deformations since `t0` and since `t1`; stretching factors are submultiplicative; C125 and C132 relate them to the values |
| C134 | entries of the file system before and after (`Disk.LeftBehind`); equality of two disks | what was left does not stand in the way of the folder and its files; C105 says what each run leaves and C70 that it does not depend on the memory |
| C135 | Fréchet derivative of the flow, its trace along a trajectory (`divergence`, `IsExpansion`); inequalities between the values of runs; no deformation is mentioned | Liouville: the determinant of the deformation is `exp D`; it is the product of the stretching factors; the backward deformation is the inverse; C132 relates stretching to the values |
| C136 | file systems with entries removed (`TakenFrom`), list of needed files (`neededFiles`) | a run reads exactly the files of its window, and each read fails or gives what it gave; the windows together list the needed files; C77 for the pool |
| C137 | `os.makedirs` and the saving as trees of system calls (`Calls`), interleavings (`Interleaved`); alone they are the functions of `Model/Disk.lean` (`C137_alone`) | rely and guarantee: what the others may change between two calls (`Disk.Spared`), what a call changes (`Disk.Touches`), induction over the path |
| C138 | differences of velocities against distances (`Strained`), differences of neighbouring samples (`Slopes2`, `Slopes3`), growth and shrink factors of one step | the distance of two particles grows and shrinks at most by these factors in a step; entries of the Jacobian against the greatest stretch; the interpolated field has the slopes of the samples |
| C139 | lists that continue (`Continues`), experiments that grow (`Experiment.GrowsTo`), entries of the disk | windows with the same entries are the same task (`IsWindow.agree`), moved by the number of added snapshots in backward runs; C105, C70 and C134 for the files |
| C140 | groups of seeds (`groupOf`), parts given by two index maps | a velocity with independent rows is a function on a region and refuses queries that leave it (`velocity_region`); a run that succeeds has asked within the regions only (`loop_asked`); then the flow map of C74 on the regions |
| C141 | the data `u` of the files and the flow `v`, at most `η` apart at the nodes | the interpolated value is between values at the nodes of the cell (`cellValue2_error`), each within `η` of the flow there; then C84 |
| C142 | `Strained` (C138); `NearZero`: the value is that of a stretching within `e` of 1 | `flow_deviation`: one step moves two points by nearly the same vector, and the deviations add up to `G ^ n - 1` times their distance; `maxStretch_near_one` |
| C143 | `FieldNear`: two values, one the other's up to a bound | `flows_near`: with `ρ = η / L`, the distance plus `ρ` grows at most by the factor `G` in a step of any method; `diffs2_error`, `log_error` |
| C144 | `between2`, `between3`: linear interpolation one axis after another | `axisValue_refine`: on one axis, interpolation on the finer nodes of interpolated values is interpolation on the coarser nodes; the axes commute |
| C145 | `SciPy.LinearGrid2`, `SciPy.LinearGrid3`: linear in each closed cell; `NodeValues2`: samples listed with the last axis fastest; `exchanged2`: the sample of the point with x and y exchanged | both velocities are `bilinear` of the samples inside the grid; `samples_exchanged_2d`: the order with `x` first, read with `y` first |
| C146 | `reuseCoordinates`: one coordinate file; `exchanged2` as in C145 | `Holds2`, `Holds3`: what the object holds at the nodes, after updates with and without coordinates |
| C74–C76 | a whole run as a map on groups of seeds | simulation between two runs of the same flow, row by row; sign symmetry of rounding |

## 4. What is modelled

| source | lines | model |
|--------|-------|-------|
| `particles.py` | all of `NeighboringParticles` | `Model/Particles.lean` |
| `file_readers.py` | the three readers | `Model/FileReaders.lean` |
| `cauchy_green.py` | both Jacobian kernels and their callers | `Model/CauchyGreen.lean` |
| `ftle.py` | all kernels | `Model/Ftle.lean`; in binary64 `Model/Ftle64.lean` (2x2), `Model/Linalg64.lean` (3x3) |
| `integrate.py` | kernels, buffers, `EulerIntegrator`, `AdamsBashforth2Integrator`, `RungeKutta4Integrator`, factory | `Model/Integrate.lean`, `Model/Factories.lean` |
| `interpolate.py` | all interpolator classes and the factory | `Model/Interpolate.lean` |
| `grid_interp/*` (C++) | 2-D and 3-D kernels | `Model/GridInterp.lean` |
| `data_source.py` | `FileBatchSource`, `AnalyticalBatchSource` | `Model/DataSource.lean`, `Model/Names.lean` |
| `ftle_solver.py` | `FTLESolver.run`, `_compute_ftle` | `Model/Solver.lean` |
| `__main__.py` | time direction, batches, `_worker`, `run`, `main` | `Model/Batches.lean`, `Model/Workers.lean`, `Model/Main.lean` |
| `api.py` | `AnalyticalSolver` | `Model/Api.lean` |
| `api.py` | the folder of the output, named by the clock; the files of `run` on the disk | `Model/ApiDisk.lean` |
| `parallel.py` | `ParallelExecutor.run` and `_monitor_progress` | `Model/Pool.lean`, `Model/Monitor.lean` |
| `file_writers.py` | both writers, factory | `Model/Writers.lean`, `Model/Factories.lean` |
| `hyperparameters.py` | `parse_tuple`, options with choices and their use | `Model/Cli.lean` |
| `hyperparameters.py` | `parser.parse_args()` from the argument list, `parse_args` | `Model/Args.lean` |
| `file_writers.py`, `__main__.py`, `api.py` | path of the output folder, `os.makedirs`, saving | `Model/Disk.lean` |
| `file_writers.py`, `__main__.py` | the same, one system call at a time, for several processes; each call is atomic | `Model/Calls.lean` |
| `hyperparameters.py` | `-c`, `config.yaml` | `Model/Config.lean` |
| `hyperparameters.py`, `__main__.py` | `float` of the two numbers; window length for any two floats | `Model/FloatText.lean` |
| `README.md:180-194` | the printed command, as a shell reads it | `Model/Shell.lean` |
| `file_utils.py` | all | `Model/FileUtils.lean` |
| `__main__.py` | `MultipleFTLEProcessManager.__init__` and its composition with the parts | `Model/Program.lean` |
| `create_list_of_input_files.py` | all (printing: which warnings) | `Model/CreateLists.lean` |
| `parallel.py` | attributes that survive `run` | `Model/Executor.lean` |
| `parallel.py` | `KeyboardInterrupt` in the `with` block of `run` | `Model/Interrupt.lean` |
| `decorators.py` | all | `Model/Decorators.lean` |
| `ftle.py`, integrators, C++ kernels | with NaN | `Model/Missing.lean` |
| `examples/*.ipynb` | the seeds, the call of `AnalyticalSolver`, the arrays of the pictures (01, double gyre); the configuration of the tutorial (02) | `Model/Examples.lean`, `Props/Static.lean` |
| `integrate.py`, `interpolate.py`, `grid_interp.py`, `ftle.py` | with seeds stored as integers | `Model/Stored.lean` |
| `01_Closed-form_velocity_helical.ipynb` | `velocity_fn` in exact arithmetic with NaN | `Model/Helical.lean` |

Not modelled: rendering of progress bars, terminal colours, printed configuration lines, the
bytes of `.mat`/`.vts`/`.vtp` files, numba compilation itself (its semantics: IEEE arithmetic
without re-association, Python error model, wrap-around off), dtype conversions (all arrays are
float64, except the particles in `Model/Stored.lean`), infinite velocities, memory layout beyond C/F order, timing, `KeyboardInterrupt` other than in `Model/Interrupt.lean`, operating-system failures
other than "the call raises" and those of `Model/Disk.lean`, symbolic links, the other scripts,
the rest of `examples/` and `tests/`.

## 5. Trusted base

* Lean 4.33.0 kernel; axioms `propext`, `Classical.choice`, `Quot.sound` only
  (checked with `#print axioms` through `vcheck`).  No `native_decide`, no own axioms.
* The hand translation from Python/C++ to the definitions in `Verif/Model`, which
  the comments cite line by line.
* The runtime fragment in `Verif/Py` (NumPy index order, Python slices, `divmod`).
* The following contracts for code outside the repository.  Each is a parameter of the model or
  a definition in the model file named.
* `os.path.join`, `os.path.split`, `os.makedirs` (part of Python 3.11) and the system calls under them on a
  POSIX file system without symbolic links: `Model/Disk.lean`.  The outcome and the resulting tree were
  compared with Python on Linux for about 1500 paths.
* `configargparse` 1.7.1 (uv.lock), which reads configuration files, is not installed here: `Model/Config.lean`
  follows its published behaviour (`DefaultConfigFileParser` with its regular expression, the discarding of
  entries that are on the command line, the conversion of entries to arguments).  The model was compared with a
  transcription of these functions to Python (with the real `re` and `argparse`) on 20000 random command lines
  and files.  `parseArgs` was compared with the real `argparse` on 18000 random command lines.
* `argparse` (part of Python) as in `argparse.py` of Python 3.11: `Model/Args.lean`.  Without a configuration
  file and without environment variables `configargparse` hands the arguments to it unchanged.

| external code | contract | where |
|---------------|----------|-------|
| SciPy scattered and grid interpolators | arbitrary functions of data and query points, applied to real and imaginary parts separately for complex data; theorems that need more (query-wise evaluation, reproduction of nodes) state it as a hypothesis (`Respects`, `SciPy.RowLocal`, `SciPy.Joining`, `SciPy.LinearGrid2`, `SciPy.LinearGrid3`, laws in the theorem) | `Model/Interpolate.lean` |
| `np.linalg.eigvals` | roots of the characteristic polynomial with multiplicity, real when all are real | `Model/Ftle.lean` |
| `np.linalg.eigvals` on NaN | raises `LinAlgError` if any entry of the batch is not finite | `Model/Missing.lean` |
| C++ `int` conversion of an out-of-range double | undefined by the standard; a class `CMachine` with an x86 instance and a "standard" instance | `Model/GridInterp.lean` |
| `str.lower` | a parameter `lower`; theorems say which values they need | `Model/Factories.lean` |
| files | a function from names to contents that does not change during a run | `Model/DataSource.lean` |
| `pathlib.Path.stem` | POSIX rules of Python 3.10 to 3.13 | `Model/Names.lean` |
| `format(t, "06f")` | correctly rounded, ties to even | `Model/Names.lean` |
| binary64 | rationals with round-to-nearest-even; no signed zeros; infinity as overflow | `Spec/Binary64.lean` |
| `np.sqrt`, `np.log` in binary64 | functions; relative error at most `2^-53` and `κ` (`Libm.Accurate`), a hypothesis of the theorems that use it | `Model/Ftle64.lean` |
| `F @ F^T`, `np.linalg.eigvals` of 3x3 matrices in binary64 | functions; sums of three products in any order, symmetric result; eigenvalues of symmetric matrices real, the largest within `μ` times the sum of the entries (`Linalg.Accurate`), a hypothesis of the theorems that use it. LAPACK's `geev` is a solver for general matrices: that it never returns a complex pair for a nearly double eigenvalue is part of the contract, not proved | `Model/Linalg64.lean` |
| `ProcessPoolExecutor` | FIFO of work items, call queue of `max_workers + 1`, each call on a pickled copy, dead worker breaks the pool, `__exit__` waits | `Model/Pool.lean`, `Model/Workers.lean` |
| `ProcessPoolExecutor` and SIGINT | a worker returns `KeyboardInterrupt` as the result of its task and goes on; an idle worker dies; `__exit__` waits and cancels nothing; compared with Python 3.11 (8 tasks, 2 workers, signal to the caller alone and to the process group) | `Model/Interrupt.lean` |
| `tqdm` | `bar.pos == -position`, unchanged by other bars | `Model/Monitor.lean` |
| PyVista | points in Fortran order, length-based attachment of arrays | `Model/Writers.lean` |
| CPython `float(str)` | grammar of `float_from_string`, correctly rounded; compared with Python on 3851 random texts | `Model/FloatText.lean` |
| types of arrays (NumPy, numba, `scipy.io.loadmat`) | `loadmat` keeps the type of the file; `np.concatenate` promotes; assignment to columns and numba kernels convert without a check (fraction cut off; values that do not fit: a parameter), `np.copyto` and in-place operators of NumPy refuse `float64` to integers; integer differences wrap around | `Model/Stored.lean` |
| POSIX shell | token recognition for blanks, newlines, backslashes, quotes, comments; nothing else; compared with bash on 4000 random texts (2036 of them complete, no difference) | `Model/Shell.lean` |
| CPython `int(str)` | grammar of `PyLong_FromUnicodeObject`; Unicode tables and digit limit are parameters (`CharData`) | `Model/Cli.lean` |
| `pandas.read_csv` | the C tokenizer with default options and the default missing-value strings | `Model/FileUtils.lean` |
| `Path.rglob` / `fnmatch` | name matching for patterns without `/` and `[` | `Model/FileUtils.lean` |
| `datetime` | microsecond counts; normalised `timedelta` | `Model/Decorators.lean` |

Uninitialised memory (`np.empty`) is a parameter (`junk`); C70 quantifies over it, C39 compares
two runs that find the same contents.

## 6. Where the code disagrees with its documentation or with the property

Each line is proved in Lean (theorem `Cnn_..._fails`, with a witness or for all inputs of the
stated kind).

* C04, C05: seed files whose blocks have unequal or missing parts are accepted when the total
  length happens to be divisible by 4 (6); the groups are then wrong.
  Six blocks of two columns with an even number of points are read as groups of four (`C04_flat_six_blocks_fails`);
  `C04_accepts_iff` says which files are accepted, whatever the shapes of the blocks.
* C09: the Jacobian uses only the aligned component of each stencil; it is right for an affine
  map only when the stencil is axis aligned.
* C20: all RK4 stages use the snapshot at the start of the step.
* C26: an index coordinate of 2^31 - 1 (or an unconvertible one, by the C++ standard) reads out of
  bounds; so do planes with 2^31 or more entries.
* C27: queries on the last grid line return 0.
* C29: updating the fast interpolator with velocities only makes the next query raise; hence
  (C35) a static grid never passes its second step.
* C30: the fast 3-D interpolator exchanges the first two axes unless nx = ny.
* C31: the SciPy grid interpolator reads the first snapshot in C order and later ones in Fortran
  order (2-D).
* C32, C70: for three-dimensional scattered data the third velocity component is uninitialised
  memory unless there are exactly three query points; exactly three planar query points raise.
* C33: the fast interpolator accepts arrays of the wrong shape with the right number of entries.
* C37: p steps are integrated, but the exponent is divided by (p - 1)|dt|; p = 1 divides by zero.
* C38: analytical velocities are always evaluated at t = 0; all rows of the API result are equal.
* C39: AB2 keeps the velocity of the previous run; analytical sources share and mutate their seeds.
* C40: "done" is sent before the field is computed and written.
* C44, C65: an empty task list raises IndexError in the executor; the documented RuntimeErrors are
  unreachable.
* C45: backward runs pair snapshots with the wrong coordinate file unless the number of coordinate
  files divides the number of snapshots.
* C46: two tasks can write to the same file (equal stems; time steps below 1e-6).
* C47: 0.3/0.1 loses a snapshot.
* C117: README.md:257-271 on the number of fields: one field more for 0.3/0.1; each field of the example takes 11 snapshots, not 10.
* C52: after a failed task the monitor dies with KeyError; C69: it can also run for ever.
* C53: the executor re-raises the original exception, `main` catches only RuntimeError.
* C55: structured VTK output of 3-D grids attaches values to the wrong points; a 2-D shape
  drops the z coordinate of 3-D particles.
* C56, C57: the empty shape counts as no shape in the MAT writer; PyVista attaches fields of the
  wrong length to the cells; a reused writer keeps the dimension of its first field.
* C59: `--particles_grid_shape 10,1` gives a 1-tuple no writer accepts; a 3-D shape with planar particles
  raises IndexError in the VTK writer.
* C60: the documented defaults euler, cubic, mat do not exist.
* C61: file lists are read as CSV: commas, quotes, `NA`, blank lines and empty lists do not survive.
* C64: the documentation says column-major, the readers flatten row-major.
* C66: the 2x2 discriminant can be negative in binary64 for nearly equal stretches; the FTLE is
  then NaN.
* C67: a negative period flips the sign of the exponent.
* C68: up to `n_processes + 1` queued tasks still start after a failure has been reported.
* C71: MAT and VTK output order the nodes differently.
* C72: the exit status is 0 after a RuntimeError or a killed worker.

* C78: the script looks for the keywords in the whole path, lists `.mat.bak` files, and warns about
  missing particle files by looking at the list of coordinate files.
* C79: `_stop_event` is never cleared, so an executor that has seen a failure shows no progress in
  later runs; messages left on the queue are counted by the monitor of the next run.
* C89: in 3-D one particle with a missing velocity aborts the whole run (`LinAlgError` from
  `np.linalg.eigvals`); in 2-D NaN stays with its group.
* C90: on a grid line (plane) the missing samples of the next line make the result NaN although their
  weight is zero.
* C92: after a rejected two-column query a `HighPerfInterpolator` with 3-D data raises `TypeError` for a
  valid three-column query with the same number of rows.
* C93: the annotations `Array2xN | Array3xN` for velocities in `integrate.py` are wrong: arrays of that
  layout raise `ValueError`; the code needs `N x 2` or `N x 3` (or a shape that stretches to it).
* C94: on the axis 0, 1/3, 2/3, 1 the largest binary64 number below 1 gets the velocity 0 (index
  coordinate exactly 3); on the axis from 0 to 1 with 94 nodes the last node gets its value although C27
  says 0 in exact arithmetic.  Whether the last line is covered depends on the number of nodes.
* C96: with a grid shape only the minimum and maximum of each coordinate row are used.  A stretched grid is
  read as an evenly spaced one, a descending axis gives the mirrored velocity field; no error is raised.
* C97: seen by a moving observer the same flow gives another field with RK4 (its stages are evaluated in
  one snapshot), and with every integrator if particles leave the grid (velocity 0 for every observer).
* C98: `--snapshot_timestep -1e-3` (also `-inf`, `-1.`) is refused with status 2: argparse of Python 3.10 to
  3.13 takes the value for an unknown option. `--snapshot_timestep=-1e-3` and `--snapshot_timestep -0.001` work.
* C99: `FTLEWriter.__init__` only prints the error when the output folder cannot be made; the fields are
  computed and then cannot be saved.  Absolute experiment names and `..` leave `outputs`; files of earlier
  runs stay in the folder; `output_dir_name=""` reports an error and writes to the working directory; for
  `x/../f/.` with `x` missing and a file `f`, `os.makedirs` reports no error.
* C101: the configuration file is not read as YAML.  `flow_grid_shape: [128, 128]` stops the program,
  `experiment_name: a ; b` gives `a`, a repeated key is no error.  Abbreviated keys are accepted; `speed: []` is
  passed over; `num_processes: two` in the file stops the program although `--num_proc 2` replaces it (not with
  `--num_processes 2`).
* C102, C103, C104, C130, C132: RK4 is of first order only on unsteady flows (`Attains`: the documented order where
  it holds, order one in all flows of class C¹; C132_unsteady_rk4_fails: not better for the field, in the flow (0, t x)
  from files); against the exponent over the period `T` that the
  code divides by, every integrator is of first order only (one step more than `T` covers, see C37).

Further observation: the docstring of `NeighboringParticles` lists the blocks as right, left, top,
bottom while the code (and the seed reader) uses left, right, top, bottom (C76: without
consequences).
* C107: the folder of an API call without `output_dir_name` is named by the local time to the second and an
  existing folder is used as it is.  Two calls in the same second (or in the hour that is repeated when the
  clocks are set back) with the same time step, number of fields and format share the folder, and the files
  of the first are replaced (`C107_same_second_fails`).
* C108: false on the edges of a grid.  The lower edge belongs to the grid and the upper one does not (C27), so
  in the mirror a particle on the edge stands still (`C108_edge_fails`).  In 3-D an exchange of `y` and `z`
  makes a grid with different numbers of nodes in `x` and `y`, which the fast interpolator misreads
  (`C108_exchange_3d_fails`, C30).  Hence the grid theorems ask for evaluations off the lower edge of
  reversed axes and, in 3-D, for grids of the form `m × m × nz` before and after the turn.
* C109: the tutorial for data in files (`examples/02_File-based_IO.ipynb`) saves the coordinates of its grid
  once and asks for `interpolator: grid`.  Every window then takes the shortcut for fixed grids, whose second
  step makes the C++ code raise (C29).  So no file content makes the documented call compute a field
  (`C109_tutorial_fails`); the folder is made and stays empty, and since `main` catches `RuntimeError` the exit
  status is 0 (`C109_status_fails`).  With two different names for coordinate files C106 holds; the other
  interpolators handle a fixed grid (C35).
* C110: the notebook on the double gyre announces a flow that changes with time and shows four consecutive
  fields.  Since the velocity function is only asked for the time 0 (C38), the oscillation has no effect
  (`C110_frozen_fails`) and the four panels are copies of one field (`C110_panels_fails`).  That field is an
  accurate picture of the steady gyre (`C110_values_partial`, without hypotheses on the flow: all integrators,
  all amplitudes, all spacings).  Seeds, saved seeds and the layout of the pictures are right in both
  notebooks.
* C131: `parallel.py:15` announces interruption handling, but no line handles `KeyboardInterrupt`.  The handler that
  cancels the remaining tasks is for `Exception` only, and the `with` statement waits for all submitted tasks: after
  `Ctrl-C` the tasks in progress are aborted and every remaining task is computed before the program ends.  The stop
  event is not set and the monitor not terminated; it waits for ever for tasks that were never submitted.
* C133: with Adams-Bashforth every window starts with an Euler step, and a window can stretch more than its two halves
  together, by a factor `1 + h²/2 + ...` in the flow `(x, -y)`.
* C134: with scattered data in three dimensions the same call, repeated with nothing changed, can replace its files by
  different ones (uninitialised memory, C70).
* C135: that forward and backward windows of incompressible flows report the same holds in two dimensions only
  (`C135_space_fails`); in three only their sum is bounded below.
* C137: two experiments with the same name write into the same folder without any notice; the file saved last stays.
* C138: at the edge of the grid the interpolator answers zero, so that equal samples `(-w, 0)` give the exponent
  `ln (1 + n h w / 2δ) / T` for seeds on both sides of the edge (`C138_edge_fails`).
* C139: in backward runs the reversed list of coordinate files is repeated from the newest snapshot on, so adding snapshots
  changes the coordinates of all earlier windows unless their number is a multiple of the length of the list
  (`C139_backward_fails`; related to C45).
* C145: `--interpolator grid` and `--interpolator linear` with a grid shape expect the nodes in different orders.  From
  the same files on a square SciPy computes the field of the samples with `x` and `y` exchanged, without a warning:
  for the velocity `(0, -x)` one reports a positive exponent and the other 0 (`C145_differs_2d_fails`).
  On rectangles the samples are moved between nodes (`C145_rectangle_2d_fails`).
  Data symmetric in `x` and `y` hide this, and the same in C146 (`C145_symmetric_2d_partial`, `C146_symmetric_2d_partial`).
* C146: with `--interpolator linear` in 2-D, one coordinate file for all snapshots instead of copies changes the field:
  the first snapshot is read in one order, all others in the other (consequence of C31 for whole runs).  So no order of
  the nodes is right for all snapshots (`C146_mixed_2d_fails`, `C146_own_order_2d_fails`; for rectangles
  `C146_mixed_rectangle_2d_fails`, `C146_own_rectangle_2d_fails`).
* C127: whether the coordinates are read once is decided by comparing file names, not contents.  With the fast
  interpolator this shows: sample points in two copies of a file give a result, one file listed twice raises (C35).
  With the interpolators for scattered data it makes no difference.
* C126: forward and backward exponents of incompressible planar affine flows agree exactly for Euler and RK4 and, in
  flows with constant gradient, for Adams-Bashforth.  In unsteady flows Adams-Bashforth reports log(5/2) forward
  and log(3/2) backward for `(t x, -t y)` with two snapshots (its first step is asymmetric).  In space the equality
  is not to be expected (`(x, y, -2z)`).
* C124: `loadmat` returns arrays in the type in which the file stores them (MATLAB stores whole numbers as
  integers), no line converts the seeds, and all work arrays are `np.empty_like(positions)`.  With integer seeds
  RK4 raises `TypeError`; Euler and Adams-Bashforth cut off the fractions of velocities and of positions, the
  fast interpolator those of its index coordinates, so that every flow with velocities below 1 gives the field 0
  without a warning.  One block of the seed file stored as `float64` avoids it.
* C123: in the command of README.md:181-193 a comment follows the backslash at the end of a line.  The
  backslash protects the blank behind it, so the program gets an additional argument (a blank) and stops with
  status 2, and the last line is run as a command of its own.  A line of the command made a comment, as the
  README advises, cuts off the lines that follow.  (The shell is not part of the repository; `Model/Shell.lean`
  follows the POSIX rules for blanks, quotes, backslashes and comments and rejects all other special characters.)
* C122: with Euler a rotating body is reported as stretching for every time step, with RK4 as contracting in
  all directions (unless a step turns it by 2 sqrt 2 radians or more), with AB2 and two snapshots as stretching.
  The values approach 0 when the time step is refined (`C122_rotation_refinement`).  That no incompressible
  linear flow has a negative value holds for Euler without restriction.
* C121: `experiment_name` alone on a line sets the name to `true`, `experiment_name:` to the empty string,
  and `experiment_name:  # the name` to `# the name`.  The same holds for the three list files.  For all
  other options such a line stops the program, because these values are neither numbers nor choices.
* C120: the difference quotients use one coordinate of each pair of neighbours, so a tilted pair of seeds
  gets a positive exponent although nothing moves.  With pairs parallel to the axes the value is zero.  The
  fast interpolator answers zero outside the grid without a mark: such points get exactly the value of fluid
  at rest and cannot be told from it.
* C119: `velocity_fn` of the helical notebook divides by the greatest speed of the array it is given.  The
  velocity of a particle depends on which others are followed with it, and the scale changes from step to
  step.  On the axis of the vortex it computes infinity times zero, and one particle there makes all
  velocities NaN and ends the run with `LinAlgError`.

## 7. Mutation tests

`seeded/LOG.jsonl` records edits of the model (the kind of mistake a developer could make), the
claim that each breaks and the property theorems that stop proving.  An edit that breaks no
theorem although its claim has become false leads to a stronger theorem (`tightened`).

## 8. Check of the translation

The code cannot be run here.  `Verif/Check/RepoTests.lean` repeats the assertions of `/repo/tests` for the
model: readers, neighbouring particles, writers, file lists, integrators, factories, interpolators and FTLE
kernels behave as the tests of the repository expect.  Two of these tests show less than their names say:
`test_compute_cauchy_green_2x2_matches_FT_FTt` uses symmetric Jacobians only, for which `F^T F = F F^T`;
`test_interpolators_3d` asserts finite values of a component that is uninitialised memory (C32).
