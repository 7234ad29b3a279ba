# Design

Subject: OceanPARCELS/parcels at the pinned commit in /repo (never executed; read as text).

## Approach

Shallow models in Lean 4, one module per area under `lean/Verif/Model/`, mirroring the
Python/C functions branch by branch. Exceptions and status codes are values. User code (kernels,
recovery functions, callbacks) is an arbitrary function parameter. Property theorems live in
`lean/Verif/Props/`, apart from models (`Model/`) and helper lemmas (`Proofs/`). Small
specifications that do not mention model helpers live with the theorems or in `lean/Verif/Spec/`.
Each theorem is followed by an `example` showing that its hypotheses can be met.

Where the code violates a property, the negation is proved with a concrete witness, the strongest
true restriction is proved under a name ending in `_partial`, and the finding is listed below.

## Numbers

Floating point numbers are modelled as exact numbers: ℚ where the model must compute, an arbitrary
linearly ordered field where only order and field operations matter, ℝ where square roots,
exponentials or cosines occur. Rounding, overflow, NaN propagation and float32/float64 mixing are
outside the model. `np.isclose(a, b)` is `|a-b| ≤ 1e-8 + 1e-5*|b|` as in numpy. Infinities are
explicit (`Option`/inductive) where the code uses them.

## Plan per property

- **C01** A particle's clock never passes the requested end time. Model/KernelLoop.lean: one particle, `execute_python` body; kernel = arbitrary function; fuel-indexed loop. Invariant by induction on fuel.
- **C02** A failed or repeated kernel call leaves no trace on the particle. Same model; invariant on the restore branch, lifted to whole runs.
- **C03** Particles are processed independently. Same model, set level: map over particles; permutation theorem. JIT model with the global `_next_dt` gives the negation for JIT.
- **C04** execute() returns with no particle pending, failed or marked for deletion. Model/Recovery.lean: `Kernel.execute` with abstract single-pass executor; induction on rounds.
- **C05** Recovery functions run exactly on the particles with their error. Same model; decision logic of one recovery round stated outright.
- **C06** Runtime zero executes the kernel exactly once per particle. KernelLoop + Recovery with dt=0; counterexample for the full claim, partial theorem without errors.
- **C07** The user's dt is used for every full step of the whole run. KernelLoop over a list of interruption times; negation by witness, partial theorem when interruptions are multiples of dt.
- **C08** Adding kernels means running them one after the other. Model/KernelMerge.lean: statement lists; algebraic laws.
- **C09** The execution loop interrupts exactly at the scheduled times. Model/Schedule.lean: event loop over ℚ with infinities as `none`; invariant + termination measure.
- **C10** Output is written at start + k*outputdt and at the end. Same model; the log of writes equals the arithmetic progression.
- **C11** Repeated release adds particles exactly at the release times. Same model; release log; two consecutive calls.
- **C12** execute() terminates. Same model; explicit bound on the number of iterations; negation for outputdt = 0.
- **C13** Particle IDs are unique. Model/Collection.lean: constructor with class counter; invariant over histories; negation for the empty set.
- **C14** Every per-particle array stays aligned. Same; structure-of-arrays as an assoc list of columns; invariant over op lists.
- **C15** Additions and removals are the list operations they claim to be. Same; refinement to lists of records.
- **C16** Looking up a particle by ID finds it. Same; bisect correctness + sorted-flag invariant; negation for addition to an empty unsorted/sorted set.
- **C17** Multi-ID lookup returns the particles with those IDs. Same; model of `_recursive_ID_lookup` with numpy errors as values; negation + partial (unsorted path).
- **C18** Each particle is written at most once per output time and only if it is active then. Model/Output.lean: `toDictionary` as a state machine; invariant over write sequences.
- **C19** Variables marked 'once' are written exactly once per particle. Same.
- **C20** Deleted particles get their final record. Same; negation when deletion coincides with an already written time / index-list [0]; partial otherwise.
- **C21** The exported trajectory array is the list of written records. Model/Npy.lean: `read_from_npy` fold; equality with grouping spec.
- **C22** A crash between output steps loses no completed output. Model/Npy.lean: file-system state with non-atomic index write; negation + partial.
- **C23** MPI partitioning loses and duplicates nothing. Model/Collection.lean partition; Npy merge.
- **C24** A position inside a rectilinear grid is located in the right cell. Model/Search.lean: numpy search and C walk over ordered fields.
- **C25** Depth is located in the right layer. Same.
- **C26** Longitudes are found modulo 360 on spherical grids. Same, with the 360° fix-up. Completeness of the C walk (Proofs/SearchSphere.lean): the nodes are compared with the unwrapped axis moved so that it contains the position; the number of whole turns by which the C code misplaces a node is one of 0, 1, -1, and a measure built from it decreases at every step.
- **C27** The curvilinear search returns the true position within the cell. Model/Curvilinear.lean: algebra over ℝ.
- **C28** The curvilinear search never leaves the grid. Same; negation (xi = xdim - xi) + partial for flat C code.
- **C29** Linear interpolation stays between the surrounding values and is exact for linear fields. Model/Interp.lean over an arbitrary ordered field. Spherical grids: Props/InterpSphere.lean, with cells modulo 360 (Spec/Sphere.lean). Curvilinear grids with z levels: Model and Props/CurviField.lean, also for C30 and C76; with s levels: CurviS, for C74 and C76.
- **C30** Nearest-neighbour sampling returns the value of a nearest node. Same.
- **C31** Inverse-distance land interpolation ignores land. Same; negation for the transposed indices in Scipy.
- **C32** Sampling in time interpolates linearly between the bracketing snapshots. Model/TimeInterp.lean.
- **C33** Time-periodic fields are periodic. Same with floor.
- **C34** Nested fields: the first field that covers the position decides. Model/FieldLists.lean: outcomes as values.
- **C35** Summed fields: the value is the sum, and errors are not swallowed. Same.
- **C36** Unit conversion of velocities is invertible and consistent between modes. Model/Converters.lean over ℝ.
- **C37** Relative and absolute times convert back and forth. Same; negation for sub-second datetime64.
- **C38** A periodic halo is periodic. Model/Halo.lean: list algebra.
- **C39** Deferred loading always has the right snapshots in memory. Model/TimeChunk.lean: state machine of `Grid.computeTimeChunk` + data slots.
- **C40** The next input time never skips a snapshot. Same.
- **C41** Deferred and direct loading scale and mask data alike. Model/Scaling.lean; negation + partial.
- **C42** Grid sharing does not change results. Model/GridSet.lean; negation via allclose + partial.
- **C43** Names in generated C code do not clash. Model/Names.lean; negation + partial.
- **C44** Generated C expressions mean what the Python kernel says. Model/Codegen.lean: token printer + C precedence parser; negation + partial for the fragment that is safe.
- **C45** Generated C statements do what the Python kernel does. Same; statement semantics; negations + partial.
- **C46** JIT and Scipy time loops agree. Model/JitLoop.lean vs KernelLoop; simulation.
- **C47** Chunked field access reads the right datum. Model/Chunks.lean: index arithmetic.
- **C48** A particle waiting for a chunk is not lost. Same; state machine.
- **C49** Advection schemes are consistent. Model/Advection.lean: identities over a field.
- **C50** RK45 accepts only steps within tolerance and adapts dt. Same.
- **C51** C-grid velocities match the face velocities. Model/CGrid.lean over ℝ.
- **C52** Particle density conserves particles. Model/Density.lean.
- **C53** The particle memory layout is aligned and collision free. Model/Layout.lean.
- **C54** Random numbers lie in the documented range. Model/Rng.lean.
- **C55** Deferred loading picks the right record of the right file. Model/TimeChunk.lean (file index); negation for the periodic extra snapshot.
- **C56** Restarting from a particle file continues the run. Model/Restart.lean.
- **C57** Analytical advection keeps a particle in its cell. Model/Analytical.lean over ℝ (exp, log).
- **C58** Combined grid range is the intersection. Model/GridSet.lean.
- **C59** Repeated releases start from the original positions. Model/RepeatRelease.lean: arrays as references; negation (aliasing) + partial.
- **C60** execute() does not change the caller's recovery dictionary. Model/Recovery.lean; negation + partial.
- **C61** Operations on one ParticleSet never change another. Model/SharedData.lean: heap of arrays; negation + partial.
- **C62** Exported 'once' values belong to the same particles as the trajectories. Model/Output.lean; negation + partial.
- **C63** Writing output never raises for a valid particle set. Same.
- **C64** On a 3D B-grid, velocity and tracer come from the layer that contains the position. Model/Interp.lean; negations + partial.
- **C65** Fields with different time origins are sampled at the same date. Model/GridSet.lean; negation + partial.
- **C66** Diffusion kernels are consistent with advection and with each other. Model/Advection.lean: identities over a field.
- **C67** A repeated or failed kernel call leaves no trace in the variables. Model/Layout.lean: backup and restore code per variable type.
- **C68** Sampling on curvilinear grids is a bounded, linear-exact interpolation. Model/Curvilinear.lean + Interp.
- **C69** A field has, at every node, the value its source has there. Model/Load.lean: n-dimensional arrays with numpy's reshape, selection, concatenation and flip.
- **C70** Writing a field and reading it back gives the same field. Model/Load.lean: `writeField`, `writeSet`, composed with the reader of C69; negations + partial.
- **C71** A field does not depend on the other variables it is loaded with. Model/FromNetcdf.lean: the loop of `FieldSet.from_netcdf` with its search for
  a shared grid, `Field.from_netcdf` and the constructor as they change the shared grid; contents of the files are a parameter. Invariant of the loop: each
  field has the grid, files and options it would have alone.
- **C72** `FieldSet.add_periodic_halo` extends every field together with its grid. Model/HaloSet.lean: the loops over grids and attributes, the halo of data
  loaded later; invariant over the list of calls, then C38 for nodes and values; negations + partial.
- **C73** C-grid velocities on s-levels match the velocities given on the six faces. Model/CGrid3D.lean, any ordered field with square root and cosine as
  arguments: corners, Jacobian, areas of faces, fluxes through the half cells, quadratic interpolation, both modes, time. Vector algebra on the faces; closed surfaces for
  uniform flow; negations for depths that decrease with the level, moving levels and MITgcm indexing.
- **C74** Sampling on terrain-following levels, fixed or moving in time. Model/SLevels.lean on top of Search, Interp and TimeInterp: the columns of depths in both modes, the
  search in them, the two calls of the interpolation in Scipy mode (the second goes back one snapshot for its levels) and the one search of JIT mode. Spec/SLevels.lean
  gives the levels at a position and time and the value there as plain interpolation formulas. The proof shows that both modes compute that list of levels and uses C25.
- **C75** Releasing particles according to a field. Model/FromField.lean: the cut of the data, `np.random.choice` with weights (cumulative sums and binary search), the positions; the
  random numbers are a stream of arguments. Spec/FromField.lean: weights of cells, and the probability of a region as the measure of the random numbers that lead to it (products of
  intervals). Negations for stretched grids, depth levels, zeros, one row, a jump in longitude.
- **C76** Uniform fields have one value everywhere. Model/ConstField.lean on top of Search, Interp, TimeInterp; case analysis over the methods in both modes.
- **C77** Every name in a compiled kernel means what it means in Python. Model/Scope.lean: lists of names, which are rejected and which declared; negations for the clashes that are not rejected.
- **C78** Areas of grid cells and density per area. Model/CellAreas.lean: `np.gradient`, converters, the cached edge sizes; exact on equally spaced flat axes, error bound against the area on the
  sphere; negations for stretched axes and for the cache after `add_periodic_halo`.
- **C79** New particles have the values they were given. Model/Construct.lean: the order of the variables, arrays with any contents, the loops over keyword arguments and over the remaining variables;
  `from_line`. Invariant of the last loop: each variable has its final value after its turn. Spec/Construct.lean lists the values. Negations for variables that start at the value of a later or unknown one.
- **C80** Seawater kernels compute the published formulas. Model/Seawater.lean: the five kernels over the reals, statement by statement. Spec/Seawater.lean: the publications' formulas as
  polynomials with tables of coefficients, Gill's method as a Runge-Kutta tableau with the conditions for order four. Algebra; interval bounds for the equation of state; negation for the density.
- **C81** The output file has the variables that were asked for. Model/OutVars.lean: write status as attribute of shared objects, the attributes of the `ParticleFile` during the export (each NetCDF
  variable replaces the attribute of its name), NetCDF variables by name. Invariants of the four loops; negations for clashing names, IDs or time not written, 64-bit variables, shared status.
- **C82** A FieldSet accepts the velocities that go together and combines all of them. Model/Complete.lean: the checks of `check_complete` and of the constructors of vector fields, on single, summed and nested
  fields. Acceptance is characterised against Spec/Complete.lean for matching kinds and numbers of components; the sum of the components; counterexamples for the rest.
- **C83** Compiled sampling reads only the memory of the field and its grid. Model/Memory.lean: the search for the time, the cell and the level on rectilinear and curvilinear grids, and the reads of
  coordinates, depths and data, each checked (`none` = outside); numbers are of any type with any comparison and arithmetic. Proof: invariant on the indices of the particle, induction over the
  loops, over the recursion of `search_time_index` and over the samples; the data by C47.
- **C84** Looping over a ParticleSet and working with single particles. Model/Access.lean: accessor, iterator, `for` loops with arbitrary bodies, selection by value, attributes of the set, on top of Model/Collection.lean. Proved by induction over the visited positions: the loop is a fold over 0, 1, ..., n-1; a body of assignments maps every particle's record. Kept particles, removal in loops and assignment to `pset.v` fail.
- **C85** Constructors for the output of ocean models do what they document, and leave the caller's arguments alone. Model/Constructors.lean calls the model of `from_netcdf` (C71) and of scaling (C41) as the code does, one function per constructor; Spec/Constructors has the documented methods, indexing and factors as tables. Proved by an invariant of the loop over variables (method, dimensions, deferred or not of every field, for all arguments) and one lemma for `set_scaling_factor` that is applied per constructor. Wildcards: resolving is a function from the disk and the caller's dictionary to the files and the dictionary afterwards; a second call sees the changed dictionary.
- **C86** Chunk sizes given by the user are the ones used. Model/ChunkSpec.lean: from `chunksize` to the dictionary passed to xarray, with the caller's dictionaries on a heap, since the code removes entries from them; then the loop over variables of `from_netcdf` and the later loading of deferred fields. Spec/ChunkSpec says which blocks a dictionary asks for (`Wanted`), without reference to the code. Proved by induction over the four dimensions (with the entries not yet visited unchanged) and over the fields. Entries of size one and fields without a dimension are where it fails.
- **C87** A compiled kernel runs its own code and cleans up after itself. Model/Libs.lean: files by name, libraries in memory, Kernels with their two finalizers, `pset.kernel`; `remove_lib`, `compile` (which can fail), `load_lib`, the call, the finalizers. Spec/Libs: which histories are allowed (a clock that advances, other processes leave our names alone) and reachable states. Proved by an invariant over all histories; negations for failed compilations, kept files, and a clock that does not advance.
- **C88** (blocks of fields that share a grid): `Model/MixedChunks` has, on one grid, fields that are split each in its own way (dask or numpy), set up lazily or when first loaded, with the layout and load states of the grid; C code as in `Model/Chunks`. Invariant over histories for fields split in the same way; witnesses otherwise.
- **C89** (fields in several FieldSets): `Model/SharedFields` has Grids, Fields and FieldSets as objects that refer to each other, with `add_field` (`GridSet.add_grid`) and `check_complete`. Invariant over programs: a Field is in place in the FieldSet it was last added to; frame theorems for other FieldSets; dates of snapshots never change. Witnesses where another FieldSet changes the entries or the clock.
- **C90** (FieldSet as a namespace): `Model/Namespace` has the attributes of a FieldSet as an ordered dictionary, the fields given to `add_grid`, and the calls with their exceptions and what they leave behind. Frame theorem over programs for names; invariant that everything that can be sampled is registered; witnesses for `add_constant`, `add_vector_field` and fields added under another name.
- **C91** (generic access to a collection): `Model/Dispatch` decides by the type of the argument, with the width of `np.intp` as a parameter, and forwards to the methods of `Model/Collection`. The particles meant are specified separately (`Denotes`); theorems for each call, for numbers, particles and lists of indices; witnesses where a 64-bit ID is taken for an index and where calls do nothing.
- **C92** (recognising global grids) Model/ZonalCheck.lean: the folded differences and the threshold of `check_zonal_periodic`. Proved: the sum of the folded differences telescopes to the winding of the axis, for every way of writing the same meridians; a closed axis is recognised and then every longitude is found (through C26). Falsified for open axes and for atypical first rows.
- **C93** (depths given by a field) Model/DepthFields.lean: the slot `depth_field` of every grid, `set_depth_from_field`, the loops over the fields at the ends of `check_complete` and `computeTimeChunk`, on top of Model/TimeChunk for what is in memory. Proved: a request loads, then copies; what a grid holds after a request is determined by the request (C39), so two grids with the same times hold the same snapshots.
- **C94** (rounding of times) Model/FloatTime.lean: the event loop and the particle loops of both modes once more, with a rounding function after every operation; the exact models are Schedule, KernelLoop, JitLoop. Spec/FloatTime.lean states what is used about double precision (relative error 2^-53; integers up to 2^53 times a power of two are exact), and Proofs/FloatTime.lean shows that rounding to nearest, ties to even, has it. Proved by refinement: if all times are multiples of 2^k seconds, both loops go through the same states.
- **C95** (rounding of positions) Model/FloatAdvect.lean: the kernels EE, RK4 and RK4_3D with a rounding after every operation, assignment and store. Proved: one step changes the distance between the rounded and the exact particle by a factor 1 + 2 |dt| L and a constant (relative errors of sums and products are collected by `Near` in Proofs/FloatAdvect.lean), then induction over the steps.
- **C96** (rounding in sampling) Model/FloatSample.lean: the search for the cell, the interpolation in space and in time with a rounding after every operation. Proved: a rounding to nearest is monotone (for the single and double precision of the model too), so relative coordinates stay in [0, 1] if the width of the cell is rounded as the coordinates are; then relative errors of sums, products and quotients are collected by `Near`.
- **C97, C98** (whole runs) Model/WholeRun.lean puts the models of the event loop, of `Kernel.execute` in both modes and of the output file together. Proved by an invariant of the event loop: the time is a whole number of steps after the start, each particle is on its trajectory, and the file contains the records up to the last output. C98 follows, because a trajectory from a point of a trajectory is its continuation.
- **C99** (runs on gridded data) Model/GridRun.lean puts the search, the interpolation in space and time and the whole run together. A kernel is a program that samples fields at places that depend on earlier samples. Proved by induction on the program: with valid remembered cells (an invariant) each sample in each mode is the interpolated value, so that both modes follow one reference program; then C97.
- **C100** (deferred loading in runs) Model/DeferRun.lean is the run of C97 with the requests for data (C39, C55) and kernels that sample the two snapshots in memory. Proved by an invariant of the event loop: the snapshots in memory suffice from the last stop to the next request, where the fields in memory have the values of the whole series; so the run follows the scheme in the whole series, as does the run with all data (C99).
- **C101** (spherical runs) Model/SphereRun.lean joins the spherical searches (C26), the interpolation (C29, C32) and the unit converters (C36) to the kernels of the run of C97. Proved by refinement to a scheme that samples the interpolated values; for runs around the globe by a simulation up to full turns, with the invariant that the longitude is within one period after each step.
- **C102** (runs with repeated release) Model/ReleaseRun.lean adds to the run of C97 the branch of the event loop that releases particles, with the values kept for release (which in the first run are those of the particles themselves, C59). Proved with the invariant of C97 for a growing list of particles: those released so far are a prefix of those released until the end, and later ones have no record yet.
- **C103** (runs with random numbers) Model/RandomRun.lean is the run of C97 with a state of the world (the generator) that kernels read and change, through the loop over particles, the retries after errors and the event loop, in both modes. The specification is a sweep over the particles from stop to stop. Proved with an invariant that ties particles and generator to the sweeps made so far.
- **C104** (error messages) Model/ErrorReport.lean: the exceptions, where they are kept, the default recovery functions and the errors they raise. The run is that of C103; the state of the world is the table of exceptions. Proved with the facts about the pass in which the run of C103 breaks off: the first particle with an error, and that later particles do not overwrite its exception.
- **C105, C106** (files of runs) Model/ExportRun.lean: the export applied to what a run wrote, and the particles of a set made from the file. Proved by an invariant of the run: what was written is a sequence of correct uses of the file (the sequences of C21 and C56) and the records are those of C97. Then C97 (which records), C21 (rows and columns of the export) and C56 (which particles a set made from a file has) are put together; the second run is C97 once more.
- **C107** (data of compiled kernels) Model/JitData.lean: arrays with shape, strides and offset in memory, the preparation of fields and grids in `execute_jit`, the place at which the C code reads an item. `np.array` is any function that keeps the items (its order in memory is not fixed). Proved by induction over the dimensions (place of an item in C order) and by an invariant over histories (the sizes known to C are those of the data).
- **C108** (recovery functions that repair) On the model of C97, with recovery functions that assign variables and let the particle go on. Specification: the scheme that tries a step again after each repair. Invariant of the rounds of recovery: what is left of the trajectory of each particle, and how many repairs are still possible in its present step; the number of rounds is bounded by steps times repairs per step.
- **C109** (runs with arbitrary times) On the model of C97, without its conditions on the times. Specification: the inductive relation `Path` (points that can be reached by steps of any length up to `dt`, and by repairs) and an account of all particles of the initial set. Invariant of the loop of the kernel, of the rounds of recovery and of the event loop: each particle is on a path from its start, its own `dt` is longer than 1e-8 s and not longer than `dt`, and it is not past the end.
- **C110** (runs with adaptive steps) On the model of C97, for kernels that take, reject or fail a step. Specification: the inductive relation `Path` of accepted steps. Both loops are treated directly (the comparison of the two loops in C07 and C97 needs dt to change by more than the tolerance of `isclose`). Invariant: each particle is on a path from its start, its own `dt` has the direction of the run, and if it is at most 1e-8 s then the kernel rejected a longer step at that point.
- **C111** (no particle is faster than the data) On the models of C99 and C110. Specification: bounds of the data at the nodes, and mean velocities between two times. Every sampled value is a convex combination of the data; every step of the kernels is a convex combination of sampled values; mean velocities combine over unbroken sequences of steps in one direction (C109, C110). The weights of the fourth-order solution of AdvectionRK45 are not all positive; ten times the difference of the two solutions makes them so, and accepted steps bound that difference.
- **C112** (runs with nested fields) Model/NestRun puts the models of gridded fields (C99) and of nested fields (C35) together, with the cells remembered in JIT mode also after samples that failed. Specification: the values of the first member before which all are out of bounds; kernels as programs that sample by number. The outcome of a sample (value, out of bounds, above the surface, outside the times) is shown to be the same in both modes; runs by C97 and C109.
- **C113** (runs with time-periodic fields) Model/PeriodRun is Model/GridRun with the search of the time index for periodic fields. Specification: a periodic value is the linear interpolation at a time a whole number of periods away; a kernel is timeless if it uses the time only to sample. Samples by the lemmas for C33; runs by C97; runs at other times by shifting the reference trajectories.
- **C114** (advancing a field set) Model/Advance follows `FieldSet.advancetime`, `Grid.advancetime` and `Field.advancetime` statement by statement, with the state that is left when one of them raises. Specification: the snapshots of a field with their dates. Direct proofs on lists.
- **C115** (runs with summed fields) Model/SumRun puts the models of gridded fields (C99) and of summed fields (C35) together, with the status that the generated code for vector fields checks only once and the temporaries that hold anything. Specification: sums of the values of the members. Samples by the lemmas for C112; runs by C97.
- **C116** (origins and units) A change of units acts on grids, data, particles and options (Spec/UnitRun). The reference interpolation of C99 commutes with it, programs of kernels that compute the same in all units (`Covariant`) too, and so do the numerical solution, its records and the output times; C99 and C97 carry this over to the runs of both modes.
- **C117** (prime meridian) As C116 with the reference interpolation of C101: cells modulo 360, the longitudes at which both modes look, and the conversion to degrees commute with a rotation.
- **C118** (repeated release on gridded data) A scheme in each mode that gives the trajectories of the reference (C99, C101, C112, C113, C115) is put into the theorems of C102 on repeated release; the particles of all releases without their remembered cells are the releases of the values without cells.
- **C119** (display) `plotfield` is modelled up to the arrays that are given to matplotlib. The displayed array and `Field.eval` are shown to be the same combination of two snapshots; at nodes and in the middle of cells the interpolation in space gives the node and the mean. Domains: the searched cells of the corners.
- **C120** (C-grid velocities) `VectorField.eval` and `temporal_interpolationUV_c_grid` are modelled on top of the searches (C24), the velocity in a cell (C51) and the interpolation in time (C32). The specification names the given velocities on the faces by their indices in the files; both modes are shown to give the velocity in some cell that contains the position, and that this is unique off the nodes.
- **C121** (runs on C-grids) Kernels are programs that sample the velocity (C120), run by the model of `execute` (C97, C109). By induction on the program each sample is a velocity in a cell around the position; by C109 the run is a sequence of such steps. Uniform flow and speed: the velocity of a step is in every convex set that contains the given ones.
- **C122** (xarray datasets) Datasets have coordinates and data variables with named dimensions; `from_xarray_dataset` is modelled with the repair of the attribute `Unit`, the choice of dimensions and `Field.from_xarray`. The values by name follow from C69 for arrays; the loop by induction on the variables.
- **C123** (messages) The logger is a state (level, messages in the filter); histories are lists of calls. By induction on the history the filter holds the messages asked for once while the level let them through.
- **C124** (library of random numbers) The object and its three files are a state, the methods are steps; invariants by induction on the calls.
- **C125** (timers) The timers are a list, each with the number of its parent; histories are lists of calls with their times. One lemma says how a call can change one timer; readings, signs and the comparison with the parent follow by induction on the history.
- **C126** (weights in a cell) Lists of weights over a field; polynomial identities, and for the Jacobian the identity that it interpolates the turns at the four corners.
- **C127** (dates of release) Values of time and origins are inductive types; the constructor's conversion is a function on lists, which may fail. The specification gives the seconds from an origin to a date as a relation.
- **C128** (indented kernels) The source is a list of lines, each a list of characters; the removal of the first occurrence of the indentation is recursive on the line.
- **C129** (automatic chunks) The function from the sizes along the axes to the dictionary, case by case; the specification says when a dictionary describes data with given axes.
- **C130** (metadata) Calls of `add_metadata`, `write` and `export` as a list, with the dictionary, its copy among the temporary files and the attributes of the NetCDF file as state; induction on the list from its end.
- **C131** (examples) The script as a list of events on a directory (copy, folder, empty file, content); an interruption is a prefix of the list. Induction on the list of files.
- **C132** (compiler command) The command as a list of strings; the specification says which optimisation a command asks for (the last `-O…`).
- **C133** (movies) The records of the file as a list, frames by times; counting of records.
- **C61** (types of coordinates) Model/Precision.lean: the type is an attribute of the class, assigned by each new set; which sets can still be executed.

## Findings

Places where the code at the pinned commit does not do what the property says. "w" marks those with a
witness theorem (`..._fails`, `..._wrong` or similar, see MANIFEST.json); the others come from reading and are
not modelled.

Time loop and execute (kernel.py, codegenerator.py, baseparticleset.py)
- C06 w: a step of about zero length with error recovery runs the kernel again.
- C07 w: a step shortened to hit an output time stays short afterwards.
- C46 w: kernels that change dt by less than the tolerance, particles with dt 0, and `update_next_dt` behave differently in the two modes;
  the C globals behind `update_next_dt` leak to the next particle (C03), also from a failed call.
- C60 w: `execute` adds entries to the caller's recovery dictionary.
- C09, C10 w: outputdt = 0 (also moviedt, callbackdt) never ends; runtime 0 with repeatdt releases particles; without a fieldset and dt < 0 execute raises.
- C08 w: concatenated kernels: an early `return` in the first skips the second; argument names of the second are not renamed; names are captured.

Particle sets and output
- C13 w: adding to an empty set restarts the IDs. C14 w: deleting with repeated indices; variables misaligned. C16, C17 w: lookups by ID.
- C20 w: a particle deleted at the last write is not written. C21 w: a path that contains "once". C22 w: a crash while the index is rewritten loses everything.
- C23 w: negative entries in an MPI partition. C56 w: restart returns deleted particles, misassigns 'once' values, reuses IDs.
- C59 w, C61 w: releases and sets share arrays. C62 w, C63 w: rows of 'once' variables; a warning that raises.

Grids, search, interpolation
- C26 w: date line on rectilinear axes. C27 w (five witnesses), C28 w: curvilinear search. C29 w, C64 w: POP lowest layer, MOM5 top layer.
- C30, C31 w: midway nearest neighbours; land masks transposed. C51 w: JIT, flat mesh, cells wider than 180. C57 w: analytical advection backward, on faces,
  near divergence, east of 225 degrees.
- JIT MITgcm reads data at index -1 for the first row and column (not modelled as memory).

Fields, time, loading
- C33 w: periodic fields loaded at once whose series is shorter than the period: `grid.tdim` does not count the appended snapshot, so Scipy mode does not
  interpolate after the last snapshot and JIT mode recurses without end there.
- C33 w: `Field.from_xarray` does not pass `time_periodic` on.
- C34 w: Scipy NestedField hides sampling errors. C35 w: JIT summed vector fields check only the last status; `+` changes its operand; `S + S` does not end.
- C37 w: sub-second dates. C38 w: halosize 0. C39 w, C40 w, C55 w: deferred loading started between snapshots backward, periodic fields. C41 w: masks, factors.
- C42 w: grids shared although mesh type or coordinates differ. C58, C65 w: time origins.
- C69 w: single depth of (depth, lat, lon) files; grids shared between files with opposite latitude order; data of a field reused with its grid are turned round;
  2D coordinates collapsed within np.allclose; POP with a subset of depths when deferred.
- C70 w: numeric times that do not start at 0; fine curvilinear grids; FieldSets with vector fields (`write` raises).
- C71 w: a `fieldtype` dictionary is overwritten by the first variable in it; `{dim: [files]}` fails with two variables; files per variable and dimension: the
  grid of the first variable is used although coordinates (dimensions per variable) or times differ; `from_data` keeps the extrapolation default of the first variable.
- C72 w: members of summed and nested fields are not extended though their grids are; a field under two names is extended twice (AssertionError); a grid with one
  node (`add_constant_field`) makes the call fail; deferred fields with different zonal and meridional sizes fail when loaded; a second halo in the same
  direction has the wrong period.
- C73 w: on s-grids whose depths decrease with the level the sign of the Jacobian is lost in the areas of the faces (square roots), so horizontal C-grid velocities are
  reversed in both modes; with time-varying depths Scipy mode uses `depth[0]`, JIT mode `depth[ti]`; MITgcm indexing reads the faces of NEMO, and the check against
  curvilinear MITgcm grids (fieldset.py:213) names CurvilinearZGrid twice, so curvilinear s-grids pass.
- C74: a periodic field on moving s-levels whose series is shorter than the period raises IndexError in Scipy mode from the last snapshot to the end of every period: the
  constructor appends a time and a snapshot of the data but no depths (field.py:150-157, 173-174, 641-645).
- C75: `from_field` ignores the areas of cells (too many particles in small cells of stretched grids); every start field with depth levels fails with ValueError (except two levels of a
  C-grid tracer, where the second level is used, shifted by one cell); a C-grid tracer with one row of cells fails; on longitudes that jump from 180 to -180 particles are put on the other
  side of the globe; cells with one corner of value zero get no particles.
- C76: with POP and MOM5 indexing the value in the bottom or top layer is not that of a uniform field; values below 1e-8 are taken for land (`np.isclose`).
- C77: local names that equal a field, a constant, `err` or another name of the generated function are not rejected; variables called `tol` and `output_time` are never declared in C.
- C78: the areas are those of cells centred at nodes, while particles are counted in the cells between nodes: on stretched axes the density is wrong; the edge sizes are kept in the grid, so
  `density(area_scale=True)` fails after `add_periodic_halo` if the areas were used before.
- C79: `attrgetter` as initial value reads the array of the other variable before it is filled if that variable comes later (a 64-bit variable always comes before a 32-bit one): the values are whatever was in
  memory; an unknown name gives 0; different times with `repeatdt` are accepted if the first is 0, otherwise `raise('...')` makes it a TypeError; an empty set with `repeatdt` raises IndexError.
- C61 w: creating a set with float64 coordinates changes `dtype` of the variables of all particle classes; sets with float32 coordinates made before can no longer be executed in JIT mode.
- C80 w: `UNESCODensity` multiplies the last coefficient of the bulk modulus by the square of the temperature in place of the square of the pressure (EOSseawaterproperties.py:346); up to about 1 kg/m³ wrong.
- C81 w: the export stores the NetCDF variables as attributes of the `ParticleFile`: variables called `dataset`, `metadata`, `maxid_written`, `read_from_npy`, `trajectory` and others make it fail; variables of
  the user are written in single precision whatever their type; `set_variable_write_status` changes all sets with that variable; without IDs nothing can be written (KeyError), with time as 'once' the export fails.
- C82: components are combined with `zip`: if W has fewer components than U and V, `UVW` leaves out the horizontal velocities of the others, and these are not checked; a nested V with a summed U is summed; MITgcm indexing
  on curvilinear grids with s-levels is accepted since the list of rejected types names the other curvilinear type twice (fieldset.py:212).
- C28, C83: `ParticleSet.populate_indices` gives each particle the indices of the nearest *node* of a curvilinear grid, not of a cell. For a particle nearest to a node of the last row or
  column the first sample then reads beyond the arrays in JIT mode and raises IndexError in Scipy mode (`C28_populate_fails`, `C83_last_row_fails`, `C83_populate_fails`).
- C83: on a spherical curvilinear grid the search for a position inside the grid may fold over the last row and read beyond the arrays (`C83_sphere_fails`).
- C83: the C code reads outside its arrays (or unset variables) for: MOM5, a sample exactly at the first level after one above it; POP with two levels; MITgcm C-grid velocities in the first row
  of the first level; MOM5 and POP C-grid velocities (never set); a flat mesh with a zonal halo, east of the last column; decreasing longitudes on a flat mesh; C-grid velocities on a grid with
  one column or row. Three-dimensional C-grid velocities with one level call `exit` before the check that would return an error.
- C84: a particle obtained from a set is an index: after an earlier particle was removed (or one with a smaller ID was added) it is another particle, and writing to it changes that one (`C84_kept_particle_fails`); removing in a loop skips a particle and then raises IndexError (`C84_remove_in_loop_fails`); `pset.lon = x` changes no particle but hides the values from then on (`C84_set_attribute_fails`); `pset.nosuchname` is `False` and a Variable named e.g. `size` cannot be read as `pset.size` (`C84_unknown_attribute_fails`); a backward iterator over a subset raises TypeError (`C84_reverse_subset_fails`, not used by the library itself).
- On a spherical rectilinear grid with a cell of 135 degrees or more, the compiled search can go to and fro between two cells until it gives up and reports the position out of bounds; Scipy finds it (C26_jit_wide_cell_fails).
- At the seam of a full turn (longitudes 0 and 360 both stored) the compiled search keeps the cell it came from, so a field whose two ends differ gives two values at the same place (C29_seam_history_fails).
- `FieldSet.from_netcdf` writes the files it found into the caller's `filenames` if that has a dictionary for each variable with a pattern for each dimension (fieldset.py:365-366): a second call with the same dictionary does not see files that have been added since (`C85_filenames_changed_fails`).
- `FieldSet.from_parcels` adds U and V to the dictionary passed as `extra_fields` (fieldset.py:869; `C85_extra_fields_changed_fails`).
- Opening a file removes entries from the `chunksize` dictionary of the caller: those of size one, and those of dimensions the field does not have (fieldfilebuffer.py:518-545; `C86_argument_fails`). With one dictionary for all fields, a 3D field loaded after a 2D one is not chunked in depth (`C86_order_fails`). With equal dictionaries for U and V that have an entry of size one, e.g. `'time': ('time_counter', 1)`, direct loading raises KeyError (`C86_per_variable_fails`). Sizes of one everywhere (`C86_size_one_fails`), chunks for one of two variables on the same dimensions (`C86_mixed_fails`), a variable without entry (`C86_missing_variable_fails`) and the format that the documentation of `from_netcdf` gives (`C86_documented_format_fails`) are errors.
- Not modelled: `add_to_dimension_name_map` of one file buffer changes the table of the class (fieldfilebuffer.py:311-313); with 'auto', the dictionary recovered from the blocks (`_chunkmap_to_chunksize`) has sizes of other dimensions, but nothing reads it; `_failsafe_parse_` cannot be reached (fieldfilebuffer.py:659-661).
- `pset.execute` assigns `pset.kernel` before compiling (baseparticleset.py:339-347). After a compilation that fails, the same call does not compile again and raises AttributeError (`C87_retry_fails`). If the Kernel had been loaded for another ParticleSet, `remove_lib` has closed its library but kept `_function`, so that ParticleSet then calls into unloaded memory (`C87_failed_compile_fails`). The source and the log of a failed compilation are never removed (`C87_failed_files_fails`).
- `remove_lib` removes the files of a Kernel with `delete_cfiles=False` when a second ParticleSet executes it (kernel.py:208-209; `C87_keep_fails`).
- File names depend on the name of the kernel, the particle type, the fields and the time in microseconds, not on the code (kernel.py:186-190): without an advance of the clock, a kernel runs the library of another function of the same name (`C87_same_time_fails`).
- Fields split in different ways on one grid (C88): `GridSet.add_grid` does not compare block sizes when the new field has no `chunksize`, so `add_field(Field.from_netcdf(...))` without `chunksize` puts the field on the grid of velocities opened with one (`C88_joined_fails`). The grid then describes the new field as one block, while the velocities have many. If a kernel uses only the velocities, compiled code silently reads them from wrong nodes and times, or outside the array (`C88_mixed_fails`); if it uses both, the first call raises AttributeError (`C88_both_fails`), even if the block sizes exceed the grid (`C88_one_block_fails`).
- Fields in several FieldSets (C89): `FieldSet(U=fs1.U + fs2.U, ...)` changes `fs2`'s own fields. Their `igrid` becomes their place in the new FieldSet, so particles of `fs2` use the index entries of the next particle, and the last one reads outside the arrays (`C89_entry_fails`); if the grids are equal the fields lose the grid of `fs2` altogether (`C89_grid_fails`). Making a ParticleSet with the new FieldSet shifts the times of `fs2`'s grids to the origin of `fs1`, while particles of `fs2` go on counting from its own (`C89_clock_fails`).
- FieldSet as a namespace (C90): `add_constant` silently replaces a field of that name (`C90_constant_fails`), `add_vector_field` replaces whatever has its name, also after completion (`C90_vector_replaces_fails`). `add_vector_field` with a component whose name is taken raises but leaves the vector field behind with an unregistered component (`C90_vector_refused_fails`); so does `add_field` with a VectorField (`C90_add_field_refused_fails`). A SummedField of VectorFields is accepted by `add_vector_field` but none of its fields is registered: they have `igrid` -1, no C name, and their times are not shifted to the origin of the FieldSet (`C90_summed_vector_fails`). `add_field(field, name)` with another name than the field's own is accepted, but then every ParticleSet constructor raises an AssertionError (`C90_renamed_fails`).
- Generic access to a collection (C91): on 64-bit platforms `np.intp` is `np.int64`, and `type(x) in [int, np.int32, np.intp]` is tested first, so `collection.get/remove/delete(p.id)` take the ID for an index (`C91_int64_is_index`): once IDs are not positions, another particle is removed or marked (`C91_int64_fails`). `delete` of a particle or list, `a - b` with anything but a collection and `pop` of a particle do nothing and raise nothing (`C91_ignored_fails`); `pop` is never implemented (`C91_pop_fails`).
- With `interp_method='nearest'` on a curvilinear grid the node is the nearest in relative coordinates of the cell. On a sheared grid another node can be nearer in space (`C30_curvilinear_distance_fails`).
- A spherical grid whose last meridian is one cell before the first (the usual layout of global data) is not recognised as global unless its cells are narrower than 0.1 degrees; longitudes in that last cell are refused. With finer cells it is recognised, and they are still never found (C92_open_fails, C92_gap_fails).
- On curvilinear grids only the first row of longitudes is looked at (C92_first_row_fails).
- Depths given by a field are paired with the data by position, not by time: with other times in the file of the depths, or with the depths in memory and the data deferred, samples use depths of other times (C93_other_times_fails, C93_mixed_loading_fails). Fields without files never get their depths (C93_no_files_fails). Creating any field on the grid clears the source of its depths (C93_new_field_fails).
- Event times are running sums of floating-point numbers, compared with `==`, `<` and an absolute tolerance of 1e-12: with output every 0.1 s for 1 s the last record is written twice, at 1 - 2^-53 and at 1 (C94_tenths_fails); an interval or step below half a unit in the last place of the time makes execute run for ever (C94_lost_interval_fails, C94_lost_step_fails). With times that are multiples of a power of two of seconds (down to 2^-24) rounding changes nothing (C94).
- Positions are single precision by default: displacements per step below half a unit in the last place are lost for ever, so slow particles do not move at all (C95_drift_lost: 170 degrees east, a millimetre per second, steps of five minutes).
- With `lonlatdepth_dtype=np.float64`, the width of a cell is still the difference of two `float32` nodes, in single precision. Close to the far node the relative coordinate is then above 1 and sampling fails inside the grid, in both modes (C96_double_fails: nodes 0.1 and 1, longitude 1 - 10^-9, in JIT mode also 1).
- On a spherical rectilinear mesh across the date line, Scipy mode adds and subtracts 360 in single precision; the last longitude can come out smaller, and a particle on it raises IndexError (C96_dateline_fails: last longitude 70.01 degrees west).
- Positions depend on the output interval if it is not a multiple of dt, because the step before an output is shortened (C97_off_grid_fails).
- `execute` on a set whose particles have all been deleted fails with ValueError, because the start of the run is the smallest time of its particles (C98_empty_fails). When only particles are left that start later, `runtime` counts from their start (C98_late_fails).
- The first call of `FieldSet.computeTimeChunk` in `execute` has `np.sign(dt)` for its time step (baseparticleset.py:426), so that the first stop is rounded to whole seconds instead of whole steps: with deferred loading the first step may be split, which changes the result (`C100_seconds_fails`). Snapshots that are no whole number of steps after the start split steps too (`C100_off_grid_fails`). A run beyond the last snapshot fails in `computeTimeChunk`, not in the kernel, so that the recovery functions are not called (`C100_end_fails`).
- On an axis of longitudes with a jump (e.g. 150, 170, -175, -150) no longitude in the cell with the jump is accepted: the range check of both modes compares with the smallest and the largest number of the axis, -175 and 170 (`C101_dateline_fails`). A particle that drifts to the date line is deleted or raises there.
- East of the end of a global axis without halo, the C search finds the cell one turn to the west and the Scipy search fails (`C101_modes_fails`).
- The kernel of the tutorial on periodic boundaries moves particles by the difference between the last and the first longitude of the data, which on axes such as 0, 45, ..., 315 is one cell short of a turn (`C101_tutorial_fails`).
- The particles that a first run with `repeatdt` releases start where the first particles are at the first interruption of that run, so that they change with `outputdt` (`C102_first`, `C102_given_fails`, `C102_output_fails`; the cause is that of C59).
- With random kernels, the trajectories depend on `outputdt`, `moviedt` and `callbackdt`, and on the other particles, since the draws are used in the order in which particles are executed between interruptions (`C103_output_fails`, `C103_particles_fails`; not a bug, but a limit of reproducibility with a seed).
- The messages of errors that stop a run (C104): `if lon and lat` is false on the equator and on the meridian, and the point at which the field was sampled is lost (`C104_equator_fails`); it is always lost for errors at the surface, where `recovery_kernel_through_surface` passes `error.z` only (`C104_surface_fails`; nor do the vertical searches know it, field.py:610-676); `OutOfTimeError` gives the time of the particle, not the time that was sampled (`C104_time_fails`); `particle.exception` is never reset, so that an error that a kernel returns later is reported with an old exception, or with an `AttributeError` (`C104_stale_fails`); the state in the message is always 0, since it is set to `Success` before the recovery function is called (`about`).
- A run that is continued from its file (C106) loses the particles that were to start later (`C106_late_fails`), and, if it went backward in time and no restart time is given, it starts again at its beginning, since the default is the latest time in the file (`C106_backward_fails`).
- `chunk_setup` is called once per field (field.py:1147), so that the sizes that compiled code uses stay those of the first execution: `add_periodic_halo` on a FieldSet that has been used in JIT mode makes it read wrong values (`C107_halo_fails`). Nothing checks the type of an array assigned to `field.data` (`C107_double_fails`), or that a compiled kernel is executed with a particle set on its own FieldSet (`C107_other_fails`).
- A recovery function that returns without bringing the particle back lets `execute` run for ever: there is no limit on the number of repairs (`C108_endless`).
- The time of a particle at the end of a run may differ from the end of the run (and from the output times) by up to 1e-8 s: if so little is left, no step is taken and the time is not set (`C109_exact_end_fails`).
- A particle for which AdvectionRK45 (or another kernel that returns Repeat) asks for a step of at most 1e-8 s is left behind for the rest of the run, without any error, also after later interruptions of the run (`C110_left_behind_fails`).
- With AdvectionRK45 a particle can be faster than all velocities in the data, by up to 1e-4, because its solution has a negative weight (`C111_rk45_fails`).
- A nested field whose earlier member starts below the particle, or whose earlier member has no data at that time (even where the particle is outside its grid), raises an error although a later member covers the particle (`C112_surface_fails`, `C112_time_fails`).
- A run that starts exactly at the last time of a periodic field whose last data differ from the first depends on the mode: JIT mode samples the last data, Scipy mode the first (`C113_open_fails`).
- In JIT mode, particles that leave a member of a summed vector field other than the last are not stopped: they move on with uninitialised temporaries; in Scipy mode the same run deletes them (`C115_swallow_fails`, `C115_run_fails`).
- The same regional grid across the date line gives different runs with longitudes that go on after 180 and with longitudes that start again at -180: in the second case particles in the cell of the jump are out of bounds (`C117_dateline_fails`, from the finding of C101).
- `Field.show` (C119): the arrows of a C-grid velocity are computed from U only (plotting.py:175-178 uses `data[0]` for the second component), so that a northward flow is displayed as no flow.
- `Field.show` (C119): a `domain` is cut off before its northern and eastern limits, and the last row and column are never displayed with a domain; without one, columns are missing on curvilinear grids with z levels that have more columns than rows, and rectilinear grids with s levels raise an IndexError.
- `Field.show` (C119): raises TimeExtrapolationError for fields with `allow_time_extrapolation` outside their times, so `pset.show(field=...)` fails for fields with one time after the first step; V is displayed at another time than U if U is periodic in time and V has another period.
- C-grids (C120): on the boundary between two rows the eastward velocity jumps, and JIT mode takes the row that the particle was in before, Scipy mode the southern one: the same position has different velocities in the two modes, and for two particles in JIT mode.
- C-grids (C121): because of the boundary between rows (C120), the same run ends at different positions in the two modes.
- xarray datasets (C122): `Field.from_xarray` takes `da.data` as it is, so that a variable with dimensions (lon, lat) of the same length gives a mirrored field; the attribute `Unit` is looked at only if `time` is a key of `dimensions` itself, so that with dimensions per variable days are taken for seconds; the repair changes the caller's dataset; `time_periodic` is dropped; `fieldtype` as a dictionary (as documented) raises a TypeError on spherical meshes; the default for extrapolation follows the number of times, not whether there is a time dimension.
- Messages (C123): the filter for repeated messages looks at all levels, so that an error with the text of an earlier `warning_once` is not shown, and it compares texts before arguments are put in (parcels itself passes no arguments).
- `RandomC` (C124): `__del__` calls `unload_lib`, then `remove_lib`, which does nothing when the library is not loaded: each process that imports parcels leaves three files in the cache directory.
- `Timer.stop` (C125) does not look at the children, though `start` looks at the parent: a child goes on while its parent stands still, and its share of the time exceeds 100 percent.
- `ParticleSet(time=...)` (C127): the type of the first time decides whether dates of Python are converted; the test that should refuse `np.timedelta64` for a fieldset without dates asks for the truth of a `TimeConverter`, which is always true.
- `fix_indentation` (C128) removes the first occurrence of the indentation wherever it is in a line, not only at its start.
- `_chunkmap_to_chunksize` (C129): for files with one time each and no levels the chunk sizes are shifted (latitude gets 1, longitude that of the latitude); for data with two axes the names of latitude and longitude are swapped.
- `add_metadata` (C130): a message given after the last `write` is lost if the NetCDF file is made by the script; after `export` the dataset is closed but not `None`, so messages are refused.
- `parcels_get_examples` (C131): after an interrupted download the script does nothing because a folder exists, and an empty file counts as downloaded; `_still_to_download` removes names from the list of the module, so in one process a second directory misses them.
- `GNU_parameters` (C132): `MPICC` is read and then overwritten, and `os._exists` looks for names in the module `os`, not for programs; `libs.append` changes the caller's list; `-Wl, -rpath=` has a space.
- `plotTrajectoriesFile` (C133): longitudes below -180 or from 540 on are not brought into one turn for maps.
- `Field.advancetime` calls `isinstance` with one argument (always TypeError). `FieldSet.advancetime` therefore never returns, but it has already advanced the times of the first grid, so that the data have wrong dates (`C114_never_fails`, `C114_moved_fails`, `C114_samples_fails`); `Grid.advancetime` also changes the times, not the origin, of the new grid (`C114_again_fails`).

Code generation, random numbers, memory
- C43 w: clash of generated names. C44 w, C45 w: precedence, integer division, `%`, chained comparisons, while loops, tuple assignment, delete, samples in tests.
- C47 w: chunks of size one. C52 w: numpy array as particle_val. C53 w: two variables with one name. C54 w: ends of intervals. C67 w: uint64 variables not restored.
- C49, C50, C66 w: see the notes in MANIFEST.json.

## Trusted base

- Lean 4.33.0 kernel; Mathlib modules imported one at a time. No axioms of our own, no `sorry`, no `native_decide`, no `bv_decide`.
- Axioms: every theorem in MANIFEST.json depends on a subset of `propext`, `Classical.choice`, `Quot.sound`. The set for each theorem is
  in AXIOMS.md, made with `#print axioms`.
- The reading of the source that the models encode. Each definition cites file and lines.
- Exact arithmetic in place of IEEE floats, except where a theorem speaks of rounding (C54, C61, C94, C95, C96).
- numpy, dask, xarray, netCDF4, cgen and the C compiler behave as documented. The models use: numpy's `isclose`, `argmin`, `searchsorted`, `reshape`,
  fancy indexing, `concatenate`, `flip`; C's operator precedence, integer division, struct alignment; CPython's evaluation order.

### Modelled

| source | model |
|---|---|
| kernel.py: merge, execute_python, execute_jit (the loop), execute | KernelLoop, KernelMerge, Recovery, JitExec |
| compilation/codegenerator.py: expressions, statements, loop generator, names, backup of variables | Codegen, CodegenStmt, JitLoop, Names, Scope, Layout |
| particlesets/baseparticleset.py, particlesetsoa.py: construction, from_line, execute, releases, density, from_particlefile, from_field | Schedule, RepeatRelease, Density, CellAreas, Restart, FromField, Construct |
| particlesets/collectionsoa.py, collections.py: IDs, merge, remove, lookup, partition, initial values, iterators, accessors | Collection, SharedData, Construct, Precision, Access |
| particlefile.py: write, buffers, export, index | Output, Npy, Crash, OutVars |
| fieldset.py: check_complete (velocities), constructors of vector fields | Complete |
| fieldset.py: from_nemo, from_mitgcm, from_c_grid_dataset, from_pop, from_mom5, from_b_grid_dataset, from_parcels (names), parse_wildcards | Constructors |
| grid.py, gridset.py: sharing, time window, s-levels, halos, chunks | GridSet, TimeChunk, Halo, HaloSet, Chunks |
| field.py: search, interpolation, time interpolation, reshape, from_netcdf, loading, summed and nested fields, C-grid velocities, cell areas | Search, Curvilinear, Interp, TimeInterp, Load, FieldLists, CGrid, CGrid3D, SLevels, Scaling, CellAreas |
| field.py `chunk_setup`, `chunk_data`, `ctypes_struct` for fields with different blocks on one grid; their calls in kernel.py and fieldset.py | MixedChunks |
| particlesets/collections.py: `get`, `remove`, `delete`, `pop`, `__sub__`; collectionsoa.py: `__isub__` | Dispatch |
| field.py: `search_indices_curvilinear` with z levels, `interpolator2D`, `interpolator3D`, `spatial_interpolation`, `eval` on curvilinear grids; the same in index_search.h and parcels.h | CurviField |
| field.py: `search_indices_curvilinear` with s levels, `search_indices_vertical_s`, `spatial_interpolation`, `eval` on `CurvilinearSGrid`; parcels.h / index_search.h counterparts | CurviS |
| grid.py: `Grid.check_zonal_periodic`; its call in fieldset.py: `check_complete` | ZonalCheck |
| field.py: `set_depth_from_field`; fieldset.py: the depths in `check_complete` and `computeTimeChunk` | DepthFields |
| baseparticleset.py: `execute` (event loop), kernel.py: `execute_python`, codegenerator.py: particle loop, in floating-point arithmetic | FloatTime |
| kernels/advection.py: `AdvectionEE`, `AdvectionRK4`, `AdvectionRK4_3D`, in floating-point arithmetic | FloatAdvect |
| field.py: `search_indices_rectilinear`, `search_indices_vertical_z`, `interpolator2D`, `interpolator3D`, `eval` and their C versions, in floating-point arithmetic (linear, not periodic) | FloatSample |
| particlesets/baseparticleset.py: `execute` as a whole, with kernel.py: `execute` and particlefile.py: `write` | WholeRun |
| field.py: `Field.eval`, `VectorField.eval` and parcels.h: `temporal_interpolation` within a run, with the cells that particles remember | GridRun |
| baseparticleset.py: `execute` with the calls of `computeTimeChunk` and the snapshots in memory | DeferRun |
| field.py: sampling on spherical meshes with unit conversion, parcels.h and generated code likewise; periodic kernel of the documentation | SphereRun |
| particlesets/baseparticleset.py: `execute` with `repeatdt` | ReleaseRun |
| particlesets/baseparticleset.py: `execute`, kernel.py: `execute`, `execute_python`, `execute_jit` with a generator of random numbers | RandomRun |
| tools/statuscodes.py: error classes and default recovery functions; kernel.py: exceptions of particles | ErrorReport |
| export of the file of a run, set made from it | Export, ExportRun |
| kernel.py: `execute_jit`; field.py: `chunk_setup`, `chunk_data`, `ctypes_struct` for NumPy arrays; grid.py: `child_ctypes_struct` (arrays) | JitData |
| field.py:1816-1832; codegenerator.py:857-895; parcels.h:476-591, 958-1011: nested fields in whole runs | NestRun (rectilinear grids, linear interpolation, data in memory) |
| field.py:567-571, 1048-1104; parcels.h:476-591, 958-970; index_search.h:433-458: time-periodic fields in whole runs | PeriodRun (rectilinear grids with linear interpolation, data in memory, times that span the period) |
| fieldset.py:989-1015; grid.py:145-158; field.py:1332-1342: `advancetime` | Advance (no nested or summed fields; same calendar) |
| field.py:1755-1767; codegenerator.py:284-301, 823-855; parcels.h:476-591, 958-1011: summed fields in whole runs | SumRun (rectilinear grids, linear interpolation, data in memory) |
| plotting.py: `plotfield` (time, domain, arrays), `parsedomain`; field.py: `temporal_interpolate_fullfield` | Plot (rectilinear grids with z levels; not matplotlib) |
| field.py: `VectorField.eval` (C-grids, 2D); parcels.h: `temporal_interpolationUV_c_grid` | CGridRun (rectilinear grids with z levels) |
| advection.py: `AdvectionRK4`, `AdvectionEE` on C-grids; codegenerator.py: `visit_VectorFieldEvalNode` | CGridSteps |
| fieldset.py: `from_xarray_dataset`, `checkvaliddimensionsdict`; field.py: `from_xarray`; converters.py: `convert_xarray_time_units` | XArray |
| tools/loggers.py | Loggers |
| rng.py: `RandomC` | RngLib |
| tools/timer.py: `Timer`, without the printing | Timer |
| tools/interpolation_utils.py: weights, derivatives, `jacobian2D_lin`, `interpolate` | Shapes |
| particlesets/particlesetsoa.py: `_convert_to_reltime`, dates in the constructor; tools/converters.py: comparisons of `TimeConverter` | ReleaseDates |
| kernel.py: `fix_indentation` | Indent |
| fieldfilebuffer.py: `_chunkmap_to_chunksize` | AutoChunks |
| particlefile.py: `add_metadata`, attributes in `open_netcdf_file`; scripts/convert_npydir_to_netcdf.py | Metadata |
| scripts/get_examples.py | GetExamples |
| compilation/codecompiler.py: `GNU_parameters`, `compile` | CompilerCmd |
| scripts/plottrajectoriesfile.py: frames of movies, longitudes on maps | Movie |
| fieldset.py: `add_field`, `add_vector_field`, `add_constant`, `get_fields`, attributes in `check_complete` | Namespace |
| fieldset.py, gridset.py: fields and grids shared between FieldSets | SharedFields |
| kernel.py: files and libraries of Kernels (`_cache_key`, `remove_lib`, `compile`, `load_lib`, finalizers); the choice of the Kernel in `execute` | Libs |
| fieldfilebuffer.py: lonlat, depth, indices, data; chunk sizes of DaskFileBuffer | Load, Chunks, ChunkSpec |
| fieldset.py: computeTimeChunk, add_field, add_constant, add_constant_field, from_netcdf, from_data (arguments), write, add_periodic_halo | TimeChunk, ConstField, Load, GridSet, FromNetcdf, HaloSet |
| kernels/advection.py, advectiondiffusion.py | Advection, Analytical |
| kernels/EOSseawaterproperties.py, TEOSseawaterdensity.py | Seawater |
| tools/converters.py, rng.py, include/random.h, include/index_search.h, include/parcels.h | Converters, Rng, Search, Curvilinear, Interp, CGrid, CGrid3D, SLevels, Memory |

### Not modelled

- plotting.py (drawing), the rest of scripts/plottrajectoriesfile.py, the examples themselves, the printing of tools/timer.py, the process that compiles (that it can fail is in Libs) and the classes for other compilers than GNU.
- MPI communication (only the partition of particles), garbage collection, file locking, memory limits.
- How xarray and dask divide the data into the requested blocks (fieldfilebuffer.py:671-712), the limit of automatic blocks (fieldfilebuffer.py:618-627), xarray decoding of times, masks and scale factors in files.
- The cell-change pre-step of analytical advection.
- Floating-point rounding, NaN and overflow, unless stated.
