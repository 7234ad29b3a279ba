{"id": "C01", "title": "A particle's clock never passes the requested end time", "statement": "During one kernel execution towards end time E with time step dt, a particle that has not yet reached E is advanced only in the direction of dt, its time never goes past E, and when the execution leaves it in state Success its time differs from E by at most the 1e-8 closeness tolerance. Each kernel call sees a dt whose size is min(|dt|, |E - time|) and whose sign is that of dt.", "quantifier": "every kernel function (arbitrary result codes, arbitrary writes to user variables, dt not rewritten by the kernel), every start time, end time, dt of either sign, every number of steps", "why_tests_cant": "Tests pick a handful of dt/endtime pairs and fixed kernels; the claim is about all pairs and all kernels, including non-dividing dt and adaptive ones.", "anchors": ["parcels/kernel.py:execute_python"]}
{"id": "C02", "title": "A failed or repeated kernel call leaves no trace on the particle", "statement": "If a kernel call ends with anything other than Success or Delete (an error, an exception, Repeat, or a silent change of dt), every particle variable except dt and state has, after the call, the value it had before the call; in particular time does not advance.", "quantifier": "every kernel, every particle content, every error or repeat outcome, at any step of the run", "why_tests_cant": "Which variables a kernel clobbers before failing is unbounded; tests fail a kernel at one chosen place.", "anchors": ["parcels/kernel.py:execute_python"]}
{"id": "C03", "title": "Particles are processed independently", "statement": "With a kernel that only touches its own particle, the outcome for one particle of a kernel execution does not depend on which other particles are in the set or on their order: executing a set is executing each particle alone, and permuting the set permutes the result.", "quantifier": "every particle set, every permutation and sub-set, every deterministic kernel", "why_tests_cant": "Tests cannot enumerate all sets and orders; hidden state leaking between iterations only shows for particular neighbours.", "anchors": ["parcels/kernel.py:execute_python", "parcels/compilation/codegenerator.py:LoopGenerator"]}
{"id": "C04", "title": "execute() returns with no particle pending, failed or marked for deletion", "statement": "When a kernel execution over a ParticleSet returns normally (no StopExecution), no remaining particle is in Delete, Repeat or an error state; every particle that was marked Delete has been removed; particles that were not marked Delete are all still there, in their original relative order.", "quantifier": "every kernel and every user recovery map (arbitrary recovery functions), every number of error/recovery rounds", "why_tests_cant": "The recovery loop can run any number of rounds in any interleaving of error codes.", "anchors": ["parcels/kernel.py:execute", "parcels/kernel.py:remove_deleted_soa", "parcels/particlesets/particlesetsoa.py:error_particles"]}
{"id": "C05", "title": "Recovery functions run exactly on the particles with their error", "statement": "In each recovery round, the user recovery function registered for an error code is applied exactly to the particles that are in that error code, once each; an out-of-bounds handler also serves through-surface errors unless a separate handler is given; a particle with an error code that has no handler is deleted; a particle whose handler leaves it untouched is resumed.", "quantifier": "every recovery map, every mix of error states over the particle set", "why_tests_cant": "The combinations of registered handlers, raised codes and handler outcomes are unbounded.", "anchors": ["parcels/kernel.py:execute", "parcels/tools/statuscodes.py:recovery_map"]}
{"id": "C06", "title": "Runtime zero executes the kernel exactly once per particle", "statement": "With dt = 0 (or runtime = 0, or endtime equal to the start) each particle gets the kernel applied exactly once and no particle's time changes.", "quantifier": "every kernel and every particle set, including kernels that fail on some particles", "why_tests_cant": "The violating case needs an error on one particle combined with success on another and a recovery handler.", "anchors": ["parcels/particlesets/baseparticleset.py:execute", "parcels/kernel.py:execute_python", "parcels/kernel.py:execute"]}
{"id": "C07", "title": "The user's dt is used for every full step of the whole run", "statement": "Throughout ParticleSet.execute(dt=d), every kernel call that is not the last one before an interruption (output, end, release) sees a time step of exactly d, also after an earlier, shortened, step.", "quantifier": "every dt, every list of interruption times", "why_tests_cant": "Needs interruption times that are not multiples of dt, at any position in the run.", "anchors": ["parcels/kernel.py:execute_python", "parcels/particlesets/baseparticleset.py:execute"]}
{"id": "C08", "title": "Adding kernels means running them one after the other", "statement": "k1 + k2 runs the body of k1 and then the body of k2 on every particle; addition is associative; and a bare Python function on either side behaves like the kernel made of it.", "quantifier": "all kernel bodies, all nesting of additions", "why_tests_cant": "Associativity and ordering over all kernels is an algebraic law, tests only add two or three.", "anchors": ["parcels/kernel.py:merge", "parcels/kernel.py:__add__", "parcels/kernel.py:__radd__"]}
{"id": "C09", "title": "The execution loop interrupts exactly at the scheduled times", "statement": "ParticleSet.execute from time S to time E: the times at which the kernel is stopped are strictly monotone in the direction of dt, the last one is E, none is beyond E, and every scheduled output, movie, callback, release and field-input time up to E is one of them; consecutive stops leave no part of [S,E] out.", "quantifier": "every start/end, every outputdt, moviedt, callbackdt, repeatdt > 0 (commensurable or not), forward and backward", "why_tests_cant": "The interleaving of several periodic event streams is unbounded.", "anchors": ["parcels/particlesets/baseparticleset.py:execute"]}
{"id": "C10", "title": "Output is written at start + k*outputdt and at the end", "statement": "With an output file of interval outputdt, particle output is written exactly at S, S\u00b1outputdt, S\u00b12 outputdt, ... up to the end time, and once more at the end time.", "quantifier": "every S, E, outputdt > 0, every other event stream present, both directions", "why_tests_cant": "The other event streams interrupt in arbitrary ways; a lost or doubled output time depends on their interplay.", "anchors": ["parcels/particlesets/baseparticleset.py:execute"]}
{"id": "C11", "title": "Repeated release adds particles exactly at the release times", "statement": "With repeatdt = r, new particles are released exactly at the times start + k*r (k >= 1) that lie within the run, each exactly once, also if the run is split over several calls of execute.", "quantifier": "every repeatdt > 0, start, end, number of execute calls, both directions", "why_tests_cant": "Quantifies over all histories of execute calls.", "anchors": ["parcels/particlesets/baseparticleset.py:execute", "parcels/particlesets/particlesetsoa.py:__init__"]}
{"id": "C12", "title": "execute() terminates", "statement": "For every accepted combination of arguments the event loop of ParticleSet.execute makes progress: after finitely many interruptions the end time is reached.", "quantifier": "every accepted argument combination (outputdt, moviedt, callbackdt >= 0)", "why_tests_cant": "Non-termination cannot be observed by a test that has to end; the set of arguments is unbounded.", "anchors": ["parcels/particlesets/baseparticleset.py:execute"]}
{"id": "C13", "title": "Particle IDs are unique", "statement": "No two particles created in a process ever have the same ID, and IDs given to newer particles are larger than those of all older ones.", "quantifier": "every history of ParticleSet constructions (of any size, including empty), additions, removals", "why_tests_cant": "History property: a collision needs a particular sequence of constructions.", "anchors": ["parcels/particlesets/collectionsoa.py:__init__", "parcels/particle.py:setLastID"]}
{"id": "C14", "title": "Every per-particle array stays aligned", "statement": "After any sequence of additions and removals, every variable array of a ParticleSet has one entry per particle, entry i of every array belongs to the same particle, and the reported number of particles is the length of the arrays.", "quantifier": "every sequence of add / remove operations, every set of variables", "why_tests_cant": "Invariant over unbounded histories.", "anchors": ["parcels/particlesets/collectionsoa.py:add_same", "parcels/particlesets/collectionsoa.py:remove_single_by_index", "parcels/particlesets/collectionsoa.py:remove_multi_by_indices"]}
{"id": "C15", "title": "Additions and removals are the list operations they claim to be", "statement": "Adding a set keeps all particles of both sets with their data, removing by index/ID removes exactly the named particles and leaves the others unchanged and in order; removing all particles of a set that was just added restores the original.", "quantifier": "every particle set content, every index/ID list", "why_tests_cant": "Quantifies over all contents and index lists.", "anchors": ["parcels/particlesets/collectionsoa.py:add_same", "parcels/particlesets/collectionsoa.py:remove_multi_by_indices", "parcels/particlesets/collectionsoa.py:remove_single_by_ID"]}
{"id": "C16", "title": "Looking up a particle by ID finds it", "statement": "If a particle with ID i is in the set, looking it up (or deleting / removing it) by ID addresses that particle; if not, an error is raised and nothing is changed.", "quantifier": "every history of additions and removals (sorted or unsorted IDs), every ID", "why_tests_cant": "The binary search relies on a 'sorted' flag that must be right after every possible history.", "anchors": ["parcels/particlesets/collectionsoa.py:get_single_by_ID", "parcels/particlesets/collectionsoa.py:delete_by_ID", "parcels/particlesets/collectionsoa.py:remove_single_by_ID", "parcels/particlesets/collectionsoa.py:add_same"]}
{"id": "C17", "title": "Multi-ID lookup returns the particles with those IDs", "statement": "Looking up or removing several IDs at once addresses exactly the particles of the set whose ID is in the list.", "quantifier": "every ID list, every set", "why_tests_cant": "Quantifies over all lists and sets.", "anchors": ["parcels/particlesets/collectionsoa.py:get_multi_by_IDs", "parcels/particlesets/collectionsoa.py:_recursive_ID_lookup"]}
{"id": "C18", "title": "Each particle is written at most once per output time and only if it is active then", "statement": "Over a whole run, for every particle and every output time at most one record is written; a record written at output time T has a particle time within |dt|/2 of T, or belongs to a particle being deleted.", "quantifier": "every sequence of write calls (regular and on-delete), every particle population", "why_tests_cant": "History property over all write sequences.", "anchors": ["parcels/particlesets/collectionsoa.py:toDictionary", "parcels/particlesets/collectionsoa.py:_to_write_particles", "parcels/particlefile.py:write"]}
{"id": "C19", "title": "Variables marked 'once' are written exactly once per particle", "statement": "A variable with to_write='once' gets exactly one record for each particle that is ever written as active, namely at the first output time at which it is active.", "quantifier": "every history of writes, releases, deletions", "why_tests_cant": "History property.", "anchors": ["parcels/particlesets/collectionsoa.py:toDictionary"]}
{"id": "C20", "title": "Deleted particles get their final record", "statement": "A particle deleted during a run with an output file has its state at deletion written before it disappears.", "quantifier": "every deletion pattern relative to the output times", "why_tests_cant": "Depends on the coincidence of deletion and output times.", "anchors": ["parcels/kernel.py:remove_deleted_soa", "parcels/particlesets/collectionsoa.py:toDictionary"]}
{"id": "C21", "title": "The exported trajectory array is the list of written records", "statement": "In the exported file row r is one particle and its entries are, in order of writing and without holes, exactly the records written for that particle; nothing is lost, duplicated or moved to another trajectory, and the remainder of the row is fill value.", "quantifier": "every sequence of temporary output records, any number of particles and times, any number of MPI ranks", "why_tests_cant": "Round-trip law over all record sequences.", "anchors": ["parcels/particlefile.py:read_from_npy", "parcels/particlefile.py:export", "parcels/particlefile.py:dump_dict_to_npy"]}
{"id": "C22", "title": "A crash between output steps loses no completed output", "statement": "If the process dies at any point during the run, the temporary directory still allows export of every output step whose write call had returned (the index file names only files that are completely written and names all of those written by completed calls).", "quantifier": "every crash point within any sequence of write calls", "why_tests_cant": "Crash points are unbounded and not injectable in unit tests.", "anchors": ["parcels/particlefile.py:write", "parcels/particlefile.py:dump_dict_to_npy", "parcels/particlefile.py:dump_psetinfo_to_npy"]}
{"id": "C23", "title": "MPI partitioning loses and duplicates nothing", "statement": "Constructing a ParticleSet on n ranks distributes the particles so that each is on exactly one rank, with the ID it has in the serial run; merging the per-rank output gives the same trajectories as the serial run.", "quantifier": "every number of ranks, every partition vector, every particle list", "why_tests_cant": "Needs all partitions and rank counts.", "anchors": ["parcels/particlesets/collectionsoa.py:__init__", "parcels/particlefile.py:export"]}
{"id": "C24", "title": "A position inside a rectilinear grid is located in the right cell", "statement": "For a strictly increasing coordinate axis and a coordinate within its range, the search returns a cell index i with axis[i] <= x <= axis[i+1] and the relative coordinate (x-axis[i])/(axis[i+1]-axis[i]), which lies in [0,1]; outside the range it reports out-of-bounds. The JIT (C) search, started from any previous cell, gives the same relative position or the neighbouring cell's equivalent edge.", "quantifier": "every axis of any length >= 2, every coordinate, every starting cell", "why_tests_cant": "All axes and positions, including exactly on nodes.", "anchors": ["parcels/field.py:search_indices_rectilinear", "parcels/include/index_search.h:search_indices_rectilinear"]}
{"id": "C25", "title": "Depth is located in the right layer", "statement": "For a strictly monotone depth axis (downward or upward), the vertical search returns the layer containing z and the relative height in [0,1]; above the first level it reports through-surface, below the last level out-of-bounds, and nothing else is reported for positions inside. The same holds for terrain-following (s) levels.", "quantifier": "every depth axis (increasing or decreasing), every z", "why_tests_cant": "All axes and z.", "anchors": ["parcels/field.py:search_indices_vertical_z", "parcels/field.py:search_indices_vertical_s", "parcels/include/index_search.h"]}
{"id": "C26", "title": "Longitudes are found modulo 360 on spherical grids", "statement": "On a spherical rectilinear grid, the cell returned for longitude x contains x modulo 360, with relative coordinate in [0,1].", "quantifier": "every longitude axis accepted for a spherical mesh, every x accepted by the range check", "why_tests_cant": "All axes and longitudes including date-line crossings.", "anchors": ["parcels/field.py:search_indices_rectilinear", "parcels/grid.py:check_zonal_periodic"]}
{"id": "C27", "title": "The curvilinear search returns the true position within the cell", "statement": "When the curvilinear search accepts a cell with relative coordinates (xsi, eta) in [0,1]^2, the bilinear map of the cell's four corners at (xsi, eta) is the requested position.", "quantifier": "every convex quadrilateral cell and position", "why_tests_cant": "Non-linear algebra over all cells.", "anchors": ["parcels/field.py:search_indices_curvilinear", "parcels/include/index_search.h:search_indices_curvilinear"]}
{"id": "C28", "title": "The curvilinear search never leaves the grid", "statement": "Whatever the starting cell and the position, every cell index used by the curvilinear search is a valid cell of the grid.", "quantifier": "every grid size, starting cell and step direction", "why_tests_cant": "All walks over all grid sizes.", "anchors": ["parcels/field.py:reconnect_bnd_indices", "parcels/include/index_search.h:reconnect_bnd_indices"]}
{"id": "C29", "title": "Linear interpolation stays between the surrounding values and is exact for linear fields", "statement": "Sampling with interp_method='linear' gives a value between the minimum and maximum of the surrounding nodes, the node value at a node, and the exact value if the data sample a function that is linear in each coordinate; the value is continuous across cell edges.", "quantifier": "every cell, data and position, 2D and 3D", "why_tests_cant": "Holds for a continuum of positions and data.", "anchors": ["parcels/field.py:interpolator2D", "parcels/field.py:interpolator3D", "parcels/include/parcels.h:spatial_interpolation_bilinear"]}
{"id": "C30", "title": "Nearest-neighbour sampling returns the value of a nearest node", "statement": "Sampling with interp_method='nearest' returns the data of the node of the cell that is nearest in each coordinate; Scipy and JIT agree except exactly midway.", "quantifier": "every position and data", "why_tests_cant": "Continuum of positions, including ties.", "anchors": ["parcels/field.py:interpolator2D", "parcels/include/parcels.h:spatial_interpolation_nearest2D"]}
{"id": "C31", "title": "Inverse-distance land interpolation ignores land", "statement": "Sampling with 'linear_invdist_land_tracer' near land gives a weighted mean of the ocean nodes of the cell only (so it lies between their minimum and maximum), the node value at an ocean node, and 0 at a land node or if all are land.", "quantifier": "every land/ocean pattern, data and position; 2D and 3D, Scipy and JIT", "why_tests_cant": "All patterns, data and positions.", "anchors": ["parcels/field.py:interpolator2D", "parcels/field.py:interpolator3D", "parcels/include/parcels.h"]}
{"id": "C32", "title": "Sampling in time interpolates linearly between the bracketing snapshots", "statement": "For increasing snapshot times, sampling at a time within the range gives the linear interpolation of the two bracketing snapshots (the snapshot itself at a snapshot time); outside the range it raises a time-extrapolation error, or, with extrapolation allowed, gives the first/last snapshot.", "quantifier": "every time axis, every time", "why_tests_cant": "All axes and times.", "anchors": ["parcels/field.py:time_index", "parcels/field.py:eval", "parcels/include/index_search.h:search_time_index", "parcels/include/parcels.h:temporal_interpolation_structured_grid"]}
{"id": "C33", "title": "Time-periodic fields are periodic", "statement": "With time_periodic=P, the sampled value at t and t + n*P is the same for every integer n, and it is the linear interpolation between the snapshots around the time, where the first snapshot follows the last one after the period.", "quantifier": "every time axis, time, integer n", "why_tests_cant": "All n and t.", "anchors": ["parcels/field.py:time_index", "parcels/field.py:eval"]}
{"id": "C34", "title": "Nested fields: the first field that covers the position decides", "statement": "Sampling a NestedField gives the value of the first field in the list that is not out of bounds at the position; an out-of-bounds error arises only if all fields are out of bounds; any other error is passed on.", "quantifier": "every list of fields and outcomes; Scipy and JIT", "why_tests_cant": "All lists of outcomes.", "anchors": ["parcels/field.py:NestedField", "parcels/compilation/codegenerator.py:visit_NestedFieldEvalNode"]}
{"id": "C35", "title": "Summed fields: the value is the sum, and errors are not swallowed", "statement": "Sampling a SummedField gives the sum of the values of its fields, and fails if any of them fails; adding fields never changes previously built summed fields.", "quantifier": "every list of fields, in scalar or vector use; Scipy and JIT", "why_tests_cant": "All lists of outcomes.", "anchors": ["parcels/field.py:SummedField", "parcels/compilation/codegenerator.py:visit_SummedFieldEvalNode"]}
{"id": "C36", "title": "Unit conversion of velocities is invertible and consistent between modes", "statement": "Conversion to grid units and back is the identity away from the poles, and the Python conversion and the factor generated for C code agree.", "quantifier": "every value and latitude", "why_tests_cant": "Continuum.", "anchors": ["parcels/tools/converters.py"]}
{"id": "C37", "title": "Relative and absolute times convert back and forth", "statement": "Converting a time to seconds relative to the origin and back returns the same time, and preserves order.", "quantifier": "every origin and time of the supported types", "why_tests_cant": "All times.", "anchors": ["parcels/tools/converters.py:TimeConverter"]}
{"id": "C38", "title": "A periodic halo is periodic", "statement": "After adding a periodic halo of size h the coordinate and data of the extended grid satisfy: the original is unchanged in the interior, halo data equal the data one period away, and halo coordinates are shifted by exactly the period, so the axis stays increasing.", "quantifier": "every axis, data and halo size from 1 up to the axis length", "why_tests_cant": "All sizes and data.", "anchors": ["parcels/grid.py:RectilinearGrid.add_periodic_halo", "parcels/field.py:add_periodic_halo"]}
{"id": "C39", "title": "Deferred loading always has the right snapshots in memory", "statement": "With deferred loading, whenever the kernel runs between two interruptions, the two snapshots in memory are those of the file series whose times bracket the interval, whatever sequence of times was requested before; and the snapshots are identical to those a non-deferred load would give.", "quantifier": "every time axis, every monotone (forward or backward) sequence of requested times, both with and without periodicity", "why_tests_cant": "Stateful caching: depends on the whole history of requests.", "anchors": ["parcels/fieldset.py:computeTimeChunk", "parcels/grid.py:computeTimeChunk", "parcels/field.py:computeTimeChunk"]}
{"id": "C40", "title": "The next input time never skips a snapshot", "statement": "The next time at which FieldSet asks to be called again never lies beyond the end of the loaded snapshot interval of any field, and is strictly ahead of the current time.", "quantifier": "every set of deferred fields, time, dt of either sign", "why_tests_cant": "All field sets and times.", "anchors": ["parcels/fieldset.py:computeTimeChunk"]}
{"id": "C41", "title": "Deferred and direct loading scale and mask data alike", "statement": "Setting vmin/vmax and a scaling factor gives the same field values with deferred and with direct loading.", "quantifier": "every data value, vmin, vmax, factor", "why_tests_cant": "All values.", "anchors": ["parcels/field.py:__init__", "parcels/field.py:set_scaling_factor", "parcels/field.py:rescale_and_set_minmax"]}
{"id": "C42", "title": "Grid sharing does not change results", "statement": "When two fields are added, they share one grid object only if their grids are the same, so the coordinates used for a field are those it was created with.", "quantifier": "every pair of grids", "why_tests_cant": "All coordinate arrays.", "anchors": ["parcels/gridset.py:add_grid"]}
{"id": "C43", "title": "Names in generated C code do not clash", "statement": "The names given to fields in the generated C code are pairwise different.", "quantifier": "every set of field names", "why_tests_cant": "All name sets.", "anchors": ["parcels/fieldset.py:check_complete"]}
{"id": "C44", "title": "Generated C expressions mean what the Python kernel says", "statement": "For every kernel expression built from comparisons and boolean and arithmetic operators, the generated C expression, parsed with C precedence, has the value of the Python expression.", "quantifier": "every expression of the kernel language", "why_tests_cant": "Infinite set of expressions.", "anchors": ["parcels/compilation/codegenerator.py:visit_BoolOp", "parcels/compilation/codegenerator.py:visit_Compare", "parcels/compilation/codegenerator.py:visit_BinOp"]}
{"id": "C45", "title": "Generated C statements do what the Python kernel does", "statement": "Assignments (also of tuples), if and while in a kernel have the same effect in JIT and in Scipy mode.", "quantifier": "every statement of the kernel language and every state", "why_tests_cant": "Infinite set of programs.", "anchors": ["parcels/compilation/codegenerator.py:TupleSplitter", "parcels/compilation/codegenerator.py:visit_While", "parcels/compilation/codegenerator.py:visit_If"]}
{"id": "C46", "title": "JIT and Scipy time loops agree", "statement": "For the same deterministic kernel behaviour, the JIT loop and the Scipy loop bring every particle through the same sequence of (time, dt) steps and end in the same time and state.", "quantifier": "every kernel behaviour, start, end, dt != 0", "why_tests_cant": "All kernels and schedules.", "anchors": ["parcels/kernel.py:execute_python", "parcels/compilation/codegenerator.py:LoopGenerator"]}
{"id": "C47", "title": "Chunked field access reads the right datum", "statement": "In JIT mode with chunked fields, the value read for grid indices (z,y,x) is the datum at those indices of the full field, for every chunk layout; an access to a chunk that is not loaded requests it and repeats instead of reading.", "quantifier": "every chunk layout and index", "why_tests_cant": "All layouts.", "anchors": ["parcels/include/parcels.h:getBlock2D", "parcels/include/parcels.h:getCell2D", "parcels/field.py:chunk_setup"]}
{"id": "C48", "title": "A particle waiting for a chunk is not lost", "statement": "The chunk load states follow not-loaded -> requested -> loaded; a particle that needs a missing chunk is repeated after loading without having moved.", "quantifier": "every sequence of accesses and executions", "why_tests_cant": "History property.", "anchors": ["parcels/field.py:chunk_data", "parcels/kernel.py:execute_jit", "parcels/kernel.py:execute"]}
{"id": "C49", "title": "Advection schemes are consistent", "statement": "In a uniform flow every advection scheme (EE, RK4, RK4_3D, RK45) moves a particle by exactly velocity*dt, and over a whole execution by velocity times elapsed time; RK4 and RK45 integrate a flow that is a cubic polynomial of time exactly; with RK4, integrating forward and then backward in a flow depending on time only returns to the start; in any flow EE, RK4 and the two solutions of RK45 are Runge-Kutta methods of orders 1, 4, 4 and 5.", "quantifier": "all velocities, flows, dt of either sign, polynomial coefficients, numbers of steps", "why_tests_cant": "Continuum; exactness is an identity.", "anchors": ["parcels/kernels/advection.py"]}
{"id": "C50", "title": "RK45 accepts only steps within tolerance and adapts dt", "statement": "AdvectionRK45 moves the particle only if the difference of its two solutions is within tolerance; otherwise it leaves the position alone, halves dt and asks for a repeat; dt is doubled only when the error is below a tenth of the tolerance.", "quantifier": "every flow, position, dt", "why_tests_cant": "All flows.", "anchors": ["parcels/kernels/advection.py:AdvectionRK45"]}
{"id": "C51", "title": "C-grid velocities match the face velocities", "statement": "On a rectangular flat cell, C-grid interpolation returns, on each face, exactly the face-normal velocity given by the data; inside it is the linear interpolation; a uniform flow is reproduced exactly on any parallelogram cell; and the interpolated flux through opposite faces is consistent.", "quantifier": "all cells and data", "why_tests_cant": "Continuum.", "anchors": ["parcels/field.py:spatial_c_grid_interpolation2D", "parcels/include/parcels.h:spatial_interpolation_UV_c_grid"]}
{"id": "C52", "title": "Particle density conserves particles", "statement": "pset.density() without area scaling counts every particle inside the grid exactly once: the sum over cells is the number of particles (or the sum of the given particle values).", "quantifier": "every particle set and grid", "why_tests_cant": "All sets.", "anchors": ["parcels/particlesets/particlesetsoa.py:density"]}
{"id": "C53", "title": "The particle memory layout is aligned and collision free", "statement": "For every particle class (in which no class of the hierarchy declares two Variables of the same name) the variable list used for the C struct contains each declared or inherited variable once, with 64-bit variables first; fields do not overlap, each lies at a multiple of its width, where a C compiler would place it, and the size is a multiple of 8 bytes. A Variable with the name of an inherited one, or z, is rejected.", "quantifier": "every list of variables", "why_tests_cant": "All variable sets.", "anchors": ["parcels/particle.py:ParticleType"]}
{"id": "C54", "title": "Random numbers lie in the documented range", "statement": "random() lies in [0,1], uniform(a,b) between a and b, randint(a,b) with a<b in {a,...,b-1}, expovariate(lambda) is finite and not negative, vonmisesvariate lies in [0, 2*pi], whatever the underlying generator returns.", "quantifier": "every value of the underlying generator, every range", "why_tests_cant": "All generator values.", "anchors": ["parcels/include/random.h", "parcels/rng.py"]}
{"id": "C55", "title": "Deferred loading picks the right record of the right file", "statement": "For every global time index the file and record read in deferred mode hold the snapshot with that time.", "quantifier": "every distribution of times over files, every time index, including the extra snapshot of periodic fields", "why_tests_cant": "All distributions.", "anchors": ["parcels/field.py:computeTimeChunk", "parcels/field.py:collect_timeslices"]}
{"id": "C56", "title": "Restarting from a particle file continues the run", "statement": "Creating a ParticleSet from an output file gives exactly the particles that were active at the restart time, with their last recorded values and their IDs.", "quantifier": "every output file content and restart time", "why_tests_cant": "All contents.", "anchors": ["parcels/particlesets/particlesetsoa.py:from_particlefile"]}
{"id": "C57", "title": "Analytical advection keeps a particle in its cell", "statement": "In AdvectionAnalytical the particle is moved to a position within the current cell or on its boundary, and after the computed travel time it reaches exactly the exit face.", "quantifier": "every cell, fluxes, position", "why_tests_cant": "Continuum.", "anchors": ["parcels/kernels/advection.py:AdvectionAnalytical"]}
{"id": "C58", "title": "Combined grid range is the intersection", "statement": "The start and end time of a FieldSet derived by default are such that every time in between is within the time axis of each field (ignoring single-snapshot fields).", "quantifier": "every set of grids", "why_tests_cant": "All grid sets.", "anchors": ["parcels/gridset.py:dimrange"]}
{"id": "C59", "title": "Repeated releases start from the original positions", "statement": "With repeatdt, every repeated release creates particles at the positions (and with the variable values) given when the ParticleSet was constructed, whatever has happened to the particles of earlier releases.", "quantifier": "every kernel, every number of releases, every initial positions", "why_tests_cant": "Whether a later release sees moved positions depends on in-place mutation over the history of the run; tests check the number of released particles.", "anchors": ["parcels/particlesets/particlesetsoa.py:ParticleSetSOA.__init__", "parcels/particlesets/baseparticleset.py:execute"]}
{"id": "C60", "title": "execute() does not change the caller's recovery dictionary", "statement": "The recovery dictionary passed to execute() is the same after the call as before; registering another function for an error code and calling execute() again uses the new function for all errors it is documented to serve.", "quantifier": "every recovery dictionary, every sequence of calls", "why_tests_cant": "Aliasing between calls shows only for particular histories of dictionary edits.", "anchors": ["parcels/kernel.py:execute"]}
{"id": "C61", "title": "Operations on one ParticleSet never change another", "statement": "Adding set B to set A, and any later operation on A, leaves the particles of B as they are.", "quantifier": "every history of constructions, additions and removals on any number of sets", "why_tests_cant": "Aliasing shows only along particular histories.", "anchors": ["parcels/particlesets/collectionsoa.py:add_same", "parcels/particlesets/collectionsoa.py:remove_multi_by_indices"]}
{"id": "C62", "title": "Exported 'once' values belong to the same particles as the trajectories", "statement": "In the exported file, row n of a variable written once and row n of the trajectories belong to the same particle, whatever was released and deleted during the run.", "quantifier": "every run with releases and deletions, both settings of write_ondelete", "why_tests_cant": "The two sets of rows are filtered separately, and differ only for particular release and deletion histories.", "anchors": ["parcels/particlesets/collectionsoa.py:toDictionary", "parcels/particlefile.py:read_from_npy"]}
{"id": "C63", "title": "Writing output never raises for a valid particle set", "statement": "ParticleFile.write completes for every particle set that execute can produce, whatever the release times and time steps of the particles.", "quantifier": "every particle set, output time and kind of write", "why_tests_cant": "The failing branch needs a particle near but not at the output time together with one far away.", "anchors": ["parcels/particlesets/collectionsoa.py:toDictionary"]}
{"id": "C64", "title": "On a 3D B-grid, velocity and tracer come from the layer that contains the position", "statement": "On a B-grid fieldset (from_pop, from_mom5), sampling the horizontal velocity gives the bilinear interpolation within, and sampling a tracer gives the cell value of, the vertical layer that contains the position (POP: layer k lies below depth[k]; MOM5: above depth[k]).", "quantifier": "every grid, data, position, POP and MOM5 indexing, Scipy and JIT", "why_tests_cant": "All grids, data and positions; the layer convention differs by model.", "anchors": ["parcels/field.py:interpolator3D", "parcels/field.py:search_indices_vertical_z", "parcels/include/parcels.h:temporal_interpolation_structured_grid", "parcels/fieldset.py:from_mom5"]}
{"id": "C65", "title": "Fields with different time origins are sampled at the same date", "statement": "In a FieldSet whose fields have different time origins, sampling at time t gives, for every field, its value at the date 'origin of the FieldSet plus t', with an error exactly when that date is outside the field's time axis.", "quantifier": "every set of time origins and axes, every time, periodic or not", "why_tests_cant": "All origins, axes and times.", "anchors": ["parcels/fieldset.py:check_complete", "parcels/field.py:time_index", "parcels/grid.py:Grid"]}
{"id": "C66", "title": "Diffusion kernels are consistent with advection and with each other", "statement": "With zero diffusivity AdvectionDiffusionM1 and AdvectionDiffusionEM move a particle as AdvectionEE does, whatever the random increments; with uniform diffusivity they agree with each other and with AdvectionEE followed by DiffusionUniformKh for the same increments; with diffusivity linear in space the mean displacement of both over the random increments, going forward in time, is (velocity + gradient of diffusivity)*dt.", "quantifier": "all velocities, diffusivities, positions, dt, random increments", "why_tests_cant": "The tests check statistics of a sample; the identities hold for every increment.", "anchors": ["parcels/kernels/advectiondiffusion.py"]}
{"id": "C67", "title": "A repeated or failed kernel call leaves no trace in the variables", "statement": "In JIT mode, when a kernel call asks for a repetition, all variables of the particle except dt and state get back the values they had before the call, whatever the kernel did to them.", "quantifier": "every particle class, every kernel effect", "why_tests_cant": "All variable sets and kernels.", "anchors": ["parcels/compilation/codegenerator.py:LoopGenerator.generate"]}
{"id": "C68", "title": "Sampling on curvilinear grids is a bounded, linear-exact interpolation", "statement": "On a curvilinear grid with linear interpolation, sampling a uniform field gives its value, every sample lies between the smallest and the largest data value, and sampling a field that is a linear function of longitude and latitude gives the value of that function at the position.", "quantifier": "every grid, position, mode and starting cell", "why_tests_cant": "All cell shapes and positions.", "anchors": ["parcels/field.py:search_indices_curvilinear", "parcels/field.py:interpolator2D", "parcels/include/index_search.h:search_indices_curvilinear"]}
{"id": "C69", "title": "A field has, at every node, the value its source has for the coordinates of that node", "statement": "For a field read from files (at once or deferred, after any moves of the time window forward and back) or made from arrays, at every time, depth level and node of its grid the value is the one the file or array holds for that time, depth, latitude and longitude - whatever subset of indices is requested, whether latitudes run north to south or south to north, whatever axes of length one are present, transposed or not; and a well-formed request succeeds.", "quantifier": "all files, lists of indices, orders of the axes, numbers of records per file, moves of the time window", "why_tests_cant": "The combinations of file layouts, index subsets, flips, length-one axes and loading modes are unbounded; tests try a few files.", "anchors": ["parcels/field.py:Field.from_netcdf", "parcels/field.py:Field.reshape", "parcels/field.py:Field.computeTimeChunk", "parcels/field.py:Field.data_concatenate", "parcels/fieldset.py:FieldSet.computeTimeChunk", "parcels/fieldfilebuffer.py:NetcdfFileBuffer", "parcels/grid.py:RectilinearGrid"]}
{"id": "C70", "title": "Writing a field and reading it back gives the same field", "statement": "For every field, Field.write succeeds, and a FieldSet that reads the file back (FieldSet.from_parcels) has a field with the same nodes, depths and dates and, at every time and node, the same value; FieldSet.write does this for every field of the set.", "quantifier": "all rectilinear and curvilinear grids, axes, times and data; all FieldSets", "why_tests_cant": "All shapes, coordinates and times; tests write one field whose times start at 0.", "anchors": ["parcels/field.py:Field.write", "parcels/fieldset.py:FieldSet.write", "parcels/fieldset.py:FieldSet.from_parcels", "parcels/fieldfilebuffer.py:NetcdfFileBuffer"]}
{"id": "C71", "title": "A field does not depend on the other variables it is loaded with", "statement": "Every field of a FieldSet made by FieldSet.from_netcdf or FieldSet.from_data is the field that the same call makes from its variable alone: same coordinates, depths, times, mesh, unit converter, interpolation method, extrapolation and period, and data from the same files; options given per variable (filenames, dimensions, indices, fieldtype) act on that variable and on no other; and if each variable can be loaded alone, all can be loaded together.", "quantifier": "all contents of the files, all lists of variables, all forms of filenames (list, per variable, per dimension, per variable and dimension), dimensions, indices, fieldtype, interp_method, timestamps, time_periodic and deferred_load", "why_tests_cant": "The number of variables and the combinations of per-variable options are unbounded; grids are shared between fields and changed by the constructors of later ones, so errors depend on which variables come first.", "anchors": ["parcels/fieldset.py: FieldSet.from_netcdf, FieldSet.from_data", "parcels/field.py: Field.from_netcdf, Field.get_dim_filenames, Field.collect_timeslices, Field.__init__"]}
{"id": "C72", "title": "FieldSet.add_periodic_halo extends every field together with its grid", "statement": "After calls to FieldSet.add_periodic_halo every field of the FieldSet - loaded at once or later, used directly or inside a summed or nested field - has one value for each node of its extended grid, and that value is the one the original field has at the node a whole number of periods away in each direction; the grid has grown by the halo size at both ends.", "quantifier": "all FieldSets (fields, shared grids, summed and nested fields), all data, all axes, all sequences of calls with their directions and sizes, direct and deferred loading", "why_tests_cant": "Grids, data in memory and data loaded later are extended by different code at different moments, so agreement depends on which fields share grids and on the history of calls, of which there are infinitely many.", "anchors": ["parcels/fieldset.py: FieldSet.add_periodic_halo, FieldSet.computeTimeChunk", "parcels/grid.py: RectilinearGrid.add_periodic_halo", "parcels/field.py: Field.add_periodic_halo, Field.reshape"]}
{"id": "C73", "title": "C-grid velocities on s-levels match the velocities given on the six faces", "statement": "On a C-grid with s-levels (depths that vary over the grid, possibly in time) the three-dimensional velocity sampled in a cell is the same in Scipy and JIT mode; at every point of a face its component normal to the face is the velocity given there, positive towards the next column, the next row and greater depth; if the six values are the normal components of one uniform velocity, that velocity is returned everywhere in the cell; between snapshots the velocity is interpolated linearly in time.", "quantifier": "all cells (four horizontal corners, eight depths), positions, face velocities, flat and spherical meshes, times, grid indexing types", "why_tests_cant": "Cell shapes, slopes, positions and data range over continua; tests use boxes and one uniform flow, where most errors in the fluxes through the middle of the cell cancel.", "anchors": ["parcels/field.py: VectorField.spatial_c_grid_interpolation3D_full, VectorField.eval", "parcels/tools/interpolation_utils.py", "parcels/include/parcels.h: spatial_interpolation_UVW_c_grid, temporal_interpolationUVW_c_grid", "parcels/include/interpolation_utils.h", "parcels/fieldset.py: FieldSet.check_complete"]}
{"id": "C74", "title": "Sampling on terrain-following levels, fixed or moving in time", "statement": "On a grid whose levels have their own depth in every column, and possibly at every time, a sample is interpolated linearly in the cell, between the two levels around the particle at the depths they have at the particle's position and time, and linearly in time. It is the same in Scipy and JIT mode, whatever cell the particle was in before. A field that is linear in longitude, latitude, depth and time is sampled exactly; in particular the field of the depths gives the depth of the particle. A particle above the first level is reported as through the surface, one below the last level as out of bounds. With periodic time the series repeats.", "quantifier": "all grids, depths (downward or upward), times, positions, data, previous cells of the particle, with and without extrapolation in time", "why_tests_cant": "Depths, positions and times range over continua; the tests sample a few positions on one synthetic set of levels.", "anchors": ["parcels/field.py: Field.search_indices_vertical_s, Field.interpolator3D, Field.eval", "parcels/include/index_search.h: search_indices_vertical_s", "parcels/include/parcels.h: temporal_interpolation_structured_grid"]}
{"id": "C75", "title": "Releasing particles according to a field", "statement": "ParticleSet.from_field(fieldset, pclass, start_field, size) releases exactly `size` particles. Each lies in a grid cell where the field is positive, and the number of particles per area is in proportion to the field: the probability that a particle starts in a region is the integral of the field over the region divided by its integral over the grid.", "quantifier": "all fields that are not negative and not zero everywhere, all numbers of particles, all random numbers, rectilinear and curvilinear grids, all interpolation methods, start fields with and without depth levels", "why_tests_cant": "The claim is about probabilities and all random numbers; the test compares the histogram of one sample on a uniform grid with a tolerance.", "anchors": ["parcels/particlesets/particlesetsoa.py: ParticleSetSOA.monte_carlo_sample", "parcels/particlesets/baseparticleset.py: BaseParticleSet.from_field"]}
{"id": "C76", "title": "Uniform fields have one value everywhere", "statement": "A field with the same value at all nodes and times returns that value wherever it can be sampled, with every interpolation method, grid and mode. A field made by FieldSet.add_constant_field returns its value at every position and time.", "quantifier": "all values, rectilinear grids, interpolation methods, grid indexing types, time axes, positions, times and previous cells of the particle, both modes", "why_tests_cant": "Positions, times and values range over continua, and every branch of every interpolation method must keep the constant.", "anchors": ["parcels/fieldset.py: FieldSet.add_constant_field", "parcels/field.py: Field.eval, Field.interpolator2D, Field.interpolator3D", "parcels/include/parcels.h"]}
{"id": "C77", "title": "Every name in a compiled kernel means what it means in Python", "statement": "In the C function made for a kernel every variable used by the kernel is declared exactly once, and no name assigned by the kernel is also a parameter of the function, a field, a constant or a name used by the generated loop.", "quantifier": "all sets of local variables, fields, constants and function names of a kernel", "why_tests_cant": "The names are chosen by users; tests only cover kernels whose names do not clash.", "anchors": ["parcels/compilation/codegenerator.py: IntrinsicNode, TupleSplitter, KernelGenerator.generate, KernelGenerator.visit_FunctionDef", "parcels/kernel.py: Kernel.__init__, Kernel.__del__"]}
{"id": "C78", "title": "Areas of grid cells and density per area", "statement": "Field.cell_areas() gives for every cell of a rectilinear grid its area (on a spherical mesh, in square metres on the sphere), and ParticleSet.density(field, area_scale=True) times the area of a cell is the number (or sum of values) of the particles in it.", "quantifier": "all rectilinear grids, flat and spherical, all counts, before and after add_periodic_halo", "why_tests_cant": "Grids and counts range over continua; the test uses one equally spaced grid.", "anchors": ["parcels/field.py: Field.calc_cell_edge_sizes, Field.cell_areas", "parcels/particlesets/particlesetsoa.py: ParticleSetSOA.density", "parcels/grid.py: RectilinearGrid.add_periodic_halo"]}
{"id": "C79", "title": "New particles have the values they were given", "statement": "ParticleSet(...), from_list and from_line create one particle for each position. Particle i has the i-th longitude, latitude, depth (by default the smallest depth of the fieldset), time (one time is used for all) and the i-th value of every variable given by name, rounded to the type of the variable; every other variable has its initial value: a number, the value of a field at the position and time of the particle, or the value of another variable of the particle. IDs follow on from those used before. Arguments of different lengths are rejected, and so are different times with repeated release. from_line places the particles at equal distances from the start to the end.", "quantifier": "all particle classes (types, order and initial values of variables), positions, depths, times, keyword arguments, contents of fresh memory", "why_tests_cant": "The order in which variables are set depends on their types and on the class; tests use a few classes, and fresh memory often happens to be zero.", "anchors": ["parcels/particlesets/particlesetsoa.py: ParticleSetSOA.__init__", "parcels/particlesets/baseparticleset.py: BaseParticleSet.from_list, BaseParticleSet.from_line", "parcels/particlesets/collectionsoa.py: ParticleCollectionSOA.__init__, ParticleCollectionSOA.__getattr__", "parcels/particle.py: ParticleType, Variable"]}
{"id": "C80", "title": "Seawater kernels compute the published formulas", "statement": "PressureFromLatDepth sets particle.pressure to the pressure at which Saunders's formula gives the depth of the particle. AdiabticTemperatureGradient, PtempFromTemp and TempFromPtemp use the adiabatic gradient of UNESCO (1983) and one Runge-Kutta step of order four between the pressure of the particle and the reference pressure. UNESCODensity is the equation of state of UNESCO (1983). PolyTEOS10_bsq is the published polynomial in salinity, temperature and depth. Each kernel uses the values of the fields at the position and time of the particle and changes one variable only.", "quantifier": "all particles, positions, times, fields and reference pressures", "why_tests_cant": "Values range over continua; the tests compare one to two check values each, at a pressure for which a wrong term does not show.", "anchors": ["parcels/kernels/EOSseawaterproperties.py: PressureFromLatDepth, AdiabticTemperatureGradient, PtempFromTemp, TempFromPtemp, UNESCODensity", "parcels/kernels/TEOSseawaterdensity.py: PolyTEOS10_bsq"]}
{"id": "C81", "title": "The output file has the variables that were asked for", "statement": "A closed ParticleFile is a NetCDF file with one variable for each Variable of the particle class whose write status was True (a value per particle and output time) or 'once' (a value per particle) when the ParticleFile was made, with the recorded values in the type of the variable, and with no others. set_variable_write_status changes the status of that variable of that particle set only and raises an error for an unknown name.", "quantifier": "all particle classes (names, types and write status of variables), all recorded values, all sequences of changes of the status", "why_tests_cant": "Names are chosen by users and share a namespace with the program's attributes; tests use a few names and do not compare other sets.", "anchors": ["parcels/particlefile.py: ParticleFile.__init__, ParticleFile.open_netcdf_file, ParticleFile.close, ParticleFile.export, ParticleFile.read_from_npy", "parcels/particlesets/collectionsoa.py: ParticleCollectionSOA.set_variable_write_status, ParticleCollectionSOA.toDictionary", "parcels/particle.py: Variable, ParticleType"]}
{"id": "C82", "title": "A FieldSet accepts the velocities that go together and combines all of them", "statement": "A FieldSet with velocities U, V and possibly W, each a Field or a sum or nest of Fields, is accepted exactly if the components go together (C-grid velocities on one grid with at least two nodes in each direction, or none on a C-grid; the same, known indexing; no MITgcm indexing on curvilinear grids; no land interpolation). The vector fields UV and UVW then combine every component of U with the component of V and W at the same place, so that a summed velocity is the sum of all its components.", "quantifier": "all fields, all numbers of components, with and without W", "why_tests_cant": "Tests combine fields with equal numbers of components and a handful of interpolation methods and grids; the property is about every combination.", "anchors": ["parcels/fieldset.py: FieldSet.check_complete", "parcels/field.py: VectorField.__init__, SummedField.__init__, NestedField.__init__"]}
{"id": "C83", "title": "Compiled sampling reads only the memory of the field and its grid", "statement": "Sampling a field or a velocity in JIT mode reads only coordinates, depths, times and data that exist, never beyond the ends of an array and never data that were not set, whether the sample succeeds or ends with an error; and it leaves the particle with indices from which the next sample is again safe.", "quantifier": "all rectilinear and curvilinear grids (any numbers of nodes, levels and snapshots; depths per level, per node, or per node and snapshot), all chunk layouts and load states of C47, all positions and times, all results of comparisons and of arithmetic (rounding, NaN), all indexing conventions, any number of samples one after the other", "why_tests_cant": "A read beyond an array usually returns some number and the test passes; the positions and histories for which it happens are few and on the edges of the domain.", "anchors": ["parcels/include/index_search.h: search_indices_rectilinear, search_indices_curvilinear, search_indices_vertical_z, search_indices_vertical_s, reconnect_bnd_indices, search_time_index", "parcels/include/parcels.h: temporal_interpolation_structured_grid, temporal_interpolationUV_c_grid, temporal_interpolationUVW_c_grid, spatial_interpolation_UV_c_grid, spatial_interpolation_UVW_c_grid, getCell2D, getCell3D", "parcels/particlesets/particlesetsoa.py: populate_indices"]}
{"id": "C84", "title": "Looping over a ParticleSet and working with single particles", "statement": "A loop over a ParticleSet (forward, reversed or over a list of particle numbers) runs its body exactly once for each of those particles, in order. Reading or writing a Variable of the particle at hand reads or writes that Variable of that particle and nothing else, also when the set has changed since the particle was obtained. A loop that assigns Variables of each particle from other Variables of that particle gives each particle what the body says for one particle. data_indices, error_particles and num_error_particles select exactly the particles with the values asked for. pset.v is the list of the values of v of all particles, and assigning to it changes them.", "quantifier": "all particle sets, numbers of particles, Variables, loop bodies and histories of changes between obtaining and using a particle", "why_tests_cant": "Tests loop over small sets with fixed bodies; they do not keep particles over removals, and a particle is only an index into shared arrays.", "anchors": ["parcels/particlesets/collectionsoa.py: ParticleAccessorSOA, ParticleCollectionIteratorSOA, ParticleCollectionSOA.__iter__, __reversed__, __getattr__, get_single_by_index", "parcels/particlesets/particlesetsoa.py: ParticleSetSOA.data_indices, indexed_subset, error_particles, num_error_particles, __getitem__, _set_particle_vector", "parcels/particlesets/baseparticleset.py: BaseParticleSet.__iter__, __getattr__", "parcels/particlesets/iterators.py: BaseParticleAccessor.delete"]}
{"id": "C85", "title": "Constructors for the output of ocean models do what they document, and leave the caller's arguments alone", "statement": "FieldSet.from_nemo, from_mitgcm, from_pop and from_mom5 make the FieldSet that from_netcdf makes with the documented settings: U, V and W are interpolated as velocities on a C-grid (NEMO, MITgcm) or B-grid (POP, MOM5), every other variable with tracer_interp_method; the indexing is that of the ocean model; sampling gives the value of the file with W turned downwards (NEMO, POP, MOM5) and velocities of POP in m/s (W in the unit of the depths), with deferred loading and without. U, V and W with different dimensions, and settings that contradict the constructor, are refused; nothing else is. The files of a variable are those its patterns match at the time of the call. from_parcels looks for each field where FieldSet.write put it. No argument of the caller is changed.", "quantifier": "all contents of files, sets of variables, ways of giving files, dimensions and indices, options, values, and both ways of loading", "why_tests_cant": "Tests read a few example data sets per ocean model; a wrong sign, factor or method for one variable under one way of loading, or a dictionary changed for the next call, goes unseen.", "anchors": ["parcels/fieldset.py: FieldSet.from_nemo, from_mitgcm, from_c_grid_dataset, from_pop, from_mom5, from_b_grid_dataset, from_parcels, parse_wildcards, from_netcdf, write", "parcels/field.py: Field.set_scaling_factor, rescale_and_set_minmax, write"]}
{"id": "C86", "title": "Chunk sizes given by the user are the ones used", "statement": "With chunksize given as a dictionary {dimension: (name in the file, size)}, for all fields or for each variable, every file of every field is opened with blocks of that size (or the whole dimension if it is shorter) along each dimension of the field that has an entry and is in the file, and with no other blocks. This does not depend on which other fields are loaded, in which order, at once or later; the dictionaries of the caller are not changed; a value of another type, and a dictionary that matches nothing in the file, is refused. With 'auto', time is in blocks of one, depth in one block and latitude and longitude in blocks of a limited size. A field uses the grid of another only if their sizes agree.", "quantifier": "all chunk dictionaries, files and their dimensions, tables of usual names, lists of fields, orders, and both ways of loading", "why_tests_cant": "Tests load a few data sets with one dictionary and look at the results; that the blocks of one field depend on the fields before it, or that an argument is changed, shows only for particular combinations.", "anchors": ["parcels/fieldfilebuffer.py: DaskFileBuffer.__enter__, _get_initial_chunk_dictionary, _get_initial_chunk_dictionary_by_dict_, _is_dimension_in_dataset, _get_available_dims_indices_by_request", "parcels/fieldset.py: FieldSet.from_netcdf", "parcels/field.py: Field.from_netcdf, computeTimeChunk"]}
{"id": "C87", "title": "A compiled kernel runs its own code and cleans up after itself", "statement": "Whenever compiled code runs in pset.execute, it is the code of the Kernel that was passed, or of one made from the function that was passed, also when many Kernels are made, shared between ParticleSets, executed again and dropped, compilations fail, and other processes use the same cache directory. If the compiler works, every execution runs compiled code. Libraries are closed once; when the Kernels are gone no library stays loaded and no source, library or log file is left, except those of Kernels with delete_cfiles=False, which are kept. Files of others are not touched.", "quantifier": "all histories of making, executing, sharing, dropping and finalizing Kernels and ParticleSets, compilations that fail, and changes of files by other processes", "why_tests_cant": "Tests run a few kernels one after the other; that a stale or foreign library is called, a library closed twice or a file left behind depends on the order of operations, on failures and on the clock.", "anchors": ["parcels/kernel.py: Kernel.__init__, _cache_key, remove_lib, compile, load_lib, execute_jit, cleanup_remove_files, cleanup_unload_lib", "parcels/particlesets/baseparticleset.py: execute"]}
{"id": "C88", "title": "Compiled code reads each field through its own blocks", "statement": "Whatever fields are put into a FieldSet, each opened with its own chunksize or without one, and whatever is loaded and executed: when compiled code evaluates a field it gets the data of that field at the cell asked for, or a block of that field holding a node of the cell is requested and the evaluation is repeated; and execution is not refused because of how the fields are split.", "quantifier": "all sets of fields on one grid, all ways of splitting each into blocks (or not), all cells, all histories of loading, executing, evaluating and changing the kernel", "why_tests_cant": "The layout and the load states are kept once per grid while the blocks are kept per field, so the outcome depends on which fields share a grid, in which order they are set up and which of them a kernel uses: tests use fields opened together with one chunksize.", "anchors": ["parcels/field.py:Field.chunk_setup", "parcels/field.py:Field.chunk_data", "parcels/field.py:Field.ctypes_struct", "parcels/kernel.py:Kernel.execute_jit", "parcels/fieldset.py:FieldSet.computeTimeChunk", "parcels/gridset.py:GridSet.add_grid", "parcels/include/parcels.h:getCell2D, getCell3D"]}
{"id": "C89", "title": "A field used in several FieldSets behaves in each as if it were only there", "statement": "If fields of one FieldSet are also put into another FieldSet (for instance to add up flows), and ParticleSets are made with either, then particles of each FieldSet use their own grid-index entries for its fields, and see each snapshot of a field at the particle time that corresponds to its date.", "quantifier": "all sets of fields and grids, all histories of making FieldSets, adding fields to them and completing them, all particles", "why_tests_cant": "Fields and grids are shared by reference: a field's grid, its number among the grids and its times are changed by whatever FieldSet it is added to or that is completed later. Whether particles of another FieldSet notice depends on the history; tests use each FieldSet alone.", "anchors": ["parcels/gridset.py:GridSet.add_grid", "parcels/fieldset.py:FieldSet.__init__, add_field, check_complete", "parcels/field.py:Field.ccode_eval, VectorField.ccode_eval", "parcels/include/parcels.h:temporal_interpolation_structured_grid"]}
{"id": "C90", "title": "What is put into a FieldSet under a name is there when kernels use it", "statement": "After any sequence of add_field, add_vector_field and add_constant, and of making ParticleSets, fieldset.name is what was put there under that name unless an exception told the user otherwise; a call that raises leaves the FieldSet as it was; get_fields lists every field once; and every field that a kernel can sample through the FieldSet, also as component of a vector field or member of a summed or nested field, has its grid among the grids of the FieldSet.", "quantifier": "all sequences of calls with all fields, vector fields, lists of fields, constants and names", "why_tests_cant": "What a name means depends on the whole history of calls, including those that raised; tests add a few fields with fresh names.", "anchors": ["parcels/fieldset.py:FieldSet.add_field, add_vector_field, add_constant, get_fields, check_complete", "parcels/gridset.py:GridSet.add_grid"]}
{"id": "C91", "title": "Generic access to a particle collection acts on the particles the argument stands for", "statement": "pset.collection.get, remove, delete, pop, - and -= with an index, an ID, a particle, or a list of these act on exactly the particles that the argument stands for (IDs being 64-bit integers, as particle.id is, and indices other integers), leave all other particles as they are, and raise when there is no such particle or the call is not supported.", "quantifier": "all collections (any IDs, sorted or not), all arguments of all types, both widths of the platform's index type", "why_tests_cant": "Which method a call is forwarded to depends on the type of the argument and on the platform, and what it finds depends on the IDs left by the history of the set; tests use fresh sets, in which IDs are positions.", "anchors": ["parcels/particlesets/collections.py:ParticleCollection.get, remove, delete, pop, __sub__", "parcels/particlesets/collectionsoa.py:ParticleCollectionSOA.get_single_by_ID, remove_single_by_ID, delete_by_ID, __isub__"]}
{"id": "C92", "title": "A grid that goes round the globe is recognised as such", "statement": "A spherical grid is treated as zonally periodic exactly when its longitudes, followed along the grid, go round the globe to the east, whatever multiples of 360 degrees they are written with and wherever the date line is; and on a grid that is recognised, every longitude of one turn is found.", "quantifier": "every axis or matrix of longitudes, every convention for longitudes, every position", "why_tests_cant": "All axes, all positions of the date line, all spacings; the tolerance of 0.1 degrees matters only for very fine grids.", "anchors": ["parcels/grid.py:Grid.check_zonal_periodic", "parcels/fieldset.py:FieldSet.check_complete", "parcels/field.py:search_indices_rectilinear", "parcels/include/index_search.h:search_indices_rectilinear"]}
{"id": "C93", "title": "Depths given by a field follow that field", "statement": "If the depths of a field's levels are given by another field (set_depth_from_field), then whenever the field can be sampled, its levels are the data of that other field at the times of the field's own data; and if the depths were announced but never given, this is reported before anything runs.", "quantifier": "every FieldSet, every sequence of requests for times, forward or backward, every history of loading, fields in memory or loaded when needed, on the same or on different grids", "why_tests_cant": "All histories of loading of two grids that are advanced independently; a wrong pairing of depths and data gives plausible numbers.", "anchors": ["parcels/field.py:Field.set_depth_from_field", "parcels/fieldset.py:FieldSet.check_complete", "parcels/fieldset.py:FieldSet.computeTimeChunk", "parcels/grid.py:Grid.computeTimeChunk"]}
{"id": "C94", "title": "Rounding does not change when things happen", "statement": "In double-precision arithmetic execute does the same things at the same times as in exact arithmetic: the same output, release, callback and input times, the same kernel calls of every particle at the same times, and particles that succeed arrive exactly at the end time; in particular rounding errors do not accumulate and execute ends.", "quantifier": "every start time, end time, dt and set of intervals, any number of events and time steps, forward or backward, both modes, every kernel that leaves time and dt alone", "why_tests_cant": "Rounding errors depend on the numbers; tests use a few round ones, and runs of a few hundred steps.", "anchors": ["parcels/particlesets/baseparticleset.py:BaseParticleSet.execute", "parcels/kernel.py:Kernel.execute_python", "parcels/compilation/codegenerator.py:LoopGenerator.generate", "parcels/include/parcels.h:is_close_dbl"]}
{"id": "C95", "title": "Rounding errors of positions grow at most with the number of steps and the shear of the flow", "statement": "With AdvectionEE, AdvectionRK4 and AdvectionRK4_3D, after n steps of size dt the position of a particle differs from the one computed in exact arithmetic by at most 3 n (rho + |dt| delta) (1 + 2 |dt| L)^n in each coordinate, where L is the Lipschitz constant of the velocities (with |dt| L <= 1), delta the error of the samples, and rho the change by eight roundings of numbers of the size of the coordinates.", "quantifier": "every velocity field, every number of steps, every dt (forward or backward) and start, single or double precision, both modes", "why_tests_cant": "An error bound for all flows and any number of steps; tests compare a few trajectories with a tolerance.", "anchors": ["parcels/kernels/advection.py:AdvectionRK4", "parcels/kernels/advection.py:AdvectionRK4_3D", "parcels/kernels/advection.py:AdvectionEE", "parcels/particle.py:ScipyParticle"]}
{"id": "C96", "title": "Rounding does not make sampling fail, and changes sampled values by a few roundings only", "statement": "On a rectilinear grid, sampling a field (linear interpolation in space and time) at any position and time in floating-point arithmetic raises the same errors as in exact arithmetic, finds the same cell, and gives a value that differs from the exact one by at most (err 12 + 6 err 4) D at a snapshot, where D bounds the data and err n = (1 + eps)^n - 1 is the change by n roundings; between two snapshots by a further 3 err 9 (D + that error).", "quantifier": "every rectilinear grid with z levels, every position, depth and time, every data, single and double precision, both modes, every previous cell of the particle", "why_tests_cant": "Positions on and next to the nodes of arbitrary grids decide whether a relative coordinate is rounded out of [0, 1]; tests use round coordinates, for which no rounding takes place.", "anchors": ["parcels/field.py:search_indices_rectilinear", "parcels/field.py:search_indices_vertical_z", "parcels/field.py:interpolator2D", "parcels/field.py:interpolator3D", "parcels/field.py:eval", "parcels/include/index_search.h:search_indices_rectilinear", "parcels/include/parcels.h:temporal_interpolation_structured_grid"]}
{"id": "C97", "title": "A whole run gives the numerical solution, and the output file contains it at the output times", "statement": "When ParticleSet.execute returns, every particle is where the scheme of its kernel leads in as many steps of dt as fit between its start and the end of the run; particles whose solution fails on the way are gone (if the recovery functions delete) or make the run raise (by default); particles that start later have not moved. The output file contains, for the start, every outputdt and the end of the run, one record of each particle that has started and not failed, with its position at that time, and nothing else. The two modes give the same result.", "quantifier": "every one-step scheme (kernel), every number of particles with any start times, both time directions, runtime or endtime, every output, movie and callback interval and every schedule of loading data that are whole numbers of steps, both modes", "why_tests_cant": "The result depends on the interplay of all interruptions of the time loop, of the deletion of particles and of the writing; tests run a few combinations.", "anchors": ["parcels/particlesets/baseparticleset.py:execute", "parcels/kernel.py:execute", "parcels/kernel.py:execute_python", "parcels/kernel.py:execute_jit", "parcels/particlesets/collectionsoa.py:toDictionary", "parcels/particlefile.py:write"]}
{"id": "C98", "title": "Splitting a run into several calls of execute gives the same result", "statement": "Calling execute for N steps and then for M steps with the same arguments gives the same particles as calling it once for N + M steps, and the same output file if the first run ends at an output time.", "quantifier": "every one-step scheme, every particle set with any start times, both time directions, runtime or endtime, every schedule of interruptions at whole numbers of steps, both modes", "why_tests_cant": "Start times, deletions and output times around the time of the split decide; tests split a few runs.", "anchors": ["parcels/particlesets/baseparticleset.py:execute", "parcels/kernel.py:execute", "parcels/kernel.py:execute_python", "parcels/kernel.py:execute_jit", "parcels/particlesets/collectionsoa.py:toDictionary", "parcels/particlefile.py:write"]}
{"id": "C99", "title": "A whole run on gridded data follows the interpolated fields, and the two modes agree", "statement": "ParticleSet.execute with a kernel that samples fields on rectilinear grids moves every particle along the trajectory of the kernel's scheme in the interpolated fields (linear in space and time): a particle whose scheme samples outside the domain or the times of the data on the way is deleted or makes the run raise, every other one ends where the scheme leads. Scipy and JIT mode give the same particles and the same records in the output file, although JIT particles start each search at the cell they remember. In data with one value everywhere, particles end at their start plus velocity times elapsed time.", "quantifier": "every set of linearly interpolated fields on any number of rectilinear flat grids (2D or 3D, any increasing axes and times, any values) that are loaded at once and not periodic in time, every kernel whose variables and samples may depend on earlier samples in any way, all particles with any start times, both time directions, every schedule of interruptions at whole numbers of steps, all remembered cells", "why_tests_cant": "Tests compare the two modes on a few fields; the cell a particle remembers depends on its whole history, and a search that fails for one combination of cell and position changes a trajectory.", "anchors": ["parcels/particlesets/baseparticleset.py:execute", "parcels/kernel.py:execute_python", "parcels/kernel.py:execute_jit", "parcels/field.py:Field.eval", "parcels/field.py:VectorField.eval", "parcels/include/parcels.h:temporal_interpolation", "parcels/include/index_search.h:search_indices_rectilinear", "parcels/compilation/codegenerator.py:visit_FieldEvalNode"]}
{"id": "C100", "title": "Deferred loading does not change the result of a run", "statement": "ParticleSet.execute gives the same particles and the same records in the output file whether the snapshots of the fields are loaded during the run, two at a time (deferred_load=True, the default), or all at once; and it raises in the one case exactly if it raises in the other.", "quantifier": "every set of fields on any number of grids, each loaded at once or in parts and in any state that earlier runs left, every series of snapshots, every kernel that samples during its time step, all particles with any start times and remembered cells, both time directions and both modes, every schedule of interruptions", "why_tests_cant": "Which snapshots are in memory depends on the history of all stops of the event loop, on the grids that share it and on the direction; tests compare the two ways of loading for a few regular series.", "anchors": ["parcels/particlesets/baseparticleset.py:execute", "parcels/fieldset.py:computeTimeChunk", "parcels/grid.py:computeTimeChunk", "parcels/field.py:Field.eval", "parcels/field.py:Field.time_index", "parcels/include/parcels.h:temporal_interpolation"]}
{"id": "C101", "title": "Runs on spherical meshes follow the interpolated fields, in degrees and with longitudes modulo 360", "statement": "On a spherical mesh, ParticleSet.execute moves particles along the trajectories of the kernel in the linearly interpolated fields, with velocities converted to degrees at the latitude of the sample and longitudes taken modulo 360: across the date line, and around the globe with a periodic halo and a kernel that brings longitudes back. Both modes give the same particles, records and errors.", "quantifier": "every set of rectilinear fields on spherical meshes, with or without a jump at the date line and with or without halo, every kernel that samples during its time step, all particles with any start times and remembered cells, both time directions, any number of turns", "why_tests_cant": "Whether a longitude is found depends on where the axis starts, on the jump, on the halo and on the number of turns; tests use one axis each and drift over a few cells.", "anchors": ["parcels/field.py:search_indices_rectilinear", "parcels/field.py:Field.eval", "parcels/tools/converters.py:GeographicPolar", "parcels/include/index_search.h:search_indices_rectilinear", "parcels/kernels/advection.py:AdvectionRK4", "parcels/particlesets/baseparticleset.py:execute", "parcels/fieldset.py:add_periodic_halo"]}
{"id": "C102", "title": "Repeated release is the same as particles with delayed start times", "statement": "A run of a ParticleSet with repeatdt gives the same particles, in the same order, and the same output records as a run without repeatdt of a set that contains from the start one copy of the released particles for every whole number of release intervals after the first release, with the times of release as their start times. Two runs one after the other release at the same times as one long run.", "quantifier": "every kernel that computes new particle variables or fails, every release interval, output interval and run length that are whole numbers of steps, every number of earlier runs, all particles with any start times, both time directions, both modes, recovery functions that delete or raise", "why_tests_cant": "Releases, outputs and the loading of data interleave in ways that depend on all intervals and on when the run starts; tests use one interval and count particles.", "anchors": ["parcels/particlesets/baseparticleset.py:execute", "parcels/particlesets/particlesetsoa.py:ParticleSetSOA.__init__", "parcels/kernel.py:execute", "parcels/kernel.py:remove_deleted_soa", "parcels/particlesets/collectionsoa.py:add_same"]}
{"id": "C103", "title": "A run with random numbers is determined by the seed, the particles and the options, in both modes", "statement": "A run whose kernels draw random numbers is a function of the state of the generator at its start, the particles and the options: from one interruption to the next (output, movie, callback, end), the particles make their steps one after the other, each from the state of the generator that the last step left. Scipy and JIT mode and repetitions of the run give the same particles, the same output and the same state of the generator. A run that ends at a common multiple of its intervals, with some particle under way, can be continued by a second run as if it had not been interrupted. A single particle makes the same steps whatever the intervals are. (With more particles, its steps change with the output interval and with the other particles.)", "quantifier": "every kernel that computes new particle variables and a new state of the generator or fails, every generator, every start state, all run lengths and intervals that are whole numbers of steps, all particles with any start times, both time directions, both modes, recovery functions that delete or raise, fields that are loaded completely", "why_tests_cant": "Tests fix one seed and one set of options; which draws go to which particle depends on the number of particles, their start times, errors and all intervals.", "anchors": ["parcels/rng.py:seed", "parcels/rng.py:random", "parcels/include/random.h:parcels_seed", "parcels/include/random.h:parcels_random", "parcels/particlesets/baseparticleset.py:execute", "parcels/kernel.py:execute", "parcels/kernel.py:execute_python", "parcels/kernel.py:execute_jit"]}
{"id": "C104", "title": "The error that stops a run identifies the particle, the step and the point that failed", "statement": "A run without recovery functions stops with an error if and only if a particle fails. The message gives the identifier of the first particle that fails on the way to the next interruption of the run, its position, time and dt before the step that failed, and the point and time at which the field was sampled; the class of the error tells what failed.", "quantifier": "every kernel that computes new particle variables or raises, all particles with distinct identifiers and any start times, all run lengths and intervals that are whole numbers of steps, both time directions, both modes", "why_tests_cant": "Tests check that an error is raised; what it says depends on which particle fails first, in which of the interruptions, at which coordinates and after which earlier errors.", "anchors": ["parcels/tools/statuscodes.py:KernelError", "parcels/tools/statuscodes.py:OutOfBoundsError", "parcels/tools/statuscodes.py:ThroughSurfaceError", "parcels/tools/statuscodes.py:OutOfTimeError", "parcels/tools/statuscodes.py:recovery_map", "parcels/kernel.py:execute", "parcels/kernel.py:execute_python", "parcels/particlesets/baseparticleset.py:execute"]}
{"id": "C105", "title": "The exported file of a run contains the trajectories of its particles", "statement": "After a run with an output file, the exported file has one row for each particle that was under way at an output time, in order of identifier; the row holds the time, the identifier and each variable of the particle at the output times (the start, every outputdt, the end) from its start until it is deleted, in order, followed by missing values only.", "quantifier": "all kernels that compute new particle variables or raise, all sets of particles with increasing identifiers and any start times, all run lengths and intervals that are whole numbers of steps, both time directions, both modes, all variables", "why_tests_cant": "It joins the event loop, the kernel loops, the temporary files and the export; tests look at the shape or a few values of single files.", "anchors": ["parcels/particlesets/baseparticleset.py:execute", "parcels/particlefile.py:write", "parcels/particlefile.py:read_from_npy", "parcels/particlefile.py:export"]}
{"id": "C106", "title": "A run can be continued from its exported file", "statement": "A run, the export of its output file, a new particle set made from the file at the end of the run, and a second run of this set give the same particles, with the same identifiers, times and variables, as one run of the whole length.", "quantifier": "as C105, for all lengths of both runs and all sets of written variables from which the particle can be made again", "why_tests_cant": "It relates two histories of any length through a file; a test can only compare two runs on a few particles.", "anchors": ["parcels/particlesets/baseparticleset.py:execute", "parcels/particlefile.py:write", "parcels/particlefile.py:read_from_npy", "parcels/particlefile.py:export", "parcels/particlesets/particlesetsoa.py:from_particlefile", "parcels/particlesets/collectionsoa.py:ParticleCollectionSOA"]}
{"id": "C107", "title": "Compiled kernels see the data that fields and grids have at the time of the call", "statement": "Whenever a compiled kernel is executed, every value of every field it uses and every coordinate and time of the grids, as read by the compiled code, is the value that field.data, grid.lon, grid.lat, grid.depth and grid.time have in Python at that moment, whatever the order in which the arrays lie in memory (transposed, sliced, reversed) and whatever was executed or changed before.", "quantifier": "all arrays (any shape, strides and offset), all indices, all histories of assignments to data and coordinates and of calls of kernels on any fields", "why_tests_cant": "Wrong values appear only for particular memory layouts and sequences of changes and calls; the compiled code reads memory without any check.", "anchors": ["parcels/kernel.py:execute_jit", "parcels/field.py:chunk_setup", "parcels/field.py:chunk_data", "parcels/field.py:ctypes_struct", "parcels/grid.py:child_ctypes_struct", "parcels/include/parcels.h:getCell2D", "parcels/include/parcels.h:getCell3D", "parcels/fieldset.py:check_complete"]}
{"id": "C108", "title": "After a recovery function has repaired a particle, the failed step is taken again from there", "statement": "If a recovery function changes the variables of a particle that has left the domain and lets it go on, the particle takes the failed step again, at the same time and with the same dt, from the changed variables, as often as needed; the remaining steps of this particle and all steps of all others are as without the error, particles that are not repaired are deleted (or the run raises), and the output file contains these trajectories. The run ends if the repairs help in the end, and does not end if they never do. In both modes.", "quantifier": "all kernels, all recovery functions of the particle's time and variables, all sets of particles, lengths, directions and options of runs in which everything happens after whole numbers of steps", "why_tests_cant": "Repairs interact with the rounds of the recovery loop, the other particles, repeated failures of the same and of later steps and the stops of the run in unboundedly many ways.", "anchors": ["parcels/kernel.py:execute", "parcels/particlesets/baseparticleset.py:execute", "parcels/particlesets/particlesetsoa.py:error_particles", "parcels/tools/statuscodes.py:recovery_map"]}
{"id": "C109", "title": "Wherever a run is interrupted, each particle follows an unbroken sequence of steps of its kernel to the end", "statement": "Whatever the release times, the output interval, the times of the data and the end of the run, and even if they do not fit the time step: when execute returns, each particle that is left has reached its time and variables from its start by an unbroken sequence of kernel steps in the direction of the run, none longer than dt, and has arrived at the end of the run to within 1e-8 s without passing it; the others have failed on such a sequence; the order is kept; each record in the output file lies on the path of its particle. What every step preserves holds for all particles and records, and a scheme that is exact for all step lengths is exact in the run.", "quantifier": "all kernels, recovery functions of time and variables, sets of particles, release times, time steps, directions, lengths, intervals and data times", "why_tests_cant": "The sequences of shortened steps that arise from arbitrary combinations of release times, output intervals, data times and repairs cannot be enumerated.", "anchors": ["parcels/kernel.py:execute_python", "parcels/kernel.py:execute_jit", "parcels/kernel.py:execute", "parcels/particlesets/baseparticleset.py:execute", "parcels/particlefile.py:write"]}
{"id": "C110", "title": "Runs with adaptive time steps consist of accepted steps only, and reach the end", "statement": "With a kernel that chooses its steps (it takes a step and may ask for a longer one next, or it changes particle.dt and returns Repeat, or it fails), such as AdvectionRK45: when execute returns, each particle that is left has reached its time and variables from its start by an unbroken sequence of steps that the kernel accepted, and the others have failed on such a sequence; rejected steps leave no trace; no particle goes past the end of the run and all arrive there; each record in the output file lies on the path of its particle; a rejected step is never an error. For AdvectionRK45 each step was within the tolerance of 1e-5 times the step.", "quantifier": "all adaptive kernels, flows, recovery functions of time and variables, sets of particles, release times, time steps, directions, lengths, intervals and data times, both modes", "why_tests_cant": "The sequences of accepted, rejected, doubled and shortened steps depend on the flow and on all interruptions, and cannot be enumerated.", "anchors": ["parcels/kernels/advection.py:AdvectionRK45", "parcels/kernel.py:execute_python", "parcels/kernel.py:execute_jit", "parcels/kernel.py:execute", "parcels/particlesets/baseparticleset.py:execute", "parcels/particle.py:update_next_dt", "parcels/compilation/codegenerator.py:LoopGenerator"]}
{"id": "C111", "title": "Particles are never faster than the data", "statement": "With AdvectionEE, AdvectionRK4, AdvectionRK4_3D or AdvectionRK45 on gridded data, in coordinates with the units of the velocities: between its start and any record in the output file, and between its start and the end of the run, the mean velocity of each particle in each direction lies between the smallest and the largest value in the data of that velocity. So no particle is further from its start than the greatest speed in the data times the time since then, particles do not move where all data are zero, and where all data point one way they never go the other way. Kernels without vertical velocity leave the depth unchanged.", "quantifier": "all data and rectilinear grids, bounds of the data, sets of particles, release times, time steps, directions in time, lengths, output intervals, recovery functions that delete or raise, both modes", "why_tests_cant": "The bound must hold for all data and for every sequence of interpolations, steps and interruptions of the run.", "anchors": ["parcels/kernels/advection.py:AdvectionRK4", "parcels/kernels/advection.py:AdvectionEE", "parcels/kernels/advection.py:AdvectionRK4_3D", "parcels/kernels/advection.py:AdvectionRK45", "parcels/field.py:eval", "parcels/field.py:temporal_interpolate", "parcels/kernel.py:execute", "parcels/particlesets/baseparticleset.py:execute"]}
{"id": "C112", "title": "A run with nested fields uses the first field that covers the particle", "statement": "With kernels that sample nested fields: every sample in the run is the interpolated value of the first field in the list that covers the position and time, for velocities of all components together; a step fails only if no field of the list covers a sampled position. The particles at the end, the records in the output file and the particles that are gone are those of the kernel with these values, wherever the run is interrupted. Scipy mode and JIT mode give the same, whatever cells the particles remember from earlier samples, successful or not.", "quantifier": "all data and rectilinear grids, lists of fields, kernels that sample them, sets of particles, release times, time steps, directions in time, lengths, output intervals, recovery functions that delete or raise, both modes", "why_tests_cant": "Which field is used, and what is remembered after a field that did not cover the position, must be right for every sequence of samples in a run.", "anchors": ["parcels/field.py:NestedField", "parcels/compilation/codegenerator.py:NestedField", "parcels/field.py:eval", "parcels/kernels/advection.py:AdvectionRK4", "parcels/kernel.py:execute", "parcels/particlesets/baseparticleset.py:execute"]}
{"id": "C113", "title": "Runs with time-periodic fields repeat with the period", "statement": "With kernels that sample fields of which some are periodic in time: no sample fails because of the time, every sample of a periodic field is the linear interpolation between two of its times at a time a whole number of periods away, and the particles at the end, the records in the output file and the particles that are gone are those of the kernel with these values. Scipy mode and JIT mode give the same, whatever cells and times the particles remember. If all fields are periodic or constant, a run that starts a whole number of periods later gives the same positions and the same records, that much later.", "quantifier": "all data and rectilinear grids, periods, kernels that use the time only to sample (for the last sentence), sets of particles, release times, time steps, directions in time, lengths, output intervals, recovery functions that delete or raise, both modes", "why_tests_cant": "The time of a sample can be any number of periods away from the data, in both directions, and the remembered time index can be any that an earlier sample left; a test tries a few of them.", "anchors": ["parcels/field.py:Field.__init__ (time_periodic)", "parcels/field.py:time_index", "parcels/field.py:eval", "parcels/include/index_search.h:search_time_index", "parcels/include/parcels.h:temporal_interpolation", "parcels/kernel.py:execute", "parcels/particlesets/baseparticleset.py:execute"]}
{"id": "C114", "title": "Advancing a field set replaces the oldest snapshot, dates and data together", "statement": "fieldset.advancetime(new), where the new field set has one snapshot dated after all dates of the field set, or before all of them, replaces the oldest snapshot of every field by the new one: the dates and the data together, whatever dates the two field sets count from. With other snapshots it raises. When it raises, neither field set has changed.", "quantifier": "all field sets and new field sets, numbers of snapshots, dates, origins, calendars, fields that share grids, orders of fields", "why_tests_cant": "The tests never call it, and the state that is left behind by an error must be right whichever field the error happens at.", "anchors": ["parcels/fieldset.py:advancetime", "parcels/grid.py:advancetime", "parcels/field.py:advancetime", "parcels/tools/converters.py:TimeConverter.reltime"]}
{"id": "C115", "title": "A run with summed fields uses the sum of all fields, and stops particles that leave any of them", "statement": "With kernels that sample summed fields: every sample in the run is, for each component, the sum of the interpolated values of all fields of the list, and a step fails exactly if one of them does not cover a sampled position and time. The particles at the end, the records in the output file and the particles that are gone are those of the kernel with these values. Scipy mode and JIT mode give the same, whatever cells the particles remember.", "quantifier": "all data and rectilinear grids, lists of scalar and vector fields on different grids, kernels that sample them, sets of particles, release times, time steps, directions in time, lengths, output intervals, recovery functions that delete or raise, both modes", "why_tests_cant": "A failure of one field among several must stop the particle wherever it happens in the list and in the run; tests sample inside all fields.", "anchors": ["parcels/field.py:SummedField", "parcels/compilation/codegenerator.py:visit_SummedFieldEvalNode", "parcels/compilation/codegenerator.py:visit_SummedVectorFieldEvalNode", "parcels/include/parcels.h:temporal_interpolationUV", "parcels/kernel.py:execute", "parcels/particlesets/baseparticleset.py:execute"]}
{"id": "C116", "title": "On flat meshes, results do not depend on the origins and units of coordinates and time", "statement": "On flat meshes with rectilinear grids and linear interpolation: if the coordinates of all grids, the times of the data, the particles, the time step, the end of the run and the output interval are given in other units and from other origins (each coordinate and time with its own positive factor and its own shift), and velocities in the corresponding units of length per time, then all particles end, and are recorded in the output file, at the same places and times, in the other units; those that leave the domain leave it in both, and the run raises in both or in none. This holds for all kernels that compute the same in all units, among them AdvectionEE, AdvectionRK4 and AdvectionRK4_3D, and in both modes.", "quantifier": "all data and rectilinear grids of flat meshes in memory, factors and shifts, kernels, sets of particles, release times, steps of more than 1e-8 s in both units, directions in time, lengths, output intervals, recovery functions that delete or raise, both modes", "why_tests_cant": "Tests use one system of units with an origin near the data; a constant or a comparison that depends on magnitude or sign shows for other origins and units only.", "anchors": ["parcels/field.py:interpolator2D", "parcels/field.py:interpolator3D", "parcels/field.py:temporal_interpolate_fullfield", "parcels/include/parcels.h:temporal_interpolation", "parcels/include/index_search.h:search_indices", "parcels/kernels/advection.py:AdvectionRK4", "parcels/kernels/advection.py:AdvectionEE", "parcels/kernels/advection.py:AdvectionRK4_3D", "parcels/particlesets/baseparticleset.py:execute"]}
{"id": "C117", "title": "On spherical meshes, results do not depend on the meridian from which longitudes are counted", "statement": "On spherical meshes: if the longitudes of all grids and particles are counted from another meridian (0 to 360 instead of -180 to 180, or any other origin), then all particles end, and are recorded in the output file, at the same places and times; those that leave the domain leave it in both, and the run raises in both or in none. The same holds for other origins and units of depth and time, with velocities in the corresponding units. In both modes, for all kernels that compute the same in these coordinates, among them the advection kernels.", "quantifier": "all data on rectilinear grids of spherical meshes, angles, kernels, sets of particles, release times, time steps, directions in time, lengths, output intervals, recovery functions that delete or raise, both modes", "why_tests_cant": "Tests have longitudes in one convention; every grid and every path across a meridian can be written in many ways.", "anchors": ["parcels/field.py:search_indices_rectilinear", "parcels/field.py:temporal_interpolate_fullfield", "parcels/tools/converters.py:GeographicPolar", "parcels/include/parcels.h:temporal_interpolation", "parcels/include/index_search.h:search_indices_rectilinear", "parcels/kernels/advection.py:AdvectionRK4", "parcels/particlesets/baseparticleset.py:execute"]}
{"id": "C118", "title": "Runs with repeated release on gridded data follow the fields, and the modes agree", "statement": "A run of a set with repeatdt, on gridded data: at the end, and at each output, there are exactly the particles that have been released until then and whose trajectory in the fields (as interpolated from the data) has not left the data, each where its trajectory is. This holds in both modes, which therefore give the same particles and the same output files; with the default recovery both raise if one of the trajectories leaves the data. For plain fields, fields that are periodic in time, nested fields, summed fields, and fields on spherical meshes.", "quantifier": "all data on rectilinear grids, kernels that sample and move, sets of particles, values and intervals of release, release times, time steps, directions in time, lengths, output intervals, recovery functions that delete or raise, both modes", "why_tests_cant": "Tests release a few particles in one flow; how many particles there are, and which cells they remember, differs in each run.", "anchors": ["parcels/particlesets/baseparticleset.py:execute", "parcels/particlesets/particlesetsoa.py:__init__", "parcels/kernel.py:execute", "parcels/kernel.py:remove_deleted_soa", "parcels/field.py:eval", "parcels/include/parcels.h:temporal_interpolation", "parcels/include/index_search.h:search_indices_rectilinear"]}
{"id": "C119", "title": "What is displayed is what particles sample", "statement": "Field.show and ParticleSet.show(field=...) display, at every node of the grid in the requested domain, the value that a particle at this node samples at the requested time; a cell has the colour of the value in its middle; both components of a velocity are displayed at the same time. Whenever particles can sample the field, it can be displayed.", "quantifier": "all gridded fields, times (also many periods away for fields that are periodic in time), levels and domains", "why_tests_cant": "The tests do not look at the displayed values; they would cover few times, levels and domains.", "anchors": ["parcels/plotting.py:plotfield", "parcels/plotting.py:parsedomain", "parcels/plotting.py:plotparticles", "parcels/field.py:temporal_interpolate_fullfield", "parcels/field.py:time_index", "parcels/field.py:show"]}
{"id": "C120", "title": "Velocities on C-grids are sampled from the faces of the cell around the position", "statement": "Sampling the velocity of a C-grid at a time and a position gives, in both modes and whatever the particle sampled before, the velocities given on the faces of a cell that contains the position, interpolated between opposite faces and in time; on a face, the velocity through it is the given one. Wherever the grid and the times cover the position and the time there is a value, elsewhere an error is raised. Both modes give the same velocity.", "quantifier": "all rectilinear C-grids with z levels (NEMO and MITgcm indexing), data, times (also periodic and extrapolated in time), positions and remembered cells", "why_tests_cant": "Tests sample a few positions on a few grids, mostly from a fresh particle; the value depends on the cell remembered from earlier samples.", "anchors": ["parcels/field.py:VectorField.eval", "parcels/field.py:VectorField.spatial_c_grid_interpolation2D", "parcels/field.py:Field.time_index", "parcels/include/parcels.h:temporal_interpolationUV_c_grid", "parcels/include/parcels.h:spatial_interpolation_UV_c_grid", "parcels/include/index_search.h:search_indices_rectilinear"]}
{"id": "C121", "title": "Runs on C-grids follow the velocities given on the faces", "statement": "In a run on a C-grid each particle follows an unbroken path of steps of its kernel, where each sampled velocity is the one on the faces around the sampled position, interpolated in space and time; particles are lost, and runs raise, only because such a sample is outside the grid or the times. In a uniform flow AdvectionRK4 and AdvectionEE move particles exactly with the flow, and in no flow faster than the fastest given velocity. Both modes give the same trajectories.", "quantifier": "all runs on rectilinear C-grids (grids, data, particles, steps, outputs, recovery functions), forward and backward, in both modes", "why_tests_cant": "Tests run a few particles on a few grids; the velocity depends on the cell remembered along the whole path.", "anchors": ["parcels/particlesets/baseparticleset.py:execute", "parcels/kernels/advection.py:AdvectionRK4", "parcels/kernels/advection.py:AdvectionEE", "parcels/field.py:VectorField.eval", "parcels/include/parcels.h:temporal_interpolationUV_c_grid", "parcels/compilation/codegenerator.py:visit_VectorFieldEvalNode"]}
{"id": "C122", "title": "Fields made from an xarray dataset are those of the dataset", "statement": "FieldSet.from_xarray_dataset(ds, variables, dimensions) makes one field for each variable: at every time, depth, latitude and longitude of its grid the field has the value its data variable has there in the dataset (whatever the order of its dimensions, which have names), with times decoded as their units say, the documented defaults for extrapolation in time, the given period and the given field types. A field does not depend on the other variables, and the dataset of the caller is not changed.", "quantifier": "all datasets (names, order and lengths of dimensions, coordinates as vectors or matrices, calendars), dictionaries of variables and dimensions, arguments", "why_tests_cant": "The combinations of names, orders, axes of length one, calendars and attributes are unbounded; tests use one small dataset.", "anchors": ["parcels/fieldset.py:FieldSet.from_xarray_dataset", "parcels/field.py:Field.from_xarray", "parcels/tools/converters.py:convert_xarray_time_units"]}
{"id": "C123", "title": "Messages shown once are shown once, others always", "statement": "A message given to warning_once or info_once is displayed exactly once, at the first call at which the level of the logger lets it through, however often and from wherever it is called and whatever else is logged in between; every other message is displayed each time the level lets it through.", "quantifier": "all sequences of calls and changes of the level", "why_tests_cant": "The filter keeps the whole history; tests see one call or two.", "anchors": ["parcels/tools/loggers.py:DuplicateFilter", "parcels/tools/loggers.py:warning_once", "parcels/tools/loggers.py:info_once"]}
{"id": "C124", "title": "The library of random numbers is always there when needed, and cleaned up afterwards", "statement": "After importing parcels, the functions of parcels.rng always find their compiled library loaded, whatever loading, unloading, compiling and removing happened before; there are never only some of its files; and when the object ends, its files in the cache directory are gone.", "quantifier": "all sequences of calls", "why_tests_cant": "Tests load the library once per process and do not look at what stays behind.", "anchors": ["parcels/rng.py:RandomC"]}
{"id": "C125", "title": "Timers count the time during which they run, and no part takes longer than the whole", "statement": "The reading of a Timer is the time during which it ran: starting, stopping or creating any timer changes no reading, a running timer advances with the clock and another stands still. A timer starts only if it does not run and its parent runs, and stops only if it runs. Readings are never negative, and a timer never reads more than its parent, so that the shares in the printed tree are at most 100 percent.", "quantifier": "all sequences of creating, starting and stopping timers of any tree, at all times of a clock that does not go back", "why_tests_cant": "The readings depend on the whole history of calls of all timers of the tree.", "anchors": ["parcels/tools/timer.py:Timer"]}
{"id": "C126", "title": "Interpolation in a cell is exact at its corners, between them, and consistent with its derivatives", "statement": "The weights for interpolation in a cell return the value of a corner at that corner and reproduce functions that are linear in each coordinate (quadratic ones, for the three-point weights); inside the cell the linear interpolations lie between the least and the greatest value; the derivatives that go with them are exactly theirs; the Jacobian of a cell is positive everywhere in a convex cell with counterclockwise corners, and is its area in the middle. The velocities on C-grids use these functions.", "quantifier": "all values at the corners, all points, all cells", "why_tests_cant": "Tests interpolate a few fields on a few grids; a wrong sign in one of the 24 derivatives shows only in sloping cells.", "anchors": ["parcels/tools/interpolation_utils.py:phi1D_lin", "parcels/tools/interpolation_utils.py:phi1D_quad", "parcels/tools/interpolation_utils.py:phi2D_lin", "parcels/tools/interpolation_utils.py:phi3D_lin", "parcels/tools/interpolation_utils.py:dphidxsi3D_lin", "parcels/tools/interpolation_utils.py:dphidxsi2D_lin", "parcels/tools/interpolation_utils.py:jacobian2D_lin", "parcels/tools/interpolation_utils.py:interpolate"]}
{"id": "C127", "title": "Dates of release become seconds since the origin of the fieldset", "statement": "When a particle set is made with dates as times (datetime, date, np.datetime64, or cftime dates of the fieldset's calendar), each particle's time is the number of seconds from the fieldset's time origin to its date; numbers and None are taken as they are; dates that do not fit the fieldset's calendar are refused. Comparing two time origins agrees with the sign of the seconds between them.", "quantifier": "all lists of times and all origins", "why_tests_cant": "Tests use lists of one kind with a matching origin; the code looks at the first element only.", "anchors": ["parcels/particlesets/particlesetsoa.py:ParticleSetSOA.__init__", "parcels/particlesets/particlesetsoa.py:_convert_to_reltime", "parcels/tools/converters.py:TimeConverter"]}
{"id": "C128", "title": "Kernels can be defined inside functions and classes", "statement": "A kernel whose definition is indented is read as the same text at the left margin: each line loses exactly the indentation of the first line, and nothing else changes.", "quantifier": "all kernels and all indentations", "why_tests_cant": "Tests define kernels with the usual layout only; the replacement looks at the whole of each line.", "anchors": ["parcels/kernel.py:fix_indentation"]}
{"id": "C129", "title": "Automatic chunks are kept for the later files", "statement": "With chunksize='auto', the chunk sizes that were chosen for the first data of a field are kept, each for its own dimension, and used for the other files of the field.", "quantifier": "all files, all axes of the data and all sizes", "why_tests_cant": "Chunks do not change results, only memory and time, so tests that compare results do not see them.", "anchors": ["parcels/fieldfilebuffer.py:DaskFileBuffer._chunkmap_to_chunksize", "parcels/fieldfilebuffer.py:DaskFileBuffer.data_access"]}
{"id": "C130", "title": "Metadata given to an output file are in it", "statement": "Each message given to add_metadata is an attribute of the NetCDF file in the end, whether the file is made by close or later by the script from the temporary files; of several messages under one name the last counts, and attributes without message have their standard values.", "quantifier": "all sequences of add_metadata, write and export, all names and messages", "why_tests_cant": "Tests add one message before the first write; the outcome depends on the order of all calls.", "anchors": ["parcels/particlefile.py:ParticleFile.add_metadata", "parcels/particlefile.py:ParticleFile.open_netcdf_file", "parcels/particlefile.py:ParticleFile.dump_psetinfo_to_npy", "parcels/scripts/convert_npydir_to_netcdf.py:convert_npydir_to_netcdf"]}
{"id": "C131", "title": "parcels_get_examples completes the directory of examples", "statement": "After the script that fetches the examples, all listed data files are in the directory, from the package or from the server; files that were there are unchanged; an interruption leaves at most one broken file, and running the script again, or for another directory, completes the directory.", "quantifier": "all directories, packages, servers, lists of files and points of interruption", "why_tests_cant": "The outcome depends on where an interruption falls and on the earlier content of the directory.", "anchors": ["parcels/scripts/get_examples.py:main", "parcels/scripts/get_examples.py:download_files", "parcels/scripts/get_examples.py:_still_to_download", "parcels/scripts/get_examples.py:copy_data_and_examples_from_package_to"]}
{"id": "C132", "title": "Kernels are compiled with the compiler and the options that were asked for", "statement": "The command of the compiler contains all arguments of the user in an order in which they take effect: the user's optimisation replaces the standard one, libraries come after the source, directories of libraries are searched when compiling and when loading. The compiler is that of the environment variables CC or, with MPI, MPICC. Lists given by the caller are not changed.", "quantifier": "all lists of arguments, directories and libraries, all values of the environment variables", "why_tests_cant": "Tests compile with one set of options on one machine, and the options do not change results.", "anchors": ["parcels/compilation/codecompiler.py:GNU_parameters", "parcels/compilation/codecompiler.py:GNUCompiler_SS.compile", "parcels/compilation/codecompiler.py:CCompiler_SS.compile"]}
{"id": "C133", "title": "Movies of trajectories show every record once, at its time and place", "statement": "In the movies of a particle file, the frames follow each other in the order of time (or in reverse), each record with a time is in the frame of that time and in no other, with its own position and colour; on a map the longitudes are brought into one turn.", "quantifier": "all particle files, both directions, all longitudes", "why_tests_cant": "Tests only check that a plot is made.", "anchors": ["parcels/scripts/plottrajectoriesfile.py:plotTrajectoriesFile"]}
