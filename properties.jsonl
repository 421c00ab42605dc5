{"id": "C01", "title": "Caching never changes a result", "statement": "Calling a deterministic function through the package's cache decorator returns exactly what the function itself would return for those arguments, after any history of earlier calls, failures and cache clears, for every cache size setting (disabled, unbounded, bounded, memory-limited).", "quantifier": "all functions, all cache sizes, all finite histories of calls and clears", "why_tests_cant": "The value depends on the whole history of insertions and evictions; tests only replay a handful of histories.", "anchors": ["cosmic_profiles/common/caching.py:lru_cache", "cosmic_profiles/common/caching.py:_make_key"]}
{"id": "C02", "title": "A bounded cache never outgrows its limit", "statement": "With maxsize = n the number of entries reported by cache_info().currsize never exceeds max(n,1), whatever calls were made.", "quantifier": "all maxsize values and all call histories", "why_tests_cant": "Needs an invariant over unbounded histories.", "anchors": ["cosmic_profiles/common/caching.py:lru_cache"]}
{"id": "C03", "title": "Eviction removes the least recently used entry", "statement": "When a bounded cache is full and a new argument arrives, the entry dropped is the one whose last use (insertion or hit) is oldest, and every other entry survives; so the cache always holds exactly the most recently used distinct arguments.", "quantifier": "all call histories", "why_tests_cant": "Which entry is dropped depends on the complete order of previous uses; the linked-list surgery has many cases.", "anchors": ["cosmic_profiles/common/caching.py:lru_cache"]}
{"id": "C04", "title": "Cache statistics are exact", "statement": "cache_info() hits plus misses equals the number of completed calls since the last clear; a call counts as a hit exactly when its argument was in the cache when the call started.", "quantifier": "all call histories", "why_tests_cant": "Counter drift shows only on long mixed histories.", "anchors": ["cosmic_profiles/common/caching.py:lru_cache"]}
{"id": "C05", "title": "A failing call leaves the cache untouched", "statement": "If the wrapped function raises, the exception reaches the caller, nothing is stored, no entry is evicted and the counters do not move; a later successful call with the same argument is computed afresh.", "quantifier": "all histories containing failing calls", "why_tests_cant": "Requires reasoning about every state in which a failure can happen.", "anchors": ["cosmic_profiles/common/caching.py:lru_cache"]}
{"id": "C06", "title": "Clearing the cache restores the initial state", "statement": "After cache_clear() the cache is observably indistinguishable from a new one: every later history of calls gives the same results, statistics and evictions as on a fresh cache.", "quantifier": "all histories before and after the clear", "why_tests_cant": "Observational equivalence quantifies over all later histories.", "anchors": ["cosmic_profiles/common/caching.py:lru_cache"]}
{"id": "C07", "title": "Memory-limited cache: no eviction before the limit, constant size after it", "statement": "With a memory limit configured, entries are only evicted after free memory was seen below the limit; from then on each new argument replaces the oldest one so that the number of entries stays constant, until the cache is cleared.", "quantifier": "all histories and all sequences of free-memory readings", "why_tests_cant": "Free memory is environment input that tests cannot enumerate.", "anchors": ["cosmic_profiles/common/caching.py:lru_cache"]}
{"id": "C08", "title": "Array arguments survive the caching layer unchanged", "statement": "A function cached with the array cache receives arrays with the same shape and the same entries as those the caller passed, for any mix of 1-d, 2-d, ... arrays, lists of lists and plain arguments passed by position in the documented order.", "quantifier": "all argument lists, all shapes and dimensions", "why_tests_cant": "Flatten/reshape round trips must hold for every shape.", "anchors": ["cosmic_profiles/common/caching.py:np_cache_factory"]}
{"id": "C09", "title": "Array caches never confuse different arguments", "statement": "Two calls of an array-cached function share a cached result only if their array arguments agree in shape and in all entries (and dtype).", "quantifier": "all pairs of argument lists", "why_tests_cant": "Key injectivity is a statement about all pairs of inputs.", "anchors": ["cosmic_profiles/common/caching.py:np_cache_factory", "cosmic_profiles/common/caching.py:_make_key"]}
{"id": "C10", "title": "Concurrent callers cannot corrupt a bounded cache", "statement": "For any number of threads and any interleaving of their lookups, computations and insertions (the lock is not held while the function runs), every caller gets the right value, no argument is stored twice, and the size limit holds.", "quantifier": "all thread counts and interleavings", "why_tests_cant": "Interleavings cannot be enumerated by tests.", "anchors": ["cosmic_profiles/common/caching.py:lru_cache"]}
{"id": "C11", "title": "Unit conversions are mutually inverse", "statement": "Converting a length or velocity from input to internal units and from internal to output units are multiplications by a fixed positive factor, and they are exact inverses when the input and output unit systems coincide, whatever the unit system.", "quantifier": "all unit systems, all positive little_h, all values", "why_tests_cant": "Unit systems range over a continuum.", "anchors": ["cosmic_profiles/common/config.py:LengthInToInternal", "cosmic_profiles/common/config.py:LengthInternalToOut", "cosmic_profiles/common/config.py:VelInToInternal", "cosmic_profiles/common/config.py:VelInternalToOut"]}
{"id": "C12", "title": "Naming a unit means the same as giving its value", "statement": "Selecting a unit by its name (e.g. 'kpc/h') has exactly the same effect as passing the number from the documented table (with the /h units divided by the supplied little_h); unknown names are rejected.", "quantifier": "all unit names and all positive little_h", "why_tests_cant": "Covers all values of little_h.", "anchors": ["cosmic_profiles/common/config.py:updateInUnitSystem", "cosmic_profiles/common/config.py:updateOutUnitSystem"]}
{"id": "C13", "title": "A rejected unit system leaves the configuration unchanged", "statement": "If updateInUnitSystem/updateOutUnitSystem reject their arguments, all later conversions behave as before the call.", "quantifier": "all configurations and all rejected argument lists", "why_tests_cant": "All combinations of previous state and bad arguments.", "anchors": ["cosmic_profiles/common/config.py:updateInUnitSystem", "cosmic_profiles/common/config.py:updateOutUnitSystem"]}
{"id": "C14", "title": "Mass conversions are available and mutually inverse", "statement": "Converting a mass from input to internal and from internal to output units succeeds for every unit system and is inverse when the systems coincide.", "quantifier": "all unit systems and masses", "why_tests_cant": "Continuum of unit systems.", "anchors": ["cosmic_profiles/common/config.py:MassInToInternal", "cosmic_profiles/common/config.py:MassInternalToOut"]}
{"id": "C15", "title": "Density profiles survive the unit round trip of estimation and fitting", "statement": "Feeding estimated density profiles (reported in output units) back into fitting uses exactly the internal profile that was estimated, and fitted density/radius parameters are reported in output units with the right powers; concentrations do not depend on the output unit system.", "quantifier": "all output unit systems and profiles", "why_tests_cant": "All unit systems; exponents errors cancel for particular units used in tests.", "anchors": ["cosmic_profiles/common/cosmic_base_class.pyx:_estDensProfsBase", "cosmic_profiles/common/cosmic_base_class.pyx:_fitDensProfsBase", "cosmic_profiles/common/cosmic_base_class.pyx:_estConcentrationsBase"]}
{"id": "C16", "title": "Object selections are accepted exactly when valid", "statement": "An obj_numbers selection of integers is accepted, unchanged, iff it is non-empty, contains no object twice and every entry is the number of an existing object; otherwise an error is raised.", "quantifier": "all selections and catalogue sizes", "why_tests_cant": "All arrays of numbers.", "anchors": ["cosmic_profiles/common/python_routines.py:isValidSelection"]}
{"id": "C17", "title": "Selecting objects yields exactly their particles", "statement": "The particle index list of a selection is the concatenation, in selection order, of the particle lists of the selected objects, and cutting it by the selected sizes gives each object's own particles back.", "quantifier": "all catalogues and selections (repetitions included)", "why_tests_cant": "All catalogues and selections.", "anchors": ["cosmic_profiles/common/python_routines.py:getSubSetIdxCat", "cosmic_profiles/shape_profs/shape_profs_classes.pyx:DensShapeProfs.__init__"]}
{"id": "C18", "title": "Resolution cut keeps exactly the well-resolved objects", "statement": "Constructing a catalogue from user supplied particle lists keeps exactly the objects with at least MIN_NUMBER_PTCS particles, in the original order, and keeps sizes and R200 radii aligned with them.", "quantifier": "all particle lists, radii and thresholds", "why_tests_cant": "All catalogues; misalignment arises only for particular patterns of small objects.", "anchors": ["cosmic_profiles/shape_profs/shape_profs_classes.pyx:DensShapeProfs.__init__", "cosmic_profiles/dens_profs/dens_profs_classes.pyx:DensProfs.__init__"]}
{"id": "C19", "title": "Halo catalogue contains exactly the qualifying halos", "statement": "For FoF/SUBFIND input a halo is in the catalogue iff it has a central subhalo with at least MIN_NUMBER_PTCS particles, and its particles are the contiguous block that starts after all particles of the preceding FoF groups and has the length of its central subhalo.", "quantifier": "all group and subhalo tables", "why_tests_cant": "All tables with arbitrary many groups without subhalos.", "anchors": ["cosmic_profiles/gadget/gen_catalogues.pyx:calcObjCat", "cosmic_profiles/gadget/gen_catalogues.pyx:calcCSHIdxs"]}
{"id": "C20", "title": "Catalogue objects are disjoint and in range", "statement": "If every central subhalo is no larger than its FoF group, particle lists of different objects never overlap and never refer beyond the particles in groups.", "quantifier": "all group and subhalo tables", "why_tests_cant": "Universally quantified over tables.", "anchors": ["cosmic_profiles/gadget/gen_catalogues.pyx:calcObjCat"]}
{"id": "C21", "title": "Parallel catalogue generation is schedule independent", "statement": "The halo catalogue does not depend on the number of threads or on the order in which halos are processed.", "quantifier": "all schedules (orders and thread assignments)", "why_tests_cant": "Schedules cannot be enumerated.", "anchors": ["cosmic_profiles/gadget/gen_catalogues.pyx:calcObjCat"]}
{"id": "C22", "title": "Unwrapping moves particles only by whole boxes and gathers them", "statement": "Unwrapping an object across periodic boundaries changes each coordinate only by 0, +L or -L, and for particles inside the box the result lies within L/2 of the reference point along every axis.", "quantifier": "all particle sets, box sizes and reference samples", "why_tests_cant": "Continuum of positions and random reference choices.", "anchors": ["cosmic_profiles/common/python_routines.py:respectPBCNoRef"]}
{"id": "C23", "title": "Reported centres lie inside the box", "statement": "Recentring maps every coordinate in [-L,2L) to a coordinate in [0,L) that differs by a multiple of L.", "quantifier": "all centres and box sizes", "why_tests_cant": "Continuum incl. boundary values.", "anchors": ["cosmic_profiles/common/python_routines.py:recentreObject"]}
{"id": "C24", "title": "Shape computation sees genuine periodic images", "statement": "The particle positions used for shape and density estimation are periodic images (shifts by multiples of L per axis) of the input positions, consistent with the positions used for the centre.", "quantifier": "all particle sets and box sizes", "why_tests_cant": "Only fails for objects crossing the boundary.", "anchors": ["cosmic_profiles/cython_helpers/helper_class.pyx:CythonHelpers.respectPBCNoRef", "cosmic_profiles/shape_profs/shape_profs_algos.pyx:calcMorphLocal"]}
{"id": "C25", "title": "Centre of mass is a weighted mean", "statement": "The centre of mass is the mass-weighted mean: it is independent of particle order, moves with the particles under translation, is unchanged when all masses are rescaled, and lies in the bounding box of the particles for non-negative masses with positive total.", "quantifier": "all particle sets", "why_tests_cant": "Continuum of inputs.", "anchors": ["cosmic_profiles/common/python_routines.py:calcCoM", "cosmic_profiles/cython_helpers/helper_class.pyx:CythonHelpers.calcCoM"]}
{"id": "C26", "title": "Mode finding terminates", "statement": "Finding the densest point by shrinking spheres terminates for every particle set and returns a point within the bounding box of the particles.", "quantifier": "all particle sets and start radii", "why_tests_cant": "Termination for all inputs.", "anchors": ["cosmic_profiles/common/python_routines.py:calcMode", "cosmic_profiles/common/cosmo_tools.py:calcMode"]}
{"id": "C27", "title": "Each particle is counted in at most one radial shell", "statement": "In spherical and ellipsoidal direct binning with increasing bin edges a particle is attributed to at most one bin, and to exactly one iff its scaled radius is between the first and last edge.", "quantifier": "all particles, edges and numbers of bins", "why_tests_cant": "Boundary values on edges.", "anchors": ["cosmic_profiles/cython_helpers/helper_class.pyx:CythonHelpers.calcDensProfBruteForceSph", "cosmic_profiles/cython_helpers/helper_class.pyx:CythonHelpers.calcMenclsBruteForceSph"]}
{"id": "C28", "title": "Radial binning conserves mass", "statement": "The masses of all shells (density times shell volume) add up to the mass of the particles between the innermost and the outermost bin edge.", "quantifier": "all particle sets and bin edges", "why_tests_cant": "All particle sets.", "anchors": ["cosmic_profiles/cython_helpers/helper_class.pyx:CythonHelpers.calcDensProfBruteForceSph", "cosmic_profiles/dens_profs/dens_profs_algos.pyx:calcDensProfsSphDirectBinning"]}
{"id": "C29", "title": "Density profiles do not depend on particle order", "statement": "Reordering an object's particles changes neither its spherical density profile nor its enclosed mass profile.", "quantifier": "all permutations", "why_tests_cant": "Factorially many orders.", "anchors": ["cosmic_profiles/cython_helpers/helper_class.pyx:CythonHelpers.calcDensProfBruteForceSph", "cosmic_profiles/cython_helpers/helper_class.pyx:CythonHelpers.calcMenclsBruteForceSph"]}
{"id": "C30", "title": "Density bin edges bracket the requested radii", "statement": "For strictly increasing normalised radii above 1e-8, the edges of the spherical bins derived from them are strictly increasing, one more than the radii, end with the last radius, and each other radius lies strictly inside its own bin.", "quantifier": "all increasing radius grids of length at least two", "why_tests_cant": "All grids.", "anchors": ["cosmic_profiles/dens_profs/dens_profs_algos.pyx:calcDensProfsSphDirectBinning"]}
{"id": "C31", "title": "Enclosed mass is monotone", "statement": "The enclosed mass profile is non-decreasing in radius and bounded by the total mass of the object.", "quantifier": "all particle sets and radius grids", "why_tests_cant": "All inputs.", "anchors": ["cosmic_profiles/cython_helpers/helper_class.pyx:CythonHelpers.calcMenclsBruteForceSph"]}
{"id": "C32", "title": "Density profiles are non-negative", "statement": "Spherical direct-binning densities are non-negative for non-negative masses, and scale linearly with mass.", "quantifier": "all inputs", "why_tests_cant": "All inputs.", "anchors": ["cosmic_profiles/cython_helpers/helper_class.pyx:CythonHelpers.calcDensProfBruteForceSph"]}
{"id": "C33", "title": "Ellipsoidal density profile uses every particle of each object", "statement": "The ellipsoidal density profile of an object is computed from that object's own particles, and the caller's particle index list is not modified.", "quantifier": "all catalogues", "why_tests_cant": "All catalogues.", "anchors": ["cosmic_profiles/dens_profs/dens_profs_algos.pyx:calcDensProfsEllDirectBinning"]}
{"id": "C34", "title": "Shape iteration terminates within the iteration wall", "statement": "For every particle set the iterative shape determination performs at most IT_WALL iterations per radius and then returns.", "quantifier": "all particle sets and settings", "why_tests_cant": "Termination for all inputs.", "anchors": ["cosmic_profiles/shape_profs/shape_profs_algos.pyx:runEllAlgo", "cosmic_profiles/shape_profs/shape_profs_algos.pyx:runShellAlgo"]}
{"id": "C35", "title": "A reported shape is converged and well resolved", "statement": "Whenever a shape is reported (not unclassified), the last iteration used at least IT_MIN particles and changed both axis ratios by a relative amount of at most IT_TOL.", "quantifier": "all particle sets and settings", "why_tests_cant": "All inputs and iteration histories.", "anchors": ["cosmic_profiles/shape_profs/shape_profs_algos.pyx:runEllAlgo", "cosmic_profiles/shape_profs/shape_profs_algos.pyx:runShellAlgo", "cosmic_profiles/shape_profs/shape_profs_algos.pyx:runEllVDispAlgo", "cosmic_profiles/shape_profs/shape_profs_algos.pyx:runShellVDispAlgo"]}
{"id": "C36", "title": "Axis ratios are ordered and axes orthonormal", "statement": "Reported axis ratios satisfy 0 <= s <= q <= 1 and the three reported axes are orthonormal, with major axis belonging to the largest eigenvalue.", "quantifier": "all particle sets", "why_tests_cant": "Continuum of inputs.", "anchors": ["cosmic_profiles/shape_profs/shape_profs_algos.pyx:runEllAlgo", "cosmic_profiles/shape_profs/shape_profs_algos.pyx:runShellAlgo"]}
{"id": "C37", "title": "Shape tensor is symmetric positive semidefinite", "statement": "The shape tensor of any set of particles with non-negative masses (reduced or not) is symmetric and positive semidefinite and does not depend on an overall mass scale or the order of particles.", "quantifier": "all particle sets", "why_tests_cant": "Continuum of inputs.", "anchors": ["cosmic_profiles/cython_helpers/helper_class.pyx:CythonHelpers.calcShapeTensor"]}
{"id": "C38", "title": "Shapes do not depend on where the object is", "statement": "Translating all particles and the centre by the same vector leaves axis ratios, axes and the number of iterations unchanged.", "quantifier": "all particle sets and translations", "why_tests_cant": "Continuum of inputs and iteration histories.", "anchors": ["cosmic_profiles/shape_profs/shape_profs_algos.pyx:runEllAlgo", "cosmic_profiles/shape_profs/shape_profs_algos.pyx:runShellAlgo"]}
{"id": "C39", "title": "A reported shape always comes from an iteration", "statement": "For every positive tolerance, the axes and ratios returned for an object are computed from that object's particles.", "quantifier": "all settings including large tolerances", "why_tests_cant": "Settings range over a continuum.", "anchors": ["cosmic_profiles/shape_profs/shape_profs_algos.pyx:runEllAlgo", "cosmic_profiles/shape_profs/shape_profs_algos.pyx:calcObjMorphGlobal"]}
{"id": "C40", "title": "Axis-aligned objects keep their axes", "statement": "If the iteration finds unit axes, the catalogue reports exactly these axes, including axes with zero components.", "quantifier": "all converged results", "why_tests_cant": "Only degenerate directions fail.", "anchors": ["cosmic_profiles/shape_profs/shape_profs_algos.pyx:calcMorphLocal", "cosmic_profiles/shape_profs/shape_profs_algos.pyx:calcMorphGlobal"]}
{"id": "C41", "title": "Parallel shape computation is schedule independent", "statement": "Shape catalogues do not depend on the number of threads or on the assignment of objects to threads, although scratch buffers are reused between objects.", "quantifier": "all schedules", "why_tests_cant": "Schedules cannot be enumerated; stale scratch data only shows under some.", "anchors": ["cosmic_profiles/shape_profs/shape_profs_algos.pyx:calcMorphLocal", "cosmic_profiles/shape_profs/shape_profs_algos.pyx:calcMorphGlobal", "cosmic_profiles/shape_profs/shape_profs_algos.pyx:calcMorphGlobalVelDisp"]}
{"id": "C42", "title": "Velocity dispersion shapes depend on the velocities of the object", "statement": "The local velocity dispersion shape catalogue is computed from the velocities of each object's particles.", "quantifier": "all inputs", "why_tests_cant": "A shape test alone cannot notice that an input is ignored for all inputs.", "anchors": ["cosmic_profiles/shape_profs/shape_profs_algos.pyx:calcMorphLocalVelDisp"]}
{"id": "C43", "title": "Ellipticities are bounded and rotate correctly", "statement": "The complex ellipticity of an object is (Qxx - Qyy + 2i Qxy)/(Qxx + Qyy) with the second mass moments Q of its unwrapped particles about the centre used for shapes, NaN if the denominator vanishes. It has modulus at most one, does not depend on the mass unit, picks up the phase 2*angle when the image is rotated, and does not depend on the order of the particles (non-periodic positions, or up to fifty particles, where no random subsample is drawn).", "quantifier": "all particle sets, all angles", "why_tests_cant": "Continuum.", "anchors": ["cosmic_profiles/shape_profs/shape_profs_tools.py:getEpsilon"]}
{"id": "C44", "title": "Triaxiality lies in [0,1]", "statement": "For axis ratios 0 < s <= q <= 1 with s < 1, triaxiality lies in [0,1], is 0 iff q = 1 and 1 iff q = s.", "quantifier": "all axis ratios", "why_tests_cant": "Continuum.", "anchors": ["cosmic_profiles/shape_profs/shape_profs_tools.py:getGlobalTHist", "cosmic_profiles/shape_profs/shape_profs_tools.py:getLocalTHist"]}
{"id": "C45", "title": "Mass splitting is an ordered partition", "statement": "Splitting objects into mass bins assigns every object to exactly one bin, bins are ordered by mass, never more than the requested number of bins are produced, and all but the last one have the same number of members.", "quantifier": "all mass lists and bin numbers", "why_tests_cant": "All inputs incl. non-dividing sizes and ties.", "anchors": ["cosmic_profiles/common/cosmo_tools.py:M_split"]}
{"id": "C46", "title": "Mass-binned density plots use every object", "statement": "Every object contributes to the median profile of exactly one mass bin in mass-decomposed density plots.", "quantifier": "all mass lists and bin numbers", "why_tests_cant": "All inputs incl. objects on bin edges.", "anchors": ["cosmic_profiles/dens_profs/dens_profs_tools.py:drawDensProfs"]}
{"id": "C47", "title": "Blocks partition a list", "statement": "Cutting a list into blocks of a given size n >= 1 yields non-empty blocks which put together give the list back, all of size n except possibly the last one; size 0 is rejected.", "quantifier": "all lists and block sizes", "why_tests_cant": "All sizes, incl. non-dividing ones.", "anchors": ["cosmic_profiles/common/cosmo_tools.py:getBlocks"]}
{"id": "C48", "title": "Density profile models are consistent", "statement": "NFW and Hernquist profiles are the (1,3,1) and (1,4,1) special cases of the alpha-beta-gamma model; every model is positive for positive parameters and strictly decreasing in radius; gamma and beta are its inner and outer logarithmic slopes with a transition governed by alpha, and the Einasto model has slope -2 and value rho_s at its scale radius.", "quantifier": "all radii and parameters", "why_tests_cant": "Continuum.", "anchors": ["cosmic_profiles/dens_profs/dens_profs_tools.py:getNFWProf", "cosmic_profiles/dens_profs/dens_profs_tools.py:getHernquistProf", "cosmic_profiles/dens_profs/dens_profs_tools.py:getAlphaBetaGammaProf", "cosmic_profiles/dens_profs/dens_profs_tools.py:getEinastoProf"]}
{"id": "C49", "title": "Fit methods are validated exactly", "statement": "A density-fit method is accepted iff it is a dictionary which names a known profile, contains nothing but the profile, parameters of this profile and a minimisation method, and names a known minimisation method if any; everything else is rejected with an assertion error.", "quantifier": "all values", "why_tests_cant": "All dictionaries.", "anchors": ["cosmic_profiles/common/python_routines.py:checkDensFitMethod"]}
{"id": "C50", "title": "Fit results belong to their object", "statement": "Whatever order parallel workers finish in, the best-fit parameters in row i are those of object i.", "quantifier": "all completion orders", "why_tests_cant": "Orders cannot be enumerated.", "anchors": ["cosmic_profiles/dens_profs/dens_profs_tools.py:fitDensProfHelper", "cosmic_profiles/common/cosmic_base_class.pyx:_getDensProfsBestFitsBase"]}
{"id": "C51", "title": "Fixed fit parameters stay fixed", "statement": "A parameter given in the method dictionary is returned unchanged for every successfully fitted object, and the concentration equals R200 divided by the fitted scale radius.", "quantifier": "all fit inputs and optimiser behaviours within bounds", "why_tests_cant": "Optimiser output quantified over.", "anchors": ["cosmic_profiles/dens_profs/dens_profs_tools.py:fitDensProf", "cosmic_profiles/common/cosmic_base_class.pyx:_getConcentrationsBase"]}
{"id": "C52", "title": "Every snapshot chunk is read by exactly one rank, in order", "statement": "Distributing n catalogue files over any number of MPI ranks assigns each file to exactly one rank, and concatenating the per-rank results in rank order restores file order.", "quantifier": "all numbers of files and ranks", "why_tests_cant": "All n and size.", "anchors": ["cosmic_profiles/gadget/read_fof.py:getFoFSHData"]}
{"id": "C53", "title": "Chunked broadcast delivers the whole array", "statement": "Broadcasting an array in pieces reconstructs exactly the root's array on every rank.", "quantifier": "all array lengths and chunk sizes", "why_tests_cant": "All lengths.", "anchors": ["cosmic_profiles/gadget/read_fof.py:getFoFSHData"]}
{"id": "C54", "title": "Snapshot file resolution follows a fixed precedence", "statement": "Given a snapshot base name, the file opened is the first existing of: the plain name, name.0, name.hdf5, name.0.hdf5, and the format is hdf5 exactly for the last two or an .hdf5 plain name; if none exists an error is raised.", "quantifier": "all file systems", "why_tests_cant": "All combinations of existing files.", "anchors": ["cosmic_profiles/gadget/readgadget.py:fname_format"]}
{"id": "C55", "title": "Block search terminates and finds the right block", "statement": "Searching a block in a binary snapshot terminates for every file and returns the offset of the data of the requested block, or fails; it never returns another block's data.", "quantifier": "all files", "why_tests_cant": "Arbitrary file contents.", "anchors": ["cosmic_profiles/gadget/readsnap.py:find_block"]}
{"id": "C56", "title": "GADGET format-2 snapshots can be read", "statement": "In a well-formed format-2 snapshot the requested block is found by its name.", "quantifier": "all well-formed format-2 files", "why_tests_cant": "All files.", "anchors": ["cosmic_profiles/gadget/readsnap.py:find_block"]}
{"id": "C57", "title": "Multi-file snapshots are assembled species by species", "statement": "Reading a block of a snapshot split over several files returns, for each species in order, the concatenation of that species' data over the files.", "quantifier": "all splits of particles over files", "why_tests_cant": "All splits.", "anchors": ["cosmic_profiles/gadget/readsnap.py:read_block", "cosmic_profiles/gadget/readgadget.py:read_block"]}
{"id": "C58", "title": "Particle IDs are read losslessly", "statement": "64-bit particle IDs stored in a snapshot are returned unchanged.", "quantifier": "all IDs", "why_tests_cant": "Only large IDs fail.", "anchors": ["cosmic_profiles/gadget/readsnap.py:read_block"]}
{"id": "C59", "title": "Cached catalogue data respects the current unit system", "statement": "After changing the input unit system, group radii are converted with the new units.", "quantifier": "all histories of unit changes and reads", "why_tests_cant": "Histories.", "anchors": ["cosmic_profiles/gadget/read_fof.py:getFoFSHData", "cosmic_profiles/common/config.py:updateInUnitSystem"]}
{"id": "C60", "title": "Stored shape catalogues answer the request", "statement": "getShapeCatLocal/getShapeCatGlobal return the shapes of exactly the requested objects and settings, whether or not a catalogue was dumped to disk before.", "quantifier": "all histories of dumps and requests", "why_tests_cant": "Histories.", "anchors": ["cosmic_profiles/common/cosmic_base_class.pyx:_getShapeCatLocalBase", "cosmic_profiles/common/cosmic_base_class.pyx:_getShapeCatGlobalBase", "cosmic_profiles/common/cosmic_base_class.pyx:_dumpShapeCatLocalBase"]}
{"id": "C61", "title": "Dumped catalogues are unit-safe", "statement": "A shape catalogue dumped and later loaded gives the same physical lengths, whatever output units are active at either time.", "quantifier": "all unit systems at dump and load time", "why_tests_cant": "Histories of unit changes.", "anchors": ["cosmic_profiles/common/cosmic_base_class.pyx:_dumpShapeCatLocalBase", "cosmic_profiles/common/cosmic_base_class.pyx:_getShapeCatLocalBase"]}
{"id": "C62", "title": "A crash while dumping never yields a wrong catalogue", "statement": "If the process dies at any point while dumping a shape catalogue, a later run either recomputes, fails loudly or returns a complete catalogue from one dump, never a mixture.", "quantifier": "all crash points and previous disk states", "why_tests_cant": "Crash points.", "anchors": ["cosmic_profiles/common/cosmic_base_class.pyx:_dumpShapeCatLocalBase", "cosmic_profiles/common/cosmic_base_class.pyx:_dumpShapeCatGlobalBase"]}
{"id": "C63", "title": "Mock halos have the requested mass", "statement": "A generated mock halo has particle mass times particle number equal to the total mass, and its density normalisation reproduces the requested mass over the shells, and its particles follow the density model shell by shell up to rounding.", "quantifier": "all masses, resolutions, models and shell grids", "why_tests_cant": "Continuum.", "anchors": ["cosmic_profiles/mock_tools/mock_halo_gen.py:genHalo"]}
{"id": "C64", "title": "Mock halo particles lie in their shells", "statement": "Points drawn for the shell between two concentric ellipsoids lie inside the outer and outside the inner ellipsoid.", "quantifier": "all shells and random draws", "why_tests_cant": "Random draws.", "anchors": ["cosmic_profiles/common/python_routines.py:drawUniformFromShell", "cosmic_profiles/common/python_routines.py:inShell", "cosmic_profiles/common/python_routines.py:drawUniformFromEllipsoid"]}
{"id": "C65", "title": "Mock shell coarsening terminates and keeps the extent", "statement": "The shell merging loop of the mock generator terminates for every input, keeps the outermost shell semi-axes, and on normal return every shell receives at least one particle.", "quantifier": "all inputs", "why_tests_cant": "Termination for all inputs.", "anchors": ["cosmic_profiles/mock_tools/mock_halo_gen.py:genHalo"]}
{"id": "C66", "title": "Fibonacci sampling stays on its surface", "statement": "Every sample point of the Fibonacci sphere/ellipsoid lies on the surface, for any number of samples.", "quantifier": "all sample counts >= 1", "why_tests_cant": "All n, including the default.", "anchors": ["cosmic_profiles/common/python_routines.py:fibonacci_sphere", "cosmic_profiles/common/python_routines.py:fibonacci_ellipsoid"]}
{"id": "C67", "title": "Publicly documented methods can be called", "statement": "The public methods plotLocalEpsHist and getShapeCatVelGlobal succeed in calling their implementation for every valid selection.", "quantifier": "all valid selections", "why_tests_cant": "States that no call can succeed/fail.", "anchors": ["cosmic_profiles/shape_profs/shape_profs_classes.pyx:ShapeProfs.plotLocalEpsHist", "cosmic_profiles/shape_profs/shape_profs_tools.py:getLocalEpsHist", "cosmic_profiles/shape_profs/shape_profs_classes.pyx:getShapeCatVelGlobal"]}
{"id": "C68", "title": "Particle type names are decoded exactly", "statement": "Particle type names dm, gas and stars map to GADGET types 1, 0 and 4; any other string is rejected.", "quantifier": "all strings", "why_tests_cant": "All strings.", "anchors": ["cosmic_profiles/gadget/read_fof.py:getPartType"]}
{"id": "C69", "title": "Chi-square distances are well behaved", "statement": "The chi-square distance of two binned samples counts every point exactly once, is non-negative, symmetric in the samples, independent of the order of the points, zero exactly if the samples have the same distribution over the bins, and has the value of Pearson's statistic.", "quantifier": "all samples", "why_tests_cant": "All inputs.", "anchors": ["cosmic_profiles/common/cosmo_tools.py:chiSquareToICore", "cosmic_profiles/common/cosmo_tools.py:chiSquareToIMultiDim"]}
{"id": "C70", "title": "Enclosed-subset catalogue can be computed", "statement": "Restricting objects to the particles within a fraction of R200 returns exactly those particles, for every object.", "quantifier": "all catalogues", "why_tests_cant": "All catalogues.", "anchors": ["cosmic_profiles/common/python_routines.py:getCatWithinFracR200"]}
{"id": "C71", "title": "Scientific-notation labels denote the same number", "statement": "Rewriting a '%.2E' formatted number for plots as mantissa times power of ten denotes the same number for all supported exponents; a leading '1.00 x' is dropped.", "quantifier": "all mantissas and exponents", "why_tests_cant": "All strings.", "anchors": ["cosmic_profiles/common/python_routines.py:eTo10"]}
{"id": "C72", "title": "Plot labels denote the output unit", "statement": "In every unit configuration each plot label returned for length, mass and velocity denotes exactly the output unit in use (a named unit of that size, or the correct multiple of kpc, Msun, km/s).", "quantifier": "all unit configurations", "why_tests_cant": "A continuum of unit systems, including coincidences between named units.", "anchors": ["cosmic_profiles/common/config.py:LMVLabel"]}
{"id": "C73", "title": "Input and output unit choices are independent", "statement": "Choosing the output unit system does not change how input data are converted to internal units, and vice versa.", "quantifier": "all configurations and all unit choices", "why_tests_cant": "All pairs of previous state and new choice.", "anchors": ["cosmic_profiles/common/config.py:updateInUnitSystem", "cosmic_profiles/common/config.py:updateOutUnitSystem"]}
{"id": "C74", "title": "Non-integer object numbers are rejected", "statement": "A selection of objects which contains a number that is not an integer is rejected with an error, whether given as a list or as an array.", "quantifier": "all selections and catalogue sizes", "why_tests_cant": "All lists and arrays of numbers.", "anchors": ["cosmic_profiles/common/python_routines.py:isValidSelection", "cosmic_profiles/shape_profs/shape_profs_classes.pyx:DensShapeProfs.getShapeCatLocal"]}
{"id": "C75", "title": "Compact objects become contiguous", "statement": "An object smaller than half the box is unwrapped into a contiguous set: after unwrapping, the separations of its particles are their actual (minimum-image) separations.", "quantifier": "all objects, box sizes and reference samples", "why_tests_cant": "Continuum of positions and random reference choices; fails only for particular positions relative to the boundary.", "anchors": ["cosmic_profiles/common/python_routines.py:respectPBCNoRef"]}
{"id": "C76", "title": "Edges of ellipsoidal bins bracket the requested radii", "statement": "For at least three strictly increasing positive radii the edges of the ellipsoidal bins are strictly increasing, one more than the radii, and the first radius lies inside its own bin.", "quantifier": "all lists of radii", "why_tests_cant": "Continuum of radial grids; usual tests use one logarithmic grid.", "anchors": ["cosmic_profiles/dens_profs/dens_profs_algos.pyx:calcDensProfsEllDirectBinning"]}
{"id": "C77", "title": "Kernel-based profiles contain the total mass", "statement": "The kernel-based density profile of an object, integrated over all space, gives the total mass of its particles, and it is positive everywhere.", "quantifier": "all objects without a particle exactly at the center", "why_tests_cant": "An improper integral over a continuum of radii.", "anchors": ["cosmic_profiles/dens_profs/dens_profs_algos.pyx:calcDensProfsKernelBased", "cosmic_profiles/cython_helpers/helper_class.pyx:CythonHelpers.calcKTilde"]}
{"id": "C78", "title": "Density profiles of a catalogue do not influence each other", "statement": "The direct-binning density profile of each object in a catalogue is the one the object has on its own, for every number of threads and every schedule.", "quantifier": "all catalogues, numbers of threads, schedules and interleavings", "why_tests_cant": "Interleavings of threads and leftovers in scratch memory.", "anchors": ["cosmic_profiles/dens_profs/dens_profs_algos.pyx:calcDensProfsSphDirectBinning"]}
{"id": "C79", "title": "Shapes do not depend on particle order or mass unit", "statement": "Listing the particles of an object in another order, or expressing all masses in another unit, does not change its axis ratios and axes (for a deterministic eigenvalue routine and exact arithmetic).", "quantifier": "all objects, permutations, mass units and settings", "why_tests_cant": "All permutations and scale factors; rounding hides small dependencies.", "anchors": ["cosmic_profiles/shape_profs/shape_profs_algos.pyx:runEllAlgo", "cosmic_profiles/shape_profs/shape_profs_algos.pyx:runShellAlgo", "cosmic_profiles/cython_helpers/helper_class.pyx:CythonHelpers.calcShapeTensor"]}
{"id": "C80", "title": "Flat objects are reported as unclassified", "statement": "Objects for which no three-dimensional ellipsoid exists (all particles in a plane through the center) are reported as unclassified; they do not abort the determination of the whole catalogue.", "quantifier": "all objects and settings", "why_tests_cant": "Degenerate configurations have measure zero among random test objects.", "anchors": ["cosmic_profiles/shape_profs/shape_profs_algos.pyx:runEllAlgo", "cosmic_profiles/shape_profs/shape_profs_algos.pyx:runShellAlgo"]}
{"id": "C81", "title": "Oblate objects enter triaxiality histograms", "statement": "Every classified object enters the triaxiality histogram and the printed average with its triaxiality; only unclassified objects are left out.", "quantifier": "all axis ratios", "why_tests_cant": "Only exact special values fail.", "anchors": ["cosmic_profiles/shape_profs/shape_profs_tools.py:getGlobalTHist", "cosmic_profiles/shape_profs/shape_profs_tools.py:getLocalTHist"]}
{"id": "C82", "title": "Local triaxiality histograms use the requested depth", "statement": "An object that was classified at the radius closest to the requested depth enters the local triaxiality histogram with its axis ratios at that radius.", "quantifier": "all objects, radii and depths", "why_tests_cant": "Depends on the pattern of unclassified radii.", "anchors": ["cosmic_profiles/shape_profs/shape_profs_tools.py:getLocalTHist"]}
{"id": "C83", "title": "Average shape profiles use exactly the classified values of each radius", "statement": "The values averaged at each radius of a mean or median shape profile are exactly the values of the objects classified at this radius; no value is lost, repeated, or attributed to another radius.", "quantifier": "all catalogues and radii", "why_tests_cant": "All patterns of unclassified radii.", "anchors": ["cosmic_profiles/shape_profs/shape_profs_tools.py:getShape", "cosmic_profiles/shape_profs/shape_profs_tools.py:getShapeMs"]}
{"id": "C84", "title": "Medians are medians", "statement": "The plotted median does not depend on the order of the objects, exists exactly if there is a value, and splits the sample: at least half of the values are not above and at least half not below it.", "quantifier": "all samples", "why_tests_cant": "All samples, incl. ties and even sizes.", "anchors": ["cosmic_profiles/common/cosmo_tools.py:getMeanOrMedianAndError"]}
{"id": "C85", "title": "Error bars measure spread", "statement": "The error bars attached to averaged profiles are zero if all values agree and do not change when the same constant is added to all values.", "quantifier": "all samples and error methods", "why_tests_cant": "Holds for all samples or not at all; numerical tests compare with one reference.", "anchors": ["cosmic_profiles/common/cosmo_tools.py:getMeanOrMedianAndError"]}
{"id": "C86", "title": "Shape settings are validated exactly", "statement": "Shape settings are accepted iff the six documented settings are given with values of the documented type; accepted settings are used as given, and a dictionary with other (e.g. misspelt) settings is rejected.", "quantifier": "all dictionaries", "why_tests_cant": "All dictionaries.", "anchors": ["cosmic_profiles/common/python_routines.py:checkKatzConfig"]}
{"id": "C87", "title": "Fits are best fits", "statement": "With an optimiser that finds the minimum, the returned parameters are closer to the given density profile (sum of squared differences of logarithms over the radii with a density) than any other parameters within the bounds, in whatever output units.", "quantifier": "all profiles, radii, virial radii, models and units", "why_tests_cant": "Comparison with a continuum of alternatives; tests compare with one reference value.", "anchors": ["cosmic_profiles/dens_profs/dens_profs_tools.py:fitDensProf", "cosmic_profiles/dens_profs/dens_profs_tools.py:toMinimize", "cosmic_profiles/common/cosmic_base_class.pyx:_fitDensProfsBase"]}
{"id": "C88", "title": "Profiles generated by a model are recovered", "statement": "If a density profile is exactly that of the fitted model for some admissible parameters, a successful fit with a perfect optimiser reproduces it exactly at all radii, in whatever output units and with NaN at any radii.", "quantifier": "all models, parameters, radii and units", "why_tests_cant": "Continuum of parameters and units.", "anchors": ["cosmic_profiles/dens_profs/dens_profs_tools.py:fitDensProf", "cosmic_profiles/common/cosmic_base_class.pyx:_fitDensProfsBase"]}
{"id": "C89", "title": "Group catalogue files are read in numerical order", "statement": "However many files a group catalogue has and in whatever order the file system lists them, they are processed in the order of the number in their names (2 before 10), so object numbers refer to the order of the catalogue on disk.", "quantifier": "all sets of file numbers and all orders of listing", "why_tests_cant": "Tests have few files and one listing order; lexicographic and numerical order agree below ten files.", "anchors": ["cosmic_profiles/gadget/read_fof.py:getFoFSHData"]}
{"id": "C90", "title": "Snapshot headers are read as written", "statement": "Whatever the byte order (little or big endian) and format (1 or 2) of a binary snapshot, all entries of its header are read with the values written, and format and byte order are recognised.", "quantifier": "all header contents, both byte orders, both formats", "why_tests_cant": "Space of 256-byte headers times byte orders and formats.", "anchors": ["cosmic_profiles/gadget/readsnap.py:snapshot_header"]}
{"id": "C91", "title": "Missing data in a snapshot is an error", "statement": "Asking for a block that is not in an HDF5 snapshot raises an exception; it never returns other data in its place.", "quantifier": "all snapshots, blocks and particle types", "why_tests_cant": "Contents of files range over all combinations of datasets and headers.", "anchors": ["cosmic_profiles/gadget/readgadget.py:read_field", "cosmic_profiles/gadget/readgadget.py:read_block"]}
{"id": "C92", "title": "Mock halos have about the requested number of particles", "statement": "A generated mock halo consists of the requested number of particles up to a factor between 2/3 and 2, plus or minus half a particle per requested shell.", "quantifier": "all masses, resolutions, models and shell grids", "why_tests_cant": "Rounding of two nested ratios of integrals over a grid which may have been coarsened any number of times.", "anchors": ["cosmic_profiles/mock_tools/mock_halo_gen.py:genHalo"]}
{"id": "C93", "title": "Points drawn from an ellipsoid lie in it", "statement": "Every point drawn by drawUniformFromEllipsoid lies inside the ellipsoid, at the fraction of its extent given by the cube root of the uniform random number.", "quantifier": "all semi-axes and random numbers", "why_tests_cant": "All random draws.", "anchors": ["cosmic_profiles/common/python_routines.py:drawUniformFromEllipsoid"]}
{"id": "C94", "title": "Fibonacci points are spread evenly", "statement": "The points of the Fibonacci sphere have heights decreasing from pole to pole in equal steps (equal areas), no two points coincide, and no two points between the poles have the same longitude.", "quantifier": "all sample counts >= 2", "why_tests_cant": "All sample counts.", "anchors": ["cosmic_profiles/common/python_routines.py:fibonacci_sphere"]}
{"id": "C95", "title": "Masses and centres of objects belong to the data handed in", "statement": "After making an object from positions, masses and particle lists, the masses and centres returned for a selection are, in the order of the selection, the total masses of exactly the particles of those objects and their centres of mass (or, in mode 'mode', the mean of some of their particles) modulo the periodic box, inside the box, and correct as physical quantities in whatever units data went in and results come out.", "quantifier": "all data, unit systems, selections, schedules of the parallel loop", "why_tests_cant": "End-to-end over unit conversion, resolution cut, selection, gathering, unwrapping, threads and recentring; tests check one data set in one unit system.", "anchors": ["cosmic_profiles/shape_profs/shape_profs_classes.pyx:DensShapeProfs", "cosmic_profiles/dens_profs/dens_profs_classes.pyx:DensProfsBase.getMassesCenters", "cosmic_profiles/dens_profs/dens_profs_algos.pyx:calcMassesCenters"]}
{"id": "C96", "title": "Density profiles belong to the data handed in", "statement": "After making an object from positions, masses and particle lists, the density returned for a selected object and radius is the mass of its particles in the spherical shell around its centre belonging to that radius, divided by the volume of the shell, as a physical quantity in whatever units data went in and results come out.", "quantifier": "all data, unit systems, radii, selections, schedules", "why_tests_cant": "End-to-end over conversion, selection, threads, binning; positions across a periodic boundary are rare in test data.", "anchors": ["cosmic_profiles/shape_profs/shape_profs_classes.pyx:DensShapeProfs", "cosmic_profiles/dens_profs/dens_profs_classes.pyx:DensProfsBase.estDensProfs", "cosmic_profiles/dens_profs/dens_profs_algos.pyx:calcDensProfsSphDirectBinning", "cosmic_profiles/common/cosmic_base_class.pyx:_estDensProfsBase"]}
{"id": "C97", "title": "Data handed in comes back", "statement": "Positions, masses and R200 returned by an object equal those handed in as physical quantities, for the objects passing the resolution cut and in their order, whatever the units at construction and at the time of the query; the same physical data in other input units gives the same object.", "quantifier": "all data and unit settings at construction and query", "why_tests_cant": "Two unit systems at two different times; tests use one.", "anchors": ["cosmic_profiles/shape_profs/shape_profs_classes.pyx:DensShapeProfs", "cosmic_profiles/dens_profs/dens_profs_classes.pyx:DensProfsBase.getXYZMasses", "cosmic_profiles/dens_profs/dens_profs_classes.pyx:DensProfsBase.getR200", "cosmic_profiles/dens_profs/dens_profs_classes.pyx:DensProfsBase.getIdxCat"]}
{"id": "C98", "title": "Ellipsoidal binning accounts for every particle once", "statement": "In ellipsoidal direct binning with outwards growing ellipsoids the shells' masses (density times volume) add up to the mass of the particles between the innermost and the outermost ellipsoid; the enclosed mass is the mass of the particles inside each ellipsoid and does not decrease outwards; empty bins are NaN; densities are not negative.", "quantifier": "all particle sets, semi-axes and axis directions", "why_tests_cant": "All particle sets and all sequences of ellipsoids, whose directions vary from bin to bin.", "anchors": ["cosmic_profiles/cython_helpers/helper_class.pyx:CythonHelpers.calcDensProfBruteForceEll", "cosmic_profiles/cython_helpers/helper_class.pyx:CythonHelpers.calcMenclsBruteForceEll"]}
{"id": "C99", "title": "MPI processes agree despite caching", "statement": "If several MPI processes run the same program, a function whose body exchanges data between all processes and whose results are cached never leaves some processes waiting for others, and every process gets the correct result of every call.", "quantifier": "all numbers of processes, call sequences, cache settings, memory available to each process at each moment, interleavings", "why_tests_cant": "Depends on the memory available on each node at the time of each call, and on the interleaving.", "anchors": ["cosmic_profiles/common/caching.py:lru_cache", "cosmic_profiles/common/caching.py:np_cache_factory", "cosmic_profiles/gadget/read_fof.py:getFoFSHData", "cosmic_profiles/gadget/gen_catalogues.pyx:calcObjCat"]}
{"id": "C100", "title": "Objects from snapshot files equal objects from arrays", "statement": "Making an object from Gadget snapshot and group files succeeds iff making it from arrays with the positions, masses, particle lists and R200 in those files succeeds, and both objects give the same answers; in particular masses and centres are those of the groups' particles in the files.", "quantifier": "all file contents, numbers of files, unit systems, object types, thresholds", "why_tests_cant": "End-to-end over file formats, group offsets, unit conversions; tests have one simulation.", "anchors": ["cosmic_profiles/shape_profs/shape_profs_classes.pyx:DensShapeProfsGadget", "cosmic_profiles/dens_profs/dens_profs_classes.pyx:DensProfsGadget", "cosmic_profiles/gadget/gen_catalogues.pyx:calcObjCat", "cosmic_profiles/gadget/readgadget.py:read_block", "cosmic_profiles/gadget/read_fof.py:getFoFSHData"]}
{"id": "C101", "title": "Objects from snapshot files can be made on every MPI process", "statement": "If several MPI processes make the same object from snapshot files, every process gets the object.", "quantifier": "all files, numbers of processes", "why_tests_cant": "Tests run on one process.", "anchors": ["cosmic_profiles/shape_profs/shape_profs_classes.pyx:DensShapeProfsGadget", "cosmic_profiles/dens_profs/dens_profs_classes.pyx:DensProfsGadget", "cosmic_profiles/gadget/gen_catalogues.pyx:calcObjCat"]}
{"id": "C102", "title": "An object made from files answers consistently", "statement": "Positions and masses returned by an object made from snapshot files are those its profiles are computed from, also if unit settings are changed after it was made.", "quantifier": "all files and unit settings at both times", "why_tests_cant": "Two unit systems at two different times.", "anchors": ["cosmic_profiles/shape_profs/shape_profs_classes.pyx:DensShapeProfsGadget.getXYZMasses", "cosmic_profiles/dens_profs/dens_profs_classes.pyx:DensProfsGadget.getXYZMasses"]}
{"id": "C103", "title": "Cache settings take effect", "statement": "After updateCachingMaxSize(n) with updateCachingMaxGBs(0) the caches of the package keep at most n results each; after updateCachingMaxGBs the new memory limit applies.", "quantifier": "all histories of settings and calls", "why_tests_cant": "Depends on the order of settings and calls in the whole history.", "anchors": ["cosmic_profiles/common/config.py:updateCachingMaxSize", "cosmic_profiles/common/config.py:updateCachingMaxGBs", "cosmic_profiles/common/caching.py:np_cache_factory", "cosmic_profiles/gadget/read_fof.py:getFoFSHData", "cosmic_profiles/gadget/gen_catalogues.pyx:calcObjCat"]}
{"id": "C104", "title": "Changing returned arrays does not change objects", "statement": "Whatever a user does to arrays they handed in or got from an object, all objects keep answering as before.", "quantifier": "all sessions with any number of objects made from arrays and files, units, cache evictions and changes of arrays", "why_tests_cant": "Sharing of arrays between objects, cache and user only shows after in-place changes; tests never change results.", "anchors": ["cosmic_profiles/dens_profs/dens_profs_classes.pyx:DensProfsBase.getIdxCat", "cosmic_profiles/dens_profs/dens_profs_classes.pyx:DensProfsBase.getXYZMasses", "cosmic_profiles/shape_profs/shape_profs_classes.pyx:DensShapeProfsGadget.getIdxCat", "cosmic_profiles/gadget/gen_catalogues.pyx:calcObjCat", "cosmic_profiles/common/caching.py:np_cache_factory"]}
{"id": "C105", "title": "Every outcome of the shape determination has its reason", "statement": "A shape is returned only if an iteration changed both axis ratios by no more than the relative tolerance, after fewer than IT_WALL iterations that did not, each with at least IT_MIN particles, and it consists of the principal axes and ratios of the particles in the last ellipsoid; NaN is returned only if IT_WALL iterations did not settle or one met fewer than IT_MIN particles; an exception is raised only if some iteration met particles in a plane through the centre, a particle at the centre (reduced tensor) or a shell whose inner boundary has a vanishing axis.", "quantifier": "all particle sets, settings with IT_TOL < 1, centres and numbers of iterations", "why_tests_cant": "The iteration is a fixed-point search over reals with data-dependent stopping.", "anchors": ["cosmic_profiles/shape_profs/shape_profs_algos.pyx:runShellAlgo", "cosmic_profiles/shape_profs/shape_profs_algos.pyx:runEllAlgo", "cosmic_profiles/shape_profs/shape_profs_algos.pyx:runEllVDispAlgo", "cosmic_profiles/shape_profs/shape_profs_algos.pyx:runShellVDispAlgo", "cosmic_profiles/cython_helpers/helper_class.pyx"]}
{"id": "C106", "title": "Shapes belong to the data handed in, from arrays to result", "statement": "For an object made from positions, masses, particle lists and R200, getShapeCatLocal and getShapeCatGlobal return one row per selected object in the order of the selection and one entry per radius, which is the shape (or NaN with its reason) of exactly the particles of that object around their mean position, d being the wanted length in output units; all components of the axes are numbers.", "quantifier": "all data, units, selections, settings and thread schedules", "why_tests_cant": "Composition of unit conversion, selection, unwrapping, centring, parallel iteration and output conversion.", "anchors": ["cosmic_profiles/shape_profs/shape_profs_classes.pyx:DensShapeProfs.getShapeCatLocal", "cosmic_profiles/shape_profs/shape_profs_classes.pyx:DensShapeProfs.getShapeCatGlobal", "cosmic_profiles/common/cosmic_base_class.pyx:CosmicBase._getShapeCatLocalBase", "cosmic_profiles/common/cosmic_base_class.pyx:CosmicBase._getShapeCatGlobalBase", "cosmic_profiles/shape_profs/shape_profs_algos.pyx:calcMorphLocal", "cosmic_profiles/shape_profs/shape_profs_algos.pyx:calcMorphGlobal"]}
{"id": "C107", "title": "Calls share a cached result only if their arguments are equal", "statement": "A cached function answers a call with the result of an earlier call only if positional arguments are equal one by one and keyword arguments are equal name by name (with typed=True: also of equal types), and always finds the result of such a call whatever the order of keywords; a function that respects equality therefore returns what it would have computed.", "quantifier": "all argument lists, keyword sets, orders and values", "why_tests_cant": "Key construction flattens arguments into one tuple with a marker and a fast path; collisions between shapes of calls are not enumerable.", "anchors": ["cosmic_profiles/common/caching.py:_make_key", "cosmic_profiles/common/caching.py:lru_cache"]}
{"id": "C108", "title": "A fit flagged as converged is a fit", "statement": "fitDensProfs returns one entry per object with the parameters of the chosen model under their names; is_conv is True exactly for objects whose parameters were successfully fitted to measured densities: then all parameters are numbers, otherwise all are NaN.", "quantifier": "all methods, profiles with any pattern of NaN, optimisers, units and selections", "why_tests_cant": "Needs profiles without data and optimisers which fail, which real test data do not contain.", "anchors": ["cosmic_profiles/dens_profs/dens_profs_classes.pyx:DensProfsBase.fitDensProfs", "cosmic_profiles/dens_profs/dens_profs_classes.pyx:DensProfsBase.estConcentrations", "cosmic_profiles/dens_profs/dens_profs_tools.py:fitDensProf", "cosmic_profiles/common/cosmic_base_class.pyx:CosmicBase._fitDensProfsBase"]}
{"id": "C109", "title": "Fits can be requested on every MPI process", "statement": "A call of fitDensProfs or estConcentrations that works on process 0 can be made with the same arguments on all processes, as the example scripts do: process 0 gets the results, the others None.", "quantifier": "all calls and process numbers", "why_tests_cant": "Tests run on one process.", "anchors": ["cosmic_profiles/dens_profs/dens_profs_classes.pyx:DensProfsBase.fitDensProfs", "cosmic_profiles/dens_profs/dens_profs_classes.pyx:DensProfsBase.estConcentrations", "cosmic_profiles/common/cosmic_base_class.pyx:CosmicBase._fitDensProfsBase", "cosmic_profiles/common/cosmic_base_class.pyx:CosmicBase._estConcentrationsBase"]}
{"id": "C110", "title": "Density plots show medians and their fits", "statement": "Every figure of plotDensProfs shows, at each radius, the median of the densities of its objects which have one, in output units, and as the fitted curve the model which is closest to these medians.", "quantifier": "all profiles, patterns of NaN, mass bins, units and optimisers", "why_tests_cant": "The contents of figures are not tested; NaN only in some profiles.", "anchors": ["cosmic_profiles/dens_profs/dens_profs_tools.py:drawDensProfs", "cosmic_profiles/common/cosmic_base_class.pyx:CosmicBase._plotDensProfsBase", "cosmic_profiles/dens_profs/dens_profs_classes.pyx:DensProfsBase.plotDensProfs"]}
{"id": "C111", "title": "Pictures of shapes show the shapes of the catalogue", "statement": "vizLocalShapes and vizGlobalShapes draw one picture per selected object: the particles of the object and their centre in output units, the ellipsoid of the outermost entry that getShapeCatLocal/Global returns for the object, around that centre, with its semi-axes in the legend, and arrows along the axes of that ellipsoid.", "quantifier": "all data, units, selections, settings and thread schedules", "why_tests_cant": "Contents of figures are not tested; composition of catalogue, unwrapping, recentring, rotation and units.", "anchors": ["cosmic_profiles/shape_profs/shape_profs_classes.pyx:DensShapeProfs.vizLocalShapes", "cosmic_profiles/shape_profs/shape_profs_classes.pyx:DensShapeProfs.vizGlobalShapes", "cosmic_profiles/common/python_routines.py:fibonacci_ellipsoid"]}
{"id": "C112", "title": "Ellipsoidal density profiles belong to the data handed in", "statement": "estDensProfs(spherical=False) of an object made from arrays returns, for each selected object and radius, the density of the particles of this object between two consecutive ellipsoids of its own shape profile, in output units.", "quantifier": "all data, units, selections, radii, shapes and thread schedules", "why_tests_cant": "All catalogues, shapes, radii and schedules; a test sees one catalogue.", "anchors": ["cosmic_profiles/dens_profs/dens_profs_classes.pyx:DensProfs.estDensProfs", "cosmic_profiles/common/cosmic_base_class.pyx:CosmicBase._estDensProfsBase", "cosmic_profiles/dens_profs/dens_profs_algos.pyx:calcDensProfsEllDirectBinning"]}
{"id": "C113", "title": "Kernel-based density profiles belong to the data handed in", "statement": "estDensProfs(direct_binning=False) of an object made from arrays returns, for each selected object and radius, the density of this object in output units, each of its particles replaced by a Gaussian cloud whose width grows with the square root of its distance from the centre, averaged over the sphere of that radius around the centre of the object; integrated over space this profile gives the mass of the object.", "quantifier": "all data, units, selections, positive radii and thread schedules", "why_tests_cant": "Integral over all radii; all particle configurations, unit systems and schedules.", "anchors": ["cosmic_profiles/dens_profs/dens_profs_classes.pyx:DensProfs.estDensProfs", "cosmic_profiles/common/cosmic_base_class.pyx:CosmicBase._getDensProfsKernelBasedBase", "cosmic_profiles/dens_profs/dens_profs_algos.pyx:calcDensProfsKernelBased", "cosmic_profiles/cython_helpers/helper_class.pyx:CythonHelpers.calcKTilde"]}
{"id": "C114", "title": "Rotating an object rotates its shape", "statement": "If all particles of an object and its centre are rotated or mirrored, getShapeCatLocal/Global and the velocity-dispersion variants give the same radii and axis ratios, or fail, or leave the object unclassified, exactly as before, and the ellipsoid is rotated along: its axes are the rotated axes up to sign when they have different lengths. Nor does the outcome depend on which eigenvalue routine is used.", "quantifier": "all objects, rotations and reflections, settings, numbers of iterations and eigenvalue routines", "why_tests_cant": "All rotations and all objects; tests use mock halos aligned with the axes.", "anchors": ["cosmic_profiles/shape_profs/shape_profs_algos.pyx:runShellAlgo", "cosmic_profiles/shape_profs/shape_profs_algos.pyx:runEllAlgo", "cosmic_profiles/shape_profs/shape_profs_algos.pyx:calcObjMorphLocal", "cosmic_profiles/shape_profs/shape_profs_algos.pyx:calcObjMorphGlobal", "cosmic_profiles/cython_helpers/helper_class.pyx:CythonHelpers.calcShapeTensor"]}
{"id": "C115", "title": "Virial overdensity", "statement": "getDelta(z, Omega_m, Omega_L) is the overdensity of virialised objects relative to the mean matter density at redshift z given by the fit of Bryan and Norman: 1 + Delta times the mean matter density is the fit times the critical density; it is at least 18 pi^2 - 1, with equality without cosmological constant, decreases with redshift otherwise, and tends to that value at high redshift.", "quantifier": "all redshifts, matter and dark-energy densities", "why_tests_cant": "Monotony and limits over real arguments.", "anchors": ["cosmic_profiles/common/python_routines.py:getDelta"]}
{"id": "C116", "title": "Particle masses make up the matter in the box", "statement": "getRhoCrit returns the critical density in solar masses/h per (Mpc/h)^3 to within a per cent, and N^3 particles of mass getMassDMParticle(N, L) make up the matter in a box of side L.", "quantifier": "all particle numbers, boxes and matter densities", "why_tests_cant": "All matter densities; the mass looks plausible for each.", "anchors": ["cosmic_profiles/common/python_routines.py:getRhoCrit", "cosmic_profiles/common/python_routines.py:getMassDMParticle"]}
{"id": "C117", "title": "Chi-square test of shape curves compares radius by radius", "statement": "chiSquareToIShapeCurve compares, at each ellipsoidal radius, the values of the two samples at that radius, each object entering once unless its value is NaN.", "quantifier": "all samples, patterns of NaN, numbers and ranges of radii", "why_tests_cant": "Values at the wrong radius still give a plausible statistic.", "anchors": ["cosmic_profiles/common/cosmo_tools.py:chiSquareToIShapeCurve", "cosmic_profiles/common/cosmo_tools.py:chiSquareToIMultiDim"]}
{"id": "C118", "title": "What an object answers does not depend on what it was asked before", "statement": "With an object made from Gadget files, every call (getR200, getIdxCat, getXYZMasses, getMassesCenters, estDensProfs, getShapeCat...) has the same result whatever calls were made before, in any order and with any changes of unit systems in between; only the unit systems in force at the time of the call matter.", "quantifier": "all sequences of calls and changes of units, all contents of the cache, all schedules", "why_tests_cant": "All histories of an object.", "anchors": ["cosmic_profiles/shape_profs/shape_profs_classes.pyx:DensShapeProfsGadget.getR200", "cosmic_profiles/shape_profs/shape_profs_classes.pyx:DensShapeProfsGadget.getIdxCat", "cosmic_profiles/dens_profs/dens_profs_classes.pyx:DensProfs.estDensProfs", "cosmic_profiles/gadget/read_fof.py:getFoFSHData"]}
{"id": "C119", "title": "Averages and error bands are made by the method asked for", "statement": "getShape and getShapeMs draw means with symmetric errors when asked for 'bootstrap' or 'SEM', medians when asked for 'median_quantile', refuse any other method, and do so for all objects as well as for the objects of one mass bin; nothing is drawn exactly where no object is classified.", "quantifier": "all catalogues, radii, groups, methods, resamplings", "why_tests_cant": "Values of all catalogues, and a branch which no plot of the tests exercises.", "anchors": ["cosmic_profiles/shape_profs/shape_profs_tools.py:getShape", "cosmic_profiles/shape_profs/shape_profs_tools.py:getShapeMs", "cosmic_profiles/common/cosmo_tools.py:getMeanOrMedianAndError"]}
{"id": "C120", "title": "Every picture has its own file", "statement": "Pictures of different content (curves of q, s and T, curves of mass bins, histograms, pictures of single objects, density profiles, of all catalogues of one snapshot) which are saved in the same folder do not overwrite each other.", "quantifier": "all sets of pictures, all orders of saving, all masses, object numbers, folders and snapshot names", "why_tests_cant": "Injectivity of names over all numbers and strings.", "anchors": ["cosmic_profiles/shape_profs/shape_profs_tools.py:getShapeProfs", "cosmic_profiles/shape_profs/shape_profs_tools.py:getGlobalEpsHist", "cosmic_profiles/shape_profs/shape_profs_tools.py:getLocalEpsHist", "cosmic_profiles/dens_profs/dens_profs_tools.py:drawDensProfs", "cosmic_profiles/shape_profs/shape_profs_classes.pyx:DensShapeProfs.vizLocalShapes"]}
{"id": "C121", "title": "Histograms are normalised and count every object once", "statement": "A histogram of triaxialities or ellipticities with HIST_NB_BINS bins has that many bars of equal width covering [0, 1]; every classified value in [0, 1] belongs to exactly one bar, the area of a bar is the fraction of the values it contains, and the areas sum to one.", "quantifier": "all numbers of bins, all lists of values with NaNs", "why_tests_cant": "Normalisation over all samples.", "anchors": ["cosmic_profiles/shape_profs/shape_profs_tools.py:getLocalTHist", "cosmic_profiles/shape_profs/shape_profs_tools.py:getGlobalTHist", "cosmic_profiles/shape_profs/shape_profs_tools.py:getGlobalEpsHist", "cosmic_profiles/shape_profs/shape_profs_tools.py:getLocalEpsHist"]}
{"id": "C122", "title": "Velocities of a snapshot come back in the outgoing unit", "statement": "If a snapshot (HDF5 or binary, one file or several) stores particles moving with velocities w (cm/s) in Gadget's convention (divided by the square root of the scale factor, in units of InUnitVelocity_in_cm_per_s), then getVelXYZ() of an object made from it returns w / OutUnitVelocity_in_cm_per_s for every particle of the type, in the order of the files, on process 0.", "quantifier": "all velocities, scale factors, units, numbers of files, byte orders, types", "why_tests_cant": "A chain of three conversions over all unit choices and file layouts.", "anchors": ["cosmic_profiles/shape_profs/shape_profs_classes.pyx:DensShapeProfsGadget.getVelXYZ", "cosmic_profiles/gadget/readgadget.py:read_block", "cosmic_profiles/gadget/readgadget.py:read_field"]}
{"id": "C123", "title": "Every block of a snapshot can be read", "statement": "If a binary snapshot (one file or several, either byte order) was written with one of the supported orders of blocks (plain, with cooling and star formation, Arepo, accelerations at the end), read_block with the options of that order returns for every block in it what was written about the type of particles asked for, or about all types one after another for type -1, in the order of the files; masses kept in the header count as written; a block which the snapshot does not have is an error.", "quantifier": "all contents, numbers of files, particles per type, orders of blocks, types, byte orders", "why_tests_cant": "Twenty-one blocks times five orders times all distributions of particles over types and files; a wrong block of the right size is read without any error.", "anchors": ["cosmic_profiles/gadget/readsnap.py:read_block", "cosmic_profiles/gadget/readsnap.py:find_block"]}
{"id": "C124", "title": "Unusable Gadget input is refused", "statement": "If there are no group files, no group file contains a group, no snapshot exists under any of the names which are tried, the type of particles is none of dm, stars and gas, or the definition of the radius is none of Rvir and R200, then no process gets an object from the Gadget classes: making it fails, whatever the rest of the input is.", "quantifier": "all other inputs, numbers of processes, configurations of units", "why_tests_cant": "The reasons meet arbitrary other contents and distributions of files over processes; a class which goes on with empty arrays instead would return an object without halos, which looks like a result.", "anchors": ["cosmic_profiles/shape_profs/shape_profs_classes.pyx:DensShapeProfsGadget.__init__", "cosmic_profiles/gadget/read_fof.py:getFoFSHData", "cosmic_profiles/gadget/read_fof.py:getPartType", "cosmic_profiles/gadget/readgadget.py:fname_format"]}
{"id": "C125", "title": "One centre per object", "statement": "The centre from which the shape of an object is measured is the one from which its density profile is measured and which getMassesCenters returns, for CENTER='com' and for CENTER='mode'; it depends neither on the names of the axes nor (shapes) on the unit of length.", "quantifier": "all objects, boxes, draws of reference particles, permutations of axes, positive scale factors", "why_tests_cant": "The two calls start the search for the mode differently; whether it ends at the same point depends on the whole sequence of shrinking spheres.", "anchors": ["cosmic_profiles/dens_profs/dens_profs_algos.pyx:calcMassesCenters", "cosmic_profiles/shape_profs/shape_profs_algos.pyx:calcMorphLocal", "cosmic_profiles/shape_profs/shape_profs_algos.pyx:calcMorphGlobal", "cosmic_profiles/common/python_routines.py:calcMode"]}
{"id": "C126", "title": "Round objects are reported as round", "statement": "If an object is, up to the order of its particles, the same after quarter turns about two axes through its centre, does not cross a face of the box and has enough particles within each radius, then getShapeCatLocal and getShapeCatGlobal (CENTER='com', both tensors, shells or ellipsoids) report convergence with both axis ratios equal to 1 at every radius.", "quantifier": "all such objects, any number of particles and masses, all iteration limits and tolerances below 1, all draws of reference particles", "why_tests_cant": "No finite set of particle sets settles it, and generated spheres are only approximately round.", "anchors": ["cosmic_profiles/shape_profs/shape_profs_algos.pyx:runEllAlgo", "cosmic_profiles/shape_profs/shape_profs_algos.pyx:runShellAlgo", "cosmic_profiles/shape_profs/shape_profs_classes.pyx:getShapeCatLocal", "cosmic_profiles/shape_profs/shape_profs_classes.pyx:getShapeCatGlobal"]}
{"id": "C127", "title": "Particle lists of the halo finder AHF are read completely", "statement": "The script apply_ahf.py hands to DensShapeProfs, for the first five halos (all if there are fewer), exactly the particles AHF lists for each of them, in order.", "quantifier": "all AHF files: any number of halos and of particles in each", "why_tests_cant": "An offset wrong by one line shifts all halos after the first one; the result still looks like particle lists.", "anchors": ["example_scripts/apply_ahf.py:AHF"]}
{"id": "C128", "title": "Three-dimensional pictures have equal scales and lose nothing", "statement": "After set_axes_equal the three axes of a picture have the same length, the centre is kept, all that was visible before is visible, no smaller picture would do, and a second call changes nothing.", "quantifier": "all axis limits, in either order", "why_tests_cant": "A statement about all real limits, including minimality.", "anchors": ["cosmic_profiles/common/python_routines.py:set_axes_equal"]}
{"id": "C129", "title": "Information on objects is right", "statement": "getObjInfo and getObjInfoGadget print the numbers of objects with enough particles, of groups, of groups with and without subhalos and of subhalos which the files contain; each message appears once, whatever the number of processes.", "quantifier": "all simulations in group files and snapshots, all numbers of processes", "why_tests_cant": "Tests do not read what is printed.", "anchors": ["cosmic_profiles/dens_profs/dens_profs_classes.pyx:getObjInfo", "cosmic_profiles/shape_profs/shape_profs_classes.pyx:getObjInfoGadget", "cosmic_profiles/common/cosmic_base_class.pyx:_getObjInfoBase", "cosmic_profiles/common/python_routines.py:print_status"]}
{"id": "C130", "title": "Unwrapping relative to the first particle gives periodic images", "statement": "cosmo_tools.respectPBC returns, for each particle, a periodic image of it which lies within half a box length of the first particle along every axis.", "quantifier": "all boxes and all particles in the box", "why_tests_cant": "For every single input the result looks plausible: it is near the first particle.", "anchors": ["cosmic_profiles/common/cosmo_tools.py:respectPBC"]}
{"id": "C131", "title": "Comparison of two samples is the Kolmogorov-Smirnov statistic", "statement": "KSTest gives NaN exactly for an empty sample and otherwise the largest difference between the two cumulative distributions; it lies in [0,1], is symmetric, depends neither on order nor on normalisation nor on increasing transformations, and is 0 exactly for equal distributions.", "quantifier": "all pairs of samples, all increasing transformations", "why_tests_cant": "The maximum is over all real numbers, whereas the program looks at the sample values only.", "anchors": ["cosmic_profiles/common/cosmo_tools.py:KSTest"]}
{"id": "C132", "title": "The format of the snapshot does not matter", "statement": "DensShapeProfsGadget made from a snapshot and group files is the DensShapeProfs made from the same positions, masses and radii as arrays (radii rounded to single precision), whether the snapshot is HDF5 or binary, in one file or in several, of either byte order; so objects made from two such snapshots of the same simulation are equal and give the same answers.", "quantifier": "all simulations, all divisions into files, both formats, all unit systems, numbers of processes and sizes of broadcast pieces", "why_tests_cant": "Tests have one snapshot in one format; equality for every content of the files is not testable.", "anchors": ["cosmic_profiles/shape_profs/shape_profs_classes.pyx:DensShapeProfsGadget", "cosmic_profiles/dens_profs/dens_profs_classes.pyx:DensProfsGadget", "cosmic_profiles/gadget/readgadget.py:read_block", "cosmic_profiles/gadget/readgadget.py:header", "cosmic_profiles/gadget/readsnap.py:read_block", "cosmic_profiles/gadget/readgadget.py:read_field"]}
{"id": "C133", "title": "Similar objects have the same shape", "statement": "Multiplying all lengths (positions, box, R200) of a simulation by one factor, all velocities by another and all masses by a third changes sizes by the first factor and masses by the third, but neither axis ratios nor axes in the shape catalogues (shapes and velocity dispersion shapes, local and global), nor which objects have no shape.", "quantifier": "all catalogues, all positive factors of lengths, all non-zero factors of velocities and masses, all settings, thread schedules and memory contents, all eigenvalue routines", "why_tests_cant": "A test can compare a few factors on one catalogue within a tolerance; equality for every factor and every number of iterations, including the decisions to stop, is not testable.", "anchors": ["cosmic_profiles/shape_profs/shape_profs_algos.pyx:calcMorphLocal", "cosmic_profiles/shape_profs/shape_profs_algos.pyx:calcMorphGlobal", "cosmic_profiles/shape_profs/shape_profs_algos.pyx:calcMorphLocalVelDisp", "cosmic_profiles/shape_profs/shape_profs_algos.pyx:calcMorphGlobalVelDisp", "cosmic_profiles/shape_profs/shape_profs_algos.pyx:runShellAlgo", "cosmic_profiles/shape_profs/shape_profs_algos.pyx:runEllAlgo"]}
{"id": "C134", "title": "Moving the simulation in its periodic box does not change results", "statement": "Two catalogues of the same objects, whose particles differ only by one common displacement followed by wrapping back into the periodic box, have the same masses, the same density profiles (direct and kernel-based) and the same shape catalogues, and their centres differ by that displacement up to multiples of the box length.", "quantifier": "all particle sets, displacements, catalogues, selections, units, centre definitions, thread schedules", "why_tests_cant": "A test moves one example by a few displacements; equality for every displacement, in particular where objects cross a face of the box, is not testable.", "anchors": ["cosmic_profiles/common/python_routines.py:respectPBCNoRef", "cosmic_profiles/common/python_routines.py:calcCoM", "cosmic_profiles/common/python_routines.py:calcMode", "cosmic_profiles/shape_profs/shape_profs_algos.pyx:calcMorphLocal", "cosmic_profiles/shape_profs/shape_profs_algos.pyx:calcMorphGlobal", "cosmic_profiles/dens_profs/dens_profs_algos.pyx:calcDensProfsSphDirectBinning", "cosmic_profiles/dens_profs/dens_profs_algos.pyx:calcDensProfsKernelBased"]}
{"id": "C135", "title": "Numbering and order of particles do not matter", "statement": "Numbering the particles of a simulation differently (with the index lists of the objects translated accordingly), listing the particles of an object in another order, or adding particles which belong to no object changes none of the results: masses, centres, density profiles (direct and kernel-based) and shape catalogues stay the same.", "quantifier": "all particle sets, renumberings, orders within objects, selections, units, centre definitions, random draws and thread schedules", "why_tests_cant": "There are factorially many orders; a test tries one or two, and objects at a face of the box, for which the order matters, are easily missed.", "anchors": ["cosmic_profiles/common/python_routines.py:respectPBCNoRef", "cosmic_profiles/cython_helpers/helper_class.pyx:CythonHelpers.respectPBCNoRef", "cosmic_profiles/common/python_routines.py:calcCoM", "cosmic_profiles/common/python_routines.py:calcMode", "cosmic_profiles/shape_profs/shape_profs_algos.pyx:calcMorphLocal", "cosmic_profiles/shape_profs/shape_profs_algos.pyx:calcMorphGlobal", "cosmic_profiles/dens_profs/dens_profs_algos.pyx:calcDensProfsSphDirectBinning", "cosmic_profiles/dens_profs/dens_profs_algos.pyx:calcDensProfsKernelBased"]}
{"id": "C136", "title": "Similar simulations have similar results", "statement": "If all positions, the box and the radii of the objects are multiplied by one factor f and all masses by another factor g, then centres are multiplied by f, masses by g, densities by g/f^3, the sizes of shapes by f, and axis ratios, axes and convergence flags stay the same.", "quantifier": "all particle sets, factors f, g > 0, selections, units, random draws, thread schedules and eigenvalue routines", "why_tests_cant": "A test would try one or two pairs of simulations; a constant with a hidden unit (such as a start radius) only matters at some scales.", "anchors": ["cosmic_profiles/common/python_routines.py:calcCoM", "cosmic_profiles/common/python_routines.py:calcMode", "cosmic_profiles/common/python_routines.py:respectPBCNoRef", "cosmic_profiles/cython_helpers/helper_class.pyx:CythonHelpers.respectPBCNoRef", "cosmic_profiles/shape_profs/shape_profs_algos.pyx:calcMorphLocal", "cosmic_profiles/dens_profs/dens_profs_algos.pyx:calcDensProfsSphDirectBinning", "cosmic_profiles/dens_profs/dens_profs_algos.pyx:calcDensProfsKernelBased"]}
{"id": "C137", "title": "Names of the axes do not matter", "statement": "If the coordinate axes of a simulation are exchanged (say, the first for the third), then masses, density profiles (direct and kernel-based), sizes and axis ratios stay the same, and centres and principal axes have their components exchanged accordingly.", "quantifier": "all particle sets, exchanges of axes, selections, units, centre definitions, random draws, thread schedules and eigenvalue routines", "why_tests_cant": "A mistake in one of three copies of the code for the three axes shows only for objects at one pair of faces of the box.", "anchors": ["cosmic_profiles/common/python_routines.py:calcCoM", "cosmic_profiles/common/python_routines.py:calcMode", "cosmic_profiles/common/python_routines.py:respectPBCNoRef", "cosmic_profiles/cython_helpers/helper_class.pyx:CythonHelpers.respectPBCNoRef", "cosmic_profiles/shape_profs/shape_profs_algos.pyx:calcMorphLocal", "cosmic_profiles/shape_profs/shape_profs_algos.pyx:calcMorphGlobal", "cosmic_profiles/dens_profs/dens_profs_algos.pyx:calcDensProfsSphDirectBinning", "cosmic_profiles/dens_profs/dens_profs_algos.pyx:calcDensProfsKernelBased"]}
{"id": "C138", "title": "Output units only change the numbers, not the quantities", "statement": "For any two choices of output units (same Hubble parameter), whatever a call returns with the one it can return with the other as the same lengths, masses and densities: positions, masses, radii, centres, sizes of shapes and density profiles (spherical, ellipsoidal, kernel-based). Axis ratios, axes, NaNs and errors stay the same.", "quantifier": "all objects and data, selections, pairs of output units, random draws, thread schedules and eigenvalue routines", "why_tests_cant": "A test compares a few values in the default units; an exponent or a factor applied to one of the many outputs only shows for other units.", "anchors": ["cosmic_profiles/common/cosmic_base_class.pyx:CosmicBase._getMassesCenters", "cosmic_profiles/common/cosmic_base_class.pyx:CosmicBase._estDensProfsBase", "cosmic_profiles/common/cosmic_base_class.pyx:CosmicBase.estDensProfs", "cosmic_profiles/dens_profs/dens_profs_classes.pyx:DensProfsBase.getXYZMasses", "cosmic_profiles/shape_profs/shape_profs_classes.pyx:DensShapeProfs.getShapeCatLocal", "cosmic_profiles/shape_profs/shape_profs_classes.pyx:DensShapeProfs.getShapeCatGlobal"]}
{"id": "C139", "title": "Data handed in comes back up to rounding", "statement": "With floating-point arithmetic, lengths and masses handed in and returned by the getters are the same quantities up to a relative error of 8 times the unit round-off, for any input and output units (with double precision and equal units: to 15 digits).", "quantifier": "all values, all pairs of unit systems with the same Hubble parameter, any floating-point format without overflow and underflow", "why_tests_cant": "Rounding errors depend on every single value; a test samples a few values.", "anchors": ["cosmic_profiles/shape_profs/shape_profs_classes.pyx:DensShapeProfs.__init__", "cosmic_profiles/dens_profs/dens_profs_classes.pyx:DensProfsBase.getXYZMasses", "cosmic_profiles/dens_profs/dens_profs_classes.pyx:DensProfsBase.getR200", "cosmic_profiles/common/config.py:getLMVInternal"]}
{"id": "C140", "title": "The unit converters keep double precision", "statement": "Converting lengths of double precision from input units to internal units and on to the same output units with the converters of config gives them back up to a few rounding errors of double precision.", "quantifier": "all values and unit systems", "why_tests_cant": "The error is too small to be seen in a test with a tolerance, and depends on the units.", "anchors": ["cosmic_profiles/common/config.py:LengthInToInternal", "cosmic_profiles/common/config.py:LengthInternalToOut"]}
{"id": "C141", "title": "Total masses are accurate to rounding", "statement": "With floating-point arithmetic, the mass returned for an object of n particles is the sum of the masses handed in up to a relative error of 2(n+4) unit round-offs; it is never smaller than the mass of one of its particles and adding a particle never lowers it.", "quantifier": "all lists of non-negative masses of any length, all unit systems, any floating-point format without overflow and underflow", "why_tests_cant": "Errors of sums grow with the number and depend on the values.", "anchors": ["cosmic_profiles/dens_profs/dens_profs_algos.pyx:calcMassesCenters", "cosmic_profiles/dens_profs/dens_profs_classes.pyx:DensProfsBase.getMassesCenters"]}
{"id": "C142", "title": "Centres of mass are accurate to rounding", "statement": "With floating-point arithmetic, each coordinate of the centre of mass of n particles is wrong by at most one rounding error of the coordinates plus a multiple of the extent of the object of about 8n unit round-offs, wherever in the box the object is, whichever particles are drawn as reference and in whatever order numpy adds.", "quantifier": "all particle sets, masses, draws and orders of summation, any floating-point format without overflow and underflow", "why_tests_cant": "The loss of digits for compact objects far from the origin, and the order of summation, are not under control of a test.", "anchors": ["cosmic_profiles/common/python_routines.py:calcCoM"]}
{"id": "C143", "title": "Density profiles are accurate to rounding", "statement": "With floating-point arithmetic, shells are bounded by the radii asked for times R200 up to rounding in double precision, every particle between the first and the last edge is counted in exactly one shell (the right one unless it is within a few rounding errors of an edge), and each entry is the mass in the shell divided by its volume up to rounding errors.", "quantifier": "all particle sets, sorted radii, R200 and centres, any floating-point format without overflow and underflow", "why_tests_cant": "Particles near an edge and shells of any number of particles; a test samples a few.", "anchors": ["cosmic_profiles/dens_profs/dens_profs_algos.pyx:calcDensProfsSphDirectBinning", "cosmic_profiles/cython_helpers/helper_class.pyx:CythonHelpers.calcDensProfBruteForceSph"]}
{"id": "C144", "title": "Centres are inside the box, with rounding", "statement": "With floating-point arithmetic, too, a coordinate of a centre which has left the box by less than a box length is brought back to at least 0 and less than the box length, by adding or subtracting one box length up to rounding; one in the box is kept bit for bit.", "quantifier": "all coordinates and box lengths, any floating-point format without overflow and underflow", "why_tests_cant": "Only coordinates within one rounding error of the border are critical.", "anchors": ["cosmic_profiles/common/python_routines.py:recentreObject", "cosmic_profiles/dens_profs/dens_profs_algos.pyx:calcMassesCenters"]}
{"id": "C145", "title": "Enclosed mass never decreases, with rounding", "statement": "With floating-point arithmetic, too, the enclosed mass of an object never decreases with the radius and is never more than the total mass returned for the object. Particles are counted as in exact arithmetic unless they are within a few rounding errors of the radius.", "quantifier": "all particle sets, centres, R200 and pairs of radii, any floating-point format without overflow and underflow", "why_tests_cant": "Sums of different numbers of terms are rounded differently; whether rounding can break the order is not seen from samples.", "anchors": ["cosmic_profiles/cython_helpers/helper_class.pyx:CythonHelpers.calcMenclsBruteForceSph"]}
{"id": "C146", "title": "Objects consist of the particles listed, however large the simulation", "statement": "Every object consists of exactly the particles listed for it in the catalogue, for simulations and catalogues of any size, or an error is raised.", "quantifier": "all numbers of particles and all catalogues", "why_tests_cant": "A catalogue with more than 2^31 entries, or a simulation with as many particles, does not fit into a test.", "anchors": ["cosmic_profiles/shape_profs/shape_profs_classes.pyx:DensShapeProfs.__init__", "cosmic_profiles/dens_profs/dens_profs_algos.pyx:calcMassesCenters"]}
{"id": "C147", "title": "A cached function returns the last value it computed", "statement": "Whatever a cached function depends on besides its arguments (files, the current units), a call either runs it and gives what it does now, or returns what it gave when it was last run with the same arguments since the cache was last cleared; a repeated call gives the same result as the call just before it unless caching is switched off.", "quantifier": "all functions (not only pure ones), all cache sizes and modes, all histories of calls and clears", "why_tests_cant": "The result depends on the whole history of calls, clears and evictions, and on hidden inputs of the function.", "anchors": ["cosmic_profiles/common/caching.py:lru_cache", "cosmic_profiles/gadget/read_fof.py:getFoFSHData"]}
{"id": "C148", "title": "Objects do not influence each other", "statement": "Shapes, density profiles (binned and kernel-based), masses and centres of an object depend on its own particles and R200 only: an object which occurs in two simulations in the same box has the same results in both, whatever other particles and objects there are and whatever else is selected. A call fails only if it fails for one of the selected objects alone, and an object which can be treated alone gets its result whatever else is selected.", "quantifier": "all pairs of simulations with a common object, all selections, all radii and settings", "why_tests_cant": "Other objects enter through shared arrays, offsets and common buffers; a test has a few objects.", "anchors": ["cosmic_profiles/shape_profs/shape_profs_classes.pyx:DensShapeProfs.getShapeCatLocal", "cosmic_profiles/dens_profs/dens_profs_classes.pyx:DensProfs.estDensProfs", "cosmic_profiles/dens_profs/dens_profs_classes.pyx:DensProfsBase.getMassesCenters", "cosmic_profiles/dens_profs/dens_profs_algos.pyx:calcDensProfsKernelBased"]}
{"id": "C149", "title": "Unlimited caches are safe with several threads", "statement": "Also for caches without a limit or of size zero, which take no lock, and any number of threads calling and clearing: every call that returns has the right value, no argument is stored twice, and whenever no call is under way cache_info() counts the calls that have returned since the last clear.", "quantifier": "all thread counts and all interleavings of single steps (loading and storing a counter are separate steps)", "why_tests_cant": "A lost update needs a thread switch between two particular bytecodes.", "anchors": ["cosmic_profiles/common/caching.py:lru_cache"]}
{"id": "C150", "title": "Point clouds without periodicity", "statement": "With L_BOX = 0 (not periodic) positions may be anywhere, also negative. Shapes, spherical and kernel-based density profiles and masses do not depend on where the point cloud is and centres move along with it; they equal the results in any periodic box that contains all particles and in which no selected object extends over more than half the box. Centres are mean positions weighted by mass of the particles of the object (of all of them with CENTER = 'com', of some of them with 'mode').", "quantifier": "all point clouds, displacements, boxes, selections, units and schedules", "why_tests_cant": "Tests use one periodic box; position zero, negative coordinates and the absence of a box are never compared.", "anchors": ["cosmic_profiles/dens_profs/dens_profs_algos.pyx:calcMassesCenters", "cosmic_profiles/dens_profs/dens_profs_classes.pyx:DensProfsBase", "cosmic_profiles/common/python_routines.py:respectPBCNoRef", "cosmic_profiles/cython_helpers/helper_class.pyx:respectPBCNoRef", "cosmic_profiles/common/python_routines.py:recentreObject"]}
{"id": "C151", "title": "Periodic unwrapping and rounding errors", "statement": "With floating-point rounding in every operation, the coordinates of an object that extends over less than half the box along every axis are used bit for bit as given, for centres (double precision, up to a margin of rounding-error size) and for shapes and density profiles (where box length and distances are kept in single precision). A coordinate in the box that is across a face from the reference is replaced by its periodic image up to one rounding, and ends up within half a box of the reference up to the rounding error of the box length. In an object of two particles given to the shape and profile routines, the second of which is clearly farther than half a box from the first along the first axis but not along the second, only the first coordinate is changed, to the single-precision box length minus the coordinate. With a box of length 0 nothing is moved.", "quantifier": "all positions, box lengths and rounding precisions; any order of summation for the reference", "why_tests_cant": "Comparisons with half a box length after rounding fail only for particular bit patterns.", "anchors": ["cosmic_profiles/common/python_routines.py:respectPBCNoRef", "cosmic_profiles/cython_helpers/helper_class.pyx:respectPBCNoRef", "cosmic_profiles/cython_helpers/helper_class.pyx:cython_abs"]}
{"id": "C152", "title": "Results depend on the distribution of mass, not on its sampling", "statement": "Two catalogues whose objects have the same mass at every place (for instance one where every particle is split into several particles of smaller mass at the same position) give the same masses, centres, density profiles (shells and kernels) and shapes, whatever the numbers of particles.", "quantifier": "all pairs of point clouds with equal distributions of mass, boxes, units, settings", "why_tests_cant": "Resolution studies compare noisy results; whether particle numbers leak into the algorithms does not show in them.", "anchors": ["cosmic_profiles/common/python_routines.py:respectPBCNoRef", "cosmic_profiles/common/python_routines.py:calcCoM", "cosmic_profiles/common/python_routines.py:calcMode", "cosmic_profiles/dens_profs/dens_profs_algos.pyx:calcDensProfBruteForceSph", "cosmic_profiles/dens_profs/dens_profs_algos.pyx:calcDensProfsKernelBased", "cosmic_profiles/shape_profs/shape_profs_algos.pyx:runEllAlgo", "cosmic_profiles/cython_helpers/helper_class.pyx:calcKTC"]}
{"id": "C153", "title": "Caches with a lock are safe between any two reads and writes", "statement": "However the interpreter switches threads between single reads and writes of the shared variables (links, dictionary, counters), and however deeply cached functions call themselves: every call of a function with a limited or memory-bound cache that ends with a value ends with the right one, none ends with a KeyError, cache_info reports exactly the numbers of calls that have ended with and without the cache since the last clear and a size within the limit; a thread holding the lock gives it back after a bounded number of steps, and nobody else is ever blocked.", "quantifier": "all schedules of any number of threads, depths of recursion, limits, failures of the user function, clears and infos", "why_tests_cant": "Races show for a few of the astronomically many schedules only.", "anchors": ["cosmic_profiles/common/caching.py:lru_cache"]}
{"id": "C154", "title": "Results at a radius depend only on the matter within that radius", "statement": "With CENTER = 'com', for objects crossing no face of their box: the shape of an object at a radius is determined by the radius and centre of mass of the object, its particles within that radius, and, for shell-based shapes, the next smaller radius requested; the density at a radius by the particles within the next larger radius; the shape of a whole object by the particles within its radius plus 6 Mpc/h. Particles farther out, other objects, the size of the box, the other radii requested, the selection and the random draws do not matter.", "quantifier": "all pairs of catalogues, selections, boxes, radii, settings, schedules of the parallel loops and random draws", "why_tests_cant": "Tests compare a few catalogues, and agreement of two outputs for a sample of outer particles says nothing about others.", "anchors": ["cosmic_profiles/shape_profs/shape_profs_algos.pyx:calcMorphLocal", "cosmic_profiles/shape_profs/shape_profs_algos.pyx:runEllAlgo", "cosmic_profiles/shape_profs/shape_profs_algos.pyx:runShellAlgo", "cosmic_profiles/dens_profs/dens_profs_algos.pyx:calcDensProfsSphDirectBinning"]}
{"id": "C155", "title": "The motion of the observer does not change velocity shapes", "statement": "Adding one and the same velocity to the velocities of all particles of an object (for each object another one) changes neither masses nor velocity-dispersion shapes of whole objects, for all schedules of the parallel loop, thread numbers and previous contents of the work arrays.", "quantifier": "all objects with positive masses, added velocities, settings and schedules", "why_tests_cant": "Tests would try a few velocities; equality for all velocities and exact equality of the outcomes (also exceptions) is an algebraic fact about the whole iteration.", "anchors": ["cosmic_profiles/shape_profs/shape_profs_algos.pyx:calcMorphGlobalVelDisp", "cosmic_profiles/shape_profs/shape_profs_algos.pyx:runEllVDispAlgo"]}
{"id": "C156", "title": "The accuracy of the total mass does not matter for shapes", "statement": "The total mass by which a shape tensor is divided is added up in single precision, so that for very many particles it is arbitrarily wrong. Size, axis ratios, ellipsoid, number of iterations and failure are nevertheless those obtained with the exact total mass; they would be for any positive total mass, another one in each iteration.", "quantifier": "all objects with positive masses, roundings, numbers of iterations, radii and variants of the algorithm", "why_tests_cant": "The effect would show only for millions of particles; that there is none needs an argument about all iterations and all eigenvalue routines.", "anchors": ["cosmic_profiles/cython_helpers/helper_class.pyx:calcShapeTensor", "cosmic_profiles/shape_profs/shape_profs_algos.pyx:runShellAlgo", "cosmic_profiles/shape_profs/shape_profs_algos.pyx:runEllAlgo"]}
{"id": "C157", "title": "Mean velocities are accurate", "statement": "The mean velocity of an object, around which its velocity dispersion tensor is taken, is accurate up to rounding for any number of particles.", "quantifier": "all objects, numbers of particles and velocities", "why_tests_cant": "The error appears only with more than 16777216 particles; tests use a few.", "anchors": ["cosmic_profiles/cython_helpers/helper_class.pyx:calcCoM", "cosmic_profiles/shape_profs/shape_profs_algos.pyx:calcMorphGlobalVelDisp"]}
{"id": "C158", "title": "The mode of an object is at its dominating clump", "statement": "With CENTER = 'mode' the centre of an object is found by shrinking spheres: again and again only particles within a radius of the centre of mass of those left are kept, and the radius is reduced by 17 per cent, until fewer than five particles would be kept. Therefore, if at least five particles with at least three quarters of the mass of an object lie within a distance eps of a point, the centre returned lies within 32/3 eps of that point, wherever the other particles are (up to 2000 Mpc/h away), unlike the centre of mass.", "quantifier": "all objects, masses, positions, clumps, recursion limits and units; without periodicity or in a box with enough room", "why_tests_cant": "The result of a recursion of unknown depth, for all possible surroundings of a clump.", "anchors": ["cosmic_profiles/common/python_routines.py:calcMode", "cosmic_profiles/dens_profs/dens_profs_algos.pyx:calcMassesCenters", "cosmic_profiles/shape_profs/shape_profs_algos.pyx:calcLocalShapes"]}
{"id": "C159", "title": "The flag is_conv tells shapes from gaps", "statement": "In a shape catalogue an entry with is_conv True is a shape: its radius is the one asked for, the axis ratios satisfy 0 < s <= q <= 1, the axes are orthonormal, and no number in it is NaN; an entry with is_conv False contains nothing but NaN. Filtering by the flag, as the documentation advises, therefore removes all NaN and nothing else.", "quantifier": "all objects (also those crossing the boundary of the box), radii, settings, units, selections and schedules", "why_tests_cant": "All inputs; NaN occur for several unrelated reasons.", "anchors": ["cosmic_profiles/shape_profs/shape_profs_classes.pyx:getShapeCatLocal", "cosmic_profiles/shape_profs/shape_profs_classes.pyx:getShapeCatGlobal", "cosmic_profiles/shape_profs/shape_profs_algos.pyx:calcMorphLocal", "cosmic_profiles/shape_profs/shape_profs_algos.pyx:calcMorphGlobal"]}
{"id": "C160", "title": "The global shape is that of the second moments", "statement": "If all particles of an object are well inside the ellipsoid whose size is prescribed (which for global shapes exceeds R200 by 6 Mpc/h), its shape with weights 1 is exactly that of the tensor of the second moments of all its particles about the centre of mass: ratios of root-mean-square extents along the principal axes, and these axes. In particular a round object stretched by given factors has exactly their ratios as axis ratios.", "quantifier": "all objects, masses, positions, units, settings with at least two iterations, schedules and eigenvalue routines", "why_tests_cant": "An iterative algorithm has to be followed for all inputs.", "anchors": ["cosmic_profiles/shape_profs/shape_profs_classes.pyx:getShapeCatGlobal", "cosmic_profiles/shape_profs/shape_profs_classes.pyx:getShapeCatLocal", "cosmic_profiles/shape_profs/shape_profs_algos.pyx:runEllAlgo"]}
{"id": "C161", "title": "Global velocity shapes are those of the velocity dispersion tensor", "statement": "If all particles of an object are well inside the ellipsoid whose size is prescribed, its global velocity dispersion shape with weights 1 is exactly that of the dispersion tensor of the velocities of all its particles about their mass-weighted mean: ratios of the dispersions along the principal axes of that tensor, and these axes, however the particles are arranged in space.", "quantifier": "all objects, masses, positions, velocities, settings with at least two iterations, schedules and eigenvalue routines", "why_tests_cant": "An iterative algorithm has to be followed for all inputs; the selection of particles uses ellipsoids in space whose axes come from velocities.", "anchors": ["cosmic_profiles/shape_profs/shape_profs_algos.pyx:calcMorphGlobalVelDisp", "cosmic_profiles/shape_profs/shape_profs_algos.pyx:runEllVDispAlgo"]}
{"id": "C162", "title": "Mock halos follow the density model at every surface", "statement": "Within every shell surface of a generated halo the mass of the particles is the mass of the density model up to the semi-major axis of that surface, with an error of at most half a particle mass for every shell inside the surface and, in proportion to the enclosed fraction of the mass, half a particle mass for every shell; all particles together have the mass requested.", "quantifier": "all profiles, parameters, strictly increasing semi-axes, masses, resolutions and random numbers", "why_tests_cant": "Statement about positions for all random numbers.", "anchors": ["cosmic_profiles/mock_tools/mock_halo_gen.py:genHalo", "cosmic_profiles/common/python_routines.py:drawUniformFromShell"]}
{"id": "C163", "title": "Points said to be drawn uniformly are uniform in volume", "statement": "Points drawn from an ellipsoid (drawUniformFromEllipsoid) and from shells (drawUniformFromShell, used for the particles of mock halos) are distributed uniformly in the volume, as both functions are documented: the chance to be in a part of it is the fraction of the volume.", "quantifier": "all semi-axes, shells, directions and radii", "why_tests_cant": "Distributions are invisible in single draws; tests of samples are statistical.", "anchors": ["cosmic_profiles/common/python_routines.py:drawUniformFromShell", "cosmic_profiles/common/python_routines.py:drawUniformFromEllipsoid", "cosmic_profiles/mock_tools/mock_halo_gen.py:genHalo"]}
{"id": "C164", "title": "Generating mock halos leaves the arguments alone", "statement": "genHalo does not change the dictionary of model parameters it is given, and the halo depends only on the documented parameters of the model, not on what earlier calls with the same dictionary left behind.", "quantifier": "all dictionaries, models, masses, resolutions, shells and sequences of calls", "why_tests_cant": "Sequences of calls sharing a dictionary are unbounded; a test sees the result of one call, not the side effect on its arguments.", "anchors": ["cosmic_profiles/mock_tools/mock_halo_gen.py:genHalo"]}
{"id": "C165", "title": "The true shape is a fixed point of the shape iteration", "statement": "For an object made of similar ellipsoidal surfaces (a stretched round object, with any profile) the true axis ratios and axes are a fixed point of the iteration, for ellipsoids and for shells, with both kinds of weights: if the iteration comes to the true ellipsoid, the true shape is reported. In particular the assumption stated in the code without proof, that eigenvalues of the shape tensor are proportional to the squared semi-axes for such bodies, holds.", "quantifier": "all stretching factors, axes, profiles, numbers of particles, tolerances and eigenvalue routines", "why_tests_cant": "The code itself says that no proof is known; a test sees single particle samples and cannot tell bias from noise.", "anchors": ["cosmic_profiles/shape_profs/shape_profs_algos.pyx:runEllAlgo", "cosmic_profiles/shape_profs/shape_profs_algos.pyx:runShellAlgo", "cosmic_profiles/cython_helpers/helper_class.pyx:calcShapeTensor"]}
{"id": "C166", "title": "Shells have the thickness asked for and cover the object", "statement": "Shell-based shapes at a radius use particles inside the ellipsoid of that radius which are nowhere deeper below its surface than the difference to the next smaller radius, and all particles between the ellipsoids of the two radii; the innermost shell is the whole ellipsoid, treated exactly as by the ellipsoid-based algorithm; so the shells of one shape together cover the ellipsoid of the largest radius.", "quantifier": "all shapes, radii, particles", "why_tests_cant": "The inner boundary is one inequality in the code; which particles it drops depends on shape and spacing of the radii, and tests use many closely spaced radii.", "anchors": ["cosmic_profiles/shape_profs/shape_profs_algos.pyx:runShellAlgo", "cosmic_profiles/shape_profs/shape_profs_algos.pyx:runShellVDispAlgo", "cosmic_profiles/shape_profs/shape_profs_algos.pyx:calcObjMorphLocal"]}
{"id": "C167", "title": "The reduced shape tensor counts directions, not distances", "statement": "With REDUCED=True (ellipsoid-based shapes of positions) the outcome does not depend on how far particles are from the centre: each particle may be moved along its line of sight from the centre, by its own factor, without any change of shape, NaN or exception, as long as it stays inside the same ellipsoids of the iteration.", "quantifier": "all particles, factors, tolerances, eigenvalue routines and numbers of iterations", "why_tests_cant": "A statement about pairs of objects and all intermediate ellipsoids; the weights change in every iteration.", "anchors": ["cosmic_profiles/cython_helpers/helper_class.pyx:calcShapeTensor", "cosmic_profiles/shape_profs/shape_profs_algos.pyx:runEllAlgo"]}
{"id": "C168", "title": "Points can be drawn in two dimensions, as documented", "statement": "drawUniformFromEllipsoid and drawUniformFromShell work for dims=2, 'in which case c remains None', and for dims=3: the number of points asked for is returned, each with dims coordinates, in the ellipse or ellipsoid, and uniform in area or volume.", "quantifier": "all semi-axes, numbers of points, shells and random numbers", "why_tests_cant": "Uniformity is a statement about a measure; that no argument makes the two-dimensional shell work is a statement about all arguments.", "anchors": ["cosmic_profiles/common/python_routines.py:drawUniformFromEllipsoid", "cosmic_profiles/common/python_routines.py:drawUniformFromShell"]}
{"id": "C169", "title": "Axis ratios and axes are accurate to rounding", "statement": "The axis ratios computed from the particles selected in an iteration agree with the exact ones to double precision: with n particles the squares of q and s are wrong by at most 72 (n+8) rounding errors of double precision (plus the error of the eigenvalue routine), although the total mass is kept in single precision; they are numbers if the object is not flatter than this, and the moments along the reported major and minor axes are the largest and smallest ones up to the same error. Reduced tensor included.", "quantifier": "all sets of particles (n up to 10^14 in double precision), roundings, backward stable eigenvalue routines", "why_tests_cant": "Error bounds over all inputs; the single-precision total mass is arbitrarily wrong for very many particles, so that tests which compare tensors would fail.", "anchors": ["cosmic_profiles/cython_helpers/helper_class.pyx:calcShapeTensor", "cosmic_profiles/shape_profs/shape_profs_algos.pyx:runEllAlgo", "cosmic_profiles/shape_profs/shape_profs_algos.pyx:runShellAlgo"]}
{"id": "C170", "title": "Global shapes are accurate to rounding", "statement": "With floating-point rounding in every operation of the iteration and the total mass kept in single precision, the global shape (weights 1) of an object whose particles are all within half of c/a times the prescribed size of the given centre is found after at most two iterations. It is never NaN; the squares of the axis ratios agree with the exact ones of all particles (positions, or velocities for velocity shapes) up to 72 (n+8) rounding errors of double precision, plus the error of the eigenvalue routine; the axes are unit vectors up to 20 rounding errors, and the moments along the major and the minor axis are the largest and the smallest up to twice that error.", "quantifier": "all objects, masses, positions, velocities, centres, sizes, tolerances below 1, roundings and backward stable eigenvalue routines", "why_tests_cant": "The selection of particles is discontinuous in the computed ratios; an error bound over all inputs.", "anchors": ["cosmic_profiles/shape_profs/shape_profs_algos.pyx:runEllAlgo", "cosmic_profiles/shape_profs/shape_profs_algos.pyx:runEllVDispAlgo", "cosmic_profiles/cython_helpers/helper_class.pyx:calcShapeTensor"]}
{"id": "C171", "title": "Global shapes about computed centres are accurate to rounding", "statement": "With floating-point rounding in every operation, including the computation of the centre of mass (or of the mean velocity), the global shape (weights 1) of an object contained as a whole is that of its exact second moments about its exact mean: the squares of the axis ratios are wrong by at most 72 (n+8) rounding errors of double precision plus 36 times the square of the error of the centre in units of the extent along the major axis, so that the error of the centre hardly matters for objects far from the origin; the moments along the reported major and minor axes are the largest and the smallest up to such errors. For velocities the error of the mean is one of single precision relative to the largest velocity.", "quantifier": "all objects, masses, positions, velocities, particles drawn, orders of summation, sizes, tolerances below 1, roundings and backward stable eigenvalue routines", "why_tests_cant": "An error bound over all inputs, with the position in the box as a parameter.", "anchors": ["cosmic_profiles/shape_profs/shape_profs_algos.pyx:runEllAlgo", "cosmic_profiles/shape_profs/shape_profs_algos.pyx:runEllVDispAlgo", "cosmic_profiles/common/python_routines.py:calcCoM", "cosmic_profiles/cython_helpers/helper_class.pyx:calcCoM", "cosmic_profiles/cython_helpers/helper_class.pyx:calcShapeTensor"]}
{"id": "C172", "title": "Global shapes tolerate inexact coordinates", "statement": "If coordinates (or velocities) are only known up to some error, for example because snapshots store them in single precision, the global shape (weights 1) of an object contained as a whole is still that of the exact particles: beyond the errors of rounding, the squares of the axis ratios are wrong by at most 36 times the error in units of the extent along the major axis, and the moments along the reported axes by a corresponding amount.", "quantifier": "all objects, errors small compared with the square of c/a, masses, sizes, particles drawn, roundings and backward stable eigenvalue routines", "why_tests_cant": "A perturbation bound over all inputs and all errors of the inputs.", "anchors": ["cosmic_profiles/shape_profs/shape_profs_algos.pyx:runEllAlgo", "cosmic_profiles/shape_profs/shape_profs_algos.pyx:runEllVDispAlgo", "cosmic_profiles/common/python_routines.py:calcCoM", "cosmic_profiles/cython_helpers/helper_class.pyx:calcShapeTensor"]}
{"id": "C173", "title": "Points drawn from an ellipsoid are independent and uniform", "statement": "For independent normal and uniform numbers of the generator, the points returned by drawUniformFromEllipsoid are independent of each other and uniform in the ellipsoid (in the ellipse for dims=2 and an entry None of c): the probability that they lie in given regions, point by point, is the product of the parts of the volume of the ellipsoid, 4/3 pi a b c (area pi a b), which these regions take up.", "quantifier": "all semi-axes, numbers of points and measurable regions", "why_tests_cant": "A statement about probabilities of all regions; tests see samples.", "anchors": ["cosmic_profiles/common/python_routines.py:drawUniformFromEllipsoid"]}
{"id": "C174", "title": "Particles of mock halos have the prescribed shape on average", "statement": "A particle of a mock halo's shell is placed on a surface chosen uniformly between the two surfaces bounding the shell, in an isotropic direction before stretching; between spheres distance and direction are independent, the former uniform, the latter isotropic. Hence the expected shape tensor of a particle is diagonal, with (r^2 + rR + R^2)/9 for the semi-axes r, R of the two surfaces (a^2/5 for points drawn from an ellipsoid), its expected position is the centre, and for similar shells the roots of the ratios of its entries are the prescribed axis ratios.", "quantifier": "all shells, semi-axes, particles and measurable regions", "why_tests_cant": "Expectations and probabilities over all random numbers; tests see samples.", "anchors": ["cosmic_profiles/common/python_routines.py:drawUniformFromShell", "cosmic_profiles/common/python_routines.py:drawUniformFromEllipsoid", "cosmic_profiles/mock_tools/mock_halo_gen.py:genHalo"]}
{"id": "C175", "title": "Mock halos are reproducible realisations", "statement": "Calling genHalo, drawUniformFromShell or drawUniformFromEllipsoid gives particles which are reproducible (independent of the number of processes), but different realisations can be obtained by np.random.seed, different halos are made of different random numbers, and the caller's generator is advanced, not reset.", "quantifier": "all random generators and their states, semi-axes, numbers of particles and schedules of the worker processes", "why_tests_cant": "Quantifies over all states of the generator and all pairs of halos.", "anchors": ["cosmic_profiles/common/python_routines.py:drawUniformFromShell", "cosmic_profiles/common/python_routines.py:drawUniformFromEllipsoid", "cosmic_profiles/mock_tools/mock_halo_gen.py:genHalo"]}
{"id": "C176", "title": "Shapes of large mock halos are recovered", "statement": "For independent random numbers, almost surely: as the number of points drawn from an ellipsoid grows, the global shape found for them (centre of mass, equal masses, an initial sphere which contains the ellipsoid) approaches the axis ratios and axes of the ellipsoid. Likewise for mock halos whose shells all have the same axis ratios, whatever the distances of the shells and their shares of the particles.", "quantifier": "all ellipsoids, shells, sequences of particle numbers, tolerances below 1, limits of iterations from 2, masses, eigensolvers", "why_tests_cant": "A statement about limits over almost all sequences of random numbers; tests see samples of given size.", "anchors": ["cosmic_profiles/mock_tools/mock_halo_gen.py:genHalo", "cosmic_profiles/common/python_routines.py:drawUniformFromEllipsoid", "cosmic_profiles/common/python_routines.py:drawUniformFromShell", "cosmic_profiles/shape_profs/shape_profs_algos.pyx:runEllAlgo"]}
{"id": "C177", "title": "Rounding errors do not accumulate over the iterations of a local shape", "statement": "For the unreduced tensor and ellipsoids (not shells), positions or velocities: if with exact arithmetic no particle comes to lie at the edge of an ellipsoid of the iteration, no change of the axis ratios comes close to the tolerance and no ellipsoid is extremely flat, then the computed run makes the same decisions. It reports a shape exactly when exact arithmetic does, after the same number of iterations. The squares of the axis ratios are right up to 72 (n + 8) unit roundoffs, n particles, plus 15 times the error of the eigensolver, however many iterations there were; the axes are unit vectors along which the extent is largest and smallest, up to the same error.", "quantifier": "all particles, masses, centres, sizes, tolerances below 1, limits of iterations, arithmetics of given precision, eigensolvers", "why_tests_cant": "A statement about all sets of particles and all arithmetics with a given precision; tests compare with a tolerance on a few sets, where errors over many iterations are not seen.", "anchors": ["cosmic_profiles/shape_profs/shape_profs_algos.pyx:runEllAlgo", "cosmic_profiles/shape_profs/shape_profs_algos.pyx:runEllVDispAlgo", "cosmic_profiles/cython_helpers/helper_class.pyx:calcShapeTensor"]}
{"id": "C178", "title": "Density profiles of mock halos are those of the model", "statement": "The density profile estimated of a mock halo with spherical shells, in spherical bins about its centre, tends to the mean density of the chosen model in every bin as the number of particles grows, with probability one.", "quantifier": "all density models and parameters, shells, masses, bins, growing numbers of particles, directions of the particles", "why_tests_cant": "A limit for infinitely many particles, and a statement about almost all random numbers; tests draw one halo with a fixed seed.", "anchors": ["cosmic_profiles/mock_tools/mock_halo_gen.py:genHalo", "cosmic_profiles/common/python_routines.py:drawUniformFromShell", "cosmic_profiles/cython_helpers/helper_class.pyx:calcDensProfBruteForceSph"]}
{"id": "C179", "title": "Rounding does not decide whether a local shape is found", "statement": "At every radius a local shape computed in double precision is reported exactly if exact arithmetic on the same numbers reports one; otherwise both leave a gap.", "quantifier": "all particle coordinates and masses, centres, radii, tolerances, limits of iterations and of particle numbers, all roundings", "why_tests_cant": "The outcome depends on comparisons of rounded numbers; a test sees only the rounded run.", "anchors": ["cosmic_profiles/shape_profs/shape_profs_algos.pyx:runEllAlgo", "cosmic_profiles/shape_profs/shape_profs_algos.pyx:runEllVDispAlgo"]}
{"id": "C180", "title": "Local shapes are stable under small changes of the data", "statement": "If the coordinates, velocities and masses of the particles, the centre or the radius change a little, the local shape reported changes only a little, and it is found or left as a gap as before.", "quantifier": "all particle data, centres, radii, tolerances, limits, reduced or not; all ways in which data approach the given data", "why_tests_cant": "A test compares finitely many perturbations; stability is a statement about all sufficiently small ones, and fails only on a set of data of measure zero.", "anchors": ["cosmic_profiles/shape_profs/shape_profs_algos.pyx:runEllAlgo", "cosmic_profiles/shape_profs/shape_profs_algos.pyx:runEllVDispAlgo"]}
{"id": "C181", "title": "Density profiles are stable under small changes of the data", "statement": "If positions and masses of the particles of an object, its centre or its R200 change a little, its density profile (binned or kernel-based) and its enclosed masses change only a little.", "quantifier": "all objects, centres, sizes, radii; all ways in which data approach the given data", "why_tests_cant": "A test compares finitely many perturbations; stability is a statement about all sufficiently small ones.", "anchors": ["cosmic_profiles/cython_helpers/helper_class.pyx:calcDensProfBruteForceSph", "cosmic_profiles/cython_helpers/helper_class.pyx:calcMenclsBruteForceSph", "cosmic_profiles/dens_profs/dens_profs_algos.pyx:calcDensProfsKernelBased"]}
{"id": "C182", "title": "With sufficiently precise arithmetic, local shapes are those of exact arithmetic", "statement": "Unless a decision of the iteration is on a knife's edge (a particle exactly on the surface of an ellipsoid or shell, a change of a ratio exactly equal to the tolerance), local shape profiles computed with sufficiently many digits have gaps at the same radii, and ratios and ellipsoids as close as one likes to those of exact arithmetic: ellipsoid-based and shell-based, plain and reduced tensor.", "quantifier": "all sets of particles, centres, radii, thicknesses, settings; all arithmetics of sufficient precision, all sufficiently stable eigensolvers; any required accuracy", "why_tests_cant": "A test runs with one precision and cannot compare with exact arithmetic; that errors vanish with growing precision through all iterations is a statement about infinitely many arithmetics.", "anchors": ["cosmic_profiles/shape_profs/shape_profs_algos.pyx:runShellAlgo", "cosmic_profiles/shape_profs/shape_profs_algos.pyx:runEllAlgo", "cosmic_profiles/shape_profs/shape_profs_algos.pyx:runShellVDispAlgo", "cosmic_profiles/shape_profs/shape_profs_algos.pyx:runEllVDispAlgo"]}
{"id": "C183", "title": "Shape catalogues depend continuously on the arrays handed in, unless a decision is on a knife's edge", "statement": "Let the positions, masses and R200 handed in approach those of a catalogue (same particles, same members). If no selected object crosses a face or extends over half the box, none has all its particles at one position (or, with the reduced tensor, one exactly at the centre), and no decision of an iteration is on a knife's edge (a particle exactly on the surface of an ellipsoid or shell, a change of a ratio exactly equal to the tolerance), then the shape catalogues (local or global, ellipsoid- or shell-based; for CENTER='mode' no particle exactly on a sphere of the search for the mode) eventually all exist, have NaN in the same places, and radii, ratios and ellipsoids approach those of the catalogue.", "quantifier": "all arrays, objects, R200, units, settings, selections, schedules of the parallel loops; all sequences (filters) of arrays approaching them; any required accuracy", "why_tests_cant": "A test compares two nearby inputs; continuity at an input is a statement about all inputs near it, through centring, unwrapping, units, parallel loops and iterations of every object.", "anchors": ["cosmic_profiles/shape_profs/shape_profs_classes.pyx:DensShapeProfs.getShapeCatLocal", "cosmic_profiles/shape_profs/shape_profs_classes.pyx:DensShapeProfs.getShapeCatGlobal", "cosmic_profiles/shape_profs/shape_profs_algos.pyx:runShellAlgo", "cosmic_profiles/shape_profs/shape_profs_algos.pyx:runEllAlgo"]}
{"id": "C184", "title": "Density profiles depend continuously on the arrays handed in, unless a particle is exactly on an edge", "statement": "Let the positions, masses and R200 handed in approach those of an object catalogue (same particles, same members). If no selected object crosses a face or extends over half the box (for CENTER='mode': and none has a particle exactly on a sphere of the search for the mode), the tables of kernel-based density profiles eventually all exist and approach the one of the catalogue; so do those of directly binned profiles, if moreover no particle is exactly on an edge of the bins.", "quantifier": "all arrays, objects, R200, units, radii, selections, schedules of the parallel loops; all sequences (filters) of arrays approaching them; any required accuracy", "why_tests_cant": "A test compares two nearby inputs; continuity at an input is a statement about all inputs near it, through centring, unwrapping, units and parallel loops.", "anchors": ["cosmic_profiles/dens_profs/dens_profs_classes.pyx:DensProfs.estDensProfs", "cosmic_profiles/dens_profs/dens_profs_algos.pyx:calcDensProfsKernelBased", "cosmic_profiles/cython_helpers/helper_class.pyx:CythonHelpers.calcDensProfBruteForceSph"]}
{"id": "C185", "title": "Centres and masses depend continuously on the arrays handed in, unless a particle is exactly on a sphere of the search for the mode", "statement": "Let the positions, masses and R200 handed in approach those of an object catalogue (same particles, same members). If no selected object crosses a face or extends over half the box, the tables of centres and masses of getMassesCenters eventually all exist and approach the one of the catalogue, for CENTER='com' and for CENTER='mode'.", "quantifier": "all arrays, objects, R200, units, selections, schedules of the parallel loops; all sequences (filters) of arrays approaching them; any required accuracy", "why_tests_cant": "The search for the mode drops particles outside shrinking spheres, a discontinuous step repeated a data-dependent number of times; a test compares two nearby inputs, not all inputs near a given one.", "anchors": ["cosmic_profiles/dens_profs/dens_profs_classes.pyx:DensProfsBase.getMassesCenters", "cosmic_profiles/dens_profs/dens_profs_algos.pyx:calcMassesCenters", "cosmic_profiles/common/python_routines.py:calcMode"]}
{"id": "C186", "title": "Masses, centres and density profiles agree with each other", "statement": "If getMassesCenters returns centres and masses for a selection of objects which cross no face, estDensProfs returns profiles for the same selection; the density at each radius is the mass in its shell around the centre returned divided by the volume of the shell, and the masses of all shells add up to at most the mass returned, and to exactly this mass if and only if all particles are between the innermost and the outermost edge. With direct_binning=False (unless a particle is exactly at the centre returned) the profile is the smoothed density around the centre returned, and integrates to the mass returned. Two binned profiles of one object which reach equally far contain the same mass, whatever the bins.", "quantifier": "all arrays, objects, R200, radii, selections, schedules of the parallel loops, CENTER='com' and 'mode'; units may be changed between the two calls", "why_tests_cant": "The two calls compute centres separately, in separate parallel loops; agreement for all data and schedules, and the exact condition for equality, is beyond samples.", "anchors": ["cosmic_profiles/common/cosmic_base_class.pyx:CosmicBase.getMassesCenters", "cosmic_profiles/common/cosmic_base_class.pyx:CosmicBase.estDensProfs", "cosmic_profiles/dens_profs/dens_profs_algos.pyx:calcMassesCenters", "cosmic_profiles/dens_profs/dens_profs_algos.pyx:calcDensProfsSphDirectBinning"]}
{"id": "C187", "title": "The global shape is the local shape at R200", "statement": "The entry of getShapeCatGlobal for an object equals the entry of getShapeCatLocal at ROverR200 = 1 for the same object with the same settings of the iteration; which other objects or radii are asked for in either call makes no difference.", "quantifier": "all data, objects, selections, settings without shells, schedules, CENTER='com' and 'mode', objects crossing faces included", "why_tests_cant": "The two methods run different code and are never compared; equality for all data and schedules, and where it fails, is beyond samples.", "anchors": ["cosmic_profiles/shape_profs/shape_profs_classes.pyx:DensShapeProfs.getShapeCatGlobal", "cosmic_profiles/shape_profs/shape_profs_classes.pyx:DensShapeProfs.getShapeCatLocal", "cosmic_profiles/shape_profs/shape_profs_algos.pyx:calcMorphGlobal", "cosmic_profiles/shape_profs/shape_profs_algos.pyx:calcMorphLocal", "cosmic_profiles/common/cosmic_base_class.pyx:CosmicBase.__init__"]}
{"id": "C188", "title": "Results at a radius are the same, whatever other radii are asked for", "statement": "The local shape and the density (binned or kernel-based) which a call returns for an object at a given multiple of R200 do not depend on the other radii given in the same call, nor on the other objects selected.", "quantifier": "all data, objects, pairs of lists of radii with a radius in common, selections, schedules, CENTER='com' and 'mode'", "why_tests_cant": "A test uses one list of radii; dependence on the other radii is only seen by comparing calls, and independence is a statement on all pairs of calls.", "anchors": ["cosmic_profiles/shape_profs/shape_profs_classes.pyx:DensShapeProfs.getShapeCatLocal", "cosmic_profiles/common/cosmic_base_class.pyx:CosmicBase.estDensProfs", "cosmic_profiles/shape_profs/shape_profs_algos.pyx:calcMorphLocal", "cosmic_profiles/dens_profs/dens_profs_algos.pyx:calcDensProfsSphDirectBinning", "cosmic_profiles/dens_profs/dens_profs_algos.pyx:calcDensProfsKernelBased"]}
{"id": "C189", "title": "Rounding does not make results depend on the order of particles", "statement": "With floating-point arithmetic, too, the mass, the density profile and the enclosed mass profile of an object are the same numbers in whatever order its particles are listed.", "quantifier": "all lists of particles and their rearrangements, masses, unit systems, shells, any floating-point format without overflow and underflow", "why_tests_cant": "Most rearrangements of a few particles give the same digits; whether all do, and how far results can differ, is a statement on all lists.", "anchors": ["cosmic_profiles/dens_profs/dens_profs_algos.pyx:calcMassesCenters", "cosmic_profiles/cython_helpers/helper_class.pyx:CythonHelpers.calcDensProfBruteForceSph"]}
