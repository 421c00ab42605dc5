# Formal model of `cosmic_profiles` in Lean 4

## Layout

* `properties.jsonl` – the English properties (C01 …).
* `lean/Verif/<Area>/Model.lean` (or a file named after the modelled file) – shallow models of the functions in `/repo`, each
  definition citing file and lines.
* `lean/Verif/<Area>/…Lemmas.lean` – helper lemmas (only where needed).
* `lean/Verif/<Area>/…Props.lean` – small independent specifications, the property theorems (`Cnn_…`) and, beside each, an
  `example` showing a concrete non-trivial case that meets the hypotheses.
* `MANIFEST.json` – property → theorems.
* `seeded/LOG.jsonl` – log of seeded-bug experiments: each entry is one realistic bug put into the model, and what failed.

## Modelling conventions

* Python/Cython functions become total Lean functions; exceptions are values (`Except`, or `none` where the kind of exception
  does not matter); loops become folds or structural recursion; recursion without an evident bound takes fuel and the
  theorem is about the existence of enough fuel.
* External behaviour (LAPACK eigen-solver, scipy optimiser, random numbers, file system contents, free memory readings, thread
  schedules) is a universally quantified parameter. Whatever is assumed about it is an explicit hypothesis of the theorem.
* Floating point numbers are modelled by an arbitrary linearly ordered field `K` (or `ℝ` where square roots/powers are
  needed). Rounding is modelled only in `Verif/Round` (C139-C145, C151, C156, C157, C169-C172, C177, C179) and where numbers are printed (C72, C120); overflow and signed zeros are not modelled. NaN is modelled (as an extra value) where the code
  branches on it or produces it deliberately.
* `numpy` arrays are lists; `int32`/`uint32` wrap-around is modelled only where a property is about it (C58).
* Where the code violates the English property, the theorem file contains (a) a `…_refuted` theorem with a concrete
  witness (or for all inputs) and (b) a `…_partial` theorem with the strongest restricted statement. The manifest status
  is then `partial`, and the section "Properties which do not hold of the code" below says what is wrong.

## Plan per property

| Property | What is modelled | How it is proved |
|---|---|---|
| C01–C06 | `lru_cache` three non-memory wrappers as a state machine over calls (returning / raising) and clears; dictionary + doubly linked ring with heap of links | abstract recency-list machine; simulation relation ring ↔ list; induction over histories |
| C07 | memory wrapper with a stream of free-memory readings | induction over histories |
| C08–C09 | `np_cache_factory` flatten/reshape, `_make_key` | round trip of row-major flatten/reshape for nested arrays of any rank; key injectivity; dtype collision refuted |
| C10 | two-phase calls (lookup / insert) of arbitrarily many threads | invariant over all interleavings |
| C11–C14, C72, C73 | `config.py` state and update/convert/label functions over an ordered field | field algebra; atomicity refuted (`LittleH` is written before the checks); mass converters always fail (missing key); labels carry three decimal digits of the unit (`{:.2e}` modelled as nearest integer and exponent), exact labels refuted |
| C15 | unit factors in `_estDensProfsBase`, `_fitDensProfsBase`, `_estConcentrationsBase` | field algebra |
| C16–C18, C21, C74 | selection check, sub-catalogue slicing, constructors | list induction |
| C19–C20 | `calcCSHIdxs`, `calcObjCat` incl. `prange` as arbitrary permutation of iterations | prefix-sum lemmas, permutation lemma |
| C22–C26, C75 | PBC routines, centre of mass, shrinking-sphere mode | ordered-field arithmetic, strong induction; non-termination refutation for ≥5 coincident particles |
| C27–C33, C76–C78, C98 | spherical/ellipsoidal direct binning with index compaction, bin edges, enclosed mass, kernel-based profiles, threads with shared scratch arrays | list induction, telescoping intervals, improper integrals of Gaussians, interleavings of threads |
| C34–C42, C79, C80 | Katz iteration with abstract eigen-solver, NaN post-processing, `prange` with per-thread scratch | fuel/termination, invariants, schedule independence, refutations |
| C43–C48, C69, C81–C85 | ellipticity, triaxiality histograms, mass splitting, blocks, profile models, averages, medians, error bars, chi-square | real algebra and analysis, list induction |
| C49–C51, C86–C88 | validators, result placement, bounds, objective of the fit | case analysis, permutation argument, invariance of the objective under units |
| C52–C59, C89–C91 | file order, MPI partition, chunked broadcast, file name resolution, headers, block search, assembly, IDs, caching vs. units | arithmetic of prefix sums, structural recursion over file contents, bytes |
| C60–C62 | on-disk catalogue as text files with crash points | state machine, refutations |
| C63–C66, C92–C94 | mock halo generator loops and geometric membership, sample points | real analysis, termination, irrationality of the golden angle |
| C67–C71 | API call arity, part types, chi-square, sub-catalogue within a fraction of R200, labels | case analysis, state machine over characters |
| C95–C97 | objects made from arrays: constructor, getters, masses and centres, spherical density profiles, put together from the models above | composition of the theorems about the parts; invariance under scaling |
| C99, C103 | several processes each with a cache around a function with collective communication; the settings of the package and functions decorated at their first call | invariant over interleavings; induction over histories; executed counterexamples |
| C104 | memory with addresses, objects holding addresses, cached arrays | refinement of a session with objects as values |
| C105 | the shape iteration as a relation between ellipsoids, independent of the code | invariant of the loop linking state and relation |
| C106 | `getShapeCatLocal`/`Global` from arrays to the structured result | composition; C105 in the units of the user by scaling |
| C107 | `_make_key` with positional and keyword arguments, typed or not | injectivity of the key up to Python equality, by splitting the tuple at the mark |
| C108 | `fitDensProfs` from the dictionary to the structured result, optimiser with success flag | case analysis on the optimiser; refuted for profiles without densities and for failed optimisations |
| C109 | the same calls on any MPI process | case analysis; refuted for `fitDensProfs` |
| C110 | `plotDensProfs`/`drawDensProfs`: curves of all figures | medians commute with units; reduction to C87; refuted where a density is NaN |
| C111 | `vizLocalShapes`, `vizGlobalShapes`: points, arrows and legends handed to matplotlib | composition of C106 with rotation of the Fibonacci points (C66); refuted for aligned axes, arrows of local shapes, objects across a face |
| C112 | `estDensProfs(spherical=False)` end to end; interpolated axes arbitrary | all objects become copies of one particle (C33), whose distance from its own mean is 0: every bin is empty; refuted for all data |
| C113 | `estDensProfs(direct_binning=False)` end to end, loops over objects and radii | kernel = average of a Gaussian over the cosine of the polar angle; scaling of the kernel; C77 for the integral; ZeroDivisionError refutation |
| C114 | rotated configuration and another eigen-solver | simulation relation between two runs; spectral lemma: functions of a symmetric tensor do not depend on the eigenbasis; uniqueness of axes with distinct eigenvalues |
| C115 | `getDelta` over the reals | monotone function of the matter fraction; limit of the fraction |
| C116 | `getRhoCrit`, `getMassDMParticle` over the reals | bounds on pi; refutation for a matter fraction other than 1 |
| C117 | `chiSquareToIShapeCurve` up to the statistic | reduction to the averages of C83 and the test of C69; refutation with two radii |
| C118 | sessions: sequences of calls as a transition relation on units, object and cache | invariant by induction over the calls; refutation with one getter call after a change of units |
| C119 | `getMeanOrMedianAndError` with its three methods, resampling as an arbitrary function; `getShape`, `getShapeMs` | per radius from C83 and C84; refutation with the values 0, 0, 3 |
| C120 | names of files as lists of characters, `{:.2f}` as rounding half to even, a folder as a function of names | names are split at the first underscore; invariant over the sequence of saves; three collisions |
| C121 | `np.histogram` with `density=True` on `np.linspace(0, 1, n)` | every value lies in exactly one bar, double counting |
| C122 | `getVelXYZ` on the model of the readers | C57 for the block of velocities, then the product of the three factors is 1 / OutUnitVelocity |
| C123 | `read_block` with all blocks, options and type -1 | induction over types and files with an invariant on the filled prefix of each type; refinement to the model of C57 |
| C124 | making a Gadget object with one thing missing | invariant of the loop over files (no groups are collected), case analysis of the outcomes |
| C125 | centres of shapes and of density profiles | equivariance by induction over the shrinking spheres; counterexample with 37 spheres |
| C126 | both algorithms on symmetric objects | the shape tensor commutes with the two quarter turns, hence is a multiple of the identity; invariant of the iteration |
| C127 | reading of AHF files by apply_ahf.py | round trip: writer specified, reader modelled, induction over halos |
| C128 | axis limits | linear arithmetic |
| C129 | what getObjInfo(Gadget) and print_status print | through C100 |
| C130 | cosmo_tools.respectPBC | case analysis; negation for every moved particle |
| C131 | KSTest, statistic | maximum over sample values equals maximum over all reals |
| C132 | both readers, constructor from files | readers refine the specification of either format; then C100's argument and C96 |
| C133 | shape iteration and catalogues of scaled objects | exact simulation with a rescaled eigenvalue routine, then independence of the routine (C114); negation for the fixed distance SAFE |
| C134 | constructor and calls (masses, profiles, kernel profiles, shapes) of a moved simulation | each call as a function of the selected particles; translation equivariance of unwrapping, centres, tensors; negation for crossing objects |
| C135 | constructor and calls with renumbered particles | each call as a function of the selected particles; invariance of centres, sums and shape iteration under permutation; negation for crossing objects |
| C136 | constructor and calls with all lengths times f, all masses times g | each call as a function of the selected particles; homogeneity of unwrapping, centres, shells, kernel and shape iteration; negation for the mode |
| C137 | constructor and calls with axes exchanged | centres per axis; distances and shape iteration invariant under the permutation matrix; negation for crossing objects |
| C138 | the calls with two unit systems | case analysis of the outcome relations; the last step of every call is one multiplication |
| C139 | constructor and getters with every operation rounded | rounding = factor between 1-u and 1/(1-u); factors multiply |
| C140 | converters with a factor rounded to single precision | as C139; negation by evaluating both roundings |
| C141 | total mass as a left fold of rounded additions | a rounded sum is the exact sum of slightly changed terms; monotonicity of rounding |
| C142 | calcCoM with rounded operations, sums in any order and bracketing | as C141, induction over the summation tree |
| C143 | edges, shell test, volume and density with rounded operations | monotonicity of rounding; as C141; negation by evaluating single precision |
| C144 | recentreObject with rounded operations | monotonicity of rounding; negation by evaluation |
| C145 | enclosed-mass loop with rounded additions | left fold over a sublist; monotone rounding |
| C146 | catalogue and offsets as 32-bit integers, numpy slices and indices | numbers below 2^31 are unchanged by the conversion, then as C17; negations with 2^31 particles |
| C147 | the cache with a user function which may do anything at each call | invariant: every entry is the result of the last run for its key |
| C148 | end-to-end model; the results of a call as a map over the selected objects | each row is a function of the particles and R200 of one object; negation by C113 |
| C149 | wrappers without a lock as threads of single steps, loads and stores of counters apart | invariants over executions; negations with two threads |
| C150 | objects made from arrays with L_BOX = 0 (existing models) | results of one object do not depend on box and place; then object by object, as for C134 |
| C151 | both unwrapping functions with every operation rounded, two precisions | monotone rounding that commutes with halving; bound of the average |
| C152 | whole calls on two catalogues with the same mass at every place | sums over particles are sums over places; the loop of Katz in lock-step; two counterexamples |
| C153 | the wrappers with a lock, cache_clear and cache_info as single reads and writes of several threads with stacks | refinement of the model of C10: while a thread holds the lock, running it to the end of its block gives the result of the undivided phase |
| C154 | getShapeCatLocal, getShapeCatGlobal, estDensProfs end to end for two catalogues | invariant of the iteration: selected particles lie within the radius, because the largest semi-axis of every ellipsoid is the radius (Parseval in the frame of the axes) |
| C155 | calcMorphGlobalVelDisp with its parallel loop | the mean velocity moves along, so the tensors of all iterations are the same |
| C156 | calcShapeTensor with a total mass of single precision | another total mass multiplies the tensor, which has the effect of another eigenvalue routine (C114), iteration by iteration |
| C157 | CythonHelpers.calcCoM with rounding | the total mass stagnates at 2^24 (exact evaluation of the rounding, induction over the number of particles); error bound by products of rounding factors |
| C158 | calcMode within getMassesCenters and shapes | the recursion as a chain of stages; induction: the clump is never lost, and the distance of the centre of mass from it is at most eps plus a quarter of the size |
| C159 | structured array of getShapeCatLocal, getShapeCatGlobal | outcome of the loop for every object (C105), case by case |
| C160 | the iteration for objects contained as a whole | every ellipsoid reached contains all particles; sorted eigenvalues of a tensor are unique |
| C161 | calcMorphGlobalVelDisp for objects contained as a whole | as C160, for the tensor of velocities |
| C162 | genHalo with the positions of all particles | particles of shell j are inside surface k exactly if j <= k; rounding errors of the counts add up |
| C163 | drawUniformFromShell, drawUniformFromEllipsoid with the random number as argument | Lebesgue measure of the random numbers which lead to a part of the volume |
| C164 | genHalo with the dictionary of the caller as state | refinement to the generator with a model as argument; induction over the calls |
| C165 | Katz iteration; integrals over ellipsoidal bodies | moments are summed surface by surface; linear change of variables; uniqueness of principal axes; two octahedra as counterexample for shells |
| C166 | Membership tests of the shell algorithms, radii of the shells | point of the surface in the direction of the normal of the inner ellipsoid; least radius enclosing a particle; run of the algorithm on eight particles as counterexample |
| C167 | Katz iteration with reduced weights | simulation of one run by the other: selected particles and radii in proportion, equal tensors |
| C168 | drawing functions with all arguments, exceptions as values | refinement to the three-dimensional model; measure of random numbers; case analysis for the refutations |
| C169 | shape tensor and axis ratios with every operation rounded, total mass in single precision | forward error analysis of sums, Cauchy-Schwarz, perturbation of eigenvalues by quadratic forms |
| C170 | the whole ellipsoid-based iteration with every operation rounded | C169 for the tensor of all particles; the tests succeed with a margin, so that the second iteration repeats the first bit for bit |
| C171 | C170 with the centre of C142 or C157 | moments about the centre used exceed those about the mean by the mass times the square of the error of the centre; perturbation of eigenvalues |
| C172 | C171 for particles that differ from the exact ones | triangle inequality for moments about the mean; perturbation of eigenvalues |
| C173 | points drawn from ellipsoids as a random experiment: product measures of normal and uniform numbers | polar coordinates; the density of normal vectors depends on their length only |
| C174 | particles of shells as a random experiment | C173 for directions; Fubini; symmetries of normal vectors |
| C175 | any generator with states, seeds set by the drawing functions, worker processes with states of their own | functional equality; refutation: results and later states do not depend on earlier states |
| C176 | the iteration of C105 on the rows returned by the drawing functions (C173, C174) | strong law of large numbers for the moments; eigenvalues and axes of tensors close to that of the ellipsoid; all particles stay enclosed |
| C177 | the rounded iteration of C170, for ellipsoids which contain a part of the particles | the tensor depends on the set of particles only, so errors start afresh in every iteration; inverse forms of close tensors bound the error of the ellipsoidal radius; induction along the path of the exact iteration (relation of C105) |
| C178 | particles of `genHalo` with spherical shells (C162) as input of the radial binning (C27) | mass of each shell from C63; law of large numbers for the random numbers of a shell; the enclosed mass tends to a piecewise linear function; comparison with the integral of the model |
| C179 | `runEllAlgo` exact (Shapes) and with rounding in every operation (C177) | both directions from C177; five particles, one of which is rounded onto the edge, refute it without margins |
| C180 | `runEllAlgo`, `runShellAlgo` exact (Shapes), families of data along a filter | induction along the iteration: members eventually equal, tensors converge, eigenvalues and surfaces converge (Weyl; inner boundaries by compactness of frames), decisions eventually equal; C179's particles refute it at the edge |
| C181 | profiles of one object (Binning), families of data along a filter | sums over particles with eventually constant membership; kernel by continuity; a particle next to an edge refutes it for bins |
| C182 | rounded iteration for ellipsoids and shells (Round.Precision), families of arithmetics along a filter | limits of every rounded operation; eigenvectors along ultrafilters; tests eventually right; induction over the iterations of the exact run |
| C183 | construct and GetShapeCat (Api.Shapes), families of arrays along a filter (Api.Continuity, Api.ContinuityShapes) | C106 gives the task of every entry; tasks approach (weighted mean, volumes continuous); C180 for each of the finitely many entries |
| C184 | construct, EstDensProfs and EstDensProfsKernel (Api.Model, Api.Kernel), families of arrays along a filter (Api.ContinuityDens, Api.ContinuityMode) | C96 and C113 give every entry as a function of the particles of its object; these functions are continuous (C181); finitely many entries |
| C185 | construct and GetMassesCenters (Api.Model), calcMode (Periodic.Model), families of arrays along a filter (Api.ContinuityCentres) | induction over the search: eventually every sphere keeps the same particles; a line of six particles as counterexample on the spheres |
| C186 | construct, GetMassesCenters, EstDensProfs, EstDensProfsKernel (Api.Model, Api.Kernel) on one object (Api.Agree) | both calls find the same centre; masses of consecutive shells telescope; integral of the kernel |
| C187 | construct, GetShapeCat local and global (Api.Shapes) on one object (Api.Margin) | both loops run the same iteration on the same particles and centre; a cross beyond R200 as counterexample |
| C188 | construct, GetShapeCat, EstDensProfs, EstDensProfsKernel, pairs of calls (Api.Neighbours) | column by column: every entry is a function of particles, centre and edges of its own column; a cross as counterexample |
| C189 | massIn, massOut, totalMass, density with rounding (Round.Order) | both orders against the exact sum (C141, C143); four particles in double precision as counterexample |
| C100–C102 | objects made from Gadget files: constructor, `getXYZMasses`, processes | composition of the models of files, catalogues and objects |

## Properties which do not hold of the code

Each is refuted by the theorem named; the rest of the property is proved as far as it goes.

* **C09** Array caches never confuse different arguments: False as stated: the dtype is not part of the key (refuted with a concrete history). Proved: keys agree exactly if shapes and numeric entries agree, and functions of shapes and values are cached transparently. Refuted: `C09_dtype_confused_refuted`. Proved: `C09_key_faithful_partial`, `C09_transparent_partial`.
* **C13** A rejected unit system leaves the configuration unchanged: False as stated: the Hubble constant is replaced before the arguments are checked (refuted). Proved: everything else is unchanged. Refuted: `C13_rejection_changes_state_refuted`. Proved: `C13_rejection_partial`.
* **C14** Mass conversions are available and mutually inverse: False: both functions raise KeyError for every configuration and mass; the negation is proved for all inputs. Refuted: `C14_mass_conversions_refuted`.
* **C24** Shape computation sees genuine periodic images: False: the Cython routine mirrors coordinates instead of shifting them and never looks at the third coordinate (refuted). Proved: positions are used unchanged for objects which do not cross a boundary. Refuted: `C24_mirrored_refuted`, `C24_third_axis_refuted`. Proved: `C24_images_partial`.
* **C26** Mode finding terminates: False for five or more coinciding particles (refuted for every recursion limit); proved if at most four coincide. Refuted: `C26_mode_diverges_refuted`. Proved: `C26_terminates_partial`, `C26_in_bounding_box`, `C26_depth`, `C26_limit_partial`.
* **C27** Each particle is counted in at most one radial shell: Proved for spherical bins, and for ellipsoidal bins with constant axis directions; false for ellipsoidal bins whose axis directions change with radius (refuted). Refuted: `C27_counted_twice_refuted`. Proved: `C27_profile`, `C27_one_bin`, `C27_ellipsoidal_partial`, `C27_ellipsoidal_profile`.
* **C33** Ellipsoidal density profile uses every particle of each object: False: the particle list of every object is overwritten with copies of one particle number (refuted for all catalogues of non-empty objects). Proved for objects of one particle. Refuted: `C33_particles_replaced_refuted`, `C33_profile_nan_refuted`, `C33_mode_diverges_refuted`. Proved: `C33_single_particles_partial`.
* **C39** A reported shape always comes from an iteration: False for IT_TOL >= 1: no iteration is made. Proved for IT_TOL < 1. Refuted: `C39_no_iteration_refuted`, `C39_catalogue_refuted`. Proved: `C39_from_iteration_partial`.
* **C40** Axis-aligned objects keep their axes: False: zero components become NaN. Proved for the non-zero components. Refuted: `C40_axis_aligned_refuted`. Proved: `C40_nonzero_partial`.
* **C42** Velocity dispersion shapes depend on the velocities of the object: False for local velocity dispersions: the velocity array is never filled. Proved for global ones. Refuted: `C42_velocities_ignored_refuted`, `C42_never_a_shape_refuted`. Proved: `C42_global_partial`, `C42_global_outcome`.
* **C46** Mass-binned density plots use every object: False: objects on a bin edge, in particular the least massive object, enter no plot. Proved for all other objects. Refuted: `C46_edge_objects_dropped_refuted`, `C46_lightest_dropped_refuted`. Proved: `C46_inner_objects_partial`.
* **C51** Fixed fit parameters stay fixed: False: a given rho_s is accepted but ignored; a given r_s is taken to be in Mpc/h while r_s is returned in output units. Proved for alpha, beta, gamma (optimiser assumed to respect bounds) and for concentrations. Refuted: `C51_density_ignored_refuted`, `C51_scale_radius_refuted`. Proved: `C51_given_partial`, `C51_concentration`.
* **C56** GADGET format-2 snapshots can be read: False: no block of a format-2 file is ever found (str compared with bytes). Refuted: `C56_format2_refuted`.
* **C57** Multi-file snapshots are assembled species by species: False if one file has no particles of the type (HDF5: dataset missing) or none with own masses (binary: mass block missing). Proved otherwise, byte by byte for binary files of both byte orders, any number of files and types. Refuted: `C57_no_mass_block_refuted`, `C57_empty_file_refuted`. Proved: `C57_binary_partial`, `C57_hdf5_partial`.
* **C58** Particle IDs are read losslessly: False: eight-byte IDs are reduced modulo 2^32 in binary files, and rounded to 53 bits in HDF5 files. Proved for IDs below 2^32 and up to 2^53, respectively. Refuted: `C58_long_ids_refuted`, `C58_hdf5_refuted`. Proved: `C57_binary_partial`, `C57_hdf5_partial`.
* **C59** Cached catalogue data respects the current unit system: False: radii stay in the units which were current when the file was read, as long as the result is in the cache. Proved for a cache without eviction (first_read) and for the real cache in every mode (cached): a read gives the radii in the units current at some earlier read with the same arguments, all reads in between giving the same. Proved as stated as long as units are not changed. Refuted: `C59_stale_units_refuted`, `C59_cached_stale_refuted`. Proved: `C59_first_read_partial`, `C59_fixed_units_partial`, `C59_cached_partial`.
* **C60** Stored shape catalogues answer the request: False: a dumped catalogue answers every later request, and a local catalogue at one radius cannot be read back. Proved without a stored catalogue, and for the same request after a dump. Refuted: `C60_refuted`, `C60_single_radius_refuted`. Proved: `C60_fresh_partial`, `C60_after_dump_partial`.
* **C61** Dumped catalogues are unit-safe: False: after a change of output units the numbers of the dump are returned unchanged. Proved for equal units. Refuted: `C61_refuted`. Proved: `C61_same_units_partial`.
* **C62** A crash while dumping never yields a wrong catalogue: False for a dump over a complete catalogue whose second file is cut after one line. Proved for a first dump with arbitrary contents of the file being written, and for repeated dumps if files are replaced as a whole. Refuted: `C62_refuted`. Proved: `C62_from_scratch_partial`, `C62_whole_files_partial`.
* **C65** Mock shell coarsening terminates and keeps the extent: Termination (at most 1001 mergers), extent and success are proved; that every shell has a particle is false, only the first proper shell has. Refuted: `C65_empty_shell_refuted`. Proved: `C65_extent`, `C65_no_failure`, `C65_first_shell_partial`.
* **C66** Fibonacci sampling stays on its surface: False for one sample, which is the default: division by zero. Proved for all other numbers. Refuted: `C66_one_sample_refuted`. Proved: `C66_on_ellipsoid_partial`, `C66_on_sphere_partial`.
* **C67** Publicly documented methods can be called: False of the code: both methods raise TypeError for every accepted selection (C67_refuted). Proved: every other public shape method binds all its calls. Bodies of the implementing functions are in the other areas. Refuted: `C67_refuted`. Proved: `C67_other_methods_partial`, `bind_ok_iff`.
* **C70** Enclosed-subset catalogue can be computed: False of the code: for every non-empty catalogue the function fails (assignment through the base of an array that owns its data). Proved for zero objects only. Refuted: `C70_refuted`, `C70_type_error_refuted`. Proved: `C70_no_objects_partial`.
* **C72** Plot labels denote the output unit: Named units are exact; multiples of kpc, Msun and km/s are printed with three digits, so they denote the nearest number of three digits (within half a percent), not exactly the unit: lengths in units of 1.2345 kpc are labelled 1.23e+00kpc. Refuted: `C72_exact_refuted`. Proved: `C72_labels_partial`, `C72_three_digits`.
* **C73** Input and output unit choices are independent: False as stated when a different little_h is passed (refuted); proved for an unchanged little_h. Refuted: `C73_output_choice_changes_input_refuted`. Proved: `C73_independent_partial`.
* **C74** Non-integer object numbers are rejected: Proved for arrays; false for Python lists, which are truncated to integers before the check (refuted). Refuted: `C74_non_integer_list_refuted`. Proved: `C74_non_integers_partial`.
* **C75** Compact objects become contiguous: False: the reference point is an average of wrapped positions and can be far from the object (refuted). Proved if the reference point is within L/2 of all particles up to whole boxes. Refuted: `C75_compact_object_torn_refuted`. Proved: `C75_contiguous_partial`.
* **C76** Edges of ellipsoidal bins bracket the requested radii: Edges increase; the exact condition for the first radius to be inside its bin is proved, it fails for some grids (refuted). Refuted: `C76_first_radius_outside_refuted`. Proved: `C76_ellipsoidal_edges_partial`.
* **C80** Flat objects are reported as unclassified: False: flat objects raise ZeroDivisionError. Proved that (unreduced tensor, ellipsoids, positive masses) nothing else raises; in general the exception is raised exactly if the task is degenerate (C105). Refuted: `C80_flat_object_refuted`. Proved: `C80_only_flat_partial`, `C105_outcome`.
* **C81** Oblate objects enter triaxiality histograms: False: triaxiality 0 is taken for unclassified. Proved for all other objects. Refuted: `C81_oblate_refuted`. Proved: `C81_others_partial`.
* **C82** Local triaxiality histograms use the requested depth: False if any radius of the object is unclassified: the object is dropped. Proved otherwise. Refuted: `C82_local_triaxiality_refuted`. Proved: `C82_classified_everywhere_partial`.
* **C85** Error bars measure spread: False for the method used in all plots. Proved for the standard error of the mean and for the bootstrap (whatever numbers are drawn; NaN for a single resampling). Refuted: `C85_quantile_errors_refuted`. Proved: `C85_sem_partial`, `C85_bootstrap_partial`, `C85_one_resampling`.
* **C86** Shape settings are validated exactly: False: unknown settings are ignored, fractional limits truncated. Proved exactly which dictionaries are accepted and what they are used as: all six are required, switches must be boolean, and radii, tolerance, switches and integer limits are used as given. Refuted: `C86_unknown_setting_refuted`, `C86_truncated_refuted`. Proved: `C86_accepted_iff_partial`, `C86_accepted_partial`.
* **C87** Fits are best fits: False for profiles with a vanishing density (empty shell): the objective is infinite everywhere. Proved for profiles which are positive where they are numbers. Refuted: `C87_empty_shell_refuted`. Proved: `C87_best_fit_partial`.
* **C91** Missing data in a snapshot is an error: False: with an entry in the mass table, masses are returned in place of missing IDs. Proved for types without an entry. Refuted: `C91_masses_as_ids_refuted`. Proved: `C91_missing_partial`.
* **C96** Density profiles belong to the data handed in: False for objects crossing a face of the box (C96_crossing_refuted: one of three particles is lost, in all unit systems). Proved for all other objects, any units, selection and schedule. Refuted: `C96_crossing_refuted`. Proved: `C96_density_partial`, `C96_outcome_exists`, `C96_from_files_partial`.
* **C97** Data handed in comes back: False if little_h is changed between construction and query (C97_little_h_changed_refuted); otherwise proved. Refuted: `C97_little_h_changed_refuted`. Proved: `C97_getters_partial`, `C97_same_object`.
* **C98** Ellipsoidal binning accounts for every particle once: Mass conservation is false if axis directions change from bin to bin (a particle is counted twice); proved for constant directions. Enclosed mass and sign are proved for all directions (monotone for constant directions). Refuted: `C98_mass_doubled_refuted`. Proved: `C98_mass_partial`, `C98_enclosed_mass`, `C98_nonneg`.
* **C99** MPI processes agree despite caching: False for the default, memory-limited cache: one process evicts what another keeps, then they wait for each other or combine parts of different results. Proved without memory limit, and if all processes always see the memory limit reached or not alike. Refuted: `C99_deadlock_refuted`, `C99_mixed_data_refuted`. Proved: `C99_no_memory_limit`, `C99_mpi_partial`.
* **C101** Objects from snapshot files can be made on every MPI process: False: on every process but the first, making the object fails with AttributeError. Proved for the first process. Refuted: `C101_other_processes_refuted`. Proved: `C101_process_partial`.
* **C102** An object made from files answers consistently: False after a change of input units: the files are read again and converted with the new units. Proved for unchanged input units. Refuted: `C102_units_changed_refuted`. Proved: `C102_getter_partial`.
* **C103** Cache settings take effect: False: after the first call of a cached function no change of settings has any effect on it. Proved if settings are changed before the first call only. Refuted: `C103_no_effect_refuted`. Proved: `C103_settings_partial`, `C103_size_partial`.
* **C104** Changing returned arrays does not change objects: False for arrays got from getIdxCat: they are the arrays of the object, and with files those of the cache, so that other objects made from the same files change too. Proved for all other arrays. Refuted: `C104_own_catalogue_refuted`, `C104_other_objects_refuted`. Proved: `C104_sharing_partial`.
* **C106** Shapes belong to the data handed in, from arrays to result: False for objects crossing a face of the box (C24): the cross of C106_cross, moved as a whole through the third face of the periodic box, gets no shape (C106_crossing_refuted). Proved for objects not crossing a face and without stored catalogues. Vanishing components of axes are NaN (C40), see C106_cross. Refuted: `C106_crossing_refuted`. Proved: `C106_shapes_partial`, `C106_outcome_exists`, `C106_cross`, `C106_from_files_partial`.
* **C108** A fit flagged as converged is a fit: False: profiles without any density are flagged as converged and even get a concentration, and the success flag of the optimiser is never read. Proved for profiles with a density: flagged entries consist of numbers, others of NaN; the values under the names of the parameters, put into the documented formula, are the profile fitted if the data follow it (C108_named_values). Refuted: `C108_no_data_refuted`, `C108_unsuccessful_refuted`. Proved: `C108_flag_partial`, `C108_named_values`.
* **C109** Fits can be requested on every MPI process: False: fitDensProfs raises TypeError on every process but the first. Proved for estConcentrations. Refuted: `C109_fit_other_processes_refuted`. Proved: `C109_concentrations_partial`.
* **C110** Density plots show medians and their fits: False at radii where one object has no density: the median is NaN for all. Proved where all objects have a density, and for the fitted curves. Objects at bin edges: C46. Error bands: C85. Refuted: `C110_gap_refuted`. Proved: `C110_panels`, `C110_median_partial`, `C110_fit_partial`.
* **C111** Pictures of shapes show the shapes of the catalogue: False in three cases: an axis with a zero component (NaN since C106) makes the whole ellipsoid invisible; local shapes get no arrows for up to five radii and those of the last but one radius otherwise; for objects crossing a face of the box the centre is drawn a box length away from the particles. Proved otherwise (no stored catalogue; inner ellipsoid of local shapes not stated). Refuted: `C111_aligned_refuted`, `C111_arrows_refuted`, `C111_crossing_refuted`. Proved: `C111_picture_partial`.
* **C112** Ellipsoidal density profiles belong to the data handed in: False for all data: because of the assignment to idx_cat (C33) every entry returned is NaN; with CENTER = mode and five or more particles the call always raises. Proved: sizes of the result; fewer than three radii raise ValueError. Refuted: `C112_all_nan_refuted`, `C112_mode_fails_refuted`. Proved: `C112_sizes_partial`, `C112_returns`, `C112_few_radii`.
* **C113** Kernel-based density profiles belong to the data handed in: False for objects with a particle exactly at the centre: ZeroDivisionError, and no profile of any selected object. Proved for objects which do not cross a face of the box (crossing: C24, C96) and have no such particle; the kernel is proved to be the average over the sphere of a Gaussian cloud, and the profile to integrate to the mass. Refuted: `C113_particle_at_centre_refuted`. Proved: `C113_kernel_partial`, `C113_outcome_exists`, `C113_particle_at_centre`, `C113_from_files_partial`.
* **C116** Particle masses make up the matter in the box: False unless Omega_m = 1: the matter density parameter is missing, the particles make up the critical density instead. Refuted: `C116_matter_density_refuted`. Proved: `C116_critical_density`, `C116_box_partial`, `C116_no_particles`.
* **C117** Chi-square test of shape curves compares radius by radius: False if R200 is not one of the radii: values are then counted at other radii (with two radii R200/10 and 10 R200, all at the first one). Proved if R200 is one of the radii, in exact arithmetic. Refuted: `C117_between_refuted`. Proved: `C117_radius_by_radius_partial`.
* **C118** What an object answers does not depend on what it was asked before: False after a change of the input unit of length: getR200 and getIdxCat replace the radii of the object by ones in the new unit while the positions stay, so that a look at the radii changes later density profiles. Proved for sessions which keep the input unit of length. Process 0; file formats as in C100. Refuted: `C118_getter_changes_results_refuted`. Proved: `C118_history_partial`.
* **C119** Averages and error bands are made by the method asked for: False of mass bins: getShapeMs ignores the method and always draws medians. Resampling an empty list (bootstrap at a radius without values) is not modelled. Refuted: `C119_mass_bins_refuted`. Proved: `C119_asked_partial`, `C119_errors_partial`, `C119_mass_bins_partial`.
* **C120** Every picture has its own file: False: the two histograms of ellipticities have the same name; names of density profiles lack the suffix, so that those of different types of objects replace each other; mass bins whose lower edges agree to two decimals of the logarithm replace each other. Proved for all other sets of pictures. Refuted: `C120_eps_refuted`, `C120_types_refuted`, `C120_mass_bins_refuted`. Proved: `C120_kept_partial`.
* **C121** Histograms are normalised and count every object once: The number of bars is HIST_NB_BINS - 1; all the rest holds. Refuted: `C121_number_refuted`. Proved: `C121_bars_partial`.
* **C123** Every block of a snapshot can be read: False in two places: masses of all types are an exit if all of them are kept in the header, and a block which the snapshot does not have is silently replaced by another one of the same size. Proved for all other requests; identities of 2^32 and more are the subject of C58. readAny_readBlock: on the four blocks used by readgadget.py this model is that of C57. Refuted: `C123_header_masses_refuted`, `C123_wrong_block_refuted`. Proved: `C123_read_partial`, `C123_header_mass_partial`, `readAny_readBlock`.
* **C125** One centre per object: False with CENTER='mode': the search starts with radius 1000 for density profiles and getMassesCenters and with the extent of the object for shapes, so that an object may have two centres. The same centre is proved for 'com', the symmetries for both. Refuted: `C125_mode_refuted`. Proved: `C125_same_partial`, `C125_shapes`, `C125_masses`.
* **C127** Particle lists of the halo finder AHF are read completely: False for a single halo: np.loadtxt then returns one-dimensional data and the script fails. (Besides, AHF gives radii in kpc/h whereas the script sets Mpc/h as unit of input; this is outside the model.) Refuted: `C127_single_refuted`. Proved: `C127_particles_partial`.
* **C129** Information on objects is right: False for the last line of getObjInfoGadget, the number of objects with enough particles: it compares particle indices with an empty list and is always 0. All other numbers are right. Refuted: `C129_detail_refuted`. Proved: `C129_numbers_partial`, `C129_messages`.
* **C130** Unwrapping relative to the first particle gives periodic images: False: particles are mirrored, not shifted, so that no moved particle (away from the face) ends at an image of itself. Nearness to the first particle is proved. Refuted: `C130_mirrored_refuted`. Proved: `C130_near_partial`.
* **C133** Similar objects have the same shape: False of the global catalogues: the outer radius is R200 plus the fixed distance SAFE = 6, so a similar object can lose particles and have no shape (C133_global_refuted). Proved for the local catalogues, and for velocities and masses in the global ones. Refuted: `C133_global_refuted`. Proved: `C133_catalogue_partial`.
* **C134** Moving the simulation in its periodic box does not change results: False of the code for objects which cross a face of the box (respectPBCNoRef moves particles on one side of the first particle only, see C24): C134_crossing_refuted. Proved for every selected object that lies in one piece before and after. Refuted: `C134_crossing_refuted`. Proved: `C134_shapes_partial`, `C134_profiles_partial`, `C134_kernel_partial`, `C134_centres_partial`.
* **C135** Numbering and order of particles do not matter: False of the code for objects which cross a face of the box: particles are mirrored about the half box relative to the first particle (C24), so that the order decides whether the object is found near its centre (C135_crossing_refuted). Proved for every selected object that crosses no face. Exact arithmetic: rounding of sums in another order is not modelled. Refuted: `C135_crossing_refuted`. Proved: `C135_shapes_partial`, `C135_profiles_partial`, `C135_kernel_partial`, `C135_centres_partial`.
* **C136** Similar simulations have similar results: False of the code in two places. The search for the mode starts with the fixed radius 1000 and stops by fixed numbers of particles, so that with CENTER = 'mode' the centre of a small object is another one than that of the same object enlarged (C136_mode_refuted). The initial sphere of global shapes is enlarged by the fixed SAFE = 6 (C133_global_refuted). Proved: local shapes (any CENTER), and with CENTER = 'com' densities, kernel densities, masses and centres, also for objects which cross a face. Refuted: `C136_mode_refuted`, `C133_global_refuted`. Proved: `C136_shapes_partial`, `C136_profiles_partial`, `C136_kernel_partial`, `C136_centres_partial`.
* **C137** Names of the axes do not matter: Masses and centres: proved for all objects. Shapes and profiles: false of the code for objects which cross a face of the box, because CythonHelpers.respectPBCNoRef tests the second coordinate twice and the third never: an object at a face of the third axis is torn apart where the same object at a face of the first axis is not (C137_crossing_refuted). Proved for every selected object that crosses no face. Refuted: `C137_crossing_refuted`. Proved: `C137_centres`, `C137_shapes_partial`, `C137_profiles_partial`, `C137_kernel_partial`.
* **C140** The unit converters keep double precision: False of the code: the converters round their factor with np.float32, so that there and back in kpc/h 1 becomes 1.0000000475 (C140_converters_refuted). Proved: correct up to 12 rounding errors of single precision. (The mass converters raise KeyError, C14.) Refuted: `C140_converters_refuted`. Proved: `C140_converters_partial`.
* **C143** Density profiles are accurate to rounding: False of the code in one point: R200 is handed to the inner routine as a C float, so the edges of the shells are only accurate to single precision, and a particle inside the outermost shell by 10^-8 is not counted (C143_single_precision_refuted). Proved, for R200 as the inner routine gets it: sorted edges with their values, exactly one shell, the right one for particles away from the edges by more than four rounding errors, masses and volumes up to rounding; and, with R200 in single precision, the right shell for particles farther from the edges than a rounding error of that precision (C143_single_precision_partial). Refuted: `C143_single_precision_refuted`. Proved: `C143_edges_sorted`, `C143_one_shell`, `C143_density_partial`, `C143_volume_partial`, `C143_right_shell`, `C143_edge_values`, `C143_entry_partial`, `C143_value_partial`, `C143_single_precision_partial`.
* **C144** Centres are inside the box, with rounding: False of the code: a coordinate just below 0 is moved to the box length itself (C144_in_box_refuted). Proved: never below 0 and never above the box length. Refuted: `C144_in_box_refuted`. Proved: `C144_in_box_partial`, `C144_image`.
* **C146** Objects consist of the particles listed, however large the simulation: False of the code: particle numbers and the borders of objects are converted to 32-bit integers without a check. In a simulation of more than 2^31 particles an object silently gets another particle (C146_number_refuted); with objects of 2^30, 2^30 and 1 particles the second is empty (C146_offsets_refuted). Proved when simulation and catalogue have fewer than 2^31 entries. Only the conversion of numpy arrays is modelled, not that of Python lists. Refuted: `C146_number_refuted`, `C146_offsets_refuted`. Proved: `C146_members_partial`.
* **C148** Objects do not influence each other: The last part is false of the code: an exception in one object ends the whole call; an object with a particle exactly at its centre takes the kernel-based profiles from all others (C148_spoiled_refuted). Proved: the rest. Ellipsoidal profiles are not included. Refuted: `C148_spoiled_refuted`. Proved: `C148_shapes_partial`, `C148_profiles_partial`, `C148_kernel_partial`, `C148_centres_partial`, `C148_shapes_fail`, `C148_profiles_fail`, `C148_kernel_fail`, `C148_centres_fail`.
* **C149** Unlimited caches are safe with several threads: The part on cache_info is false of the code: hits += 1 and misses += 1 outside the lock lose updates, and a call that overlaps a clear brings old counts back. Proved: values and keys in full; without clears the counts are never too large, and not zero if a call has returned; exact if calls do not overlap. Refuted: `C149_lost_refuted`, `C149_lost_zero_refuted`, `C149_clear_refuted`. Proved: `C149_values`, `C149_bounds_partial`, `C149_alone_partial`.
* **C152** Results depend on the distribution of mass, not on its sampling: False in general: CENTER = mode stops at five particles and IT_MIN counts particles, so splitting every particle in two moves the centre (mode_refuted) and turns a missing shape into a converged one (min_refuted). Proved for CENTER = com and objects which are not cut by the box, and for shapes with IT_MIN matched to the sampling; C152_split shows that splitting every particle into k pieces and multiplying both minima by k meets all hypotheses. Refuted: `C152_min_refuted`, `C152_mode_refuted`. Proved: `C152_centres_partial`, `C152_profiles_partial`, `C152_kernel_partial`, `C152_shapes_partial`, `C152_split`.
* **C157** Mean velocities are accurate: False of the code: the total mass is added up in single precision and stops growing at 2^24 equal particles, so that particles all moving with velocity 1 have the mean velocity n/2^24 (C157_mean_refuted). Proved: for up to 2.8 million particles the error is at most 6(n+1) roundings of single precision relative to the mean of the absolute values. Refuted: `C157_mean_refuted`. Proved: `C157_mean_partial`.
* **C159** The flag is_conv tells shapes from gaps: False: components of axes which are exactly zero are NaN in entries flagged as converged (C159_nan_refuted, see C40); with IT_TOL >= 1 entries not flagged contain the radius. All else is proved. Refuted: `C159_nan_refuted`. Proved: `C159_flag_partial`.
* **C163** Points said to be drawn uniformly are uniform in volume: False for shells: distances from the centre, not volumes, are uniform, so that the particles of every shell are concentrated towards the centre (half of the particles of the innermost ball are in an eighth of its volume). Proved for ellipsoids. Statements are for given directions; for those of normal vectors see C173 and C174. Refuted: `C163_uniform_refuted`. Proved: `C163_ellipsoid`, `C163_distribution_partial`.
* **C164** Generating mock halos leaves the arguments alone: False as a whole: genHalo writes rho_s into the dictionary of the caller. Proved: nothing else is changed, and results never depend on that entry or on earlier calls. Refuted: `C164_untouched_refuted`. Proved: `C164_arguments_partial`, `C164_repeated`.
* **C165** The true shape is a fixed point of the shape iteration: Proved for ellipsoids (and for the innermost shell), for particles and for continuous bodies. False for shells of constant thickness, which contain more of the short axes than of the long one: starting from the true ratio 1/2 the next one can be 5/8. Real arithmetic. Refuted: `C165_shells_refuted`. Proved: `C165_fixed_partial`, `C165_reported_partial`, `C165_body`, `C165_ratios`.
* **C166** Shells have the thickness asked for and cover the object: Proved if the difference of consecutive radii is smaller than the shortest semi-axis. False otherwise: the inner semi-axis s*d-delta_d becomes negative, its square grows again, and particles near the surface are dropped; the witness (thickness 6 at radius 10, axis ratio 5/27) ends with a ZeroDivisionError. Happens for coarsely spaced radii and flat objects. Real arithmetic. Refuted: `C166_hole_refuted`. Proved: `C166_shell_partial`, `C166_cover_partial`, `C166_innermost`.
* **C168** Points can be drawn in two dimensions, as documented: Refuted: with c=None, as documented, c[ell_nb] raises, and two-dimensional shells raise for every argument (the third coordinate is always looked up). Proved: a sequence of None works for ellipses, uniformly in area; three dimensions work for both functions. Refuted: `C168_none_refuted`, `C168_shell_refuted`. Proved: `C168_ellipsoid_partial`, `C168_area`, `C168_three`, `C168_shell_three`.
* **C175** Mock halos are reproducible realisations: Refuted: np.random.seed(shell_nb) resets the global generator, so that (1) seeds chosen by the user have no influence and no second realisation exists, (2) after a direct call all later random numbers of the caller are the same for every seed chosen before, (3) the particles of different halos are made of the same random numbers: same directions, and for equal numbers of particles exact images of each other. Proved: reproducible for every generator, state and schedule of the workers. Refuted: `C175_state_refuted`, `C175_copies_refuted`. Proved: `C175_reproducible_partial`.
* **C178** Density profiles of mock halos are those of the model: False for bins which do not end at surfaces of the shells: the mass of a shell is spread evenly over its thickness and not over its volume, so that the estimate in the inner part of a shell is too large in the limit, e.g. for the profile of Navarro, Frenk and White everywhere within the scale radius. Proved: the limit in every bin, and that it is the mean density of the model for bins between surfaces. Random numbers are independent within a shell; quad is the integral; real arithmetic; the centre is the exact one. Refuted: `C178_within_refuted`. Proved: `C178_limit`, `C178_surfaces_partial`, `C178_exist`.
* **C179** Rounding does not decide whether a local shape is found: False for a particle at the edge: if its distance is rounded to the radius it is left out, and with IT_MIN particles in the sphere no shape is reported although exact arithmetic finds one. Proved under the margins of C177: no particle near the edge of an ellipsoid of the iteration, no change of the ratios near the tolerance, no ellipsoid too flat. Ellipsoid-based, not reduced. Refuted: `C179_found_refuted`. Proved: `C179_found_partial`.
* **C180** Local shapes are stable under small changes of the data: False at the edge: with a particle on the surface of the sphere an arbitrarily small shift of the centre turns a shape with axis ratio about 0.7 into a gap. Proved for ellipsoids and shells, plain and reduced: if no particle is exactly on the surface of an ellipsoid of the iteration or on the inner boundary of a shell, no such boundary has a vanishing semi-axis, and no ratio changes exactly by the tolerance, the report depends continuously on all data (radius, thickness, ratios and ellipsoidal distances in every direction). Exact arithmetic, one object with given centre. Refuted: `C180_stable_refuted`. Proved: `C180_stable_partial`.
* **C181** Density profiles are stable under small changes of the data: False for binned profiles: a particle moved across an edge by an arbitrarily small distance takes all its mass from one bin to the next. Proved for kernel-based profiles (no particle exactly at the centre, where the code raises ZeroDivisionError), and for binned profiles and enclosed masses with no particle exactly on an edge. Spherical profiles of one object with given centre, exact arithmetic. Refuted: `C181_binned_refuted`. Proved: `C181_kernel`, `C181_binned_partial`, `C181_enclosed_partial`.
* **C185** Centres and masses depend continuously on the arrays handed in, unless a particle is exactly on a sphere of the search for the mode: Proved from constructor to table for CENTER=com, and for CENTER=mode if no particle is exactly on a sphere of the search (which needs no positive distance: continuity at every such input). Refuted without this condition: a particle exactly on the first sphere moves the mode by a fixed amount however little it is moved. Exact arithmetic. Refuted: `C185_mode_refuted`, `C185_centres_refuted`. Proved: `C185_centres`, `C185_mode`.
* **C187** The global shape is the local shape at R200: False at R200: the margin SAFE = 6 (Mpc/h) is added to R200, so an object all particles of which are beyond R200 has no local shape at R200 but a global one (C187_r200_refuted). Proved with radius R200 + 6 Mpc/h instead: the two entries are equal. Without stored catalogues (C60-C62). Exact arithmetic. Refuted: `C187_r200_refuted`. Proved: `C187_margin_partial`, `C187_from_files_partial`.
* **C188** Results at a radius are the same, whatever other radii are asked for: False of shells except the first, which is the ellipsoid (C188_first_shell): the cross has a shape at R200 if this is the only radius, and none if 0.015 R200 is asked for as well (C188_shells_refuted). False of binned density profiles: bins end half way to the neighbouring radii, so the density at R200/100 is zero or not depending on whether R200/10 is asked for as well (C188_density_refuted); proved: it depends on no radii but the neighbouring ones. Proved of local shapes (shells: except for the radius before) and of kernel-based profiles. Density profiles of objects not crossing a face; shapes of all objects. Exact arithmetic, without stored catalogues (C60-C62). Refuted: `C188_density_refuted`, `C188_shells_refuted`. Proved: `C188_shapes_partial`, `C188_shapes_from_files_partial`, `C188_density_from_files_partial`, `C188_kernel_partial`, `C188_density_partial`, `C188_first_shell`.
* **C189** Rounding does not make results depend on the order of particles: False in the last digit: numbers are added one after the other in the order of the list, and small ones are lost if a large one comes first (C189_order_refuted). Proved: two orders differ by at most 4(n+4) rounding errors of the mass (densities times volume: 4(n+1)). With exact arithmetic the order does not matter for profiles and shapes (C29, C79). Refuted: `C189_order_refuted`. Proved: `C189_mass_partial`, `C189_density_partial`, `C189_enclosed_partial`.

## Properties proved in full

* **C01** Caching never changes a result: `C01_cache_transparent`. All four wrapper modes, any history of calls, failures and clears.
* **C02** A bounded cache never outgrows its limit: `C02_size_bound`. 
* **C03** Eviction removes the least recently used entry: `C03_lru`. 
* **C04** Cache statistics are exact: `C04_counters`, `C04_unbounded_hit`. 
* **C05** A failing call leaves the cache untouched: `C05_failure_invisible`. 
* **C06** Clearing the cache restores the initial state: `C06_clear_fresh`. 
* **C07** Memory-limited cache: no eviction before the limit, constant size after it: `C07_no_eviction_before_limit`, `C07_constant_after_limit`. Free memory is an arbitrary oracle value per call.
* **C08** Array arguments survive the caching layer unchanged: `C08_arguments_survive`. The dtype is preserved too, except that empty arrays arrive as float64.
* **C10** Concurrent callers cannot corrupt a bounded cache: `C10_concurrent_safe`, `C10_own_call`. Atomic steps are the two lock-protected phases of a call and cache_clear.
* **C11** Unit conversions are mutually inverse: `C11_length`, `C11_velocity`. Exact arithmetic; the float32 rounding of the factor is not modelled.
* **C12** Naming a unit means the same as giving its value: `C12_unit_names`. 
* **C15** Density profiles survive the unit round trip of estimation and fitting: `C15_reported_density`, `C15_round_trip`, `C15_reported_parameters`, `C15_concentration_unit_free`. The optimiser is an arbitrary function.
* **C16** Object selections are accepted exactly when valid: `C16_selection`. 
* **C17** Selecting objects yields exactly their particles: `C17_subselection`. 
* **C18** Resolution cut keeps exactly the well-resolved objects: `C18_resolution_cut`. 
* **C19** Halo catalogue contains exactly the qualifying halos: `C19_catalogue`. Consistent tables; every schedule.
* **C20** Catalogue objects are disjoint and in range: `C20_disjoint`. 
* **C21** Parallel catalogue generation is schedule independent: `C21_schedule_independent`. All tables, also inconsistent ones; writes are atomic and sequentially consistent.
* **C22** Unwrapping moves particles only by whole boxes and gathers them: `C22_whole_boxes`, `C22_gathered`. 
* **C23** Reported centres lie inside the box: `C23_recentre`, `C23_centre_in_box`. 
* **C25** Centre of mass is a weighted mean: `C25_weighted_mean`, `C25_centre_of_mass`. 
* **C28** Radial binning conserves mass: `C28_mass_conserved`. 
* **C29** Density profiles do not depend on particle order: `C29_order_independent`. Exact arithmetic.
* **C30** Density bin edges bracket the requested radii: `C30_edges`. 
* **C31** Enclosed mass is monotone: `C31_enclosed_mass`. 
* **C32** Density profiles are non-negative: `C32_nonneg_linear`. 
* **C34** Shape iteration terminates within the iteration wall: `C34_terminates`. For any eigenvalue routine.
* **C35** A reported shape is converged and well resolved: `C35_self_consistent`, `C35_large_tolerance`. Assumes the eigenvalue routine returns ascending eigenvalues with orthogonal eigenvectors (GoodSolver), exact arithmetic. With IT_TOL >= 1 no shape is reported at all (C35_large_tolerance).
* **C36** Axis ratios are ordered and axes orthonormal: `C36_ordered_orthonormal`, `C35_large_tolerance`. Same assumptions as C35.
* **C37** Shape tensor is symmetric positive semidefinite: `C37_tensor`, `C37_scale_order`. 
* **C38** Shapes do not depend on where the object is: `C38_translation`. Exact arithmetic.
* **C41** Parallel shape computation is schedule independent: `C41_schedule_independent`. Threads with private scratch arrays, steps interleave arbitrarily; all four kinds of catalogues.
* **C43** Ellipticities are bounded and rotate correctly: `C43_second_moments`, `C43_rotation`, `C43_modulus`, `C43_order`, `C43_mass_unit`. Both choices of the center. Exact arithmetic.
* **C44** Triaxiality lies in [0,1]: `C44_range`, `C44_nan`. 
* **C45** Mass splitting is an ordered partition: `C45_ordered_partition`, `C45_edges`, `C45_vectors`, `C45_sizes`. For every result np.argsort may return (no stability assumed).
* **C47** Blocks partition a list: `C47_blocks`, `C47_negative_size_refuted`. Negative sizes (outside the claim) silently lose all values.
* **C48** Density profile models are consistent: `C48_special_cases`, `C48_alpha_beta_gamma`, `C48_slopes`, `C48_einasto`, `C48_transition`. 
* **C49** Fit methods are validated exactly: `C49_accepts_iff`, `C49_rejects`. 
* **C50** Fit results belong to their object: `C50_rows`, `C50_accepted`, `C50_no_crosstalk`. Every order in which workers deliver; the optimiser is an arbitrary function.
* **C52** Every snapshot chunk is read by exactly one rank, in order: `C52_partition`, `C52_catalogue`. For every number of ranks and files and for arbitrary contents; MPI gather/broadcast by their semantics.
* **C53** Chunked broadcast delivers the whole array: `C53_broadcast`. 
* **C54** Snapshot file resolution follows a fixed precedence: `C54_resolution`, `C54_stable`. 
* **C55** Block search terminates and finds the right block: `C55_found`, `C55_absent`, `C55_sound`. Termination is that of the recursion of the model (well-founded on the rest of the file), for every file.
* **C63** Mock halos have the requested mass: `C63_total_mass`, `C63_shells`, `C63_follows_model`. Integrals are exact.
* **C64** Mock halo particles lie in their shells: `C64_in_shell`, `C64_inShell`, `C64_boundary`. For positive, increasing semi-axes. The comment in the code that all points pass the strict test inShell is false for the smallest random number of a shell (C64_boundary).
* **C68** Particle type names are decoded exactly: `C68_part_types`, `C68_rejected`. 
* **C69** Chi-square distances are well behaved: `C69_nonneg`, `C69_symmetric`, `C69_zero_iff`, `C69_identical`, `C69_counts`, `C69_profiles`, `C69_pearson`, `C69_pearson_profiles`. p-values (scipy) are not modelled.
* **C71** Scientific-notation labels denote the same number: `C71_same_number`, `C71_power_of_ten`, `C71_large_exponents`, `C71_three_digits_not_refused`. All mantissas d.dd with either sign, all exponents -19..19; two-digit exponents beyond are refused; three-digit exponents (outside the supported range) are mis-rendered silently.
* **C77** Kernel-based profiles contain the total mass: `C77_total_mass`. 
* **C78** Density profiles of a catalogue do not influence each other: `C78_no_crosstalk`. Threads with private scratch arrays, steps interleave arbitrarily.
* **C79** Shapes do not depend on particle order or mass unit: `C79_order_and_mass_unit`. Exact arithmetic.
* **C83** Average shape profiles use exactly the classified values of each radius: `C83_values`. 
* **C84** Medians are medians: `C84_order`, `C84_halves`. 
* **C88** Profiles generated by a model are recovered: `C88_exact_data`. 
* **C89** Group catalogue files are read in numerical order: `C89_file_number`, `C89_file_order`. 
* **C90** Snapshot headers are read as written: `C90_header`. 
* **C92** Mock halos have about the requested number of particles: `C92_resolution`. 
* **C93** Points drawn from an ellipsoid lie in it: `C93_in_ellipsoid`. 
* **C94** Fibonacci points are spread evenly: `C94_evenly_spread`, `C94_longitudes`. 
* **C95** Masses and centres of objects belong to the data handed in: `C95_masses_centers`, `C95_outcome_exists`. In mode finding the only failure is exceeding the recursion limit (C26). little_h is the same at construction and query. That the mean of images is the mean of a contiguous copy of the object is C75.
* **C100** Objects from snapshot files equal objects from arrays: `C100_files_as_arrays`, `C100_masses_centers`. HDF5 snapshots and binary snapshots (as in C132); radii up to rounding to single precision; central subhalos as in C19.
* **C105** Every outcome of the shape determination has its reason: `C105_outcome`. Assumes positive masses and a tolerance below 1, and of the eigenvalue routine what GoodSolver says. Generalises C80_only_flat_partial.
* **C107** Calls share a cached result only if their arguments are equal: `C107_shared_only`, `C107_found`, `C107_transparent`. Values up to Python equality; floats are rational numbers, NaN and instances of other classes are compared by identity.
* **C114** Rotating an object rotates its shape: `C114_rotation`, `C114_routine`, `C114_profile`, `C114_global`. Exact arithmetic; both eigenvalue routines return an orthonormal eigenbasis with ascending eigenvalues. For one object with given particles and centre (unwrapping in a periodic box is not invariant under rotations of the box).
* **C115** Virial overdensity: `C115_virial_density`, `C115_bound`, `C115_decreasing`, `C115_limit`, `C115_no_matter`. Without matter the call raises ZeroDivisionError (C115_no_matter).
* **C122** Velocities of a snapshot come back in the outgoing unit: `C122_hdf5`, `C122_binary`. Exact arithmetic; cosmological snapshots (the scale factor in the header is 1 if the redshift is 0).
* **C124** Unusable Gadget input is refused: `C124_refused`. 
* **C126** Round objects are reported as round: `C126_round`, `C126_reported`. Exact arithmetic and an eigenvalue solver with the documented properties (see trusted base).
* **C128** Three-dimensional pictures have equal scales and lose nothing: `C128_axes`. 
* **C131** Comparison of two samples is the Kolmogorov-Smirnov statistic: `C131_largest_difference`, `C131_symmetries`, `C131_rescaled`. Statistic only; scipy's ks_2samp is modelled from its source, the p-value is not modelled.
* **C132** The format of the snapshot does not matter: `C132_files_as_arrays`, `C132_formats`. Equality of objects is proved in full; results from files: C96, C106, C113. Binary snapshots: format 1 (C56), a mass block in every file if masses are not in the header (C57).
* **C138** Output units only change the numbers, not the quantities: `C138_positions`, `C138_radii`, `C138_centres`, `C138_profiles`, `C138_ellipsoids`, `C138_kernel`, `C138_shapes`. For every object whatsoever, no hypotheses on the data; both unit systems positive and with the same h (other h: C97_little_h_changed_refuted).
* **C139** Data handed in comes back up to rounding: `C139_lengths`, `C139_masses`, `C139_inside_lengths`, `C139_inside_masses`. Rounding is modelled by any monotone function with bounded relative error (binary formats with p digits, ties to even, are an instance: Verif.Round.binary).
* **C141** Total masses are accurate to rounding: `C141_mass`, `C141_monotone`, `C141_sublist`. The order of the additions is that of the code; the bound holds for any list of non-negative masses.
* **C142** Centres of mass are accurate to rounding: `C142_centre`. One coordinate of calcCoM after unwrapping; np.sum and np.average add in any order and bracketing.
* **C145** Enclosed mass never decreases, with rounding: `C145_enclosed`, `C145_right_particles`, `C145_entry`. Any rounding which is monotone and fixes stored numbers.
* **C147** A cached function returns the last value it computed: `C147_last_run`, `C147_twice`. About the linked-list model of the cache; calls from one thread.
* **C150** Point clouds without periodicity: `C150_shapes`, `C150_profiles`, `C150_kernel`, `C150_centres`, `C150_room`, `C150_means`. Objects made from arrays. Both simulations may be with or without periodicity. Ellipsoidal shells are not covered.
* **C151** Periodic unwrapping and rounding errors: `C151_left_alone`, `C151_images`, `C151_single_precision`, `C151_mirrored`, `C151_open`. Objects across a face are mirrored by the compiled helper in exact arithmetic already (C24).
* **C153** Caches with a lock are safe between any two reads and writes: `C153_atomic`, `C153_values`, `C153_counters`, `C153_progress`. Also justifies the atomic phases of C10: every execution in single reads and writes shows what some execution of the model of C10 shows. The wrappers without a lock are the subject of C149.
* **C154** Results at a radius depend only on the matter within that radius: `C154_local_shapes`, `C154_global_shapes`, `C154_profiles`, `C154_outcome`, `C154_cross`. C154_cross is a concrete case: two heavy particles far outside do not change the shape of a cross.
* **C155** The motion of the observer does not change velocity shapes: `C155_boost`, `C155_cross`. Exact arithmetic. About calcMorphGlobalVelDisp: the method getShapeCatVelGlobal cannot be called (C67), and the local variant ignores velocities (C42).
* **C156** The accuracy of the total mass does not matter for shapes: `C156_total_mass`, `C156_single`, `C156_cross`. The sum of the masses is rounded to double and then to single precision after each addition (no overflow, no underflow to zero); the rest of the iteration is exact.
* **C158** The mode of an object is at its dominating clump: `C158_shrinking`, `C158_clump`, `C158_centre`, `C158_shape_centre`. In real arithmetic; if mode finding returns (C26 says when it does). Objects crossing the boundary of the box are covered by C95.
* **C160** The global shape is that of the second moments: `C160_whole`, `C160_returns`, `C160_stretched`. In real arithmetic, for CENTER = com and objects not crossing a face of the box. Components of axes which are exactly zero are shown as NaN (C40).
* **C161** Global velocity shapes are those of the velocity dispersion tensor: `C161_whole`. In real arithmetic, for objects not crossing a face of the box. About calcMorphGlobalVelDisp: the method getShapeCatVelGlobal cannot be called (C67).
* **C162** Mock halos follow the density model at every surface: `C162_enclosed`, `massInside_sphere`. quad is the integral; np.random.uniform returns numbers at least the lower and less than the upper bound.
* **C167** The reduced shape tensor counts directions, not distances: `C167_directions`. The outcomes are equal, not only equivalent. Real arithmetic; ellipsoids, positions (for velocities the weights do depend on the distances).
* **C169** Axis ratios and axes are accurate to rounding: `C169_ratios`. One iteration, for given selected particles, centre and r_ell; the selection in the next iteration is not continuous in the axis ratios. The eigenvalue routine is backward stable (exact for a tensor within a fraction beta of the given one; beta = 0 is GoodSolver). No overflow or underflow.
* **C170** Global shapes are accurate to rounding: `C170_whole`. The whole iteration of runEllAlgo and runEllVDispAlgo with rounding, for the given centre; the condition is that the error is below a tenth of (c/a)^2. NaN counts as an exception in the model (the theorem excludes both). The eigenvalue routine is backward stable as in C169. No overflow or underflow.
* **C171** Global shapes about computed centres are accurate to rounding: `C171_centre`, `C171_positions`, `C171_velocities`. The iteration of C170 for a centre computed by calcCoM (as in C142, after unwrapping) or a mean velocity computed by CythonHelpers.calcCoM (as in C157, up to 2.8 million particles); condition: particles within a third of c/a times the size. No overflow or underflow.
* **C172** Global shapes tolerate inexact coordinates: `C172_inexact`, `C172_stored`. The iteration of C170 with rounding and a computed centre as in C171, applied to particles which differ from the exact ones; C172_stored: positions rounded to another precision. Condition: particles within a quarter of c/a times the size. The errors of coordinates are not restricted to come from a particular operation, so that conversions of units and unwrapping are covered as well.
* **C173** Points drawn from an ellipsoid are independent and uniform: `C173_ellipsoid`, `C173_ellipse`. Numbers of the generator are taken to be exactly normal and uniform, and independent; rounding is not included. See C175 for what seeds do to independence between calls.
* **C174** Particles of mock halos have the prescribed shape on average: `C174_shell`, `C174_sphere`, `C174_shell_tensor`, `C174_ellipsoid_tensor`, `C174_similar`. shellParticle is what drawUniformFromShell returns for one particle (C168_shell_three). Numbers of the generator are taken to be exactly normal and uniform, and independent.
* **C176** Shapes of large mock halos are recovered: `C176_ellipsoid`, `C176_halo`. Axes are compared only if they are determined (distinct axis ratios), up to sign. Real arithmetic and exactly normal and uniform numbers; rounding of the iteration is treated in C170 to C172. Independence is needed within each shell only, so the common seeds of C175 do no harm here; weights 1 (reduced=False).
* **C177** Rounding errors do not accumulate over the iterations of a local shape: `C177_local`, `C177_gap`. The margins are explicit: with f a lower limit for the minor axis ratios, the squared ellipsoidal radii of the particles must differ from d^2 by more than the fraction bound/f^2, and the changes of the ratios from the tolerance by more than 8 unit roundoffs of single precision (in which the absolute value is taken) plus 6 bound/f^2. Assumed of the eigensolver is backward stability. No overflow or underflow. Reduced tensor and shells: without explicit bounds in C182.
* **C182** With sufficiently precise arithmetic, local shapes are those of exact arithmetic: `C182_precise`. Without explicit bounds (these are in C177 for the plain tensor and ellipsoids). The arithmetic is any rounding with unit roundoff tending to zero, likewise single precision, which is used for the total mass and absolute values; the eigensolver is backward stable with an error tending to zero. No overflow or underflow. One object with given centre; no particle exactly at the centre if the tensor is reduced.
* **C183** Shape catalogues depend continuously on the arrays handed in, unless a decision is on a knife's edge: `C183_catalogue`, `C183_catalogue_any`, `C183_cross`. From constructor to catalogue, lifting C180 through the object (units, centring, unwrapping, parallel loops). The exceptions named in the property are hypotheses; that shapes do jump at knife edges is C180_stable_refuted, that centres jump on spheres of the search is C185_mode_refuted. Exact arithmetic; velocity dispersion tensors not covered.
* **C184** Density profiles depend continuously on the arrays handed in, unless a particle is exactly on an edge: `C184_density`, `C184_kernel`, `C184_density_any`, `C184_kernel_any`. From constructor to table, lifting C181 through the object (units, centring, unwrapping, parallel loops). The exceptions named in the property are hypotheses; that binned profiles do jump when a particle crosses an edge is C181_binned_refuted, that centres jump on spheres of the search is C185_mode_refuted. Exact arithmetic; ellipsoidal shells not covered.
* **C186** Masses, centres and density profiles agree with each other: `C186_binned`, `C186_kernel`, `C186_from_files`, `C186_bins`. Two calls on one object, with possibly different output units and schedules but the same recursion limit. Objects crossing a face: C24, C96. Exact arithmetic.

## Trusted base

* Lean's kernel; axioms at most `propext`, `Classical.choice`, `Quot.sound` (listed per theorem at the end).
* The reading of the Python/Cython code expressed in the model files. The models are hand-written, not extracted.
* Explicit assumptions, which are hypotheses of the theorems or parameters of the models:
  * LAPACK `ZHEEVR` returns an orthonormal eigenbasis with ascending eigenvalues (`GoodSolver`), for C36, C80, C105, C106, C111, C114, C126; all other
    theorems about shapes hold for an arbitrary eigen-solver.
  * `scipy.optimize.minimize` is an arbitrary function; `Respects` (result within the bounds) for C51 and `Minimises` (result
    is a minimum within the bounds) for C87, C88.
  * `scipy.integrate.quad` is the exact integral (C63, C65, C92).
  * `np.argsort` returns some sorting permutation (no stability assumed).
  * Random draws are arguments (`choose`, `Draw`); in C173, C174 and C176 they are exactly normal or uniform, and independent; in C175 they come from any generator with a state.
  * Threads: `prange` iterations may run in any order, on any number of threads, and steps of different threads may be
    interleaved arbitrarily; single reads and writes are atomic (sequential consistency).
  * MPI: messages are delivered unchanged; a failing process is a failure of the program.
  * Files: a binary file is a list of bytes, a little-endian host; HDF5 files are given by their datasets and attributes;
    `np.savetxt`/`np.loadtxt` are modelled as tables with an arbitrary rounding function; a crash leaves complete files, then
    possibly one file with arbitrary contents.
  * Python: binding of arguments to parameters; `assert` is enabled; Cython's `cdivision=False`.
* Not modelled: drawing of plots (only the numbers which are drawn and the labels), MPI transport, h5py, LAPACK/scipy
  internals, floating-point rounding (except C139-C145, C151, C156, C157, C169-C172, C177, C179), integer overflow (except C58, C146), p-values of statistical tests, the numbers drawn in bootstrap resampling (arbitrary),
  documentation stubs in `for_docs`.

## What is modelled, file by file

| File | Modelled | Not modelled |
|---|---|---|
| common/caching.py | all of it (`lru_cache` in all modes, `_make_key` for positional and keyword arguments, `typed=True`, `np_cache_factory`) | values whose equality or hash is user-defined; NaN arguments are compared by identity |
| common/config.py | `getAdmissibleLMV`, `getLMVInternal`, `initialize` (units), `update…UnitSystem`, all converters, `LMVLabel`, `updateCachingMaxGBs`, `updateCachingMaxSize` | |
| common/python_routines.py | `eTo10`, `fibonacci_*`, `calcMode`, `drawUniformFrom*`, `inShell`, `respectPBCNoRef`, `calcCoM`, `recentreObject`, `getCatWithinFracR200`, `isValidSelection`, `getSubSetIdxCat`, `checkKatzConfig`, `checkDensFitMethod`, `getRhoCrit`, `getDelta`, `getMassDMParticle`, `print_status` (C129), `set_axes_equal` (C128) | |
| common/cosmo_tools.py | `chiSquareToI*` including shape curves (statistic), `getMeanOrMedianAndError` (median, quantile, SEM, bootstrap), `getBlocks`, `M_split`, `respectPBC`, `KSTest` (statistic) | p-values |
| common/cosmic_base_class.pyx | unit conversions, stored catalogues, fits and concentrations, density profile drivers, call signatures | plots |
| cython_helpers/helper_class.pyx | shape tensor, centre of mass, PBC, direct binning, enclosed mass, kernel, `calcLocalSpread` | – |
| shape_profs/shape_profs_algos.pyx | the four Katz algorithms, `calcMorph*` post-processing and threading | |
| shape_profs/shape_profs_tools.py | `getEpsilon`, `getShape`/`getShapeMs`, T histograms | drawing |
| shape_profs_classes.pyx, dens_profs_classes.pyx | constructors (arrays and Gadget files), getters, selections, signatures, what `vizLocalShapes`/`vizGlobalShapes` draw , names of picture files (C120), velocities (C122) | colours |
| dens_profs/dens_profs_algos.pyx | all three density algorithms, enclosed mass | |
| dens_profs/dens_profs_tools.py | profile models, fits, curves of `drawDensProfs` | labels and drawing |
| gadget/*.py, *.pyx | `read_fof.py`, `readsnap.py` (header, all blocks), `readgadget.py`, `gen_catalogues.pyx` | neutrinos |
| mock_tools/mock_halo_gen.py | `genHalo`, all four models | |
| rounding | Verif/Round: conversions, sums, centre of mass, unwrapping, recentring, spherical shells, shape tensor, axis ratios and axes of one iteration, whole ellipsoid-based iterations | overflow, underflow, the other algorithms |
| example_scripts/apply_ahf.py | reading of the AHF files | the rest |

## Axioms of the property theorems (`#print axioms`)

* none (1 theorems): `Misc.C70_no_objects_partial`
* propext (8 theorems): `Cache.C05_failure_invisible`, `Cache.C103_settings_partial`, `Cache.C99_no_memory_limit`, `Cache.Counters.C149_lost_zero_refuted`, `Fits.C49_rejects`, `Gadget.C59_stale_units_refuted`, `Gadget.C68_rejected`, `Misc.C127_single_refuted`
* Quot.sound, propext (14 theorems): `Cache.C103_no_effect_refuted`, `Cache.C10_own_call`, `Cache.C99_deadlock_refuted`, `Cache.C99_mixed_data_refuted`, `Cache.Counters.C149_bounds_partial`, `Cache.Counters.C149_values`, `Gadget.C52_partition`, `Gadget.C59_fixed_units_partial`, `Misc.C70_refuted`, `Misc.C70_type_error_refuted`, `Misc.C71_large_exponents`, `Misc.C71_power_of_ten`, `NpCache.C09_dtype_confused_refuted`, `Stats.C47_negative_size_refuted`
* Classical.choice, Quot.sound, propext (511 theorems): `Api.C100_files_as_arrays`, `Api.C100_masses_centers`, `Api.C101_other_processes_refuted`, `Api.C101_process_partial`, `Api.C102_getter_partial`, `Api.C102_units_changed_refuted`, `Api.C104_other_objects_refuted`, `Api.C104_own_catalogue_refuted`, `Api.C104_sharing_partial`, `Api.C106_cross`, `Api.C106_crossing_refuted`, `Api.C106_from_files_partial`, `Api.C106_outcome_exists`, `Api.C106_shapes_partial`, `Api.C111_aligned_refuted`, `Api.C111_arrows_refuted`, `Api.C111_crossing_refuted`, `Api.C111_picture_partial`, `Api.C112_all_nan_refuted`, `Api.C112_few_radii`, `Api.C112_mode_fails_refuted`, `Api.C112_returns`, `Api.C112_sizes_partial`, `Api.C113_from_files_partial`, `Api.C113_kernel_partial`, `Api.C113_outcome_exists`, `Api.C113_particle_at_centre`, `Api.C113_particle_at_centre_refuted`, `Api.C118_getter_changes_results_refuted`, `Api.C118_history_partial`, `Api.C122_binary`, `Api.C122_hdf5`, `Api.C124_refused`, `Api.C125_masses`, `Api.C125_mode_refuted`, `Api.C125_same_partial`, `Api.C125_shapes`, `Api.C126_reported`, `Api.C129_detail_refuted`, `Api.C129_messages`, `Api.C129_numbers_partial`, `Api.C132_files_as_arrays`, `Api.C132_formats`, `Api.C134_centres_partial`, `Api.C134_crossing_refuted`, `Api.C134_kernel_partial`, `Api.C134_profiles_partial`, `Api.C134_shapes_partial`, `Api.C135_centres_partial`, `Api.C135_crossing_refuted`, `Api.C135_kernel_partial`, `Api.C135_profiles_partial`, `Api.C135_shapes_partial`, `Api.C136_centres_partial`, `Api.C136_kernel_partial`, `Api.C136_mode_refuted`, `Api.C136_profiles_partial`, `Api.C136_shapes_partial`, `Api.C137_centres`, `Api.C137_crossing_refuted`, `Api.C137_kernel_partial`, `Api.C137_profiles_partial`, `Api.C137_shapes_partial`, `Api.C138_centres`, `Api.C138_ellipsoids`, `Api.C138_kernel`, `Api.C138_positions`, `Api.C138_profiles`, `Api.C138_radii`, `Api.C138_shapes`, `Api.C148_centres_fail`, `Api.C148_centres_partial`, `Api.C148_kernel_fail`, `Api.C148_kernel_partial`, `Api.C148_profiles_fail`, `Api.C148_profiles_partial`, `Api.C148_shapes_fail`, `Api.C148_shapes_partial`, `Api.C148_spoiled_refuted`, `Api.C150_centres`, `Api.C150_kernel`, `Api.C150_means`, `Api.C150_profiles`, `Api.C150_room`, `Api.C150_shapes`, `Api.C152_centres_partial`, `Api.C152_kernel_partial`, `Api.C152_min_refuted`, `Api.C152_mode_refuted`, `Api.C152_profiles_partial`, `Api.C152_shapes_partial`, `Api.C152_split`, `Api.C154_cross`, `Api.C154_global_shapes`, `Api.C154_local_shapes`, `Api.C154_outcome`, `Api.C154_profiles`, `Api.C158_centre`, `Api.C158_clump`, `Api.C158_shape_centre`, `Api.C158_shrinking`, `Api.C159_flag_partial`, `Api.C159_nan_refuted`, `Api.C160_returns`, `Api.C160_stretched`, `Api.C160_whole`, `Api.C161_whole`, `Api.C183_catalogue`, `Api.C183_catalogue_any`, `Api.C183_cross`, `Api.C184_density`, `Api.C184_density_any`, `Api.C184_kernel`, `Api.C184_kernel_any`, `Api.C185_centres`, `Api.C185_centres_refuted`, `Api.C185_mode`, `Api.C185_mode_refuted`, `Api.C186_binned`, `Api.C186_bins`, `Api.C186_from_files`, `Api.C186_kernel`, `Api.C187_from_files_partial`, `Api.C187_margin_partial`, `Api.C187_r200_refuted`, `Api.C188_density_from_files_partial`, `Api.C188_density_partial`, `Api.C188_density_refuted`, `Api.C188_first_shell`, `Api.C188_kernel_partial`, `Api.C188_shapes_from_files_partial`, `Api.C188_shapes_partial`, `Api.C188_shells_refuted`, `Api.C26_depth`, `Api.C26_limit_partial`, `Api.C43_second_moments`, `Api.C95_masses_centers`, `Api.C95_outcome_exists`, `Api.C96_crossing_refuted`, `Api.C96_density_partial`, `Api.C96_from_files_partial`, `Api.C96_outcome_exists`, `Api.C97_getters_partial`, `Api.C97_little_h_changed_refuted`, `Api.C97_same_object`, `Binning.C181_binned_partial`, `Binning.C181_binned_refuted`, `Binning.C181_enclosed_partial`, `Binning.C181_kernel`, `Binning.C27_counted_twice_refuted`, `Binning.C27_ellipsoidal_partial`, `Binning.C27_ellipsoidal_profile`, `Binning.C27_one_bin`, `Binning.C27_profile`, `Binning.C28_mass_conserved`, `Binning.C29_order_independent`, `Binning.C30_edges`, `Binning.C31_enclosed_mass`, `Binning.C32_nonneg_linear`, `Binning.C33_mode_diverges_refuted`, `Binning.C33_particles_replaced_refuted`, `Binning.C33_profile_nan_refuted`, `Binning.C33_single_particles_partial`, `Binning.C76_ellipsoidal_edges_partial`, `Binning.C76_first_radius_outside_refuted`, `Binning.C77_total_mass`, `Binning.C78_no_crosstalk`, `Binning.C98_enclosed_mass`, `Binning.C98_mass_doubled_refuted`, `Binning.C98_mass_partial`, `Binning.C98_nonneg`, `Cache.C01_cache_transparent`, `Cache.C02_size_bound`, `Cache.C03_lru`, `Cache.C04_counters`, `Cache.C04_unbounded_hit`, `Cache.C06_clear_fresh`, `Cache.C07_constant_after_limit`, `Cache.C07_no_eviction_before_limit`, `Cache.C103_size_partial`, `Cache.C107_found`, `Cache.C107_shared_only`, `Cache.C107_transparent`, `Cache.C10_concurrent_safe`, `Cache.C147_last_run`, `Cache.C147_twice`, `Cache.C99_mpi_partial`, `Cache.Counters.C149_alone_partial`, `Cache.Counters.C149_clear_refuted`, `Cache.Counters.C149_lost_refuted`, `Cache.Locks.C153_atomic`, `Cache.Locks.C153_counters`, `Cache.Locks.C153_progress`, `Cache.Locks.C153_values`, `Catalogue.C146_members_partial`, `Catalogue.C146_number_refuted`, `Catalogue.C146_offsets_refuted`, `Catalogue.C16_selection`, `Catalogue.C17_subselection`, `Catalogue.C18_resolution_cut`, `Catalogue.C19_catalogue`, `Catalogue.C20_disjoint`, `Catalogue.C21_schedule_independent`, `Catalogue.C74_non_integer_list_refuted`, `Catalogue.C74_non_integers_partial`, `Cosmo.C115_bound`, `Cosmo.C115_decreasing`, `Cosmo.C115_limit`, `Cosmo.C115_no_matter`, `Cosmo.C115_virial_density`, `Cosmo.C116_box_partial`, `Cosmo.C116_critical_density`, `Cosmo.C116_matter_density_refuted`, `Cosmo.C116_no_particles`, `Fits.C108_flag_partial`, `Fits.C108_named_values`, `Fits.C108_no_data_refuted`, `Fits.C108_unsuccessful_refuted`, `Fits.C109_concentrations_partial`, `Fits.C109_fit_other_processes_refuted`, `Fits.C110_fit_partial`, `Fits.C110_gap_refuted`, `Fits.C110_median_partial`, `Fits.C110_panels`, `Fits.C49_accepts_iff`, `Fits.C50_accepted`, `Fits.C50_no_crosstalk`, `Fits.C50_rows`, `Fits.C51_concentration`, `Fits.C51_density_ignored_refuted`, `Fits.C51_given_partial`, `Fits.C51_scale_radius_refuted`, `Fits.C86_accepted_iff_partial`, `Fits.C86_accepted_partial`, `Fits.C86_truncated_refuted`, `Fits.C86_unknown_setting_refuted`, `Fits.C87_best_fit_partial`, `Fits.C87_empty_shell_refuted`, `Fits.C88_exact_data`, `Gadget.C123_header_mass_partial`, `Gadget.C123_header_masses_refuted`, `Gadget.C123_read_partial`, `Gadget.C123_wrong_block_refuted`, `Gadget.C52_catalogue`, `Gadget.C53_broadcast`, `Gadget.C54_resolution`, `Gadget.C54_stable`, `Gadget.C55_absent`, `Gadget.C55_found`, `Gadget.C55_sound`, `Gadget.C56_format2_refuted`, `Gadget.C57_binary_partial`, `Gadget.C57_empty_file_refuted`, `Gadget.C57_hdf5_partial`, `Gadget.C57_no_mass_block_refuted`, `Gadget.C58_hdf5_refuted`, `Gadget.C58_long_ids_refuted`, `Gadget.C59_cached_partial`, `Gadget.C59_cached_stale_refuted`, `Gadget.C59_first_read_partial`, `Gadget.C68_part_types`, `Gadget.C89_file_number`, `Gadget.C89_file_order`, `Gadget.C90_header`, `Gadget.C91_masses_as_ids_refuted`, `Gadget.C91_missing_partial`, `Gadget.readAny_readBlock`, `Misc.C127_particles_partial`, `Misc.C128_axes`, `Misc.C67_other_methods_partial`, `Misc.C67_refuted`, `Misc.C71_same_number`, `Misc.C71_three_digits_not_refused`, `Misc.bind_ok_iff`, `Mock.C162_enclosed`, `Mock.C163_distribution_partial`, `Mock.C163_ellipsoid`, `Mock.C163_uniform_refuted`, `Mock.C164_arguments_partial`, `Mock.C164_repeated`, `Mock.C164_untouched_refuted`, `Mock.C168_area`, `Mock.C168_ellipsoid_partial`, `Mock.C168_none_refuted`, `Mock.C168_shell_refuted`, `Mock.C168_shell_three`, `Mock.C168_three`, `Mock.C173_ellipse`, `Mock.C173_ellipsoid`, `Mock.C174_ellipsoid_tensor`, `Mock.C174_shell`, `Mock.C174_shell_tensor`, `Mock.C174_similar`, `Mock.C174_sphere`, `Mock.C175_copies_refuted`, `Mock.C175_reproducible_partial`, `Mock.C175_state_refuted`, `Mock.C176_ellipsoid`, `Mock.C176_halo`, `Mock.C178_exist`, `Mock.C178_limit`, `Mock.C178_surfaces_partial`, `Mock.C178_within_refuted`, `Mock.C63_follows_model`, `Mock.C63_shells`, `Mock.C63_total_mass`, `Mock.C64_boundary`, `Mock.C64_inShell`, `Mock.C64_in_shell`, `Mock.C65_empty_shell_refuted`, `Mock.C65_extent`, `Mock.C65_first_shell_partial`, `Mock.C65_no_failure`, `Mock.C66_on_ellipsoid_partial`, `Mock.C66_on_sphere_partial`, `Mock.C66_one_sample_refuted`, `Mock.C92_resolution`, `Mock.C93_in_ellipsoid`, `Mock.C94_evenly_spread`, `Mock.C94_longitudes`, `Mock.massInside_sphere`, `NpCache.C08_arguments_survive`, `NpCache.C09_key_faithful_partial`, `NpCache.C09_transparent_partial`, `Periodic.C130_mirrored_refuted`, `Periodic.C130_near_partial`, `Periodic.C22_gathered`, `Periodic.C22_whole_boxes`, `Periodic.C23_centre_in_box`, `Periodic.C23_recentre`, `Periodic.C24_images_partial`, `Periodic.C24_mirrored_refuted`, `Periodic.C24_third_axis_refuted`, `Periodic.C25_centre_of_mass`, `Periodic.C25_weighted_mean`, `Periodic.C26_in_bounding_box`, `Periodic.C26_mode_diverges_refuted`, `Periodic.C26_terminates_partial`, `Periodic.C75_compact_object_torn_refuted`, `Periodic.C75_contiguous_partial`, `Plots.C120_eps_refuted`, `Plots.C120_kept_partial`, `Plots.C120_mass_bins_refuted`, `Plots.C120_types_refuted`, `Plots.C121_bars_partial`, `Plots.C121_number_refuted`, `Round.C139_inside_lengths`, `Round.C139_inside_masses`, `Round.C139_lengths`, `Round.C139_masses`, `Round.C140_converters_partial`, `Round.C140_converters_refuted`, `Round.C141_mass`, `Round.C141_monotone`, `Round.C141_sublist`, `Round.C142_centre`, `Round.C143_density_partial`, `Round.C143_edge_values`, `Round.C143_edges_sorted`, `Round.C143_entry_partial`, `Round.C143_one_shell`, `Round.C143_right_shell`, `Round.C143_single_precision_partial`, `Round.C143_single_precision_refuted`, `Round.C143_value_partial`, `Round.C143_volume_partial`, `Round.C144_image`, `Round.C144_in_box_partial`, `Round.C144_in_box_refuted`, `Round.C145_enclosed`, `Round.C145_entry`, `Round.C145_right_particles`, `Round.C151_images`, `Round.C151_left_alone`, `Round.C151_mirrored`, `Round.C151_open`, `Round.C151_single_precision`, `Round.C156_cross`, `Round.C156_single`, `Round.C156_total_mass`, `Round.C157_mean_partial`, `Round.C157_mean_refuted`, `Round.C169_ratios`, `Round.C170_whole`, `Round.C171_centre`, `Round.C171_positions`, `Round.C171_velocities`, `Round.C172_inexact`, `Round.C172_stored`, `Round.C177_gap`, `Round.C177_local`, `Round.C179_found_partial`, `Round.C179_found_refuted`, `Round.C182_precise`, `Round.C189_density_partial`, `Round.C189_enclosed_partial`, `Round.C189_mass_partial`, `Round.C189_order_refuted`, `Shapes.C105_outcome`, `Shapes.C114_global`, `Shapes.C114_profile`, `Shapes.C114_rotation`, `Shapes.C114_routine`, `Shapes.C126_round`, `Shapes.C133_catalogue_partial`, `Shapes.C133_global_refuted`, `Shapes.C155_boost`, `Shapes.C155_cross`, `Shapes.C165_body`, `Shapes.C165_fixed_partial`, `Shapes.C165_ratios`, `Shapes.C165_reported_partial`, `Shapes.C165_shells_refuted`, `Shapes.C166_cover_partial`, `Shapes.C166_hole_refuted`, `Shapes.C166_innermost`, `Shapes.C166_shell_partial`, `Shapes.C167_directions`, `Shapes.C180_stable_partial`, `Shapes.C180_stable_refuted`, `Shapes.C34_terminates`, `Shapes.C35_large_tolerance`, `Shapes.C35_self_consistent`, `Shapes.C36_ordered_orthonormal`, `Shapes.C37_scale_order`, `Shapes.C37_tensor`, `Shapes.C38_translation`, `Shapes.C39_catalogue_refuted`, `Shapes.C39_from_iteration_partial`, `Shapes.C39_no_iteration_refuted`, `Shapes.C40_axis_aligned_refuted`, `Shapes.C40_nonzero_partial`, `Shapes.C41_schedule_independent`, `Shapes.C42_global_outcome`, `Shapes.C42_global_partial`, `Shapes.C42_never_a_shape_refuted`, `Shapes.C42_velocities_ignored_refuted`, `Shapes.C79_order_and_mass_unit`, `Shapes.C80_flat_object_refuted`, `Shapes.C80_only_flat_partial`, `Stats.C117_between_refuted`, `Stats.C117_radius_by_radius_partial`, `Stats.C119_asked_partial`, `Stats.C119_errors_partial`, `Stats.C119_mass_bins_partial`, `Stats.C119_mass_bins_refuted`, `Stats.C131_largest_difference`, `Stats.C131_rescaled`, `Stats.C131_symmetries`, `Stats.C43_mass_unit`, `Stats.C43_modulus`, `Stats.C43_order`, `Stats.C43_rotation`, `Stats.C44_nan`, `Stats.C44_range`, `Stats.C45_edges`, `Stats.C45_ordered_partition`, `Stats.C45_sizes`, `Stats.C45_vectors`, `Stats.C46_edge_objects_dropped_refuted`, `Stats.C46_inner_objects_partial`, `Stats.C46_lightest_dropped_refuted`, `Stats.C47_blocks`, `Stats.C48_alpha_beta_gamma`, `Stats.C48_einasto`, `Stats.C48_slopes`, `Stats.C48_special_cases`, `Stats.C48_transition`, `Stats.C69_counts`, `Stats.C69_identical`, `Stats.C69_nonneg`, `Stats.C69_pearson`, `Stats.C69_pearson_profiles`, `Stats.C69_profiles`, `Stats.C69_symmetric`, `Stats.C69_zero_iff`, `Stats.C81_oblate_refuted`, `Stats.C81_others_partial`, `Stats.C82_classified_everywhere_partial`, `Stats.C82_local_triaxiality_refuted`, `Stats.C83_values`, `Stats.C84_halves`, `Stats.C84_order`, `Stats.C85_bootstrap_partial`, `Stats.C85_one_resampling`, `Stats.C85_quantile_errors_refuted`, `Stats.C85_sem_partial`, `Stored.C60_after_dump_partial`, `Stored.C60_fresh_partial`, `Stored.C60_refuted`, `Stored.C60_single_radius_refuted`, `Stored.C61_refuted`, `Stored.C61_same_units_partial`, `Stored.C62_from_scratch_partial`, `Stored.C62_refuted`, `Stored.C62_whole_files_partial`, `Units.C11_length`, `Units.C11_velocity`, `Units.C12_unit_names`, `Units.C13_rejection_changes_state_refuted`, `Units.C13_rejection_partial`, `Units.C14_mass_conversions_refuted`, `Units.C15_concentration_unit_free`, `Units.C15_reported_density`, `Units.C15_reported_parameters`, `Units.C15_round_trip`, `Units.C72_exact_refuted`, `Units.C72_labels_partial`, `Units.C72_three_digits`, `Units.C73_independent_partial`, `Units.C73_output_choice_changes_input_refuted`
