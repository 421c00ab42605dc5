{
 "claims": [
  {
   "property": "C01",
   "status": "proved",
   "theorems": [
    "Verif.Cache.C01_cache_transparent"
   ],
   "note": "All four wrapper modes, any history of calls, failures and clears."
  },
  {
   "property": "C02",
   "status": "proved",
   "theorems": [
    "Verif.Cache.C02_size_bound"
   ],
   "note": ""
  },
  {
   "property": "C03",
   "status": "proved",
   "theorems": [
    "Verif.Cache.C03_lru"
   ],
   "note": ""
  },
  {
   "property": "C04",
   "status": "proved",
   "theorems": [
    "Verif.Cache.C04_counters",
    "Verif.Cache.C04_unbounded_hit"
   ],
   "note": ""
  },
  {
   "property": "C05",
   "status": "proved",
   "theorems": [
    "Verif.Cache.C05_failure_invisible"
   ],
   "note": ""
  },
  {
   "property": "C06",
   "status": "proved",
   "theorems": [
    "Verif.Cache.C06_clear_fresh"
   ],
   "note": ""
  },
  {
   "property": "C07",
   "status": "proved",
   "theorems": [
    "Verif.Cache.C07_no_eviction_before_limit",
    "Verif.Cache.C07_constant_after_limit"
   ],
   "note": "Free memory is an arbitrary oracle value per call."
  },
  {
   "property": "C08",
   "status": "proved",
   "theorems": [
    "Verif.NpCache.C08_arguments_survive"
   ],
   "note": "The dtype is preserved too, except that empty arrays arrive as float64."
  },
  {
   "property": "C09",
   "status": "partial",
   "theorems": [
    "Verif.NpCache.C09_key_faithful_partial",
    "Verif.NpCache.C09_transparent_partial",
    "Verif.NpCache.C09_dtype_confused_refuted"
   ],
   "note": "False as stated: the dtype is not part of the key (refuted with a concrete history). Proved: keys agree exactly if shapes and numeric entries agree, and functions of shapes and values are cached transparently."
  },
  {
   "property": "C10",
   "status": "proved",
   "theorems": [
    "Verif.Cache.C10_concurrent_safe",
    "Verif.Cache.C10_own_call"
   ],
   "note": "Atomic steps are the two lock-protected phases of a call and cache_clear."
  },
  {
   "property": "C11",
   "status": "proved",
   "theorems": [
    "Verif.Units.C11_length",
    "Verif.Units.C11_velocity"
   ],
   "note": "Exact arithmetic; the float32 rounding of the factor is not modelled."
  },
  {
   "property": "C12",
   "status": "proved",
   "theorems": [
    "Verif.Units.C12_unit_names"
   ],
   "note": ""
  },
  {
   "property": "C13",
   "status": "partial",
   "theorems": [
    "Verif.Units.C13_rejection_partial",
    "Verif.Units.C13_rejection_changes_state_refuted"
   ],
   "note": "False as stated: the Hubble constant is replaced before the arguments are checked (refuted). Proved: everything else is unchanged."
  },
  {
   "property": "C14",
   "status": "partial",
   "theorems": [
    "Verif.Units.C14_mass_conversions_refuted"
   ],
   "note": "False: both functions raise KeyError for every configuration and mass; the negation is proved for all inputs."
  },
  {
   "property": "C15",
   "status": "proved",
   "theorems": [
    "Verif.Units.C15_reported_density",
    "Verif.Units.C15_round_trip",
    "Verif.Units.C15_reported_parameters",
    "Verif.Units.C15_concentration_unit_free"
   ],
   "note": "The optimiser is an arbitrary function."
  },
  {
   "property": "C16",
   "status": "proved",
   "theorems": [
    "Verif.Catalogue.C16_selection"
   ],
   "note": ""
  },
  {
   "property": "C17",
   "status": "proved",
   "theorems": [
    "Verif.Catalogue.C17_subselection"
   ],
   "note": ""
  },
  {
   "property": "C18",
   "status": "proved",
   "theorems": [
    "Verif.Catalogue.C18_resolution_cut"
   ],
   "note": ""
  },
  {
   "property": "C19",
   "status": "proved",
   "theorems": [
    "Verif.Catalogue.C19_catalogue"
   ],
   "note": "Consistent tables; every schedule."
  },
  {
   "property": "C20",
   "status": "proved",
   "theorems": [
    "Verif.Catalogue.C20_disjoint"
   ],
   "note": ""
  },
  {
   "property": "C21",
   "status": "proved",
   "theorems": [
    "Verif.Catalogue.C21_schedule_independent"
   ],
   "note": "All tables, also inconsistent ones; writes are atomic and sequentially consistent."
  },
  {
   "property": "C22",
   "status": "proved",
   "theorems": [
    "Verif.Periodic.C22_whole_boxes",
    "Verif.Periodic.C22_gathered"
   ],
   "note": ""
  },
  {
   "property": "C23",
   "status": "proved",
   "theorems": [
    "Verif.Periodic.C23_recentre",
    "Verif.Periodic.C23_centre_in_box"
   ],
   "note": ""
  },
  {
   "property": "C24",
   "status": "partial",
   "theorems": [
    "Verif.Periodic.C24_images_partial",
    "Verif.Periodic.C24_mirrored_refuted",
    "Verif.Periodic.C24_third_axis_refuted"
   ],
   "note": "False: the Cython routine mirrors coordinates instead of shifting them and never looks at the third coordinate (refuted). Proved: positions are used unchanged for objects which do not cross a boundary."
  },
  {
   "property": "C25",
   "status": "proved",
   "theorems": [
    "Verif.Periodic.C25_weighted_mean",
    "Verif.Periodic.C25_centre_of_mass"
   ],
   "note": ""
  },
  {
   "property": "C26",
   "status": "partial",
   "theorems": [
    "Verif.Periodic.C26_terminates_partial",
    "Verif.Periodic.C26_in_bounding_box",
    "Verif.Periodic.C26_mode_diverges_refuted",
    "Verif.Api.C26_depth",
    "Verif.Api.C26_limit_partial"
   ],
   "note": "False for five or more coinciding particles (refuted for every recursion limit); proved if at most four coincide."
  },
  {
   "property": "C27",
   "status": "partial",
   "theorems": [
    "Verif.Binning.C27_profile",
    "Verif.Binning.C27_one_bin",
    "Verif.Binning.C27_ellipsoidal_partial",
    "Verif.Binning.C27_counted_twice_refuted",
    "Verif.Binning.C27_ellipsoidal_profile"
   ],
   "note": "Proved for spherical bins, and for ellipsoidal bins with constant axis directions; false for ellipsoidal bins whose axis directions change with radius (refuted)."
  },
  {
   "property": "C28",
   "status": "proved",
   "theorems": [
    "Verif.Binning.C28_mass_conserved"
   ],
   "note": ""
  },
  {
   "property": "C29",
   "status": "proved",
   "theorems": [
    "Verif.Binning.C29_order_independent"
   ],
   "note": "Exact arithmetic."
  },
  {
   "property": "C30",
   "status": "proved",
   "theorems": [
    "Verif.Binning.C30_edges"
   ],
   "note": ""
  },
  {
   "property": "C31",
   "status": "proved",
   "theorems": [
    "Verif.Binning.C31_enclosed_mass"
   ],
   "note": ""
  },
  {
   "property": "C32",
   "status": "proved",
   "theorems": [
    "Verif.Binning.C32_nonneg_linear"
   ],
   "note": ""
  },
  {
   "property": "C33",
   "status": "partial",
   "theorems": [
    "Verif.Binning.C33_particles_replaced_refuted",
    "Verif.Binning.C33_profile_nan_refuted",
    "Verif.Binning.C33_mode_diverges_refuted",
    "Verif.Binning.C33_single_particles_partial"
   ],
   "note": "False: the particle list of every object is overwritten with copies of one particle number (refuted for all catalogues of non-empty objects). Proved for objects of one particle."
  },
  {
   "property": "C34",
   "status": "proved",
   "theorems": [
    "Verif.Shapes.C34_terminates"
   ],
   "note": "For any eigenvalue routine."
  },
  {
   "property": "C35",
   "status": "proved",
   "theorems": [
    "Verif.Shapes.C35_self_consistent",
    "Verif.Shapes.C35_large_tolerance"
   ],
   "note": "Assumes the eigenvalue routine returns ascending eigenvalues with orthogonal eigenvectors (GoodSolver), exact arithmetic. With IT_TOL >= 1 no shape is reported at all (C35_large_tolerance)."
  },
  {
   "property": "C36",
   "status": "proved",
   "theorems": [
    "Verif.Shapes.C36_ordered_orthonormal",
    "Verif.Shapes.C35_large_tolerance"
   ],
   "note": "Same assumptions as C35."
  },
  {
   "property": "C37",
   "status": "proved",
   "theorems": [
    "Verif.Shapes.C37_tensor",
    "Verif.Shapes.C37_scale_order"
   ],
   "note": ""
  },
  {
   "property": "C38",
   "status": "proved",
   "theorems": [
    "Verif.Shapes.C38_translation"
   ],
   "note": "Exact arithmetic."
  },
  {
   "property": "C39",
   "status": "partial",
   "theorems": [
    "Verif.Shapes.C39_no_iteration_refuted",
    "Verif.Shapes.C39_catalogue_refuted",
    "Verif.Shapes.C39_from_iteration_partial"
   ],
   "note": "False for IT_TOL >= 1: no iteration is made. Proved for IT_TOL < 1."
  },
  {
   "property": "C40",
   "status": "partial",
   "theorems": [
    "Verif.Shapes.C40_axis_aligned_refuted",
    "Verif.Shapes.C40_nonzero_partial"
   ],
   "note": "False: zero components become NaN. Proved for the non-zero components."
  },
  {
   "property": "C41",
   "status": "proved",
   "theorems": [
    "Verif.Shapes.C41_schedule_independent"
   ],
   "note": "Threads with private scratch arrays, steps interleave arbitrarily; all four kinds of catalogues."
  },
  {
   "property": "C42",
   "status": "partial",
   "theorems": [
    "Verif.Shapes.C42_velocities_ignored_refuted",
    "Verif.Shapes.C42_never_a_shape_refuted",
    "Verif.Shapes.C42_global_partial",
    "Verif.Shapes.C42_global_outcome"
   ],
   "note": "False for local velocity dispersions: the velocity array is never filled. Proved for global ones."
  },
  {
   "property": "C43",
   "status": "proved",
   "theorems": [
    "Verif.Api.C43_second_moments",
    "Verif.Stats.C43_rotation",
    "Verif.Stats.C43_modulus",
    "Verif.Stats.C43_order",
    "Verif.Stats.C43_mass_unit"
   ],
   "note": "Both choices of the center. Exact arithmetic."
  },
  {
   "property": "C44",
   "status": "proved",
   "theorems": [
    "Verif.Stats.C44_range",
    "Verif.Stats.C44_nan"
   ],
   "note": ""
  },
  {
   "property": "C45",
   "status": "proved",
   "theorems": [
    "Verif.Stats.C45_ordered_partition",
    "Verif.Stats.C45_edges",
    "Verif.Stats.C45_vectors",
    "Verif.Stats.C45_sizes"
   ],
   "note": "For every result np.argsort may return (no stability assumed)."
  },
  {
   "property": "C46",
   "status": "partial",
   "theorems": [
    "Verif.Stats.C46_edge_objects_dropped_refuted",
    "Verif.Stats.C46_lightest_dropped_refuted",
    "Verif.Stats.C46_inner_objects_partial"
   ],
   "note": "False: objects on a bin edge, in particular the least massive object, enter no plot. Proved for all other objects."
  },
  {
   "property": "C47",
   "status": "proved",
   "theorems": [
    "Verif.Stats.C47_blocks",
    "Verif.Stats.C47_negative_size_refuted"
   ],
   "note": "Negative sizes (outside the claim) silently lose all values."
  },
  {
   "property": "C48",
   "status": "proved",
   "theorems": [
    "Verif.Stats.C48_special_cases",
    "Verif.Stats.C48_alpha_beta_gamma",
    "Verif.Stats.C48_slopes",
    "Verif.Stats.C48_einasto",
    "Verif.Stats.C48_transition"
   ],
   "note": ""
  },
  {
   "property": "C49",
   "status": "proved",
   "theorems": [
    "Verif.Fits.C49_accepts_iff",
    "Verif.Fits.C49_rejects"
   ],
   "note": ""
  },
  {
   "property": "C50",
   "status": "proved",
   "theorems": [
    "Verif.Fits.C50_rows",
    "Verif.Fits.C50_accepted",
    "Verif.Fits.C50_no_crosstalk"
   ],
   "note": "Every order in which workers deliver; the optimiser is an arbitrary function."
  },
  {
   "property": "C51",
   "status": "partial",
   "theorems": [
    "Verif.Fits.C51_density_ignored_refuted",
    "Verif.Fits.C51_scale_radius_refuted",
    "Verif.Fits.C51_given_partial",
    "Verif.Fits.C51_concentration"
   ],
   "note": "False: a given rho_s is accepted but ignored; a given r_s is taken to be in Mpc/h while r_s is returned in output units. Proved for alpha, beta, gamma (optimiser assumed to respect bounds) and for concentrations."
  },
  {
   "property": "C52",
   "status": "proved",
   "theorems": [
    "Verif.Gadget.C52_partition",
    "Verif.Gadget.C52_catalogue"
   ],
   "note": "For every number of ranks and files and for arbitrary contents; MPI gather/broadcast by their semantics."
  },
  {
   "property": "C53",
   "status": "proved",
   "theorems": [
    "Verif.Gadget.C53_broadcast"
   ],
   "note": ""
  },
  {
   "property": "C54",
   "status": "proved",
   "theorems": [
    "Verif.Gadget.C54_resolution",
    "Verif.Gadget.C54_stable"
   ],
   "note": ""
  },
  {
   "property": "C55",
   "status": "proved",
   "theorems": [
    "Verif.Gadget.C55_found",
    "Verif.Gadget.C55_absent",
    "Verif.Gadget.C55_sound"
   ],
   "note": "Termination is that of the recursion of the model (well-founded on the rest of the file), for every file."
  },
  {
   "property": "C56",
   "status": "partial",
   "theorems": [
    "Verif.Gadget.C56_format2_refuted"
   ],
   "note": "False: no block of a format-2 file is ever found (str compared with bytes)."
  },
  {
   "property": "C57",
   "status": "partial",
   "theorems": [
    "Verif.Gadget.C57_no_mass_block_refuted",
    "Verif.Gadget.C57_empty_file_refuted",
    "Verif.Gadget.C57_binary_partial",
    "Verif.Gadget.C57_hdf5_partial"
   ],
   "note": "False if one file has no particles of the type (HDF5: dataset missing) or none with own masses (binary: mass block missing). Proved otherwise, byte by byte for binary files of both byte orders, any number of files and types."
  },
  {
   "property": "C58",
   "status": "partial",
   "theorems": [
    "Verif.Gadget.C58_long_ids_refuted",
    "Verif.Gadget.C58_hdf5_refuted",
    "Verif.Gadget.C57_binary_partial",
    "Verif.Gadget.C57_hdf5_partial"
   ],
   "note": "False: eight-byte IDs are reduced modulo 2^32 in binary files, and rounded to 53 bits in HDF5 files. Proved for IDs below 2^32 and up to 2^53, respectively."
  },
  {
   "property": "C59",
   "status": "partial",
   "theorems": [
    "Verif.Gadget.C59_stale_units_refuted",
    "Verif.Gadget.C59_first_read_partial",
    "Verif.Gadget.C59_fixed_units_partial",
    "Verif.Gadget.C59_cached_partial",
    "Verif.Gadget.C59_cached_stale_refuted"
   ],
   "note": "False: radii stay in the units which were current when the file was read, as long as the result is in the cache. Proved for a cache without eviction (first_read) and for the real cache in every mode (cached): a read gives the radii in the units current at some earlier read with the same arguments, all reads in between giving the same. Proved as stated as long as units are not changed."
  },
  {
   "property": "C60",
   "status": "partial",
   "theorems": [
    "Verif.Stored.C60_refuted",
    "Verif.Stored.C60_single_radius_refuted",
    "Verif.Stored.C60_fresh_partial",
    "Verif.Stored.C60_after_dump_partial"
   ],
   "note": "False: a dumped catalogue answers every later request, and a local catalogue at one radius cannot be read back. Proved without a stored catalogue, and for the same request after a dump."
  },
  {
   "property": "C61",
   "status": "partial",
   "theorems": [
    "Verif.Stored.C61_refuted",
    "Verif.Stored.C61_same_units_partial"
   ],
   "note": "False: after a change of output units the numbers of the dump are returned unchanged. Proved for equal units."
  },
  {
   "property": "C62",
   "status": "partial",
   "theorems": [
    "Verif.Stored.C62_refuted",
    "Verif.Stored.C62_from_scratch_partial",
    "Verif.Stored.C62_whole_files_partial"
   ],
   "note": "False for a dump over a complete catalogue whose second file is cut after one line. Proved for a first dump with arbitrary contents of the file being written, and for repeated dumps if files are replaced as a whole."
  },
  {
   "property": "C63",
   "status": "proved",
   "theorems": [
    "Verif.Mock.C63_total_mass",
    "Verif.Mock.C63_shells",
    "Verif.Mock.C63_follows_model"
   ],
   "note": "Integrals are exact."
  },
  {
   "property": "C64",
   "status": "proved",
   "theorems": [
    "Verif.Mock.C64_in_shell",
    "Verif.Mock.C64_inShell",
    "Verif.Mock.C64_boundary"
   ],
   "note": "For positive, increasing semi-axes. The comment in the code that all points pass the strict test inShell is false for the smallest random number of a shell (C64_boundary)."
  },
  {
   "property": "C65",
   "status": "partial",
   "theorems": [
    "Verif.Mock.C65_empty_shell_refuted",
    "Verif.Mock.C65_extent",
    "Verif.Mock.C65_no_failure",
    "Verif.Mock.C65_first_shell_partial"
   ],
   "note": "Termination (at most 1001 mergers), extent and success are proved; that every shell has a particle is false, only the first proper shell has."
  },
  {
   "property": "C66",
   "status": "partial",
   "theorems": [
    "Verif.Mock.C66_one_sample_refuted",
    "Verif.Mock.C66_on_ellipsoid_partial",
    "Verif.Mock.C66_on_sphere_partial"
   ],
   "note": "False for one sample, which is the default: division by zero. Proved for all other numbers."
  },
  {
   "property": "C67",
   "status": "partial",
   "theorems": [
    "Verif.Misc.C67_refuted",
    "Verif.Misc.C67_other_methods_partial",
    "Verif.Misc.bind_ok_iff"
   ],
   "note": "False of the code: both methods raise TypeError for every accepted selection (C67_refuted). Proved: every other public shape method binds all its calls. Bodies of the implementing functions are in the other areas."
  },
  {
   "property": "C68",
   "status": "proved",
   "theorems": [
    "Verif.Gadget.C68_part_types",
    "Verif.Gadget.C68_rejected"
   ],
   "note": ""
  },
  {
   "property": "C69",
   "status": "proved",
   "theorems": [
    "Verif.Stats.C69_nonneg",
    "Verif.Stats.C69_symmetric",
    "Verif.Stats.C69_zero_iff",
    "Verif.Stats.C69_identical",
    "Verif.Stats.C69_counts",
    "Verif.Stats.C69_profiles",
    "Verif.Stats.C69_pearson",
    "Verif.Stats.C69_pearson_profiles"
   ],
   "note": "p-values (scipy) are not modelled."
  },
  {
   "property": "C70",
   "status": "partial",
   "theorems": [
    "Verif.Misc.C70_refuted",
    "Verif.Misc.C70_type_error_refuted",
    "Verif.Misc.C70_no_objects_partial"
   ],
   "note": "False of the code: for every non-empty catalogue the function fails (assignment through the base of an array that owns its data). Proved for zero objects only."
  },
  {
   "property": "C71",
   "status": "proved",
   "theorems": [
    "Verif.Misc.C71_same_number",
    "Verif.Misc.C71_power_of_ten",
    "Verif.Misc.C71_large_exponents",
    "Verif.Misc.C71_three_digits_not_refused"
   ],
   "note": "All mantissas d.dd with either sign, all exponents -19..19; two-digit exponents beyond are refused; three-digit exponents (outside the supported range) are mis-rendered silently."
  },
  {
   "property": "C72",
   "status": "partial",
   "theorems": [
    "Verif.Units.C72_labels_partial",
    "Verif.Units.C72_three_digits",
    "Verif.Units.C72_exact_refuted"
   ],
   "note": "Named units are exact; multiples of kpc, Msun and km/s are printed with three digits, so they denote the nearest number of three digits (within half a percent), not exactly the unit: lengths in units of 1.2345 kpc are labelled 1.23e+00kpc."
  },
  {
   "property": "C73",
   "status": "partial",
   "theorems": [
    "Verif.Units.C73_independent_partial",
    "Verif.Units.C73_output_choice_changes_input_refuted"
   ],
   "note": "False as stated when a different little_h is passed (refuted); proved for an unchanged little_h."
  },
  {
   "property": "C74",
   "status": "partial",
   "theorems": [
    "Verif.Catalogue.C74_non_integers_partial",
    "Verif.Catalogue.C74_non_integer_list_refuted"
   ],
   "note": "Proved for arrays; false for Python lists, which are truncated to integers before the check (refuted)."
  },
  {
   "property": "C75",
   "status": "partial",
   "theorems": [
    "Verif.Periodic.C75_contiguous_partial",
    "Verif.Periodic.C75_compact_object_torn_refuted"
   ],
   "note": "False: the reference point is an average of wrapped positions and can be far from the object (refuted). Proved if the reference point is within L/2 of all particles up to whole boxes."
  },
  {
   "property": "C76",
   "status": "partial",
   "theorems": [
    "Verif.Binning.C76_ellipsoidal_edges_partial",
    "Verif.Binning.C76_first_radius_outside_refuted"
   ],
   "note": "Edges increase; the exact condition for the first radius to be inside its bin is proved, it fails for some grids (refuted)."
  },
  {
   "property": "C77",
   "status": "proved",
   "theorems": [
    "Verif.Binning.C77_total_mass"
   ],
   "note": ""
  },
  {
   "property": "C78",
   "status": "proved",
   "theorems": [
    "Verif.Binning.C78_no_crosstalk"
   ],
   "note": "Threads with private scratch arrays, steps interleave arbitrarily."
  },
  {
   "property": "C79",
   "status": "proved",
   "theorems": [
    "Verif.Shapes.C79_order_and_mass_unit"
   ],
   "note": "Exact arithmetic."
  },
  {
   "property": "C80",
   "status": "partial",
   "theorems": [
    "Verif.Shapes.C80_flat_object_refuted",
    "Verif.Shapes.C80_only_flat_partial",
    "Verif.Shapes.C105_outcome"
   ],
   "note": "False: flat objects raise ZeroDivisionError. Proved that (unreduced tensor, ellipsoids, positive masses) nothing else raises; in general the exception is raised exactly if the task is degenerate (C105)."
  },
  {
   "property": "C81",
   "status": "partial",
   "theorems": [
    "Verif.Stats.C81_oblate_refuted",
    "Verif.Stats.C81_others_partial"
   ],
   "note": "False: triaxiality 0 is taken for unclassified. Proved for all other objects."
  },
  {
   "property": "C82",
   "status": "partial",
   "theorems": [
    "Verif.Stats.C82_local_triaxiality_refuted",
    "Verif.Stats.C82_classified_everywhere_partial"
   ],
   "note": "False if any radius of the object is unclassified: the object is dropped. Proved otherwise."
  },
  {
   "property": "C83",
   "status": "proved",
   "theorems": [
    "Verif.Stats.C83_values"
   ],
   "note": ""
  },
  {
   "property": "C84",
   "status": "proved",
   "theorems": [
    "Verif.Stats.C84_order",
    "Verif.Stats.C84_halves"
   ],
   "note": ""
  },
  {
   "property": "C85",
   "status": "partial",
   "theorems": [
    "Verif.Stats.C85_quantile_errors_refuted",
    "Verif.Stats.C85_sem_partial",
    "Verif.Stats.C85_bootstrap_partial",
    "Verif.Stats.C85_one_resampling"
   ],
   "note": "False for the method used in all plots. Proved for the standard error of the mean and for the bootstrap (whatever numbers are drawn; NaN for a single resampling)."
  },
  {
   "property": "C86",
   "status": "partial",
   "theorems": [
    "Verif.Fits.C86_unknown_setting_refuted",
    "Verif.Fits.C86_truncated_refuted",
    "Verif.Fits.C86_accepted_iff_partial",
    "Verif.Fits.C86_accepted_partial"
   ],
   "note": "False: unknown settings are ignored, fractional limits truncated. Proved exactly which dictionaries are accepted and what they are used as: all six are required, switches must be boolean, and radii, tolerance, switches and integer limits are used as given."
  },
  {
   "property": "C87",
   "status": "partial",
   "theorems": [
    "Verif.Fits.C87_empty_shell_refuted",
    "Verif.Fits.C87_best_fit_partial"
   ],
   "note": "False for profiles with a vanishing density (empty shell): the objective is infinite everywhere. Proved for profiles which are positive where they are numbers."
  },
  {
   "property": "C88",
   "status": "proved",
   "theorems": [
    "Verif.Fits.C88_exact_data"
   ],
   "note": ""
  },
  {
   "property": "C89",
   "status": "proved",
   "theorems": [
    "Verif.Gadget.C89_file_number",
    "Verif.Gadget.C89_file_order"
   ],
   "note": ""
  },
  {
   "property": "C90",
   "status": "proved",
   "theorems": [
    "Verif.Gadget.C90_header"
   ],
   "note": ""
  },
  {
   "property": "C91",
   "status": "partial",
   "theorems": [
    "Verif.Gadget.C91_masses_as_ids_refuted",
    "Verif.Gadget.C91_missing_partial"
   ],
   "note": "False: with an entry in the mass table, masses are returned in place of missing IDs. Proved for types without an entry."
  },
  {
   "property": "C92",
   "status": "proved",
   "theorems": [
    "Verif.Mock.C92_resolution"
   ],
   "note": ""
  },
  {
   "property": "C93",
   "status": "proved",
   "theorems": [
    "Verif.Mock.C93_in_ellipsoid"
   ],
   "note": ""
  },
  {
   "property": "C94",
   "status": "proved",
   "theorems": [
    "Verif.Mock.C94_evenly_spread",
    "Verif.Mock.C94_longitudes"
   ],
   "note": ""
  },
  {
   "property": "C95",
   "status": "proved",
   "theorems": [
    "Verif.Api.C95_masses_centers",
    "Verif.Api.C95_outcome_exists"
   ],
   "note": "In mode finding the only failure is exceeding the recursion limit (C26). little_h is the same at construction and query. That the mean of images is the mean of a contiguous copy of the object is C75."
  },
  {
   "property": "C96",
   "status": "partial",
   "theorems": [
    "Verif.Api.C96_density_partial",
    "Verif.Api.C96_crossing_refuted",
    "Verif.Api.C96_outcome_exists",
    "Verif.Api.C96_from_files_partial"
   ],
   "note": "False for objects crossing a face of the box (C96_crossing_refuted: one of three particles is lost, in all unit systems). Proved for all other objects, any units, selection and schedule."
  },
  {
   "property": "C97",
   "status": "partial",
   "theorems": [
    "Verif.Api.C97_getters_partial",
    "Verif.Api.C97_same_object",
    "Verif.Api.C97_little_h_changed_refuted"
   ],
   "note": "False if little_h is changed between construction and query (C97_little_h_changed_refuted); otherwise proved."
  },
  {
   "property": "C98",
   "status": "partial",
   "theorems": [
    "Verif.Binning.C98_mass_partial",
    "Verif.Binning.C98_mass_doubled_refuted",
    "Verif.Binning.C98_enclosed_mass",
    "Verif.Binning.C98_nonneg"
   ],
   "note": "Mass conservation is false if axis directions change from bin to bin (a particle is counted twice); proved for constant directions. Enclosed mass and sign are proved for all directions (monotone for constant directions)."
  },
  {
   "property": "C99",
   "status": "partial",
   "theorems": [
    "Verif.Cache.C99_no_memory_limit",
    "Verif.Cache.C99_mpi_partial",
    "Verif.Cache.C99_deadlock_refuted",
    "Verif.Cache.C99_mixed_data_refuted"
   ],
   "note": "False for the default, memory-limited cache: one process evicts what another keeps, then they wait for each other or combine parts of different results. Proved without memory limit, and if all processes always see the memory limit reached or not alike."
  },
  {
   "property": "C100",
   "status": "proved",
   "theorems": [
    "Verif.Api.C100_files_as_arrays",
    "Verif.Api.C100_masses_centers"
   ],
   "note": "HDF5 snapshots and binary snapshots (as in C132); radii up to rounding to single precision; central subhalos as in C19."
  },
  {
   "property": "C101",
   "status": "partial",
   "theorems": [
    "Verif.Api.C101_other_processes_refuted",
    "Verif.Api.C101_process_partial"
   ],
   "note": "False: on every process but the first, making the object fails with AttributeError. Proved for the first process."
  },
  {
   "property": "C102",
   "status": "partial",
   "theorems": [
    "Verif.Api.C102_getter_partial",
    "Verif.Api.C102_units_changed_refuted"
   ],
   "note": "False after a change of input units: the files are read again and converted with the new units. Proved for unchanged input units."
  },
  {
   "property": "C103",
   "status": "partial",
   "theorems": [
    "Verif.Cache.C103_settings_partial",
    "Verif.Cache.C103_size_partial",
    "Verif.Cache.C103_no_effect_refuted"
   ],
   "note": "False: after the first call of a cached function no change of settings has any effect on it. Proved if settings are changed before the first call only."
  },
  {
   "property": "C104",
   "status": "partial",
   "theorems": [
    "Verif.Api.C104_sharing_partial",
    "Verif.Api.C104_own_catalogue_refuted",
    "Verif.Api.C104_other_objects_refuted"
   ],
   "note": "False for arrays got from getIdxCat: they are the arrays of the object, and with files those of the cache, so that other objects made from the same files change too. Proved for all other arrays."
  },
  {
   "property": "C105",
   "status": "proved",
   "theorems": [
    "Verif.Shapes.C105_outcome"
   ],
   "note": "Assumes positive masses and a tolerance below 1, and of the eigenvalue routine what GoodSolver says. Generalises C80_only_flat_partial."
  },
  {
   "property": "C106",
   "status": "partial",
   "theorems": [
    "Verif.Api.C106_shapes_partial",
    "Verif.Api.C106_outcome_exists",
    "Verif.Api.C106_cross",
    "Verif.Api.C106_crossing_refuted",
    "Verif.Api.C106_from_files_partial"
   ],
   "note": "False for objects crossing a face of the box (C24): the cross of C106_cross, moved as a whole through the third face of the periodic box, gets no shape (C106_crossing_refuted). Proved for objects not crossing a face and without stored catalogues. Vanishing components of axes are NaN (C40), see C106_cross."
  },
  {
   "property": "C107",
   "status": "proved",
   "theorems": [
    "Verif.Cache.C107_shared_only",
    "Verif.Cache.C107_found",
    "Verif.Cache.C107_transparent"
   ],
   "note": "Values up to Python equality; floats are rational numbers, NaN and instances of other classes are compared by identity."
  },
  {
   "property": "C108",
   "status": "partial",
   "theorems": [
    "Verif.Fits.C108_flag_partial",
    "Verif.Fits.C108_named_values",
    "Verif.Fits.C108_no_data_refuted",
    "Verif.Fits.C108_unsuccessful_refuted"
   ],
   "note": "False: profiles without any density are flagged as converged and even get a concentration, and the success flag of the optimiser is never read. Proved for profiles with a density: flagged entries consist of numbers, others of NaN; the values under the names of the parameters, put into the documented formula, are the profile fitted if the data follow it (C108_named_values)."
  },
  {
   "property": "C109",
   "status": "partial",
   "theorems": [
    "Verif.Fits.C109_fit_other_processes_refuted",
    "Verif.Fits.C109_concentrations_partial"
   ],
   "note": "False: fitDensProfs raises TypeError on every process but the first. Proved for estConcentrations."
  },
  {
   "property": "C110",
   "status": "partial",
   "theorems": [
    "Verif.Fits.C110_panels",
    "Verif.Fits.C110_median_partial",
    "Verif.Fits.C110_gap_refuted",
    "Verif.Fits.C110_fit_partial"
   ],
   "note": "False at radii where one object has no density: the median is NaN for all. Proved where all objects have a density, and for the fitted curves. Objects at bin edges: C46. Error bands: C85."
  },
  {
   "property": "C111",
   "status": "partial",
   "theorems": [
    "Verif.Api.C111_picture_partial",
    "Verif.Api.C111_aligned_refuted",
    "Verif.Api.C111_arrows_refuted",
    "Verif.Api.C111_crossing_refuted"
   ],
   "note": "False in three cases: an axis with a zero component (NaN since C106) makes the whole ellipsoid invisible; local shapes get no arrows for up to five radii and those of the last but one radius otherwise; for objects crossing a face of the box the centre is drawn a box length away from the particles. Proved otherwise (no stored catalogue; inner ellipsoid of local shapes not stated)."
  },
  {
   "property": "C112",
   "status": "partial",
   "theorems": [
    "Verif.Api.C112_sizes_partial",
    "Verif.Api.C112_all_nan_refuted",
    "Verif.Api.C112_returns",
    "Verif.Api.C112_mode_fails_refuted",
    "Verif.Api.C112_few_radii"
   ],
   "note": "False for all data: because of the assignment to idx_cat (C33) every entry returned is NaN; with CENTER = mode and five or more particles the call always raises. Proved: sizes of the result; fewer than three radii raise ValueError."
  },
  {
   "property": "C113",
   "status": "partial",
   "theorems": [
    "Verif.Api.C113_kernel_partial",
    "Verif.Api.C113_outcome_exists",
    "Verif.Api.C113_particle_at_centre",
    "Verif.Api.C113_particle_at_centre_refuted",
    "Verif.Api.C113_from_files_partial"
   ],
   "note": "False for objects with a particle exactly at the centre: ZeroDivisionError, and no profile of any selected object. Proved for objects which do not cross a face of the box (crossing: C24, C96) and have no such particle; the kernel is proved to be the average over the sphere of a Gaussian cloud, and the profile to integrate to the mass."
  },
  {
   "property": "C114",
   "status": "proved",
   "theorems": [
    "Verif.Shapes.C114_rotation",
    "Verif.Shapes.C114_routine",
    "Verif.Shapes.C114_profile",
    "Verif.Shapes.C114_global"
   ],
   "note": "Exact arithmetic; both eigenvalue routines return an orthonormal eigenbasis with ascending eigenvalues. For one object with given particles and centre (unwrapping in a periodic box is not invariant under rotations of the box)."
  },
  {
   "property": "C115",
   "status": "proved",
   "theorems": [
    "Verif.Cosmo.C115_virial_density",
    "Verif.Cosmo.C115_bound",
    "Verif.Cosmo.C115_decreasing",
    "Verif.Cosmo.C115_limit",
    "Verif.Cosmo.C115_no_matter"
   ],
   "note": "Without matter the call raises ZeroDivisionError (C115_no_matter)."
  },
  {
   "property": "C116",
   "status": "partial",
   "theorems": [
    "Verif.Cosmo.C116_critical_density",
    "Verif.Cosmo.C116_box_partial",
    "Verif.Cosmo.C116_matter_density_refuted",
    "Verif.Cosmo.C116_no_particles"
   ],
   "note": "False unless Omega_m = 1: the matter density parameter is missing, the particles make up the critical density instead."
  },
  {
   "property": "C117",
   "status": "partial",
   "theorems": [
    "Verif.Stats.C117_radius_by_radius_partial",
    "Verif.Stats.C117_between_refuted"
   ],
   "note": "False if R200 is not one of the radii: values are then counted at other radii (with two radii R200/10 and 10 R200, all at the first one). Proved if R200 is one of the radii, in exact arithmetic."
  },
  {
   "property": "C118",
   "status": "partial",
   "theorems": [
    "Verif.Api.C118_history_partial",
    "Verif.Api.C118_getter_changes_results_refuted"
   ],
   "note": "False after a change of the input unit of length: getR200 and getIdxCat replace the radii of the object by ones in the new unit while the positions stay, so that a look at the radii changes later density profiles. Proved for sessions which keep the input unit of length. Process 0; file formats as in C100."
  },
  {
   "property": "C119",
   "status": "partial",
   "theorems": [
    "Verif.Stats.C119_asked_partial",
    "Verif.Stats.C119_errors_partial",
    "Verif.Stats.C119_mass_bins_partial",
    "Verif.Stats.C119_mass_bins_refuted"
   ],
   "note": "False of mass bins: getShapeMs ignores the method and always draws medians. Resampling an empty list (bootstrap at a radius without values) is not modelled."
  },
  {
   "property": "C120",
   "status": "partial",
   "theorems": [
    "Verif.Plots.C120_kept_partial",
    "Verif.Plots.C120_eps_refuted",
    "Verif.Plots.C120_types_refuted",
    "Verif.Plots.C120_mass_bins_refuted"
   ],
   "note": "False: the two histograms of ellipticities have the same name; names of density profiles lack the suffix, so that those of different types of objects replace each other; mass bins whose lower edges agree to two decimals of the logarithm replace each other. Proved for all other sets of pictures."
  },
  {
   "property": "C121",
   "status": "partial",
   "theorems": [
    "Verif.Plots.C121_bars_partial",
    "Verif.Plots.C121_number_refuted"
   ],
   "note": "The number of bars is HIST_NB_BINS - 1; all the rest holds."
  },
  {
   "property": "C122",
   "status": "proved",
   "theorems": [
    "Verif.Api.C122_hdf5",
    "Verif.Api.C122_binary"
   ],
   "note": "Exact arithmetic; cosmological snapshots (the scale factor in the header is 1 if the redshift is 0)."
  },
  {
   "property": "C123",
   "status": "partial",
   "theorems": [
    "Verif.Gadget.C123_read_partial",
    "Verif.Gadget.C123_header_mass_partial",
    "Verif.Gadget.readAny_readBlock",
    "Verif.Gadget.C123_header_masses_refuted",
    "Verif.Gadget.C123_wrong_block_refuted"
   ],
   "note": "False in two places: masses of all types are an exit if all of them are kept in the header, and a block which the snapshot does not have is silently replaced by another one of the same size. Proved for all other requests; identities of 2^32 and more are the subject of C58. readAny_readBlock: on the four blocks used by readgadget.py this model is that of C57."
  },
  {
   "property": "C124",
   "status": "proved",
   "theorems": [
    "Verif.Api.C124_refused"
   ],
   "note": ""
  },
  {
   "property": "C125",
   "status": "partial",
   "theorems": [
    "Verif.Api.C125_same_partial",
    "Verif.Api.C125_shapes",
    "Verif.Api.C125_masses",
    "Verif.Api.C125_mode_refuted"
   ],
   "note": "False with CENTER='mode': the search starts with radius 1000 for density profiles and getMassesCenters and with the extent of the object for shapes, so that an object may have two centres. The same centre is proved for 'com', the symmetries for both."
  },
  {
   "property": "C126",
   "status": "proved",
   "theorems": [
    "Verif.Shapes.C126_round",
    "Verif.Api.C126_reported"
   ],
   "note": "Exact arithmetic and an eigenvalue solver with the documented properties (see trusted base)."
  },
  {
   "property": "C127",
   "status": "partial",
   "theorems": [
    "Verif.Misc.C127_particles_partial",
    "Verif.Misc.C127_single_refuted"
   ],
   "note": "False for a single halo: np.loadtxt then returns one-dimensional data and the script fails. (Besides, AHF gives radii in kpc/h whereas the script sets Mpc/h as unit of input; this is outside the model.)"
  },
  {
   "property": "C128",
   "status": "proved",
   "theorems": [
    "Verif.Misc.C128_axes"
   ],
   "note": ""
  },
  {
   "property": "C129",
   "status": "partial",
   "theorems": [
    "Verif.Api.C129_numbers_partial",
    "Verif.Api.C129_messages",
    "Verif.Api.C129_detail_refuted"
   ],
   "note": "False for the last line of getObjInfoGadget, the number of objects with enough particles: it compares particle indices with an empty list and is always 0. All other numbers are right."
  },
  {
   "property": "C130",
   "status": "partial",
   "theorems": [
    "Verif.Periodic.C130_near_partial",
    "Verif.Periodic.C130_mirrored_refuted"
   ],
   "note": "False: particles are mirrored, not shifted, so that no moved particle (away from the face) ends at an image of itself. Nearness to the first particle is proved."
  },
  {
   "property": "C131",
   "status": "proved",
   "theorems": [
    "Verif.Stats.C131_largest_difference",
    "Verif.Stats.C131_symmetries",
    "Verif.Stats.C131_rescaled"
   ],
   "note": "Statistic only; scipy's ks_2samp is modelled from its source, the p-value is not modelled."
  },
  {
   "property": "C132",
   "status": "proved",
   "theorems": [
    "Verif.Api.C132_files_as_arrays",
    "Verif.Api.C132_formats"
   ],
   "note": "Equality of objects is proved in full; results from files: C96, C106, C113. Binary snapshots: format 1 (C56), a mass block in every file if masses are not in the header (C57)."
  },
  {
   "property": "C133",
   "status": "partial",
   "theorems": [
    "Verif.Shapes.C133_catalogue_partial",
    "Verif.Shapes.C133_global_refuted"
   ],
   "note": "False of the global catalogues: the outer radius is R200 plus the fixed distance SAFE = 6, so a similar object can lose particles and have no shape (C133_global_refuted). Proved for the local catalogues, and for velocities and masses in the global ones."
  },
  {
   "property": "C134",
   "status": "partial",
   "theorems": [
    "Verif.Api.C134_shapes_partial",
    "Verif.Api.C134_profiles_partial",
    "Verif.Api.C134_kernel_partial",
    "Verif.Api.C134_centres_partial",
    "Verif.Api.C134_crossing_refuted"
   ],
   "note": "False of the code for objects which cross a face of the box (respectPBCNoRef moves particles on one side of the first particle only, see C24): C134_crossing_refuted. Proved for every selected object that lies in one piece before and after."
  },
  {
   "property": "C135",
   "status": "partial",
   "theorems": [
    "Verif.Api.C135_shapes_partial",
    "Verif.Api.C135_profiles_partial",
    "Verif.Api.C135_kernel_partial",
    "Verif.Api.C135_centres_partial",
    "Verif.Api.C135_crossing_refuted"
   ],
   "note": "False of the code for objects which cross a face of the box: particles are mirrored about the half box relative to the first particle (C24), so that the order decides whether the object is found near its centre (C135_crossing_refuted). Proved for every selected object that crosses no face. Exact arithmetic: rounding of sums in another order is not modelled."
  },
  {
   "property": "C136",
   "status": "partial",
   "theorems": [
    "Verif.Api.C136_shapes_partial",
    "Verif.Api.C136_profiles_partial",
    "Verif.Api.C136_kernel_partial",
    "Verif.Api.C136_centres_partial",
    "Verif.Api.C136_mode_refuted",
    "Verif.Shapes.C133_global_refuted"
   ],
   "note": "False of the code in two places. The search for the mode starts with the fixed radius 1000 and stops by fixed numbers of particles, so that with CENTER = 'mode' the centre of a small object is another one than that of the same object enlarged (C136_mode_refuted). The initial sphere of global shapes is enlarged by the fixed SAFE = 6 (C133_global_refuted). Proved: local shapes (any CENTER), and with CENTER = 'com' densities, kernel densities, masses and centres, also for objects which cross a face."
  },
  {
   "property": "C137",
   "status": "partial",
   "theorems": [
    "Verif.Api.C137_centres",
    "Verif.Api.C137_shapes_partial",
    "Verif.Api.C137_profiles_partial",
    "Verif.Api.C137_kernel_partial",
    "Verif.Api.C137_crossing_refuted"
   ],
   "note": "Masses and centres: proved for all objects. Shapes and profiles: false of the code for objects which cross a face of the box, because CythonHelpers.respectPBCNoRef tests the second coordinate twice and the third never: an object at a face of the third axis is torn apart where the same object at a face of the first axis is not (C137_crossing_refuted). Proved for every selected object that crosses no face."
  },
  {
   "property": "C138",
   "status": "proved",
   "theorems": [
    "Verif.Api.C138_positions",
    "Verif.Api.C138_radii",
    "Verif.Api.C138_centres",
    "Verif.Api.C138_profiles",
    "Verif.Api.C138_ellipsoids",
    "Verif.Api.C138_kernel",
    "Verif.Api.C138_shapes"
   ],
   "note": "For every object whatsoever, no hypotheses on the data; both unit systems positive and with the same h (other h: C97_little_h_changed_refuted)."
  },
  {
   "property": "C139",
   "status": "proved",
   "theorems": [
    "Verif.Round.C139_lengths",
    "Verif.Round.C139_masses",
    "Verif.Round.C139_inside_lengths",
    "Verif.Round.C139_inside_masses"
   ],
   "note": "Rounding is modelled by any monotone function with bounded relative error (binary formats with p digits, ties to even, are an instance: Verif.Round.binary)."
  },
  {
   "property": "C140",
   "status": "partial",
   "theorems": [
    "Verif.Round.C140_converters_refuted",
    "Verif.Round.C140_converters_partial"
   ],
   "note": "False of the code: the converters round their factor with np.float32, so that there and back in kpc/h 1 becomes 1.0000000475 (C140_converters_refuted). Proved: correct up to 12 rounding errors of single precision. (The mass converters raise KeyError, C14.)"
  },
  {
   "property": "C141",
   "status": "proved",
   "theorems": [
    "Verif.Round.C141_mass",
    "Verif.Round.C141_monotone",
    "Verif.Round.C141_sublist"
   ],
   "note": "The order of the additions is that of the code; the bound holds for any list of non-negative masses."
  },
  {
   "property": "C142",
   "status": "proved",
   "theorems": [
    "Verif.Round.C142_centre"
   ],
   "note": "One coordinate of calcCoM after unwrapping; np.sum and np.average add in any order and bracketing."
  },
  {
   "property": "C143",
   "status": "partial",
   "theorems": [
    "Verif.Round.C143_edges_sorted",
    "Verif.Round.C143_one_shell",
    "Verif.Round.C143_density_partial",
    "Verif.Round.C143_volume_partial",
    "Verif.Round.C143_right_shell",
    "Verif.Round.C143_edge_values",
    "Verif.Round.C143_entry_partial",
    "Verif.Round.C143_value_partial",
    "Verif.Round.C143_single_precision_partial",
    "Verif.Round.C143_single_precision_refuted"
   ],
   "note": "False of the code in one point: R200 is handed to the inner routine as a C float, so the edges of the shells are only accurate to single precision, and a particle inside the outermost shell by 10^-8 is not counted (C143_single_precision_refuted). Proved, for R200 as the inner routine gets it: sorted edges with their values, exactly one shell, the right one for particles away from the edges by more than four rounding errors, masses and volumes up to rounding; and, with R200 in single precision, the right shell for particles farther from the edges than a rounding error of that precision (C143_single_precision_partial)."
  },
  {
   "property": "C144",
   "status": "partial",
   "theorems": [
    "Verif.Round.C144_in_box_partial",
    "Verif.Round.C144_image",
    "Verif.Round.C144_in_box_refuted"
   ],
   "note": "False of the code: a coordinate just below 0 is moved to the box length itself (C144_in_box_refuted). Proved: never below 0 and never above the box length."
  },
  {
   "property": "C145",
   "status": "proved",
   "theorems": [
    "Verif.Round.C145_enclosed",
    "Verif.Round.C145_right_particles",
    "Verif.Round.C145_entry"
   ],
   "note": "Any rounding which is monotone and fixes stored numbers."
  },
  {
   "property": "C146",
   "status": "partial",
   "theorems": [
    "Verif.Catalogue.C146_members_partial",
    "Verif.Catalogue.C146_number_refuted",
    "Verif.Catalogue.C146_offsets_refuted"
   ],
   "note": "False of the code: particle numbers and the borders of objects are converted to 32-bit integers without a check. In a simulation of more than 2^31 particles an object silently gets another particle (C146_number_refuted); with objects of 2^30, 2^30 and 1 particles the second is empty (C146_offsets_refuted). Proved when simulation and catalogue have fewer than 2^31 entries. Only the conversion of numpy arrays is modelled, not that of Python lists."
  },
  {
   "property": "C147",
   "status": "proved",
   "theorems": [
    "Verif.Cache.C147_last_run",
    "Verif.Cache.C147_twice"
   ],
   "note": "About the linked-list model of the cache; calls from one thread."
  },
  {
   "property": "C148",
   "status": "partial",
   "theorems": [
    "Verif.Api.C148_shapes_partial",
    "Verif.Api.C148_profiles_partial",
    "Verif.Api.C148_kernel_partial",
    "Verif.Api.C148_centres_partial",
    "Verif.Api.C148_shapes_fail",
    "Verif.Api.C148_profiles_fail",
    "Verif.Api.C148_kernel_fail",
    "Verif.Api.C148_centres_fail",
    "Verif.Api.C148_spoiled_refuted"
   ],
   "note": "The last part is false of the code: an exception in one object ends the whole call; an object with a particle exactly at its centre takes the kernel-based profiles from all others (C148_spoiled_refuted). Proved: the rest. Ellipsoidal profiles are not included."
  },
  {
   "property": "C149",
   "status": "partial",
   "theorems": [
    "Verif.Cache.Counters.C149_values",
    "Verif.Cache.Counters.C149_bounds_partial",
    "Verif.Cache.Counters.C149_alone_partial",
    "Verif.Cache.Counters.C149_lost_refuted",
    "Verif.Cache.Counters.C149_lost_zero_refuted",
    "Verif.Cache.Counters.C149_clear_refuted"
   ],
   "note": "The part on cache_info is false of the code: hits += 1 and misses += 1 outside the lock lose updates, and a call that overlaps a clear brings old counts back. Proved: values and keys in full; without clears the counts are never too large, and not zero if a call has returned; exact if calls do not overlap."
  },
  {
   "property": "C150",
   "status": "proved",
   "theorems": [
    "Verif.Api.C150_shapes",
    "Verif.Api.C150_profiles",
    "Verif.Api.C150_kernel",
    "Verif.Api.C150_centres",
    "Verif.Api.C150_room",
    "Verif.Api.C150_means"
   ],
   "note": "Objects made from arrays. Both simulations may be with or without periodicity. Ellipsoidal shells are not covered."
  },
  {
   "property": "C151",
   "status": "proved",
   "theorems": [
    "Verif.Round.C151_left_alone",
    "Verif.Round.C151_images",
    "Verif.Round.C151_single_precision",
    "Verif.Round.C151_mirrored",
    "Verif.Round.C151_open"
   ],
   "note": "Objects across a face are mirrored by the compiled helper in exact arithmetic already (C24)."
  },
  {
   "property": "C152",
   "status": "partial",
   "theorems": [
    "Verif.Api.C152_centres_partial",
    "Verif.Api.C152_profiles_partial",
    "Verif.Api.C152_kernel_partial",
    "Verif.Api.C152_shapes_partial",
    "Verif.Api.C152_split",
    "Verif.Api.C152_min_refuted",
    "Verif.Api.C152_mode_refuted"
   ],
   "note": "False in general: CENTER = mode stops at five particles and IT_MIN counts particles, so splitting every particle in two moves the centre (mode_refuted) and turns a missing shape into a converged one (min_refuted). Proved for CENTER = com and objects which are not cut by the box, and for shapes with IT_MIN matched to the sampling; C152_split shows that splitting every particle into k pieces and multiplying both minima by k meets all hypotheses."
  },
  {
   "property": "C153",
   "status": "proved",
   "theorems": [
    "Verif.Cache.Locks.C153_atomic",
    "Verif.Cache.Locks.C153_values",
    "Verif.Cache.Locks.C153_counters",
    "Verif.Cache.Locks.C153_progress"
   ],
   "note": "Also justifies the atomic phases of C10: every execution in single reads and writes shows what some execution of the model of C10 shows. The wrappers without a lock are the subject of C149."
  },
  {
   "property": "C154",
   "status": "proved",
   "theorems": [
    "Verif.Api.C154_local_shapes",
    "Verif.Api.C154_global_shapes",
    "Verif.Api.C154_profiles",
    "Verif.Api.C154_outcome",
    "Verif.Api.C154_cross"
   ],
   "note": "C154_cross is a concrete case: two heavy particles far outside do not change the shape of a cross."
  },
  {
   "property": "C155",
   "status": "proved",
   "theorems": [
    "Verif.Shapes.C155_boost",
    "Verif.Shapes.C155_cross"
   ],
   "note": "Exact arithmetic. About calcMorphGlobalVelDisp: the method getShapeCatVelGlobal cannot be called (C67), and the local variant ignores velocities (C42)."
  },
  {
   "property": "C156",
   "status": "proved",
   "theorems": [
    "Verif.Round.C156_total_mass",
    "Verif.Round.C156_single",
    "Verif.Round.C156_cross"
   ],
   "note": "The sum of the masses is rounded to double and then to single precision after each addition (no overflow, no underflow to zero); the rest of the iteration is exact."
  },
  {
   "property": "C157",
   "status": "partial",
   "theorems": [
    "Verif.Round.C157_mean_refuted",
    "Verif.Round.C157_mean_partial"
   ],
   "note": "False of the code: the total mass is added up in single precision and stops growing at 2^24 equal particles, so that particles all moving with velocity 1 have the mean velocity n/2^24 (C157_mean_refuted). Proved: for up to 2.8 million particles the error is at most 6(n+1) roundings of single precision relative to the mean of the absolute values."
  },
  {
   "property": "C158",
   "status": "proved",
   "theorems": [
    "Verif.Api.C158_shrinking",
    "Verif.Api.C158_clump",
    "Verif.Api.C158_centre",
    "Verif.Api.C158_shape_centre"
   ],
   "note": "In real arithmetic; if mode finding returns (C26 says when it does). Objects crossing the boundary of the box are covered by C95."
  },
  {
   "property": "C159",
   "status": "partial",
   "theorems": [
    "Verif.Api.C159_flag_partial",
    "Verif.Api.C159_nan_refuted"
   ],
   "note": "False: components of axes which are exactly zero are NaN in entries flagged as converged (C159_nan_refuted, see C40); with IT_TOL >= 1 entries not flagged contain the radius. All else is proved."
  },
  {
   "property": "C160",
   "status": "proved",
   "theorems": [
    "Verif.Api.C160_whole",
    "Verif.Api.C160_returns",
    "Verif.Api.C160_stretched"
   ],
   "note": "In real arithmetic, for CENTER = com and objects not crossing a face of the box. Components of axes which are exactly zero are shown as NaN (C40)."
  },
  {
   "property": "C161",
   "status": "proved",
   "theorems": [
    "Verif.Api.C161_whole"
   ],
   "note": "In real arithmetic, for objects not crossing a face of the box. About calcMorphGlobalVelDisp: the method getShapeCatVelGlobal cannot be called (C67)."
  },
  {
   "property": "C162",
   "status": "proved",
   "theorems": [
    "Verif.Mock.C162_enclosed",
    "Verif.Mock.massInside_sphere"
   ],
   "note": "quad is the integral; np.random.uniform returns numbers at least the lower and less than the upper bound."
  },
  {
   "property": "C163",
   "status": "partial",
   "theorems": [
    "Verif.Mock.C163_ellipsoid",
    "Verif.Mock.C163_distribution_partial",
    "Verif.Mock.C163_uniform_refuted"
   ],
   "note": "False for shells: distances from the centre, not volumes, are uniform, so that the particles of every shell are concentrated towards the centre (half of the particles of the innermost ball are in an eighth of its volume). Proved for ellipsoids. Statements are for given directions; for those of normal vectors see C173 and C174."
  },
  {
   "property": "C164",
   "status": "partial",
   "theorems": [
    "Verif.Mock.C164_arguments_partial",
    "Verif.Mock.C164_repeated",
    "Verif.Mock.C164_untouched_refuted"
   ],
   "note": "False as a whole: genHalo writes rho_s into the dictionary of the caller. Proved: nothing else is changed, and results never depend on that entry or on earlier calls."
  },
  {
   "property": "C165",
   "status": "partial",
   "theorems": [
    "Verif.Shapes.C165_fixed_partial",
    "Verif.Shapes.C165_reported_partial",
    "Verif.Shapes.C165_body",
    "Verif.Shapes.C165_ratios",
    "Verif.Shapes.C165_shells_refuted"
   ],
   "note": "Proved for ellipsoids (and for the innermost shell), for particles and for continuous bodies. False for shells of constant thickness, which contain more of the short axes than of the long one: starting from the true ratio 1/2 the next one can be 5/8. Real arithmetic."
  },
  {
   "property": "C166",
   "status": "partial",
   "theorems": [
    "Verif.Shapes.C166_shell_partial",
    "Verif.Shapes.C166_cover_partial",
    "Verif.Shapes.C166_innermost",
    "Verif.Shapes.C166_hole_refuted"
   ],
   "note": "Proved if the difference of consecutive radii is smaller than the shortest semi-axis. False otherwise: the inner semi-axis s*d-delta_d becomes negative, its square grows again, and particles near the surface are dropped; the witness (thickness 6 at radius 10, axis ratio 5/27) ends with a ZeroDivisionError. Happens for coarsely spaced radii and flat objects. Real arithmetic."
  },
  {
   "property": "C167",
   "status": "proved",
   "theorems": [
    "Verif.Shapes.C167_directions"
   ],
   "note": "The outcomes are equal, not only equivalent. Real arithmetic; ellipsoids, positions (for velocities the weights do depend on the distances)."
  },
  {
   "property": "C168",
   "status": "partial",
   "theorems": [
    "Verif.Mock.C168_ellipsoid_partial",
    "Verif.Mock.C168_area",
    "Verif.Mock.C168_three",
    "Verif.Mock.C168_shell_three",
    "Verif.Mock.C168_none_refuted",
    "Verif.Mock.C168_shell_refuted"
   ],
   "note": "Refuted: with c=None, as documented, c[ell_nb] raises, and two-dimensional shells raise for every argument (the third coordinate is always looked up). Proved: a sequence of None works for ellipses, uniformly in area; three dimensions work for both functions."
  },
  {
   "property": "C169",
   "status": "proved",
   "theorems": [
    "Verif.Round.C169_ratios"
   ],
   "note": "One iteration, for given selected particles, centre and r_ell; the selection in the next iteration is not continuous in the axis ratios. The eigenvalue routine is backward stable (exact for a tensor within a fraction beta of the given one; beta = 0 is GoodSolver). No overflow or underflow."
  },
  {
   "property": "C170",
   "status": "proved",
   "theorems": [
    "Verif.Round.C170_whole"
   ],
   "note": "The whole iteration of runEllAlgo and runEllVDispAlgo with rounding, for the given centre; the condition is that the error is below a tenth of (c/a)^2. NaN counts as an exception in the model (the theorem excludes both). The eigenvalue routine is backward stable as in C169. No overflow or underflow."
  },
  {
   "property": "C171",
   "status": "proved",
   "theorems": [
    "Verif.Round.C171_centre",
    "Verif.Round.C171_positions",
    "Verif.Round.C171_velocities"
   ],
   "note": "The iteration of C170 for a centre computed by calcCoM (as in C142, after unwrapping) or a mean velocity computed by CythonHelpers.calcCoM (as in C157, up to 2.8 million particles); condition: particles within a third of c/a times the size. No overflow or underflow."
  },
  {
   "property": "C172",
   "status": "proved",
   "theorems": [
    "Verif.Round.C172_inexact",
    "Verif.Round.C172_stored"
   ],
   "note": "The iteration of C170 with rounding and a computed centre as in C171, applied to particles which differ from the exact ones; C172_stored: positions rounded to another precision. Condition: particles within a quarter of c/a times the size. The errors of coordinates are not restricted to come from a particular operation, so that conversions of units and unwrapping are covered as well."
  },
  {
   "property": "C173",
   "status": "proved",
   "theorems": [
    "Verif.Mock.C173_ellipsoid",
    "Verif.Mock.C173_ellipse"
   ],
   "note": "Numbers of the generator are taken to be exactly normal and uniform, and independent; rounding is not included. See C175 for what seeds do to independence between calls."
  },
  {
   "property": "C174",
   "status": "proved",
   "theorems": [
    "Verif.Mock.C174_shell",
    "Verif.Mock.C174_sphere",
    "Verif.Mock.C174_shell_tensor",
    "Verif.Mock.C174_ellipsoid_tensor",
    "Verif.Mock.C174_similar"
   ],
   "note": "shellParticle is what drawUniformFromShell returns for one particle (C168_shell_three). Numbers of the generator are taken to be exactly normal and uniform, and independent."
  },
  {
   "property": "C175",
   "status": "partial",
   "theorems": [
    "Verif.Mock.C175_reproducible_partial",
    "Verif.Mock.C175_state_refuted",
    "Verif.Mock.C175_copies_refuted"
   ],
   "note": "Refuted: np.random.seed(shell_nb) resets the global generator, so that (1) seeds chosen by the user have no influence and no second realisation exists, (2) after a direct call all later random numbers of the caller are the same for every seed chosen before, (3) the particles of different halos are made of the same random numbers: same directions, and for equal numbers of particles exact images of each other. Proved: reproducible for every generator, state and schedule of the workers."
  },
  {
   "property": "C176",
   "status": "proved",
   "theorems": [
    "Verif.Mock.C176_ellipsoid",
    "Verif.Mock.C176_halo"
   ],
   "note": "Axes are compared only if they are determined (distinct axis ratios), up to sign. Real arithmetic and exactly normal and uniform numbers; rounding of the iteration is treated in C170 to C172. Independence is needed within each shell only, so the common seeds of C175 do no harm here; weights 1 (reduced=False)."
  },
  {
   "property": "C177",
   "status": "proved",
   "theorems": [
    "Verif.Round.C177_local",
    "Verif.Round.C177_gap"
   ],
   "note": "The margins are explicit: with f a lower limit for the minor axis ratios, the squared ellipsoidal radii of the particles must differ from d^2 by more than the fraction bound/f^2, and the changes of the ratios from the tolerance by more than 8 unit roundoffs of single precision (in which the absolute value is taken) plus 6 bound/f^2. Assumed of the eigensolver is backward stability. No overflow or underflow. Reduced tensor and shells: without explicit bounds in C182."
  },
  {
   "property": "C178",
   "status": "partial",
   "theorems": [
    "Verif.Mock.C178_limit",
    "Verif.Mock.C178_surfaces_partial",
    "Verif.Mock.C178_within_refuted",
    "Verif.Mock.C178_exist"
   ],
   "note": "False for bins which do not end at surfaces of the shells: the mass of a shell is spread evenly over its thickness and not over its volume, so that the estimate in the inner part of a shell is too large in the limit, e.g. for the profile of Navarro, Frenk and White everywhere within the scale radius. Proved: the limit in every bin, and that it is the mean density of the model for bins between surfaces. Random numbers are independent within a shell; quad is the integral; real arithmetic; the centre is the exact one."
  },
  {
   "property": "C179",
   "status": "partial",
   "theorems": [
    "Verif.Round.C179_found_refuted",
    "Verif.Round.C179_found_partial"
   ],
   "note": "False for a particle at the edge: if its distance is rounded to the radius it is left out, and with IT_MIN particles in the sphere no shape is reported although exact arithmetic finds one. Proved under the margins of C177: no particle near the edge of an ellipsoid of the iteration, no change of the ratios near the tolerance, no ellipsoid too flat. Ellipsoid-based, not reduced."
  },
  {
   "property": "C180",
   "status": "partial",
   "theorems": [
    "Verif.Shapes.C180_stable_refuted",
    "Verif.Shapes.C180_stable_partial"
   ],
   "note": "False at the edge: with a particle on the surface of the sphere an arbitrarily small shift of the centre turns a shape with axis ratio about 0.7 into a gap. Proved for ellipsoids and shells, plain and reduced: if no particle is exactly on the surface of an ellipsoid of the iteration or on the inner boundary of a shell, no such boundary has a vanishing semi-axis, and no ratio changes exactly by the tolerance, the report depends continuously on all data (radius, thickness, ratios and ellipsoidal distances in every direction). Exact arithmetic, one object with given centre."
  },
  {
   "property": "C181",
   "status": "partial",
   "theorems": [
    "Verif.Binning.C181_kernel",
    "Verif.Binning.C181_binned_refuted",
    "Verif.Binning.C181_binned_partial",
    "Verif.Binning.C181_enclosed_partial"
   ],
   "note": "False for binned profiles: a particle moved across an edge by an arbitrarily small distance takes all its mass from one bin to the next. Proved for kernel-based profiles (no particle exactly at the centre, where the code raises ZeroDivisionError), and for binned profiles and enclosed masses with no particle exactly on an edge. Spherical profiles of one object with given centre, exact arithmetic."
  },
  {
   "property": "C182",
   "status": "proved",
   "theorems": [
    "Verif.Round.C182_precise"
   ],
   "note": "Without explicit bounds (these are in C177 for the plain tensor and ellipsoids). The arithmetic is any rounding with unit roundoff tending to zero, likewise single precision, which is used for the total mass and absolute values; the eigensolver is backward stable with an error tending to zero. No overflow or underflow. One object with given centre; no particle exactly at the centre if the tensor is reduced."
  },
  {
   "property": "C183",
   "status": "proved",
   "theorems": [
    "Verif.Api.C183_catalogue",
    "Verif.Api.C183_catalogue_any",
    "Verif.Api.C183_cross"
   ],
   "note": "From constructor to catalogue, lifting C180 through the object (units, centring, unwrapping, parallel loops). The exceptions named in the property are hypotheses; that shapes do jump at knife edges is C180_stable_refuted, that centres jump on spheres of the search is C185_mode_refuted. Exact arithmetic; velocity dispersion tensors not covered."
  },
  {
   "property": "C184",
   "status": "proved",
   "theorems": [
    "Verif.Api.C184_density",
    "Verif.Api.C184_kernel",
    "Verif.Api.C184_density_any",
    "Verif.Api.C184_kernel_any"
   ],
   "note": "From constructor to table, lifting C181 through the object (units, centring, unwrapping, parallel loops). The exceptions named in the property are hypotheses; that binned profiles do jump when a particle crosses an edge is C181_binned_refuted, that centres jump on spheres of the search is C185_mode_refuted. Exact arithmetic; ellipsoidal shells not covered."
  },
  {
   "property": "C185",
   "status": "partial",
   "theorems": [
    "Verif.Api.C185_centres",
    "Verif.Api.C185_mode",
    "Verif.Api.C185_mode_refuted",
    "Verif.Api.C185_centres_refuted"
   ],
   "note": "Proved from constructor to table for CENTER=com, and for CENTER=mode if no particle is exactly on a sphere of the search (which needs no positive distance: continuity at every such input). Refuted without this condition: a particle exactly on the first sphere moves the mode by a fixed amount however little it is moved. Exact arithmetic."
  },
  {
   "property": "C186",
   "status": "proved",
   "theorems": [
    "Verif.Api.C186_binned",
    "Verif.Api.C186_kernel",
    "Verif.Api.C186_from_files",
    "Verif.Api.C186_bins"
   ],
   "note": "Two calls on one object, with possibly different output units and schedules but the same recursion limit. Objects crossing a face: C24, C96. Exact arithmetic."
  },
  {
   "property": "C187",
   "status": "partial",
   "theorems": [
    "Verif.Api.C187_margin_partial",
    "Verif.Api.C187_from_files_partial",
    "Verif.Api.C187_r200_refuted"
   ],
   "note": "False at R200: the margin SAFE = 6 (Mpc/h) is added to R200, so an object all particles of which are beyond R200 has no local shape at R200 but a global one (C187_r200_refuted). Proved with radius R200 + 6 Mpc/h instead: the two entries are equal. Without stored catalogues (C60-C62). Exact arithmetic."
  },
  {
   "property": "C188",
   "status": "partial",
   "theorems": [
    "Verif.Api.C188_shapes_partial",
    "Verif.Api.C188_shapes_from_files_partial",
    "Verif.Api.C188_density_from_files_partial",
    "Verif.Api.C188_kernel_partial",
    "Verif.Api.C188_density_partial",
    "Verif.Api.C188_density_refuted",
    "Verif.Api.C188_first_shell",
    "Verif.Api.C188_shells_refuted"
   ],
   "note": "False of shells except the first, which is the ellipsoid (C188_first_shell): the cross has a shape at R200 if this is the only radius, and none if 0.015 R200 is asked for as well (C188_shells_refuted). False of binned density profiles: bins end half way to the neighbouring radii, so the density at R200/100 is zero or not depending on whether R200/10 is asked for as well (C188_density_refuted); proved: it depends on no radii but the neighbouring ones. Proved of local shapes (shells: except for the radius before) and of kernel-based profiles. Density profiles of objects not crossing a face; shapes of all objects. Exact arithmetic, without stored catalogues (C60-C62)."
  },
  {
   "property": "C189",
   "status": "partial",
   "theorems": [
    "Verif.Round.C189_mass_partial",
    "Verif.Round.C189_density_partial",
    "Verif.Round.C189_enclosed_partial",
    "Verif.Round.C189_order_refuted"
   ],
   "note": "False in the last digit: numbers are added one after the other in the order of the list, and small ones are lost if a large one comes first (C189_order_refuted). Proved: two orders differ by at most 4(n+4) rounding errors of the mass (densities times volume: 4(n+1)). With exact arithmetic the order does not matter for profiles and shapes (C29, C79)."
  }
 ]
}