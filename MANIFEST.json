{
 "claims": [
  {
   "property": "C01",
   "status": "proved",
   "theorems": [
    "PyHalo.Props.c01_subhalos_field_partition"
   ],
   "note": "subhalos/field_halos are order-preserving and partition the halos"
  },
  {
   "property": "C02",
   "status": "proved",
   "theorems": [
    "PyHalo.Props.c02_filter_selects",
    "PyHalo.Props.c02_filter_mem",
    "PyHalo.Props.c02_filter_bad_units",
    "PyHalo.Props.c02_filter_no_rays"
   ],
   "note": "exact selection, order, context, plus the refusals (unknown unit, no rays)"
  },
  {
   "property": "C03",
   "status": "proved",
   "theorems": [
    "PyHalo.Props.c03_filter_idempotent",
    "PyHalo.Props.c03_filter_monotone"
   ],
   "note": "idempotent; monotone in aperture and threshold for a non-negative weight floor"
  },
  {
   "property": "C04",
   "status": "proved",
   "theorems": [
    "PyHalo.Props.c04_filter_subhalos",
    "PyHalo.Props.c04_field_halos_survive"
   ],
   "note": "exact selection; field halos always survive"
  },
  {
   "property": "C05",
   "status": "proved",
   "theorems": [
    "PyHalo.Props.c05_filter_bound_mass"
   ],
   "note": "exact selection; shifted status kept"
  },
  {
   "property": "C06",
   "status": "proved",
   "theorems": [
    "PyHalo.Props.c06_join_union",
    "PyHalo.Props.c06_join_prefers_shorter",
    "PyHalo.Props.c06_join_comm_tags",
    "PyHalo.Props.c06_join_restores",
    "PyHalo.Props.c06_join_context"
   ],
   "note": "union by tag, preference for the shorter operand, restoration from a sub-selection"
  },
  {
   "property": "C07",
   "status": "proved",
   "theorems": [
    "PyHalo.Props.c07_split_partition",
    "PyHalo.Props.c07_split_join"
   ],
   "note": "partition at <= / > (docstring says < / >=); join undoes the split"
  },
  {
   "property": "C08",
   "status": "proved",
   "theorems": [
    "PyHalo.Props.c08_counts"
   ],
   "note": "counts add up and are monotone"
  },
  {
   "property": "C09",
   "status": "proved",
   "theorems": [
    "PyHalo.Props.c09_lensing_quantities_halos",
    "PyHalo.Props.c09_lensing_quantities_sheets"
   ],
   "note": "alignment and content of the three lists; halos and rendering classes are assumed to supply matching lists"
  },
  {
   "property": "C10",
   "status": "proved",
   "theorems": [
    "PyHalo.Props.c10_exact_sheets",
    "PyHalo.Props.c10_exact_sheets_total",
    "PyHalo.Props.c10_exact_sheets_no_geometry"
   ],
   "note": "sheets carry minus the plane mass, and in total minus the total mass"
  },
  {
   "property": "C11",
   "status": "proved",
   "theorems": [
    "PyHalo.Props.c11_arrays_describe_halos"
   ],
   "note": "arrays of a freshly built realization"
  },
  {
   "property": "C12",
   "status": "partial",
   "theorems": [
    "PyHalo.Props.c12_shift_of_shifted",
    "PyHalo.Props.c12_at_most_once_fails",
    "PyHalo.Props.c12_original_shifts_again",
    "PyHalo.Props.c12_at_most_once_partial",
    "PyHalo.Props.c12_only_shift_moves"
   ],
   "note": "false in full (c12_at_most_once_fails, c12_original_shifts_again); proved for histories of calls that keep the shifted status"
  },
  {
   "property": "C13",
   "status": "proved",
   "theorems": [
    "PyHalo.Props.c13_shift_effect",
    "PyHalo.Props.c13_shift_only_positions"
   ],
   "note": "exact effect of a shift on all objects in memory"
  },
  {
   "property": "C14",
   "status": "proved",
   "theorems": [
    "PyHalo.Props.c14_eq_iff",
    "PyHalo.Props.c14_eq_refl_trans",
    "PyHalo.Props.c14_eq_not_symmetric",
    "PyHalo.Props.c14_eq_sublist"
   ],
   "note": "characterisation; reflexive, transitive; not symmetric (c14_eq_not_symmetric)"
  },
  {
   "property": "C15",
   "status": "proved",
   "theorems": [
    "PyHalo.Props.c15_realization_at_z"
   ],
   "note": "selection and indexes of realization_at_z"
  },
  {
   "property": "C16",
   "status": "proved",
   "theorems": [
    "PyHalo.Props.c16_population",
    "PyHalo.Props.c16_population_total",
    "PyHalo.Props.c16_line_of_sight",
    "PyHalo.Props.c16_line_of_sight_planes",
    "PyHalo.Props.c16_two_halo",
    "PyHalo.Props.c16_subhalos",
    "PyHalo.Props.c16_any_populations",
    "PyHalo.Props.c16_realization",
    "PyHalo.Props.c16_number_of_realizations"
   ],
   "note": "all arrays aligned for every class and population; rows in order; refusals"
  },
  {
   "property": "C17",
   "status": "partial",
   "theorems": [
    "PyHalo.Props.c17_swapped",
    "PyHalo.Props.c17_requested_profile_fails",
    "PyHalo.Props.c17_requested_profile_partial"
   ],
   "note": "false in full: subhalos get the field definition and vice versa (c17_swapped, c17_requested_profile_fails); true exactly when both definitions are equal"
  },
  {
   "property": "C18",
   "status": "partial",
   "theorems": [
    "PyHalo.Props.c18_lens_planes_partial",
    "PyHalo.Props.c18_lens_planes_two_decimals",
    "PyHalo.Props.c18_no_lens_two_decimals",
    "PyHalo.Props.c18_lens_plane_missing",
    "PyHalo.Props.c18_zero_thickness",
    "PyHalo.Props.c18_plane_behind_source",
    "PyHalo.Props.c18_empty_cone_raises"
   ],
   "note": "ordering and coverage before rounding proved; false in full: lens redshift can be rounded away, thickness can be rounded to zero, last plane can lie behind the source"
  },
  {
   "property": "C19",
   "status": "proved",
   "theorems": [
    "PyHalo.Props.c19_draws_in_range",
    "PyHalo.Props.c19_draw_succeeds"
   ],
   "note": "every drawn mass lies in the requested range; draw succeeds for non-negative mean"
  },
  {
   "property": "C20",
   "status": "proved",
   "theorems": [
    "PyHalo.Props.c20_wdm_factor",
    "PyHalo.Props.c20_mixed_factor",
    "PyHalo.Props.c20_mixed_limits",
    "PyHalo.Props.c20_wdm_monotone",
    "PyHalo.Props.c20_suppressed_draws",
    "PyHalo.Props.c20_only_removes",
    "PyHalo.Props.c20_stronger_suppression",
    "PyHalo.Props.c20_no_suppression"
   ],
   "note": "suppressed draws are an order-preserving selection of the unsuppressed ones; monotone in the suppression"
  },
  {
   "property": "C21",
   "status": "proved",
   "theorems": [
    "PyHalo.Props.c21_uniform_in_disc",
    "PyHalo.Props.c21_cone_in_disc_arcsec",
    "PyHalo.Props.c21_uniform_draws_n",
    "PyHalo.Props.c21_equal_area"
   ],
   "note": "positions inside the disc; equal-area; as many as requested"
  },
  {
   "property": "C22",
   "status": "proved",
   "theorems": [
    "PyHalo.Props.c22_double_cone",
    "PyHalo.Props.c22_double_cone_continuous",
    "PyHalo.Props.c22_area_below_cone",
    "PyHalo.Props.c22_unknown_geometry"
   ],
   "note": "double cone value at 0, lens, source; continuity; bounds"
  },
  {
   "property": "C23",
   "status": "proved",
   "theorems": [
    "PyHalo.Props.c23_infall_range",
    "PyHalo.Props.c23_infall_monotone",
    "PyHalo.Props.c23_all_classes",
    "PyHalo.Props.c23_fits_positive",
    "PyHalo.Props.c23_milky_way_mean_negative",
    "PyHalo.Props.c23_galacticus_range",
    "PyHalo.Props.c23_normal_meets_assumption",
    "PyHalo.Props.c23_installed_models"
   ],
   "note": "range and monotonicity for every class; the Milky Way fits have a negative mean above mass ratio 0.1 (c23_milky_way_mean_negative)"
  },
  {
   "property": "C24",
   "status": "proved",
   "theorems": [
    "PyHalo.Props.c24_preset",
    "PyHalo.Props.c24_cluster_range",
    "PyHalo.Props.c24_dispatch",
    "PyHalo.Props.c24_unknown_name",
    "PyHalo.Props.c24_setup_again"
   ],
   "note": "cluster range and dispatch by name"
  },
  {
   "property": "C25",
   "status": "proved",
   "theorems": [
    "PyHalo.Props.c25_nfw_mass",
    "PyHalo.Props.c25_nfw_mass_kpc",
    "PyHalo.Props.c25_radius",
    "PyHalo.Props.c25_refused",
    "PyHalo.Props.c25_from_mass"
   ],
   "note": "mass integral, mean density, both profiles, both unit systems; lenstronomy's rhoc_z is a parameter, its r200_M and rho0_c formulas are modelled"
  },
  {
   "property": "C26",
   "status": "proved",
   "theorems": [
    "PyHalo.Props.c26_rescale_history",
    "PyHalo.Props.c26_only_first",
    "PyHalo.Props.c26_tnfw_history"
   ],
   "note": "call histories, and full TNFW object histories including the call made by the truncation model"
  },
  {
   "property": "C27",
   "status": "proved",
   "theorems": [
    "PyHalo.Props.c27_roots",
    "PyHalo.Props.c27_degenerate",
    "PyHalo.Props.c27_tiny_leading_coefficient"
   ],
   "note": "all coefficients with |a| >= 1e-14, plus the exact degenerate branches; below the tolerance roots are lost (c27_tiny_leading_coefficient)"
  },
  {
   "property": "C28",
   "status": "partial",
   "theorems": [
    "PyHalo.Props.c28_slope_is_log_derivative",
    "PyHalo.Props.c28_inverse_partial",
    "PyHalo.Props.c28_refused",
    "PyHalo.Props.c28_near_limit",
    "PyHalo.Props.c28_slope_range"
   ],
   "note": "proved from -5 + 1e-14 on; within 1e-14 of -5 the code raises although a solution exists (c28_near_limit)"
  },
  {
   "property": "C29",
   "status": "partial",
   "theorems": [
    "PyHalo.Props.c29_floor",
    "PyHalo.Props.c29_floor_array",
    "PyHalo.Props.c29_median",
    "PyHalo.Props.c29_table_good",
    "PyHalo.Props.c29_covers_partial",
    "PyHalo.Props.c29_covers_array_partial",
    "PyHalo.Props.c29_negative_redshift",
    "PyHalo.Props.c29_grows",
    "PyHalo.Props.c29_between",
    "PyHalo.Props.c29_history_matters"
   ],
   "note": "Coverage is proved for redshift >= 0; c29_negative_redshift proves it fails below 0 after every history. c29_history_matters shows the answer depends on earlier queries. Real arithmetic; colossus is a parameter."
  },
  {
   "property": "C30",
   "status": "partial",
   "theorems": [
    "PyHalo.Props.c30_galacticus",
    "PyHalo.Props.c30_milky_way",
    "PyHalo.Props.c30_galacticus_nodes",
    "PyHalo.Props.c30_bound_mass",
    "PyHalo.Props.c30_zinfall_partial",
    "PyHalo.Props.c30_zinfall_extrapolates",
    "PyHalo.Props.c30_zinfall_monotone",
    "PyHalo.Props.c30_zinfall_nodes",
    "PyHalo.Props.c30_keeley_partial",
    "PyHalo.Props.c30_keeley_grows",
    "PyHalo.Props.c30_keeley_not_clamped",
    "PyHalo.Props.c30_approx",
    "PyHalo.Props.c30_pdf",
    "PyHalo.Props.c30_tau_partial",
    "PyHalo.Props.c30_tau_extrapolates"
   ],
   "note": "all models for inputs inside their tables; Galacticus and Milky Way tables for every input incl. the table nodes. Refuted: infall-redshift table extrapolates beyond 8.1, 2024 model can exceed the infall mass and extrapolates in time, bound fractions below 1e-6 are looked up outside the radius table"
  },
  {
   "property": "C31",
   "status": "partial",
   "theorems": [
    "PyHalo.Props.c31_rn",
    "PyHalo.Props.c31_mass_loss_partial",
    "PyHalo.Props.c31_mass_loss_differs",
    "PyHalo.Props.c31_concentration_scatter",
    "PyHalo.Props.c31_concentration_scalar_array",
    "PyHalo.Props.c31_evolution",
    "PyHalo.Props.c31_nfw",
    "PyHalo.Props.c31_infall",
    "PyHalo.Props.c31_times",
    "PyHalo.Props.c31_ages",
    "PyHalo.Props.c31_ages_out_of_range"
   ],
   "note": "evolution, NFW parameters, infall redshifts and times, ages up to redshift 20, field truncation radii, mass loss for host concentrations up to 8. Refuted beyond: c31_mass_loss_differs, c31_ages_out_of_range"
  },
  {
   "property": "C32",
   "status": "partial",
   "theorems": [
    "PyHalo.Props.c32_effective_age_partial",
    "PyHalo.Props.c32_late_formation_fails",
    "PyHalo.Props.c32_infall_zero"
   ],
   "note": "proved for formation at redshift 10 or earlier and infall not later than observation; false otherwise (c32_late_formation_fails, c32_infall_zero)"
  },
  {
   "property": "C33",
   "status": "proved",
   "theorems": [
    "PyHalo.Props.c33_radii",
    "PyHalo.Props.c33_core",
    "PyHalo.Props.c33_core_below_scale",
    "PyHalo.Props.c33_start",
    "PyHalo.Props.c33_frozen",
    "PyHalo.Props.c33_contracts",
    "PyHalo.Props.c33_units"
   ],
   "note": "radii positive, core at least 1e-7 of the scale radius and always below the scale radius, start, freezing beyond collapse, monotone contraction of the core after its maximum, unit independence"
  },
  {
   "property": "C34",
   "status": "partial",
   "theorems": [
    "PyHalo.Props.c34_cross_section_first_bin",
    "PyHalo.Props.c34_cross_section_succeeds",
    "PyHalo.Props.c34_timescale",
    "PyHalo.Props.c34_cross_section",
    "PyHalo.Props.c34_halo_list",
    "PyHalo.Props.c34_no_bin",
    "PyHalo.Props.c34_single",
    "PyHalo.Props.c34_first_bin",
    "PyHalo.Props.c34_nfw_refused",
    "PyHalo.Props.c34_cross_section_needs_nfw",
    "PyHalo.Props.c34_requested_ratio",
    "PyHalo.Props.c34_requested_ratio_exceeded",
    "PyHalo.Props.c34_composite_ratio",
    "PyHalo.Props.c34_succeeds"
   ],
   "note": "Population structure, context, untouched old objects, first matching bin, error without bin, and success are proved for every realization, bin list and variates. Disagreements proved: untruncated NFW halos are selected but refused; the cross-section conversion needs NFW parameters of every halo; a requested t/t_c is exceeded when infall precedes formation; composite halos with a requested ratio raise."
  },
  {
   "property": "C35",
   "status": "proved",
   "theorems": [
    "PyHalo.Props.c35_selected",
    "PyHalo.Props.c35_extremes"
   ],
   "note": "The selected indexes are characterised exactly, for every realization, bins, probabilities and variates."
  },
  {
   "property": "C36",
   "status": "partial",
   "theorems": [
    "PyHalo.Props.c36_core_collapsed",
    "PyHalo.Props.c36_infall_state",
    "PyHalo.Props.c36_unknown_profile",
    "PyHalo.Props.c36_shared_dictionary",
    "PyHalo.Props.c36_cored_partial",
    "PyHalo.Props.c36_cored_ignores_indexes"
   ],
   "note": "Core collapse: proved. add_cored_halos: proved for the cored NFW profile (the new halos lose their three-dimensional radius), the negation for all others. Also proved: GNFW and power-law conversions lose the bound mass and write into the dictionary shared by all halos."
  },
  {
   "property": "C37",
   "status": "proved",
   "theorems": [
    "PyHalo.Props.c37_injection",
    "PyHalo.Props.c37_unknown_model",
    "PyHalo.Props.c37_forgets_shift"
   ],
   "note": "Also proved: the result forgets that the realization was shifted."
  },
  {
   "property": "C38",
   "status": "partial",
   "theorems": [
    "PyHalo.Props.c38_globular_clusters",
    "PyHalo.Props.c38_cluster_number",
    "PyHalo.Props.c38_cluster_errors",
    "PyHalo.Props.c38_cluster_mass",
    "PyHalo.Props.c38_fluctuations_region",
    "PyHalo.Props.c38_fluctuations_aperture_partial",
    "PyHalo.Props.c38_fluctuations_no_zero",
    "PyHalo.Props.c38_fluctuations_misassigned",
    "PyHalo.Props.c38_amplitude",
    "PyHalo.Props.c38_ring_not_even",
    "PyHalo.Props.c38_fluctuation_number",
    "PyHalo.Props.c38_cluster_profile"
   ],
   "note": "Globular clusters: proved in full (number per centre, positions within the radius, unchanged old halos). Fluctuations: proved for ring and ellipse, and for apertures when no count is zero; with a zero count the counts are shown to be assigned to the wrong image (c38_fluctuations_misassigned)."
  },
  {
   "property": "C39",
   "status": "partial",
   "theorems": [
    "PyHalo.Props.c39_seed",
    "PyHalo.Props.c39_complete",
    "PyHalo.Props.c39_black_holes_partial",
    "PyHalo.Props.c39_subresolution_below_minimum",
    "PyHalo.Props.c39_subresolution_cut",
    "PyHalo.Props.c39_empty"
   ],
   "note": "Proved for black holes in rendered halos; refuted for the sub-resolution population (c39_subresolution_below_minimum)."
  },
  {
   "property": "C40",
   "status": "proved",
   "theorems": [
    "PyHalo.Props.c40_fractions",
    "PyHalo.Props.c40_smooth_mean",
    "PyHalo.Props.c40_clustered_mean",
    "PyHalo.Props.c40_smooth",
    "PyHalo.Props.c40_positions_ignored",
    "PyHalo.Props.c40_clustered_positions",
    "PyHalo.Props.c40_clustered_lost",
    "PyHalo.Props.c40_factor_of_last_plane",
    "PyHalo.Props.c40_factor",
    "PyHalo.Props.c40_not_rescaled"
   ],
   "note": "The two fractions and, beyond the statement, the mean masses drawn for both components; several failures of the clustered component are theorems (positions ignored, masses lost, factor of last plane)."
  },
  {
   "property": "C41",
   "status": "proved",
   "theorems": [
    "PyHalo.Props.c41_label",
    "PyHalo.Props.c41_readable",
    "PyHalo.Props.c41_counts",
    "PyHalo.Props.c41_one_tree"
   ],
   "note": "c41_one_tree proves the failure for files with one tree."
  },
  {
   "property": "C42",
   "status": "proved",
   "theorems": [
    "PyHalo.Props.c42_distance",
    "PyHalo.Props.c42_pythagoras",
    "PyHalo.Props.c42_scale",
    "PyHalo.Props.c42_filter"
   ],
   "note": ""
  },
  {
   "property": "C43",
   "status": "proved",
   "theorems": [
    "PyHalo.Props.c43_enclosed_mass",
    "PyHalo.Props.c43_radius_of_maximum",
    "PyHalo.Props.c43_radius_of_maximum_cored",
    "PyHalo.Props.c43_total_mass"
   ],
   "note": "All nine closed forms of the enclosed mass and three closed forms of the total mass of a truncated profile are the integrals of the density; the hypergeometric fallback and the two long total-mass formulas (inner slopes 0.5, 1.5) are not covered."
  },
  {
   "property": "C44",
   "status": "proved",
   "theorems": [
    "PyHalo.Props.c44_fraction",
    "PyHalo.Props.c44_refused",
    "PyHalo.Props.c44_radius_of_unstripped",
    "PyHalo.Props.c44_radius_negative"
   ],
   "note": "Also monotone in the bound fraction; the fitted radius (not used elsewhere) is negative for small bound fractions of one profile."
  },
  {
   "property": "C45",
   "status": "partial",
   "theorems": [
    "PyHalo.Props.c45_mass",
    "PyHalo.Props.c45_found",
    "PyHalo.Props.c45_singular",
    "PyHalo.Props.c45_black_hole",
    "PyHalo.Props.c45_reads",
    "PyHalo.Props.c45_black_hole_reads",
    "PyHalo.Props.c45_density_keys",
    "PyHalo.Props.c45_rounding",
    "PyHalo.Props.c45_projected_mass",
    "PyHalo.Props.c45_projected_mass_constant",
    "PyHalo.Props.c45_parameters",
    "PyHalo.Props.c45_parameters_black_hole",
    "PyHalo.Props.c45_density_units"
   ],
   "note": "Proved for the composite without a black hole, for every linear lensing library and every profile: amplitudes non-negative, enclosed mass equal at both matching radii, exception otherwise, repeated reads stable. The composite with a black hole does not conserve the mass (c45_black_hole) and reading one of its properties spoils later reads (c45_black_hole_reads)."
  },
  {
   "property": "C46",
   "status": "partial",
   "theorems": [
    "PyHalo.Props.c46_writes",
    "PyHalo.Props.c46_writes_wdm",
    "PyHalo.Props.c46_cdm_partial",
    "PyHalo.Props.c46_wdm_partial",
    "PyHalo.Props.c46_direct_infall",
    "PyHalo.Props.c46_caller_dictionary",
    "PyHalo.Props.c46_mixed_partial",
    "PyHalo.Props.c46_mixed_values",
    "PyHalo.Props.c46_writes_general",
    "PyHalo.Props.c46_writes_binned",
    "PyHalo.Props.c46_general_partial",
    "PyHalo.Props.c46_binned_partial",
    "PyHalo.Props.c46_correlated"
   ],
   "note": "For every history of calls (cold dark matter; warm dark matter; warm and mixed interleaved), with default or given dictionaries and including failed calls, the request does not depend on the history if the infall model is chosen by a name other than DIRECT_INFALL or the infall dictionary is given. c46_direct_infall proves the failure for DIRECT_INFALL; c46_caller_dictionary that a caller's {'m_host': m} changes its meaning when it is used again. The same is proved for WDMGeneral and CDMBinned; for CDMCorrelatedStructure without exception."
  },
  {
   "property": "C47",
   "status": "partial",
   "theorems": [
    "PyHalo.Props.c47_cdm",
    "PyHalo.Props.c47_rendered",
    "PyHalo.Props.c47_wdm_partial",
    "PyHalo.Props.c47_wdm_both",
    "PyHalo.Props.c47_general"
   ],
   "note": "Proved without restriction for cold dark matter, down to the normalisation of the mass function; for warm dark matter if the caller's dictionary has no amplitude (c47_wdm_partial), and disproved otherwise (c47_wdm_both). WDMGeneral, which has no such dictionary, satisfies it (c47_general)."
  },
  {
   "property": "C48",
   "status": "partial",
   "theorems": [
    "PyHalo.Props.c48_preset",
    "PyHalo.Props.c48_emulator",
    "PyHalo.Props.c48_mass",
    "PyHalo.Props.c48_mass_plain",
    "PyHalo.Props.c48_mass_stucker",
    "PyHalo.Props.c48_mass_refused",
    "PyHalo.Props.c48_concentration",
    "PyHalo.Props.c48_concentration_fixed",
    "PyHalo.Props.c48_concentration_special",
    "PyHalo.Props.c48_concentration_refused",
    "PyHalo.Props.c48_truncation"
   ],
   "note": "Proved for every string, except that the documented name DMEmulator raises an ImportError (c48_emulator)."
  },
  {
   "property": "C49",
   "status": "proved",
   "theorems": [
    "PyHalo.Props.c49_history",
    "PyHalo.Props.c49_order_irrelevant",
    "PyHalo.Props.c49_distance",
    "PyHalo.Props.c49_comoving_monotone",
    "PyHalo.Props.c49_array_differs"
   ],
   "note": "scalar queries; array queries differ (c49_array_differs)"
  },
  {
   "property": "C50",
   "status": "partial",
   "theorems": [
    "PyHalo.Props.c50_recomputed",
    "PyHalo.Props.c50_no_shift_after_read_partial",
    "PyHalo.Props.c50_stale",
    "PyHalo.Props.c50_hybrid"
   ],
   "note": "proved for classes that do not cache and for histories without a shift after a read; false otherwise (c50_stale, c50_hybrid)"
  },
  {
   "property": "C51",
   "status": "proved",
   "theorems": [
    "PyHalo.Props.c09_lensing_quantities_sheets"
   ],
   "note": "part of the statement of c09_lensing_quantities_sheets"
  },
  {
   "property": "C52",
   "status": "proved",
   "theorems": [
    "PyHalo.Props.c52_moments",
    "PyHalo.Props.c52_moments_empty"
   ],
   "note": "interval integrals"
  },
  {
   "property": "C53",
   "status": "proved",
   "theorems": [
    "PyHalo.Props.c53_quantile",
    "PyHalo.Props.c53_monotone"
   ],
   "note": "quantile and monotone"
  },
  {
   "property": "C54",
   "status": "proved",
   "theorems": [
    "PyHalo.Props.c54_count_near_mean"
   ],
   "note": ""
  },
  {
   "property": "C55",
   "status": "proved",
   "theorems": [
    "PyHalo.Props.c55_line_of_sight_sheets",
    "PyHalo.Props.c55_subhalo_sheets",
    "PyHalo.Props.c55_lensing_quantities"
   ],
   "note": "expected mass, alignment, window; makes the alignment assumption of C09 unnecessary for pyHalo's own classes"
  },
  {
   "property": "C56",
   "status": "proved",
   "theorems": [
    "PyHalo.Props.c56_host_scaling_pivot",
    "PyHalo.Props.c56_host_scaling_powers",
    "PyHalo.Props.c56_sigma_sub",
    "PyHalo.Props.c56_dndA",
    "PyHalo.Props.c56_no_amplitude",
    "PyHalo.Props.c56_line_of_sight"
   ],
   "note": ""
  },
  {
   "property": "C57",
   "status": "partial",
   "theorems": [
    "PyHalo.Props.c57_projected_nfw_partial",
    "PyHalo.Props.c57_r3d_below_projected",
    "PyHalo.Props.c57_draws_n"
   ],
   "note": "radius ranges proved; r3d >= projected radius is false (c57_r3d_below_projected)"
  },
  {
   "property": "C58",
   "status": "proved",
   "theorems": [
    "PyHalo.Props.c58_cylinder_radius",
    "PyHalo.Props.c58_area_is_disc"
   ],
   "note": ""
  },
  {
   "property": "C59",
   "status": "proved",
   "theorems": [
    "PyHalo.Props.c59_suppression_scale"
   ],
   "note": ""
  },
  {
   "property": "C60",
   "status": "proved",
   "theorems": [
    "PyHalo.Props.c60_arcsec",
    "PyHalo.Props.c60_point_mass",
    "PyHalo.Props.c60_sigma_crit",
    "PyHalo.Props.c60_deflection"
   ],
   "note": ""
  },
  {
   "property": "C61",
   "status": "proved",
   "theorems": [
    "PyHalo.Props.c61_halfmode",
    "PyHalo.Props.c61_free_streaming"
   ],
   "note": "the scipy minimiser is not modelled, only its objective"
  },
  {
   "property": "C62",
   "status": "proved",
   "theorems": [
    "PyHalo.Props.c62_timescale"
   ],
   "note": ""
  },
  {
   "property": "C63",
   "status": "proved",
   "theorems": [
    "PyHalo.Props.c63_amplitude",
    "PyHalo.Props.c63_no_effect",
    "PyHalo.Props.c63_tnfw"
   ],
   "note": "c63_no_effect characterises the classes that ignore the factor"
  },
  {
   "property": "C64",
   "status": "partial",
   "theorems": [
    "PyHalo.Props.c64_mass_3d_changes",
    "PyHalo.Props.c64_mass_3d_partial",
    "PyHalo.Props.c64_vmax_stale",
    "PyHalo.Props.c64_density_ignores_factor"
   ],
   "note": "enclosed mass is right once anything has been read; the rest is disproved (c64_mass_3d_changes, c64_vmax_stale, c64_density_ignores_factor)"
  },
  {
   "property": "C65",
   "status": "proved",
   "theorems": [
    "PyHalo.Props.c65_bound_mass"
   ],
   "note": "the fraction is evaluated at exact or rounded radii depending on the history; both are named in the statement"
  },
  {
   "property": "C66",
   "status": "partial",
   "theorems": [
    "PyHalo.Props.c66_from_params_partial",
    "PyHalo.Props.c66_rescaled",
    "PyHalo.Props.c66_accuracy_partial"
   ],
   "note": "proved for a halo that was not rescaled, with the rounding bounded; false after rescaling (c66_rescaled)"
  },
  {
   "property": "C67",
   "status": "proved",
   "theorems": [
    "PyHalo.Props.c67_mass_fraction"
   ],
   "note": "lenstronomy's TNFW.mass_3d is taken to be the integral of the density"
  },
  {
   "property": "C68",
   "status": "proved",
   "theorems": [
    "PyHalo.Props.c68_polynomial",
    "PyHalo.Props.c68_redshift_factor",
    "PyHalo.Props.c68_hyperbolic",
    "PyHalo.Props.c68_ludlow",
    "PyHalo.Props.c68_turnover"
   ],
   "note": "c68_redshift_factor gives the exact redshift range in which the Bose factor does not raise concentrations."
  },
  {
   "property": "C69",
   "status": "proved",
   "theorems": [
    "PyHalo.Props.c69_binned",
    "PyHalo.Props.c69_outside",
    "PyHalo.Props.c69_edges"
   ],
   "note": "c69_edges records the behaviour at the top edge and in gaps."
  },
  {
   "property": "C70",
   "status": "partial",
   "theorems": [
    "PyHalo.Props.c70_options_partial",
    "PyHalo.Props.c70_default_remembered"
   ],
   "note": "c70_options_partial covers an explicit dictionary and the first call; c70_default_remembered proves the code violates the property for every later call."
  },
  {
   "property": "C71",
   "status": "partial",
   "theorems": [
    "PyHalo.Props.c71_consistent",
    "PyHalo.Props.c71_independent_draws",
    "PyHalo.Props.c71_assigned_ignored",
    "PyHalo.Props.c71_refused"
   ],
   "note": "proved for the default model; c71_independent_draws and c71_assigned_ignored show the other models violate it; c71_refused"
  },
  {
   "property": "C72",
   "status": "partial",
   "theorems": [
    "PyHalo.Props.c72_rn",
    "PyHalo.Props.c72_rn_monotone",
    "PyHalo.Props.c72_splashback_partial",
    "PyHalo.Props.c72_splashback_not_mean",
    "PyHalo.Props.c72_roche",
    "PyHalo.Props.c72_roche_zero",
    "PyHalo.Props.c72_mean_density"
   ],
   "note": "all but the splashback mean-density definition, which c72_splashback_not_mean refutes"
  },
  {
   "property": "C73",
   "status": "proved",
   "theorems": [
    "PyHalo.Props.c73_normalisation",
    "PyHalo.Props.c73_prescribed_mass"
   ],
   "note": "Scale covariance of lenstronomy's enclosed mass is a hypothesis; the entry x_match='c' is not modelled. The dependence on the order with a prescribed mass is proved as c73_prescribed_mass."
  },
  {
   "property": "C74",
   "status": "partial",
   "theorems": [
    "PyHalo.Props.c74_correlated",
    "PyHalo.Props.c74_errors",
    "PyHalo.Props.c74_mass_in_area",
    "PyHalo.Props.c74_mass_overestimated",
    "PyHalo.Props.c74_primordial",
    "PyHalo.Props.c40_positions_ignored",
    "PyHalo.Props.c40_clustered_positions",
    "PyHalo.Props.c40_clustered_lost",
    "PyHalo.Props.c40_factor_of_last_plane",
    "PyHalo.Props.c40_not_rescaled"
   ],
   "note": "The structural part is proved (c74_correlated, c74_primordial, c74_errors); the mass in the area is refuted (c74_mass_in_area, c74_mass_overestimated) and the positions are shown to be those of halos (c40_positions_ignored, c40_clustered_positions)."
  },
  {
   "property": "C75",
   "status": "proved",
   "theorems": [
    "PyHalo.Props.c75_pixel"
   ],
   "note": ""
  },
  {
   "property": "C76",
   "status": "partial",
   "theorems": [
    "PyHalo.Props.c76_inverts",
    "PyHalo.Props.c76_histories",
    "PyHalo.Props.c76_spoiled",
    "PyHalo.Props.c76_spoiled_nfw",
    "PyHalo.Props.c76_never_ends",
    "PyHalo.Props.c76_bound_mass",
    "PyHalo.Props.c76_refused",
    "PyHalo.Props.c76_batch",
    "PyHalo.Props.c76_batch_inverts",
    "PyHalo.Props.c76_batch_compute"
   ],
   "note": "Inner slopes 0 and 1; the long total-mass formulas for inner slopes 0.5 and 1.5 are a parameter. Interpolation is a parameter that passes through its points; equality with the bound mass elsewhere is under the hypothesis that it is exact. Negations: c76_spoiled, c76_never_ends, c76_refused."
  },
  {
   "property": "C77",
   "status": "partial",
   "theorems": [
    "PyHalo.Props.c77_rows",
    "PyHalo.Props.c77_mask",
    "PyHalo.Props.c77_partition",
    "PyHalo.Props.c77_renamed",
    "PyHalo.Props.c77_select",
    "PyHalo.Props.c77_selected",
    "PyHalo.Props.c77_in_cone"
   ],
   "note": "Proved for the default column name of the host flag; c77_renamed and c77_select prove the two failures. The realization of line-of-sight halos that is joined is not part of it."
  },
  {
   "property": "C78",
   "status": "proved",
   "theorems": [
    "PyHalo.Props.c78_mass"
   ],
   "note": ""
  },
  {
   "property": "C79",
   "status": "partial",
   "theorems": [
    "PyHalo.Props.c79_cdm",
    "PyHalo.Props.c79_tilt_ignored",
    "PyHalo.Props.c79_wdm",
    "PyHalo.Props.c79_wdm_default_subhalos",
    "PyHalo.Props.c79_correlated"
   ],
   "note": "Proved for cold dark matter except the tilt (c79_tilt_ignored disproves it); for warm dark matter the lists of spatial distributions are longer than the others when the two-halo term is off (c79_wdm). CDMCorrelatedStructure satisfies it (c79_correlated)."
  },
  {
   "property": "C80",
   "status": "partial",
   "theorems": [
    "PyHalo.Props.c80_cdm_constant",
    "PyHalo.Props.c80_cdm_defaults",
    "PyHalo.Props.c80_wdm_refused",
    "PyHalo.Props.c80_wdm_bose_ludlow",
    "PyHalo.Props.c80_field_truncation",
    "PyHalo.Props.c80_prompt_cusps",
    "PyHalo.Props.c80_general_prompt_cusps",
    "PyHalo.Props.c80_binned"
   ],
   "note": "The property is false; the theorems give the failures: CONSTANT never works in CDM; with default dictionaries only two concentration models do; four models never work in WDM; BOSE2016_LUDLOW equals BOSE2016 in WDM; field halos cannot use the Galacticus truncations by default; prompt cusps raise. In CDMBinned only three concentration names work, two of which ignore the bins."
  },
  {
   "property": "C81",
   "status": "partial",
   "theorems": [
    "PyHalo.Props.c81_galacticus",
    "PyHalo.Props.c81_join_loses_subhalos",
    "PyHalo.Props.c81_no_preset_subhalos",
    "PyHalo.Props.c81_amplitude_kept",
    "PyHalo.Props.c81_emulator",
    "PyHalo.Props.c81_emulator_no_sheets",
    "PyHalo.Props.c81_emulator_extra_subhalos"
   ],
   "note": "Proved for whole calls with the preset CDM without clusters; which nodes are selected is C77. Zero preset subhalos without a logarithmic amplitude (c81_no_preset_subhalos; a Poisson variate of mean zero is assumed zero). Refuted: c81_join_loses_subhalos, c81_amplitude_kept, c81_emulator_no_sheets, c81_emulator_extra_subhalos."
  },
  {
   "property": "C82",
   "status": "proved",
   "theorems": [
    "PyHalo.Props.c82_sign",
    "PyHalo.Props.c82_mass_scale",
    "PyHalo.Props.c82_unique",
    "PyHalo.Props.c82_fit",
    "PyHalo.Props.c82_ludlow_sign"
   ],
   "note": "The least-squares solver is an oracle; the theorem holds for whatever it returns with the documented signs."
  },
  {
   "property": "C83",
   "status": "partial",
   "theorems": [
    "PyHalo.Props.c83_pseudo_jaffe",
    "PyHalo.Props.c83_pseudo_jaffe_physical",
    "PyHalo.Props.c83_power_law",
    "PyHalo.Props.c83_power_law_concentration",
    "PyHalo.Props.c83_globular_cluster",
    "PyHalo.Props.c83_globular_cluster_half_mass",
    "PyHalo.Props.c83_generalised_nfw",
    "PyHalo.Props.c83_generalised_nfw_prescribed",
    "PyHalo.Props.c83_generalised_nfw_order",
    "PyHalo.Props.c83_generalised_nfw_slope",
    "PyHalo.Props.c83_black_hole",
    "PyHalo.Props.c83_isothermal",
    "PyHalo.Props.c83_massive_galaxy",
    "PyHalo.Props.c83_cored",
    "PyHalo.Props.c83_cored_loses_mass",
    "PyHalo.Props.c83_cored_truncated",
    "PyHalo.Props.c83_collapsed_radii",
    "PyHalo.Props.c83_hybrid"
   ],
   "note": "proved for each class; negative results proved as theorems: c83_cored_loses_mass, c83_pseudo_jaffe_physical, c83_power_law_concentration, c83_generalised_nfw_prescribed. Library densities are reproduced where elementary and assumed linear and positive elsewhere."
  },
  {
   "property": "C84",
   "status": "partial",
   "theorems": [
    "PyHalo.Props.c84_core_radius",
    "PyHalo.Props.c84_redshift",
    "PyHalo.Props.c84_central_density",
    "PyHalo.Props.c84_density_comoving",
    "PyHalo.Props.c84_column_density",
    "PyHalo.Props.c84_wrong_distance"
   ],
   "note": "Scalings (c84_core_radius, c84_central_density) and the column density and angle at the main lens plane (c84_column_density) are proved. Not true as stated: for halos at other redshifts the angle is computed with the distance of the main lens (c84_wrong_distance), and the central density is the comoving one, used with a physical radius (c84_density_comoving)."
  },
  {
   "property": "C85",
   "status": "partial",
   "theorems": [
    "PyHalo.Props.c85_mass",
    "PyHalo.Props.c85_wrong_equation",
    "PyHalo.Props.c85_never_refused",
    "PyHalo.Props.c85_other_plane",
    "PyHalo.Props.c85_lens_params"
   ],
   "note": "Proved: the final rescaling reduces the mass error to the fraction of mass that is in the soliton, and it is exact iff the minimiser's result was (c85_mass); the errors for negative results cannot occur within the bounds (c85_never_refused). Not true as stated: an exact solution of the minimised equations does not give the mass (c85_wrong_equation), and halos off the main lens plane are weighed with the critical density of the lens plane (c85_other_plane)."
  },
  {
   "property": "C86",
   "status": "partial",
   "theorems": [
    "PyHalo.Props.c86_minimum_mass",
    "PyHalo.Props.c86_scales",
    "PyHalo.Props.c86_request",
    "PyHalo.Props.c86_default_refused",
    "PyHalo.Props.c86_sigma_sub_ignored",
    "PyHalo.Props.c86_fluctuation_amplitude",
    "PyHalo.Props.c86_reference_scatter"
   ],
   "note": "c86_minimum_mass, c86_scales, c86_request and c86_fluctuation_amplitude prove the masses, the request and the scaling. Not true as stated: the default call always raises, after rendering (c86_default_refused); sigma_sub is ignored unless log10_sigma_sub is set to None (c86_sigma_sub_ignored); for the reference lens the amplitude is changed by the scatter of two separate concentration draws (c86_reference_scatter). The placement of the fluctuations is C38."
  },
  {
   "property": "C87",
   "status": "partial",
   "theorems": [
    "PyHalo.Props.c87_warming_partial",
    "PyHalo.Props.c87_stages",
    "PyHalo.Props.c87_succeeds",
    "PyHalo.Props.c87_bound_masses",
    "PyHalo.Props.c87_prescribed_replaced",
    "PyHalo.Props.c87_zinfall_assigned",
    "PyHalo.Props.c87_mass_3d",
    "PyHalo.Props.c87_later_rescale",
    "PyHalo.Props.c87_class_of_dictionary",
    "PyHalo.Props.c87_host_concentration"
   ],
   "note": "c87_warming_partial proves it for NFW and TNFW halos with any history, host concentrations up to 8 and a dictionary that names the truncation class of the halos; c87_stages for the stages that depend on nothing else; c87_bound_masses that the bound-mass stage has no effect; c87_succeeds when it raises nothing. Each variate is attached to its halo, so that the batched and the lazy draws are the same numbers. Not true as stated: prescribed parameters are replaced (c87_prescribed_replaced), an assigned bound mass is used with the z_infall model only when warmed (c87_zinfall_assigned), mass_3d changes (c87_mass_3d), a later rescaling is ignored (c87_later_rescale), the truncation class of the dictionary replaces that of the halo (c87_class_of_dictionary), host concentrations above 8 (c87_host_concentration). The SIDM stage is not modelled here (C31-C34 cover its formulas)."
  },
  {
   "property": "C88",
   "status": "partial",
   "theorems": [
    "PyHalo.Props.c88_documented_slope_refused",
    "PyHalo.Props.c88_works",
    "PyHalo.Props.c88_request"
   ],
   "note": "Request and success proved for all slopes that are not positive with the default models; c88_documented_slope_refused disproves the documented use."
  },
  {
   "property": "C89",
   "status": "partial",
   "theorems": [
    "PyHalo.Props.c89_request",
    "PyHalo.Props.c89_concentration",
    "PyHalo.Props.c89_subhalos",
    "PyHalo.Props.c89_drawn",
    "PyHalo.Props.c89_sheets_doubled",
    "PyHalo.Props.c89_los_sheets_doubled",
    "PyHalo.Props.c89_works"
   ],
   "note": "Numbers, masses and concentrations of subhalos proved; sheets agree with the classes' own mass ranges and are doubled by default (c89_sheets_doubled, c89_los_sheets_doubled). For field halos the straight-line fit to the mass function is made separately in each bin, so only the default sheets are compared."
  },
  {
   "property": "C90",
   "status": "proved",
   "theorems": [
    "PyHalo.Props.c90_cdm",
    "PyHalo.Props.c90_wdm",
    "PyHalo.Props.c90_cdm_works",
    "PyHalo.Props.c90_wdm_works"
   ],
   "note": "Whole calls from the arguments of the preset to the list of halo objects, before globular clusters and SIS substitution. Mass definitions of subhalos and field halos are exchanged by the code (C17). Random numbers: uniform variates in [0,1), any Poisson counts. Success needs a slice thicker than 0.5 Mpc at the lens if there is a two-halo term (C93)."
  },
  {
   "property": "C91",
   "status": "partial",
   "theorems": [
    "PyHalo.Props.c91_wdm_cdm_partial",
    "PyHalo.Props.c91_larger_cutoff"
   ],
   "note": "c91_larger_cutoff is the full statement for two cutoffs. c91_wdm_cdm_partial lacks dictionaries of the mass function that themselves contain an amplitude or host_m200. The same random numbers means the same variates for masses, counts and rejection per population and plane; how the code's generator streams them is not modelled."
  },
  {
   "property": "C92",
   "status": "proved",
   "theorems": [
    "PyHalo.Props.c92_least_squares",
    "PyHalo.Props.c92_exact_fit",
    "PyHalo.Props.c92_fit_power_law",
    "PyHalo.Props.c92_mean_number",
    "PyHalo.Props.c92_volume_adds"
   ],
   "note": "np.polyfit and scipy's quad are taken without rounding. For mass functions that are not power laws the theorem says that the fitted line is the best one."
  },
  {
   "property": "C93",
   "status": "partial",
   "theorems": [
    "PyHalo.Props.c93_fine_spacing_raises",
    "PyHalo.Props.c93_setup",
    "PyHalo.Props.c93_mean_number"
   ],
   "note": "c93_setup and c93_mean_number are the first sentences in full. The last sentence fails: c93_fine_spacing_raises."
  },
  {
   "property": "C94",
   "status": "partial",
   "theorems": [
    "PyHalo.Props.c94_object",
    "PyHalo.Props.c94_accepted",
    "PyHalo.Props.c94_evolving_profile_undefined",
    "PyHalo.Props.c94_generalised_profile_renamed",
    "PyHalo.Props.c94_realization",
    "PyHalo.Props.c94_distinct_tags",
    "PyHalo.Props.c94_works",
    "PyHalo.Props.c94_cdm",
    "PyHalo.Props.c94_cdm_clusters",
    "PyHalo.Props.c94_cdm_works",
    "PyHalo.Props.c94_requested_models"
   ],
   "note": "c94_cdm, c94_cdm_clusters and c94_cdm_works are about whole calls, c94_realization about pyHalo.render for any preset. The last sentence fails: c94_evolving_profile_undefined, c94_generalised_profile_renamed."
  },
  {
   "property": "C95",
   "status": "partial",
   "theorems": [
    "PyHalo.Props.c95_core_collapse",
    "PyHalo.Props.c95_core_collapse_rows",
    "PyHalo.Props.c95_core_collapse_works",
    "PyHalo.Props.c95_default_profile_raises",
    "PyHalo.Props.c95_parametric",
    "PyHalo.Props.c95_parametric_clusters",
    "PyHalo.Props.c95_gap_raises",
    "PyHalo.Props.c95_fixed_bins",
    "PyHalo.Props.c95_fixed_bins_works",
    "PyHalo.Props.c95_core_collapse_number"
   ],
   "note": "c95_parametric and its corollaries are for evolving profiles (evolving_SIDM_profile=True, the default). The last sentence fails: c95_default_profile_raises."
  },
  {
   "property": "C96",
   "status": "partial",
   "theorems": [
    "PyHalo.Props.c96_unresolved_number",
    "PyHalo.Props.c96_halo_numbers",
    "PyHalo.Props.c96_black_holes",
    "PyHalo.Props.c96_clusters",
    "PyHalo.Props.c96_empty",
    "PyHalo.Props.c96_unresolved_below_minimum",
    "PyHalo.Props.c96_works"
   ],
   "note": "Proved for whole calls with the default cosmology: what is returned, which rows have a black hole, success (c96_works), clusters. The last sentence is refuted by c96_empty and c96_unresolved_below_minimum. The tags of the black holes are assumed different from those of the halos (they are random numbers in the code)."
  },
  {
   "property": "C97",
   "status": "proved",
   "theorems": [
    "PyHalo.Props.c97_subhalos",
    "PyHalo.Props.c97_field"
   ],
   "note": "For whole calls of CDM that return. The mass function of field halos is stated with the modelled fit and volume (C92 says what they are)."
  },
  {
   "property": "C98",
   "status": "proved",
   "theorems": [
    "PyHalo.Props.c98_sheets",
    "PyHalo.Props.c98_unbiased_subhalos",
    "PyHalo.Props.c98_unbiased_field",
    "PyHalo.Props.c98_default_less"
   ],
   "note": "c98_sheets: the whole lens model; c98_unbiased_subhalos, c98_unbiased_field: with the limits of the call the sheet equals the average drawn mass; c98_default_less: with the default limits it takes away less."
  },
  {
   "property": "C99",
   "status": "partial",
   "theorems": [
    "PyHalo.Props.c99_subhalos_partial",
    "PyHalo.Props.c99_field_partial",
    "PyHalo.Props.c99_wdm",
    "PyHalo.Props.c99_wdm_clusters",
    "PyHalo.Props.c99_wdm_works",
    "PyHalo.Props.c99_larger_cutoff",
    "PyHalo.Props.c99_wdm_cdm_partial",
    "PyHalo.Props.c99_sheets_partial",
    "PyHalo.Props.c99_unbiased_subhalos_partial",
    "PyHalo.Props.c99_unbiased_field"
   ],
   "note": "Proved for all calls; the theorems with the suffix _partial leave out dictionaries of the mass function that carry their own amplitude or host_m200. Expectations are integrals over the uniform variates at the nominal number of draws."
  },
  {
   "property": "C100",
   "status": "partial",
   "theorems": [
    "PyHalo.Props.c100_without",
    "PyHalo.Props.c100_halos",
    "PyHalo.Props.c100_fluctuations",
    "PyHalo.Props.c100_apertures_partial",
    "PyHalo.Props.c100_sheets",
    "PyHalo.Props.c100_default_raises",
    "PyHalo.Props.c100_works"
   ],
   "note": "Proved for rings and ellipses for all draws and arguments. For apertures the group of a draw is around the wrong image when an earlier image has no draw (c38_fluctuations_misassigned), and the documented defaults raise (c100_default_raises). Rendering itself raises for none of the inputs of c100_works."
  },
  {
   "property": "C101",
   "status": "proved",
   "theorems": [
    "PyHalo.Props.c101_milky_way",
    "PyHalo.Props.c101_infall_law",
    "PyHalo.Props.c101_milky_way_pole",
    "PyHalo.Props.c101_galacticus_law",
    "PyHalo.Props.c101_fixed"
   ],
   "note": "Law of the draw as a function of the uniform variate, with scipy's ndtr the standard normal distribution function and ndtri an inverse of it. The fits of the 30 and 50 kpc Milky Way classes have a pole inside the calibrated range (c101_milky_way_pole). The Galacticus histogram is sampled between the centres of its first and last bin, so the fifty counts of the first bin carry no weight."
  },
  {
   "property": "C102",
   "status": "proved",
   "theorems": [
    "PyHalo.Props.c102_power_law",
    "PyHalo.Props.c102_suppressed",
    "PyHalo.Props.c102_suppression_factors",
    "PyHalo.Props.c102_reading",
    "PyHalo.Props.c102_rate",
    "PyHalo.Props.c102_power_law_counts",
    "PyHalo.Props.c102_delta",
    "PyHalo.Props.c102_delta_rounded",
    "PyHalo.Props.c102_gaussian"
   ],
   "note": "The generating functional of the drawn masses is that of the Poisson process with the requested intensity (c102_power_law, c102_suppressed); c102_reading and c102_power_law_counts say what this gives for counts and expected sums; c102_rate identifies the intensity. Trusted: numpy's poisson, rand and normal have the laws of their names and are independent."
  },
  {
   "property": "C103",
   "status": "proved",
   "theorems": [
    "PyHalo.Props.c103_uniform",
    "PyHalo.Props.c103_line_of_sight",
    "PyHalo.Props.c103_area",
    "PyHalo.Props.c103_projected_nfw"
   ],
   "note": "The law of one position is the uniform measure of the disc (change of variables to polar coordinates); for the projected NFW profile the distribution function is given at the tabulated radii, where the sample is shifted inwards by one of 20000 cells. Trusted: numpy's rand is uniform with independent values."
  },
  {
   "property": "C104",
   "status": "partial",
   "theorems": [
    "PyHalo.Props.c104_comoving",
    "PyHalo.Props.c104_rays",
    "PyHalo.Props.c104_source",
    "PyHalo.Props.c104_deflector_behind_source",
    "PyHalo.Props.c104_straight",
    "PyHalo.Props.c104_mean",
    "PyHalo.Props.c104_no_source",
    "PyHalo.Props.c104_shift"
   ],
   "note": "Partial: the path does not end at the source if a deflector lies behind it (c104_deflector_behind_source): the source position is then assigned to the farthest deflector, scaled by the ratio of distances, and the path at the source is that of the unterminated ray. Proved with all deflectors at or in front of the source. lenstronomy's ray shooting is a parameter that composes (Spec104.Good)."
  },
  {
   "property": "C105",
   "status": "partial",
   "theorems": [
    "PyHalo.Props.c105_covariance",
    "PyHalo.Props.c105_pairs",
    "PyHalo.Props.c105_constant",
    "PyHalo.Props.c105_scale",
    "PyHalo.Props.c105_bounded",
    "PyHalo.Props.c105_zero_separation",
    "PyHalo.Props.c105_negative_area",
    "PyHalo.Props.c105_mask",
    "PyHalo.Props.c105_refused"
   ],
   "note": "Partial: without an outer mask radius and with an inner one whose disc exceeds the grid's square the area is negative (c105_negative_area), and the normalised function is -1 at zero separation (c105_zero_separation). The mask's interpolated values are assumed not to be exactly 0.9, where the code neither rounds up nor down (Spec105.NoTie). Splines and Simpson weights of scipy are parameters (Spec105.Good)."
  },
  {
   "property": "C106",
   "status": "partial",
   "theorems": [
    "PyHalo.Props.c106_rule_partial",
    "PyHalo.Props.c106_multipole_partial",
    "PyHalo.Props.c106_coefficients",
    "PyHalo.Props.c106_one_sided"
   ],
   "note": "Partial: proved for lists of cosines symmetric about zero. For others the code pairs the integrand with the angles in reverse order (c106_one_sided: 3/8 instead of 5/8 for the cosines 0, 1/2, 1). Simpson's rule is a parameter; its error is not bounded."
  },
  {
   "property": "C107",
   "status": "proved",
   "theorems": [
    "PyHalo.Props.c107_line_of_sight",
    "PyHalo.Props.c107_decreasing",
    "PyHalo.Props.c107_amplitude",
    "PyHalo.Props.c107_particle_mass",
    "PyHalo.Props.c107_jeans"
   ],
   "note": "quad is taken to be the integral; Simpson's rule and the concentration-mass relation are parameters."
  },
  {
   "property": "C108",
   "status": "partial",
   "theorems": [
    "PyHalo.Props.c108_single",
    "PyHalo.Props.c108_default_raises",
    "PyHalo.Props.c108_join",
    "PyHalo.Props.c108_join_reversed"
   ],
   "note": "Partial: with the default kwargs_halo_model={} every call raises a KeyError (c108_default_raises), and single.join(realization) drops the realization's mass sheets (c108_join_reversed). Proved with models for the halo's kind, and for realization.join(single) with the sheets of the rendering classes (not those of the exact mass)."
  },
  {
   "property": "C109",
   "status": "partial",
   "theorems": [
    "PyHalo.Props.c109_closed_form",
    "PyHalo.Props.c109_concentration",
    "PyHalo.Props.c109_monotone",
    "PyHalo.Props.c109_bound_mass",
    "PyHalo.Props.c109_monotone_emulator",
    "PyHalo.Props.c109_bound_mass_emulator",
    "PyHalo.Props.c109_emulator_halo"
   ],
   "note": "Proved for bound fractions up to one half (and concentrations up to 100 for the main table, 200 for the emulator); beyond that the main table extrapolates in the truncation radius and only monotonicity is proved. For emulator concentrations below 20 the proved factor grows to 3.8. Real arithmetic; scipy's interpolators have their documented meaning."
  },
  {
   "property": "C110",
   "status": "partial",
   "theorems": [
    "PyHalo.Props.c110_volume_partial",
    "PyHalo.Props.c110_last_slice_missing",
    "PyHalo.Props.c110_shapes"
   ],
   "note": "The code leaves out the last slice: the integral ends at the last multiple of 0.01 below the source redshift (c110_volume_partial), and is therefore strictly below the documented volume (c110_last_slice_missing). Quadrature exact; np.arange in real arithmetic. Closed forms for cylinder and cone, not for the double cone."
  },
  {
   "property": "C111",
   "status": "partial",
   "theorems": [
    "PyHalo.Props.c111_vmax",
    "PyHalo.Props.c111_dynamical_time",
    "PyHalo.Props.c111_half_of_documented"
   ],
   "note": "The documented factor two of the dynamical time is missing in the code (c111_half_of_documented). The rounded prefactor 1.64 makes the velocity exact only up to two percent."
  },
  {
   "property": "C112",
   "status": "proved",
   "theorems": [
    "PyHalo.Props.c112_array",
    "PyHalo.Props.c112_number",
    "PyHalo.Props.c112_power_law",
    "PyHalo.Props.c112_too_short",
    "PyHalo.Props.c112_tnfw",
    "PyHalo.Props.c112_nfw",
    "PyHalo.Props.c112_hybrid",
    "PyHalo.Props.c112_kappa",
    "PyHalo.Props.c112_slope_2d"
   ],
   "note": "np.gradient is modelled by its documented three-point formula. Densities, deflection angles and second derivatives are functions of the radius; the NFW and truncated NFW densities are the ones of the code. Radii are arrays; a single number is only accepted by logarithmic_profile_slope."
  },
  {
   "property": "C113",
   "status": "proved",
   "theorems": [
    "PyHalo.Props.c113_mass_2d"
   ],
   "note": "The second derivatives of the lensing potential (lenstronomy TNFWC.hessian) are a parameter. The mass inside 0.0003 rmax is not counted by the code. rmax given as the text 'r200' is not modelled."
  },
  {
   "property": "C114",
   "status": "partial",
   "theorems": [
    "PyHalo.Props.c114_even_partial",
    "PyHalo.Props.c114_odd_vanishes"
   ],
   "note": "Proved for even orders. For every odd order the code returns zero at every wavenumber (c114_odd_vanishes): the factor (-i)^l is imaginary and only the real part is returned. mcfit's transform is a parameter."
  },
  {
   "property": "C115",
   "status": "proved",
   "theorems": [
    "PyHalo.Props.c115_recovers",
    "PyHalo.Props.c115_refused"
   ],
   "note": "scipy's solver is a parameter assumed to find a curve through all points when one exists."
  },
  {
   "property": "C116",
   "status": "partial",
   "theorems": [
    "PyHalo.Props.c116_map",
    "PyHalo.Props.c116_no_halos",
    "PyHalo.Props.c116_half_of_documented",
    "PyHalo.Props.c116_missing_redshifts"
   ],
   "note": "Proved with one exception: each axis spans the given angle and not twice it as documented (c116_half_of_documented). lenstronomy's convergence is a parameter."
  },
  {
   "property": "C117",
   "status": "proved",
   "theorems": [
    "PyHalo.Props.c117_bounds",
    "PyHalo.Props.c117_thicker",
    "PyHalo.Props.c117_swapped",
    "PyHalo.Props.c117_population"
   ],
   "note": "The quadrature is the exact integral; colossus' two-halo term is a parameter."
  },
  {
   "property": "C118",
   "status": "partial",
   "theorems": [
    "PyHalo.Props.c118_continuous_partial",
    "PyHalo.Props.c118_scale_jumps",
    "PyHalo.Props.c118_core_jumps",
    "PyHalo.Props.c118_density"
   ],
   "note": "Continuous up to and after the collapse time. At the collapse time the fits do not meet: the core radius drops by more than five percent (c118_core_jumps) and the scale radius jumps up although it should shrink (c118_scale_jumps)."
  },
  {
   "property": "C119",
   "status": "proved",
   "theorems": [
    "PyHalo.Props.c119_close",
    "PyHalo.Props.c119_direct",
    "PyHalo.Props.c119_array"
   ],
   "note": "The relation of colossus is a parameter with bounded logarithmic slopes."
  },
  {
   "property": "C120",
   "status": "partial",
   "theorems": [
    "PyHalo.Props.c120_inside_partial",
    "PyHalo.Props.c120_lowest_bin_lost"
   ],
   "note": "The range, count and absence of errors are proved (c120_inside_partial). The shares fail: draws start at the cumulated share of the lowest bin, so the samples in it are lost; of k zeros and a one, every draw exceeds 0.99 (c120_lowest_bin_lost). Variates in the open unit interval."
  }
 ]
}