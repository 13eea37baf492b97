[
 {
  "property": "C01",
  "status": "proved",
  "note": "subhalos/field_halos are order-preserving and partition the halos"
 },
 {
  "property": "C02",
  "status": "proved",
  "note": "exact selection, order, context, plus the refusals (unknown unit, no rays)"
 },
 {
  "property": "C03",
  "status": "proved",
  "note": "idempotent; monotone in aperture and threshold for a non-negative weight floor"
 },
 {
  "property": "C04",
  "status": "proved",
  "note": "exact selection; field halos always survive"
 },
 {
  "property": "C05",
  "status": "proved",
  "note": "exact selection; shifted status kept"
 },
 {
  "property": "C06",
  "status": "proved",
  "note": "union by tag, preference for the shorter operand, restoration from a sub-selection"
 },
 {
  "property": "C07",
  "status": "proved",
  "note": "partition at <= / > (docstring says < / >=); join undoes the split"
 },
 {
  "property": "C08",
  "status": "proved",
  "note": "counts add up and are monotone"
 },
 {
  "property": "C09",
  "status": "proved",
  "note": "alignment and content of the three lists; halos and rendering classes are assumed to supply matching lists"
 },
 {
  "property": "C10",
  "status": "proved",
  "note": "sheets carry minus the plane mass, and in total minus the total mass"
 },
 {
  "property": "C11",
  "status": "proved",
  "note": "arrays of a freshly built realization"
 },
 {
  "property": "C12",
  "status": "partial",
  "note": "false in full (c12_at_most_once_fails, c12_original_shifts_again); proved for histories of calls that keep the shifted status"
 },
 {
  "property": "C13",
  "status": "proved",
  "note": "exact effect of a shift on all objects in memory"
 },
 {
  "property": "C14",
  "status": "proved",
  "note": "characterisation; reflexive, transitive; not symmetric (c14_eq_not_symmetric)"
 },
 {
  "property": "C15",
  "status": "proved",
  "note": "selection and indexes of realization_at_z"
 },
 {
  "property": "C16",
  "status": "proved",
  "note": "all arrays aligned for every class and population; rows in order; refusals"
 },
 {
  "property": "C17",
  "status": "partial",
  "note": "false in full: subhalos get the field definition and vice versa (c17_swapped, c17_requested_profile_fails); true exactly when both definitions are equal"
 },
 {
  "property": "C18",
  "status": "partial",
  "note": "ordering and coverage before rounding proved; false in full: lens redshift can be rounded away, thickness can be rounded to zero, last plane can lie behind the source"
 },
 {
  "property": "C19",
  "status": "proved",
  "note": "every drawn mass lies in the requested range; draw succeeds for non-negative mean"
 },
 {
  "property": "C20",
  "status": "proved",
  "note": "suppressed draws are an order-preserving selection of the unsuppressed ones; monotone in the suppression"
 },
 {
  "property": "C21",
  "status": "proved",
  "note": "positions inside the disc; equal-area; as many as requested"
 },
 {
  "property": "C22",
  "status": "proved",
  "note": "double cone value at 0, lens, source; continuity; bounds"
 },
 {
  "property": "C23",
  "status": "proved",
  "note": "range and monotonicity for every class; the Milky Way fits have a negative mean above mass ratio 0.1 (c23_milky_way_mean_negative)"
 },
 {
  "property": "C24",
  "status": "proved",
  "note": "cluster range and dispatch by name"
 },
 {
  "property": "C25",
  "status": "proved",
  "note": "mass integral, mean density, both profiles, both unit systems; lenstronomy's rhoc_z is a parameter, its r200_M and rho0_c formulas are modelled"
 },
 {
  "property": "C26",
  "status": "proved",
  "note": "call histories, and full TNFW object histories including the call made by the truncation model"
 },
 {
  "property": "C27",
  "status": "proved",
  "note": "all coefficients with |a| >= 1e-14, plus the exact degenerate branches; below the tolerance roots are lost (c27_tiny_leading_coefficient)"
 },
 {
  "property": "C28",
  "status": "partial",
  "note": "proved from -5 + 1e-14 on; within 1e-14 of -5 the code raises although a solution exists (c28_near_limit)"
 },
 {
  "property": "C29",
  "status": "partial",
  "note": "Coverage is proved for redshift >= 0; c29_negative_redshift proves it fails below 0 after every history. c29_history_matters shows the answer depends on earlier queries. Real arithmetic; colossus is a parameter."
 },
 {
  "property": "C30",
  "status": "partial",
  "note": "all models for inputs inside their tables; Galacticus and Milky Way tables for every input incl. the table nodes. Refuted: infall-redshift table extrapolates beyond 8.1, 2024 model can exceed the infall mass and extrapolates in time, bound fractions below 1e-6 are looked up outside the radius table"
 },
 {
  "property": "C31",
  "status": "partial",
  "note": "evolution, NFW parameters, infall redshifts and times, ages up to redshift 20, field truncation radii, mass loss for host concentrations up to 8. Refuted beyond: c31_mass_loss_differs, c31_ages_out_of_range"
 },
 {
  "property": "C32",
  "status": "partial",
  "note": "proved for formation at redshift 10 or earlier and infall not later than observation; false otherwise (c32_late_formation_fails, c32_infall_zero)"
 },
 {
  "property": "C33",
  "status": "proved",
  "note": "radii positive, core at least 1e-7 of the scale radius and always below the scale radius, start, freezing beyond collapse, monotone contraction of the core after its maximum, unit independence"
 },
 {
  "property": "C34",
  "status": "partial",
  "note": "Population structure, context, untouched old objects, first matching bin, error without bin, and success are proved for every realization, bin list and variates. Disagreements proved: untruncated NFW halos are selected but refused; the cross-section conversion needs NFW parameters of every halo; a requested t/t_c is exceeded when infall precedes formation; composite halos with a requested ratio raise."
 },
 {
  "property": "C35",
  "status": "proved",
  "note": "The selected indexes are characterised exactly, for every realization, bins, probabilities and variates."
 },
 {
  "property": "C36",
  "status": "partial",
  "note": "Core collapse: proved. add_cored_halos: proved for the cored NFW profile (the new halos lose their three-dimensional radius), the negation for all others. Also proved: GNFW and power-law conversions lose the bound mass and write into the dictionary shared by all halos."
 },
 {
  "property": "C37",
  "status": "proved",
  "note": "Also proved: the result forgets that the realization was shifted."
 },
 {
  "property": "C38",
  "status": "partial",
  "note": "Globular clusters: proved in full (number per centre, positions within the radius, unchanged old halos). Fluctuations: proved for ring and ellipse, and for apertures when no count is zero; with a zero count the counts are shown to be assigned to the wrong image (c38_fluctuations_misassigned)."
 },
 {
  "property": "C39",
  "status": "partial",
  "note": "Proved for black holes in rendered halos; refuted for the sub-resolution population (c39_subresolution_below_minimum)."
 },
 {
  "property": "C40",
  "status": "proved",
  "note": "The two fractions and, beyond the statement, the mean masses drawn for both components; several failures of the clustered component are theorems (positions ignored, masses lost, factor of last plane)."
 },
 {
  "property": "C41",
  "status": "proved",
  "note": "c41_one_tree proves the failure for files with one tree."
 },
 {
  "property": "C42",
  "status": "proved",
  "note": ""
 },
 {
  "property": "C43",
  "status": "proved",
  "note": "All nine closed forms of the enclosed mass and three closed forms of the total mass of a truncated profile are the integrals of the density; the hypergeometric fallback and the two long total-mass formulas (inner slopes 0.5, 1.5) are not covered."
 },
 {
  "property": "C44",
  "status": "proved",
  "note": "Also monotone in the bound fraction; the fitted radius (not used elsewhere) is negative for small bound fractions of one profile."
 },
 {
  "property": "C45",
  "status": "partial",
  "note": "Proved for the composite without a black hole, for every linear lensing library and every profile: amplitudes non-negative, enclosed mass equal at both matching radii, exception otherwise, repeated reads stable. The composite with a black hole does not conserve the mass (c45_black_hole) and reading one of its properties spoils later reads (c45_black_hole_reads)."
 },
 {
  "property": "C46",
  "status": "partial",
  "note": "For every history of calls (cold dark matter; warm dark matter; warm and mixed interleaved), with default or given dictionaries and including failed calls, the request does not depend on the history if the infall model is chosen by a name other than DIRECT_INFALL or the infall dictionary is given. c46_direct_infall proves the failure for DIRECT_INFALL; c46_caller_dictionary that a caller's {'m_host': m} changes its meaning when it is used again. The same is proved for WDMGeneral and CDMBinned; for CDMCorrelatedStructure without exception."
 },
 {
  "property": "C47",
  "status": "partial",
  "note": "Proved without restriction for cold dark matter, down to the normalisation of the mass function; for warm dark matter if the caller's dictionary has no amplitude (c47_wdm_partial), and disproved otherwise (c47_wdm_both). WDMGeneral, which has no such dictionary, satisfies it (c47_general)."
 },
 {
  "property": "C48",
  "status": "partial",
  "note": "Proved for every string, except that the documented name DMEmulator raises an ImportError (c48_emulator)."
 },
 {
  "property": "C49",
  "status": "proved",
  "note": "scalar queries; array queries differ (c49_array_differs)"
 },
 {
  "property": "C50",
  "status": "partial",
  "note": "proved for classes that do not cache and for histories without a shift after a read; false otherwise (c50_stale, c50_hybrid)"
 },
 {
  "property": "C51",
  "status": "proved",
  "note": "part of the statement of c09_lensing_quantities_sheets",
  "extra": [
   "c09_lensing_quantities_sheets"
  ]
 },
 {
  "property": "C52",
  "status": "proved",
  "note": "interval integrals"
 },
 {
  "property": "C53",
  "status": "proved",
  "note": "quantile and monotone"
 },
 {
  "property": "C54",
  "status": "proved",
  "note": ""
 },
 {
  "property": "C55",
  "status": "proved",
  "note": "expected mass, alignment, window; makes the alignment assumption of C09 unnecessary for pyHalo's own classes"
 },
 {
  "property": "C56",
  "status": "proved",
  "note": ""
 },
 {
  "property": "C57",
  "status": "partial",
  "note": "radius ranges proved; r3d >= projected radius is false (c57_r3d_below_projected)"
 },
 {
  "property": "C58",
  "status": "proved",
  "note": ""
 },
 {
  "property": "C59",
  "status": "proved",
  "note": ""
 },
 {
  "property": "C60",
  "status": "proved",
  "note": ""
 },
 {
  "property": "C61",
  "status": "proved",
  "note": "the scipy minimiser is not modelled, only its objective"
 },
 {
  "property": "C62",
  "status": "proved",
  "note": ""
 },
 {
  "property": "C63",
  "status": "proved",
  "note": "c63_no_effect characterises the classes that ignore the factor"
 },
 {
  "property": "C64",
  "status": "partial",
  "note": "enclosed mass is right once anything has been read; the rest is disproved (c64_mass_3d_changes, c64_vmax_stale, c64_density_ignores_factor)"
 },
 {
  "property": "C65",
  "status": "proved",
  "note": "the fraction is evaluated at exact or rounded radii depending on the history; both are named in the statement"
 },
 {
  "property": "C66",
  "status": "partial",
  "note": "proved for a halo that was not rescaled, with the rounding bounded; false after rescaling (c66_rescaled)"
 },
 {
  "property": "C67",
  "status": "proved",
  "note": "lenstronomy's TNFW.mass_3d is taken to be the integral of the density"
 },
 {
  "property": "C68",
  "status": "proved",
  "note": "c68_redshift_factor gives the exact redshift range in which the Bose factor does not raise concentrations."
 },
 {
  "property": "C69",
  "status": "proved",
  "note": "c69_edges records the behaviour at the top edge and in gaps."
 },
 {
  "property": "C70",
  "status": "partial",
  "note": "c70_options_partial covers an explicit dictionary and the first call; c70_default_remembered proves the code violates the property for every later call."
 },
 {
  "property": "C71",
  "status": "partial",
  "note": "proved for the default model; c71_independent_draws and c71_assigned_ignored show the other models violate it; c71_refused"
 },
 {
  "property": "C72",
  "status": "partial",
  "note": "all but the splashback mean-density definition, which c72_splashback_not_mean refutes"
 },
 {
  "property": "C73",
  "status": "proved",
  "note": "Scale covariance of lenstronomy's enclosed mass is a hypothesis; the entry x_match='c' is not modelled. The dependence on the order with a prescribed mass is proved as c73_prescribed_mass."
 },
 {
  "property": "C74",
  "status": "partial",
  "note": "The structural part is proved (c74_correlated, c74_primordial, c74_errors); the mass in the area is refuted (c74_mass_in_area, c74_mass_overestimated) and the positions are shown to be those of halos (c40_positions_ignored, c40_clustered_positions).",
  "extra": [
   "c40_positions_ignored",
   "c40_clustered_positions",
   "c40_clustered_lost",
   "c40_factor_of_last_plane",
   "c40_not_rescaled"
  ]
 },
 {
  "property": "C75",
  "status": "proved",
  "note": ""
 },
 {
  "property": "C76",
  "status": "partial",
  "note": "Inner slopes 0 and 1; the long total-mass formulas for inner slopes 0.5 and 1.5 are a parameter. Interpolation is a parameter that passes through its points; equality with the bound mass elsewhere is under the hypothesis that it is exact. Negations: c76_spoiled, c76_never_ends, c76_refused."
 },
 {
  "property": "C77",
  "status": "partial",
  "note": "Proved for the default column name of the host flag; c77_renamed and c77_select prove the two failures. The realization of line-of-sight halos that is joined is not part of it."
 },
 {
  "property": "C78",
  "status": "proved",
  "note": ""
 },
 {
  "property": "C79",
  "status": "partial",
  "note": "Proved for cold dark matter except the tilt (c79_tilt_ignored disproves it); for warm dark matter the lists of spatial distributions are longer than the others when the two-halo term is off (c79_wdm). CDMCorrelatedStructure satisfies it (c79_correlated)."
 },
 {
  "property": "C80",
  "status": "partial",
  "note": "The property is false; the theorems give the failures: CONSTANT never works in CDM; with default dictionaries only two concentration models do; four models never work in WDM; BOSE2016_LUDLOW equals BOSE2016 in WDM; field halos cannot use the Galacticus truncations by default; prompt cusps raise. In CDMBinned only three concentration names work, two of which ignore the bins."
 },
 {
  "property": "C81",
  "status": "partial",
  "note": "Proved for whole calls with the preset CDM without clusters; which nodes are selected is C77. Zero preset subhalos without a logarithmic amplitude (c81_no_preset_subhalos; a Poisson variate of mean zero is assumed zero). Refuted: c81_join_loses_subhalos, c81_amplitude_kept, c81_emulator_no_sheets, c81_emulator_extra_subhalos."
 },
 {
  "property": "C82",
  "status": "proved",
  "note": "The least-squares solver is an oracle; the theorem holds for whatever it returns with the documented signs."
 },
 {
  "property": "C83",
  "status": "partial",
  "note": "proved for each class; negative results proved as theorems: c83_cored_loses_mass, c83_pseudo_jaffe_physical, c83_power_law_concentration, c83_generalised_nfw_prescribed. Library densities are reproduced where elementary and assumed linear and positive elsewhere."
 },
 {
  "property": "C84",
  "status": "partial",
  "note": "Scalings (c84_core_radius, c84_central_density) and the column density and angle at the main lens plane (c84_column_density) are proved. Not true as stated: for halos at other redshifts the angle is computed with the distance of the main lens (c84_wrong_distance), and the central density is the comoving one, used with a physical radius (c84_density_comoving)."
 },
 {
  "property": "C85",
  "status": "partial",
  "note": "Proved: the final rescaling reduces the mass error to the fraction of mass that is in the soliton, and it is exact iff the minimiser's result was (c85_mass); the errors for negative results cannot occur within the bounds (c85_never_refused). Not true as stated: an exact solution of the minimised equations does not give the mass (c85_wrong_equation), and halos off the main lens plane are weighed with the critical density of the lens plane (c85_other_plane)."
 },
 {
  "property": "C86",
  "status": "partial",
  "note": "c86_minimum_mass, c86_scales, c86_request and c86_fluctuation_amplitude prove the masses, the request and the scaling. Not true as stated: the default call always raises, after rendering (c86_default_refused); sigma_sub is ignored unless log10_sigma_sub is set to None (c86_sigma_sub_ignored); for the reference lens the amplitude is changed by the scatter of two separate concentration draws (c86_reference_scatter). The placement of the fluctuations is C38."
 },
 {
  "property": "C87",
  "status": "partial",
  "note": "c87_warming_partial proves it for NFW and TNFW halos with any history, host concentrations up to 8 and a dictionary that names the truncation class of the halos; c87_stages for the stages that depend on nothing else; c87_bound_masses that the bound-mass stage has no effect; c87_succeeds when it raises nothing. Each variate is attached to its halo, so that the batched and the lazy draws are the same numbers. Not true as stated: prescribed parameters are replaced (c87_prescribed_replaced), an assigned bound mass is used with the z_infall model only when warmed (c87_zinfall_assigned), mass_3d changes (c87_mass_3d), a later rescaling is ignored (c87_later_rescale), the truncation class of the dictionary replaces that of the halo (c87_class_of_dictionary), host concentrations above 8 (c87_host_concentration). The SIDM stage is not modelled here (C31-C34 cover its formulas)."
 },
 {
  "property": "C88",
  "status": "partial",
  "note": "Request and success proved for all slopes that are not positive with the default models; c88_documented_slope_refused disproves the documented use."
 },
 {
  "property": "C89",
  "status": "partial",
  "note": "Numbers, masses and concentrations of subhalos proved; sheets agree with the classes' own mass ranges and are doubled by default (c89_sheets_doubled, c89_los_sheets_doubled). For field halos the straight-line fit to the mass function is made separately in each bin, so only the default sheets are compared."
 },
 {
  "property": "C90",
  "status": "proved",
  "note": "Whole calls from the arguments of the preset to the list of halo objects, before globular clusters and SIS substitution. Mass definitions of subhalos and field halos are exchanged by the code (C17). Random numbers: uniform variates in [0,1), any Poisson counts. Success needs a slice thicker than 0.5 Mpc at the lens if there is a two-halo term (C93)."
 },
 {
  "property": "C91",
  "status": "partial",
  "note": "c91_larger_cutoff is the full statement for two cutoffs. c91_wdm_cdm_partial lacks dictionaries of the mass function that themselves contain an amplitude or host_m200. The same random numbers means the same variates for masses, counts and rejection per population and plane; how the code's generator streams them is not modelled."
 },
 {
  "property": "C92",
  "status": "proved",
  "note": "np.polyfit and scipy's quad are taken without rounding. For mass functions that are not power laws the theorem says that the fitted line is the best one."
 },
 {
  "property": "C93",
  "status": "partial",
  "note": "c93_setup and c93_mean_number are the first sentences in full. The last sentence fails: c93_fine_spacing_raises."
 },
 {
  "property": "C94",
  "status": "partial",
  "note": "c94_cdm, c94_cdm_clusters and c94_cdm_works are about whole calls, c94_realization about pyHalo.render for any preset. The last sentence fails: c94_evolving_profile_undefined, c94_generalised_profile_renamed."
 },
 {
  "property": "C95",
  "status": "partial",
  "note": "c95_parametric and its corollaries are for evolving profiles (evolving_SIDM_profile=True, the default). The last sentence fails: c95_default_profile_raises."
 },
 {
  "property": "C96",
  "status": "partial",
  "note": "Proved for whole calls with the default cosmology: what is returned, which rows have a black hole, success (c96_works), clusters. The last sentence is refuted by c96_empty and c96_unresolved_below_minimum. The tags of the black holes are assumed different from those of the halos (they are random numbers in the code)."
 },
 {
  "property": "C97",
  "status": "proved",
  "note": "For whole calls of CDM that return. The mass function of field halos is stated with the modelled fit and volume (C92 says what they are)."
 },
 {
  "property": "C98",
  "status": "proved",
  "note": "c98_sheets: the whole lens model; c98_unbiased_subhalos, c98_unbiased_field: with the limits of the call the sheet equals the average drawn mass; c98_default_less: with the default limits it takes away less."
 },
 {
  "property": "C99",
  "status": "partial",
  "note": "Proved for all calls; the theorems with the suffix _partial leave out dictionaries of the mass function that carry their own amplitude or host_m200. Expectations are integrals over the uniform variates at the nominal number of draws."
 },
 {
  "property": "C100",
  "status": "partial",
  "note": "Proved for rings and ellipses for all draws and arguments. For apertures the group of a draw is around the wrong image when an earlier image has no draw (c38_fluctuations_misassigned), and the documented defaults raise (c100_default_raises). Rendering itself raises for none of the inputs of c100_works."
 },
 {
  "property": "C101",
  "status": "proved",
  "note": "Law of the draw as a function of the uniform variate, with scipy's ndtr the standard normal distribution function and ndtri an inverse of it. The fits of the 30 and 50 kpc Milky Way classes have a pole inside the calibrated range (c101_milky_way_pole). The Galacticus histogram is sampled between the centres of its first and last bin, so the fifty counts of the first bin carry no weight."
 },
 {
  "property": "C102",
  "status": "proved",
  "note": "The generating functional of the drawn masses is that of the Poisson process with the requested intensity (c102_power_law, c102_suppressed); c102_reading and c102_power_law_counts say what this gives for counts and expected sums; c102_rate identifies the intensity. Trusted: numpy's poisson, rand and normal have the laws of their names and are independent."
 },
 {
  "property": "C103",
  "status": "proved",
  "note": "The law of one position is the uniform measure of the disc (change of variables to polar coordinates); for the projected NFW profile the distribution function is given at the tabulated radii, where the sample is shifted inwards by one of 20000 cells. Trusted: numpy's rand is uniform with independent values."
 },
 {
  "property": "C104",
  "status": "partial",
  "note": "Partial: the path does not end at the source if a deflector lies behind it (c104_deflector_behind_source): the source position is then assigned to the farthest deflector, scaled by the ratio of distances, and the path at the source is that of the unterminated ray. Proved with all deflectors at or in front of the source. lenstronomy's ray shooting is a parameter that composes (Spec104.Good)."
 },
 {
  "property": "C105",
  "status": "partial",
  "note": "Partial: without an outer mask radius and with an inner one whose disc exceeds the grid's square the area is negative (c105_negative_area), and the normalised function is -1 at zero separation (c105_zero_separation). The mask's interpolated values are assumed not to be exactly 0.9, where the code neither rounds up nor down (Spec105.NoTie). Splines and Simpson weights of scipy are parameters (Spec105.Good)."
 },
 {
  "property": "C106",
  "status": "partial",
  "note": "Partial: proved for lists of cosines symmetric about zero. For others the code pairs the integrand with the angles in reverse order (c106_one_sided: 3/8 instead of 5/8 for the cosines 0, 1/2, 1). Simpson's rule is a parameter; its error is not bounded."
 },
 {
  "property": "C107",
  "status": "proved",
  "note": "quad is taken to be the integral; Simpson's rule and the concentration-mass relation are parameters."
 },
 {
  "property": "C108",
  "status": "partial",
  "note": "Partial: with the default kwargs_halo_model={} every call raises a KeyError (c108_default_raises), and single.join(realization) drops the realization's mass sheets (c108_join_reversed). Proved with models for the halo's kind, and for realization.join(single) with the sheets of the rendering classes (not those of the exact mass)."
 },
 {
  "property": "C109",
  "status": "partial",
  "note": "Proved for bound fractions up to one half (and concentrations up to 100 for the main table, 200 for the emulator); beyond that the main table extrapolates in the truncation radius and only monotonicity is proved. For emulator concentrations below 20 the proved factor grows to 3.8. Real arithmetic; scipy's interpolators have their documented meaning."
 },
 {
  "property": "C110",
  "status": "partial",
  "note": "The code leaves out the last slice: the integral ends at the last multiple of 0.01 below the source redshift (c110_volume_partial), and is therefore strictly below the documented volume (c110_last_slice_missing). Quadrature exact; np.arange in real arithmetic. Closed forms for cylinder and cone, not for the double cone."
 },
 {
  "property": "C111",
  "status": "partial",
  "note": "The documented factor two of the dynamical time is missing in the code (c111_half_of_documented). The rounded prefactor 1.64 makes the velocity exact only up to two percent."
 },
 {
  "property": "C112",
  "status": "proved",
  "note": "np.gradient is modelled by its documented three-point formula. Densities, deflection angles and second derivatives are functions of the radius; the NFW and truncated NFW densities are the ones of the code. Radii are arrays; a single number is only accepted by logarithmic_profile_slope."
 },
 {
  "property": "C113",
  "status": "proved",
  "note": "The second derivatives of the lensing potential (lenstronomy TNFWC.hessian) are a parameter. The mass inside 0.0003 rmax is not counted by the code. rmax given as the text 'r200' is not modelled."
 },
 {
  "property": "C114",
  "status": "partial",
  "note": "Proved for even orders. For every odd order the code returns zero at every wavenumber (c114_odd_vanishes): the factor (-i)^l is imaginary and only the real part is returned. mcfit's transform is a parameter."
 },
 {
  "property": "C115",
  "status": "proved",
  "note": "scipy's solver is a parameter assumed to find a curve through all points when one exists."
 },
 {
  "property": "C116",
  "status": "partial",
  "note": "Proved with one exception: each axis spans the given angle and not twice it as documented (c116_half_of_documented). lenstronomy's convergence is a parameter."
 },
 {
  "property": "C117",
  "status": "proved",
  "note": "The quadrature is the exact integral; colossus' two-halo term is a parameter."
 },
 {
  "property": "C118",
  "status": "partial",
  "note": "Continuous up to and after the collapse time. At the collapse time the fits do not meet: the core radius drops by more than five percent (c118_core_jumps) and the scale radius jumps up although it should shrink (c118_scale_jumps)."
 },
 {
  "property": "C119",
  "status": "proved",
  "note": "The relation of colossus is a parameter with bounded logarithmic slopes."
 },
 {
  "property": "C120",
  "status": "partial",
  "note": "The range, count and absence of errors are proved (c120_inside_partial). The shares fail: draws start at the cumulated share of the lowest bin, so the samples in it are lost; of k zeros and a one, every draw exceeds 0.99 (c120_lowest_bin_lost). Variates in the open unit interval."
 }
]