{"id": "C01", "title": "Subhalos and field halos partition a realization", "statement": "For every realization, `subhalos` and `field_halos` list, in the original order, exactly the halos with and without the subhalo flag: every halo is in exactly one of the two lists, nothing is added, lost or repeated, and the lengths add up to the number of halos.", "quantifier": "every list of halos with arbitrary flags", "why_tests_cant": "a test checks one population; the claim is about every list, including empty, all-subhalo and repeated-object lists", "anchors": ["pyHalo/single_realization.py: Realization.subhalos, Realization.field_halos"]}
{"id": "C02", "title": "filter keeps exactly the massive halos and the halos near a ray", "statement": "`filter(aperture, log10_m, rays_x, rays_y, units, geometric_weighting, w_min)` returns a realization whose halos are exactly (as a multiset) the halos of the input whose |mass| is at least 10**log10_m or which lie within aperture*w of at least one ray at their own distance, where w is 1 or the clipped lensing-kernel weight; the output is ordered by ascending redshift and is stable inside a plane.", "quantifier": "every halo list, every ray set, every aperture/threshold/weight setting, both units", "why_tests_cant": "the selection goes through index arithmetic (where/intersect/searchsorted per plane); a test can only sample populations and cannot exclude an off-by-one on some plane layout", "anchors": ["pyHalo/single_realization.py: Realization.filter, Realization.halos_at_z, Realization._reset"]}
{"id": "C03", "title": "filter is idempotent and monotone in its thresholds", "statement": "Filtering a filtered realization again with the same arguments changes nothing; raising the aperture or lowering the mass threshold can only add halos.", "quantifier": "every realization and every pair of ordered parameter settings", "why_tests_cant": "relational property over pairs of runs and all inputs", "anchors": ["pyHalo/single_realization.py: Realization.filter"]}
{"id": "C04", "title": "filter_subhalos only ever removes low-mass subhalos far from all coordinates", "statement": "`filter_subhalos(R, log10_m, xs, ys)` keeps, in the original order, every field halo, every subhalo with |mass| > 10**log10_m and every subhalo strictly closer than R to one of the coordinates, and removes every other halo.", "quantifier": "every halo list, coordinate list (including empty) and threshold", "why_tests_cant": "boolean mask logic over all inputs, including empty coordinate lists", "anchors": ["pyHalo/single_realization.py: Realization.filter_subhalos"]}
{"id": "C05", "title": "filter_bound_mass leaves no subhalo below the bound-mass cut and touches no field halo", "statement": "After `filter_bound_mass(m)` every subhalo has bound mass >= m, all field halos survive, the order is unchanged, and the shifted/unshifted status of the realization is carried over.", "quantifier": "every halo list, bound mass assignment and cut", "why_tests_cant": "universal over inputs; also about hidden status carried to the result", "anchors": ["pyHalo/single_realization.py: Realization.filter_bound_mass"]}
{"id": "C06", "title": "join is a union by tag", "statement": "When each input has distinct tags, `a.join(b)` contains exactly one halo per tag occurring in a or b, for a tag present in both it is the halo object of the shorter realization, and a.join(b) and b.join(a) hold the same tags; joining a realization with anything obtained from it by removing halos gives back the same set of tags.", "quantifier": "every pair of realizations", "why_tests_cant": "the code branches on lengths and does nested membership tests; a test covers one pair", "anchors": ["pyHalo/single_realization.py: Realization.join, Realization._tags"]}
{"id": "C07", "title": "split_at_z is a partition and join undoes it", "statement": "`split_at_z(z)` puts each halo with redshift <= z in the first and > z in the second realization, preserving order; joining the two parts gives back all the halos (as a multiset) when tags are distinct.", "quantifier": "every realization and every z", "why_tests_cant": "boundary z equal to a plane redshift and composition of two operations for every input", "anchors": ["pyHalo/single_realization.py: Realization.split_at_z, Realization.join"]}
{"id": "C08", "title": "Halo counts before, at and after a redshift add up", "statement": "number_of_halos_before_redshift(z) + number_of_halos_at_redshift(z) + number_of_halos_after_redshift(z) equals the number of halos, the before-count is monotone in z, and the at-count equals the length of halos_at_z(z).", "quantifier": "every realization and every z", "why_tests_cant": "three separate loops must use exactly complementary comparisons for every input", "anchors": ["pyHalo/single_realization.py: Realization.number_of_halos_before_redshift, number_of_halos_at_redshift, number_of_halos_after_redshift, halos_at_z"]}
{"id": "C09", "title": "lensing_quantities returns aligned lists", "statement": "The lens model list, redshift array and keyword list returned by lensing_quantities always have equal length, entry k of each refers to the same halo component (or mass sheet), components of one halo are contiguous and in halo order, and the sheets come last; without mass sheets the length is the sum of the numbers of components.", "quantifier": "every list of halos with any number of lens components per halo, with and without mass-sheet correction, any rendering classes", "why_tests_cant": "lists are built by three independent concatenations; alignment must hold for every mixture of profile types", "anchors": ["pyHalo/single_realization.py: Realization.lensing_quantities, Realization._mass_sheet_correction"]}
{"id": "C10", "title": "Exact mass sheets remove exactly the rendered mass of every plane", "statement": "With subtract_exact_sheets, there is exactly one sheet per distinct redshift, and in each plane the sheet convergence times the critical mass of the rendering area equals minus the rendered mass at that redshift (bound mass for subhalos in the main lens plane); summing over planes gives minus the total rendered mass.", "quantifier": "every realization, geometry and cosmology with non-zero critical masses", "why_tests_cant": "conservation law over arbitrary populations and planes", "anchors": ["pyHalo/single_realization.py: Realization._mass_sheet_correction, Realization.mass_at_z_exact"]}
{"id": "C11", "title": "The array views of a realization describe its halos", "statement": "Immediately after construction, masses, x, y, r3d, redshifts, tags and flags have one entry per halo in order, and unique_redshifts is strictly increasing and contains exactly the redshifts of the halos.", "quantifier": "every halo list", "why_tests_cant": "the arrays are built by zip/transposition with a special case for the empty list", "anchors": ["pyHalo/single_realization.py: Realization._reset, Realization.__init__"]}
{"id": "C12", "title": "A light-path shift is applied at most once to a halo", "statement": "Along any sequence of realization operations starting from an unshifted realization, shift_background_to_source moves each halo at most once. (Claimed by the early-return guard; the code does not meet it for sequences that pass through operations which forget the shifted status or that shift the original object again.)", "quantifier": "every history of operations on a realization", "why_tests_cant": "history property: depends on which derived realization is shifted and in which order", "anchors": ["pyHalo/single_realization.py: Realization.shift_background_to_source, filter, join, split_at_z, filter_bound_mass"]}
{"id": "C13", "title": "shift_background_to_source moves halos by the ray displacement and nothing else", "statement": "On an unshifted realization, each halo that is not position-fixed and has z >= min_shift_redshift ends at its old position plus the ray position at its comoving distance; position-fixed halos do not move; no mass, redshift or tag changes; halos below min_shift_redshift that are not fixed are missing from the result.", "quantifier": "every realization and every pair of ray interpolants", "why_tests_cant": "aliasing between the old and the new realization and the filtering branch must be right for every input", "anchors": ["pyHalo/single_realization.py: Realization.shift_background_to_source"]}
{"id": "C14", "title": "Realization equality compares sets of tags", "statement": "`a == b` is true exactly when every tag of b occurs in a; it is reflexive and transitive. (Documented as equality; symmetry fails: a realization equals every one of its filtered subsets but not conversely.)", "quantifier": "every pair/triple of realizations", "why_tests_cant": "relational law over all pairs and triples", "anchors": ["pyHalo/single_realization.py: Realization.__eq__"]}
{"id": "C15", "title": "realization_at_z returns the halos of one plane with correct indexes", "statement": "realization_at_z(r, z, x, y, R) returns exactly the halos at redshift z strictly within R of (x, y) (all of them when R is None), in order, and for each k the k-th returned halo is the halo of r at the k-th returned index; indexes are strictly increasing.", "quantifier": "every realization, z, centre and range", "why_tests_cant": "index bookkeeping through two filtering stages", "anchors": ["pyHalo/single_realization.py: realization_at_z, Realization.halos_at_z"]}
{"id": "C16", "title": "Rendering concatenates populations without losing or misaligning halos", "statement": "For any list of rendering classes, the mass, x, y, r3d, redshift and subhalo-flag arrays produced by the population renderer have one common length, the sum of the sizes of the populations, and entry k of every array belongs to the same object; the realization built from them has exactly that many halos.", "quantifier": "every number and kind of populations, each producing any number of objects", "why_tests_cant": "alignment over arbitrary numbers of populations, including empty ones", "anchors": ["pyHalo/Rendering/halo_population.py: HaloPopulation.render", "pyHalo/pyhalo.py: pyHalo._render_masses_positions, pyHalo._create_realization"]}
{"id": "C17", "title": "The mass definition requested for subhalos is applied to subhalos", "statement": "render(..., mdef_subhalos=A, mdef_field_halos=B) gives every subhalo profile A and every field halo profile B. (The code assigns them the other way round; it only holds when A = B.)", "quantifier": "every population and every pair of profile names", "why_tests_cant": "tests use the same profile for both; the claim is for all pairs", "anchors": ["pyHalo/pyhalo.py: pyHalo._create_realization"]}
{"id": "C18", "title": "Lens planes are ordered, contain the main lens plane and stop before the source", "statement": "generate_lens_plane_redshifts(zlens, zsource, dz) returns redshifts in non-decreasing order, all non-negative and below the source, containing zlens; the plane thicknesses returned with them are positive and aligned with the planes.", "quantifier": "every 0 < zlens < zsource and every spacing", "why_tests_cant": "floating rounding and half-open ranges must work for every pair of redshifts", "anchors": ["pyHalo/utilities.py: generate_lens_plane_redshifts"]}
{"id": "C19", "title": "Power-law mass draws stay inside the requested mass range", "statement": "Every mass drawn from a power-law mass function lies in [10**log_mlow, 10**log_mhigh], for every index different from or equal to the special one, and every uniform variate.", "quantifier": "every mass range, slope and every sequence of uniform variates in [0,1]", "why_tests_cant": "the random stream is unbounded; a test draws finitely many", "anchors": ["pyHalo/Rendering/MassFunctions/mass_function_base.py", "pyHalo/utilities.py: inverse_transform_sampling"]}
{"id": "C20", "title": "A warm/mixed/fuzzy suppression only removes halos", "statement": "For every suppressed mass function the suppression factor lies in [0,1] (for the documented parameter signs) and the drawn masses form a sub-sequence of the unsuppressed draws, so suppression never creates a halo or changes a mass.", "quantifier": "every mass, parameter set and random stream", "why_tests_cant": "rejection sampling over unbounded random streams", "anchors": ["pyHalo/Rendering/MassFunctions/mass_function_base.py", "pyHalo/Rendering/MassFunctions/stucker.py", "pyHalo/Rendering/MassFunctions/mixed_wdm_turnover.py"]}
{"id": "C21", "title": "Uniformly placed halos lie inside the rendering disc", "statement": "Every position drawn by the uniform and lens-cone spatial distributions lies within the rendering radius of the plane (in the appropriate physical units), for every random draw.", "quantifier": "every radius, redshift and random variate", "why_tests_cant": "geometric containment for every draw of an unbounded stream", "anchors": ["pyHalo/Rendering/SpatialDistributions/uniform.py"]}
{"id": "C22", "title": "Double-cone geometry closes at the source", "statement": "The double-cone rendering scale is 1 up to the lens redshift, continuous and decreasing behind it, and stays within [0,1] (vanishing at the source up to the configured closing fraction), so the rendered area never exceeds that of the single cone.", "quantifier": "every monotone cosmology and every z between observer and source", "why_tests_cant": "continuity and monotonicity over a continuum", "anchors": ["pyHalo/Cosmology/geometry.py"]}
{"id": "C23", "title": "Infall redshift is never below the lens redshift", "statement": "For every infall model with truncated-normal sampling (hybrid, direct, cluster), every subhalo mass, host mass and uniform variate, the sampled infall redshift lies in [z_lens, z_lens+15]; the dispersion is always positive.", "quantifier": "every mass ratio (clipped), every variate", "why_tests_cant": "the parameters of the distribution vary with mass; only sampled values are testable", "anchors": ["pyHalo/Halos/accretion.py"]}
{"id": "C24", "title": "Host masses outside the calibrated range are refused by the cluster infall model", "statement": "Constructing the cluster infall model succeeds exactly for 14 <= log10 host mass <= 15; setup_infall_model dispatches each documented name to its class, and any unknown name that is not a class raises.", "quantifier": "every host mass and every model name", "why_tests_cant": "decision table over all strings/values", "anchors": ["pyHalo/Halos/accretion.py: InfallDistributionClusterDirect", "pyHalo/Halos/lens_cosmo.py: LensCosmo.setup_infall_model"]}
{"id": "C25", "title": "NFW parameters conserve mass", "statement": "For every mass, concentration and redshift, integrating the returned NFW density profile from 0 to the returned r200 yields the input mass, rs = r200/c, and the mean density inside r200 is 200 times the critical density.", "quantifier": "every positive mass, concentration and critical density", "why_tests_cant": "continuum of inputs; identity involving logarithms", "anchors": ["pyHalo/Halos/lens_cosmo.py: LensCosmo.nfwParam_physical, NFW_params_physical, rho0_c_pseudoNFW"]}
{"id": "C26", "title": "Normalisation rescaling happens at most once unless forced", "statement": "For any history of rescale_normalization calls on a halo, the accumulated rescaling factor is the product of the forced factors and of the first non-forced one only.", "quantifier": "every sequence of calls", "why_tests_cant": "history property over unbounded sequences", "anchors": ["pyHalo/Halos/halo_base.py: Halo.rescale_normalization"]}
{"id": "C27", "title": "Real roots of the cubic are all found and nothing else", "statement": "The closed-form cubic solver returns exactly the set of real roots of a x^3 + b x^2 + c x + d for every coefficient with |a| above the tolerance, in both the one-root and three-root branch.", "quantifier": "every real coefficient tuple", "why_tests_cant": "algebraic identity over a continuum with branches on the sign of the discriminant", "anchors": ["pyHalo/Halos/tnfw_halo_util.py: cubic_real_roots"]}
{"id": "C28", "title": "The truncation radius solving for a given slope really has that slope", "statement": "Inverting the logarithmic-slope relation of a truncated NFW profile returns a positive radius at which the profile has the requested logarithmic slope; it is the only such radius for every slope strictly between -5 and -1.", "quantifier": "every truncation radius tau > 0 and slope", "why_tests_cant": "existence and uniqueness over a continuum", "anchors": ["pyHalo/Halos/tnfw_halo_util.py: tnfw_log_derivative, log_derivative_inverse"]}
{"id": "C29", "title": "Concentrations never fall below the floor and come from a covering table", "statement": "For every concentration model built on the common base, nfw_concentration returns at least 1.2 for every mass, redshift, scatter draw and query order; the interpolation-table ranges always cover the query being answered and only ever grow; and the median returned lies between the exact concentrations at the corners of the table cell containing the query. (False for redshifts below 0, which the table never covers; and the value returned depends on which queries were made before.)", "quantifier": "all masses, redshifts, variates and all finite histories of scalar and array queries", "why_tests_cant": "the table is rebuilt depending on the whole query history", "anchors": ["pyHalo/Halos/concentration.py:_ConcentrationCDM.nfw_concentration", "pyHalo/Halos/concentration.py:_ConcentrationFromColossus"]}
{"id": "C30", "title": "Bound masses never exceed infall masses", "statement": "For each tabulated tidal mass-loss model the returned log10(bound/infall) is <= 0 for every input, and inputs outside the tables are clamped into the table domain, never extrapolated.", "quantifier": "every concentration, infall time/redshift and host concentration", "why_tests_cant": "clamping must hold for every input", "anchors": ["pyHalo/Halos/galacticus_truncation/interp_mass_loss.py"]}
{"id": "C31", "title": "Batched evaluation equals scalar evaluation", "statement": "The vectorised cache-warming routines produce, halo by halo, the same values as the scalar code path: SIDM profile evolution, effective ages, NFW parameters, infall times and mass loss. (For the mass-loss interpolator the two paths clip the host concentration differently and disagree for host concentrations above 8.)", "quantifier": "every list of halos", "why_tests_cant": "equality of two implementations for all inputs", "anchors": ["pyHalo/Halos/batch_halo_util.py"]}
{"id": "C32", "title": "SIDM effective age telescopes when subhalos evolve at the field rate", "statement": "With unit time scaling the effective age of a subhalo equals the age of a field halo at the same redshift, is non-decreasing in the scaling factor and never negative, provided z <= z_infall.", "quantifier": "every monotone age function, formation redshift and infall redshift", "why_tests_cant": "identity over arbitrary cosmologies", "anchors": ["pyHalo/Halos/lens_cosmo.py: sidm_halo_effective_age", "pyHalo/Cosmology/cosmology.py: halo_age"]}
{"id": "C33", "title": "SIDM profile evolution yields valid radii", "statement": "For every evolution time, including times beyond core collapse, the evolved core radius and scale radius are positive and the core radius is at least 1e-7 of the scale radius.", "quantifier": "every t/tc >= 0", "why_tests_cant": "polynomial/fractional-power sign conditions over a continuum", "anchors": ["pyHalo/Halos/HaloModels/NFW_core_trunc.py"]}
{"id": "C34", "title": "SIDM conversions preserve population structure", "statement": "Converting a realization to SIDM (from timescales, cross sections or a mask) yields the same number of halos in the same order with unchanged masses, positions, redshifts, tags and subhalo flags, and raises if a halo falls in no mass bin; the first matching bin decides.", "quantifier": "every realization and bin list", "why_tests_cant": "all realizations, bins may overlap or leave gaps", "anchors": ["pyHalo/realization_extensions.py: toSIDM_halo_list, toSIDM_single_halo, toSIDM_from_timescale, toSIDM_from_cross_section"]}
{"id": "C35", "title": "Core-collapse selection only picks eligible halos", "statement": "core_collapse_by_mass returns strictly increasing indexes of truncated NFW halos whose mass lies in some requested bin; with probability 1 in bins covering the mass range it picks every eligible halo, with probability 0 it picks none (for non-zero variates).", "quantifier": "every realization, bins, probabilities and random stream", "why_tests_cant": "quantifies over random streams and bin layouts", "anchors": ["pyHalo/realization_extensions.py: core_collapse_by_mass"]}
{"id": "C36", "title": "Replacing halos by index touches only those indexes", "statement": "add_core_collapsed_halos(indexes) returns a realization of the same length and order with the same tags in which exactly the halos at the given indexes have been converted; add_cored_halos does the same. (add_cored_halos ignores the index list for every profile other than the cored NFW and converts every halo.)", "quantifier": "every realization and index list", "why_tests_cant": "all index lists including empty, repeated, out of range", "anchors": ["pyHalo/realization_extensions.py: add_core_collapsed_halos, add_cored_halos"]}
{"id": "C37", "title": "SIS injection replaces exactly the halos above the threshold", "statement": "SIS_injection(m) converts exactly the halos with mass >= m, preserving number, order and tags of all halos, and with an unknown galaxy model it raises if and only if some halo is above the threshold.", "quantifier": "every realization and threshold", "why_tests_cant": "universal over populations", "anchors": ["pyHalo/realization_extensions.py: SIS_injection"]}
{"id": "C38", "title": "Globular clusters and fluctuations are placed where requested", "statement": "Objects added around image positions lie within the requested radius of the image they are generated for, and the number generated around an image is the number drawn for that image. (For density fluctuations in the aperture geometry, zero counts are dropped before images are paired with counts, so counts are assigned to the wrong images.)", "quantifier": "every list of images, counts and random variates", "why_tests_cant": "pairing of counts to images for all count vectors", "anchors": ["pyHalo/realization_extensions.py: add_globular_clusters, add_ULDM_fluctuations, _get_fluctuation_halos"]}
{"id": "C39", "title": "Black-hole masses respect the requested minimum", "statement": "Every black hole added to a realization has mass at least 10**log10_min. (True for black holes in rendered halos, false for the sub-resolution population, where the cut is applied to the halo mass.)", "quantifier": "every realization and random stream", "why_tests_cant": "random stream quantification", "anchors": ["pyHalo/realization_extensions.py: add_black_holes"]}
{"id": "C40", "title": "Primordial black holes split into smooth and clustered parts without losing mass", "statement": "The mass fractions assigned to the smooth and the clustered component add up to the requested primordial-black-hole fraction, and each is between 0 and that fraction.", "quantifier": "every fraction in [0,1]", "why_tests_cant": "identity over a continuum", "anchors": ["pyHalo/realization_extensions.py: add_primordial_black_holes"]}
{"id": "C41", "title": "Galacticus nodes are attributed to the right merger tree", "statement": "For a file with at least two trees every node index i is labelled with the tree whose start index is the last one <= i. (For a file with one tree the reader fails with an unbound variable.)", "quantifier": "every list of tree start indexes and node count", "why_tests_cant": "loop boundary over all layouts", "anchors": ["pyHalo/Halos/galacticus_util/galacticus_util.py: hdf5_read_custom_nodedata"]}
{"id": "C42", "title": "Projected radii are consistent with three-dimensional radii", "statement": "The projected radius of a node on a plane is real, between 0 and its 3D radius, does not depend on the length of the plane normal, and together with the component along the normal satisfies Pythagoras.", "quantifier": "every position and non-zero normal", "why_tests_cant": "Cauchy-Schwarz over a continuum", "anchors": ["pyHalo/Halos/galacticus_util/galacticus_filter.py: nodedata_filter_r2d"]}
{"id": "C43", "title": "Enclosed mass functions are integrals of the density", "statement": "For each supported (alpha,beta,gamma) profile the closed-form enclosed mass vanishes at 0 and its derivative is 4 pi x^2 rho(x), so it is the integral of the density and strictly increasing.", "quantifier": "every supported exponent triple and every radius > 0", "why_tests_cant": "continuum identity for a table of closed forms", "anchors": ["pyHalo/Halos/galacticus_truncation/transfer_function_density_profile.py: _M_enclosed"]}
{"id": "C44", "title": "The transfer-function amplitude is a fraction", "statement": "The amplitude f_t computed for a tidally stripped halo is in (0,1], is exactly 1 above the model range, and unsupported profile combinations raise.", "quantifier": "every bound fraction and supported profile", "why_tests_cant": "all branches of coefficient tables", "anchors": ["pyHalo/Halos/galacticus_truncation/transfer_function_density_profile.py: _f_t_Du_2024"]}
{"id": "C45", "title": "Core-collapsed composite halos conserve mass", "statement": "When construction of a core-collapsed composite halo succeeds, the two components' amplitudes are non-negative and the composite has the same enclosed mass as the original profile at the two matching radii; otherwise an exception is raised.", "quantifier": "every pair of mass-profile values with non-singular matrix", "why_tests_cant": "linear system solved for arbitrary coefficients", "anchors": ["pyHalo/Halos/HaloModels/core_collapsed_halo.py"]}
{"id": "C46", "title": "Preset models do not remember earlier calls", "statement": "The arguments a preset model hands to its renderer, and the infall model it installs, depend only on the arguments of the current call, not on earlier calls. (False for the infall model DIRECT_INFALL with the default dictionary: it uses the host mass of an earlier call that used the default model.)", "quantifier": "every history of preset calls", "why_tests_cant": "state hidden in mutable default arguments; history property", "anchors": ["pyHalo/PresetModels/wdm.py: WDM, WDM_mixed, WDMGeneral", "pyHalo/PresetModels/cdm.py: CDM, CDMBinned, CDMCorrelatedStructure", "pyHalo/Halos/lens_cosmo.py: LensCosmo.setup_infall_model"]}
{"id": "C47", "title": "Amplitude parameters have a fixed precedence", "statement": "In the cold and warm dark matter presets, log10_dNdA overrides log10_sigma_sub, which overrides sigma_sub; exactly one amplitude is passed to the renderer, and the subhalo mass function is normalised with it. (False in the warm dark matter preset if the caller's mass function dictionary has an amplitude of its own.)", "quantifier": "every combination of given/omitted parameters and values", "why_tests_cant": "all combinations and values", "anchors": ["pyHalo/PresetModels/cdm.py: CDM", "pyHalo/PresetModels/wdm.py: WDM, WDMGeneral", "pyHalo/Rendering/subhalos.py: Subhalos._get_mass_function_model"]}
{"id": "C48", "title": "Name lookups are total on the documented names and refuse everything else", "statement": "preset_model_from_name, preset_mass_function_models, preset_concentration_models and truncation_models return the documented class for each documented name and raise for every other string.", "quantifier": "every string", "why_tests_cant": "infinitely many strings", "anchors": ["pyHalo/preset_models.py", "pyHalo/mass_function_models.py", "pyHalo/concentration_models.py", "pyHalo/truncation_models.py"]}
{"id": "C49", "title": "Memoised distances equal direct computation", "statement": "For any history of distance queries, memoised cosmology queries return the same values as direct computation.", "quantifier": "every sequence of queries", "why_tests_cant": "cache transparency over all histories", "anchors": ["pyHalo/Cosmology/cosmology.py"]}
{"id": "C50", "title": "Halo parameters handed to the ray tracer follow the halo position", "statement": "The lensing parameters returned for a halo carry its current position. (False for profiles that cache their parameters: parameters computed before a light-path shift keep the old position.)", "quantifier": "every history of parameter reads and shifts", "why_tests_cant": "history property", "anchors": ["pyHalo/Halos/HaloModels/TNFW.py", "pyHalo/Halos/HaloModels/NFW.py", "pyHalo/single_realization.py: shift_background_to_source"]}
{"id": "C51", "title": "Mass sheets are centred on the rendering centre", "statement": "Every convergence sheet returned by lensing_quantities carries the coordinates of the rendering centre at its own redshift; the sheet amplitude is unchanged by the recentring.", "quantifier": "every realization, every list of sheets", "why_tests_cant": "holds for every number of planes and every light path", "anchors": ["pyHalo/single_realization.py: lensing_quantities, _mass_sheet_correction"]}
{"id": "C52", "title": "Reported number and mass are the integrals of the mass function", "statement": "The mean number of halos and the expected mass reported by a power-law mass function are the integrals over its mass range of dN/dm and m dN/dm, including the logarithmic special cases, and zero for an empty range.", "quantifier": "every slope, normalisation and mass range", "why_tests_cant": "special slopes are measure-zero inputs; equality of two formulas for all reals", "anchors": ["pyHalo/Rendering/MassFunctions/mass_function_base.py: _PowerLawBase, integrate_power_law_analytic"]}
{"id": "C53", "title": "A drawn mass is the quantile of its random number", "statement": "The mass drawn for a uniform variate u is the mass below which a fraction u of the expected number lies; larger variates give larger masses.", "quantifier": "every slope, every mass range, every variate", "why_tests_cant": "a distributional identity over all reals", "anchors": ["pyHalo/Rendering/MassFunctions/mass_function_base.py: _PowerLawBase.draw"]}
{"id": "C54", "title": "Without Poisson noise the count is the rounded mean", "statement": "With draw_poisson off the number of drawn halos differs from the expected number by at most one half.", "quantifier": "every mass function with non-negative mean", "why_tests_cant": "ranges over all reals", "anchors": ["pyHalo/Rendering/MassFunctions/mass_function_base.py: _PowerLawBase.draw"]}
{"id": "C55", "title": "Convergence sheets cancel exactly the expected mass", "statement": "A line-of-sight class provides one negative convergence sheet for every lens plane inside the redshift window that is expected to contain mass, and no other; the sheet's mass inside the aperture is minus kappa_scale times the expected mass in the chosen mass range. The subhalo class provides one such sheet at the lens redshift.", "quantifier": "every set of planes, mass function, window and scaling", "why_tests_cant": "alignment and conservation over all inputs", "anchors": ["pyHalo/Rendering/line_of_sight.py: convergence_sheet_correction", "pyHalo/Rendering/subhalos.py: convergence_sheet_correction"]}
{"id": "C56", "title": "Amplitudes are defined at the pivot mass", "statement": "At the pivot mass the number of subhalos per log mass is area times sigma_sub times a host scaling that is one for a 1e13 host at z=0.5 (or area times dndA); it does not depend on the slope. sigma_sub takes precedence over dndA, and with neither the model raises. Likewise the line-of-sight amplitude does not depend on the change of slope.", "quantifier": "every slope, pivot, host and redshift", "why_tests_cant": "ranges over all reals", "anchors": ["pyHalo/Rendering/subhalos.py", "pyHalo/Rendering/MassFunctions/density_peaks.py: from_redshift"]}
{"id": "C57", "title": "Projected NFW positions are consistent", "statement": "Subhalos placed with the projected NFW distribution lie within the projected rendering radius, their three-dimensional radius is at most the virial radius and at least their projected distance. (The last part is false: the two radii are sampled independently.)", "quantifier": "every profile, number and random stream", "why_tests_cant": "ranges over all random streams", "anchors": ["pyHalo/Rendering/SpatialDistributions/nfw.py: ProjectedNFW"]}
{"id": "C58", "title": "Cylinder geometry has constant comoving radius", "statement": "In cylinder geometry the rendered comoving radius is the same at all redshifts, and the physical area is the disc of the physical radius.", "quantifier": "every cosmology, redshift and aperture", "why_tests_cant": "ranges over all reals", "anchors": ["pyHalo/Cosmology/geometry.py"]}
{"id": "C59", "title": "The suppression mass scale inverts the suppression factor", "statement": "The mass scale returned for a requested suppression has exactly that suppression under the warm dark matter factor.", "quantifier": "every parameter set and requested suppression in (0,1)", "why_tests_cant": "identity over reals", "anchors": ["pyHalo/Rendering/MassFunctions/stucker.py"]}
{"id": "C60", "title": "Lensing normalisations are mutually consistent", "statement": "The Einstein radius of a point mass (sqrt(M) times point_mass_factor_z) bounds a disc that contains exactly M at the critical surface density; critical mass is additive in area; deflections at the scale radius are positive and proportional to the density normalisation.", "quantifier": "every cosmology with positive distances, redshift, mass, density", "why_tests_cant": "identities over reals", "anchors": ["pyHalo/Halos/lens_cosmo.py: point_mass_factor_z, get_sigma_crit_lensing, sigma_crit_mass, nfw_physical2angle_fromNFWparams"]}
{"id": "C61", "title": "Half-mode mass and thermal relic mass determine each other", "statement": "halfmode_to_thermal is positive and strictly decreasing and for every thermal mass there is exactly one half-mode mass that mthermal_to_halfmode can return as exact solution.", "quantifier": "every cosmology and mass", "why_tests_cant": "ranges over all reals", "anchors": ["pyHalo/Halos/lens_cosmo.py: mthermal_to_halfmode, halfmode_to_thermal"]}
{"id": "C62", "title": "SIDM collapse timescale scaling", "statement": "The collapse timescale is positive, inversely proportional to cross section and scale radius, and scales as density to the power -3/2.", "quantifier": "every positive density, radius, cross section", "why_tests_cant": "ranges over all reals", "anchors": ["pyHalo/Halos/lens_cosmo.py: sidm_collapse_timescale"]}
{"id": "C63", "title": "Rescaling a halo rescales its lensing amplitude", "statement": "After any history of reads, shifts and rescalings the lensing amplitude (and for truncated NFW halos the physical density) handed out for a halo carries the accumulated normalisation factor, never an older one; radii do not change.", "quantifier": "every halo class that uses the factor and every history of operations", "why_tests_cant": "cache invalidation over unbounded histories", "anchors": ["pyHalo/Halos/halo_base.py: rescale_normalization", "pyHalo/Halos/HaloModels/TNFW.py: lenstronomy_params, params_physical"]}
{"id": "C64", "title": "Queries on a truncated halo agree with each other", "statement": "Enclosed mass, density, maximum velocity and physical parameters of a truncated NFW halo all describe the same (rescaled) profile, whatever was asked before. (False: the first enclosed-mass query ignores the factor of the truncation model, the density always ignores it, the maximum velocity is not refreshed after a rescaling.)", "quantifier": "every history of queries and rescalings", "why_tests_cant": "query-order dependence over all histories", "anchors": ["pyHalo/Halos/HaloModels/TNFW.py: mass_3d, density_profile_3d, vmax_nfw, params_physical"]}
{"id": "C65", "title": "Bound mass of a truncated halo", "statement": "After every history the bound mass is infall mass times the truncated-profile mass fraction times the current normalisation factor.", "quantifier": "every history of operations", "why_tests_cant": "history property", "anchors": ["pyHalo/Halos/HaloModels/TNFW.py: bound_mass"]}
{"id": "C66", "title": "Halos built from physical parameters keep these parameters", "statement": "A TNFW halo constructed from rho_s, r_s, r_v, r_t hands out the lensing parameters of that profile, times the factor of later rescalings. (False after a rescaling: it fails with a recursion error, or silently uses the parameters of an NFW halo of its mass and concentration with the factor applied twice.)", "quantifier": "every parameter tuple and history", "why_tests_cant": "history dependence", "anchors": ["pyHalo/Halos/HaloModels/TNFWFromParams.py", "pyHalo/Halos/halo_base.py: rescale_normalization"]}
{"id": "C67", "title": "Truncation removes some but not all of the mass", "statement": "tnfw_mass_fraction is strictly between 0 and 1 and strictly increasing in the truncation radius, for every concentration.", "quantifier": "every truncation radius > 0 and concentration > 0", "why_tests_cant": "continuum", "anchors": ["pyHalo/Halos/tnfw_halo_util.py: tnfw_mass_fraction"]}
{"id": "C68", "title": "Warm dark matter never raises concentrations", "statement": "The suppression factor of every warm dark matter concentration model lies in (0,1] and grows with mass for all admissible parameters, the Ludlow table is never left, and the suppressed concentration is at least 1.2 and at most the cold one (or 1.2). With redshift evolution the polynomial models are multiplied by a factor that is at most 1 exactly for z <= 0.04/0.026.", "quantifier": "all masses, redshifts, half-mode masses and model parameters passing the checks", "why_tests_cant": "real-valued parameters and masses", "anchors": ["pyHalo/Halos/concentration.py:ConcentrationWDMPolynomial", "pyHalo/Halos/concentration.py:ConcentrationWDMHyperbolic", "pyHalo/Halos/concentration.py:ConcentrationLudlowWDM", "pyHalo/Halos/concentration.py:_ConcentrationTurnover"]}
{"id": "C69", "title": "Binned concentrations use the bin of the mass", "statement": "With consecutive mass bins the concentration of a halo is the one of the model of the bin containing its mass (lower edge included, upper excluded); masses outside the bins raise. (At the upper edge of the last bin the code raises although its range check accepts; masses in gaps go to the next bin.)", "quantifier": "all lists of bins in increasing order, masses and redshifts", "why_tests_cant": "arbitrary bin lists and boundary masses", "anchors": ["pyHalo/Halos/concentration.py:ConcentrationBinnedHaloMass"]}
{"id": "C70", "title": "Concentration objects use the options of their own constructor call", "statement": "The scatter options of a warm dark matter concentration object are those given to its own constructor. (False when the default dictionary is used: every construction after the first one keeps the first one's options.)", "quantifier": "all finite sequences of constructor calls", "why_tests_cant": "depends on the process history", "anchors": ["pyHalo/Halos/concentration.py:ConcentrationWDMPolynomial.__init__", "pyHalo/Halos/concentration.py:ConcentrationWDMHyperbolic.__init__"]}
{"id": "C71", "title": "Bound mass and truncation radius of a subhalo belong together", "statement": "With the default tidal model, in whatever order and however often the bound mass and the truncation radius of a subhalo are read, the bound mass is one and the same draw (or the assigned value), the radius is the one computed for it, the density normalisation is rescaled once by the matching factor and at most one random number is used. (False for the infall-redshift and approximate models, where radius and bound mass come from different draws and an assigned bound mass is ignored by the radius.)", "quantifier": "all read sequences and random streams", "why_tests_cant": "all histories of reads", "anchors": ["pyHalo/Halos/HaloModels/TNFW.py:TNFWSubhalo", "pyHalo/Halos/tidal_truncation.py"]}
{"id": "C72", "title": "Truncation radii satisfy their defining relations", "statement": "The field-halo truncation radius encloses exactly N times the critical density at the halo's redshift and is monotone in N and mass; the splashback radius is the stated multiple of the radius enclosing 200 times the mean matter density; the Roche radius is within half a parsec of its formula, non-negative and monotone in mass and distance; the mean-density radius is non-negative for every scatter draw and monotone in concentration. (The splashback model multiplies the critical density at z by the matter fraction today, so it encloses less than 200 times the mean density; Roche radii round to 0 near the centre.)", "quantifier": "all masses, redshifts, distances, parameters and draws", "why_tests_cant": "real-valued inputs", "anchors": ["pyHalo/Halos/tidal_truncation.py:TruncationRN", "pyHalo/Halos/tidal_truncation.py:TruncationRoche", "pyHalo/Halos/tidal_truncation.py:TruncationSplashBack", "pyHalo/Halos/tidal_truncation.py:TruncateMeanDensity"]}
{"id": "C73", "title": "Generalised NFW normalisation does not depend on evaluation order", "statement": "The density normalisation of a generalised NFW halo without a prescribed mass is the one given by its own parameters, whatever other halos have been evaluated before, although the transition radius is kept in a dictionary that the halos share. (With a prescribed mass it does depend on which halo was evaluated first.)", "quantifier": "every dictionary state, i.e. every order of evaluation, and every scale-covariant enclosed mass", "why_tests_cant": "ranges over evaluation histories", "anchors": ["pyHalo/Halos/HaloModels/generalized_nfw.py: density_profile normalisation (96-125)"]}
{"id": "C74", "title": "Structure that follows the halos is added beside them without changing the given realization", "statement": "add_correlated_structure and add_primordial_black_holes return a realization with a copy of every halo, of which those within the radius of a ray at its redshift are scaled by one common factor and all others equal the original, and the new point masses; the halos of the given realization are untouched. The mass used for the clustered component should be that in the disc around the ray (it is not: the pixel area is computed from the number of pixels outside the disc), and the clustered objects should follow the convergence map (they do not: they sit on top of the halos).", "quantifier": "every realization with halos, every non-empty list of rays, every random stream", "why_tests_cant": "holds for every realization, list of rays and random stream; involves object identity of the copies", "anchors": ["pyHalo/realization_extensions.py: add_correlated_structure, add_primordial_black_holes", "pyHalo/Rendering/correlated_structure.py: CorrelatedStructure.render, _kappa_at_lens_plane"]}
{"id": "C75", "title": "Objects drawn from a two-dimensional map land in the pixel that was drawn", "statement": "An object drawn from pixel i of the flattened probability map lies, without smoothing, exactly at the point for which pixel i was computed, displaced to the centre; with smoothing the offset is proportional to the smoothing and the pixel size; an index outside the map fails.", "quantifier": "every map size, radius, centre, index and pair of normal variates", "why_tests_cant": "index arithmetic for every map size and index", "anchors": ["pyHalo/Rendering/SpatialDistributions/correlated.py: Correlated2D.draw", "pyHalo/Rendering/correlated_structure.py: _kappa_at_lens_plane"]}
{"id": "C76", "title": "The truncation radius of a stripped halo reproduces its bound mass whatever was asked before", "statement": "For density profiles with outer slope 3 (inner slope 0 or 1) computing truncation radius and amplitude returns for all positive masses, radii and concentrations and after any history of such calls; the amplitude is in (0,1]; the total mass of the truncated profile with the returned amplitude and radius is the bound mass, exactly at the points of the internal table and to the accuracy of the interpolation elsewhere. The vectorised version gives the same radii. (Profiles with outer slope 4 or alpha = 2 are always refused although fits exist for them, and a refused call spoils the internal table so that the profile used before is refused too.)", "quantifier": "every history of calls, every bound mass, mass, radius and concentration", "why_tests_cant": "module-level table that depends on all earlier calls; termination of loops for arbitrary masses; integrals", "anchors": ["pyHalo/Halos/galacticus_truncation/transfer_function_density_profile.py: compute_r_te_and_f_t, _Truncation_Radius", "pyHalo/Halos/batch_halo_util.py: _truncation_radius_cached"]}
{"id": "C77", "title": "Galacticus subhalos keep their rows and the right ones are selected", "statement": "Reading with one entry per node gives columns of equal length, from the requested output or the one with the largest number; a mask keeps the same nodes in every column; subhalos and hosts are complementary. The halos built from a file are exactly the nodes that are subhalos of the requested tree, in the mass range, within the virial radius of the host of their own tree and within half of the opening angle of the line of sight, in the order of the file, each with position, mass and profile of its own row. (Exceptions: with a renamed host flag the halo filter looks for the default name and fails, and selecting a subhalo by its number always fails.)", "quantifier": "every table with one host per tree, every viewing angle, range and opening angle", "why_tests_cant": "all layouts of trees and all angles", "anchors": ["pyHalo/Halos/galacticus_util/galacticus_filter.py", "pyHalo/Halos/galacticus_util/galacticus_util.py: hdf5_read_galacticus_nodedata", "pyHalo/PresetModels/external.py: DMFromGalacticus"]}
{"id": "C78", "title": "Emulated subhalos hold their infall mass", "statement": "The density, scale radius and virial radius given to each subhalo made from emulator data describe an NFW profile with the emulator's concentration that holds exactly the infall mass within the virial radius; positions and truncation radii are converted from Mpc to kpc.", "quantifier": "every list of emulator rows with positive mass and concentration, every Hubble constant and critical density", "why_tests_cant": "identity between continuous formulas", "anchors": ["pyHalo/PresetModels/external.py: DMSubhalosFromEmulator"]}
{"id": "C79", "title": "A preset's request is aligned and complete", "statement": "The lists a preset hands to the renderer have one entry per population, in the same order; every mass function covers the requested mass range for the requested host, every spatial distribution uses the requested volume, and a tilt of the mass function is applied to subhalos and field halos alike. (False: the tilt delta_power_law_index never reaches the subhalos; the warm dark matter preset's spatial lists have three entries without the two-halo term; with its default names it uses the field coefficients for subhalos.)", "quantifier": "every set of arguments for which the preset succeeds", "why_tests_cant": "all combinations of switches, names and values", "anchors": ["pyHalo/PresetModels/cdm.py: CDM, CDMCorrelatedStructure", "pyHalo/PresetModels/wdm.py: WDM"]}
{"id": "C80", "title": "Every documented model name can be used in a preset", "statement": "Every name of a concentration or truncation model that the name lookup accepts can be used in the presets, and different names have different effects. (False for many: proved which ones fail whatever else is given, and which ones fail with the default dictionaries.)", "quantifier": "every name, every dictionary, every set of arguments", "why_tests_cant": "an impossibility over all arguments and dictionaries", "anchors": ["pyHalo/PresetModels/cdm.py: CDM, CDMBinned", "pyHalo/PresetModels/wdm.py: WDM, WDMGeneral", "pyHalo/concentration_models.py", "pyHalo/truncation_models.py", "pyHalo/Halos/concentration.py"]}
{"id": "C82", "title": "The St\u00fccker mass functions have the fitted suppression scales", "statement": "The coefficients returned for the names STUCKER and STUCKER_SHMF make the mass function reach each suppression factor exactly at the mass scale compared with the fit, this mass is unique, and the fit applies to negative slopes only (although the error message asks for the absolute value).", "quantifier": "every slope, every half-mode mass, every suppression in (0,1), every solution of the solver", "why_tests_cant": "real-valued identity", "anchors": ["pyHalo/mass_function_models.py: preset_mass_function_models", "pyHalo/Rendering/MassFunctions/stucker.py", "pyHalo/Rendering/MassFunctions/mass_function_base.py: WDMPowerLaw"]}
{"id": "C83", "title": "Every halo profile has the mass it was normalised to", "statement": "The lensing parameters emitted by each halo class describe, in physical units, a density whose mass is the one the class promises: pseudo-Jaffe and power-law halos and generalised NFW halos have the NFW mass within the matching radius, globular clusters their mass within their size (and a unique half-mass radius inside the search bracket), black holes their mass within the Einstein radius, isothermal spheres the Einstein radius of their velocity dispersion, massive galaxies the mass of the halo they replace, cored and truncated halos the mass that was to be conserved, hybrid halos the weighted sum. (Cored NFW halos do not keep their mass; the density listed for pseudo-Jaffe halos is never a number; power-law field halos ignore a given concentration; a prescribed mass is only respected when the shared transition radius is the halo's own.)", "quantifier": "every mass, concentration, redshift, slope, core size, position and cosmology", "why_tests_cant": "integral identities over real parameters", "anchors": ["pyHalo/Halos/HaloModels/PsuedoJaffe.py", "pyHalo/Halos/HaloModels/powerlaw.py", "pyHalo/Halos/HaloModels/globular_cluster.py", "pyHalo/Halos/HaloModels/blackhole.py", "pyHalo/Halos/HaloModels/sis.py", "pyHalo/Halos/HaloModels/NFW_core.py", "pyHalo/Halos/HaloModels/NFW_core_trunc.py", "pyHalo/Halos/HaloModels/generalized_nfw.py"]}
{"id": "C84", "title": "The soliton of an ultra-light dark matter halo follows the published scalings and carries the column density it is given", "statement": "The core radius of an ultra-light dark matter halo is 1.6 kpc today for a 1e-22 eV particle in a halo of 1e9 solar masses, inversely proportional to the particle mass and goes with the requested power of the halo mass; density times radius^4 times particle mass^2 is fixed; and the central convergence handed to the lensing code times the critical density is exactly the integral of the soliton density along the line of sight, with an angular core radius that is the physical one at the halo.", "quantifier": "all halo masses, particle masses, redshifts, exponents and cosmologies", "why_tests_cant": "A test checks one halo; the scalings and the line-of-sight integral (an improper integral of an eighth power) must hold for every halo, and only halos away from the main lens plane show that its distance is used for all of them.", "anchors": ["pyHalo/Halos/HaloModels/ULDM.py: ULDMFieldHalo._uldm_args, _core_radius, _central_density, _zeta"]}
{"id": "C85", "title": "The two components of an ultra-light dark matter halo together have the mass of the halo", "statement": "The cored NFW component and the soliton of a composite halo are scaled such that together they have, within r200, the requested mass.", "quantifier": "all halo parameters, all answers of the numerical minimiser, with and without the final rescaling", "why_tests_cant": "Whether the mass is met depends on where the minimiser stops, which differs from halo to halo; a test sees one stopping point.", "anchors": ["pyHalo/Halos/HaloModels/ULDM.py: ULDMFieldHalo._rescaled_cnfw_params, _constraint_mass, _constraint_density, _function_to_minimize"]}
{"id": "C86", "title": "The ultra-light dark matter preset translates the particle mass into a cutoff, a minimum mass and fluctuations", "statement": "For every particle mass the preset renders halos only above max(requested minimum, minimum mass of a halo of such particles at that redshift), with the published suppression mass, the requested profile and subhalo amplitude; and fluctuations of the requested amplitude, scaled with particle mass^(-1/2), for the reference lens.", "quantifier": "all particle masses, redshifts, arguments and dictionaries", "why_tests_cant": "The preset computes everything from powers of the particle mass; tests evaluate one mass. That an argument never has any effect, or that the default call never returns, is a statement about all calls.", "anchors": ["pyHalo/PresetModels/uldm.py: ULDM", "pyHalo/utilities.py: MinHaloMassULDM, de_broglie_wavelength"]}
{"id": "C87", "title": "Warming the caches does not change what any halo reports", "statement": "Computing the properties of all halos of a realization at once (precompute_realization and its stages) leaves every later report of every halo - infall redshift, time since infall, concentration, NFW and physical parameters, truncation radius, lensing parameters, circular velocity, bound masses, in whichever order they are read - what it would have been without, whatever had been done with the halo before; halos of unsupported classes are not touched, and the order of the halos is kept.", "quantifier": "all lists of halos, all earlier histories of each halo (reads, rescalings, assigned bound masses and infall redshifts), all orders of later reads, all truncation classes and dictionaries", "why_tests_cant": "Whether a cached number equals the lazily computed one depends on which attributes were filled before and in which order they are read later: there are infinitely many histories, and each halo of a list may have another one.", "anchors": ["pyHalo/Halos/batch_halo_util.py: precompute_realization, precompute_tnfw_subhalos, precompute_tnfw_field_halos, precompute_nfw_params, precompute_concentrations, precompute_infall_times, precompute_tnfw_bound_masses", "pyHalo/Halos/HaloModels/TNFW.py", "pyHalo/Halos/HaloModels/NFW.py"]}
{"id": "C88", "title": "Warm dark matter with a general transfer function", "statement": "The preset for a general transfer function accepts the documented slopes, and hands the same slope and half-mode mass to the mass functions of subhalos and field halos and to the concentrations of both. (False: the documentation asks for the absolute value of the slope, and every positive value raises; slopes that are zero or negative work.)", "quantifier": "every set of arguments and every state of the dictionaries", "why_tests_cant": "a statement about all slopes and all combinations of arguments; a test picks one sign", "anchors": ["pyHalo/PresetModels/wdm.py: WDMGeneral", "pyHalo/Rendering/MassFunctions/stucker.py", "pyHalo/mass_function_models.py", "pyHalo/concentration_models.py"]}
{"id": "C89", "title": "Cold dark matter in two mass bins is cold dark matter", "statement": "With factors one the binned preset draws from the same subhalo mass function as the cold dark matter preset between 10^6 and 10^10.7; each drawn halo gets the concentration relation of its bin; and the convergence of the mass sheets is the same as for the cold dark matter preset. (The last part is false with the default arguments of lensing_quantities: each bin subtracts the mass of the whole default range, so twice the convergence is subtracted.)", "quantifier": "all arguments, random draws, geometries", "why_tests_cant": "equality of distributions and of corrections for all parameters and draws", "anchors": ["pyHalo/PresetModels/cdm.py: CDMBinned, CDM", "pyHalo/Halos/concentration.py: BinnedHaloMass", "pyHalo/single_realization.py: lensing_quantities", "pyHalo/Rendering/subhalos.py", "pyHalo/Rendering/line_of_sight.py"]}
{"id": "C90", "title": "Every halo of a call lies in the requested mass range and volume, and calls succeed", "statement": "Every halo returned by a call of CDM or WDM, whatever the random numbers, has the requested mass definition, a mass in [10^log_mlow, 10^log_mhigh), a redshift that is the lens redshift (subhalos, two-halo term) or that of a lens plane, and a position inside the rendering volume; three-dimensional radii are positive and at most the virial radius of the host. A call whose models are accepted returns: no combination of random numbers makes it raise.", "quantifier": "all arguments, all random draws, all cosmologies given by functions, all states of the shared default dictionaries", "why_tests_cant": "random draws and continuous parameters; a test sees a few realizations", "anchors": ["pyHalo/PresetModels/cdm.py: CDM", "pyHalo/PresetModels/wdm.py: WDM", "pyHalo/pyhalo.py: render", "pyHalo/Rendering/halo_population.py", "pyHalo/Rendering/line_of_sight.py", "pyHalo/Rendering/subhalos.py", "pyHalo/Rendering/two_halo.py"]}
{"id": "C91", "title": "Suppression only removes halos", "statement": "With the same random numbers, a warm dark matter call returns some of the halos of the cold dark matter call with the same arguments, in the same order, with the same masses and redshifts, and no others; raising the cutoff log_mc removes further halos and adds none.", "quantifier": "all arguments, random draws, cutoffs, mass function models of the literature or with coefficients of the right sign", "why_tests_cant": "a relation between pairs of executions for every sequence of random numbers", "anchors": ["pyHalo/PresetModels/cdm.py: CDM", "pyHalo/PresetModels/wdm.py: WDM", "pyHalo/Rendering/MassFunctions/mass_function_base.py", "pyHalo/Rendering/MassFunctions/density_peaks.py"]}
{"id": "C92", "title": "The abundance of field halos is the mass function times the volume", "statement": "The mean number of field halos on a lens plane is LOS_normalization times the comoving volume of the slice times the integral of the halo mass function over the mass range (likewise the mean mass). The code fits a straight line in logarithms at ten masses: the line is the least squares one, and if the mass function is a power law it is found exactly. Volumes of neighbouring slices add up.", "quantifier": "all mass functions, mass ranges, pivots, redshifts, slices", "why_tests_cant": "an identity of integrals for all parameters", "anchors": ["pyHalo/Rendering/MassFunctions/density_peaks.py: from_redshift", "pyHalo/Cosmology/geometry.py: volume_element_comoving", "pyHalo/Rendering/MassFunctions/mass_function_base.py"]}
{"id": "C93", "title": "The two-halo term multiplies the field halos at the lens", "statement": "With a two-halo term, the mean number of extra halos at the lens redshift is that of field halos in the slice at the lens times the boost: twice the mean of the two-halo term over the distances from 0.5 Mpc to the back of the slice, plus the correction of Lazar et al. if requested. The slice is that of the plane nearest to the lens. The call works for every positive lens plane spacing. (The last part is false: every spacing below 0.005 makes the call raise.)", "quantifier": "all arguments, lists of planes, cosmologies", "why_tests_cant": "a statement for all spacings and cosmologies", "anchors": ["pyHalo/Rendering/two_halo.py", "pyHalo/utilities.py: generate_lens_plane_redshifts", "pyHalo/pyhalo.py"]}
{"id": "C94", "title": "A call of CDM returns exactly the rendered halos", "statement": "The halos of the realization that CDM returns are, in order, the rendered ones: each object has the mass, position, redshift and kind of one row and a tag of its own (pairwise different), is lensed by the models of the requested profile, uses the truncation and concentration models of its kind, and can be moved with the rays unless it is a point mass or a Gaussian fluctuation. Halos at least as massive as the galaxy threshold become galaxies; clusters, if requested, are added and change nothing else. Every named profile gives objects of that name. (The last sentence is false for GNFW, whose objects are called PSEUDO_DPL, and for TNFWC_SIDM, which raises a NameError.)", "quantifier": "all arguments, dictionaries, random draws, worlds", "why_tests_cant": "a correspondence between all rows and all objects for every sequence of random numbers", "anchors": ["pyHalo/single_realization.py: Realization.__init__, _load_halo_model", "pyHalo/pyhalo.py: render", "pyHalo/PresetModels/cdm.py: CDM", "pyHalo/Halos/halo_base.py"]}
{"id": "C95", "title": "The SIDM presets transform the cold dark matter population halo by halo", "statement": "SIDM_core_collapse, SIDM_parametric and SIDM_parametric_fixedbins return the population of the CDM call with the same arguments, halo by halo with unchanged numbers and tags. In the first, exactly the truncated NFW halos drawn in the first fitting mass bin of their kind get the requested profile; galaxies never do. In the second, a halo evolves with the cross section of the first bin that contains its mass; in the third with the low one below 10^8 solar masses and the high one from there on. Clusters are added on top. A mass outside all bins is refused, as is a minimum mass above 10^8 in the third. The default profile of core-collapsed halos works without further arguments. (The last sentence is false: the call raises KeyError.)", "quantifier": "all arguments, mass bins, probabilities, cross sections, random draws", "why_tests_cant": "a relation between two whole calls for all inputs", "anchors": ["pyHalo/PresetModels/sidm.py", "pyHalo/realization_extensions.py: toSIDM_from_cross_section, core_collapse_by_mass, add_core_collapsed_halos"]}
{"id": "C96", "title": "CDM_plus_BH returns the cold dark matter halos and black holes in them", "statement": "A call of CDM_plus_BH returns the halos of the CDM call with the same arguments, unchanged, and point masses besides them. Exactly the halos that the occupation fraction selects and whose black hole is heavier than the minimum have one, in their plane and within their scale radius, with the requested share of their mass up to the maximum. The other black holes are in planes that have a halo, and have the requested share of a mass between the two resolution limits. Clusters, if requested, are added and change nothing else. No black hole is lighter than the minimum, and a call without halos gives the unresolved black holes. (The last sentence is false: the minimum is not applied to unresolved halos, and a call without halos raises IndexError.)", "quantifier": "all arguments, dictionaries, random draws, worlds", "why_tests_cant": "a relation between two whole calls for all random numbers", "anchors": ["pyHalo/PresetModels/mbh.py: CDM_plus_BH", "pyHalo/realization_extensions.py: add_black_holes"]}
{"id": "C97", "title": "The number and the masses of the halos of a CDM call follow the requested mass functions", "statement": "In every call of CDM, the number of subhalos is the Poisson variate (without Poisson noise: the nearest integer to the expected number), and the i-th subhalo has exactly the fraction u_i of the expected number below its mass, where u_i is the i-th uniform variate and the expected number is the integral of the requested power law with the chosen amplitude (C47). The same holds for the field halos of each lens plane, with the fitted mass function of that slice times its volume and the requested scaling, and for the halos of the two-halo term, with the mass function of the slice around the lens times the boost.", "quantifier": "all arguments, dictionaries, random draws, worlds", "why_tests_cant": "an exact statement about the output of a whole call for every sequence of random numbers", "anchors": ["pyHalo/PresetModels/cdm.py: CDM", "pyHalo/pyhalo.py: render", "pyHalo/Rendering/subhalos.py", "pyHalo/Rendering/line_of_sight.py", "pyHalo/Rendering/two_halo.py", "pyHalo/Rendering/MassFunctions/mass_function_base.py"]}
{"id": "C81", "title": "Subhalos from Galacticus or an emulator are added to the halos of a preset", "statement": "DMFromGalacticus returns the halos of the preset called for the line of sight, unchanged, and one subhalo for each selected node, with the mass, the projected position and the distance of the node, at redshift 0.5; JointLOSWithEmulator does the same with the subhalos of the emulator at the lens. The preset contributes no subhalos of its own, the result has the mass sheets of the preset, and joining it with a selection of its halos changes nothing. (The last sentence is false: the subhalos all have the tag None, so that joining with a selection that holds one of them removes the others; with log10_sigma_sub or log10_dNdA the preset of DMFromGalacticus renders its subhalos although sigma_sub is set to zero; JointLOSWithEmulator never suppresses them, and its result has no mass sheets.)", "quantifier": "all arguments, node data, emulator data, random draws, worlds", "why_tests_cant": "a relation between two whole calls for all inputs and random numbers", "anchors": ["pyHalo/PresetModels/external.py: DMFromGalacticus, DMSubhalosFromEmulator, JointLOSWithEmulator", "pyHalo/Halos/HaloModels/TNFWFromParams.py", "pyHalo/single_realization.py: join"]}
{"id": "C98", "title": "The mass sheets of a whole CDM call", "statement": "For a realization returned by CDM(...), lensing_quantities(add_mass_sheets=True) gives the lens components of the halos followed by one uniform negative convergence sheet at the lens redshift and one at every lens plane inside the sheet's redshift window. The sheet at the lens takes away kappa_scale_subhalos times the mass expected in subhalos, and the sheet of a plane kappa_scale times the mass expected in field halos of that plane, between the mass limits of the sheet. With the mass limits of the call (use_class_mass_ranges) and unit scales this is exactly the average of the mass drawn at the nominal numbers; with the default limits of the sheet (10^7 to 10^10) and of the call (10^6 to 10^10) the subhalo sheet takes away less than that average.", "quantifier": "All arguments of CDM for which the call succeeds without globular clusters, all cosmologies, all draws, all mass sheet options.", "why_tests_cant": "An expectation over all draws for every argument; a test sees single realizations.", "anchors": ["pyHalo/single_realization.py: lensing_quantities, _mass_sheet_correction", "pyHalo/Rendering/line_of_sight.py: convergence_sheet_correction", "pyHalo/Rendering/subhalos.py: convergence_sheet_correction", "pyHalo/PresetModels/cdm.py: CDM"]}
{"id": "C99", "title": "Whole WDM calls", "statement": "A realization returned by WDM(...) holds exactly the rendered halos in order, those above the galaxy threshold as galaxies and, if asked for, globular clusters. The masses come from two steps: masses drawn as in CDM with the same arguments, of which the i-th survives exactly if its second variate is below the suppression of the named mass function model at the half-mode mass of the call. With the same random numbers a larger cutoff returns a subset of the halos, and a warm call a subset of the cold call. The convergence sheets at the lens and at every plane take away the mass of the suppressed mass function between their limits; with use_class_mass_ranges and unit scales this is exactly the average surviving mass.", "quantifier": "All arguments of WDM for which the call succeeds, all suppressed mass function models and their parameters, all cosmologies, all draws, all mass sheet options, also redshift dependent lower mass limits.", "why_tests_cant": "A coupling of two calls for all draws and an expectation over all draws; a test sees single realizations.", "anchors": ["pyHalo/PresetModels/wdm.py: WDM", "pyHalo/Rendering/MassFunctions/mass_function_base.py", "pyHalo/single_realization.py: lensing_quantities"]}
{"id": "C100", "title": "Whole ULDM calls", "statement": "A realization returned by ULDM(...) holds the halos of the corresponding warm dark matter call unchanged, each with the requested profile, at least as massive as log_mlow and as the lightest halo such particles form at its redshift, and less massive than log_mhigh. With fluctuations it also holds Gaussian fluctuations in the requested region at the lens: as many as drawn with the documented mean (n_fluc_scale per patch of the size of a fluctuation), at most n_cut of them, with amplitudes reduced by the square root of the kept fraction. Fluctuations leave the convergence sheets as they are. With the documented arguments the call returns.", "quantifier": "All arguments of ULDM, all shapes of the fluctuation region, all cosmologies, all draws and variates.", "why_tests_cant": "Holds for every draw of halos and fluctuations and every region; a test sees single realizations of one region.", "anchors": ["pyHalo/PresetModels/uldm.py: ULDM", "pyHalo/realization_extensions.py: add_ULDM_fluctuations", "pyHalo/utilities.py: MinHaloMassULDM, de_broglie_wavelength"]}
{"id": "C101", "title": "Infall redshifts follow the published distributions", "statement": "The infall redshift drawn for a subhalo is normal about the published mean with the published standard deviation for the ratio of subhalo to host mass (clipped to half a decade to five decades), conditioned on 0 to 15 above the lens redshift, for HYBRID_INFALL, DIRECT_INFALL, DIRECT_INFALL_CLUSTER and the three Milky Way classes. For GALACTICUS_2024 the cumulative distribution at every redshift of the histogram is the share of the counts. INFALL_ZLENS gives the lens redshift and INFALL_0 gives zero.", "quantifier": "every subhalo and host mass, lens redshift, way of giving the host mass, threshold redshift and mass ratio", "why_tests_cant": "A test draws a finite sample and compares it with a tolerance; the claim is an equality of probability distributions for every pair of masses.", "anchors": ["pyHalo/Halos/accretion.py:InfallDistributionHybrid", "pyHalo/Halos/accretion.py:InfallDistributionDirect", "pyHalo/Halos/accretion.py:InfallDistributionClusterDirect", "pyHalo/Halos/accretion.py:InfallDistributionGalacticus2024", "pyHalo/Halos/lens_cosmo.py:LensCosmo.setup_infall_model", "pyHalo/Halos/lens_cosmo.py:LensCosmo.z_accreted_from_zlens"]}
{"id": "C102", "title": "Drawn masses are Poisson processes with the requested mass function", "statement": "With numpy's uniform variates and Poisson counts, the masses a power-law mass function draws form a Poisson process on [10^log_mlow, 10^log_mhigh] whose intensity is the requested differential mass function norm * m^index times the suppression factor of the dark matter model; counts in disjoint mass ranges are independent Poisson numbers, and the expectation of any sum over halos is the integral against the mass function. A delta-function population has a Poisson number of halos, all of the requested mass, with mean the requested total mass over this mass; a Gaussian population consists of independent Gaussian logarithms of masses.", "quantifier": "every norm, index, mass range, every (measurable) suppression between 0 and 1, every test function of mass", "why_tests_cant": "a test compares a histogram of one finite sample with a curve up to noise; the law of the process ranges over all test functions and all parameters, and bias or dependence below the noise goes unseen", "anchors": ["pyHalo/Rendering/MassFunctions/mass_function_base.py: CDMPowerLaw, WDMPowerLaw, _MassFunctionBase", "pyHalo/Rendering/MassFunctions/delta_function.py: DeltaFunction", "pyHalo/Rendering/MassFunctions/gaussian.py: Gaussian"]}
{"id": "C103", "title": "Drawn positions have the requested spatial law", "statement": "With numpy's uniform variates, uniformly placed halos (and line-of-sight halos) are independent points chosen uniformly from the disc of the requested radius about the requested centre, so the probability of a region is its area over that of the disc; subhalos that follow the host profile have uniform angles, and their projected and three-dimensional radii have at every tabulated radius the distribution function of the projected and three-dimensional host profile.", "quantifier": "every radius, centre, rescaling and angular scale; every region of the disc; every positive host profile and each of the 19999 tabulated radii", "why_tests_cant": "a test looks at one sample and a coarse statistic of it; that each region of the disc has the right probability is a statement about all regions and all parameters", "anchors": ["pyHalo/Rendering/SpatialDistributions/uniform.py: Uniform, LensConeUniform", "pyHalo/Rendering/SpatialDistributions/nfw.py: ProjectedNFW", "pyHalo/utilities.py: inverse_transform_sampling, ITSampling"]}
{"id": "C104", "title": "Ray paths follow the light rays and end where asked", "statement": "interpolate_ray_paths returns, for every image coordinate, functions of comoving distance that equal the image coordinate at distance zero and the angular position of the lensed ray at the redshift of every deflector and at the source. With terminate_at_source the path ends at the given source position. In an empty universe the path is the constant image coordinate. evaluate_at_mean returns one path which is the mean of the individual paths at its nodes. shift_background_to_source with such a path moves a halo at a deflector redshift by exactly the ray's angular position there.", "quantifier": "every list of image coordinates, lens model whose ray shooting can be composed, increasing comoving distance, source redshift and source position", "why_tests_cant": "a test traces a few rays through one lens; the claim is about every lens model, set of deflector redshifts and source position", "anchors": ["pyHalo/utilities.py: interpolate_ray_paths, compute_comoving_ray_path", "pyHalo/single_realization.py: Realization.shift_background_to_source"]}
{"id": "C105", "title": "The correlation function of a convergence map is a covariance", "statement": "corr_kappa_with_mask returns for every separation r and cosine mu the covariance of the interpolated map at the two points displaced by plus and minus half of the separation vector from the grid points, over the pairs of points inside of the mask, divided by the area. All pairs lie inside of the map and are r apart at angle arccos(mu). Adding a constant to the map changes nothing; multiplying it by a factor multiplies the result by the square and leaves the normalised function unchanged; the normalised function lies in [-1, 1] and is one at zero separation. The mask selects the annulus between the two radii. Non-square maps and separations larger than half of the map are refused.", "quantifier": "every square map of six pixels or more, map size, list of separations and cosines with room for two grid points, mask radii; every quadrature rule with non-negative weights", "why_tests_cant": "a test evaluates one map; invariance under offsets and scaling and the bound on the normalised function range over all maps and masks", "anchors": ["pyHalo/realization_extensions.py: corr_kappa_with_mask", "pyHalo/utilities.py: mask_annular"]}
{"id": "C106", "title": "Multipoles are the coefficients of the Chebyshev series", "statement": "xi_l returns for every separation the coefficient of order l of the series of the correlation function in Chebyshev polynomials of the cosine, that is 1/pi (l = 0) or 2/pi times the integral over angles from 0 to pi of the correlation function times cos(l theta), up to the error of the quadrature rule on the given cosines.", "quantifier": "every order l, correlation function and list of cosines", "why_tests_cant": "a test checks one order and one function; the claim is about all orders and all functions", "anchors": ["pyHalo/realization_extensions.py: xi_l"]}
{"id": "C107", "title": "Amplitude of ultra-light dark matter fluctuations and velocity dispersion of the host", "statement": "projected_density_squared is the integral along the line of sight of the squared NFW density inside of r200 and decreases with radius. delta_sigma for a host of mass m squares to sqrt(pi) times the wavelength times this integral for the NFW profile that has mass m inside of r200; delta_kappa is delta_sigma over the critical surface density; both fall with the square root of the particle mass and of the velocity. The squared nfw_velocity_dispersion times the density is the integral of density times G M(r)/r^2 (the equation of Jeans) from x rs to c rs, up to the error of Simpson's rule.", "quantifier": "every host mass, redshift, concentration, Einstein radius inside of r200, wavelength, particle mass and velocity; every quadrature rule", "why_tests_cant": "a test compares a few numbers with stored ones; the claim is an identity with physical integrals for all parameters", "anchors": ["pyHalo/utilities.py: delta_kappa, delta_sigma, projected_density_squared, nfw_velocity_dispersion, de_broglie_wavelength"]}
{"id": "C108", "title": "A realization of one user-specified halo contains exactly that halo", "statement": "SingleHalo returns a realization with one halo of the given mass, position, three-dimensional radius, redshift and flag; lensing_quantities returns its lens models at its redshift and never a mass sheet. Joining it to a realization adds these lens models and leaves the realization's halos and mass sheets as they are. The documented call without kwargs_halo_model works.", "quantifier": "every halo, profile, lens cosmology, dictionary of models, realization and option of lensing_quantities", "why_tests_cant": "a test builds a few halos; the claim ranges over all halos and all realizations they are joined to", "anchors": ["pyHalo/single_realization.py: SingleHalo, Realization.__init__, Realization.join, Realization.lensing_quantities"]}
{"id": "C109", "title": "The truncation radius looked up from a bound mass reproduces that bound mass", "statement": "The truncation radius a subhalo gets from its bound mass is a positive multiple of its scale radius that grows with the bound mass at every concentration, and the truncated profile with that radius keeps the requested share of the mass: up to a factor 1.78 for concentrations up to 100 and bound fractions between a millionth and one half, and up to a factor below 1.28 for emulator subhalos with concentrations between 20 and 200. The closed-form mass fraction of the emulator equals the integral of the truncated density. An emulator subhalo has the same multiple in kpc and in arcsec and sits at the given position.", "quantifier": "all concentrations and bound fractions in the stated ranges, all subhalos made from emulator output, all cosmologies", "why_tests_cant": "The lookup inverts an integral by two nested interpolations; a test compares a few points, while the size of the error over the whole table, the monotonicity and the equality of the closed form with the integral are statements about a continuum.", "anchors": ["pyHalo/Halos/tnfw_halo_util.py: tau_mf_interpolation, tnfw_mass_fraction", "pyHalo/Halos/tidal_truncation.py: TruncationGalacticusKeeley24.truncation_radius_halo", "pyHalo/Halos/HaloModels/TNFWemulator.py: tnfw_mass_fraction, tau_mf_interpolator, TNFWSubhaloEmulator"]}
{"id": "C110", "title": "The total volume is the comoving volume of the rendered region", "statement": "volume_MPC3 is the integral of the comoving area of the rendered disc over comoving distance between observer and source: base times height for the cylinder, a third of that for the cone.", "quantifier": "all cosmologies, opening angles, lens and source redshifts and volume types", "why_tests_cant": "Tests compare one lens-source pair with a loose tolerance; which slices are summed must be right for every source redshift.", "anchors": ["pyHalo/Cosmology/geometry.py: Geometry.volume_MPC3, volume_element_comoving"]}
{"id": "C111", "title": "The maximum circular velocity is the top of the rotation curve and the dynamical time follows from it", "statement": "nfw_vmax bounds the circular velocity of an NFW halo at every radius up to two percent and is reached at some radius. halo_dynamical_time is positive, does not depend on the mass of the host, and is the time needed to travel the virial radius (documented: twice that) at this velocity.", "quantifier": "all densities and scale radii, all radii, all masses, concentrations, redshifts and cosmologies", "why_tests_cant": "An upper bound over all radii and independence of mass are statements about every input; the tests check one value.", "anchors": ["pyHalo/Halos/lens_cosmo.py: nfw_vmax, halo_dynamical_time, NFW_params_physical"]}
{"id": "C112", "title": "Numerical logarithmic slopes lie between the true slopes next to each radius", "statement": "For increasing positive radii, logarithmic_profile_slope returns one number per radius, between the smallest and the largest true slope d log rho / d log r between the neighbouring radii; for a number r it is between the slopes on [r, 1.001 r]. A power law gives its index exactly, an NFW halo gives values between -3 and -1 (error at most 0.0005 for a number), a truncated NFW halo gives a value at most 0.002 below the exact slope, a blended halo gives a value between the slopes of its parts. log_slope_2d and the convergence of a core-collapsed halo obey the same rule. Fewer than two radii are refused.", "quantifier": "all density functions, all increasing arrays of positive radii, all halo parameters", "why_tests_cant": "The tests compare one halo at 100 radii with a tolerance of 200 percent; the bound has to hold for every profile and every spacing of the radii.", "anchors": ["pyHalo/Halos/halo_base.py:logarithmic_profile_slope", "pyHalo/Halos/halo_base.py:_logarithmic_profile_slope_array", "pyHalo/Halos/HaloModels/NFW_core_trunc.py:log_slope_2d", "pyHalo/Halos/HaloModels/core_collapsed_halo.py:kappa"]}
{"id": "C113", "title": "The projected mass of a cored and truncated halo is right to 0.33 percent outside its centre", "statement": "For a surface density that is not negative and falls outwards, mass_2d(rmax) is at most 1.0033 times the true projected mass between 0.0003 rmax and rmax, and at least 1/1.0033 times the mass between 0.00032 rmax and rmax, with rmax in kpc and the result in solar masses.", "quantifier": "all surface densities that fall outwards, all radii, all lens geometries", "why_tests_cant": "The quadrature uses 5000 logarithmic radii and two unit conversions; the error bound has to hold for every profile, scale and redshift.", "anchors": ["pyHalo/Halos/HaloModels/NFW_core_trunc.py:mass_2d"]}
{"id": "C114", "title": "Correlation multipoles become power spectra by the Hankel transform", "statement": "xi_l_to_Pk_l(r, xi, l) returns the wavenumbers of the Hankel transform and 2 pi (-i)^l times it, computed from the separations that are not zero. For even l this is (-1)^(l/2) 2 pi times the transform; for odd l the returned spectrum should carry the dipole, octupole and so on.", "quantifier": "all correlation functions, all separations including zeros, all orders", "why_tests_cant": "The sign and phase depend on the order; tests try one or two orders on one correlation function.", "anchors": ["pyHalo/realization_extensions.py:xi_l_to_Pk_l"]}
{"id": "C115", "title": "Fitting a power law to a multipole recovers amplitude and slope", "statement": "fit_correlation_multipole(r, xi, r_min, r_max) uses only separations strictly between r_min and r_max. If xi = A (r / r_p)^n there, with r_p the middle of the range, it returns A and n, whatever xi is elsewhere, provided there are two different separations. With fewer than two separations inside it raises an exception.", "quantifier": "all amplitudes other than zero, slopes, ranges, separations and values outside the range; all solvers that find a perfect fit when there is one", "why_tests_cant": "Amplitude and slope trade off through the pivot; recovery must hold for every law and every sampling.", "anchors": ["pyHalo/realization_extensions.py:fit_correlation_multipole"]}
{"id": "C116", "title": "Multi-plane convergence maps show what the halos add", "statement": "multiplane_convergence returns npix by npix numbers: the convergence of the main deflector and all halos at their redshifts, minus that of the main deflector alone, on a grid of points centred on zero with x along columns and y along rows, along with the models and parameters used. Without halos the map vanishes. A main deflector without redshifts is refused. Each axis should span twice the given angle, as documented.", "quantifier": "all realizations, deflectors, angles and numbers of pixels from two up, all lens models", "why_tests_cant": "The grid, the order of the components and the subtraction must match for every realization.", "anchors": ["pyHalo/utilities.py:multiplane_convergence"]}
{"id": "C117", "title": "The boost from structure around the host is a mean of the excess density", "statement": "two_halo_boost(m200, z, rmin, rmax) lies between one plus twice the excess density at rmax and one plus twice the excess at rmin when the excess falls outwards, falls when the slice is made thicker, and does not depend on the order of the limits. Distances and masses are converted to units with little h for colossus. The factor that scales the two-halo population of a realization lies between 2 scale times the excess at the next plane and 2 scale times the excess at 0.5 Mpc, with the correction of Lazar et al. included on request.", "quantifier": "all excess densities that fall outwards, all hosts, redshifts, limits and plane spacings", "why_tests_cant": "The bounds must hold for every cosmology and every excess density; tests evaluate one host.", "anchors": ["pyHalo/Halos/lens_cosmo.py:two_halo_boost", "pyHalo/Halos/lens_cosmo.py:twohaloterm", "pyHalo/Rendering/two_halo.py:two_halo_enhancement_factor"]}
{"id": "C118", "title": "SIDM halos evolve continuously through core collapse", "statement": "The scale radius, core radius and density of an SIDM halo are continuous functions of the time in units of the collapse time; the density starts at that of the NFW halo and stays positive until collapse; halos that are almost at the same stage look almost the same.", "quantifier": "all times and initial scale radii", "why_tests_cant": "Continuity is a statement about all pairs of nearby times; tests evaluate a few times.", "anchors": ["pyHalo/Halos/HaloModels/NFW_core_trunc.py:evolve_profile", "pyHalo/Halos/HaloModels/NFW_core_trunc.py:rs_evolution", "pyHalo/Halos/HaloModels/NFW_core_trunc.py:rc_evolution", "pyHalo/Halos/HaloModels/NFW_core_trunc.py:rho_s_evolution"]}
{"id": "C119", "title": "Interpolated concentrations are close to those of colossus", "statement": "If log10 of the concentration of colossus changes by at most A per decade of mass and B per decade of 1+z, then nfw concentrations evaluated from the internal table differ from a direct evaluation by at most 0.0632 A + 0.017 B decades, after every history of calls. With use_interpolation_table=False the concentration is that of colossus at the mass in M_sun/h, whatever was asked before; arrays are evaluated halo by halo, and arrays of different lengths are refused.", "quantifier": "all relations of colossus with bounded slopes, all histories of calls, all masses and redshifts from zero up", "why_tests_cant": "The table is rebuilt depending on the calls made before; tests compare a few masses after one call.", "anchors": ["pyHalo/Halos/concentration.py:ConcentrationDiemerJoyce", "pyHalo/Halos/concentration.py:ConcentrationLudlow", "pyHalo/Halos/concentration.py:_ConcentrationCDM._evaluate_concentration_from_table"]}
{"id": "C120", "title": "Resampling keeps to the range of the samples and the shares of its histogram", "statement": "ITSampling.from_samples(samples)(n), for samples that are not all equal, returns n numbers and never fails; each lies within the range of the samples, at least half a histogram bin (1/300 of the range) from either end; and each histogram bin is drawn with its share of the samples.", "quantifier": "all non-constant lists of samples, all numbers of draws, all random variates", "why_tests_cant": "Tests compare moments of draws from one smooth distribution; the claim ranges over all samples and variates.", "anchors": ["pyHalo/utilities.py:ITSampling"]}
