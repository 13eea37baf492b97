# Formal model of pyHalo in Lean 4: design

## Scope and method

The model is a shallow embedding: each modelled python function becomes a Lean
function that follows the same branches. Conventions:

* Real arithmetic. Python floats are modelled by `ℝ` (Mathlib). Rounding, NaN
  and overflow are not modelled. Comparisons are the exact ones of the code
  (`<` versus `<=` is kept).
* Exceptions are values (`Except Err α`); a function that can raise returns
  `Except`.
* Objects that python shares by reference (halos, keyword dictionaries) are
  modelled with an explicit store (object id → contents) wherever aliasing
  matters for the property; elsewhere they are plain values.
* Random numbers are explicit inputs: a stream or a list of variates, with the
  range guaranteed by numpy (`0 ≤ u < 1`) as a hypothesis where needed.
* External libraries (astropy, colossus, scipy interpolation, lenstronomy,
  numpy array primitives) are parameters of the model. Whatever is assumed about
  them is a hypothesis of the theorem, never an axiom.

Layout (`/verif/lean/Verif`):

* `Model/*.lean`  definitions that model code; each cites file and lines.
* `Spec/*.lean`   small independent vocabulary used to state properties.
* `Lemmas/*.lean` helper lemmas.
* `Props/*.lean`  the property theorems and the examples that show the
  hypotheses can be met.

## Trusted base

* The Lean 4.33.0 kernel and Mathlib.
* Axioms: `propext`, `Classical.choice`, `Quot.sound` only (audited with
  `#print axioms` on every property theorem, see `MANIFEST.json`).
* That the definitions in `Model/` say what the cited python lines say.
* The behaviour assumed of external libraries, listed per area below.

## Plan per property

| id | modelled | how it is proved |
|----|----------|------------------|
| C01 | the two accumulation loops of `subhalos`/`field_halos` | induction on the halo list |
| C02 | `filter` with the mask, index arrays and the per-plane regrouping | index lemmas + induction on planes; spec is a plain predicate |
| C03 | same model | from the characterisation of C02 |
| C04 | mask model of `filter_subhalos` | list lemmas |
| C05 | loop of `filter_bound_mass` and status flag | induction |
| C06 | `join` loop with length branch | set/multiset reasoning on tags |
| C07 | `split_at_z` loop | induction, with C06 |
| C08 | three counting loops | induction |
| C09 | `lensing_quantities` accumulation, `_mass_sheet_correction` | induction with alignment invariant |
| C10 | `mass_at_z_exact`, exact-sheet branch | algebra, sum over planes |
| C11 | `_reset` | list lemmas |
| C12 | store of halos + realizations as views, operations as a state machine | negation by witness; invariant for flag-carrying operations (`_partial`) |
| C13 | same store model | induction over halo list |
| C14 | `__eq__` loop | list lemmas; asymmetry by witness |
| C15 | `realization_at_z`, `halos_at_z` | index invariant |
| C16 | `HaloPopulation.render`, `_create_realization` zip | induction over populations |
| C17 | mdef assignment loop | negation by witness, partial when equal |
| C18 | `generate_lens_plane_redshifts` | order lemmas about arange/append/sort; rounding explicit |
| C19 | inverse-CDF formulas | real analysis (rpow monotone) |
| C20 | suppression factors, rejection loop | real analysis; sublist |
| C21 | uniform draws | real analysis |
| C22 | geometry scale functions | real analysis |
| C23 | infall sampling; normal CDF as a strictly monotone bijection | real analysis |
| C24 | range check, name dispatch | case analysis |
| C25 | NFW parameter formulas | integral calculus |
| C26 | `rescale_normalization` as a step function | induction over call history |
| C27 | `cubic_real_roots` | algebra, trigonometric identities |
| C28 | `tnfw_log_derivative`, inverse | monotonicity + C27 |
| C29 | table state of the concentration class | invariant by induction over queries |
| C30 | clipping + interpolation bounds | order lemmas |
| C31 | scalar and vectorised functions | extensional equality by induction; negation with witness for the clip |
| C32 | `halo_age`, `sidm_halo_effective_age` | case analysis, algebra |
| C33 | evolution polynomials | real analysis |
| C34–C39 | realization extensions | list induction; negations with witnesses |
| C40 | fraction formulas | algebra |
| C41 | `hdf5_read_custom_nodedata` loop | induction; error witness for one tree |
| C42 | projection formula | inner-product algebra |
| C43 | `_M_enclosed` table | derivatives |
| C44 | `_f_t_Du_2024` | case analysis, real analysis |
| C45 | 2x2 solve | linear algebra |
| C46 | preset keyword dictionaries with persistent defaults | state machine over calls; negation with witness |
| C47 | amplitude selection | case analysis |
| C48 | lookup tables | case analysis over all strings |
| C49 | memo cache | invariant over histories |
| C50 | cached parameters | state machine; negation with witness |
| C51 | centre of the sheets in `lensing_quantities` | same theorem as C09 |
| C52, C53, C56 | power-law number and mass, inverse transform, amplitudes | interval integrals, real analysis |
| C54 | counts without Poisson noise | case analysis |
| C55 | convergence sheets of the rendering classes | induction over planes, with C52 |
| C57 | projected NFW positions | order lemmas; negation with a witness |
| C58 | cylinder geometry | algebra |
| C59, C61, C82 | half-mode mass, thermal relic mass, fitted suppression scales | real analysis (powers); solvers are oracles |
| C60, C62 | lensing normalisations, collapse time scale | algebra |
| C63–C66 | objects with lazily filled attributes | state machines; induction over histories of reads |
| C67 | mass fraction of the truncated profile | integral calculus |
| C68–C70 | concentration classes | real analysis; constructors as steps on a shared default dictionary |
| C71, C72 | truncation models and the subhalo that asks them | state machine; algebra |
| C73, C83 | normalisation of all halo profiles | integral calculus where the density is elementary, otherwise scale covariance |
| C74, C75 | structure drawn from convergence maps | list induction, index arithmetic |
| C76 | table for the truncation radius | state machine over queries; monotonicity and unboundedness of the total mass |
| C77, C78 | reading and filtering Galacticus output, emulated subhalos | list induction; algebra |
| C79, C80 | requests of the presets, all model names | case analysis over all strings |
| C88, C89 | general warm dark matter preset, cold dark matter in two mass bins | case analysis; the bins' mass functions are compared with the single one by algebra and order lemmas |
| C84–C86 | ultra-light dark matter: soliton, mass budget, preset | improper integral of an eighth power by recursion; algebra |
| C90, C91 | whole calls of the cold and warm dark matter presets, up to the halos | composition of the theorems on requests, populations, mass functions, positions and objects; sublists along the lists of planes and populations |
| C92 | straight-line fit and mean number of field halos | normal equations by list induction; integral calculus |
| C93 | two-halo term | loop invariant for the nearest plane; algebra |
| C94 | objects and realizations made from rendered rows; whole calls of `CDM` with galaxies and clusters | case analysis over halo classes; induction over the rows; composition with C37, C38, C90 |
| C95 | whole calls of the three self-interacting presets | composition of C94 with C34, C35, C36; trace of the conversion loop |
| C96 | whole calls of the preset with black holes | composition of C94 with C38, C39; success from C90 |
| C97 | number and masses of the halos of whole `CDM` calls | C16 splits the output into populations and planes; C47, C52, C53 for each |
| C81 | whole calls of `DMFromGalacticus` and `JointLOSWithEmulator` | composition of C94 with C06; counts from C97 |
| C98 | the mass sheets of whole `CDM` calls | C94 with C12; the moments of C52 and the mean of the inverse distribution function |
| C99 | whole `WDM` calls: halos, two-step draws, cutoff, mass sheets | C94 and C90 for `WDM`; the draws of C91; C12 with the suppressed moments, Fubini over both variates |
| C100 | whole `ULDM` calls: halos, minimum mass, fluctuations, sheets | C99 and C90 with the redshift dependent minimum; C38 for the fluctuations; refuted for the defaults and for apertures without a draw |
| C101 | Infall models of Model/Accretion as functions of a uniform variate | Push-forward of the uniform law through the inverse normal distribution function equals Mathlib's gaussianReal conditioned on an interval (Props/InfallLaw); the Galacticus table by monotonicity of linear interpolation |
| C102 | Samplers of Model/MassFunction as functions of a Poisson count and a sequence of uniform (normal) variates | Generating functional of the list of drawn masses under Mathlib's poissonMeasure and infinite product measure (Lemmas/PoissonProcess, Props/SamplerLaw); push-forward of the uniform law through the inverse of the power-law distribution function |
| C103 | Position samplers of Model/Geometry as functions of uniform variates | Push-forward of the uniform law is the normalised area of the disc, by polar coordinates; projected NFW radii by monotonicity of linear interpolation between table nodes (Props/PositionLaw) |
| C104 | `interpolate_ray_paths` and `compute_comoving_ray_path` with lenstronomy's ray shooting as a parameter (Model/Rays) | The traced ray equals a single shot to each redshift by composition; interpolation at its nodes; composed with `shift_background_to_source` (Props/Rays) |
| C105 | `corr_kappa_with_mask` and `mask_annular` with scipy's splines and Simpson weights as parameters (Model/Correlation) | Algebra of weighted covariances, Cauchy-Schwarz by the discriminant (Props/Correlation) |
| C106 | `xi_l` (Model/Correlation) | `T_l (cos θ) = cos (l θ)`; orthogonality of cosines (Props/Multipoles) |
| C107 | `delta_kappa`, `delta_sigma`, `projected_density_squared`, `nfw_velocity_dispersion` (Model/Host) | Line-of-sight integrals, monotonicity of integrals, change of variables and the NFW mass of C25 (Props/Host) |
| C108 | `SingleHalo` (Model/Single) on top of `_load_halo_model` and `Realization` | Unfolding of the constructor; lens models as a concatenation over halos (Props/Single) |
| C109 | `tau_mf_interpolation`, its use with clamped points, the closed-form mass fraction, table and subhalo class of `TNFWemulator.py` (Model/Emulator) | Fundamental theorem of calculus for the closed form; a Chebyshev inequality for the dependence on concentration; monotone interpolation; comparison of neighbouring table entries (Lemmas/Emulator, Props/Emulator) |
| C110 | `volume_MPC3` (Model/Volume) on top of `volume_element_comoving` | Induction over the slices; closed forms by the fundamental theorem of calculus (Props/Volume) |
| C111 | `nfw_vmax`, `halo_dynamical_time` (Model/LensCosmo) | Mass integral, sign of the derivative of the rotation curve, scaling with mass (Props/Dynamics) |
| C112 | `logarithmic_profile_slope`, `log_slope_2d`, `kappa` of core-collapsed halos (Model/Slopes) | `np.gradient` as weighted means of difference quotients, mean value theorem (Lemmas/Slopes, Props/Slopes) |
| C113 | `mass_2d` of cored and truncated halos (Model/Slopes) | The trapezoidal rule on a geometric grid compared with shifted integrals of a decreasing surface density (Lemmas/Slopes, Props/Slopes) |
| C114 | `xi_l_to_Pk_l` (Model/Spectrum); mcfit's Hankel transform is a parameter | Powers of `-i`: the even ones are real, the odd ones imaginary, so the real part that is returned vanishes (Props/Spectrum) |
| C115 | `fit_correlation_multipole` (Model/Spectrum); scipy's solver is a parameter that finds a perfect fit when there is one | A power law is determined by two points (Props/Spectrum) |
| C116 | `multiplane_convergence` (Model/Spectrum); lenstronomy's convergence is a parameter | Entry by entry of the grid (Props/Spectrum) |
| C117 | `two_halo_boost`, `twohaloterm` (Model/Boost), `two_halo_enhancement_factor` (Model/Run) | The mean of a falling function lies between its values at the ends and falls when the interval grows (Props/Boost) |
| C118 | `evolve_profile` (Model/Sidm), `rho_s_evolution` (Model/Smooth) | Continuity of the two branches; numerical bounds on logarithms, exponentials and roots at the collapse time show that they do not meet (Props/Smooth) |
| C119 | `_evaluate_concentration`, `_evaluate_concentration_colossus` (Model/Direct), the table (Model/Concentration) | Every table of a history was built by `_build_table`, which bounds the spacing of its nodes; interpolated values lie between the corners (Props/Direct) |
| C120 | `ITSampling` (Model/Resample) | Closed forms of the cumulated histogram; interpolated values lie between the outer bin centres (Props/Resample). The equality of shares fails: the lowest bin is lost |
| C87 | warming the caches of a list of halos | what a halo will report is a function of its "core" (resolved lazily filled attributes); every read and every batched stage preserves the core |

## What is modelled

Names of python files are relative to `pyHalo/`. "Model" names the Lean file that has the definitions.

| python | Model | not modelled |
|--------|-------|--------------|
| `single_realization.py` | `Realization`, `Whole` (`_load_halo_model`), `Single` | `plot` |
| `pyhalo.py`, `Rendering/halo_population.py`, `rendering_class_base.py`, `line_of_sight.py`, `subhalos.py`, `two_halo.py` | `Render`, `Run` (whole calls, `two_halo.py`) | seeds of the random number generator; several realizations |
| `Rendering/correlated_structure.py`, `SpatialDistributions/correlated.py` | `Populations` | |
| `Rendering/MassFunctions/*` | `MassFunction`, `Run` (`from_redshift`, the fit), `Presets` (`stucker.py`) | colossus' mass function and halo bias (parameters) |
| `Rendering/SpatialDistributions/*`, `Cosmology/geometry.py`, lens planes of `utilities.py` | `Geometry`, `Run` (comoving volumes, `from_Mhost`), `Volume` | |
| `Cosmology/cosmology.py` | `Cosmology` | astropy (parameter) |
| `Halos/lens_cosmo.py` | `LensCosmo`, `Boost`, `Accretion` (infall models) | colossus' two-halo term (parameter) |
| `Halos/accretion.py` | `Accretion` | |
| `Halos/concentration.py` | `Concentration`, `Direct` | colossus (parameter) |
| `Halos/tidal_truncation.py` | `Truncation`, `MassLoss` | |
| `Halos/galacticus_truncation/interp_mass_loss.py` and the tables | `MassLoss`, `MassLossTables` (generated by `tools/gen_tables.py`), `Grid` | |
| `Halos/galacticus_truncation/transfer_function_density_profile.py` | `Transfer` | hypergeometric function, cubic spline (parameters) |
| `Halos/galacticus_util/*` | `Galacticus` | the HDF5 library; reading of meta data groups other than those cited |
| `Halos/halo_base.py`, `Halos/tnfw_halo_util.py`, `HaloModels/TNFW.py`, `TNFWFromParams.py`, `TNFWemulator.py`, `NFW.py` | `HaloObject`, `Tnfw`, `Emulator`, `Slopes` | |
| `HaloModels/NFW_core_trunc.py` | `Sidm`, `Smooth`, `Profiles`, `Extensions`, `Slopes` | |
| `HaloModels/core_collapsed_halo.py` | `Collapsed`, `Slopes` (`kappa`) | the envelope's own caches |
| other `HaloModels` | `Profiles`, `HaloObject` (caching), `Uldm` | lenstronomy (parameters) |
| `Halos/batch_halo_util.py` | `Warm`, `Sidm`, `Concentration`, `MassLoss`, `Transfer` | see the comments there |
| `realization_extensions.py` | `Extensions`, `Populations`, `Correlation`, `Spectrum` | the Hankel transform of mcfit, the fit of scipy (parameters) |
| `preset_models.py`, `*_models.py`, `PresetModels/cdm.py`, `wdm.py`, `uldm.py` | `Presets`, `PresetsMore`, `Uldm` | |
| `PresetModels/external.py` | `Galacticus` (selection and projection of the nodes, emulated subhalos), `Whole` (whole calls) | |
| `PresetModels/sidm.py`, `mbh.py` | `Whole` | |
| `utilities.py` | `Geometry` (lens planes), `Populations` (`mask_annular`, maps), `Uldm`, `Rays`, `Correlation`, `Host`, `Spectrum` (`multiplane_convergence`), `Resample` (`ITSampling`) | the lens models of lenstronomy (parameters) |
| `plotting_routines.py`, `defaults.py` | | all (plots; constants are cited where they are used) |

## What is assumed of libraries, per area

Nothing here is an axiom: each item is a parameter of the model or a hypothesis in the statement of the theorems that use it.

* numpy primitives (`Model/Numpy.lean`, `Model/Grid.lean`): masks, `argsort`, `append`, `arange`, `linspace`, `interp`, `gradient`, `trapezoid`,
  `RegularGridInterpolator`, `np.round` (to the nearest multiple, halves to even) with their documented meaning on lists of
  real numbers.
* Random numbers: uniform variates in `[0, 1)`; standard normal and Poisson variates are arbitrary. The laws C101 to C103 further trust that `rand`, `normal` and `poisson` of numpy have the laws of their names and are independent of each other.
* astropy: distances, ages and critical densities are functions; positivity or monotonicity is a hypothesis where used.
* colossus: the halo mass function, bias and concentrations are functions.
* scipy: `ndtr`/`ndtri` are inverse to each other and increasing; minimisers and equation solvers are oracles whose answer
  is arbitrary, or satisfies the equation, as stated; `hyp2f1` and splines are functions, splines pass through their points.
  Simpson's rule is a sum with weights that depend on the abscissae; C105 assumes that they are not negative on equidistant points and
  that splines commute with adding a constant to their values and multiplying them by one.
* lenstronomy: `rho0_c`, `r200_M` and elementary densities are reproduced; other masses and deflections are functions that are
  proportional to the amplitude, or scale with length, as stated. C104 assumes that ray shooting composes (from a redshift to a second
  and on to a third is the same as directly to the third).
* h5py: files are nested dictionaries.
* Python: dictionaries and objects are shared by reference where that matters (realizations and halos, profile dictionaries,
  default arguments), and default arguments are created once.

## Disagreements between code and intended property

Each item is a theorem (in `Verif/Props`) that the code violates the property its name starts with, for the inputs described.
The list is made from the comments of the theorems by `tools/design.py`.

<!-- disagreements -->
* `c12_at_most_once_fails`: Splitting a shifted realization forgets that it was shifted, a further shift then displaces the halo a second time.
* `c12_original_shifts_again`: The other way to displace twice: the shifted copy is flagged but the original instance is not, and both share their halo objects. Calling `shift` twice on the original moves every movable halo by twice the ray position, for every realization.
* `c14_eq_not_symmetric`: ("equality if they contain the same halos"): equality is not symmetric. The demo realization equals its selection `[1]`, not conversely.
* `c17_swapped`: What the code does: a subhalo gets the profile asked for field halos and the other way round.
* `c17_requested_profile_fails`: For any two different profile names there is a population in which a subhalo gets the wrong one.
* `c18_lens_plane_missing`: Fails for a lens redshift with three decimals: the lens plane is not among the planes, because everything is rounded to two decimals.
* `c18_zero_thickness`: Fails for fine spacings: with a spacing below 0.005 a plane in front of the lens that is not the last one gets thickness zero.
* `c18_plane_behind_source`: Fails at the source: a plane may be rounded up to a redshift behind the source.
* `c18_empty_cone_raises`: When the source is not behind 0.01 and there is no lens plane, the code fails on an empty list of planes.
* `c23_milky_way_mean_negative`: In the two Milky Way models for the inner 30 and 50 kpc the fitted mean infall redshift is negative (relative to the host redshift) for every subhalo above a tenth of the host mass.
* `c27_tiny_leading_coefficient`: Below the tolerance a true cubic loses roots: `1e-15 x³ - 1` has the root `1e5`, the solver returns no root.
* `c28_near_limit`: Within `1e-14` of the limiting slope -5 the inversion raises although the profile does have that slope at some radius. (This is what is missing from `c28_inverse_partial`.)
* `c29_negative_redshift`: For redshifts below 0 the table is never extended: after every history it does not cover the query (the value is extrapolated).
* `c29_history_matters`: The answer to a query depends on what was asked before: the table has other nodes when it was built for another first query, and with the (admissible) relation `log10 c = (log10 m)²` the concentration of a halo of mass `10^5` changes when a halo of mass `10^4.99` is asked for first.
* `c30_zinfall_extrapolates`: With a redshift difference of 9.5, the lower clamp of the concentration and a host concentration up to 4 the parameter `a` is 0.6013..., although no table entry is below 2 (the elapsed redshift is clamped to 9.5 but the table ends at 8.1).
* `c30_keeley_grows`: At infall (time 0) the 2024 model has mean 0 and scatter 0.001, so every positive variate gives a bound mass above the infall mass.
* `c30_keeley_not_clamped`: Beyond the last time of the table (7.658... Gyr) the 2024 model is extrapolated. For a host concentration of 2 and the lowest tabulated concentration the mean leaves the table's range, whose lowest entry is -2.52, and decreases without bound.
* `c30_tau_extrapolates`: The bound fraction is clamped at `10^-8` but the table starts at `10^-6`, so every smaller fraction is looked up outside the table.
* `c31_mass_loss_differs`: For a host concentration of 9, a halo at infall with concentration 2 and the variate 3.303, the batched routine keeps the whole mass and the scalar one does not.
* `c31_ages_out_of_range`: The scalar routine is more tolerant than the batched one: a field halo above redshift 20 has age 0, but makes the batched routine fail.
* `c32_late_formation_fails`: For a halo that formed after redshift 10 the infall redshift is not limited to the formation redshift: with infall before formation and unit time scaling the effective age is larger than the age of a field halo, in every universe that ages.
* `c32_infall_zero`: With the infall model that sets the infall redshift to 0, every subhalo gets the age it will have today, whatever its own redshift and the time scaling: the age is that of a field halo observed at redshift 0, and larger than that of a field halo at its redshift.
* `c34_nfw_refused`: The conversions select halos with mass definition `TNFW` or `NFW`, but the routine they call refuses the latter, so any realization with an untruncated NFW halo raises.
* `c34_cross_section_needs_nfw`: The conversion from cross sections reads the NFW parameters of every halo before it looks at the profile, so a halo without NFW parameters (a point mass, say) makes it raise, while the conversion from collapse times keeps such halos.
* `c34_requested_ratio_exceeded`: A subhalo whose infall redshift lies below its own redshift (which the simplest infall model assigns to every subhalo) gets a larger ratio than the one asked for.
* `c34_composite_ratio`: The composite profile needs the collapse time itself; asking for a ratio raises.
* `c36_shared_dictionary`: Turning one halo into a generalised NFW or power-law halo writes the profile arguments into its dictionary, which the halos of a realization share: every halo with the same dictionary, converted or not, in the old and in the new realization, now has them.
* `c36_infall_state`: Infall state: subhalos turned into cored or composite halos keep their infall redshift and bound mass; turned into generalised NFW or power-law halos they lose both, and reading their bound mass raises (disagreement: everything that uses bound masses then fails for them).
* `c36_cored_ignores_indexes`: With any other profile name `add_cored_halos` ignores the list of indexes and replaces every halo.
* `c37_forgets_shift`: The result forgets that the realization has been shifted onto the rays (every other conversion remembers it), so that it can be shifted a second time.
* `c38_fluctuations_misassigned`: Two images at more than twice the aperture from each other, no fluctuation drawn for the first and `m` drawn for the second. All `m` are placed around the first image, none around the second.
* `c38_ring_not_even`: Fluctuations in a ring are not spread evenly over its area: the share placed inside radius `r` (the variates below a threshold) is smaller than the share of the area, for every ring with a hole.
* `c39_subresolution_below_minimum`: If the unresolved halos times the mass ratio stay below the requested minimum, every black hole of the unresolved population is lighter than the requested minimum.
* `c39_subresolution_cut`: Every unresolved halo heavier than the requested *black-hole* minimum gets a black hole, whatever its mass.
* `c40_positions_ignored`: The positions drawn from the convergence map have no effect. The result depends only on the masses and factors of the planes.
* `c40_clustered_positions`: The clustered objects sit exactly on top of halos of the realization (of whatever plane), and there are at most as many as planes times halos, however many masses were drawn.
* `c40_clustered_lost`: With one plane, masses beyond the number of halos are lost.
* `c40_factor_of_last_plane`: The factor for the original halos of all planes is the one of the last plane.
* `c40_not_rescaled`: If nothing is drawn in the last plane, the factor is 1: no halo gives up the mass that was put into black holes in the other planes.
* `c41_one_tree`: A file with one tree (or none) cannot be read: the last stop index is not bound.
* `c43_radius_of_maximum_cored`: The maximum is not available for the cored profiles with `alpha = 2`, although they are supported by the fits: the result is stored under a misspelt name.
* `c44_radius_negative`: The fitted radius is negative for small bound fractions of the cored profile (2, 3, 0).
* `c45_black_hole`: With a black hole mass is not conserved. The point mass has the whole mass wanted inside the matching radius, and the envelope comes on top of it: the composite exceeds the target by the mass of the envelope there.
* `c45_black_hole_reads`: Not so with a black hole: once the separate parameters were read, the joint ones are those dictionaries too, and the deflection angle cannot be computed. The separate parameters cannot be used for the density either, because a key is misspelt.
* `c45_projected_mass`: The projected mass (`mass_2d`) is off by the square of the number of kiloparsecs per arcsecond: radii in kpc are integrated and multiplied by the critical mass per square arcsecond.
* `c46_direct_infall`: The preset remembers: after a call with the host mass `10^l`, a call with `DIRECT_INFALL` that leaves everything to the defaults uses `l`, whatever host mass it is given itself; as the first call it uses 13.
* `c46_caller_dictionary`: A caller's dictionary changes its meaning: with `{'m_host': m}` the first call takes the host mass of the infall model from the dictionary; when the same dictionary is given again, it takes it from the argument `log_m_host`.
* `c47_wdm_both`: With `sigma_sub` in the caller's mass function dictionary, `log10_dNdA` is given to the renderer and not used.
* `c48_emulator`: The documented name `DMEmulator` cannot be used.
* `c49_array_differs`: An array query is not answered entry by entry: one redshift below the table changes how the others are computed.
* `c50_stale`: For every class that keeps its parameters and whose halos can be shifted, parameters read before a shift are returned unchanged after it: the position is the old one.
* `c50_hybrid`: A hybrid halo never follows a shift, even when its parameters are read for the first time after it.
* `c57_r3d_below_projected`: Whatever the parameters, there are variates for which the 3-d radius of a subhalo is smaller than its projected distance from the centre (the two are sampled independently).
* `c64_mass_3d_changes`: Asking a fresh truncated halo twice for its enclosed mass gives two different answers when the truncation model rescales the halo: the first answer ignores the factor.
* `c64_vmax_stale`: The maximum circular velocity does not follow a rescaling that comes after it was first read.
* `c64_density_ignores_factor`: The density profile of a truncated NFW halo ignores the factor, although its physical parameters include it: for every history the density at `r` is that of the unrescaled profile.
* `c66_rescaled`: Rescaling a halo built from physical parameters discards these parameters: read next, the halo fails with a recursion error, unless its profile arguments were read before; then it is given the NFW parameters of its mass and concentration, and its amplitude carries the factor twice (once in the density, once outside).
* `c68_redshift_factor`: With redshift evolution the factor is multiplied by the one of Bose et al., which is at most 1 exactly up to redshift `0.04/0.026 = 1.54`. Beyond that redshift massive warm dark matter halos are more concentrated than cold ones.
* `c69_edges`: The mass at the upper edge of the last bin passes the range check and is then refused; a mass in a gap between two bins is silently given to the next bin.
* `c70_default_remembered`: Every later construction that relies on the default dictionary gets the scatter options of the first one, whatever it asks for.
* `c71_independent_draws`: With the infall-redshift, the approximate and the 2024 models the radius comes from one draw and the bound mass from another, whichever is read first.
* `c71_assigned_ignored`: The same for a bound mass assigned beforehand: with these models the radius ignores it.
* `c71_refused`: For the Milky Way model and for models without a bound mass the bound mass is refused, before and after the radius has been computed.
* `c72_splashback_not_mean`: The mean matter density at `z` is `Om0 (1 + z)³ ρc(0)`, and the critical density grows more slowly than `(1 + z)³`, so for every redshift where it does the enclosed density is below 200 times the mean density, i.e. the radius called `r200m` is too large.
* `c72_roche_zero`: Where the rounding shows: with the default parameters a halo of `10^7` solar masses closer than 0.3 pc to the host centre gets truncation radius zero.
* `c73_prescribed_mass`: Once a mass is prescribed the normalisation does depend on it: two halos that share a dictionary and have the same density profile parameters get, each evaluated first, amplitudes in the ratio of the cubes of their scale radii, but evaluated one after the other they get the same one.
* `c74_mass_in_area`: For a constant convergence the mass is that of the disc times the ratio of the numbers of pixels inside and outside the disc, rather than the mass of the disc.
* `c74_mass_overestimated`: With 20 pixels per axis (the fewest used) a constant convergence gives a mass more than twice that of the disc.
* `c76_spoiled`: A profile without closed form (outer slope four for instance) is refused, but the call spoils the table: from then on the profile used before is refused too. Another invertible profile repairs it.
* `c76_never_ends`: The total mass of the profile (2, 4, 0) is bounded: asking for more never ends.
* `c76_refused`: The other profiles for which the fits exist are always refused, whatever the arguments: those with `alpha` two because of a misspelt variable, those with outer slope four because of a pair where a number is needed. The table is never made for them, so this stays so.
* `c77_renamed`: The other case fails: with a renamed column the filter for subhalos works and the filters for halos and for virialized nodes raise an error (if there is no column with the default name).
* `c77_select`: Selecting one subhalo by its number never works.
* `c79_tilt_ignored`: The tilt `delta_power_law_index` reaches the field halos only: the subhalo mass function of two calls that differ only in it is the same, although the documentation says that it tilts both.
* `c79_wdm_default_subhalos`: With its default names the warm dark matter preset suppresses the subhalo mass function with the coefficients measured for field halos: the class is the one for the field, and the coefficients are those of `LOVELL2020`, not of `SHMF_LOVELL2020`.
* `c80_cdm_constant`: The constant concentration cannot be used in the cold dark matter preset, neither for subhalos nor for field halos, whatever else is given: the preset always adds a scatter the class does not accept.
* `c80_cdm_defaults`: With the default dictionaries (as they are after any number of calls) the cold dark matter preset works with two of the thirteen concentration models only.
* `c80_wdm_refused`: The warm dark matter preset always hands over a half-mode mass and a class for cold dark matter; four of the named models refuse them, whatever else is given.
* `c80_wdm_bose_ludlow`: Choosing `BOSE2016_LUDLOW` has no effect in the warm dark matter preset: it overwrites the class that makes the difference to `BOSE2016`.
* `c80_field_truncation`: Three of the truncation models need the concentration of the host and never get it as models for field halos, unless the caller's dictionary has it.
* `c80_prompt_cusps`: Prompt cusps cannot be requested from the warm dark matter preset: the method does not exist.
* `c82_sign`: The sign matters: a positive slope, which the error message of the mass function model asks for ("Must specify |dlogT_dlogk|"), gives a negative exponent of the transfer function, outside the domain of the fit.
* `c83_cored_loses_mass`: Hence the cored halo has less than its mass within its virial radius, as soon as `(1 - ln 2) / G(1, 1e-4)` is less than `1 + beta / c`.
* `c83_pseudo_jaffe_physical`: But the density in the dictionary of physical parameters is not a number, for every halo: scale radius and core radius are taken to be equal.
* `c83_power_law_concentration`: The field halos of this class ignore the concentration given in the profile arguments; subhalos use it.
* `c83_generalised_nfw_prescribed`: With a prescribed mass the result does depend on the transition radius: the enclosed mass is the prescribed mass times the cube of the ratio of the scale radius and the transition radius.
* `c84_density_comoving`: The same soliton - the same particle and the same core radius - is given a density that falls with redshift as (1 + z)⁻³: it is the comoving density of Schive et al., and it is used with the physical radius.
* `c84_wrong_distance`: A halo in front of or behind the main lens plane is rendered with another core radius than its own: the angle is computed with the distance of the main lens.
* `c85_wrong_equation`: The minimiser solves another equation than the one needed: even where it finds an exact zero of both constraints, with the two core radii coinciding, the halo does not have the requested mass - before or after the rescaling - unless `q = 1`. The masses are compared for a soliton multiplied by `q`, and then it is divided by `q`.
* `c85_other_plane`: The masses are evaluated with the critical density of the main lens plane. A halo at another redshift, where the critical density per square arcsecond is `sigma'`, has not the requested mass even when the code finds it exact.
* `c86_default_refused`: With its default arguments the preset never returns: fluctuations are asked for and their arguments are missing.
* `c86_sigma_sub_ignored`: `sigma_sub` has no effect unless `log10_sigma_sub`, whose default is -1, is set to `None`; the amplitude used by default is 0.1 and not 0.025.
* `c86_reference_scatter`: The concentration model of the hosts has scatter, and it is asked twice. With concentrations of 1 and 3 for the same host the amplitude for the reference lens is not the requested one.
* `c87_prescribed_replaced`: A subhalo with prescribed parameters (`TNFWFromParams`) has the mass definition of the truncated halos, and warming replaces the prescribed density; for every world there is a prescribed density that is lost.
* `c87_zinfall_assigned`: With `TruncationGalacticusZinfall` warming uses a bound mass that was assigned before, reading the profile draws a new one.
* `c87_mass_3d`: If the bound mass of a subhalo is assigned, `mass_3d` read before anything else uses the normalisation before the rescaling of the truncation model, after warming the one after it: the enclosed mass changes.
* `c87_later_rescale`: A later `rescale_normalization` is ignored after warming and not ignored, instead of the rescaling by the truncation model, without.
* `c87_class_of_dictionary`: The truncation class is taken from `kwargs_halo_model`, not from the halo. A field halo truncated at 2 scale radii is truncated at 3 after warming with a dictionary that says 3.
* `c87_host_concentration`: At a host concentration of 9 warming gives a subhalo of concentration 2 just after infall, with the variate 3.303, the whole of its mass as bound mass; reading it instead gives less.
* `c88_documented_slope_refused`: The documentation of `WDMGeneral` calls `dlogT_dlogk` the absolute value of the slope of the transfer function, calibrated between about 1 and 3. Every call with a positive value raises, whatever else is given.
* `c80_general_prompt_cusps`: The missing extension for prompt cusps refuses the option here too.
* `c80_binned`: Of the documented names for the concentration three work: the binned model, and two that accept and ignore the normalisations in the bins. All others refuse the arguments that the preset hands over, or miss one.
* `c89_sheets_doubled`: The sheets that the subhalos of the binned preset contribute, compared with those of the cold dark matter preset for the same halos. With the mass ranges of the classes both remove the same convergence. With the default arguments of `lensing_quantities` each of the two populations removes the mass of the whole range from `10^7` to `10^10`, so that twice the convergence of these halos is removed.
* `c89_los_sheets_doubled`: The same for field halos: with the default arguments of `lensing_quantities` each of the two line-of-sight populations contributes all the sheets of the cold dark matter preset.
* `c93_fine_spacing_raises`: A call of `CDM` with the default two-halo term raises for every lens plane spacing below 0.005, whatever the other arguments and the random numbers: the thickness of the slice at the lens is rounded to zero and the boost of the two-halo term becomes zero divided by zero.
* `c94_evolving_profile_undefined`: The code has a branch for the mass definition `TNFWC_SIDM`, but the class it names is not defined in the module: every such row raises `NameError`.
* `c94_generalised_profile_renamed`: The objects made for the mass definition `GNFW` report another one, `PSEUDO_DPL`, which is not accepted: from the arrays of such a realization no realization can be made.
* `c95_default_profile_raises`: With its default profile, `SIDM_core_collapse` raises as soon as one halo collapses, unless the undeclared keyword `x_core_halo` is given.
* `c96_empty`: A call whose cold dark matter part has no halo raises an index error, although the unresolved halos do not depend on it.
* `c96_unresolved_below_minimum`: If the mass ratio takes the halo resolution limit below the minimum black-hole mass (with the defaults: a ratio below 10^-1.5), every black hole of an unresolved halo is lighter than the minimum to render.
* `c81_join_loses_subhalos`: The subhalos from outside have one tag between them. If a realization holds one of them and nothing else, joining the result with it, which ought to change nothing (C06), removes every other one.
* `c81_amplitude_kept`: With a logarithmic amplitude the preset renders its own subhalos as if nothing had been overwritten.
* `c81_emulator_no_sheets`: The result has no sheets of negative convergence, whatever is asked for, although the realization of the preset for the line of sight has them.
* `c81_emulator_extra_subhalos`: The preset for the line of sight renders its subhalos as well, so that there are more subhalos than the emulator has.
* `c100_default_raises`: 0 is not met by the defaults: a call with fluctuations and without `flucs_args` raises, though both are defaults.
* `c101_milky_way_pole`: 1, disagreement: the mean of the classes for 30 and 50 kpc has a pole inside the calibrated range of mass ratios, so that there are subhalos whose mean infall redshift is beyond any bound.
* `c104_deflector_behind_source`: 4 (what the code does with a deflector behind the source). The source position is then forced on the last deflector, with the wrong distance, while the ray passes the source where lenstronomy puts it.
* `c105_negative_area`: 5 (what the code does with a large inner radius and no outer one). The area is negative as soon as the excluded disc is larger than the square of grid points, although the mask leaves pixels outside of the disc; by `c105_zero_separation` the map is then fully anticorrelated with itself.
* `c106_one_sided`: 6 (what the code does with cosines on one side of zero). The integrand is paired with the angles in the wrong order. For the cosines 0, 1/2 and 1, a constant correlation function of one and Simpson's rule for the angles 0, π/3 and π/2, the dipole is 3/8 where the rule applied to the cosine of the angle gives 5/8.
* `c108_default_raises`: 8 (what the code does with the default arguments). Without `kwargs_halo_model` no halo of any kind can be made: the call raises a `KeyError`.
* `c108_join_reversed`: 8 (what the code does the other way round). `single.join(realization)` keeps the settings of the single halo: the result has no mass sheets, whatever the realization had.
* `c110_last_slice_missing`: Where the code violates C110: the last slice before the source is left out, so the total is below the volume of the region in which halos are rendered.
* `c111_half_of_documented`: Where the code differs from its documentation: the time is documented as twice the virial radius over the velocity, the factor two is missing for every host.
* `c114_odd_vanishes`: 4. For every odd order the returned power spectrum is zero at every wavenumber, whatever the correlation function: the factor `(-i)^l` is imaginary and only the real part is returned.
* `c116_half_of_documented`: 6. The documentation says that each axis spans twice the given angle. It spans the angle itself: two lens models that agree within half the angle of the centre along each axis give the same map, whatever they are beyond.
* `c118_scale_jumps`: 8. After collapse the scale radius shrinks with time (`c33_contracts`), but at the collapse time it jumps up: shortly after it the scale radius is larger than at it.
* `c118_core_jumps`: 8. At the collapse time the core radius drops at once by more than five percent.
* `c120_lowest_bin_lost`: 0. The share of the lowest bin is lost: from any number of zeros and a single one, every sample drawn is above 0.99, although almost all of the given samples are zero.
<!-- end -->
