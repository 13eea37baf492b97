c12_at_most_once_fails c12_original_shifts_again c14_eq_not_symmetric c17_swapped c17_requested_profile_fails
c18_lens_plane_missing c18_zero_thickness c18_plane_behind_source c18_empty_cone_raises
c23_milky_way_mean_negative c27_tiny_leading_coefficient c28_near_limit c29_negative_redshift c29_history_matters
c30_zinfall_extrapolates c30_keeley_grows c30_keeley_not_clamped c30_tau_extrapolates c31_mass_loss_differs c31_ages_out_of_range
c32_late_formation_fails c32_infall_zero c34_nfw_refused c34_cross_section_needs_nfw c34_requested_ratio_exceeded c34_composite_ratio
c36_shared_dictionary c36_infall_state c36_cored_ignores_indexes c37_forgets_shift
c38_fluctuations_misassigned c38_ring_not_even c39_subresolution_below_minimum c39_subresolution_cut
c40_positions_ignored c40_clustered_positions c40_clustered_lost c40_factor_of_last_plane c40_not_rescaled
c41_one_tree c43_radius_of_maximum_cored c44_radius_negative c45_black_hole c45_black_hole_reads c45_projected_mass
c46_direct_infall c46_caller_dictionary c47_wdm_both c48_emulator c49_array_differs c50_stale c50_hybrid c57_r3d_below_projected
c64_mass_3d_changes c64_vmax_stale c64_density_ignores_factor c66_rescaled c68_redshift_factor c69_edges c70_default_remembered
c71_independent_draws c71_assigned_ignored c71_refused c72_splashback_not_mean c72_roche_zero c73_prescribed_mass
c74_mass_in_area c74_mass_overestimated c76_spoiled c76_never_ends c76_refused c77_renamed c77_select
c79_tilt_ignored c79_wdm_default_subhalos c80_cdm_constant c80_cdm_defaults c80_wdm_refused c80_wdm_bose_ludlow c80_field_truncation c80_prompt_cusps
c82_sign c83_cored_loses_mass c83_pseudo_jaffe_physical c83_power_law_concentration c83_generalised_nfw_prescribed
c84_density_comoving c84_wrong_distance c85_wrong_equation c85_other_plane c86_default_refused c86_sigma_sub_ignored c86_reference_scatter
c87_prescribed_replaced c87_zinfall_assigned c87_mass_3d c87_later_rescale c87_class_of_dictionary c87_host_concentration
c88_documented_slope_refused c80_general_prompt_cusps c80_binned c89_sheets_doubled c89_los_sheets_doubled
c93_fine_spacing_raises
c94_evolving_profile_undefined c94_generalised_profile_renamed c95_default_profile_raises
c96_empty
c96_unresolved_below_minimum
c81_join_loses_subhalos
c81_amplitude_kept
c81_emulator_no_sheets
c81_emulator_extra_subhalos
c100_default_raises
c101_milky_way_pole
c104_deflector_behind_source
c105_negative_area
c106_one_sided
c108_default_raises
c108_join_reversed
c110_last_slice_missing
c111_half_of_documented
c114_odd_vanishes
c116_half_of_documented
c118_scale_jumps
c118_core_jumps
c120_lowest_bin_lost
