# Axioms of the theorems

Output of `#print axioms` for every theorem of `MANIFEST.json`. The three axioms that occur are those of Lean itself:
`propext` (P), `Classical.choice` (C) and `Quot.sound` (Q).

## C01

* `Obscura.C01_constructors`: P C Q
* `Obscura.C01_default_constructors`: P C Q
* `Obscura.C01_set_sigma_proton`: P C Q
* `Obscura.C01_set_sigma_neutron`: P C Q
* `Obscura.C01_excluded_nucleon_stays_zero`: P C Q
* `Obscura.C01_set_sigma_electron`: P C Q
* `Obscura.C01_interaction_parameter`: P C Q
* `Obscura.C01_unknown_target_exits`: P C Q
* `Obscura.C01_negative_sigma_nonfinite`: P C Q

## C02

* `Obscura.C02_set_mass_fixed_partial`: P C Q
* `Obscura.C02_set_mass_unfixed`: P C Q
* `Obscura.C02_fails_after_C03`: P C Q
* `Obscura.C02_fails_relative_sign`: P C Q

## C03

* `Obscura.C03_ratio_honoured_partial`: P C Q
* `Obscura.C03_fails`: P C Q

## C04

* `Obscura.C04_idempotent_partial`: P C Q
* `Obscura.C04_fails`: P C Q
* `Obscura.C04_first_call_moves_strength`: P C Q
* `Obscura.C04_opposite_ratio_nonfinite`: P C Q

## C05

* `Obscura.C05_save_restore_fixed_partial`: P C Q
* `Obscura.C05_save_restore_unfixed_partial`: P C Q
* `Obscura.C05_fails`: P C Q

## C06

* `Obscura.C06_total_nucleus_low_mass`: P C Q
* `Obscura.C06_total_nucleus_heavy`: P C Q
* `Obscura.C06_total_electron`: P C Q
* `Obscura.C06_total_electron_base`: P C Q
* `Obscura.C06_divergent_rejected`: P C Q
* `Obscura.C06_general_massless_not_rejected`: P C Q
* `Obscura.C06_v_independence_sound`: P C Q

## C07

* `Obscura.C07_total_SD`: P C Q
* `Obscura.C07_spinless_transparent`: P C Q

## C08

* `Obscura.C08_nucleus_SI`: P C Q
* `Obscura.C08_nucleus_SD`: P C Q
* `Obscura.C08_electron`: P C Q
* `Obscura.C08_nucleus_heavy`: P C Q
* `Obscura.C08_pdf_is_normalised_dsigma`: P C Q
* `Obscura.C08_divergent_rejected`: P C Q

## C09

* `Obscura.C09_radius_positive`: P C Q
* `Obscura.C09_helm_bounded`: P C Q
* `Obscura.C09_no_enhancement`: P C Q
* `Obscura.C09_dsigma_nonneg`: P C Q

## C10

* `Obscura.C10_normalised_at_qRef`: P C Q
* `Obscura.C10_nonneg`: P C Q
* `Obscura.C10_antitone`: P C Q
* `Obscura.C10_general_between`: P C Q
* `Obscura.C10_limits`: P C Q

## C11

* `Obscura.C11_hydrogen_SI`: P C Q
* `Obscura.C11_hydrogen_SD`: P C Q
* `Obscura.C11_neutron_SI`: P C Q
* `Obscura.C11_default_isotope_is_proton`: P C Q
* `Obscura.C11_A_squared_scaling`: P C Q
* `Obscura.C11_fixed_ratio_scaling`: P C Q
* `Obscura.C11_fixed_ratio_scaling_SD`: P C Q

## C12

* `Obscura.C12_galois`: P C Q
* `Obscura.C12_inverse`: P C Q
* `Obscura.C12_strictMono`: P C Q
* `Obscura.C12_head_on`: P C Q

## C13

* `Obscura.C13_minimal_speed`: P C Q
* `Obscura.C13_momentum_range`: P C Q
* `Obscura.C13_range_complete`: P C Q
* `Obscura.C13_monotone_in_energy`: P C Q

## C14

* `Obscura.C14_above_elastic`: P C Q
* `Obscura.C14_range_complete`: P C Q

## C15

* `Obscura.C15_zero_outside`: P C Q
* `Obscura.C15_nonneg_partial`: P C Q
* `Obscura.C15_pos_partial`: P C Q
* `Obscura.C15_fails`: P C Q
* `Obscura.C15_fails_default`: P C Q

## C16

* `Obscura.C16_cdf`: P C Q
* `Obscura.C16_range`: P C Q
* `Obscura.C16_normalised`: P C Q

## C17

* `Obscura.C17_accuracy`: P C Q
* `Obscura.C17_eta_partial`: P C Q
* `Obscura.C17_antitone`: P C Q
* `Obscura.C17_window`: P C Q
* `Obscura.C17_above`: P C Q
* `Obscura.C17_fails_window`: P C Q
* `Obscura.C17_fails_slow_observer`: P C Q

## C18

* `Obscura.C18_setters`: P C Q
* `Obscura.C18_domain`: P C Q
* `Obscura.C18_fails_default`: P C Q
* `Obscura.C18_default_partial`: P C Q

## C19

* `Obscura.C19_distributions_partial`: P C Q
* `Obscura.C19_eta_stale`: P C Q
* `Obscura.C19_set_eta_partial`: P C Q
* `Obscura.C19_fails`: P C Q
* `Obscura.C19_constructors`: P C Q

## C20

* `Obscura.C20_combination`: P C Q
* `Obscura.C20_no_sausage`: P C Q
* `Obscura.C20_eta_below`: P C Q

## C21

* `Obscura.C21_angular_partial`: P C Q
* `Obscura.C21_fails`: P C Q
* `Obscura.C21_base_class_isotropic`: P C Q
* `Obscura.C21_base_class_halo_partial`: P C Q

## C22

* `Obscura.C22_flux`: P C Q
* `Obscura.C22_mean_in_domain`: P C Q
* `Obscura.C22_conditional_mean`: P C Q
* `Obscura.C22_cut_rejected`: P C Q
* `Obscura.C22_cdf`: P C Q
* `Obscura.C22_cdf_monotone`: P C Q
* `Obscura.C22_eta`: P C Q
* `Obscura.C22_imported_pdf`: P C Q
* `Obscura.C22_imported_eta`: P C Q
* `Obscura.C22_halo`: P C Q
* `Obscura.C22_halo_plus_plus`: P C Q
* `Obscura.C22_norm`: P C Q

## C23

* `Obscura.C23_isometry`: P C Q
* `Obscura.C23_inverse`: P C Q
* `Obscura.C23_orientation`: P C Q
* `Obscura.C23_poles`: P C Q
* `Obscura.C23_ecliptic`: P C Q
* `Obscura.C23_precession`: P C Q
* `Obscura.C23_pole_of_date`: P C Q

## C24

* `Obscura.C24_epoch_and_time`: P C Q
* `Obscura.C24_julian_partial`: P C Q
* `Obscura.C24_next_day_partial`: P C Q
* `Obscura.C24_count_partial`: P C Q
* `Obscura.C24_fails`: P C Q

## C25

* `Obscura.C25_range_partial`: P C Q
* `Obscura.C25_modulo_day_partial`: P C Q
* `Obscura.C25_sidereal_day`: P C Q
* `Obscura.C25_formula`: P C Q
* `Obscura.C25_accuracy`: P C Q
* `Obscura.C25_fails`: P C Q

## C26

* `Obscura.C26_sun`: P C Q
* `Obscura.C26_orbit`: P C Q
* `Obscura.C26_orbital_speed`: P C Q

## C27

* `Obscura.C27_one_entry_per_bin`: P C Q
* `Obscura.C27_unbinned_calls`: P C Q
* `Obscura.C27_binned_calls_rejected`: P C Q
* `Obscura.C27_binned_calls_accepted`: P C Q
* `Obscura.C27_use_energy_bins`: P C Q
* `Obscura.C27_use_energy_threshold`: P C Q
* `Obscura.C27_use_maximum_gap`: P C Q
* `Obscura.C27_no_undefined_behaviour_partial`: P C Q
* `Obscura.C27_fails`: P C Q
* `Obscura.C27_negative_bins`: P C Q

## C28

* `Obscura.C28_observed_total_iff`: P C Q
* `Obscura.C28_observed_total_partial`: P C Q
* `Obscura.C28_fails`: P C Q
* `Obscura.C28_background_total`: P C Q

## C29

* `Obscura.C29_maximum_gap`: P C Q
* `Obscura.C29_maximum_gap_distribution`: P C Q
* `Obscura.C29_poisson_value`: P C Q
* `Obscura.C29_binned_value`: P C Q
* `Obscura.C29_range`: P C Q
* `Obscura.C29_binned_range`: P C Q
* `Obscura.C29_poisson_strictly_decreasing`: P C Q
* `Obscura.C29_binned_decreasing`: P C Q
* `Obscura.C29_fails_without_bins`: P C Q

## C30

* `Obscura.C30_poisson_tolerance_partial`: P C Q
* `Obscura.C30_binned_tolerance_partial`: P C Q
* `Obscura.C30_maximum_gap_partial`: P C Q
* `Obscura.C30_poisson_partial`: P C Q
* `Obscura.C30_binned_partial`: P C Q
* `Obscura.C30_fails_flat`: P C Q
* `Obscura.C30_fails_zero_coupling`: P C Q

## C31

* `Obscura.C31_upper_limit_partial`: P C Q
* `Obscura.C31_upper_limit_trace`: P C Q
* `Obscura.C31_curve_trace`: P C Q
* `Obscura.C31_curve_partial`: P C Q
* `Obscura.C31_scan_trace`: P C Q
* `Obscura.C31_scan_partial`: P C Q
* `Obscura.C31_fails_relative_sign`: P C Q

## C32

* `Obscura.C32_rescaling_exact_partial`: P C Q
* `Obscura.C32_fails_zero_coupling`: P C Q
* `Obscura.C32_fails_unfixed`: P C Q

## C33

* `Obscura.C33_curve`: P C Q
* `Obscura.C33_curve_exists`: P C Q

## C34

* `Obscura.C34_maximum_gap_log`: P C Q
* `Obscura.C34_log_likelihood`: P C Q
* `Obscura.C34_profiled`: P C Q
* `Obscura.C34_given_background`: P C Q
* `Obscura.C34_log_likelihood_binned`: P C Q
* `Obscura.C34_maximum_gap`: P C Q
* `Obscura.C34_likelihood`: P C Q
* `Obscura.C34_fails_nothing_expected`: P C Q

## C35

* `Obscura.C35_scan`: P C Q
* `Obscura.C35_scan_exists`: P C Q
* `Obscura.C35_scan_length`: P C Q

## C36

* `Obscura.C36_specification`: P C Q
* `Obscura.C36_distribution_partial`: P C Q
* `Obscura.C36_distribution_exact`: P C Q
* `Obscura.C36_distribution_two_terms`: P C Q
* `Obscura.C36_fails_equal_gaps`: P C Q
* `Obscura.C36_p_value_partial`: P C Q
* `Obscura.C36_fails_single_event`: P C Q
* `Obscura.C36_fails_p_value_equal_gaps`: P C Q

## C37

* `Obscura.C37_bin_signals`: P C Q
* `Obscura.C37_partition`: P C Q
* `Obscura.C37_total_is_sum`: P C Q
* `Obscura.C37_configured`: P C Q
* `Obscura.C37_signal_rate`: P C Q

## C38

* `Obscura.CrystalDetector.C38_crystal_energy_threshold`: P C Q
* `Obscura.CrystalDetector.C38_crystal_energy_bins`: P C Q
* `Obscura.CrystalDetector.C38_crystal_q_threshold_partial`: P C Q
* `Obscura.CrystalDetector.C38_crystal_q_bins_partial`: P C Q
* `Obscura.CrystalDetector.C38_fails_crystal_threshold`: P C Q
* `Obscura.CrystalDetector.C38_fails_crystal_bins`: P C Q
* `Obscura.CrystalDetector.C38_fails_crystal_uninitialised`: P C Q
* `Obscura.C38_not_binned`: P C Q
* `Obscura.C38_total_of_bins`: P C Q
* `Obscura.C38_crystal_maximum_gap`: P C Q
* `Obscura.C38_fails_ionization_maximum_gap`: P C Q
* `Obscura.CrystalDetector.C38_crystal_history_q_threshold_partial`: P C Q
* `Obscura.CrystalDetector.C38_crystal_history_q_bins_partial`: P C Q
* `Obscura.CrystalDetector.C38_crystal_history_energy`: P C Q
* `Obscura.IonizationDetector.C38_ionization_history_electron_threshold`: P C Q
* `Obscura.IonizationDetector.C38_ionization_history_pe_threshold`: P C Q
* `Obscura.IonizationDetector.C38_ionization_history_electron_bins_partial`: P C Q
* `Obscura.IonizationDetector.C38_ionization_history_pe_bins_partial`: P C Q
* `Obscura.IonizationDetector.C38_ionization_history_energy_threshold_partial`: P C Q
* `Obscura.IonizationDetector.C38_ionization_history_energy_bins`: P C Q
* `Obscura.IonizationDetector.C38_electron_bins_partial`: P C Q
* `Obscura.IonizationDetector.C38_fails_electron_bins`: P C Q
* `Obscura.IonizationDetector.C38_ionization_energy_bins`: P C Q
* `Obscura.IonizationDetector.C38_ionization_energy_threshold_partial`: P C Q
* `Obscura.IonizationDetector.C38_fails_ionization_threshold`: P C Q
* `Obscura.IonizationDetector.C38_ionization_no_choice`: P C Q

## C39

* `Obscura.IonizationDetector.C39_ionization`: P C Q
* `Obscura.C39_ratios`: P C Q
* `Obscura.C39_given_fractions`: P C Q
* `Obscura.C39_too_few_ratios`: P C Q
* `Obscura.C39_fails`: P C Q
* `Obscura.C39_massless`: P C Q

## C40

* `Obscura.C40_set_resolution`: P C Q
* `Obscura.C40_rate`: P C Q
* `Obscura.C40_nonneg`: P C Q
* `Obscura.C40_density`: P C Q
* `Obscura.C40_linear`: P C Q
* `Obscura.C40_additive`: P C Q
* `Obscura.C40_fails_below_threshold`: P C Q

## C41

* `Obscura.C41_above_deposit`: P C Q
* `Obscura.C41_deposit_attained`: P C Q
* `Obscura.C41_below_minimum_mass_partial`: P C Q
* `Obscura.C41_minimum_mass_attained`: P C Q
* `Obscura.C41_minimum_speed`: P C Q
* `Obscura.C41_fails_resolution`: P C Q
* `Obscura.C41_fails_negative_mass`: P C Q
* `Obscura.C41_fails_no_target`: P C Q

## C42

* `Obscura.C42_crystal`: P C Q
* `Obscura.C42_rate_between`: P C Q
* `Obscura.C42_crystal_between`: P C Q
* `Obscura.C42_electron_recoil_between`: P C Q
* `Obscura.C42_standard_halo_between`: P C Q
* `Obscura.C42_migdal_between`: P C Q
* `Obscura.C42_standard_halo_regular`: P C Q
* `Obscura.C42_electron_recoil`: P C Q
* `Obscura.C42_electron_recoil_closed`: P C Q
* `Obscura.C42_migdal`: P C Q
* `Obscura.C42_atoms`: P C Q
* `Obscura.C42_rate`: P C Q
* `Obscura.C42_methods_agree`: P C Q
* `Obscura.C42_standard_halo_partial`: P C Q
* `Obscura.C42_fails_imported`: P C Q

## C43

* `Obscura.C43_pairs`: P C Q
* `Obscura.C43_round_trip`: P C Q
* `Obscura.C43_qmax`: P C Q
* `Obscura.C43_overflow`: P C Q

## C44

* `Obscura.C44_contents`: P C Q
* `Obscura.C44_partition`: P C Q
* `Obscura.C44_overflow`: P C Q

## C45

* `Obscura.CrystalDetector.C45_signals_partial`: P C Q
* `Obscura.CrystalDetector.C45_default_bins`: P C Q
* `Obscura.CrystalDetector.C45_fails_threshold`: P C Q
* `Obscura.CrystalDetector.C45_fails_zero`: P C Q
* `Obscura.CrystalDetector.C45_fails_wrap`: P C Q

## C46

* `Obscura.CrystalDetector.C46_fails_crystal`: P C Q
* `Obscura.C46_fails_ionization`: P C Q
* `Obscura.C46_nuclear_fraction`: P C Q

## C47

* `Obscura.C47_distribution`: P C Q
* `Obscura.C47_binomial`: P C Q
* `Obscura.C47_failures`: P C Q

## C48

* `Obscura.IonizationDetector.C48_direct_partial`: P C Q
* `Obscura.IonizationDetector.C48_direct_shell_partial`: P C Q
* `Obscura.IonizationDetector.C48_bin_partial`: P C Q
* `Obscura.IonizationDetector.C48_zero_width`: P C Q
* `Obscura.IonizationDetector.C48_import`: P C Q
* `Obscura.IonizationDetector.C48_fails_threshold`: P C Q
* `Obscura.IonizationDetector.C48_fails_bins`: P C Q
* `Obscura.IonizationDetector.C48_efficiency`: P C Q

## C49

* `Obscura.IonizationDetector.C49_window_partial`: P C Q
* `Obscura.IonizationDetector.C49_accepted`: P C Q
* `Obscura.IonizationDetector.C49_fails_single`: P C Q

## C50

* `Obscura.IonizationDetector.C50_electron_threshold`: P C Q
* `Obscura.IonizationDetector.C50_energy_threshold_partial`: P C Q
* `Obscura.IonizationDetector.C50_electron_bins_partial`: P C Q
* `Obscura.IonizationDetector.C50_energy_bins_partial`: P C Q
* `Obscura.IonizationDetector.C50_electron_recoil`: P C Q
* `Obscura.IonizationDetector.C50_migdal`: P C Q
* `Obscura.IonizationDetector.C50_fails_stale_threshold`: P C Q
* `Obscura.IonizationDetector.C50_fails_ionization`: P C Q

## C51

* `Obscura.C51_get_nucleus`: P C Q
* `Obscura.C51_get_nucleus_by_name`: P C Q
* `Obscura.C51_get_isotope`: P C Q
* `Obscura.C51_missing_file`: P C Q
* `Obscura.C51_shipped_table`: P C Q
* `Obscura.C51_isotope_constructor`: P C Q

## C52

* `Obscura.C52_short_names_partial`: P C Q
* `Obscura.C52_fails_long_names`: P C Q
* `Obscura.C52_other_names`: P C Q
* `Obscura.C52_missing_table`: P C Q
* `Obscura.C52_electron`: P C Q
* `Obscura.C52_lowest_energy`: P C Q
* `Obscura.C52_lowest_energies`: P C Q
* `Obscura.C52_custom`: P C Q

## C53

* `Obscura.C53_particle_partial`: P C Q
* `Obscura.C53_fails_isovector`: P C Q
* `Obscura.C53_missing_setting`: P C Q
* `Obscura.C53_invalid_values`: P C Q
* `Obscura.C53_unknown_words`: P C Q

## C54

* `Obscura.C54_other_ranks`: P C Q
* `Obscura.C54_unusable_file`: P C Q
* `Obscura.C54_written_places_partial`: P C Q
* `Obscura.C54_outside_results_partial`: P C Q
* `Obscura.C54_input_kept_partial`: P C Q
* `Obscura.C54_copy_partial`: P C Q
* `Obscura.C54_fails_alias`: P C Q
* `Obscura.C54_fails_traversal`: P C Q

## C55

* `Obscura.C55_units`: P C Q
* `Obscura.C55_nuclear`: P C Q
* `Obscura.C55_electron_recoil`: P C Q
* `Obscura.C55_migdal_partial`: P C Q
* `Obscura.C55_crystal`: P C Q
* `Obscura.C55_unknown`: P C Q
* `Obscura.C55_no_string`: P C Q
* `Obscura.C55_fails_LZ`: P C Q
* `Obscura.C55_fails_migdal_names`: P C Q

## C56

* `Obscura.C56_construction_partial`: P C Q
* `Obscura.C56_signals_crystal`: P C Q
* `Obscura.C56_signals_electrons_partial`: P C Q
* `Obscura.C56_signals_nuclear`: P C Q
* `Obscura.C56_fails_photoelectrons`: P C Q
* `Obscura.C56_fails_missing_silicon`: P C Q
* `Obscura.C56_fails_photoelectrons_migdal`: P C Q
* `Obscura.C56_halo_models`: P C Q

## C57

* `Obscura.C57_construction`: P C Q
* `Obscura.C57_grid`: P C Q
* `Obscura.C57_outside`: P C Q
* `Obscura.C57_inside`: P C Q

## C58

* `Obscura.C58_same_measure`: P C Q
* `Obscura.C58_integrates_to_total`: P C Q

## C59

* `Obscura.C59_nonneg`: P C Q
* `Obscura.C59_cdf`: P C Q
* `Obscura.C59_normalised`: P C Q
* `Obscura.C59_shape`: P C Q
* `Obscura.C59_eta`: P C Q

## C60

* `Obscura.C60_average_mass`: P C Q
* `Obscura.C60_abundances_partial`: P C Q
* `Obscura.C60_fails`: P C Q

## C61

* `Obscura.C61_efficiency`: P C Q
* `Obscura.C61_fails_second_table`: P C Q

## C62

* `Obscura.C62_low_mass_electrons`: P C Q
* `Obscura.C62_low_mass_spin`: P C Q
* `Obscura.C62_low_mass_migdal`: P C Q
* `Obscura.C62_low_mass_limit`: P C Q
* `Obscura.C62_low_mass_limit_binned`: P C Q
* `Obscura.C62_spin_signals`: P C Q
* `Obscura.C62_spin`: P C Q
* `Obscura.C62_fraction`: P C Q
* `Obscura.C62_low_mass`: P C Q
* `Obscura.C62_form_factor`: P C Q
* `Obscura.C62_unknown_form_factor`: P C Q
* `Obscura.C62_mediator_mass`: P C Q
* `Obscura.C62_unfix`: P C Q

## C63

* `Obscura.C63_crystal_above_deposit`: P C Q
* `Obscura.C63_crystal_deposit_attained`: P C Q
* `Obscura.C63_crystal_minimum_mass`: P C Q
* `Obscura.C63_crystal_minimum_speed`: P C Q
* `Obscura.IonizationDetector.C63_ionization_above_deposit`: P C Q
* `Obscura.IonizationDetector.C63_ionization_deposit_attained`: P C Q
* `Obscura.IonizationDetector.C63_ionization_gap`: P C Q
* `Obscura.IonizationDetector.C63_ionization_minimum_speed`: P C Q
* `Obscura.IonizationDetector.C63_ionization_minimum_mass`: P C Q

## C64

* `Obscura.CrystalDetector.C64_crystal`: P C Q
* `Obscura.IonizationDetector.C64_ionization`: P C Q

## C65

* `Obscura.C65_shell`: P C Q
* `Obscura.IonizationDetector.C65_detector`: P C Q
* `Obscura.IonizationDetector.C65_energy_spectrum`: P C Q

## C66

* `Obscura.C66_defined`: P C Q
* `Obscura.C66_form_factor`: P C Q
* `Obscura.C66_outside`: P C Q
* `Obscura.C66_invalid`: P C Q
* `Obscura.C66_small_momenta`: P C Q
* `Obscura.C66_tabulated`: P C Q
* `Obscura.C66_tabulated_lowest`: P C Q

## C67

* `Obscura.IonizationDetector.C67_ionization_partial`: P C Q
* `Obscura.IonizationDetector.C67_fails_ionization`: P C Q

## C68

* `Obscura.C68_isotope`: P C Q
* `Obscura.C68_nuclear_recoil`: P C Q
* `Obscura.C68_crystal`: P C Q
* `Obscura.C68_electron_recoil_eta`: P C Q
* `Obscura.C68_migdal_eta`: P C Q
* `Obscura.C68_electron_recoil`: P C Q
* `Obscura.C68_migdal`: P C Q
* `Obscura.IonizationDetector.C68_dRdE`: P C Q
* `Obscura.IonizationDetector.C68_spectrum`: P C Q
* `Obscura.IonizationDetector.C68_electron_threshold`: P C Q
* `Obscura.IonizationDetector.C68_energy_threshold`: P C Q

## C69

* `Obscura.C69_standard_halo_partial`: P C Q
* `Obscura.C69_halo_plus_plus`: P C Q
* `Obscura.C69_tabulated`: P C Q
* `Obscura.C69_other_files`: P C Q
* `Obscura.C69_fails_fast_observer`: P C Q

## C70

* `Obscura.C70_nuclear`: P C Q
* `Obscura.C70_nuclear_invalid_partial`: P C Q
* `Obscura.C70_ionization`: P C Q
* `Obscura.C70_ionization_unknown`: P C Q
* `Obscura.C70_semiconductor`: P C Q
* `Obscura.C70_missing_setting`: P C Q
* `Obscura.C70_fails_no_targets`: P C Q

## C71

* `Obscura.C71_parameters`: P C Q
* `Obscura.C71_object`: P C Q

## C72

* `Obscura.C72_velocity_distribution`: P C Q
* `Obscura.C72_mean`: P C Q
* `Obscura.C72_default`: P C Q
* `Obscura.C72_shmpp_velocity_distribution`: P C Q
* `Obscura.C72_shmpp_mean`: P C Q
* `Obscura.C72_imported`: P C Q

## C73

* `Obscura.C73_pdf_rows`: P C Q
* `Obscura.C73_eta_rows`: P C Q
* `Obscura.C73_log_rows_partial`: P C Q
* `Obscura.C73_log_eta_rows_partial`: P C Q
* `Obscura.C73_log_grid`: P C Q
* `Obscura.C73_fails_log_scale`: P C Q
* `Obscura.C73_import`: P C Q
* `Obscura.C73_import_empty`: P C Q
* `Obscura.C73_round_trip`: P C Q

## C74

* `Obscura.C74_fails_no_argument`: P C Q
* `Obscura.C74_first_argument`: P C Q
* `Obscura.C74_unusable_file`: P C Q
* `Obscura.C74_percentage`: P C Q
* `Obscura.C74_fails_percentage`: P C Q
* `Obscura.C74_different_files`: P C Q
* `Obscura.C74_regular_end`: P C Q
* `Obscura.C74_written_places_partial`: P C Q
* `Obscura.C74_failed_run_partial`: P C Q
* `Obscura.C74_outside_results_partial`: P C Q
* `Obscura.C74_other_runs_partial`: P C Q
* `Obscura.C74_constraints_partial`: P C Q
* `Obscura.C74_fails_shared_name`: P C Q
* `Obscura.C74_limits_partial`: P C Q

## C75

* `Obscura.C75_standard_halo`: P C Q
* `Obscura.C75_ionization`: P C Q
* `Obscura.C75_semiconductor`: P C Q
* `Obscura.C75_nuclear_partial`: P C Q
* `Obscura.C75_fails_zero_threshold`: P C Q

## C76

* `Obscura.C76_ionization_partial`: P C Q
* `Obscura.C76_semiconductor_partial`: P C Q
* `Obscura.C76_nuclear_partial`: P C Q
* `Obscura.C76_fails_light_mediator`: P C Q

## C77

* `Obscura.C77_nuclear_partial`: P C Q
* `Obscura.C77_fails_electrons`: P C Q
* `Obscura.C77_fails_electrons_p_value`: P C Q
* `Obscura.C77_nuclear_limit_partial`: P C Q

## C78

* `Obscura.C78_total`: P C Q
* `Obscura.C78_recoil`: P C Q
* `Obscura.C78_nucleus`: P C Q
* `Obscura.C78_electron`: P C Q
* `Obscura.C78_angle_momentum`: P C Q
* `Obscura.C78_fails_no_scattering`: P C Q
* `Obscura.C78_standard`: P C Q
* `Obscura.C78_set_mass`: P C Q

## C79

* `Obscura.C79_predictions`: P C Q
* `Obscura.C79_order`: P C Q
* `Obscura.C79_last_value`: P C Q

## C80

* `Obscura.C80_proportional`: P C Q
* `Obscura.C80_rate`: P C Q
* `Obscura.C80_history`: P C Q
* `Obscura.C80_history_ionization`: P C Q
* `Obscura.C80_history_crystal`: P C Q

## C81

* `Obscura.C81_manual_partial`: P C Q
* `Obscura.C81_fails_incomplete`: P C Q
* `Obscura.C81_fails_parameters`: P C Q
* `Obscura.C81_other_processes`: P C Q
* `Obscura.C81_fails_every_process`: P C Q
* `Obscura.C81_nuclear_partial`: P C Q
* `Obscura.C81_fails_few_abundances`: P C Q
* `Obscura.C81_ionization_partial`: P C Q
* `Obscura.C81_fails_energy_then_electrons`: P C Q
* `Obscura.C81_fails_photoelectrons_then_electrons`: P C Q
* `Obscura.C81_crystal_partial`: P C Q
* `Obscura.C81_fails_no_q_threshold`: P C Q
* `Obscura.C81_configured_partial`: P C Q
* `Obscura.C81_fails_experiments`: P C Q
* `Obscura.C81_fails_runs`: P C Q

## C82

* `Obscura.C82_particle`: P C Q
* `Obscura.C82_halo`: P C Q
* `Obscura.C82_normalization_warning`: P C Q
* `Obscura.C82_targets`: P C Q
* `Obscura.C82_detector_partial`: P C Q
* `Obscura.C82_fails_stale_bins`: P C Q
* `Obscura.C82_nuclear`: P C Q
* `Obscura.C82_ionization`: P C Q
* `Obscura.C82_crystal`: P C Q
* `Obscura.C82_configuration`: P C Q

## C83

* `Obscura.C83_number_of_isotopes`: P C Q
* `Obscura.C83_pure_partial`: P C Q
* `Obscura.C83_fails_natural_abundance`: P C Q
* `Obscura.C83_fails_charge`: P C Q
* `Obscura.C83_mixture_partial`: P C Q
* `Obscura.C83_mixture_bounds`: P C Q
* `Obscura.C83_fails_mixture`: P C Q
* `Obscura.C83_thomas_fermi`: P C Q

## C84

* `Obscura.C84_no_mechanism`: P C Q
* `Obscura.C84_default_constructors`: P C Q
* `Obscura.C84_single_atom`: P C Q
* `Obscura.C84_mixture`: P C Q
* `Obscura.C84_fails_nuclear`: P C Q
* `Obscura.C84_fails_ionization`: P C Q
* `Obscura.C84_fails_crystal`: P C Q

## C85

* `Obscura.C85_default_halo`: P C Q
* `Obscura.C85_electron_recoil_limit`: P C Q
* `Obscura.C85_nuclear_recoil_spectrum`: P C Q

## C86

* `Obscura.NuclearText.C86_reads_the_table`: P C Q
* `Obscura.NuclearText.C86_lookup`: P C Q
* `Obscura.NuclearText.C86_cut_file_partial`: P C Q
* `Obscura.NuclearText.C86_fails_malformed_row`: P C Q
* `Obscura.NuclearText.C86_shipped_file`: P C Q
* `Obscura.NuclearText.C86_fails_cut_number`: P C Q

## C87

* `Obscura.C87_comparison`: P C Q
* `Obscura.C87_comparison_binned`: P C Q
* `Obscura.C87_value`: P C Q
* `Obscura.C87_data`: P C Q
* `Obscura.C87_exposure`: P C Q
* `Obscura.C87_no_events`: P C Q
* `Obscura.C87_starting_point`: P C Q
* `Obscura.C87_value_binned`: P C Q
* `Obscura.C87_data_binned`: P C Q
* `Obscura.C87_exposure_binned`: P C Q

## C88

* `Obscura.C88_exact`: P C Q
* `Obscura.C88_read_back`: P C Q
* `Obscura.C88_drift`: P C Q
* `Obscura.C88_ratio`: P C Q
* `Obscura.C88_curve`: P C Q
* `Obscura.C88_midnight`: P C Q
* `Obscura.C88_time_of_day`: P C Q
* `Obscura.C88_fractions`: P C Q

## C89

* `Obscura.C89_shares_partial`: P C Q
* `Obscura.C89_fails_shares`: P C Q

## C90

* `Obscura.C90_order`: P C Q
* `Obscura.C90_repetition`: P C Q
* `Obscura.C90_scale`: P C Q
* `Obscura.C90_no_ratios`: P C Q
* `Obscura.C90_zero_share_partial`: P C Q
* `Obscura.C90_fails_zero_share`: P C Q
* `Obscura.C90_ionization_order`: P C Q
* `Obscura.C90_ionization_shares`: P C Q

## C91

* `Obscura.C91_limit`: P C Q
* `Obscura.IonizationDetector.C91_electrons_partial`: P C Q
* `Obscura.IonizationDetector.C91_electron_threshold`: P C Q
* `Obscura.IonizationDetector.C91_fails_electrons`: P C Q
* `Obscura.IonizationDetector.C91_photoelectrons`: P C Q
* `Obscura.IonizationDetector.C91_ionization_energy`: P C Q
* `Obscura.CrystalDetector.C91_crystal_pairs`: P C Q
* `Obscura.CrystalDetector.C91_crystal_energy`: P C Q
* `Obscura.NuclearDetector.C91_nuclear_partial`: P C Q
* `Obscura.NuclearDetector.C91_nuclear_resolution`: P C Q

## C92

* `Obscura.C92_spectrum`: P C Q
* `Obscura.C92_resolution`: P C Q
* `Obscura.C92_events`: P C Q
* `Obscura.C92_bins`: P C Q
* `Obscura.C92_ionization_history`: P C Q
* `Obscura.C92_ionization_spectrum`: P C Q
* `Obscura.C92_ionization_electrons`: P C Q
* `Obscura.C92_ionization_photoelectrons`: P C Q
* `Obscura.C92_ionization_bins`: P C Q
* `Obscura.C92_ionization_events`: P C Q
* `Obscura.C92_largest_energy`: P C Q
* `Obscura.C92_smallest_speed`: P C Q
* `Obscura.C92_smallest_mass`: P C Q

## C93

* `Obscura.C93_proportional`: P C Q
* `Obscura.C93_kinematics`: P C Q
* `Obscura.C93_halos`: P C Q
* `Obscura.C93_limit`: P C Q
* `Obscura.C93_limit_binned`: P C Q

## C94

* `Obscura.C94_every_date`: P C Q
* `Obscura.C94_two_dates`: P C Q
* `Obscura.C94_annual_modulation`: P C Q

## C95

* `Obscura.C95_deposit_nuclear`: P C Q
* `Obscura.C95_mass_nuclear`: P C Q
* `Obscura.C95_deposit_electrons`: P C Q
* `Obscura.C95_mass_electrons`: P C Q
* `Obscura.C95_seasons`: P C Q

## C96

* `Obscura.C96_isotope`: P C Q
* `Obscura.C96_spectrum`: P C Q
* `Obscura.C96_bins`: P C Q
* `Obscura.C96_standard_halo`: P C Q

## C97

* `Obscura.C97_cancellation_partial`: P C Q
* `Obscura.C97_no_events`: P C Q
* `Obscura.C97_one_isotope_at_most`: P C Q
* `Obscura.C97_fails_minimum_mass`: P C Q

## C98

* `Obscura.C98_reference`: P C Q
* `Obscura.C98_isotope`: P C Q
* `Obscura.C98_rate`: P C Q
* `Obscura.C98_bins`: P C Q
* `Obscura.C98_limit`: P C Q
* `Obscura.C98_rate_resolution`: P C Q
* `Obscura.C98_bins_resolution`: P C Q
* `Obscura.C98_limit_resolution`: P C Q
* `Obscura.C98_curve`: P C Q

## C99

* `Obscura.C99_speeds`: P C Q
* `Obscura.C99_detectors`: P C Q
* `Obscura.C99_velocities`: P C Q
* `Obscura.C99_plus_plus`: P C Q
* `Obscura.C99_plus_plus_speeds`: P C Q

## C100

* `Obscura.C100_isotope`: P C Q
* `Obscura.C100_rate`: P C Q
* `Obscura.C100_bins`: P C Q
* `Obscura.C100_limit`: P C Q
* `Obscura.C100_curve`: P C Q
* `Obscura.C100_migdal`: P C Q
* `Obscura.C100_migdal_events`: P C Q
* `Obscura.C100_migdal_bins`: P C Q
* `Obscura.C100_migdal_limit`: P C Q

## C101

* `Obscura.C101_crystal`: P C Q
* `Obscura.C101_pairs`: P C Q
* `Obscura.C101_events`: P C Q
* `Obscura.C101_bins`: P C Q
* `Obscura.C101_limit`: P C Q
* `Obscura.C101_limit_binned`: P C Q

## C102

* `Obscura.C102_pieces`: P C Q
* `Obscura.C102_order`: P C Q
* `Obscura.C102_sequence`: P C Q
* `Obscura.C102_detectors`: P C Q
* `Obscura.C102_scan_order`: P C Q
* `Obscura.C102_scan_pieces`: P C Q
* `Obscura.C102_scan_sequence`: P C Q
* `Obscura.C102_events`: P C Q

## C103

* `Obscura.C103_report`: P C Q
* `Obscura.C103_file`: P C Q
* `Obscura.C103_limits`: P C Q
* `Obscura.C103_nothing`: P C Q

## C104

* `Obscura.C104_particles`: P C Q
* `Obscura.C104_cross_sections`: P C Q
* `Obscura.C104_kinematics`: P C Q
* `Obscura.C104_halos`: P C Q
* `Obscura.C104_targets`: P C Q
* `Obscura.C104_detectors`: P C Q
* `Obscura.C104_predictions`: P C Q
* `Obscura.C104_statistics`: P C Q
* `Obscura.C104_limit_partial`: P C Q
* `Obscura.C104_limit_binned_partial`: P C Q
* `Obscura.C104_minimum`: P C Q
* `Obscura.C104_minimum_ionization_partial`: P C Q
* `Obscura.C104_fails_minimum`: P C Q
* `Obscura.C104_fails_limit`: P C Q
* `Obscura.C104_experiments`: P C Q
* `Obscura.C104_other_halos`: P C Q
* `Obscura.C104_configured_distribution`: P C Q
* `Obscura.C104_configured_particle_partial`: P C Q
* `Obscura.C104_fails_mediator`: P C Q
* `Obscura.C104_configured_detector`: P C Q
* `Obscura.C104_configuration_partial`: P C Q
* `Obscura.C104_fails_mass_range`: P C Q

## C105

* `Obscura.C105_call`: P C Q
* `Obscura.C105_once_partial`: P C Q
* `Obscura.C105_fails_copies`: P C Q
* `Obscura.C105_crystals_partial`: P C Q
* `Obscura.C105_fails_margin`: P C Q
* `Obscura.C105_fails_other_crystal`: P C Q

## C106

* `Obscura.C106_given_background`: P C Q
* `Obscura.C106_best_fit`: P C Q
* `Obscura.C106_no_background`: P C Q
* `Obscura.C106_binned_partial`: P C Q
* `Obscura.C106_one_peak_partial`: P C Q
* `Obscura.C106_scan`: P C Q
* `Obscura.C106_fails_tiny_background`: P C Q

## C107

* `Obscura.C107_p_value`: P C Q
* `Obscura.C107_limit`: P C Q
* `Obscura.C107_single_bin`: P C Q
* `Obscura.C107_single_bin_limit`: P C Q
* `Obscura.C107_electron_bins`: P C Q
* `Obscura.C107_electron_window_partial`: P C Q
* `Obscura.C107_q_bins`: P C Q
* `Obscura.C107_q_window`: P C Q

## C108

* `Obscura.C108_no_change`: P C Q
* `Obscura.C108_own_files`: P C Q
* `Obscura.C108_determined`: P C Q
* `Obscura.C108_needed`: P C Q
* `Obscura.C108_removed`: P C Q
* `Obscura.C108_loaded`: P C Q

## C109

* `Obscura.C109_counting_p_value`: P C Q
* `Obscura.C109_counting_exact`: P C Q
* `Obscura.C109_counting`: P C Q
* `Obscura.C109_bins_p_value_partial`: P C Q
* `Obscura.C109_bins_partial`: P C Q
* `Obscura.C109_bins_sharp`: P C Q
* `Obscura.C109_fails_bins`: P C Q
* `Obscura.C109_fails_bins_limit`: P C Q

## C110

* `Obscura.C110_program`: P C Q
* `Obscura.C110_call`: P C Q
* `Obscura.C110_repeated`: P C Q
* `Obscura.C110_order`: P C Q

## C111

* `Obscura.C111_isotope`: P C Q
* `Obscura.C111_bins`: P C Q
* `Obscura.C111_limit`: P C Q
* `Obscura.C111_end`: P C Q

## C112

* `Obscura.C112_isotope`: P C Q
* `Obscura.C112_nucleus`: P C Q
* `Obscura.C112_rate`: P C Q
* `Obscura.C112_kinematics`: P C Q
* `Obscura.C112_events`: P C Q
* `Obscura.C112_blind_partial`: P C Q
* `Obscura.C112_fails_curve`: P C Q
* `Obscura.C112_fails_run`: P C Q
* `Obscura.C112_shipped`: P C Q

## C113

* `Obscura.C113_crystal`: P C Q
* `Obscura.C113_pairs`: P C Q
* `Obscura.C113_events`: P C Q
* `Obscura.C113_limit`: P C Q
* `Obscura.C113_end`: P C Q

## C114

* `Obscura.C114_crystal`: P C Q
* `Obscura.C114_pairs`: P C Q
* `Obscura.C114_total`: P C Q
* `Obscura.C114_electron_recoil`: P C Q
* `Obscura.C114_electrons_partial`: P C Q
* `Obscura.C114_fails_electrons`: P C Q
* `Obscura.C114_crystal_defined`: P C Q
* `Obscura.C114_electron_recoil_defined`: P C Q
* `Obscura.C114_pairs_falling`: P C Q

## C115

* `Obscura.C115_nucleus`: P C Q
* `Obscura.C115_electron`: P C Q
* `Obscura.C115_base`: P C Q
* `Obscura.C115_recoil`: P C Q
* `Obscura.C115_electron_momentum`: P C Q
* `Obscura.C115_histogram`: P C Q
* `Obscura.C115_energy_loss`: P C Q
* `Obscura.C115_tolerance`: P C Q

## C116

* `Obscura.C116_speeds`: P C Q
* `Obscura.C116_eta_partial`: P C Q
* `Obscura.C116_fails_eta`: P C Q
* `Obscura.C116_recoil`: P C Q
* `Obscura.C116_recoil_partial`: P C Q
* `Obscura.C116_standard_halo_partial`: P C Q
* `Obscura.C116_fails_form_factor`: P C Q
* `Obscura.C116_recoil_mass`: P C Q
* `Obscura.C116_crystal`: P C Q
* `Obscura.C116_fails_table_end`: P C Q
* `Obscura.C116_crystal_mass`: P C Q
* `Obscura.C116_crystal_pairs`: P C Q
* `Obscura.C116_crystal_events`: P C Q
* `Obscura.C116_limit`: P C Q
* `Obscura.C116_crystal_limit`: P C Q
* `Obscura.C116_rate`: P C Q
* `Obscura.C116_bins`: P C Q
* `Obscura.C116_counting`: P C Q
* `Obscura.C116_nuclear_limit`: P C Q
* `Obscura.C116_binned_limit`: P C Q

## C117

* `Obscura.C117_recoils`: P C Q
* `Obscura.C117_rate`: P C Q
* `Obscura.C117_bins`: P C Q
* `Obscura.C117_crystal`: P C Q
* `Obscura.C117_crystal_events`: P C Q
* `Obscura.C117_crystal_bins`: P C Q
* `Obscura.C117_electrons`: P C Q
* `Obscura.C117_migdal`: P C Q
* `Obscura.C117_electron_events`: P C Q
* `Obscura.C117_migdal_events`: P C Q
* `Obscura.C117_limit`: P C Q
* `Obscura.C117_limit_binned`: P C Q
* `Obscura.C117_escape`: P C Q
* `Obscura.C117_counting_partial`: P C Q
* `Obscura.C117_curve`: P C Q
* `Obscura.C117_set_escape`: P C Q

## C118

* `Obscura.C118_recoils`: P C Q
* `Obscura.C118_rate`: P C Q
* `Obscura.C118_bins`: P C Q
* `Obscura.C118_counting_partial`: P C Q
* `Obscura.C118_crystal`: P C Q
* `Obscura.C118_crystal_events`: P C Q
* `Obscura.C118_crystal_bins`: P C Q
* `Obscura.C118_electrons`: P C Q
* `Obscura.C118_migdal`: P C Q
* `Obscura.C118_electron_events`: P C Q
* `Obscura.C118_migdal_events`: P C Q
* `Obscura.C118_limit`: P C Q
* `Obscura.C118_between`: P C Q
* `Obscura.C118_sausage`: P C Q

## C119

* `Obscura.C119_recoils`: P C Q
* `Obscura.C119_events`: P C Q
* `Obscura.C119_efficiencies`: P C Q
* `Obscura.C119_falling`: P C Q
* `Obscura.C119_blind`: P C Q
* `Obscura.C119_fails_small_recoils`: P C Q

## C120

* `Obscura.C120_form_factor`: P C Q
* `Obscura.C120_total`: P C Q
* `Obscura.C120_isotope`: P C Q
* `Obscura.C120_rate`: P C Q
* `Obscura.C120_bins`: P C Q
* `Obscura.C120_limit`: P C Q
* `Obscura.C120_curve`: P C Q

## C121

* `Obscura.C121_electrons`: P C Q
* `Obscura.C121_nuclei`: P C Q
* `Obscura.C121_limit`: P C Q
* `Obscura.C121_limit_binned`: P C Q
