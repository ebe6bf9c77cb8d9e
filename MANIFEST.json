{
 "claims": [
  {
   "property": "C01",
   "status": "proved",
   "theorems": [
    "Obscura.C01_constructors",
    "Obscura.C01_default_constructors",
    "Obscura.C01_set_sigma_proton",
    "Obscura.C01_set_sigma_neutron",
    "Obscura.C01_excluded_nucleon_stays_zero",
    "Obscura.C01_set_sigma_electron",
    "Obscura.C01_interaction_parameter",
    "Obscura.C01_unknown_target_exits",
    "Obscura.C01_negative_sigma_nonfinite"
   ],
   "note": "All reachable histories, all s >= 0; error branches covered."
  },
  {
   "property": "C02",
   "status": "partial",
   "theorems": [
    "Obscura.C02_set_mass_fixed_partial",
    "Obscura.C02_set_mass_unfixed",
    "Obscura.C02_fails_after_C03",
    "Obscura.C02_fails_relative_sign"
   ],
   "note": "Proved for unfixed ratios (all reachable states) and for fixed ratios in clean histories (every ratio-fixing call made while Sigma_Proton is non-zero). False after the C03 defect (C02_fails_after_C03); Set_Mass loses the relative sign of unfixed couplings (C02_fails_relative_sign)."
  },
  {
   "property": "C03",
   "status": "partial",
   "theorems": [
    "Obscura.C03_ratio_honoured_partial",
    "Obscura.C03_fails"
   ],
   "note": "Proved for clean histories; violated otherwise (C03_fails)."
  },
  {
   "property": "C04",
   "status": "partial",
   "theorems": [
    "Obscura.C04_idempotent_partial",
    "Obscura.C04_fails",
    "Obscura.C04_first_call_moves_strength",
    "Obscura.C04_opposite_ratio_nonfinite"
   ],
   "note": "Proved for two-sided ratios; violated for a:0 and 0:b (C04_fails)."
  },
  {
   "property": "C05",
   "status": "partial",
   "theorems": [
    "Obscura.C05_save_restore_fixed_partial",
    "Obscura.C05_save_restore_unfixed_partial",
    "Obscura.C05_fails"
   ],
   "note": "Proved for fixed ratios (clean histories) and for unfixed ratios with non-negative addressed coupling; violated otherwise (C05_fails)."
  },
  {
   "property": "C06",
   "status": "proved",
   "theorems": [
    "Obscura.C06_total_nucleus_low_mass",
    "Obscura.C06_total_nucleus_heavy",
    "Obscura.C06_total_electron",
    "Obscura.C06_total_electron_base",
    "Obscura.C06_divergent_rejected",
    "Obscura.C06_general_massless_not_rejected",
    "Obscura.C06_v_independence_sound"
   ],
   "note": "Contact and massive mediator, low-mass closed form and generic quadrature (exactness of the quadrature is a hypothesis); divergent form factors rejected and shown non-integrable. 'General' with zero mediator mass divides by zero (C06_general_massless_not_rejected)."
  },
  {
   "property": "C07",
   "status": "proved",
   "theorems": [
    "Obscura.C07_total_SD",
    "Obscura.C07_spinless_transparent"
   ],
   "note": ""
  },
  {
   "property": "C08",
   "status": "proved",
   "theorems": [
    "Obscura.C08_nucleus_SI",
    "Obscura.C08_nucleus_SD",
    "Obscura.C08_electron",
    "Obscura.C08_nucleus_heavy",
    "Obscura.C08_pdf_is_normalised_dsigma",
    "Obscura.C08_divergent_rejected"
   ],
   "note": "Low-mass closed forms; also the generic implementation under exactness contracts for quadrature and root finder."
  },
  {
   "property": "C09",
   "status": "proved",
   "theorems": [
    "Obscura.C09_radius_positive",
    "Obscura.C09_helm_bounded",
    "Obscura.C09_no_enhancement",
    "Obscura.C09_dsigma_nonneg"
   ],
   "note": ""
  },
  {
   "property": "C10",
   "status": "proved",
   "theorems": [
    "Obscura.C10_normalised_at_qRef",
    "Obscura.C10_nonneg",
    "Obscura.C10_antitone",
    "Obscura.C10_general_between",
    "Obscura.C10_limits"
   ],
   "note": ""
  },
  {
   "property": "C11",
   "status": "proved",
   "theorems": [
    "Obscura.C11_hydrogen_SI",
    "Obscura.C11_hydrogen_SD",
    "Obscura.C11_neutron_SI",
    "Obscura.C11_default_isotope_is_proton",
    "Obscura.C11_A_squared_scaling",
    "Obscura.C11_fixed_ratio_scaling",
    "Obscura.C11_fixed_ratio_scaling_SD"
   ],
   "note": ""
  },
  {
   "property": "C12",
   "status": "proved",
   "theorems": [
    "Obscura.C12_galois",
    "Obscura.C12_inverse",
    "Obscura.C12_strictMono",
    "Obscura.C12_head_on"
   ],
   "note": ""
  },
  {
   "property": "C13",
   "status": "proved",
   "theorems": [
    "Obscura.C13_minimal_speed",
    "Obscura.C13_momentum_range",
    "Obscura.C13_range_complete",
    "Obscura.C13_monotone_in_energy"
   ],
   "note": ""
  },
  {
   "property": "C14",
   "status": "proved",
   "theorems": [
    "Obscura.C14_above_elastic",
    "Obscura.C14_range_complete"
   ],
   "note": ""
  },
  {
   "property": "C15",
   "status": "partial",
   "theorems": [
    "Obscura.C15_zero_outside",
    "Obscura.C15_nonneg_partial",
    "Obscura.C15_pos_partial",
    "Obscura.C15_fails",
    "Obscura.C15_fails_default"
   ],
   "note": "Proved for observers not faster than the escape speed; false beyond (C15_fails) and for the default constructor (C15_fails_default)."
  },
  {
   "property": "C16",
   "status": "proved",
   "theorems": [
    "Obscura.C16_cdf",
    "Obscura.C16_range",
    "Obscura.C16_normalised"
   ],
   "note": ""
  },
  {
   "property": "C17",
   "status": "partial",
   "theorems": [
    "Obscura.C17_accuracy",
    "Obscura.C17_eta_partial",
    "Obscura.C17_antitone",
    "Obscura.C17_window",
    "Obscura.C17_above",
    "Obscura.C17_fails_window",
    "Obscura.C17_fails_slow_observer"
   ],
   "note": "Proved outside the two numerical windows of the code (1e-8 v_0 below the maximal speed, 0 < v_obs < 1e-8 v_0); what the code does inside them is C17_window, and C17_fails_window / C17_fails_slow_observer show that the value there is not the integral. C17_accuracy bounds the error everywhere, inside and outside the windows, by 4e-8 / (sqrt(pi) N_esc v_0)."
  },
  {
   "property": "C18",
   "status": "partial",
   "theorems": [
    "Obscura.C18_setters",
    "Obscura.C18_domain",
    "Obscura.C18_fails_default",
    "Obscura.C18_default_partial"
   ],
   "note": "Proved for the constructors with arguments and all setter histories; the default constructor rounds the maximal speed (C18_fails_default)."
  },
  {
   "property": "C19",
   "status": "partial",
   "theorems": [
    "Obscura.C19_distributions_partial",
    "Obscura.C19_eta_stale",
    "Obscura.C19_set_eta_partial",
    "Obscura.C19_fails",
    "Obscura.C19_constructors"
   ],
   "note": "Proved for PDFs, CDF, density and domain under all histories; the eta table goes stale (C19_fails, C19_eta_stale)."
  },
  {
   "property": "C20",
   "status": "proved",
   "theorems": [
    "Obscura.C20_combination",
    "Obscura.C20_no_sausage",
    "Obscura.C20_eta_below"
   ],
   "note": ""
  },
  {
   "property": "C21",
   "status": "partial",
   "theorems": [
    "Obscura.C21_angular_partial",
    "Obscura.C21_fails",
    "Obscura.C21_base_class_isotropic",
    "Obscura.C21_base_class_halo_partial"
   ],
   "note": "Proved for observers not faster than the escape speed, false otherwise (C21_fails)."
  },
  {
   "property": "C22",
   "status": "proved",
   "theorems": [
    "Obscura.C22_flux",
    "Obscura.C22_mean_in_domain",
    "Obscura.C22_conditional_mean",
    "Obscura.C22_cut_rejected",
    "Obscura.C22_cdf",
    "Obscura.C22_cdf_monotone",
    "Obscura.C22_eta",
    "Obscura.C22_imported_pdf",
    "Obscura.C22_imported_eta",
    "Obscura.C22_halo",
    "Obscura.C22_halo_plus_plus",
    "Obscura.C22_norm"
   ],
   "note": ""
  },
  {
   "property": "C23",
   "status": "proved",
   "theorems": [
    "Obscura.C23_isometry",
    "Obscura.C23_inverse",
    "Obscura.C23_orientation",
    "Obscura.C23_poles",
    "Obscura.C23_ecliptic",
    "Obscura.C23_precession",
    "Obscura.C23_pole_of_date"
   ],
   "note": ""
  },
  {
   "property": "C24",
   "status": "partial",
   "theorems": [
    "Obscura.C24_epoch_and_time",
    "Obscura.C24_julian_partial",
    "Obscura.C24_next_day_partial",
    "Obscura.C24_count_partial",
    "Obscura.C24_fails"
   ],
   "note": "Proved for the Julian calendar everywhere and for the civil calendar from 1 March 1900 to 28 February 2100; false elsewhere (C24_fails)."
  },
  {
   "property": "C25",
   "status": "partial",
   "theorems": [
    "Obscura.C25_range_partial",
    "Obscura.C25_modulo_day_partial",
    "Obscura.C25_sidereal_day",
    "Obscura.C25_formula",
    "Obscura.C25_accuracy",
    "Obscura.C25_fails"
   ],
   "note": "Range proved from J2000.0 on, modulo-day law on all inputs; false before the epoch (C25_fails)."
  },
  {
   "property": "C26",
   "status": "proved",
   "theorems": [
    "Obscura.C26_sun",
    "Obscura.C26_orbit",
    "Obscura.C26_orbital_speed"
   ],
   "note": ""
  },
  {
   "property": "C27",
   "status": "partial",
   "theorems": [
    "Obscura.C27_one_entry_per_bin",
    "Obscura.C27_unbinned_calls",
    "Obscura.C27_binned_calls_rejected",
    "Obscura.C27_binned_calls_accepted",
    "Obscura.C27_use_energy_bins",
    "Obscura.C27_use_energy_threshold",
    "Obscura.C27_use_maximum_gap",
    "Obscura.C27_no_undefined_behaviour_partial",
    "Obscura.C27_fails",
    "Obscura.C27_negative_bins"
   ],
   "note": "No undefined behaviour for all histories without an empty maximum-gap list; C27_fails for the empty list."
  },
  {
   "property": "C28",
   "status": "partial",
   "theorems": [
    "Obscura.C28_observed_total_iff",
    "Obscura.C28_observed_total_partial",
    "Obscura.C28_fails",
    "Obscura.C28_background_total"
   ],
   "note": "Exact below 2^31 events; false beyond (C28_fails)."
  },
  {
   "property": "C29",
   "status": "partial",
   "theorems": [
    "Obscura.C29_maximum_gap",
    "Obscura.C29_maximum_gap_distribution",
    "Obscura.C29_poisson_value",
    "Obscura.C29_binned_value",
    "Obscura.C29_range",
    "Obscura.C29_binned_range",
    "Obscura.C29_poisson_strictly_decreasing",
    "Obscura.C29_binned_decreasing",
    "Obscura.C29_fails_without_bins"
   ],
   "note": "Proved for all inputs, including maximum-gap analyses (up to the truncation of the series); the error branch of a binned analysis with zero bins is C29_fails_without_bins."
  },
  {
   "property": "C30",
   "status": "partial",
   "theorems": [
    "Obscura.C30_poisson_tolerance_partial",
    "Obscura.C30_binned_tolerance_partial",
    "Obscura.C30_maximum_gap_partial",
    "Obscura.C30_poisson_partial",
    "Obscura.C30_binned_partial",
    "Obscura.C30_fails_flat",
    "Obscura.C30_fails_zero_coupling"
   ],
   "note": "Poisson, binned Poisson and maximum-gap analyses, fixed ratio or electron target: with an exact root finder, and with one that stops at a bracket of finite width (then up to this factor; for maximum gaps also up to 5e-11 in the p-value, because the series is cut off). Violated for zero coupling and a flat background p-value of exactly 1-CL."
  },
  {
   "property": "C31",
   "status": "partial",
   "theorems": [
    "Obscura.C31_upper_limit_partial",
    "Obscura.C31_upper_limit_trace",
    "Obscura.C31_curve_trace",
    "Obscura.C31_curve_partial",
    "Obscura.C31_scan_trace",
    "Obscura.C31_scan_partial",
    "Obscura.C31_fails_relative_sign"
   ],
   "note": "Unchanged particle proved for particles without the defects of C02/C03/C05; for every reachable particle the only trace is that of writing back its own mass and interaction parameter (C31_*_trace). Violated for unfixed couplings of opposite sign."
  },
  {
   "property": "C32",
   "status": "partial",
   "theorems": [
    "Obscura.C32_rescaling_exact_partial",
    "Obscura.C32_fails_zero_coupling",
    "Obscura.C32_fails_unfixed"
   ],
   "note": "Exact for fixed ratios and electron targets; violated for unfixed ratios and for coupling zero."
  },
  {
   "property": "C33",
   "status": "proved",
   "theorems": [
    "Obscura.C33_curve",
    "Obscura.C33_curve_exists"
   ],
   "note": "Proved for every reachable particle and every list of positive masses."
  },
  {
   "property": "C34",
   "status": "partial",
   "theorems": [
    "Obscura.C34_maximum_gap_log",
    "Obscura.C34_log_likelihood",
    "Obscura.C34_profiled",
    "Obscura.C34_given_background",
    "Obscura.C34_log_likelihood_binned",
    "Obscura.C34_maximum_gap",
    "Obscura.C34_likelihood",
    "Obscura.C34_fails_nothing_expected"
   ],
   "note": "Proved; the code takes log 0 when nothing is expected and nothing observed (C34_fails_nothing_expected)."
  },
  {
   "property": "C35",
   "status": "proved",
   "theorems": [
    "Obscura.C35_scan",
    "Obscura.C35_scan_exists",
    "Obscura.C35_scan_length"
   ],
   "note": "Proved for every reachable particle, positive masses and non-negative couplings."
  },
  {
   "property": "C36",
   "status": "partial",
   "theorems": [
    "Obscura.C36_specification",
    "Obscura.C36_distribution_partial",
    "Obscura.C36_distribution_exact",
    "Obscura.C36_distribution_two_terms",
    "Obscura.C36_fails_equal_gaps",
    "Obscura.C36_p_value_partial",
    "Obscura.C36_fails_single_event",
    "Obscura.C36_fails_p_value_equal_gaps"
   ],
   "note": "Proved unless mu is a proper multiple of the maximum gap; then, and for a single event, the code divides by zero or reads past the end (C36_fails_*)."
  },
  {
   "property": "C37",
   "status": "proved",
   "theorems": [
    "Obscura.C37_bin_signals",
    "Obscura.C37_partition",
    "Obscura.C37_total_is_sum",
    "Obscura.C37_configured",
    "Obscura.C37_signal_rate"
   ],
   "note": ""
  },
  {
   "property": "C38",
   "status": "partial",
   "theorems": [
    "Obscura.CrystalDetector.C38_crystal_energy_threshold",
    "Obscura.CrystalDetector.C38_crystal_energy_bins",
    "Obscura.CrystalDetector.C38_crystal_q_threshold_partial",
    "Obscura.CrystalDetector.C38_crystal_q_bins_partial",
    "Obscura.CrystalDetector.C38_fails_crystal_threshold",
    "Obscura.CrystalDetector.C38_fails_crystal_bins",
    "Obscura.CrystalDetector.C38_fails_crystal_uninitialised",
    "Obscura.C38_not_binned",
    "Obscura.C38_total_of_bins",
    "Obscura.C38_crystal_maximum_gap",
    "Obscura.C38_fails_ionization_maximum_gap",
    "Obscura.CrystalDetector.C38_crystal_history_q_threshold_partial",
    "Obscura.CrystalDetector.C38_crystal_history_q_bins_partial",
    "Obscura.CrystalDetector.C38_crystal_history_energy",
    "Obscura.IonizationDetector.C38_ionization_history_electron_threshold",
    "Obscura.IonizationDetector.C38_ionization_history_pe_threshold",
    "Obscura.IonizationDetector.C38_ionization_history_electron_bins_partial",
    "Obscura.IonizationDetector.C38_ionization_history_pe_bins_partial",
    "Obscura.IonizationDetector.C38_ionization_history_energy_threshold_partial",
    "Obscura.IonizationDetector.C38_ionization_history_energy_bins",
    "Obscura.IonizationDetector.C38_electron_bins_partial",
    "Obscura.IonizationDetector.C38_fails_electron_bins",
    "Obscura.IonizationDetector.C38_ionization_energy_bins",
    "Obscura.IonizationDetector.C38_ionization_energy_threshold_partial",
    "Obscura.IonizationDetector.C38_fails_ionization_threshold",
    "Obscura.IonizationDetector.C38_ionization_no_choice"
   ],
   "note": "Proved under the guard that no conflicting mode was chosen before, for whole histories; stale and uninitialised flags and Use_Maximum_Gap on ionization detectors violate it (C38_fails_*)."
  },
  {
   "property": "C39",
   "status": "partial",
   "theorems": [
    "Obscura.IonizationDetector.C39_ionization",
    "Obscura.C39_ratios",
    "Obscura.C39_given_fractions",
    "Obscura.C39_too_few_ratios",
    "Obscura.C39_fails",
    "Obscura.C39_massless"
   ],
   "note": "Proved for ratios of sum above one and for mass fractions; ratios of sum at most one are misread (C39_fails)."
  },
  {
   "property": "C40",
   "status": "partial",
   "theorems": [
    "Obscura.C40_set_resolution",
    "Obscura.C40_rate",
    "Obscura.C40_nonneg",
    "Obscura.C40_density",
    "Obscura.C40_linear",
    "Obscura.C40_additive",
    "Obscura.C40_fails_below_threshold"
   ],
   "note": "Proved above the smearing window; negative rate far below threshold (C40_fails_below_threshold)."
  },
  {
   "property": "C41",
   "status": "partial",
   "theorems": [
    "Obscura.C41_above_deposit",
    "Obscura.C41_deposit_attained",
    "Obscura.C41_below_minimum_mass_partial",
    "Obscura.C41_minimum_mass_attained",
    "Obscura.C41_minimum_speed",
    "Obscura.C41_fails_resolution",
    "Obscura.C41_fails_negative_mass",
    "Obscura.C41_fails_no_target"
   ],
   "note": "Proved without resolution and from E_threshold + 4 sigma on; C41_fails_* for the rest."
  },
  {
   "property": "C42",
   "status": "partial",
   "theorems": [
    "Obscura.C42_crystal",
    "Obscura.C42_rate_between",
    "Obscura.C42_crystal_between",
    "Obscura.C42_electron_recoil_between",
    "Obscura.C42_standard_halo_between",
    "Obscura.C42_migdal_between",
    "Obscura.C42_standard_halo_regular",
    "Obscura.C42_electron_recoil",
    "Obscura.C42_electron_recoil_closed",
    "Obscura.C42_migdal",
    "Obscura.C42_atoms",
    "Obscura.C42_rate",
    "Obscura.C42_methods_agree",
    "Obscura.C42_standard_halo_partial",
    "Obscura.C42_fails_imported"
   ],
   "note": "Equality proved outside the window of C17 and for tables starting at speed zero; inside the window the rates are bounded by those of the particles slower than v_max - 1e-8 v0 and of all particles. C42_fails_imported for other tables."
  },
  {
   "property": "C43",
   "status": "proved",
   "theorems": [
    "Obscura.C43_pairs",
    "Obscura.C43_round_trip",
    "Obscura.C43_qmax",
    "Obscura.C43_overflow"
   ],
   "note": ""
  },
  {
   "property": "C44",
   "status": "proved",
   "theorems": [
    "Obscura.C44_contents",
    "Obscura.C44_partition",
    "Obscura.C44_overflow"
   ],
   "note": ""
  },
  {
   "property": "C45",
   "status": "partial",
   "theorems": [
    "Obscura.CrystalDetector.C45_signals_partial",
    "Obscura.CrystalDetector.C45_default_bins",
    "Obscura.CrystalDetector.C45_fails_threshold",
    "Obscura.CrystalDetector.C45_fails_zero",
    "Obscura.CrystalDetector.C45_fails_wrap"
   ],
   "note": "Proved for thresholds of one pair; violated for every other threshold (C45_fails_*)."
  },
  {
   "property": "C46",
   "status": "partial",
   "theorems": [
    "Obscura.CrystalDetector.C46_fails_crystal",
    "Obscura.C46_fails_ionization",
    "Obscura.C46_nuclear_fraction"
   ],
   "note": "Proved for nuclear recoils; electron, crystal and Migdal rates ignore the fractional density (C46_fails_*)."
  },
  {
   "property": "C47",
   "status": "proved",
   "theorems": [
    "Obscura.C47_distribution",
    "Obscura.C47_binomial",
    "Obscura.C47_failures"
   ],
   "note": ""
  },
  {
   "property": "C48",
   "status": "partial",
   "theorems": [
    "Obscura.IonizationDetector.C48_direct_partial",
    "Obscura.IonizationDetector.C48_direct_shell_partial",
    "Obscura.IonizationDetector.C48_bin_partial",
    "Obscura.IonizationDetector.C48_zero_width",
    "Obscura.IonizationDetector.C48_import",
    "Obscura.IonizationDetector.C48_fails_threshold",
    "Obscura.IonizationDetector.C48_fails_bins",
    "Obscura.IonizationDetector.C48_efficiency"
   ],
   "note": "Proved for direct calls and long spectra; signal predictions read past the end (C48_fails_*)."
  },
  {
   "property": "C49",
   "status": "partial",
   "theorems": [
    "Obscura.IonizationDetector.C49_window_partial",
    "Obscura.IonizationDetector.C49_accepted",
    "Obscura.IonizationDetector.C49_fails_single"
   ],
   "note": "Proved for m > n and for the default; false for m = n (C49_fails_single)."
  },
  {
   "property": "C50",
   "status": "partial",
   "theorems": [
    "Obscura.IonizationDetector.C50_electron_threshold",
    "Obscura.IonizationDetector.C50_energy_threshold_partial",
    "Obscura.IonizationDetector.C50_electron_bins_partial",
    "Obscura.IonizationDetector.C50_energy_bins_partial",
    "Obscura.IonizationDetector.C50_electron_recoil",
    "Obscura.IonizationDetector.C50_migdal",
    "Obscura.IonizationDetector.C50_fails_stale_threshold",
    "Obscura.IonizationDetector.C50_fails_ionization"
   ],
   "note": "Proved under the guard of C38; stale flags violate it (C50_fails_*)."
  },
  {
   "property": "C51",
   "status": "proved",
   "theorems": [
    "Obscura.C51_get_nucleus",
    "Obscura.C51_get_nucleus_by_name",
    "Obscura.C51_get_isotope",
    "Obscura.C51_missing_file",
    "Obscura.C51_shipped_table",
    "Obscura.C51_isotope_constructor"
   ],
   "note": ""
  },
  {
   "property": "C52",
   "status": "partial",
   "theorems": [
    "Obscura.C52_short_names_partial",
    "Obscura.C52_fails_long_names",
    "Obscura.C52_other_names",
    "Obscura.C52_missing_table",
    "Obscura.C52_electron",
    "Obscura.C52_lowest_energy",
    "Obscura.C52_lowest_energies",
    "Obscura.C52_custom"
   ],
   "note": "Proved for Xe and Ar; the long names end the program (C52_fails_long_names)."
  },
  {
   "property": "C53",
   "status": "partial",
   "theorems": [
    "Obscura.C53_particle_partial",
    "Obscura.C53_fails_isovector",
    "Obscura.C53_missing_setting",
    "Obscura.C53_invalid_values",
    "Obscura.C53_unknown_words"
   ],
   "note": "Proved for relative couplings with non-zero sum; isovector couplings give non-finite values (C53_fails_isovector)."
  },
  {
   "property": "C54",
   "status": "partial",
   "theorems": [
    "Obscura.C54_other_ranks",
    "Obscura.C54_unusable_file",
    "Obscura.C54_written_places_partial",
    "Obscura.C54_outside_results_partial",
    "Obscura.C54_input_kept_partial",
    "Obscura.C54_copy_partial",
    "Obscura.C54_fails_alias",
    "Obscura.C54_fails_traversal"
   ],
   "note": "Proved for plain IDs and inputs other than the copy itself; C54_fails_alias and C54_fails_traversal otherwise."
  },
  {
   "property": "C55",
   "status": "partial",
   "theorems": [
    "Obscura.C55_units",
    "Obscura.C55_nuclear",
    "Obscura.C55_electron_recoil",
    "Obscura.C55_migdal_partial",
    "Obscura.C55_crystal",
    "Obscura.C55_unknown",
    "Obscura.C55_no_string",
    "Obscura.C55_fails_LZ",
    "Obscura.C55_fails_migdal_names"
   ],
   "note": "Proved for all names but LZ; Migdal detectors carry the name of the electron search (C55_fails_*)."
  },
  {
   "property": "C56",
   "status": "partial",
   "theorems": [
    "Obscura.C56_construction_partial",
    "Obscura.C56_signals_crystal",
    "Obscura.C56_signals_electrons_partial",
    "Obscura.C56_signals_nuclear",
    "Obscura.C56_fails_photoelectrons",
    "Obscura.C56_fails_missing_silicon",
    "Obscura.C56_fails_photoelectrons_migdal",
    "Obscura.C56_halo_models"
   ],
   "note": "Proved for all experiments but LZ and, for signals, the photo-electron experiments, which read out of bounds (C56_fails_*)."
  },
  {
   "property": "C57",
   "status": "proved",
   "theorems": [
    "Obscura.C57_construction",
    "Obscura.C57_grid",
    "Obscura.C57_outside",
    "Obscura.C57_inside"
   ],
   "note": ""
  },
  {
   "property": "C58",
   "status": "proved",
   "theorems": [
    "Obscura.C58_same_measure",
    "Obscura.C58_integrates_to_total"
   ],
   "note": ""
  },
  {
   "property": "C59",
   "status": "proved",
   "theorems": [
    "Obscura.C59_nonneg",
    "Obscura.C59_cdf",
    "Obscura.C59_normalised",
    "Obscura.C59_shape",
    "Obscura.C59_eta"
   ],
   "note": ""
  },
  {
   "property": "C60",
   "status": "partial",
   "theorems": [
    "Obscura.C60_average_mass",
    "Obscura.C60_abundances_partial",
    "Obscura.C60_fails"
   ],
   "note": "Proved for all elements but six, whose sums are given by C60_fails."
  },
  {
   "property": "C61",
   "status": "partial",
   "theorems": [
    "Obscura.C61_efficiency",
    "Obscura.C61_fails_second_table"
   ],
   "note": "Proved; repeated imports of a single table disable all tables (C61_fails_second_table)."
  },
  {
   "property": "C62",
   "status": "proved",
   "theorems": [
    "Obscura.C62_low_mass_electrons",
    "Obscura.C62_low_mass_spin",
    "Obscura.C62_low_mass_migdal",
    "Obscura.C62_low_mass_limit",
    "Obscura.C62_low_mass_limit_binned",
    "Obscura.C62_spin_signals",
    "Obscura.C62_spin",
    "Obscura.C62_fraction",
    "Obscura.C62_low_mass",
    "Obscura.C62_form_factor",
    "Obscura.C62_unknown_form_factor",
    "Obscura.C62_mediator_mass",
    "Obscura.C62_unfix"
   ],
   "note": ""
  },
  {
   "property": "C63",
   "status": "proved",
   "theorems": [
    "Obscura.C63_crystal_above_deposit",
    "Obscura.C63_crystal_deposit_attained",
    "Obscura.C63_crystal_minimum_mass",
    "Obscura.C63_crystal_minimum_speed",
    "Obscura.IonizationDetector.C63_ionization_above_deposit",
    "Obscura.IonizationDetector.C63_ionization_deposit_attained",
    "Obscura.IonizationDetector.C63_ionization_gap",
    "Obscura.IonizationDetector.C63_ionization_minimum_speed",
    "Obscura.IonizationDetector.C63_ionization_minimum_mass"
   ],
   "note": ""
  },
  {
   "property": "C64",
   "status": "proved",
   "theorems": [
    "Obscura.CrystalDetector.C64_crystal",
    "Obscura.IonizationDetector.C64_ionization"
   ],
   "note": ""
  },
  {
   "property": "C65",
   "status": "proved",
   "theorems": [
    "Obscura.C65_shell",
    "Obscura.IonizationDetector.C65_detector",
    "Obscura.IonizationDetector.C65_energy_spectrum"
   ],
   "note": ""
  },
  {
   "property": "C66",
   "status": "proved",
   "theorems": [
    "Obscura.C66_defined",
    "Obscura.C66_form_factor",
    "Obscura.C66_outside",
    "Obscura.C66_invalid",
    "Obscura.C66_small_momenta",
    "Obscura.C66_tabulated",
    "Obscura.C66_tabulated_lowest"
   ],
   "note": ""
  },
  {
   "property": "C67",
   "status": "partial",
   "theorems": [
    "Obscura.IonizationDetector.C67_ionization_partial",
    "Obscura.IonizationDetector.C67_fails_ionization"
   ],
   "note": "Proved for nuclear and crystal detectors; ionization detectors ignore the upper end (C67_fails_ionization)."
  },
  {
   "property": "C68",
   "status": "proved",
   "theorems": [
    "Obscura.C68_isotope",
    "Obscura.C68_nuclear_recoil",
    "Obscura.C68_crystal",
    "Obscura.C68_electron_recoil_eta",
    "Obscura.C68_migdal_eta",
    "Obscura.C68_electron_recoil",
    "Obscura.C68_migdal",
    "Obscura.IonizationDetector.C68_dRdE",
    "Obscura.IonizationDetector.C68_spectrum",
    "Obscura.IonizationDetector.C68_electron_threshold",
    "Obscura.IonizationDetector.C68_energy_threshold"
   ],
   "note": ""
  },
  {
   "property": "C69",
   "status": "partial",
   "theorems": [
    "Obscura.C69_standard_halo_partial",
    "Obscura.C69_halo_plus_plus",
    "Obscura.C69_tabulated",
    "Obscura.C69_other_files",
    "Obscura.C69_fails_fast_observer"
   ],
   "note": "Proved for SHM++ and tables, and for the SHM with an observer not faster than the escape speed; C69_fails_fast_observer is a configuration with a faster one."
  },
  {
   "property": "C70",
   "status": "partial",
   "theorems": [
    "Obscura.C70_nuclear",
    "Obscura.C70_nuclear_invalid_partial",
    "Obscura.C70_ionization",
    "Obscura.C70_ionization_unknown",
    "Obscura.C70_semiconductor",
    "Obscura.C70_missing_setting",
    "Obscura.C70_fails_no_targets"
   ],
   "note": "The detector described is obtained and admissible files work; energies in the wrong order and elements that do not exist stop the program, but an empty list of targets (or a value that is not a list) does not (C70_fails_no_targets)."
  },
  {
   "property": "C71",
   "status": "proved",
   "theorems": [
    "Obscura.C71_parameters",
    "Obscura.C71_object"
   ],
   "note": ""
  },
  {
   "property": "C72",
   "status": "proved",
   "theorems": [
    "Obscura.C72_velocity_distribution",
    "Obscura.C72_mean",
    "Obscura.C72_default",
    "Obscura.C72_shmpp_velocity_distribution",
    "Obscura.C72_shmpp_mean",
    "Obscura.C72_imported"
   ],
   "note": ""
  },
  {
   "property": "C73",
   "status": "partial",
   "theorems": [
    "Obscura.C73_pdf_rows",
    "Obscura.C73_eta_rows",
    "Obscura.C73_log_rows_partial",
    "Obscura.C73_log_eta_rows_partial",
    "Obscura.C73_log_grid",
    "Obscura.C73_fails_log_scale",
    "Obscura.C73_import",
    "Obscura.C73_import_empty",
    "Obscura.C73_round_trip"
   ],
   "note": "Proved for linear grids and, for distributions whose slowest speed is positive, for logarithmic grids; a logarithmic grid of a halo model starts at speed zero and contains no finite entry (C73_fails_log_scale). Importing an empty file is undefined behaviour (C73_import_empty)."
  },
  {
   "property": "C74",
   "status": "partial",
   "theorems": [
    "Obscura.C74_fails_no_argument",
    "Obscura.C74_first_argument",
    "Obscura.C74_unusable_file",
    "Obscura.C74_percentage",
    "Obscura.C74_fails_percentage",
    "Obscura.C74_different_files",
    "Obscura.C74_regular_end",
    "Obscura.C74_written_places_partial",
    "Obscura.C74_failed_run_partial",
    "Obscura.C74_outside_results_partial",
    "Obscura.C74_other_runs_partial",
    "Obscura.C74_constraints_partial",
    "Obscura.C74_fails_shared_name",
    "Obscura.C74_limits_partial"
   ],
   "note": "Proved for plain IDs and, for the content of the table, for runs in whose way nothing stands; the meaning of the limits for unbinned Poisson analyses. Certainties above 99.5 % share one file (C74_fails_shared_name)."
  },
  {
   "property": "C75",
   "status": "partial",
   "theorems": [
    "Obscura.C75_standard_halo",
    "Obscura.C75_ionization",
    "Obscura.C75_semiconductor",
    "Obscura.C75_nuclear_partial",
    "Obscura.C75_fails_zero_threshold"
   ],
   "note": "Proved for the four user-defined kinds with exact integrals; nuclear recoils need a positive threshold (C75_fails_zero_threshold)."
  },
  {
   "property": "C76",
   "status": "partial",
   "theorems": [
    "Obscura.C76_ionization_partial",
    "Obscura.C76_semiconductor_partial",
    "Obscura.C76_nuclear_partial",
    "Obscura.C76_fails_light_mediator"
   ],
   "note": "Proved for the standard halo and the user-defined detectors, with exact numerical routines, plain IDs and a background that does not lead exactly to the p-value 1-CL; nuclear recoils with light mediators stop the program (C76_fails_light_mediator)."
  },
  {
   "property": "C77",
   "status": "partial",
   "theorems": [
    "Obscura.C77_nuclear_partial",
    "Obscura.C77_fails_electrons",
    "Obscura.C77_fails_electrons_p_value",
    "Obscura.C77_nuclear_limit_partial"
   ],
   "note": "Holds for nuclear recoil detectors; the detectors of electrons ignore the fraction (C77_fails_electrons)."
  },
  {
   "property": "C78",
   "status": "partial",
   "theorems": [
    "Obscura.C78_total",
    "Obscura.C78_recoil",
    "Obscura.C78_nucleus",
    "Obscura.C78_electron",
    "Obscura.C78_angle_momentum",
    "Obscura.C78_fails_no_scattering",
    "Obscura.C78_standard",
    "Obscura.C78_set_mass"
   ],
   "note": "Holds for every class whose total cross section is positive and the integral of the differential one; without scattering there is no distribution (C78_fails_no_scattering)."
  },
  {
   "property": "C79",
   "status": "proved",
   "theorems": [
    "Obscura.C79_predictions",
    "Obscura.C79_order",
    "Obscura.C79_last_value"
   ],
   "note": "Detectors of the four classes, all sequences of calls."
  },
  {
   "property": "C80",
   "status": "proved",
   "theorems": [
    "Obscura.C80_proportional",
    "Obscura.C80_rate",
    "Obscura.C80_history",
    "Obscura.C80_history_ionization",
    "Obscura.C80_history_crystal"
   ],
   "note": "The numerical routines are assumed to be homogeneous: scaling the integrand scales the integral."
  },
  {
   "property": "C81",
   "status": "partial",
   "theorems": [
    "Obscura.C81_manual_partial",
    "Obscura.C81_fails_incomplete",
    "Obscura.C81_fails_parameters",
    "Obscura.C81_other_processes",
    "Obscura.C81_fails_every_process",
    "Obscura.C81_nuclear_partial",
    "Obscura.C81_fails_few_abundances",
    "Obscura.C81_ionization_partial",
    "Obscura.C81_fails_energy_then_electrons",
    "Obscura.C81_fails_photoelectrons_then_electrons",
    "Obscura.C81_crystal_partial",
    "Obscura.C81_fails_no_q_threshold",
    "Obscura.C81_configured_partial",
    "Obscura.C81_fails_experiments",
    "Obscura.C81_fails_runs"
   ],
   "note": "Fails for crystal detectors without Use_Q_Threshold (all six predefined semiconductor experiments, hence every such run of the program), after mixing kinds of bins, with too few abundances, and on other ranks for ionization and crystal detectors; proved for all other histories."
  },
  {
   "property": "C82",
   "status": "partial",
   "theorems": [
    "Obscura.C82_particle",
    "Obscura.C82_halo",
    "Obscura.C82_normalization_warning",
    "Obscura.C82_targets",
    "Obscura.C82_detector_partial",
    "Obscura.C82_fails_stale_bins",
    "Obscura.C82_nuclear",
    "Obscura.C82_ionization",
    "Obscura.C82_crystal",
    "Obscura.C82_configuration"
   ],
   "note": "All values shown are right; after a change from energy bins to a threshold the ranges of the old bins are still listed (C82_fails_stale_bins)."
  },
  {
   "property": "C83",
   "status": "partial",
   "theorems": [
    "Obscura.C83_number_of_isotopes",
    "Obscura.C83_pure_partial",
    "Obscura.C83_fails_natural_abundance",
    "Obscura.C83_fails_charge",
    "Obscura.C83_mixture_partial",
    "Obscura.C83_mixture_bounds",
    "Obscura.C83_fails_mixture",
    "Obscura.C83_thomas_fermi"
   ],
   "note": "Holds for isotopes of abundance one and for isotopes of equal mass (with bounds for unequal masses); the abundance of a natural isotope multiplies mass and rate (C83_fails_natural_abundance), the charge is not initialised (C83_fails_charge), and shares by number weight rates per mass (C83_fails_mixture)."
  },
  {
   "property": "C84",
   "status": "partial",
   "theorems": [
    "Obscura.C84_no_mechanism",
    "Obscura.C84_default_constructors",
    "Obscura.C84_single_atom",
    "Obscura.C84_mixture",
    "Obscura.C84_fails_nuclear",
    "Obscura.C84_fails_ionization",
    "Obscura.C84_fails_crystal"
   ],
   "note": "The constructors agree; without a region of interest nuclear detectors give nan, ionization detectors zero and crystal detectors undefined behaviour instead of an error (C84_fails_*)."
  },
  {
   "property": "C85",
   "status": "proved",
   "theorems": [
    "Obscura.C85_default_halo",
    "Obscura.C85_electron_recoil_limit",
    "Obscura.C85_nuclear_recoil_spectrum"
   ],
   "note": "Both programs, with exact numerical routines and data files without negative entries; for the spectrum the fastest particles must be able to cause a recoil of 1 keV on every isotope. The upper end of the speed domain of the default halo is rounded up by at most 0.38 km/s (C85_default_halo)."
  },
  {
   "property": "C86",
   "status": "partial",
   "theorems": [
    "Obscura.NuclearText.C86_reads_the_table",
    "Obscura.NuclearText.C86_lookup",
    "Obscura.NuclearText.C86_cut_file_partial",
    "Obscura.NuclearText.C86_fails_malformed_row",
    "Obscura.NuclearText.C86_shipped_file",
    "Obscura.NuclearText.C86_fails_cut_number"
   ],
   "note": "The table is read as written (C86_reads_the_table, C86_lookup, C86_shipped_file). Damage is not noticed: C86_cut_file_partial says what a cut file gives (lighter elements are right, heavier ones undefined behaviour), C86_fails_malformed_row and C86_fails_cut_number are the failures. Decimal numbers are exact in the model."
  },
  {
   "property": "C87",
   "status": "proved",
   "theorems": [
    "Obscura.C87_comparison",
    "Obscura.C87_comparison_binned",
    "Obscura.C87_value",
    "Obscura.C87_data",
    "Obscura.C87_exposure",
    "Obscura.C87_no_events",
    "Obscura.C87_starting_point",
    "Obscura.C87_value_binned",
    "Obscura.C87_data_binned",
    "Obscura.C87_exposure_binned"
   ],
   "note": "With an exact root finder, for every detector class; the particle must be visible (a positive expected signal, in every bin for binned analyses). For limits that are found: -1 says only that there is no limit in the searched range."
  },
  {
   "property": "C88",
   "status": "proved",
   "theorems": [
    "Obscura.C88_exact",
    "Obscura.C88_read_back",
    "Obscura.C88_drift",
    "Obscura.C88_ratio",
    "Obscura.C88_curve",
    "Obscura.C88_midnight",
    "Obscura.C88_time_of_day",
    "Obscura.C88_fractions"
   ],
   "note": "For every rounding to nearest (ties either way), without overflow, underflow or fused operations; rounding inside the trial cross sections of the limit search is arbitrary."
  },
  {
   "property": "C89",
   "status": "partial",
   "theorems": [
    "Obscura.C89_shares_partial",
    "Obscura.C89_fails_shares"
   ],
   "note": "Without rounding the property is part of C39 (exact sums). With rounding it fails (C89_fails_shares); shares whose sum stays below one by more than n rounding errors are kept (C89_shares_partial)."
  },
  {
   "property": "C90",
   "status": "partial",
   "theorems": [
    "Obscura.C90_order",
    "Obscura.C90_repetition",
    "Obscura.C90_scale",
    "Obscura.C90_no_ratios",
    "Obscura.C90_zero_share_partial",
    "Obscura.C90_fails_zero_share",
    "Obscura.C90_ionization_order",
    "Obscura.C90_ionization_shares"
   ],
   "note": "Order, repetition, scale and the default are proved. A component with the share zero leaves the spectrum unchanged (C90_zero_share_partial) but lowers the smallest mass the detector claims to see (C90_fails_zero_share)."
  },
  {
   "property": "C91",
   "status": "partial",
   "theorems": [
    "Obscura.C91_limit",
    "Obscura.IonizationDetector.C91_electrons_partial",
    "Obscura.IonizationDetector.C91_electron_threshold",
    "Obscura.IonizationDetector.C91_fails_electrons",
    "Obscura.IonizationDetector.C91_photoelectrons",
    "Obscura.IonizationDetector.C91_ionization_energy",
    "Obscura.CrystalDetector.C91_crystal_pairs",
    "Obscura.CrystalDetector.C91_crystal_energy",
    "Obscura.NuclearDetector.C91_nuclear_partial",
    "Obscura.NuclearDetector.C91_nuclear_resolution"
   ],
   "note": "Proved for electrons, photoelectrons, electron-hole pairs and energies. It fails for a window with a single number of electrons, which is silently widened to 100 (C91_fails_electrons, compare C49). Nuclear recoils: with and without energy resolution, for exact interpolation of the spectrum in each window."
  },
  {
   "property": "C92",
   "status": "proved",
   "theorems": [
    "Obscura.C92_spectrum",
    "Obscura.C92_resolution",
    "Obscura.C92_events",
    "Obscura.C92_bins",
    "Obscura.C92_ionization_history",
    "Obscura.C92_ionization_spectrum",
    "Obscura.C92_ionization_electrons",
    "Obscura.C92_ionization_photoelectrons",
    "Obscura.C92_ionization_bins",
    "Obscura.C92_ionization_events",
    "Obscura.C92_largest_energy",
    "Obscura.C92_smallest_speed",
    "Obscura.C92_smallest_mass"
   ],
   "note": "Spectra and electron counts: proved without conditions on the numerics. Sums of events over energies: for exact integration, and for spectra whose interpolation is integrated exactly (Steffen interpolation is not additive). Photoelectron signals are left out, because the code reads past the end of its efficiency list there (C48)."
  },
  {
   "property": "C93",
   "status": "proved",
   "theorems": [
    "Obscura.C93_proportional",
    "Obscura.C93_kinematics",
    "Obscura.C93_halos",
    "Obscura.C93_limit",
    "Obscura.C93_limit_binned"
   ],
   "note": "Proved for all four detector classes in any state, for integration routines that are homogeneous and (maximum gap) interpolation integrals that are linear. Limits for counting and binned analyses with an exact root finder."
  },
  {
   "property": "C94",
   "status": "proved",
   "theorems": [
    "Obscura.C94_every_date",
    "Obscura.C94_two_dates",
    "Obscura.C94_annual_modulation"
   ],
   "note": "Exact real arithmetic; the trigonometric functions of all angles are bounded by proved expansions, not evaluated."
  },
  {
   "property": "C95",
   "status": "proved",
   "theorems": [
    "Obscura.C95_deposit_nuclear",
    "Obscura.C95_mass_nuclear",
    "Obscura.C95_deposit_electrons",
    "Obscura.C95_mass_electrons",
    "Obscura.C95_seasons"
   ],
   "note": "nuclear recoils (energies, masses), electron recoils, Migdal effect and crystals, and the seasons of the standard halo model"
  },
  {
   "property": "C96",
   "status": "proved",
   "theorems": [
    "Obscura.C96_isotope",
    "Obscura.C96_spectrum",
    "Obscura.C96_bins",
    "Obscura.C96_standard_halo"
   ],
   "note": "Exact quadrature. The standard halo is covered with its actual eta function, including the window in which it is set to zero."
  },
  {
   "property": "C97",
   "status": "partial",
   "theorems": [
    "Obscura.C97_cancellation_partial",
    "Obscura.C97_no_events",
    "Obscura.C97_one_isotope_at_most",
    "Obscura.C97_fails_minimum_mass"
   ],
   "note": "Histories in which the ratio is fixed while the proton cross section is not zero (otherwise C03 fails). Minimum_DM_Mass of such a detector has undefined behaviour (C97_fails_minimum_mass)."
  },
  {
   "property": "C98",
   "status": "proved",
   "theorems": [
    "Obscura.C98_reference",
    "Obscura.C98_isotope",
    "Obscura.C98_rate",
    "Obscura.C98_bins",
    "Obscura.C98_limit",
    "Obscura.C98_rate_resolution",
    "Obscura.C98_bins_resolution",
    "Obscura.C98_limit_resolution",
    "Obscura.C98_curve"
   ],
   "note": "Exact or homogeneous quadrature. With an energy resolution the recoil energies that contribute, down to twice the resolution, have to be above the reference momentum."
  },
  {
   "property": "C99",
   "status": "proved",
   "theorems": [
    "Obscura.C99_speeds",
    "Obscura.C99_detectors",
    "Obscura.C99_velocities",
    "Obscura.C99_plus_plus",
    "Obscura.C99_plus_plus_speeds"
   ],
   "note": "Standard halos for all calls. SHM++ as constructed, with exact angular quadrature and any other numerics."
  },
  {
   "property": "C100",
   "status": "proved",
   "theorems": [
    "Obscura.C100_isotope",
    "Obscura.C100_rate",
    "Obscura.C100_bins",
    "Obscura.C100_limit",
    "Obscura.C100_curve",
    "Obscura.C100_migdal",
    "Obscura.C100_migdal_events",
    "Obscura.C100_migdal_bins",
    "Obscura.C100_migdal_limit"
   ],
   "note": "Binned Poisson analyses; with a finite resolution the smeared rates are assumed integrable. Falling Eta_Function and a proper speed distribution are properties of every physical standard halo (C96)."
  },
  {
   "property": "C101",
   "status": "proved",
   "theorems": [
    "Obscura.C101_crystal",
    "Obscura.C101_pairs",
    "Obscura.C101_events",
    "Obscura.C101_bins",
    "Obscura.C101_limit",
    "Obscura.C101_limit_binned"
   ],
   "note": "Semiconductors. For the ionization of atoms the code sums over a grid of momenta that itself depends on the mass, so no such order is claimed."
  },
  {
   "property": "C102",
   "status": "proved",
   "theorems": [
    "Obscura.C102_pieces",
    "Obscura.C102_order",
    "Obscura.C102_sequence",
    "Obscura.C102_detectors",
    "Obscura.C102_scan_order",
    "Obscura.C102_scan_pieces",
    "Obscura.C102_scan_sequence",
    "Obscura.C102_events"
   ],
   "note": ""
  },
  {
   "property": "C103",
   "status": "proved",
   "theorems": [
    "Obscura.C103_report",
    "Obscura.C103_file",
    "Obscura.C103_limits",
    "Obscura.C103_nothing"
   ],
   "note": ""
  },
  {
   "property": "C104",
   "status": "partial",
   "theorems": [
    "Obscura.C104_particles",
    "Obscura.C104_cross_sections",
    "Obscura.C104_kinematics",
    "Obscura.C104_halos",
    "Obscura.C104_targets",
    "Obscura.C104_detectors",
    "Obscura.C104_predictions",
    "Obscura.C104_statistics",
    "Obscura.C104_limit_partial",
    "Obscura.C104_limit_binned_partial",
    "Obscura.C104_minimum",
    "Obscura.C104_minimum_ionization_partial",
    "Obscura.C104_fails_minimum",
    "Obscura.C104_fails_limit",
    "Obscura.C104_experiments",
    "Obscura.C104_other_halos",
    "Obscura.C104_configured_distribution",
    "Obscura.C104_configured_particle_partial",
    "Obscura.C104_fails_mediator",
    "Obscura.C104_configured_detector",
    "Obscura.C104_configuration_partial",
    "Obscura.C104_fails_mass_range"
   ],
   "note": "The window in which upper limits are searched, the starting values of the search for the smallest binding energy, the smallest mediator mass and the mass range of the limits are pure numbers in the code (C104_fails_limit, C104_fails_minimum, C104_fails_mediator, C104_fails_mass_range); the theorems cover what they do not interfere with. The numerical integration and interpolation are assumed not to depend on the unit of their variables."
  },
  {
   "property": "C105",
   "status": "partial",
   "theorems": [
    "Obscura.C105_call",
    "Obscura.C105_once_partial",
    "Obscura.C105_fails_copies",
    "Obscura.C105_crystals_partial",
    "Obscura.C105_fails_margin",
    "Obscura.C105_fails_other_crystal"
   ],
   "note": "Shells reached by reference (also from the rates) warn once; copies returned by Electron(n, l) repeat the warning (C105_fails_copies). For crystals the flag is shared and a margin of a millionth is silent (C105_fails_other_crystal, C105_fails_margin)."
  },
  {
   "property": "C106",
   "status": "partial",
   "theorems": [
    "Obscura.C106_given_background",
    "Obscura.C106_best_fit",
    "Obscura.C106_no_background",
    "Obscura.C106_binned_partial",
    "Obscura.C106_one_peak_partial",
    "Obscura.C106_scan",
    "Obscura.C106_fails_tiny_background"
   ],
   "note": "The interaction parameter changes with a fixed ratio of couplings or for electrons (as in C87), numerical integration and interpolation are homogeneous, and the particle is visible. In bins with a background between 0 and 1e-4 the code switches from the fitted to the given background with a jump, and two peaks are possible (C106_fails_tiny_background)."
  },
  {
   "property": "C107",
   "status": "partial",
   "theorems": [
    "Obscura.C107_p_value",
    "Obscura.C107_limit",
    "Obscura.C107_single_bin",
    "Obscura.C107_single_bin_limit",
    "Obscura.C107_electron_bins",
    "Obscura.C107_electron_window_partial",
    "Obscura.C107_q_bins",
    "Obscura.C107_q_window"
   ],
   "note": "For limits the root finder is exact and both limits are positive (0 means that none was found). The electron window is partial: a window of one number of electrons cannot be chosen (C49_fails_single). Q-bins start at one pair: others read efficiencies out of bounds (C45). Photo-electron bins are always undefined behaviour (C48) and not part of the claim."
  },
  {
   "property": "C108",
   "status": "proved",
   "theorems": [
    "Obscura.C108_no_change",
    "Obscura.C108_own_files",
    "Obscura.C108_determined",
    "Obscura.C108_needed",
    "Obscura.C108_removed",
    "Obscura.C108_loaded"
   ],
   "note": "That reading a missing file ends the program is an assumption about libphysica (Import_List, Import_Table, File_Exists) and read from the checks in obscura. The searches LZ_S2 and LZ_S2_Migdal end the program anyway (C55_fails_LZ); C108_no_change covers them too."
  },
  {
   "property": "C109",
   "status": "partial",
   "theorems": [
    "Obscura.C109_counting_p_value",
    "Obscura.C109_counting_exact",
    "Obscura.C109_counting",
    "Obscura.C109_bins_p_value_partial",
    "Obscura.C109_bins_partial",
    "Obscura.C109_bins_sharp",
    "Obscura.C109_fails_bins",
    "Obscura.C109_fails_bins_limit"
   ],
   "note": "Counting analyses have the announced coverage. With at least two bins they do not (C109_fails_bins, C109_fails_bins_limit): the smallest p-value of the bins is not corrected for the number of bins. The weaker bound that holds is proved and is sharp (C109_bins_partial, C109_bins_sharp). The maximum gap analysis is not covered."
  },
  {
   "property": "C110",
   "status": "proved",
   "theorems": [
    "Obscura.C110_program",
    "Obscura.C110_call",
    "Obscura.C110_repeated",
    "Obscura.C110_order"
   ],
   "note": "No assumption on the files: malformed and missing files are included, and so are the programs that end. The data files do not change while the program runs."
  },
  {
   "property": "C111",
   "status": "proved",
   "theorems": [
    "Obscura.C111_isotope",
    "Obscura.C111_bins",
    "Obscura.C111_limit",
    "Obscura.C111_end"
   ],
   "note": "Exact integration and root finding; efficiencies between 0 and 1; energies of bins above 0. Limits for binned analyses. With an energy resolution the rates must be integrable."
  },
  {
   "property": "C112",
   "status": "partial",
   "theorems": [
    "Obscura.C112_isotope",
    "Obscura.C112_nucleus",
    "Obscura.C112_rate",
    "Obscura.C112_kinematics",
    "Obscura.C112_events",
    "Obscura.C112_blind_partial",
    "Obscura.C112_fails_curve",
    "Obscura.C112_fails_run",
    "Obscura.C112_shipped"
   ],
   "note": "The equivalence with the target of active isotopes is proved in full. The last sentence fails: Upper_Limit_Curve dereferences the minimum of an empty list (C112_fails_curve), and the program ends in undefined behaviour before any limit is written (C112_fails_run). C112_blind_partial: no events and no limit from Upper_Limit. C112_shipped: the 45 elements of the shipped table that are concerned, argon and calcium among them."
  },
  {
   "property": "C113",
   "status": "proved",
   "theorems": [
    "Obscura.C113_crystal",
    "Obscura.C113_pairs",
    "Obscura.C113_events",
    "Obscura.C113_limit",
    "Obscura.C113_end"
   ],
   "note": "For counting detectors with a threshold in electron-hole pairs. C113_limit gives the limit at every mass from the first one on, including where the result is -1; C113_end is its consequence for limit curves. Exact integration and root finding are assumed of the external library."
  },
  {
   "property": "C114",
   "status": "partial",
   "theorems": [
    "Obscura.C114_crystal",
    "Obscura.C114_pairs",
    "Obscura.C114_total",
    "Obscura.C114_electron_recoil",
    "Obscura.C114_electrons_partial",
    "Obscura.C114_fails_electrons",
    "Obscura.C114_crystal_defined",
    "Obscura.C114_electron_recoil_defined",
    "Obscura.C114_pairs_falling"
   ],
   "note": "Proved for spectra of crystals and shells and for the rates of electron-hole pairs; C114_crystal_defined and C114_electron_recoil_defined show that the variations are finite for every particle and speed distribution if those of the tabulated form factors are. For numbers of electrons the claim fails: all N points of a grid with N-1 steps count, so a spectrum that is constant along the grid is overestimated by N/(N-1) (C114_fails_electrons). C114_electrons_partial: the bound with the additional value at the lowest tabulated energy."
  },
  {
   "property": "C115",
   "status": "proved",
   "theorems": [
    "Obscura.C115_nucleus",
    "Obscura.C115_electron",
    "Obscura.C115_base",
    "Obscura.C115_recoil",
    "Obscura.C115_electron_momentum",
    "Obscura.C115_histogram",
    "Obscura.C115_energy_loss",
    "Obscura.C115_tolerance"
   ],
   "note": "Spec/Sampling: probability is the Lebesgue measure of the random numbers in [0,1] for which an event happens. The uniform generator of the library (Sample_Uniform with a Mersenne twister) is external: an ideal generator is assumed. C115_tolerance replaces the exact root finder by one that stops within a tolerance."
  },
  {
   "property": "C116",
   "status": "partial",
   "theorems": [
    "Obscura.C116_speeds",
    "Obscura.C116_eta_partial",
    "Obscura.C116_fails_eta",
    "Obscura.C116_recoil",
    "Obscura.C116_recoil_partial",
    "Obscura.C116_standard_halo_partial",
    "Obscura.C116_fails_form_factor",
    "Obscura.C116_recoil_mass",
    "Obscura.C116_crystal",
    "Obscura.C116_fails_table_end",
    "Obscura.C116_crystal_mass",
    "Obscura.C116_crystal_pairs",
    "Obscura.C116_crystal_events",
    "Obscura.C116_limit",
    "Obscura.C116_crystal_limit",
    "Obscura.C116_rate",
    "Obscura.C116_bins",
    "Obscura.C116_counting",
    "Obscura.C116_nuclear_limit",
    "Obscura.C116_binned_limit"
   ],
   "note": "Proved for speeds, recoil spectra without form factor, rates of nuclei and semiconductors and events and limits of nuclear detectors (counted and binned) and semiconductors as functions of the mass; for counted nuclear recoils the integral of the library's interpolation is assumed to depend continuously on the tabulated values. Fails at three points: Eta_Function drops from a positive number to zero 1e-8 v_0 below the maximal speed (C116_fails_eta), the Helm form factor jumps where its formula begins (C116_fails_form_factor), and spectra of semiconductors end abruptly at 50 eV (C116_fails_table_end). The partial theorems give continuity away from these points."
  },
  {
   "property": "C117",
   "status": "partial",
   "theorems": [
    "Obscura.C117_recoils",
    "Obscura.C117_rate",
    "Obscura.C117_bins",
    "Obscura.C117_crystal",
    "Obscura.C117_crystal_events",
    "Obscura.C117_crystal_bins",
    "Obscura.C117_electrons",
    "Obscura.C117_migdal",
    "Obscura.C117_electron_events",
    "Obscura.C117_migdal_events",
    "Obscura.C117_limit",
    "Obscura.C117_limit_binned",
    "Obscura.C117_escape",
    "Obscura.C117_counting_partial",
    "Obscura.C117_curve",
    "Obscura.C117_set_escape"
   ],
   "note": "For all kinds of detectors. Electrons from atoms by scattering: for halos that end at the same speed, because the grid of momenta depends on the maximal speed. Counted nuclear recoils: C117_counting_partial, if the interpolation of both spectra by the library is exact; an interpolation need not respect an order of functions. Limit curves follow from the comparison of the expected events."
  },
  {
   "property": "C118",
   "status": "partial",
   "theorems": [
    "Obscura.C118_recoils",
    "Obscura.C118_rate",
    "Obscura.C118_bins",
    "Obscura.C118_counting_partial",
    "Obscura.C118_crystal",
    "Obscura.C118_crystal_events",
    "Obscura.C118_crystal_bins",
    "Obscura.C118_electrons",
    "Obscura.C118_migdal",
    "Obscura.C118_electron_events",
    "Obscura.C118_migdal_events",
    "Obscura.C118_limit",
    "Obscura.C118_between",
    "Obscura.C118_sausage"
   ],
   "note": "For all kinds of detectors; the three halos cover the same speeds. Counted nuclear recoils go through an interpolation of the library: the theorem on them (partial) assumes that its integral over the whole grid is that of the spectrum."
  },
  {
   "property": "C119",
   "status": "partial",
   "theorems": [
    "Obscura.C119_recoils",
    "Obscura.C119_events",
    "Obscura.C119_efficiencies",
    "Obscura.C119_falling",
    "Obscura.C119_blind",
    "Obscura.C119_fails_small_recoils"
   ],
   "note": "For exact integrals; the lower bound for detectors without efficiency tables (C119_efficiencies: tables only remove events). The last sentence fails: recoils below twice the resolution are dropped even if they lie above the threshold (C119_fails_small_recoils, C119_blind)."
  },
  {
   "property": "C120",
   "status": "proved",
   "theorems": [
    "Obscura.C120_form_factor",
    "Obscura.C120_total",
    "Obscura.C120_isotope",
    "Obscura.C120_rate",
    "Obscura.C120_bins",
    "Obscura.C120_limit",
    "Obscura.C120_curve"
   ],
   "note": "Form factor, total cross section and isotope theorems without restrictions on the detector; detectors with any energy resolution; bins, limits and limit curves for binned analyses. Exact integrals for resolutions, bins and limits."
  },
  {
   "property": "C121",
   "status": "proved",
   "theorems": [
    "Obscura.C121_electrons",
    "Obscura.C121_nuclei",
    "Obscura.C121_limit",
    "Obscura.C121_limit_binned"
   ],
   "note": "Rates and signals whatever the numerical routines; limits with an exact root finder, where both are found."
  }
 ]
}