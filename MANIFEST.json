{
 "claims": [
  {
   "property": "C01",
   "status": "proved",
   "theorems": [
    "Polymers.Props.C01_integrate_1d_affine_exact",
    "Polymers.Props.C01_integrate_1d_linear",
    "Polymers.Props.C01_integrate_1d_monotone",
    "Polymers.Props.C01_integrate_1d_strict_mono"
   ],
   "note": ""
  },
  {
   "property": "C02",
   "status": "proved",
   "theorems": [
    "Polymers.Props.C02_integrate_1d_error_bound",
    "Polymers.Props.C02_integrate_1d_tendsto"
   ],
   "note": ""
  },
  {
   "property": "C03",
   "status": "proved",
   "theorems": [
    "Polymers.Props.C03_integrate_2d_iterated",
    "Polymers.Props.C03_integrate_2d_product",
    "Polymers.Props.C03_integrate_2d_swap",
    "Polymers.Props.C03_integrate_2d_symmetric_eq",
    "Polymers.Props.C03_integrate_grid_eq"
   ],
   "note": ""
  },
  {
   "property": "C04",
   "status": "proved",
   "theorems": [
    "Polymers.Props.C04_newton_affine",
    "Polymers.Props.C04_newton_exact_guess",
    "Polymers.Props.C04_newton_result",
    "Polymers.Props.C04_newton_steps"
   ],
   "note": ""
  },
  {
   "property": "C05",
   "status": "proved",
   "theorems": [
    "Polymers.Props.C05_newton_concave",
    "Polymers.Props.C05_newton_concave_terminates_by_tolerance"
   ],
   "note": ""
  },
  {
   "property": "C06",
   "status": "proved",
   "theorems": [
    "Polymers.Props.C06_powered_newton_result",
    "Polymers.Props.C06_powered_one",
    "Polymers.Props.C06_powered_undefined_at_root"
   ],
   "note": ""
  },
  {
   "property": "C07",
   "status": "proved",
   "theorems": [
    "Polymers.Props.C07_full_extension",
    "Polymers.Props.C07_inverse_langevin",
    "Polymers.Props.C07_negative",
    "Polymers.Props.C07_small"
   ],
   "note": ""
  },
  {
   "property": "C08",
   "status": "proved",
   "theorems": [
    "Polymers.Props.C08_lambert_w_between",
    "Polymers.Props.C08_lambert_w_converges",
    "Polymers.Props.C08_lambert_w_fixed_of_solution",
    "Polymers.Props.C08_lambert_w_fixed_points",
    "Polymers.Props.C08_lambert_w_negative_side",
    "Polymers.Props.C08_lambert_w_updates",
    "Polymers.Props.C08_lambert_w_zero"
   ],
   "note": ""
  },
  {
   "property": "C09",
   "status": "proved",
   "theorems": [
    "Polymers.Props.C09_derivative",
    "Polymers.Props.C09_negative_arguments",
    "Polymers.Props.C09_other_orders",
    "Polymers.Props.C09_parity_lost",
    "Polymers.Props.C09_small_range"
   ],
   "note": ""
  },
  {
   "property": "C10",
   "status": "proved",
   "theorems": [
    "Polymers.Props.C10_erf_accuracy",
    "Polymers.Props.C10_erf_add_erfc",
    "Polymers.Props.C10_erf_negative_failure",
    "Polymers.Props.C10_erf_odd",
    "Polymers.Props.C10_erfc_bound",
    "Polymers.Props.C10_erfc_relative",
    "Polymers.Props.C10_erfc_relative_far",
    "Polymers.Props.C10_erfcx_relative"
   ],
   "note": ""
  },
  {
   "property": "C11",
   "status": "proved",
   "theorems": [
    "Polymers.Props.C11_ideal_force_eq",
    "Polymers.Props.C11_ideal_force_is_gradient",
    "Polymers.Props.C11_ideal_relative"
   ],
   "note": ""
  },
  {
   "property": "C12",
   "status": "proved",
   "theorems": [
    "Polymers.Props.C12_ideal_density_integral",
    "Polymers.Props.C12_ideal_density_pos",
    "Polymers.Props.C12_ideal_distribution_scales",
    "Polymers.Props.C12_ideal_radial_integral"
   ],
   "note": ""
  },
  {
   "property": "C13",
   "status": "proved",
   "theorems": [
    "Polymers.Props.C13_ideal_inverse",
    "Polymers.Props.C13_ideal_length_eq",
    "Polymers.Props.C13_ideal_length_is_gradient",
    "Polymers.Props.C13_ideal_relative"
   ],
   "note": ""
  },
  {
   "property": "C14",
   "status": "proved",
   "theorems": [
    "Polymers.Props.C14_fjc_bounds",
    "Polymers.Props.C14_fjc_length_is_gradient",
    "Polymers.Props.C14_fjc_length_lt_contour",
    "Polymers.Props.C14_fjc_limits",
    "Polymers.Props.C14_fjc_odd",
    "Polymers.Props.C14_fjc_strictMono"
   ],
   "note": ""
  },
  {
   "property": "C15",
   "status": "proved",
   "theorems": [
    "Polymers.Props.C15_efjc_isometric_asymptotic_alternative_legendre_forces",
    "Polymers.Props.C15_efjc_isometric_asymptotic_alternative_legendre_helmholtz",
    "Polymers.Props.C15_efjc_isometric_asymptotic_legendre_forces",
    "Polymers.Props.C15_efjc_isometric_asymptotic_legendre_helmholtz",
    "Polymers.Props.C15_efjc_isometric_asymptotic_reduced_legendre_forces",
    "Polymers.Props.C15_efjc_isometric_asymptotic_reduced_legendre_helmholtz",
    "Polymers.Props.C15_efjc_isotensional_asymptotic_alternative_gibbs",
    "Polymers.Props.C15_efjc_isotensional_asymptotic_alternative_legendre_helmholtz",
    "Polymers.Props.C15_efjc_isotensional_asymptotic_alternative_lengths",
    "Polymers.Props.C15_efjc_isotensional_asymptotic_gibbs",
    "Polymers.Props.C15_efjc_isotensional_asymptotic_legendre_helmholtz",
    "Polymers.Props.C15_efjc_isotensional_asymptotic_lengths",
    "Polymers.Props.C15_efjc_isotensional_asymptotic_reduced_gibbs",
    "Polymers.Props.C15_efjc_isotensional_asymptotic_reduced_legendre_helmholtz",
    "Polymers.Props.C15_efjc_isotensional_asymptotic_reduced_lengths",
    "Polymers.Props.C15_efjc_isotensional_gibbs",
    "Polymers.Props.C15_efjc_isotensional_legendre_helmholtz",
    "Polymers.Props.C15_efjc_isotensional_lengths",
    "Polymers.Props.C15_fjc_isometric_forces",
    "Polymers.Props.C15_fjc_isometric_helmholtz",
    "Polymers.Props.C15_fjc_isometric_legendre_forces",
    "Polymers.Props.C15_fjc_isometric_legendre_gibbs",
    "Polymers.Props.C15_fjc_isometric_legendre_helmholtz",
    "Polymers.Props.C15_fjc_isotensional_gibbs",
    "Polymers.Props.C15_fjc_isotensional_legendre_helmholtz",
    "Polymers.Props.C15_fjc_isotensional_lengths",
    "Polymers.Props.C15_fjc_modified_canonical_forces",
    "Polymers.Props.C15_fjc_modified_canonical_gibbs",
    "Polymers.Props.C15_fjc_modified_canonical_helmholtz",
    "Polymers.Props.C15_fjc_modified_canonical_lengths",
    "Polymers.Props.C15_fjc_strong_potential_forces",
    "Polymers.Props.C15_fjc_strong_potential_helmholtz",
    "Polymers.Props.C15_fjc_weak_potential_forces",
    "Polymers.Props.C15_fjc_weak_potential_gibbs",
    "Polymers.Props.C15_fjc_weak_potential_lengths",
    "Polymers.Props.C15_ideal_isometric_forces",
    "Polymers.Props.C15_ideal_isometric_helmholtz",
    "Polymers.Props.C15_ideal_isotensional_gibbs",
    "Polymers.Props.C15_ideal_isotensional_lengths",
    "Polymers.Props.C15_lennard_jones_isometric_asymptotic_legendre_forces",
    "Polymers.Props.C15_lennard_jones_isometric_asymptotic_legendre_helmholtz",
    "Polymers.Props.C15_lennard_jones_isometric_asymptotic_reduced_legendre_forces",
    "Polymers.Props.C15_lennard_jones_isometric_asymptotic_reduced_legendre_helmholtz",
    "Polymers.Props.C15_lennard_jones_isotensional_asymptotic_gibbs",
    "Polymers.Props.C15_lennard_jones_isotensional_asymptotic_legendre_helmholtz",
    "Polymers.Props.C15_lennard_jones_isotensional_asymptotic_lengths",
    "Polymers.Props.C15_lennard_jones_isotensional_asymptotic_reduced_gibbs",
    "Polymers.Props.C15_lennard_jones_isotensional_asymptotic_reduced_legendre_helmholtz",
    "Polymers.Props.C15_lennard_jones_isotensional_asymptotic_reduced_lengths",
    "Polymers.Props.C15_lennard_jones_isotensional_gibbs",
    "Polymers.Props.C15_lennard_jones_isotensional_legendre_helmholtz",
    "Polymers.Props.C15_lennard_jones_isotensional_lengths",
    "Polymers.Props.C15_log_squared_isometric_asymptotic_legendre_forces",
    "Polymers.Props.C15_log_squared_isometric_asymptotic_legendre_helmholtz",
    "Polymers.Props.C15_log_squared_isometric_asymptotic_reduced_legendre_forces",
    "Polymers.Props.C15_log_squared_isometric_asymptotic_reduced_legendre_helmholtz",
    "Polymers.Props.C15_log_squared_isotensional_asymptotic_gibbs",
    "Polymers.Props.C15_log_squared_isotensional_asymptotic_legendre_helmholtz",
    "Polymers.Props.C15_log_squared_isotensional_asymptotic_lengths",
    "Polymers.Props.C15_log_squared_isotensional_asymptotic_reduced_gibbs",
    "Polymers.Props.C15_log_squared_isotensional_asymptotic_reduced_legendre_helmholtz",
    "Polymers.Props.C15_log_squared_isotensional_asymptotic_reduced_lengths",
    "Polymers.Props.C15_log_squared_isotensional_gibbs",
    "Polymers.Props.C15_log_squared_isotensional_legendre_helmholtz",
    "Polymers.Props.C15_log_squared_isotensional_lengths",
    "Polymers.Props.C15_morse_isometric_asymptotic_legendre_forces",
    "Polymers.Props.C15_morse_isometric_asymptotic_legendre_helmholtz",
    "Polymers.Props.C15_morse_isometric_asymptotic_reduced_legendre_forces",
    "Polymers.Props.C15_morse_isometric_asymptotic_reduced_legendre_helmholtz",
    "Polymers.Props.C15_morse_isotensional_asymptotic_gibbs",
    "Polymers.Props.C15_morse_isotensional_asymptotic_legendre_helmholtz",
    "Polymers.Props.C15_morse_isotensional_asymptotic_lengths",
    "Polymers.Props.C15_morse_isotensional_asymptotic_reduced_gibbs",
    "Polymers.Props.C15_morse_isotensional_asymptotic_reduced_legendre_helmholtz",
    "Polymers.Props.C15_morse_isotensional_asymptotic_reduced_lengths",
    "Polymers.Props.C15_morse_isotensional_gibbs",
    "Polymers.Props.C15_morse_isotensional_legendre_helmholtz",
    "Polymers.Props.C15_morse_isotensional_lengths",
    "Polymers.Props.C15_swfjc_isometric_legendre_forces",
    "Polymers.Props.C15_swfjc_isometric_legendre_helmholtz",
    "Polymers.Props.C15_swfjc_isotensional_gibbs",
    "Polymers.Props.C15_swfjc_isotensional_legendre_helmholtz",
    "Polymers.Props.C15_swfjc_isotensional_lengths",
    "Polymers.Props.C15_wlc_isometric_forces",
    "Polymers.Props.C15_wlc_isometric_helmholtz",
    "Polymers.Props.C15_wlc_isometric_legendre_gibbs",
    "Polymers.Props.C15_wlc_isotensional_gibbs",
    "Polymers.Props.C15_wlc_isotensional_legendre_helmholtz",
    "Polymers.Props.C15_wlc_isotensional_lengths"
   ],
   "note": ""
  },
  {
   "property": "C16",
   "status": "proved",
   "theorems": [
    "Polymers.Props.C16_mass_efjc_isometric_asymptotic_alternative_legendre_helmholtz",
    "Polymers.Props.C16_mass_efjc_isometric_asymptotic_legendre_helmholtz",
    "Polymers.Props.C16_mass_efjc_isometric_asymptotic_reduced_legendre_helmholtz",
    "Polymers.Props.C16_mass_efjc_isotensional_asymptotic_alternative_gibbs",
    "Polymers.Props.C16_mass_efjc_isotensional_asymptotic_alternative_legendre_helmholtz",
    "Polymers.Props.C16_mass_efjc_isotensional_asymptotic_gibbs",
    "Polymers.Props.C16_mass_efjc_isotensional_asymptotic_legendre_helmholtz",
    "Polymers.Props.C16_mass_efjc_isotensional_asymptotic_reduced_gibbs",
    "Polymers.Props.C16_mass_efjc_isotensional_asymptotic_reduced_legendre_helmholtz",
    "Polymers.Props.C16_mass_efjc_isotensional_gibbs",
    "Polymers.Props.C16_mass_efjc_isotensional_legendre_helmholtz",
    "Polymers.Props.C16_mass_fjc_isometric_helmholtz",
    "Polymers.Props.C16_mass_fjc_isometric_legendre_gibbs",
    "Polymers.Props.C16_mass_fjc_isometric_legendre_helmholtz",
    "Polymers.Props.C16_mass_fjc_isotensional_gibbs",
    "Polymers.Props.C16_mass_fjc_isotensional_legendre_helmholtz",
    "Polymers.Props.C16_mass_fjc_modified_canonical_helmholtz",
    "Polymers.Props.C16_mass_fjc_strong_potential_helmholtz",
    "Polymers.Props.C16_mass_fjc_weak_potential_gibbs",
    "Polymers.Props.C16_mass_ideal_isometric_helmholtz",
    "Polymers.Props.C16_mass_ideal_isotensional_gibbs",
    "Polymers.Props.C16_mass_lennard_jones_isometric_asymptotic_legendre_helmholtz",
    "Polymers.Props.C16_mass_lennard_jones_isometric_asymptotic_reduced_legendre_helmholtz",
    "Polymers.Props.C16_mass_lennard_jones_isotensional_asymptotic_gibbs",
    "Polymers.Props.C16_mass_lennard_jones_isotensional_asymptotic_legendre_helmholtz",
    "Polymers.Props.C16_mass_lennard_jones_isotensional_asymptotic_reduced_gibbs",
    "Polymers.Props.C16_mass_lennard_jones_isotensional_asymptotic_reduced_legendre_helmholtz",
    "Polymers.Props.C16_mass_lennard_jones_isotensional_gibbs",
    "Polymers.Props.C16_mass_lennard_jones_isotensional_legendre_helmholtz",
    "Polymers.Props.C16_mass_log_squared_isometric_asymptotic_legendre_helmholtz",
    "Polymers.Props.C16_mass_log_squared_isometric_asymptotic_reduced_legendre_helmholtz",
    "Polymers.Props.C16_mass_log_squared_isotensional_asymptotic_gibbs",
    "Polymers.Props.C16_mass_log_squared_isotensional_asymptotic_legendre_helmholtz",
    "Polymers.Props.C16_mass_log_squared_isotensional_asymptotic_reduced_gibbs",
    "Polymers.Props.C16_mass_log_squared_isotensional_asymptotic_reduced_legendre_helmholtz",
    "Polymers.Props.C16_mass_log_squared_isotensional_gibbs",
    "Polymers.Props.C16_mass_log_squared_isotensional_legendre_helmholtz",
    "Polymers.Props.C16_mass_morse_isometric_asymptotic_legendre_helmholtz",
    "Polymers.Props.C16_mass_morse_isometric_asymptotic_reduced_legendre_helmholtz",
    "Polymers.Props.C16_mass_morse_isotensional_asymptotic_gibbs",
    "Polymers.Props.C16_mass_morse_isotensional_asymptotic_legendre_helmholtz",
    "Polymers.Props.C16_mass_morse_isotensional_asymptotic_reduced_gibbs",
    "Polymers.Props.C16_mass_morse_isotensional_asymptotic_reduced_legendre_helmholtz",
    "Polymers.Props.C16_mass_morse_isotensional_gibbs",
    "Polymers.Props.C16_mass_morse_isotensional_legendre_helmholtz",
    "Polymers.Props.C16_mass_swfjc_isometric_legendre_helmholtz",
    "Polymers.Props.C16_mass_swfjc_isotensional_gibbs",
    "Polymers.Props.C16_mass_swfjc_isotensional_legendre_helmholtz",
    "Polymers.Props.C16_mass_wlc_isometric_helmholtz",
    "Polymers.Props.C16_mass_wlc_isometric_legendre_gibbs",
    "Polymers.Props.C16_mass_wlc_isotensional_gibbs",
    "Polymers.Props.C16_mass_wlc_isotensional_legendre_helmholtz",
    "Polymers.Props.C16_reference_efjc_isometric_asymptotic_alternative_legendre_helmholtz",
    "Polymers.Props.C16_reference_efjc_isometric_asymptotic_legendre_helmholtz",
    "Polymers.Props.C16_reference_efjc_isometric_asymptotic_reduced_legendre_helmholtz",
    "Polymers.Props.C16_reference_efjc_isotensional_asymptotic_alternative_gibbs",
    "Polymers.Props.C16_reference_efjc_isotensional_asymptotic_alternative_legendre_helmholtz",
    "Polymers.Props.C16_reference_efjc_isotensional_asymptotic_gibbs",
    "Polymers.Props.C16_reference_efjc_isotensional_asymptotic_legendre_helmholtz",
    "Polymers.Props.C16_reference_efjc_isotensional_asymptotic_reduced_gibbs",
    "Polymers.Props.C16_reference_efjc_isotensional_asymptotic_reduced_legendre_helmholtz",
    "Polymers.Props.C16_reference_efjc_isotensional_gibbs",
    "Polymers.Props.C16_reference_efjc_isotensional_legendre_helmholtz",
    "Polymers.Props.C16_reference_fjc_isometric_helmholtz",
    "Polymers.Props.C16_reference_fjc_isometric_legendre_gibbs",
    "Polymers.Props.C16_reference_fjc_isometric_legendre_helmholtz",
    "Polymers.Props.C16_reference_fjc_isotensional_gibbs",
    "Polymers.Props.C16_reference_fjc_isotensional_legendre_helmholtz",
    "Polymers.Props.C16_reference_fjc_modified_canonical_gibbs",
    "Polymers.Props.C16_reference_fjc_modified_canonical_helmholtz",
    "Polymers.Props.C16_reference_fjc_strong_potential_helmholtz",
    "Polymers.Props.C16_reference_fjc_weak_potential_gibbs",
    "Polymers.Props.C16_reference_lennard_jones_isometric_asymptotic_legendre_helmholtz",
    "Polymers.Props.C16_reference_lennard_jones_isometric_asymptotic_reduced_legendre_helmholtz",
    "Polymers.Props.C16_reference_lennard_jones_isotensional_asymptotic_gibbs",
    "Polymers.Props.C16_reference_lennard_jones_isotensional_asymptotic_legendre_helmholtz",
    "Polymers.Props.C16_reference_lennard_jones_isotensional_asymptotic_reduced_gibbs",
    "Polymers.Props.C16_reference_lennard_jones_isotensional_asymptotic_reduced_legendre_helmholtz",
    "Polymers.Props.C16_reference_lennard_jones_isotensional_gibbs",
    "Polymers.Props.C16_reference_lennard_jones_isotensional_legendre_helmholtz",
    "Polymers.Props.C16_reference_log_squared_isometric_asymptotic_legendre_helmholtz",
    "Polymers.Props.C16_reference_log_squared_isometric_asymptotic_reduced_legendre_helmholtz",
    "Polymers.Props.C16_reference_log_squared_isotensional_asymptotic_gibbs",
    "Polymers.Props.C16_reference_log_squared_isotensional_asymptotic_legendre_helmholtz",
    "Polymers.Props.C16_reference_log_squared_isotensional_asymptotic_reduced_gibbs",
    "Polymers.Props.C16_reference_log_squared_isotensional_asymptotic_reduced_legendre_helmholtz",
    "Polymers.Props.C16_reference_log_squared_isotensional_gibbs",
    "Polymers.Props.C16_reference_log_squared_isotensional_legendre_helmholtz",
    "Polymers.Props.C16_reference_morse_isometric_asymptotic_legendre_helmholtz",
    "Polymers.Props.C16_reference_morse_isometric_asymptotic_reduced_legendre_helmholtz",
    "Polymers.Props.C16_reference_morse_isotensional_asymptotic_gibbs",
    "Polymers.Props.C16_reference_morse_isotensional_asymptotic_legendre_helmholtz",
    "Polymers.Props.C16_reference_morse_isotensional_asymptotic_reduced_gibbs",
    "Polymers.Props.C16_reference_morse_isotensional_asymptotic_reduced_legendre_helmholtz",
    "Polymers.Props.C16_reference_morse_isotensional_gibbs",
    "Polymers.Props.C16_reference_morse_isotensional_legendre_helmholtz",
    "Polymers.Props.C16_reference_swfjc_isometric_legendre_helmholtz",
    "Polymers.Props.C16_reference_swfjc_isotensional_gibbs",
    "Polymers.Props.C16_reference_swfjc_isotensional_legendre_helmholtz",
    "Polymers.Props.C16_reference_wlc_isometric_helmholtz",
    "Polymers.Props.C16_reference_wlc_isometric_legendre_gibbs",
    "Polymers.Props.C16_reference_wlc_isotensional_gibbs",
    "Polymers.Props.C16_reference_wlc_isotensional_legendre_helmholtz"
   ],
   "note": "Worm-like chain isotensional energies: wherever the internal search succeeds (it does for persistence length at most 1/25 of the contour length)."
  },
  {
   "property": "C17",
   "status": "proved",
   "theorems": [
    "Polymers.Props.C17_fjc_isometric"
   ],
   "note": ""
  },
  {
   "property": "C18",
   "status": "proved",
   "theorems": [
    "Polymers.Props.C18_density_panics",
    "Polymers.Props.C18_density_value",
    "Polymers.Props.C18_force_panics",
    "Polymers.Props.C18_force_value",
    "Polymers.Props.C18_helmholtz_panics",
    "Polymers.Props.C18_helmholtz_value",
    "Polymers.Props.C18_zero_undefined"
   ],
   "note": ""
  },
  {
   "property": "C19",
   "status": "proved",
   "theorems": [
    "Polymers.Props.C19_fjc_isometric_legendre",
    "Polymers.Props.C19_fjc_isotensional_legendre"
   ],
   "note": ""
  },
  {
   "property": "C20",
   "status": "proved",
   "theorems": [
    "Polymers.Props.C20_force_balance",
    "Polymers.Props.C20_force_is_gradient",
    "Polymers.Props.C20_length_bounds",
    "Polymers.Props.C20_length_strictMono",
    "Polymers.Props.C20_partition"
   ],
   "note": ""
  },
  {
   "property": "C21",
   "status": "proved",
   "theorems": [
    "Polymers.Props.C21_strong_potential",
    "Polymers.Props.C21_weak_potential"
   ],
   "note": ""
  },
  {
   "property": "C22",
   "status": "proved",
   "theorems": [
    "Polymers.Props.C22_efjc_alternative_length_is_gradient",
    "Polymers.Props.C22_efjc_asymptotic_length_is_gradient",
    "Polymers.Props.C22_efjc_reduced_length_is_gradient"
   ],
   "note": ""
  },
  {
   "property": "C23",
   "status": "proved",
   "theorems": [
    "Polymers.Props.C23_efjc_reduced_excess",
    "Polymers.Props.C23_efjc_reduced_excess_length",
    "Polymers.Props.C23_efjc_reduced_strictMono",
    "Polymers.Props.C23_efjc_stiff_limit"
   ],
   "note": ""
  },
  {
   "property": "C24",
   "status": "proved",
   "theorems": [
    "Polymers.Props.C24_efjc_length_diverges",
    "Polymers.Props.C24_efjc_length_is_not_gradient"
   ],
   "note": ""
  },
  {
   "property": "C25",
   "status": "proved",
   "theorems": [
    "Polymers.Props.C25_efjc_alternative",
    "Polymers.Props.C25_efjc_asymptotic",
    "Polymers.Props.C25_efjc_reduced",
    "Polymers.Props.C25_morse_asymptotic",
    "Polymers.Props.C25_morse_reduced",
    "Polymers.Props.C25_swfjc"
   ],
   "note": "Lennard-Jones and log-squared chains pass another slope; see C57."
  },
  {
   "property": "C26",
   "status": "proved",
   "theorems": [
    "Polymers.Props.C26_efjc_alternative",
    "Polymers.Props.C26_efjc_asymptotic",
    "Polymers.Props.C26_efjc_full_extension",
    "Polymers.Props.C26_efjc_reduced",
    "Polymers.Props.C26_fjc",
    "Polymers.Props.C26_lennard_jones_asymptotic",
    "Polymers.Props.C26_lennard_jones_reduced",
    "Polymers.Props.C26_log_squared_asymptotic",
    "Polymers.Props.C26_log_squared_reduced",
    "Polymers.Props.C26_morse_asymptotic",
    "Polymers.Props.C26_morse_reduced",
    "Polymers.Props.C26_swfjc_narrow_well",
    "Polymers.Props.C26_swfjc_wide_well"
   ],
   "note": "Proved for the freely jointed chain, the full, reduced and alternative asymptotic extensible chains and the full and reduced asymptotic Morse, log-squared and Lennard-Jones chains and the square-well chain with wells at most 0.9 of a link length wide, refuted for wide square wells. Other models: C25 gives the stopping rule; convergence of their solvers is not claimed."
  },
  {
   "property": "C27",
   "status": "proved",
   "theorems": [
    "Polymers.Props.C27_swfjc_length_bounds",
    "Polymers.Props.C27_swfjc_length_is_gradient",
    "Polymers.Props.C27_swfjc_narrow_well"
   ],
   "note": ""
  },
  {
   "property": "C28",
   "status": "proved",
   "theorems": [
    "Polymers.Props.C28_swfjc_isotensional_legendre",
    "Polymers.Props.C28_swfjc_normalised"
   ],
   "note": "In exact arithmetic. For wells wider than eight link lengths some forces on the grid are far from the solution (C26_swfjc_wide_well)."
  },
  {
   "property": "C29",
   "status": "proved",
   "theorems": [
    "Polymers.Props.C29_lennard_jones_length_is_gradient",
    "Polymers.Props.C29_lennard_jones_partition",
    "Polymers.Props.C29_log_squared_length_is_gradient",
    "Polymers.Props.C29_log_squared_partition",
    "Polymers.Props.C29_morse_length_is_gradient",
    "Polymers.Props.C29_morse_partition"
   ],
   "note": ""
  },
  {
   "property": "C30",
   "status": "proved",
   "theorems": [
    "Polymers.Props.C30_morse_asymptotic_length_is_gradient",
    "Polymers.Props.C30_morse_force_balance",
    "Polymers.Props.C30_morse_reduced_length_is_gradient"
   ],
   "note": ""
  },
  {
   "property": "C31",
   "status": "proved",
   "theorems": [
    "Polymers.Props.C31_lennard_jones_asymptotic_gradient",
    "Polymers.Props.C31_lennard_jones_reduced_gradient",
    "Polymers.Props.C31_lennard_jones_stretch",
    "Polymers.Props.C31_lennard_jones_stretch_differentiable",
    "Polymers.Props.C31_log_squared_asymptotic_gradient",
    "Polymers.Props.C31_log_squared_reduced_gradient",
    "Polymers.Props.C31_log_squared_stretch"
   ],
   "note": ""
  },
  {
   "property": "C32",
   "status": "proved",
   "theorems": [
    "Polymers.Props.C32_lennard_jones_max_force",
    "Polymers.Props.C32_log_squared_max_force",
    "Polymers.Props.C32_morse_max_force"
   ],
   "note": ""
  },
  {
   "property": "C33",
   "status": "proved",
   "theorems": [
    "Polymers.Props.C33_wlc_distribution_positive",
    "Polymers.Props.C33_wlc_force",
    "Polymers.Props.C33_wlc_isometric_legendre"
   ],
   "note": ""
  },
  {
   "property": "C34",
   "status": "proved",
   "theorems": [
    "Polymers.Props.C34_wlc_gradient",
    "Polymers.Props.C34_wlc_gradient_flexible",
    "Polymers.Props.C34_wlc_monotone",
    "Polymers.Props.C34_wlc_partition",
    "Polymers.Props.C34_wlc_range"
   ],
   "note": ""
  },
  {
   "property": "C35",
   "status": "proved",
   "theorems": [
    "Polymers.Props.C35_wlc_exact_start",
    "Polymers.Props.C35_wlc_gibbs",
    "Polymers.Props.C35_wlc_legendre",
    "Polymers.Props.C35_wlc_lengths"
   ],
   "note": ""
  },
  {
   "property": "C36",
   "status": "proved",
   "theorems": [
    "Polymers.Props.C36_scales_fjc_isometric_distribution",
    "Polymers.Props.C36_scales_fjc_isometric_legendre_distribution",
    "Polymers.Props.C36_scales_swfjc_isometric_legendre_distribution",
    "Polymers.Props.C36_scales_wlc_isometric_distribution",
    "Polymers.Props.C36_sum_fjc_isometric_legendre_distribution",
    "Polymers.Props.C36_sum_swfjc_isometric_legendre",
    "Polymers.Props.C36_sum_wlc_isometric_distribution"
   ],
   "note": "In exact arithmetic. For square wells wider than eight link lengths some forces on the grid are far from the solution (C26_swfjc_wide_well)."
  },
  {
   "property": "C37",
   "status": "proved",
   "theorems": [
    "Polymers.Props.C37_efjc",
    "Polymers.Props.C37_efjc_isometric",
    "Polymers.Props.C37_efjc_isometric_asymptotic",
    "Polymers.Props.C37_efjc_isometric_asymptotic_alternative",
    "Polymers.Props.C37_efjc_isometric_asymptotic_alternative_legendre",
    "Polymers.Props.C37_efjc_isometric_asymptotic_legendre",
    "Polymers.Props.C37_efjc_isometric_asymptotic_reduced",
    "Polymers.Props.C37_efjc_isometric_asymptotic_reduced_legendre",
    "Polymers.Props.C37_efjc_isotensional",
    "Polymers.Props.C37_efjc_isotensional_asymptotic",
    "Polymers.Props.C37_efjc_isotensional_asymptotic_alternative",
    "Polymers.Props.C37_efjc_isotensional_asymptotic_alternative_legendre",
    "Polymers.Props.C37_efjc_isotensional_asymptotic_legendre",
    "Polymers.Props.C37_efjc_isotensional_asymptotic_reduced",
    "Polymers.Props.C37_efjc_isotensional_asymptotic_reduced_legendre",
    "Polymers.Props.C37_efjc_isotensional_legendre",
    "Polymers.Props.C37_efjc_thermodynamics",
    "Polymers.Props.C37_fjc",
    "Polymers.Props.C37_fjc_isometric",
    "Polymers.Props.C37_fjc_isometric_legendre",
    "Polymers.Props.C37_fjc_isotensional",
    "Polymers.Props.C37_fjc_isotensional_legendre",
    "Polymers.Props.C37_fjc_modified_canonical",
    "Polymers.Props.C37_fjc_modified_canonical_asymptotic",
    "Polymers.Props.C37_fjc_modified_canonical_asymptotic_strong_potential",
    "Polymers.Props.C37_fjc_modified_canonical_asymptotic_weak_potential",
    "Polymers.Props.C37_fjc_thermodynamics",
    "Polymers.Props.C37_ideal",
    "Polymers.Props.C37_ideal_isometric",
    "Polymers.Props.C37_ideal_isotensional",
    "Polymers.Props.C37_ideal_thermodynamics",
    "Polymers.Props.C37_lennard_jones",
    "Polymers.Props.C37_lennard_jones_isometric",
    "Polymers.Props.C37_lennard_jones_isometric_asymptotic",
    "Polymers.Props.C37_lennard_jones_isometric_asymptotic_legendre",
    "Polymers.Props.C37_lennard_jones_isometric_asymptotic_reduced",
    "Polymers.Props.C37_lennard_jones_isometric_asymptotic_reduced_legendre",
    "Polymers.Props.C37_lennard_jones_isotensional",
    "Polymers.Props.C37_lennard_jones_isotensional_asymptotic",
    "Polymers.Props.C37_lennard_jones_isotensional_asymptotic_legendre",
    "Polymers.Props.C37_lennard_jones_isotensional_asymptotic_reduced",
    "Polymers.Props.C37_lennard_jones_isotensional_asymptotic_reduced_legendre",
    "Polymers.Props.C37_lennard_jones_isotensional_legendre",
    "Polymers.Props.C37_lennard_jones_thermodynamics",
    "Polymers.Props.C37_log_squared",
    "Polymers.Props.C37_log_squared_isometric",
    "Polymers.Props.C37_log_squared_isometric_asymptotic",
    "Polymers.Props.C37_log_squared_isometric_asymptotic_legendre",
    "Polymers.Props.C37_log_squared_isometric_asymptotic_reduced",
    "Polymers.Props.C37_log_squared_isometric_asymptotic_reduced_legendre",
    "Polymers.Props.C37_log_squared_isotensional",
    "Polymers.Props.C37_log_squared_isotensional_asymptotic",
    "Polymers.Props.C37_log_squared_isotensional_asymptotic_legendre",
    "Polymers.Props.C37_log_squared_isotensional_asymptotic_reduced",
    "Polymers.Props.C37_log_squared_isotensional_asymptotic_reduced_legendre",
    "Polymers.Props.C37_log_squared_isotensional_legendre",
    "Polymers.Props.C37_log_squared_thermodynamics",
    "Polymers.Props.C37_morse",
    "Polymers.Props.C37_morse_isometric",
    "Polymers.Props.C37_morse_isometric_asymptotic",
    "Polymers.Props.C37_morse_isometric_asymptotic_legendre",
    "Polymers.Props.C37_morse_isometric_asymptotic_reduced",
    "Polymers.Props.C37_morse_isometric_asymptotic_reduced_legendre",
    "Polymers.Props.C37_morse_isotensional",
    "Polymers.Props.C37_morse_isotensional_asymptotic",
    "Polymers.Props.C37_morse_isotensional_asymptotic_legendre",
    "Polymers.Props.C37_morse_isotensional_asymptotic_reduced",
    "Polymers.Props.C37_morse_isotensional_asymptotic_reduced_legendre",
    "Polymers.Props.C37_morse_isotensional_legendre",
    "Polymers.Props.C37_morse_thermodynamics",
    "Polymers.Props.C37_swfjc",
    "Polymers.Props.C37_swfjc_isometric",
    "Polymers.Props.C37_swfjc_isometric_legendre",
    "Polymers.Props.C37_swfjc_isotensional",
    "Polymers.Props.C37_swfjc_isotensional_legendre",
    "Polymers.Props.C37_swfjc_thermodynamics",
    "Polymers.Props.C37_wlc",
    "Polymers.Props.C37_wlc_isometric",
    "Polymers.Props.C37_wlc_isometric_legendre",
    "Polymers.Props.C37_wlc_isotensional",
    "Polymers.Props.C37_wlc_isotensional_legendre",
    "Polymers.Props.C37_wlc_thermodynamics"
   ],
   "note": ""
  },
  {
   "property": "C38",
   "status": "proved",
   "theorems": [
    "Polymers.Props.C38_efjc_isometric_asymptotic_alternative_legendre",
    "Polymers.Props.C38_efjc_isometric_asymptotic_legendre",
    "Polymers.Props.C38_efjc_isometric_asymptotic_reduced_legendre",
    "Polymers.Props.C38_efjc_isotensional",
    "Polymers.Props.C38_efjc_isotensional_asymptotic",
    "Polymers.Props.C38_efjc_isotensional_asymptotic_alternative",
    "Polymers.Props.C38_efjc_isotensional_asymptotic_alternative_legendre",
    "Polymers.Props.C38_efjc_isotensional_asymptotic_legendre",
    "Polymers.Props.C38_efjc_isotensional_asymptotic_legendre_nd_per_link",
    "Polymers.Props.C38_efjc_isotensional_asymptotic_reduced",
    "Polymers.Props.C38_efjc_isotensional_asymptotic_reduced_legendre",
    "Polymers.Props.C38_efjc_isotensional_legendre",
    "Polymers.Props.C38_fjc_isometric",
    "Polymers.Props.C38_fjc_isometric_legendre",
    "Polymers.Props.C38_fjc_isotensional",
    "Polymers.Props.C38_fjc_isotensional_legendre",
    "Polymers.Props.C38_fjc_modified_canonical",
    "Polymers.Props.C38_fjc_modified_canonical_asymptotic_strong_potential",
    "Polymers.Props.C38_fjc_modified_canonical_asymptotic_weak_potential",
    "Polymers.Props.C38_ideal_isometric",
    "Polymers.Props.C38_ideal_isotensional",
    "Polymers.Props.C38_lennard_jones_isometric_asymptotic_legendre",
    "Polymers.Props.C38_lennard_jones_isometric_asymptotic_reduced_legendre",
    "Polymers.Props.C38_lennard_jones_isotensional",
    "Polymers.Props.C38_lennard_jones_isotensional_asymptotic",
    "Polymers.Props.C38_lennard_jones_isotensional_asymptotic_legendre",
    "Polymers.Props.C38_lennard_jones_isotensional_asymptotic_reduced",
    "Polymers.Props.C38_lennard_jones_isotensional_asymptotic_reduced_legendre",
    "Polymers.Props.C38_lennard_jones_isotensional_legendre",
    "Polymers.Props.C38_log_squared_isometric_asymptotic_legendre",
    "Polymers.Props.C38_log_squared_isometric_asymptotic_reduced_legendre",
    "Polymers.Props.C38_log_squared_isotensional",
    "Polymers.Props.C38_log_squared_isotensional_asymptotic",
    "Polymers.Props.C38_log_squared_isotensional_asymptotic_legendre",
    "Polymers.Props.C38_log_squared_isotensional_asymptotic_reduced",
    "Polymers.Props.C38_log_squared_isotensional_asymptotic_reduced_legendre",
    "Polymers.Props.C38_log_squared_isotensional_legendre",
    "Polymers.Props.C38_morse_isometric_asymptotic_legendre",
    "Polymers.Props.C38_morse_isometric_asymptotic_reduced_legendre",
    "Polymers.Props.C38_morse_isotensional",
    "Polymers.Props.C38_morse_isotensional_asymptotic",
    "Polymers.Props.C38_morse_isotensional_asymptotic_legendre",
    "Polymers.Props.C38_morse_isotensional_asymptotic_reduced",
    "Polymers.Props.C38_morse_isotensional_asymptotic_reduced_legendre",
    "Polymers.Props.C38_morse_isotensional_legendre",
    "Polymers.Props.C38_swfjc_isometric_legendre",
    "Polymers.Props.C38_swfjc_isotensional",
    "Polymers.Props.C38_swfjc_isotensional_legendre",
    "Polymers.Props.C38_wlc_isometric",
    "Polymers.Props.C38_wlc_isometric_legendre",
    "Polymers.Props.C38_wlc_isotensional",
    "Polymers.Props.C38_wlc_isotensional_legendre"
   ],
   "note": ""
  },
  {
   "property": "C39",
   "status": "proved",
   "theorems": [
    "Polymers.Props.C39_fjc_extension",
    "Polymers.Props.C39_fjc_links",
    "Polymers.Props.C39_fjc_samples"
   ],
   "note": ""
  },
  {
   "property": "C40",
   "status": "proved",
   "theorems": [
    "Polymers.Props.C40_frc_azimuth",
    "Polymers.Props.C40_frc_even_no_panic",
    "Polymers.Props.C40_frc_extension_even",
    "Polymers.Props.C40_frc_extension_odd",
    "Polymers.Props.C40_frc_links",
    "Polymers.Props.C40_frc_odd_panics",
    "Polymers.Props.C40_frc_reachable"
   ],
   "note": ""
  },
  {
   "property": "C41",
   "status": "proved",
   "theorems": [
    "Polymers.Props.C41_cut_off",
    "Polymers.Props.C41_efjc_extension",
    "Polymers.Props.C41_efjc_links",
    "Polymers.Props.C41_efrc_extension",
    "Polymers.Props.C41_efrc_links"
   ],
   "note": ""
  },
  {
   "property": "C42",
   "status": "proved",
   "theorems": [
    "Polymers.Props.C42_efjc_histogram",
    "Polymers.Props.C42_efjc_total",
    "Polymers.Props.C42_efrc_histogram",
    "Polymers.Props.C42_efrc_total",
    "Polymers.Props.C42_fjc_histogram",
    "Polymers.Props.C42_fjc_normalised",
    "Polymers.Props.C42_fjc_single_link_dropped",
    "Polymers.Props.C42_fjc_total",
    "Polymers.Props.C42_frc_histogram",
    "Polymers.Props.C42_frc_total",
    "Polymers.Props.C42_undefined_sample_dropped"
   ],
   "note": ""
  },
  {
   "property": "C43",
   "status": "proved",
   "theorems": [
    "Polymers.Props.C43_duality",
    "Polymers.Props.C43_init_method",
    "Polymers.Props.C43_tension_defined"
   ],
   "note": ""
  },
  {
   "property": "C44",
   "status": "proved",
   "theorems": [
    "Polymers.Props.C44_causal",
    "Polymers.Props.C44_excursion",
    "Polymers.Props.C44_history_through_maximum"
   ],
   "note": ""
  },
  {
   "property": "C45",
   "status": "proved",
   "theorems": [
    "Polymers.Props.C45_init_method",
    "Polymers.Props.C45_rejects_below_one"
   ],
   "note": ""
  },
  {
   "property": "C46",
   "status": "proved",
   "theorems": [
    "Polymers.Props.C46_bessel_i",
    "Polymers.Props.C46_efjc_isometric_asymptotic_reduced_legendre_forces",
    "Polymers.Props.C46_efjc_isometric_asymptotic_reduced_legendre_helmholtz",
    "Polymers.Props.C46_efjc_isotensional_asymptotic_alternative_gibbs",
    "Polymers.Props.C46_efjc_isotensional_asymptotic_alternative_legendre_helmholtz",
    "Polymers.Props.C46_efjc_isotensional_asymptotic_alternative_lengths",
    "Polymers.Props.C46_efjc_isotensional_asymptotic_gibbs",
    "Polymers.Props.C46_efjc_isotensional_asymptotic_legendre_helmholtz",
    "Polymers.Props.C46_efjc_isotensional_asymptotic_lengths",
    "Polymers.Props.C46_efjc_isotensional_asymptotic_reduced_gibbs",
    "Polymers.Props.C46_efjc_isotensional_asymptotic_reduced_legendre_helmholtz",
    "Polymers.Props.C46_efjc_isotensional_asymptotic_reduced_lengths",
    "Polymers.Props.C46_efjc_isotensional_gibbs",
    "Polymers.Props.C46_efjc_isotensional_legendre_helmholtz",
    "Polymers.Props.C46_efjc_isotensional_lengths",
    "Polymers.Props.C46_erf",
    "Polymers.Props.C46_fjc_isometric_distribution",
    "Polymers.Props.C46_fjc_isometric_forces",
    "Polymers.Props.C46_fjc_isometric_helmholtz",
    "Polymers.Props.C46_fjc_isometric_legendre_distribution",
    "Polymers.Props.C46_fjc_isometric_legendre_forces",
    "Polymers.Props.C46_fjc_isometric_legendre_gibbs",
    "Polymers.Props.C46_fjc_isometric_legendre_helmholtz",
    "Polymers.Props.C46_fjc_isotensional_gibbs",
    "Polymers.Props.C46_fjc_isotensional_legendre_helmholtz",
    "Polymers.Props.C46_fjc_isotensional_lengths",
    "Polymers.Props.C46_fjc_modified_canonical_forces",
    "Polymers.Props.C46_fjc_modified_canonical_gibbs",
    "Polymers.Props.C46_fjc_modified_canonical_helmholtz",
    "Polymers.Props.C46_fjc_modified_canonical_lengths",
    "Polymers.Props.C46_fjc_strong_potential_forces",
    "Polymers.Props.C46_fjc_strong_potential_helmholtz",
    "Polymers.Props.C46_fjc_weak_potential_forces",
    "Polymers.Props.C46_fjc_weak_potential_gibbs",
    "Polymers.Props.C46_fjc_weak_potential_lengths",
    "Polymers.Props.C46_fjc_zero_force",
    "Polymers.Props.C46_ideal_isometric_distribution",
    "Polymers.Props.C46_ideal_isometric_forces",
    "Polymers.Props.C46_ideal_isometric_helmholtz",
    "Polymers.Props.C46_ideal_isotensional_gibbs",
    "Polymers.Props.C46_ideal_isotensional_lengths",
    "Polymers.Props.C46_inverse_langevin",
    "Polymers.Props.C46_lambert_w",
    "Polymers.Props.C46_lennard_jones_isotensional_asymptotic_gibbs",
    "Polymers.Props.C46_lennard_jones_isotensional_asymptotic_legendre_helmholtz",
    "Polymers.Props.C46_lennard_jones_isotensional_asymptotic_lengths",
    "Polymers.Props.C46_lennard_jones_isotensional_asymptotic_reduced_gibbs",
    "Polymers.Props.C46_lennard_jones_isotensional_asymptotic_reduced_legendre_helmholtz",
    "Polymers.Props.C46_lennard_jones_isotensional_asymptotic_reduced_lengths",
    "Polymers.Props.C46_lennard_jones_isotensional_gibbs",
    "Polymers.Props.C46_lennard_jones_isotensional_legendre_helmholtz",
    "Polymers.Props.C46_lennard_jones_isotensional_lengths",
    "Polymers.Props.C46_log_squared_isotensional_asymptotic_gibbs",
    "Polymers.Props.C46_log_squared_isotensional_asymptotic_legendre_helmholtz",
    "Polymers.Props.C46_log_squared_isotensional_asymptotic_lengths",
    "Polymers.Props.C46_log_squared_isotensional_asymptotic_reduced_gibbs",
    "Polymers.Props.C46_log_squared_isotensional_asymptotic_reduced_legendre_helmholtz",
    "Polymers.Props.C46_log_squared_isotensional_asymptotic_reduced_lengths",
    "Polymers.Props.C46_log_squared_isotensional_gibbs",
    "Polymers.Props.C46_log_squared_isotensional_legendre_helmholtz",
    "Polymers.Props.C46_log_squared_isotensional_lengths",
    "Polymers.Props.C46_morse_isotensional_asymptotic_gibbs",
    "Polymers.Props.C46_morse_isotensional_asymptotic_legendre_helmholtz",
    "Polymers.Props.C46_morse_isotensional_asymptotic_lengths",
    "Polymers.Props.C46_morse_isotensional_asymptotic_reduced_gibbs",
    "Polymers.Props.C46_morse_isotensional_asymptotic_reduced_legendre_helmholtz",
    "Polymers.Props.C46_morse_isotensional_asymptotic_reduced_lengths",
    "Polymers.Props.C46_morse_isotensional_gibbs",
    "Polymers.Props.C46_morse_isotensional_legendre_helmholtz",
    "Polymers.Props.C46_morse_isotensional_lengths",
    "Polymers.Props.C46_swfjc_isotensional_gibbs",
    "Polymers.Props.C46_swfjc_isotensional_legendre_helmholtz",
    "Polymers.Props.C46_swfjc_isotensional_lengths",
    "Polymers.Props.C46_wlc_isometric_distribution",
    "Polymers.Props.C46_wlc_isometric_forces",
    "Polymers.Props.C46_wlc_isometric_helmholtz",
    "Polymers.Props.C46_wlc_isometric_legendre_gibbs"
   ],
   "note": ""
  },
  {
   "property": "C47",
   "status": "proved",
   "theorems": [
    "Polymers.Props.C47_efjc_isotensional_asymptotic_alternative_legendre",
    "Polymers.Props.C47_efjc_isotensional_asymptotic_legendre",
    "Polymers.Props.C47_efjc_isotensional_asymptotic_reduced_legendre",
    "Polymers.Props.C47_efjc_isotensional_legendre",
    "Polymers.Props.C47_lennard_jones_isotensional_asymptotic_legendre",
    "Polymers.Props.C47_lennard_jones_isotensional_asymptotic_reduced_legendre",
    "Polymers.Props.C47_lennard_jones_isotensional_legendre",
    "Polymers.Props.C47_log_squared_isotensional_asymptotic_legendre",
    "Polymers.Props.C47_log_squared_isotensional_asymptotic_reduced_legendre",
    "Polymers.Props.C47_log_squared_isotensional_legendre",
    "Polymers.Props.C47_morse_isotensional_asymptotic_legendre",
    "Polymers.Props.C47_morse_isotensional_asymptotic_reduced_legendre",
    "Polymers.Props.C47_morse_isotensional_legendre",
    "Polymers.Props.C47_wlc_isotensional_legendre"
   ],
   "note": ""
  },
  {
   "property": "C48",
   "status": "proved",
   "theorems": [
    "Polymers.Props.C48_efjc_asymptotic",
    "Polymers.Props.C48_efjc_asymptotic_alternative",
    "Polymers.Props.C48_efjc_asymptotic_reduced",
    "Polymers.Props.C48_fjc",
    "Polymers.Props.C48_lennard_jones_asymptotic",
    "Polymers.Props.C48_lennard_jones_asymptotic_reduced",
    "Polymers.Props.C48_log_squared_asymptotic",
    "Polymers.Props.C48_log_squared_asymptotic_reduced",
    "Polymers.Props.C48_morse_asymptotic",
    "Polymers.Props.C48_morse_asymptotic_reduced",
    "Polymers.Props.C48_swfjc"
   ],
   "note": ""
  },
  {
   "property": "C49",
   "status": "proved",
   "theorems": [
    "Polymers.Props.C49_damage_can_heal"
   ],
   "note": ""
  },
  {
   "property": "C50",
   "status": "proved",
   "theorems": [
    "Polymers.Props.C50_fjc",
    "Polymers.Props.C50_fjc_nd",
    "Polymers.Props.C50_ideal_nd"
   ],
   "note": ""
  },
  {
   "property": "C51",
   "status": "proved",
   "theorems": [
    "Polymers.Props.C51_lennard_jones_length_bounds",
    "Polymers.Props.C51_lennard_jones_length_strictMono",
    "Polymers.Props.C51_log_squared_length_bounds",
    "Polymers.Props.C51_log_squared_length_strictMono",
    "Polymers.Props.C51_morse_length_bounds",
    "Polymers.Props.C51_morse_length_strictMono"
   ],
   "note": ""
  },
  {
   "property": "C52",
   "status": "proved",
   "theorems": [
    "Polymers.Props.C52_bessel_i0_accuracy",
    "Polymers.Props.C52_bessel_i1_accuracy"
   ],
   "note": ""
  },
  {
   "property": "C53",
   "status": "proved",
   "theorems": [
    "Polymers.Props.C53_fjc_isometric",
    "Polymers.Props.C53_fjc_isometric_legendre",
    "Polymers.Props.C53_fjc_isometric_legendre_positive",
    "Polymers.Props.C53_ideal_isometric",
    "Polymers.Props.C53_swfjc_isometric_legendre",
    "Polymers.Props.C53_wlc_isometric"
   ],
   "note": ""
  },
  {
   "property": "C54",
   "status": "proved",
   "theorems": [
    "Polymers.Props.C54_efjc_alternative",
    "Polymers.Props.C54_efjc_asymptotic",
    "Polymers.Props.C54_efjc_reduced",
    "Polymers.Props.C54_fjc",
    "Polymers.Props.C54_morse_asymptotic",
    "Polymers.Props.C54_morse_reduced",
    "Polymers.Props.C54_swfjc_narrow_well"
   ],
   "note": ""
  },
  {
   "property": "C55",
   "status": "proved",
   "theorems": [
    "Polymers.Props.C55_efjc_gibbs_diverges"
   ],
   "note": ""
  },
  {
   "property": "C56",
   "status": "proved",
   "theorems": [
    "Polymers.Props.C56_efjc_isometric_asymptotic_alternative_legendre_forces",
    "Polymers.Props.C56_efjc_isometric_asymptotic_alternative_legendre_helmholtz",
    "Polymers.Props.C56_efjc_isometric_asymptotic_legendre_forces",
    "Polymers.Props.C56_efjc_isometric_asymptotic_legendre_helmholtz",
    "Polymers.Props.C56_lennard_jones_isometric_asymptotic_legendre_forces",
    "Polymers.Props.C56_lennard_jones_isometric_asymptotic_legendre_helmholtz",
    "Polymers.Props.C56_lennard_jones_isometric_asymptotic_reduced_legendre_forces",
    "Polymers.Props.C56_lennard_jones_isometric_asymptotic_reduced_legendre_helmholtz",
    "Polymers.Props.C56_log_squared_isometric_asymptotic_legendre_forces",
    "Polymers.Props.C56_log_squared_isometric_asymptotic_legendre_helmholtz",
    "Polymers.Props.C56_log_squared_isometric_asymptotic_reduced_legendre_forces",
    "Polymers.Props.C56_log_squared_isometric_asymptotic_reduced_legendre_helmholtz",
    "Polymers.Props.C56_morse_isometric_asymptotic_legendre_forces",
    "Polymers.Props.C56_morse_isometric_asymptotic_legendre_helmholtz",
    "Polymers.Props.C56_morse_isometric_asymptotic_reduced_legendre_forces",
    "Polymers.Props.C56_morse_isometric_asymptotic_reduced_legendre_helmholtz",
    "Polymers.Props.C56_swfjc_isometric_legendre_distribution",
    "Polymers.Props.C56_swfjc_isometric_legendre_forces",
    "Polymers.Props.C56_swfjc_isometric_legendre_helmholtz",
    "Polymers.Props.C56_wlc_isotensional_gibbs",
    "Polymers.Props.C56_wlc_isotensional_legendre_helmholtz",
    "Polymers.Props.C56_wlc_isotensional_lengths"
   ],
   "note": "Proved for the worm-like chain at fixed force, and at fixed extension for the alternative and full asymptotic extensible chains, the full and reduced asymptotic Morse, log-squared and Lennard-Jones chains, and the square-well chain with wells at most 0.9 of a link length wide. The Lennard-Jones chains: nondimensional stiffness from 40 to a million, extensions from 1e-6 to the Langevin value at the force kappa/46."
  },
  {
   "property": "C57",
   "status": "proved",
   "theorems": [
    "Polymers.Props.C57_lennard_jones_asymptotic",
    "Polymers.Props.C57_lennard_jones_reduced",
    "Polymers.Props.C57_log_squared_asymptotic",
    "Polymers.Props.C57_log_squared_reduced"
   ],
   "note": ""
  },
  {
   "property": "C58",
   "status": "proved",
   "theorems": [
    "Polymers.Props.C58_c_efjc_isometric_asymptotic_alternative_legendre",
    "Polymers.Props.C58_c_efjc_isometric_asymptotic_legendre",
    "Polymers.Props.C58_c_efjc_isometric_asymptotic_reduced_legendre",
    "Polymers.Props.C58_c_efjc_isotensional",
    "Polymers.Props.C58_c_efjc_isotensional_asymptotic",
    "Polymers.Props.C58_c_efjc_isotensional_asymptotic_alternative",
    "Polymers.Props.C58_c_efjc_isotensional_asymptotic_alternative_legendre",
    "Polymers.Props.C58_c_efjc_isotensional_asymptotic_legendre",
    "Polymers.Props.C58_c_efjc_isotensional_asymptotic_legendre_nd_per_link",
    "Polymers.Props.C58_c_efjc_isotensional_asymptotic_reduced",
    "Polymers.Props.C58_c_efjc_isotensional_asymptotic_reduced_legendre",
    "Polymers.Props.C58_c_efjc_isotensional_legendre",
    "Polymers.Props.C58_c_fjc_isometric",
    "Polymers.Props.C58_c_fjc_isometric_legendre",
    "Polymers.Props.C58_c_fjc_isotensional",
    "Polymers.Props.C58_c_fjc_isotensional_legendre",
    "Polymers.Props.C58_c_fjc_modified_canonical",
    "Polymers.Props.C58_c_fjc_modified_canonical_asymptotic_strong_potential",
    "Polymers.Props.C58_c_fjc_modified_canonical_asymptotic_weak_potential",
    "Polymers.Props.C58_c_ideal_isometric",
    "Polymers.Props.C58_c_ideal_isotensional",
    "Polymers.Props.C58_c_lennard_jones_isometric_asymptotic_legendre",
    "Polymers.Props.C58_c_lennard_jones_isometric_asymptotic_reduced_legendre",
    "Polymers.Props.C58_c_lennard_jones_isotensional",
    "Polymers.Props.C58_c_lennard_jones_isotensional_asymptotic",
    "Polymers.Props.C58_c_lennard_jones_isotensional_asymptotic_legendre",
    "Polymers.Props.C58_c_lennard_jones_isotensional_asymptotic_reduced",
    "Polymers.Props.C58_c_lennard_jones_isotensional_asymptotic_reduced_legendre",
    "Polymers.Props.C58_c_lennard_jones_isotensional_legendre",
    "Polymers.Props.C58_c_log_squared_isometric_asymptotic_legendre",
    "Polymers.Props.C58_c_log_squared_isometric_asymptotic_reduced_legendre",
    "Polymers.Props.C58_c_log_squared_isotensional",
    "Polymers.Props.C58_c_log_squared_isotensional_asymptotic",
    "Polymers.Props.C58_c_log_squared_isotensional_asymptotic_legendre",
    "Polymers.Props.C58_c_log_squared_isotensional_asymptotic_reduced",
    "Polymers.Props.C58_c_log_squared_isotensional_asymptotic_reduced_legendre",
    "Polymers.Props.C58_c_log_squared_isotensional_legendre",
    "Polymers.Props.C58_c_morse_isometric_asymptotic_legendre",
    "Polymers.Props.C58_c_morse_isometric_asymptotic_reduced_legendre",
    "Polymers.Props.C58_c_morse_isotensional",
    "Polymers.Props.C58_c_morse_isotensional_asymptotic",
    "Polymers.Props.C58_c_morse_isotensional_asymptotic_legendre",
    "Polymers.Props.C58_c_morse_isotensional_asymptotic_reduced",
    "Polymers.Props.C58_c_morse_isotensional_asymptotic_reduced_legendre",
    "Polymers.Props.C58_c_morse_isotensional_legendre",
    "Polymers.Props.C58_c_swfjc_isometric_legendre",
    "Polymers.Props.C58_c_swfjc_isotensional",
    "Polymers.Props.C58_c_swfjc_isotensional_legendre",
    "Polymers.Props.C58_c_wlc_isometric",
    "Polymers.Props.C58_c_wlc_isometric_legendre",
    "Polymers.Props.C58_c_wlc_isotensional",
    "Polymers.Props.C58_c_wlc_isotensional_legendre"
   ],
   "note": ""
  },
  {
   "property": "C59",
   "status": "proved",
   "theorems": [
    "Polymers.Props.C59_python_efjc",
    "Polymers.Props.C59_python_efjc_isometric",
    "Polymers.Props.C59_python_efjc_isometric_asymptotic",
    "Polymers.Props.C59_python_efjc_isometric_asymptotic_alternative",
    "Polymers.Props.C59_python_efjc_isometric_asymptotic_alternative_legendre",
    "Polymers.Props.C59_python_efjc_isometric_asymptotic_legendre",
    "Polymers.Props.C59_python_efjc_isometric_asymptotic_reduced",
    "Polymers.Props.C59_python_efjc_isometric_asymptotic_reduced_legendre",
    "Polymers.Props.C59_python_efjc_isotensional",
    "Polymers.Props.C59_python_efjc_isotensional_asymptotic",
    "Polymers.Props.C59_python_efjc_isotensional_asymptotic_alternative",
    "Polymers.Props.C59_python_efjc_isotensional_asymptotic_alternative_legendre",
    "Polymers.Props.C59_python_efjc_isotensional_asymptotic_legendre",
    "Polymers.Props.C59_python_efjc_isotensional_asymptotic_legendre_nd_per_link",
    "Polymers.Props.C59_python_efjc_isotensional_asymptotic_reduced",
    "Polymers.Props.C59_python_efjc_isotensional_asymptotic_reduced_legendre",
    "Polymers.Props.C59_python_efjc_isotensional_legendre",
    "Polymers.Props.C59_python_efjc_thermodynamics",
    "Polymers.Props.C59_python_fjc",
    "Polymers.Props.C59_python_fjc_isometric",
    "Polymers.Props.C59_python_fjc_isometric_legendre",
    "Polymers.Props.C59_python_fjc_isotensional",
    "Polymers.Props.C59_python_fjc_isotensional_legendre",
    "Polymers.Props.C59_python_fjc_modified_canonical",
    "Polymers.Props.C59_python_fjc_modified_canonical_asymptotic",
    "Polymers.Props.C59_python_fjc_modified_canonical_asymptotic_strong_potential",
    "Polymers.Props.C59_python_fjc_modified_canonical_asymptotic_weak_potential",
    "Polymers.Props.C59_python_fjc_thermodynamics",
    "Polymers.Props.C59_python_hyperelastic",
    "Polymers.Props.C59_python_hyperelastic_damage",
    "Polymers.Props.C59_python_ideal",
    "Polymers.Props.C59_python_ideal_isometric",
    "Polymers.Props.C59_python_ideal_isotensional",
    "Polymers.Props.C59_python_ideal_thermodynamics",
    "Polymers.Props.C59_python_lennard_jones",
    "Polymers.Props.C59_python_lennard_jones_isometric",
    "Polymers.Props.C59_python_lennard_jones_isometric_asymptotic",
    "Polymers.Props.C59_python_lennard_jones_isometric_asymptotic_legendre",
    "Polymers.Props.C59_python_lennard_jones_isometric_asymptotic_reduced",
    "Polymers.Props.C59_python_lennard_jones_isometric_asymptotic_reduced_legendre",
    "Polymers.Props.C59_python_lennard_jones_isotensional",
    "Polymers.Props.C59_python_lennard_jones_isotensional_asymptotic",
    "Polymers.Props.C59_python_lennard_jones_isotensional_asymptotic_legendre",
    "Polymers.Props.C59_python_lennard_jones_isotensional_asymptotic_reduced",
    "Polymers.Props.C59_python_lennard_jones_isotensional_asymptotic_reduced_legendre",
    "Polymers.Props.C59_python_lennard_jones_isotensional_legendre",
    "Polymers.Props.C59_python_lennard_jones_thermodynamics",
    "Polymers.Props.C59_python_log_squared",
    "Polymers.Props.C59_python_log_squared_isometric",
    "Polymers.Props.C59_python_log_squared_isometric_asymptotic",
    "Polymers.Props.C59_python_log_squared_isometric_asymptotic_legendre",
    "Polymers.Props.C59_python_log_squared_isometric_asymptotic_reduced",
    "Polymers.Props.C59_python_log_squared_isometric_asymptotic_reduced_legendre",
    "Polymers.Props.C59_python_log_squared_isotensional",
    "Polymers.Props.C59_python_log_squared_isotensional_asymptotic",
    "Polymers.Props.C59_python_log_squared_isotensional_asymptotic_legendre",
    "Polymers.Props.C59_python_log_squared_isotensional_asymptotic_reduced",
    "Polymers.Props.C59_python_log_squared_isotensional_asymptotic_reduced_legendre",
    "Polymers.Props.C59_python_log_squared_isotensional_legendre",
    "Polymers.Props.C59_python_log_squared_thermodynamics",
    "Polymers.Props.C59_python_morse",
    "Polymers.Props.C59_python_morse_isometric",
    "Polymers.Props.C59_python_morse_isometric_asymptotic",
    "Polymers.Props.C59_python_morse_isometric_asymptotic_legendre",
    "Polymers.Props.C59_python_morse_isometric_asymptotic_reduced",
    "Polymers.Props.C59_python_morse_isometric_asymptotic_reduced_legendre",
    "Polymers.Props.C59_python_morse_isotensional",
    "Polymers.Props.C59_python_morse_isotensional_asymptotic",
    "Polymers.Props.C59_python_morse_isotensional_asymptotic_legendre",
    "Polymers.Props.C59_python_morse_isotensional_asymptotic_reduced",
    "Polymers.Props.C59_python_morse_isotensional_asymptotic_reduced_legendre",
    "Polymers.Props.C59_python_morse_isotensional_legendre",
    "Polymers.Props.C59_python_morse_thermodynamics",
    "Polymers.Props.C59_python_swfjc",
    "Polymers.Props.C59_python_swfjc_isometric",
    "Polymers.Props.C59_python_swfjc_isometric_legendre",
    "Polymers.Props.C59_python_swfjc_isotensional",
    "Polymers.Props.C59_python_swfjc_isotensional_legendre",
    "Polymers.Props.C59_python_swfjc_thermodynamics",
    "Polymers.Props.C59_python_wlc",
    "Polymers.Props.C59_python_wlc_isometric",
    "Polymers.Props.C59_python_wlc_isometric_legendre",
    "Polymers.Props.C59_python_wlc_isotensional",
    "Polymers.Props.C59_python_wlc_isotensional_legendre",
    "Polymers.Props.C59_python_wlc_thermodynamics"
   ],
   "note": ""
  },
  {
   "property": "C60",
   "status": "proved",
   "theorems": [
    "Polymers.Props.C60_julia_efjc",
    "Polymers.Props.C60_julia_efjc_isometric",
    "Polymers.Props.C60_julia_efjc_isometric_asymptotic",
    "Polymers.Props.C60_julia_efjc_isometric_asymptotic_alternative",
    "Polymers.Props.C60_julia_efjc_isometric_asymptotic_alternative_legendre",
    "Polymers.Props.C60_julia_efjc_isometric_asymptotic_legendre",
    "Polymers.Props.C60_julia_efjc_isometric_asymptotic_reduced",
    "Polymers.Props.C60_julia_efjc_isometric_asymptotic_reduced_legendre",
    "Polymers.Props.C60_julia_efjc_isotensional",
    "Polymers.Props.C60_julia_efjc_isotensional_asymptotic",
    "Polymers.Props.C60_julia_efjc_isotensional_asymptotic_alternative",
    "Polymers.Props.C60_julia_efjc_isotensional_asymptotic_alternative_legendre",
    "Polymers.Props.C60_julia_efjc_isotensional_asymptotic_legendre",
    "Polymers.Props.C60_julia_efjc_isotensional_asymptotic_legendre_nd_per_link",
    "Polymers.Props.C60_julia_efjc_isotensional_asymptotic_reduced",
    "Polymers.Props.C60_julia_efjc_isotensional_asymptotic_reduced_legendre",
    "Polymers.Props.C60_julia_efjc_isotensional_legendre",
    "Polymers.Props.C60_julia_efjc_thermodynamics",
    "Polymers.Props.C60_julia_fjc",
    "Polymers.Props.C60_julia_fjc_isometric",
    "Polymers.Props.C60_julia_fjc_isometric_legendre",
    "Polymers.Props.C60_julia_fjc_isotensional",
    "Polymers.Props.C60_julia_fjc_isotensional_legendre",
    "Polymers.Props.C60_julia_fjc_modified_canonical",
    "Polymers.Props.C60_julia_fjc_modified_canonical_asymptotic",
    "Polymers.Props.C60_julia_fjc_modified_canonical_asymptotic_strong_potential",
    "Polymers.Props.C60_julia_fjc_modified_canonical_asymptotic_weak_potential",
    "Polymers.Props.C60_julia_fjc_thermodynamics",
    "Polymers.Props.C60_julia_ideal",
    "Polymers.Props.C60_julia_ideal_isometric",
    "Polymers.Props.C60_julia_ideal_isotensional",
    "Polymers.Props.C60_julia_ideal_thermodynamics",
    "Polymers.Props.C60_julia_lennard_jones",
    "Polymers.Props.C60_julia_lennard_jones_isometric",
    "Polymers.Props.C60_julia_lennard_jones_isometric_asymptotic",
    "Polymers.Props.C60_julia_lennard_jones_isometric_asymptotic_legendre",
    "Polymers.Props.C60_julia_lennard_jones_isometric_asymptotic_reduced",
    "Polymers.Props.C60_julia_lennard_jones_isometric_asymptotic_reduced_legendre",
    "Polymers.Props.C60_julia_lennard_jones_isotensional",
    "Polymers.Props.C60_julia_lennard_jones_isotensional_asymptotic",
    "Polymers.Props.C60_julia_lennard_jones_isotensional_asymptotic_legendre",
    "Polymers.Props.C60_julia_lennard_jones_isotensional_asymptotic_reduced",
    "Polymers.Props.C60_julia_lennard_jones_isotensional_asymptotic_reduced_legendre",
    "Polymers.Props.C60_julia_lennard_jones_isotensional_legendre",
    "Polymers.Props.C60_julia_lennard_jones_thermodynamics",
    "Polymers.Props.C60_julia_log_squared",
    "Polymers.Props.C60_julia_log_squared_isometric",
    "Polymers.Props.C60_julia_log_squared_isometric_asymptotic",
    "Polymers.Props.C60_julia_log_squared_isometric_asymptotic_legendre",
    "Polymers.Props.C60_julia_log_squared_isometric_asymptotic_reduced",
    "Polymers.Props.C60_julia_log_squared_isometric_asymptotic_reduced_legendre",
    "Polymers.Props.C60_julia_log_squared_isotensional",
    "Polymers.Props.C60_julia_log_squared_isotensional_asymptotic",
    "Polymers.Props.C60_julia_log_squared_isotensional_asymptotic_legendre",
    "Polymers.Props.C60_julia_log_squared_isotensional_asymptotic_reduced",
    "Polymers.Props.C60_julia_log_squared_isotensional_asymptotic_reduced_legendre",
    "Polymers.Props.C60_julia_log_squared_isotensional_legendre",
    "Polymers.Props.C60_julia_log_squared_thermodynamics",
    "Polymers.Props.C60_julia_morse",
    "Polymers.Props.C60_julia_morse_isometric",
    "Polymers.Props.C60_julia_morse_isometric_asymptotic",
    "Polymers.Props.C60_julia_morse_isometric_asymptotic_legendre",
    "Polymers.Props.C60_julia_morse_isometric_asymptotic_reduced",
    "Polymers.Props.C60_julia_morse_isometric_asymptotic_reduced_legendre",
    "Polymers.Props.C60_julia_morse_isotensional",
    "Polymers.Props.C60_julia_morse_isotensional_asymptotic",
    "Polymers.Props.C60_julia_morse_isotensional_asymptotic_legendre",
    "Polymers.Props.C60_julia_morse_isotensional_asymptotic_reduced",
    "Polymers.Props.C60_julia_morse_isotensional_asymptotic_reduced_legendre",
    "Polymers.Props.C60_julia_morse_isotensional_legendre",
    "Polymers.Props.C60_julia_morse_thermodynamics",
    "Polymers.Props.C60_julia_swfjc",
    "Polymers.Props.C60_julia_swfjc_isometric",
    "Polymers.Props.C60_julia_swfjc_isometric_legendre",
    "Polymers.Props.C60_julia_swfjc_isotensional",
    "Polymers.Props.C60_julia_swfjc_isotensional_legendre",
    "Polymers.Props.C60_julia_swfjc_thermodynamics",
    "Polymers.Props.C60_julia_wlc",
    "Polymers.Props.C60_julia_wlc_isometric",
    "Polymers.Props.C60_julia_wlc_isometric_distribution",
    "Polymers.Props.C60_julia_wlc_isometric_legendre",
    "Polymers.Props.C60_julia_wlc_isotensional",
    "Polymers.Props.C60_julia_wlc_isotensional_legendre",
    "Polymers.Props.C60_julia_wlc_thermodynamics"
   ],
   "note": ""
  },
  {
   "property": "C61",
   "status": "proved",
   "theorems": [
    "Polymers.Props.C61_julia_wlc_positional"
   ],
   "note": ""
  },
  {
   "property": "C62",
   "status": "proved",
   "theorems": [
    "Polymers.Props.C62_c_hyperelastic",
    "Polymers.Props.C62_c_hyperelastic_short_buffers"
   ],
   "note": ""
  },
  {
   "property": "C64",
   "status": "proved",
   "theorems": [
    "Polymers.Props.C64_strong_potential_force",
    "Polymers.Props.C64_strong_potential_nd_force",
    "Polymers.Props.C64_strong_potential_nd_relative",
    "Polymers.Props.C64_strong_potential_relative",
    "Polymers.Props.C64_weak_potential_energy",
    "Polymers.Props.C64_weak_potential_length",
    "Polymers.Props.C64_weak_potential_nd_relative"
   ],
   "note": ""
  },
  {
   "property": "C65",
   "status": "proved",
   "theorems": [
    "Polymers.Props.C65_code_correction",
    "Polymers.Props.C65_error_pos",
    "Polymers.Props.C65_exact_correction",
    "Polymers.Props.C65_strong_potential_error",
    "Polymers.Props.C65_weak_error_pos",
    "Polymers.Props.C65_weak_potential_error"
   ],
   "note": ""
  },
  {
   "property": "C66",
   "status": "proved",
   "theorems": [
    "Polymers.Props.C66_fjc_gibbs",
    "Polymers.Props.C66_fjc_length",
    "Polymers.Props.C66_fjc_partition",
    "Polymers.Props.C66_ideal_gibbs"
   ],
   "note": ""
  },
  {
   "property": "C67",
   "status": "proved",
   "theorems": [
    "Polymers.Props.C67_modified_canonical_stiff"
   ],
   "note": ""
  },
  {
   "property": "C63",
   "status": "proved",
   "theorems": [
    "Polymers.Props.C63_efjc_alternative",
    "Polymers.Props.C63_efjc_asymptotic",
    "Polymers.Props.C63_efjc_reduced",
    "Polymers.Props.C63_fjc_ideal_gibbs",
    "Polymers.Props.C63_fjc_ideal_length",
    "Polymers.Props.C63_morse_asymptotic",
    "Polymers.Props.C63_morse_reduced",
    "Polymers.Props.C63_swfjc"
   ],
   "note": ""
  },
  {
   "property": "C68",
   "status": "proved",
   "theorems": [
    "Polymers.Props.C68_fjc_density_decreasing",
    "Polymers.Props.C68_fjc_few_links",
    "Polymers.Props.C68_fjc_force_diverges",
    "Polymers.Props.C68_fjc_force_end",
    "Polymers.Props.C68_fjc_force_pos",
    "Polymers.Props.C68_fjc_force_zero",
    "Polymers.Props.C68_fjc_physical_force_pos"
   ],
   "note": ""
  },
  {
   "property": "C69",
   "status": "proved",
   "theorems": [
    "Polymers.Props.C69_efjc_asymptotic_energy",
    "Polymers.Props.C69_efjc_energy",
    "Polymers.Props.C69_fjc_energy",
    "Polymers.Props.C69_fjc_length",
    "Polymers.Props.C69_swfjc_energy",
    "Polymers.Props.C69_swfjc_length"
   ],
   "note": ""
  },
  {
   "property": "C70",
   "status": "proved",
   "theorems": [
    "Polymers.Props.C70_efjc_alternative",
    "Polymers.Props.C70_efjc_asymptotic",
    "Polymers.Props.C70_efjc_reduced",
    "Polymers.Props.C70_lennard_jones_asymptotic",
    "Polymers.Props.C70_lennard_jones_reduced",
    "Polymers.Props.C70_log_squared_asymptotic",
    "Polymers.Props.C70_log_squared_reduced",
    "Polymers.Props.C70_morse_asymptotic",
    "Polymers.Props.C70_morse_reduced",
    "Polymers.Props.C70_reduced_error_ne_zero"
   ],
   "note": ""
  },
  {
   "property": "C71",
   "status": "proved",
   "theorems": [
    "Polymers.Props.C71_lennard_jones_stiff",
    "Polymers.Props.C71_log_squared_stiff",
    "Polymers.Props.C71_morse_stiff"
   ],
   "note": ""
  },
  {
   "property": "C72",
   "status": "proved",
   "theorems": [
    "Polymers.Props.C72_fjc_length_accuracy",
    "Polymers.Props.C72_fjc_length_zero"
   ],
   "note": ""
  },
  {
   "property": "C73",
   "status": "proved",
   "theorems": [
    "Polymers.Props.C73_efjc_isotensional_asymptotic_alternative_legendre_overflow",
    "Polymers.Props.C73_efjc_isotensional_asymptotic_alternative_overflow",
    "Polymers.Props.C73_efjc_isotensional_asymptotic_legendre_overflow",
    "Polymers.Props.C73_efjc_isotensional_asymptotic_overflow",
    "Polymers.Props.C73_efjc_isotensional_asymptotic_reduced_legendre_overflow",
    "Polymers.Props.C73_efjc_isotensional_asymptotic_reduced_overflow",
    "Polymers.Props.C73_efjc_isotensional_legendre_overflow",
    "Polymers.Props.C73_efjc_isotensional_overflow",
    "Polymers.Props.C73_efjc_length_overflow",
    "Polymers.Props.C73_fjc_gibbs_accuracy",
    "Polymers.Props.C73_fjc_isotensional_legendre_overflow",
    "Polymers.Props.C73_fjc_isotensional_overflow",
    "Polymers.Props.C73_lennard_jones_isotensional_asymptotic_legendre_overflow",
    "Polymers.Props.C73_lennard_jones_isotensional_asymptotic_overflow",
    "Polymers.Props.C73_lennard_jones_isotensional_asymptotic_reduced_legendre_overflow",
    "Polymers.Props.C73_lennard_jones_isotensional_asymptotic_reduced_overflow",
    "Polymers.Props.C73_log_squared_isotensional_asymptotic_legendre_overflow",
    "Polymers.Props.C73_log_squared_isotensional_asymptotic_overflow",
    "Polymers.Props.C73_log_squared_isotensional_asymptotic_reduced_legendre_overflow",
    "Polymers.Props.C73_log_squared_isotensional_asymptotic_reduced_overflow",
    "Polymers.Props.C73_morse_isotensional_asymptotic_legendre_overflow",
    "Polymers.Props.C73_morse_isotensional_asymptotic_overflow",
    "Polymers.Props.C73_morse_isotensional_asymptotic_reduced_legendre_overflow",
    "Polymers.Props.C73_morse_isotensional_asymptotic_reduced_overflow",
    "Polymers.Props.C73_swfjc_isotensional_legendre_overflow",
    "Polymers.Props.C73_swfjc_isotensional_overflow",
    "Polymers.Props.C73_swfjc_length_overflow"
   ],
   "note": ""
  },
  {
   "property": "C74",
   "status": "proved",
   "theorems": [
    "Polymers.Props.C74_fjc_legendre_force_near_full_extension",
    "Polymers.Props.C74_fjc_legendre_helmholtz_overflow",
    "Polymers.Props.C74_inverse_langevin_near_full_extension"
   ],
   "note": ""
  },
  {
   "property": "C75",
   "status": "proved",
   "theorems": [
    "Polymers.Props.C75_fjc_round_trip",
    "Polymers.Props.C75_inverse_langevin",
    "Polymers.Props.C75_inverse_langevin_converged",
    "Polymers.Props.C75_inverse_langevin_small"
   ],
   "note": ""
  },
  {
   "property": "C76",
   "status": "proved",
   "theorems": [
    "Polymers.Props.C76_efjc_alternative",
    "Polymers.Props.C76_efjc_asymptotic",
    "Polymers.Props.C76_efjc_reduced",
    "Polymers.Props.C76_fjc",
    "Polymers.Props.C76_ideal",
    "Polymers.Props.C76_lennard_jones",
    "Polymers.Props.C76_lennard_jones_asymptotic",
    "Polymers.Props.C76_lennard_jones_reduced",
    "Polymers.Props.C76_log_squared",
    "Polymers.Props.C76_log_squared_asymptotic",
    "Polymers.Props.C76_log_squared_reduced",
    "Polymers.Props.C76_morse",
    "Polymers.Props.C76_morse_asymptotic",
    "Polymers.Props.C76_morse_reduced",
    "Polymers.Props.C76_swfjc"
   ],
   "note": ""
  },
  {
   "property": "C77",
   "status": "proved",
   "theorems": [
    "Polymers.Props.C77_lambert_w_accurate",
    "Polymers.Props.C77_lambert_w_accurate_large",
    "Polymers.Props.C77_lambert_w_branch_point"
   ],
   "note": ""
  },
  {
   "property": "C78",
   "status": "proved",
   "theorems": [
    "Polymers.Props.C78_equibiaxial",
    "Polymers.Props.C78_normalised",
    "Polymers.Props.C78_uniaxial"
   ],
   "note": ""
  },
  {
   "property": "C79",
   "status": "proved",
   "theorems": [
    "Polymers.Props.C79_energy",
    "Polymers.Props.C79_gaussian",
    "Polymers.Props.C79_normalised"
   ],
   "note": ""
  },
  {
   "property": "C80",
   "status": "proved",
   "theorems": [
    "Polymers.Props.C80_method_2_ignores_swelling"
   ],
   "note": ""
  },
  {
   "property": "C81",
   "status": "proved",
   "theorems": [
    "Polymers.Props.C81_damage_energy",
    "Polymers.Props.C81_damage_energy_undefined",
    "Polymers.Props.C81_damage_gaussian",
    "Polymers.Props.C81_damage_undefined",
    "Polymers.Props.C81_hyperelastic_energy",
    "Polymers.Props.C81_hyperelastic_energy_stretch",
    "Polymers.Props.C81_hyperelastic_energy_undefined",
    "Polymers.Props.C81_hyperelastic_gaussian"
   ],
   "note": ""
  },
  {
   "property": "C82",
   "status": "proved",
   "theorems": [
    "Polymers.Props.C82_undeformed_tension"
   ],
   "note": ""
  },
  {
   "property": "C83",
   "status": "proved",
   "theorems": [
    "Polymers.Props.C83_far",
    "Polymers.Props.C83_modulus"
   ],
   "note": ""
  },
  {
   "property": "C84",
   "status": "proved",
   "theorems": [
    "Polymers.Props.C84_fraction_at_rest_le",
    "Polymers.Props.C84_fraction_at_rest_lt"
   ],
   "note": ""
  },
  {
   "property": "C85",
   "status": "proved",
   "theorems": [
    "Polymers.Props.C85_fjc_density",
    "Polymers.Props.C85_fjc_tail",
    "Polymers.Props.C85_fjc_tail_physical"
   ],
   "note": ""
  },
  {
   "property": "C86",
   "status": "proved",
   "theorems": [
    "Polymers.Props.C86_efjc_reduced_length",
    "Polymers.Props.C86_fjc_energy",
    "Polymers.Props.C86_fjc_force",
    "Polymers.Props.C86_fjc_legendre_energy",
    "Polymers.Props.C86_fjc_legendre_force",
    "Polymers.Props.C86_fjc_length",
    "Polymers.Props.C86_ideal_energy",
    "Polymers.Props.C86_ideal_force",
    "Polymers.Props.C86_ideal_length",
    "Polymers.Props.C86_lennard_jones_reduced_length",
    "Polymers.Props.C86_log_squared_reduced_length",
    "Polymers.Props.C86_morse_reduced_length",
    "Polymers.Props.C86_swfjc_legendre_energy",
    "Polymers.Props.C86_swfjc_legendre_force",
    "Polymers.Props.C86_swfjc_length",
    "Polymers.Props.C86_wlc_energy",
    "Polymers.Props.C86_wlc_force",
    "Polymers.Props.C86_wlc_length"
   ],
   "note": ""
  },
  {
   "property": "C87",
   "status": "proved",
   "theorems": [
    "Polymers.Props.C87_efjc_alternative",
    "Polymers.Props.C87_efjc_asymptotic",
    "Polymers.Props.C87_efjc_reduced",
    "Polymers.Props.C87_lennard_jones",
    "Polymers.Props.C87_log_squared",
    "Polymers.Props.C87_morse",
    "Polymers.Props.C87_morse_depth",
    "Polymers.Props.C87_swfjc"
   ],
   "note": ""
  },
  {
   "property": "C88",
   "status": "proved",
   "theorems": [
    "Polymers.Props.C88_fjc_converges",
    "Polymers.Props.C88_fjc_expected",
    "Polymers.Props.C88_fjc_gibbs",
    "Polymers.Props.C88_fjc_probability"
   ],
   "note": ""
  },
  {
   "property": "C89",
   "status": "proved",
   "theorems": [
    "Polymers.Props.C89_efjc",
    "Polymers.Props.C89_efjc_response",
    "Polymers.Props.C89_efrc",
    "Polymers.Props.C89_fjc",
    "Polymers.Props.C89_fjc_response",
    "Polymers.Props.C89_frc",
    "Polymers.Props.C89_frc_correlation"
   ],
   "note": ""
  },
  {
   "property": "C90",
   "status": "proved",
   "theorems": [
    "Polymers.Props.C90_efjc",
    "Polymers.Props.C90_efrc",
    "Polymers.Props.C90_frc_even",
    "Polymers.Props.C90_frc_odd"
   ],
   "note": ""
  },
  {
   "property": "C91",
   "status": "proved",
   "theorems": [
    "Polymers.Props.C91_julia_efjc_isometric_asymptotic_alternative_legendre",
    "Polymers.Props.C91_julia_efjc_isometric_asymptotic_legendre",
    "Polymers.Props.C91_julia_efjc_isometric_asymptotic_reduced_legendre",
    "Polymers.Props.C91_julia_efjc_isotensional",
    "Polymers.Props.C91_julia_efjc_isotensional_asymptotic",
    "Polymers.Props.C91_julia_efjc_isotensional_asymptotic_alternative",
    "Polymers.Props.C91_julia_efjc_isotensional_asymptotic_alternative_legendre",
    "Polymers.Props.C91_julia_efjc_isotensional_asymptotic_legendre",
    "Polymers.Props.C91_julia_efjc_isotensional_asymptotic_reduced",
    "Polymers.Props.C91_julia_efjc_isotensional_asymptotic_reduced_legendre",
    "Polymers.Props.C91_julia_efjc_isotensional_legendre",
    "Polymers.Props.C91_julia_efjc_values",
    "Polymers.Props.C91_julia_lennard_jones_isometric_asymptotic_legendre",
    "Polymers.Props.C91_julia_lennard_jones_isometric_asymptotic_reduced_legendre",
    "Polymers.Props.C91_julia_lennard_jones_isotensional",
    "Polymers.Props.C91_julia_lennard_jones_isotensional_asymptotic",
    "Polymers.Props.C91_julia_lennard_jones_isotensional_asymptotic_legendre",
    "Polymers.Props.C91_julia_lennard_jones_isotensional_asymptotic_reduced",
    "Polymers.Props.C91_julia_lennard_jones_isotensional_asymptotic_reduced_legendre",
    "Polymers.Props.C91_julia_lennard_jones_isotensional_legendre",
    "Polymers.Props.C91_julia_log_squared_isometric_asymptotic_legendre",
    "Polymers.Props.C91_julia_log_squared_isometric_asymptotic_reduced_legendre",
    "Polymers.Props.C91_julia_log_squared_isotensional",
    "Polymers.Props.C91_julia_log_squared_isotensional_asymptotic",
    "Polymers.Props.C91_julia_log_squared_isotensional_asymptotic_legendre",
    "Polymers.Props.C91_julia_log_squared_isotensional_asymptotic_reduced",
    "Polymers.Props.C91_julia_log_squared_isotensional_asymptotic_reduced_legendre",
    "Polymers.Props.C91_julia_log_squared_isotensional_legendre",
    "Polymers.Props.C91_julia_morse_isometric_asymptotic_legendre",
    "Polymers.Props.C91_julia_morse_isometric_asymptotic_reduced_legendre",
    "Polymers.Props.C91_julia_morse_isotensional",
    "Polymers.Props.C91_julia_morse_isotensional_asymptotic",
    "Polymers.Props.C91_julia_morse_isotensional_asymptotic_legendre",
    "Polymers.Props.C91_julia_morse_isotensional_asymptotic_reduced",
    "Polymers.Props.C91_julia_morse_isotensional_asymptotic_reduced_legendre",
    "Polymers.Props.C91_julia_morse_isotensional_legendre"
   ],
   "note": ""
  },
  {
   "property": "C92",
   "status": "proved",
   "theorems": [
    "Polymers.Props.C92_efjc",
    "Polymers.Props.C92_efrc",
    "Polymers.Props.C92_fjc",
    "Polymers.Props.C92_fjc_mean_square",
    "Polymers.Props.C92_frc"
   ],
   "note": ""
  },
  {
   "property": "C93",
   "status": "proved",
   "theorems": [
    "Polymers.Props.C93_efjc",
    "Polymers.Props.C93_fjc"
   ],
   "note": ""
  },
  {
   "property": "C94",
   "status": "proved",
   "theorems": [
    "Polymers.Props.C94_ideal_distribution",
    "Polymers.Props.C94_ideal_forces",
    "Polymers.Props.C94_ideal_gibbs",
    "Polymers.Props.C94_ideal_helmholtz",
    "Polymers.Props.C94_ideal_lengths",
    "Polymers.Props.C94_ideal_nondimensional_distribution",
    "Polymers.Props.C94_ideal_relative_gibbs",
    "Polymers.Props.C94_ideal_relative_helmholtz"
   ],
   "note": ""
  },
  {
   "property": "C95",
   "status": "proved",
   "theorems": [
    "Polymers.Props.C95_fjc_gibbs",
    "Polymers.Props.C95_fjc_legendre_helmholtz",
    "Polymers.Props.C95_fjc_lengths",
    "Polymers.Props.C95_fjc_nondimensional_gibbs",
    "Polymers.Props.C95_fjc_nondimensional_legendre_helmholtz",
    "Polymers.Props.C95_fjc_nondimensional_lengths"
   ],
   "note": ""
  },
  {
   "property": "C96",
   "status": "proved",
   "theorems": [
    "Polymers.Props.C96_fjc_distribution",
    "Polymers.Props.C96_fjc_force",
    "Polymers.Props.C96_fjc_nondimensional_distribution",
    "Polymers.Props.C96_fjc_nondimensional_force",
    "Polymers.Props.C96_fjc_nondimensional_relative_helmholtz",
    "Polymers.Props.C96_fjc_relative_helmholtz"
   ],
   "note": ""
  },
  {
   "property": "C97",
   "status": "proved",
   "theorems": [
    "Polymers.Props.C97_fjc_helmholtz",
    "Polymers.Props.C97_fjc_legendre_gibbs",
    "Polymers.Props.C97_fjc_nondimensional_helmholtz",
    "Polymers.Props.C97_fjc_nondimensional_legendre_gibbs"
   ],
   "note": ""
  },
  {
   "property": "C98",
   "status": "proved",
   "theorems": [
    "Polymers.Props.C98_efjc_gibbs",
    "Polymers.Props.C98_efjc_legendre_helmholtz",
    "Polymers.Props.C98_efjc_lengths",
    "Polymers.Props.C98_efjc_nondimensional_gibbs",
    "Polymers.Props.C98_efjc_nondimensional_legendre_helmholtz",
    "Polymers.Props.C98_efjc_nondimensional_lengths"
   ],
   "note": ""
  },
  {
   "property": "C99",
   "status": "proved",
   "theorems": [
    "Polymers.Props.C99_swfjc_gibbs",
    "Polymers.Props.C99_swfjc_helmholtz",
    "Polymers.Props.C99_swfjc_lengths",
    "Polymers.Props.C99_swfjc_narrow_well",
    "Polymers.Props.C99_swfjc_narrow_well_helmholtz",
    "Polymers.Props.C99_swfjc_narrow_well_relative",
    "Polymers.Props.C99_swfjc_nondimensional_gibbs",
    "Polymers.Props.C99_swfjc_nondimensional_helmholtz",
    "Polymers.Props.C99_swfjc_nondimensional_lengths"
   ],
   "note": ""
  },
  {
   "property": "C100",
   "status": "proved",
   "theorems": [
    "Polymers.Props.C100_efjc_alternative_gibbs",
    "Polymers.Props.C100_efjc_alternative_helmholtz",
    "Polymers.Props.C100_efjc_alternative_lengths",
    "Polymers.Props.C100_efjc_alternative_nondimensional_gibbs",
    "Polymers.Props.C100_efjc_alternative_nondimensional_helmholtz",
    "Polymers.Props.C100_efjc_alternative_nondimensional_lengths"
   ],
   "note": ""
  },
  {
   "property": "C101",
   "status": "proved",
   "theorems": [
    "Polymers.Props.C101_morse_lengths",
    "Polymers.Props.C101_morse_lengths_above",
    "Polymers.Props.C101_morse_nondimensional_lengths",
    "Polymers.Props.C101_morse_nondimensional_lengths_above"
   ],
   "note": ""
  },
  {
   "property": "C102",
   "status": "proved",
   "theorems": [
    "Polymers.Props.C102_morse_gibbs",
    "Polymers.Props.C102_morse_gibbs_above",
    "Polymers.Props.C102_morse_nondimensional_gibbs",
    "Polymers.Props.C102_morse_nondimensional_gibbs_above"
   ],
   "note": ""
  },
  {
   "property": "C103",
   "status": "proved",
   "theorems": [
    "Polymers.Props.C103_morse_helmholtz",
    "Polymers.Props.C103_morse_helmholtz_above",
    "Polymers.Props.C103_morse_nondimensional_helmholtz",
    "Polymers.Props.C103_morse_nondimensional_helmholtz_above"
   ],
   "note": ""
  },
  {
   "property": "C104",
   "status": "proved",
   "theorems": [
    "Polymers.Props.C104_efjc_asymptotic_gibbs",
    "Polymers.Props.C104_efjc_asymptotic_lengths",
    "Polymers.Props.C104_efjc_asymptotic_nondimensional_gibbs",
    "Polymers.Props.C104_efjc_asymptotic_nondimensional_lengths"
   ],
   "note": ""
  },
  {
   "property": "C105",
   "status": "proved",
   "theorems": [
    "Polymers.Props.C105_efjc_asymptotic_helmholtz",
    "Polymers.Props.C105_efjc_asymptotic_nondimensional_helmholtz"
   ],
   "note": ""
  },
  {
   "property": "C106",
   "status": "proved",
   "theorems": [
    "Polymers.Props.C106_morse_asymptotic_gibbs_above",
    "Polymers.Props.C106_morse_asymptotic_helmholtz_above",
    "Polymers.Props.C106_morse_asymptotic_lengths_above",
    "Polymers.Props.C106_morse_asymptotic_nondimensional_gibbs_above",
    "Polymers.Props.C106_morse_asymptotic_nondimensional_helmholtz_above",
    "Polymers.Props.C106_morse_asymptotic_nondimensional_lengths_above"
   ],
   "note": ""
  }
 ]
}