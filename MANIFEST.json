{
 "claims": [
  {
   "property": "C01",
   "status": "proved",
   "theorems": [
    "AMAT.Props.C01_planet_names",
    "AMAT.Props.C01_planet_consistent",
    "AMAT.Props.C01_planet_reference_data"
   ],
   "note": ""
  },
  {
   "property": "C02",
   "status": "proved",
   "theorems": [
    "AMAT.Props.C02_roundtrip_physical",
    "AMAT.Props.C02_roundtrip_dimensionless",
    "AMAT.Props.C02_roundtrip_all_bodies",
    "AMAT.Props.C02_scale_meaning",
    "AMAT.Props.C02_altitude_radius_inverse"
   ],
   "note": ""
  },
  {
   "property": "C03",
   "status": "proved",
   "theorems": [
    "AMAT.Props.C03_density_regimes",
    "AMAT.Props.C03_density_nonneg"
   ],
   "note": ""
  },
  {
   "property": "C04",
   "status": "partial",
   "theorems": [
    "AMAT.Props.C04_densities_agree_partial",
    "AMAT.Props.C04_agree_iff",
    "AMAT.Props.C04_densities_disagree"
   ],
   "note": "Agreement holds exactly on [0,h_thres]; the full claim is false and its negation is proved (C04_densities_disagree)."
  },
  {
   "property": "C05",
   "status": "proved",
   "theorems": [
    "AMAT.Props.C05_table_accepted",
    "AMAT.Props.C05_table_outside",
    "AMAT.Props.C05_table_linear_between_neighbours",
    "AMAT.Props.C05_table_nodes",
    "AMAT.Props.C05_table_bounds",
    "AMAT.Props.C05_table_antitone",
    "AMAT.Props.C05_table_monotone"
   ],
   "note": ""
  },
  {
   "property": "C06",
   "status": "proved",
   "theorems": [
    "AMAT.Props.C06_launch_mass_zero_outside",
    "AMAT.Props.C06_launch_mass_inside",
    "AMAT.Props.C06_launch_capability_elementwise"
   ],
   "note": ""
  },
  {
   "property": "C07",
   "status": "proved",
   "theorems": [
    "AMAT.Props.C07_profiles_partition",
    "AMAT.Props.C07_profile_usable"
   ],
   "note": ""
  },
  {
   "property": "C08",
   "status": "proved",
   "theorems": [
    "AMAT.Props.C08_sigma_scaling",
    "AMAT.Props.C08_loaders",
    "AMAT.Props.C08_model6_is_model5_without_perturbation",
    "AMAT.Props.C08_profile_lookup"
   ],
   "note": ""
  },
  {
   "property": "C09",
   "status": "partial",
   "theorems": [
    "AMAT.Props.C09_link_equation_partial",
    "AMAT.Props.C09_receiver_diameter_ignored",
    "AMAT.Props.C09_link_equation_false",
    "AMAT.Props.C09_gain_plus_receive_dish_raises",
    "AMAT.Props.C09_zero_dBi_raises"
   ],
   "note": "Proved whenever the receive dish (if given) has the transmit diameter; otherwise false of the code (self.Dr = Dt), error quantified in C09_receiver_diameter_ignored; also TypeError/AttributeError findings."
  },
  {
   "property": "C10",
   "status": "proved",
   "theorems": [
    "AMAT.Props.C10_range",
    "AMAT.Props.C10_double_range",
    "AMAT.Props.C10_power",
    "AMAT.Props.C10_rate",
    "AMAT.Props.C10_tx_efficiency",
    "AMAT.Props.C10_rx_efficiency"
   ],
   "note": ""
  },
  {
   "property": "C11",
   "status": "proved",
   "theorems": [
    "AMAT.Props.C11_schedule",
    "AMAT.Props.C11_schedule_order_irrelevant",
    "AMAT.Props.C11_schedule_grid"
   ],
   "note": ""
  },
  {
   "property": "C12",
   "status": "proved",
   "theorems": [
    "AMAT.Props.C12_data_volume",
    "AMAT.Props.C12_length_mismatch",
    "AMAT.Props.C12_total_bound"
   ],
   "note": ""
  },
  {
   "property": "C13",
   "status": "partial",
   "theorems": [
    "AMAT.Props.C13_beta_kept",
    "AMAT.Props.C13_lift_to_drag_partial",
    "AMAT.Props.C13_user_CD_breaks_LD"
   ],
   "note": "Ballistic coefficient always; L/D for vehicles without a user-defined CD(Mach). With one, lift over drag is no longer LD (C13_user_CD_breaks_LD)."
  },
  {
   "property": "C14",
   "status": "proved",
   "theorems": [
    "AMAT.Props.C14_bank_rotates_lift",
    "AMAT.Props.C14_drag_opposes",
    "AMAT.Props.C14_vectorised",
    "AMAT.Props.C14_vectorised_agrees"
   ],
   "note": ""
  },
  {
   "property": "C15",
   "status": "proved",
   "theorems": [
    "AMAT.Props.C15_dimensionless_aero"
   ],
   "note": ""
  },
  {
   "property": "C16",
   "status": "partial",
   "theorems": [
    "AMAT.Props.C16_gload_partial",
    "AMAT.Props.C16_drag_load",
    "AMAT.Props.C16_gload_nan",
    "AMAT.Props.C16_gload_wrong",
    "AMAT.Props.C16_example",
    "AMAT.Props.C16_history_partial"
   ],
   "note": "False of the code when the lateral acceleration is non-zero (acc_w*2.0 instead of acc_w**2.0): wrong value C16_gload_wrong, NaN C16_gload_nan. Exact when the lateral component is 0 or 2."
  },
  {
   "property": "C17",
   "status": "proved",
   "theorems": [
    "AMAT.Props.C17_gravity_is_gradient",
    "AMAT.Props.C17_gravity_only_rotated"
   ],
   "note": ""
  },
  {
   "property": "C18",
   "status": "proved",
   "theorems": [
    "AMAT.Props.C18_rate_any_vehicle",
    "AMAT.Props.C18_never_increases_any_vehicle",
    "AMAT.Props.C18_constant_any_vehicle",
    "AMAT.Props.C18_jacobi_rate",
    "AMAT.Props.C18_energy_rate_is_minus_drag_power",
    "AMAT.Props.C18_energy_never_increases",
    "AMAT.Props.C18_energy_constant_in_vacuum",
    "AMAT.Props.C18_switched_never_increases",
    "AMAT.Props.C18_switched_constant"
   ],
   "note": "Also for vehicles with a user-defined CD(Mach) (C18_rate_any_vehicle and the two theorems beside it). C18_switched_*: flights with bank angle switches at finitely many times, as flown by the guided simulations."
  },
  {
   "property": "C19",
   "status": "proved",
   "theorems": [
    "AMAT.Props.C19_kinematics"
   ],
   "note": ""
  },
  {
   "property": "C20",
   "status": "partial",
   "theorems": [
    "AMAT.Props.C20_newton_drag_curve_partial",
    "AMAT.Props.C20_newton_partial",
    "AMAT.Props.C20_lateral_law_false"
   ],
   "note": "Exact along velocity and in the vertical plane; laterally the added 1e-2 in the heading equation makes the law false (C20_lateral_law_false); the exact residual is given. Also for vehicles with a user-defined CD(Mach) (C20_newton_drag_curve_partial)."
  },
  {
   "property": "C21",
   "status": "proved",
   "theorems": [
    "AMAT.Props.C21_same_dynamics"
   ],
   "note": ""
  },
  {
   "property": "C22",
   "status": "proved",
   "theorems": [
    "AMAT.Props.C22_classification"
   ],
   "note": ""
  },
  {
   "property": "C23",
   "status": "partial",
   "theorems": [
    "AMAT.Props.C23_trapped_first_still_skips",
    "AMAT.Props.C23_never_skips_partial"
   ],
   "note": "False: a trajectory that dips below h_trap first and later exceeds h_skip is classified as skip-out (C23_trapped_first_still_skips)."
  },
  {
   "property": "C24",
   "status": "proved",
   "theorems": [
    "AMAT.Props.C24_returns_iff",
    "AMAT.Props.C24_returns_inside",
    "AMAT.Props.C24_arrays_aligned",
    "AMAT.Props.C24_arrays_aligned_variants",
    "AMAT.Props.C24_first_point_is_entry_state",
    "AMAT.Props.C24_returns",
    "AMAT.Props.C24_entry_above_skip_raises",
    "AMAT.Props.C24_example"
   ],
   "note": "C24_returns_iff gives the exact condition under which the call returns (otherwise ValueError); starting above h_skip raises (C24_entry_above_skip_raises)."
  },
  {
   "property": "C25",
   "status": "proved",
   "theorems": [
    "AMAT.Props.C25_heat_laws",
    "AMAT.Props.C25_total_array"
   ],
   "note": ""
  },
  {
   "property": "C26",
   "status": "proved",
   "theorems": [
    "AMAT.Props.C26_sweep",
    "AMAT.Props.C26_exception_leaves_radius"
   ],
   "note": ""
  },
  {
   "property": "C27",
   "status": "partial",
   "theorems": [
    "AMAT.Props.C27_heat_load_is_integral",
    "AMAT.Props.C27_heat_load_monotone",
    "AMAT.Props.C27_segments_add",
    "AMAT.Props.C27_initial_load_lost",
    "AMAT.Props.C27_heat_load_drops"
   ],
   "note": "propogateEntry: load is the trapezoidal integral, monotone. propogateEntry2 with an initial load: SciPy in the lock file raises, older SciPy drops it (C27_initial_load_lost, C27_heat_load_drops)."
  },
  {
   "property": "C28",
   "status": "proved",
   "theorems": [
    "AMAT.Props.C28_eccentricity",
    "AMAT.Props.C28_apsides",
    "AMAT.Props.C28_positive_apoapsis_means_bound"
   ],
   "note": ""
  },
  {
   "property": "C29",
   "status": "proved",
   "theorems": [
    "AMAT.Props.C29_inertial_exit_velocity"
   ],
   "note": ""
  },
  {
   "property": "C30",
   "status": "proved",
   "theorems": [
    "AMAT.Props.C30_capture_verdict"
   ],
   "note": ""
  },
  {
   "property": "C31",
   "status": "partial",
   "theorems": [
    "AMAT.Props.C31_verdict_partial",
    "AMAT.Props.C31_verdict2_partial",
    "AMAT.Props.C31_missing_threshold",
    "AMAT.Props.C31_relative_verdict_wrong"
   ],
   "note": "The verdict matches the orbit with the planet-relative velocity (hitsTargetApoapsis) resp. the inertial velocity (hitsTargetApoapsis2) for the six bodies with h_low; false for Jupiter and Saturn (AttributeError, C31_missing_threshold) and the relative verdict can contradict the inertial orbit (C31_relative_verdict_wrong)."
  },
  {
   "property": "C32",
   "status": "proved",
   "theorems": [
    "AMAT.Props.C32_search_brackets_bound",
    "AMAT.Props.C32_nonpositive_tolerance_diverges",
    "AMAT.Props.C32_nonvacuous"
   ],
   "note": "For every verdict function and all six searches; zero or negative tolerance never terminates (C32_nonpositive_tolerance_diverges)."
  },
  {
   "property": "C33",
   "status": "proved",
   "theorems": [
    "AMAT.Props.C33_search_accurate"
   ],
   "note": ""
  },
  {
   "property": "C34",
   "status": "partial",
   "theorems": [
    "AMAT.Props.C34_no_change_returns_zero",
    "AMAT.Props.C34_search_returns_partial",
    "AMAT.Props.C34_narrow_bracket_raises",
    "AMAT.Props.C34_raises_without_threshold"
   ],
   "note": "Never raising is false: bracket already within tolerance raises UnboundLocalError; Jupiter/Saturn raise AttributeError."
  },
  {
   "property": "C35",
   "status": "partial",
   "theorems": [
    "AMAT.Props.C35_vehicle_restored_partial",
    "AMAT.Props.C35_exception_leaves_angle",
    "AMAT.Props.C35_drag_searches_change_vehicle"
   ],
   "note": "Entry angle and LD are restored on every normal return; false after exceptions (C35_exception_leaves_angle) and for beta, CD in the drag-modulation searches (C35_drag_searches_change_vehicle)."
  },
  {
   "property": "C36",
   "status": "partial",
   "theorems": [
    "AMAT.Props.C36_width_is_difference",
    "AMAT.Props.C36_width_is_difference2",
    "AMAT.Props.C36_drag_width_is_difference",
    "AMAT.Props.C36_width_accurate_partial",
    "AMAT.Props.C36_failed_search_reported_as_width"
   ],
   "note": "Difference and accuracy proved; the last clause is false: a failed search counts as limit 0 (C36_failed_search_reported_as_width)."
  },
  {
   "property": "C37",
   "status": "partial",
   "theorems": [
    "AMAT.Props.C37_lift_not_removed",
    "AMAT.Props.C37_ballistic_search_is_lift_up_search",
    "AMAT.Props.C37_ballistic_iff_built_ballistic_partial",
    "AMAT.Props.C37_lift_nonzero_witness"
   ],
   "note": "The claim is false and its negation is proved: lift is unaffected and the search coincides with the lift-up search."
  },
  {
   "property": "C38",
   "status": "proved",
   "theorems": [
    "AMAT.Props.C38_rate_limit",
    "AMAT.Props.C38_guided_history"
   ],
   "note": ""
  },
  {
   "property": "C39",
   "status": "partial",
   "theorems": [
    "AMAT.Props.C39_tracks_within_one_step_partial",
    "AMAT.Props.C39_reached_iff",
    "AMAT.Props.C39_overshoots",
    "AMAT.Props.C39_overshoot_example"
   ],
   "note": "The bank angle comes within one roll step of a constant command; exact attainment is false: C39_reached_iff gives the exact condition, C39_overshoots the two-cycle around the command."
  },
  {
   "property": "C40",
   "status": "proved",
   "theorems": [
    "AMAT.Props.C40_glide_command",
    "AMAT.Props.C40_ballistic_raises"
   ],
   "note": ""
  },
  {
   "property": "C41",
   "status": "partial",
   "theorems": [
    "AMAT.Props.C41_immediate_switch_partial",
    "AMAT.Props.C41_switch_speed_ignored",
    "AMAT.Props.C41_phases_do_not_read_switch_speed",
    "AMAT.Props.C41_loop_continues_below_switch_speed"
   ],
   "note": "The switch happens as documented only in the first second; afterwards the loop tests a stale speed attribute, so the switch speed is ignored (C41_switch_speed_ignored, C41_loop_continues_below_switch_speed)."
  },
  {
   "property": "C42",
   "status": "partial",
   "theorems": [
    "AMAT.Props.C42_steep_entry_never_ends",
    "AMAT.Props.C42_steep_exit_never_ends",
    "AMAT.Props.C42_steep_flight_never_ends",
    "AMAT.Props.C42_steep_witness",
    "AMAT.Props.C42_trapped_never_ends",
    "AMAT.Props.C42_trapped_witness",
    "AMAT.Props.C42_ends_when_climbing_partial"
   ],
   "note": "False in general: a vehicle trapped in the atmosphere loops forever (C42_trapped_never_ends, C42_trapped_witness), and the versions that use solve_ivp loop forever once the path is about to become steeper than 88 degrees, because the terminal event leaves segments of a single point (C42_steep_entry_never_ends, C42_steep_exit_never_ends, C42_steep_flight_never_ends, C42_steep_witness). Partial: runs whose altitude eventually climbs by a fixed amount per cycle end."
  },
  {
   "property": "C43",
   "status": "partial",
   "theorems": [
    "AMAT.Props.C43_histories_continuous",
    "AMAT.Props.C43_step_histories",
    "AMAT.Props.C43_example"
   ],
   "note": "All histories of all four public guided functions describe one time-ordered joined trajectory. C43_step_histories: the per-step acceleration list has 2n+1 entries, not n+1."
  },
  {
   "property": "C44",
   "status": "partial",
   "theorems": [
    "AMAT.Props.C44_runs_independent",
    "AMAT.Props.C44_record_of_sample",
    "AMAT.Props.C44_order_irrelevant",
    "AMAT.Props.C44_samples_used",
    "AMAT.Props.C44_LD_ignored",
    "AMAT.Props.C44_vehicle_not_dispersed",
    "AMAT.Props.C44_example",
    "AMAT.Props.C44_setup_after_run"
   ],
   "note": "Independence of the runs is proved for all five run functions (C44_runs_independent, C44_record_of_sample, C44_order_irrelevant), and the density file, profile, sigma and entry angle are those flown (C44_samples_used). The second half is false: the sampled L/D changes nothing (C44_LD_ignored, C44_vehicle_not_dispersed). The entry state common to all runs is the reference state at set-up, which guided runs overwrite (C44_setup_after_run)."
  },
  {
   "property": "C45",
   "status": "proved",
   "theorems": [
    "AMAT.Props.C45_periapsis_raise",
    "AMAT.Props.C45_apoapsis_raise",
    "AMAT.Props.C45_visViva_energy"
   ],
   "note": ""
  },
  {
   "property": "C46",
   "status": "proved",
   "theorems": [
    "AMAT.Props.C46_rotations",
    "AMAT.Props.C46_icrf_to_bi",
    "AMAT.Props.C46_bi_to_dprime"
   ],
   "note": ""
  },
  {
   "property": "C47",
   "status": "proved",
   "theorems": [
    "AMAT.Props.C47_hyperbola",
    "AMAT.Props.C47_construction"
   ],
   "note": ""
  },
  {
   "property": "C48",
   "status": "proved",
   "theorems": [
    "AMAT.Props.C48_periapsis"
   ],
   "note": ""
  },
  {
   "property": "C49",
   "status": "partial",
   "theorems": [
    "AMAT.Props.C49_two_body_partial",
    "AMAT.Props.C49_equatorial_fails",
    "AMAT.Props.C49_outbound_wrong"
   ],
   "note": "Proved on the whole incoming branch (two-body ODE, energy, angular momentum, eccentricity vector, asymptote limit) for every non-equatorial orbit; equatorial orbits have no node and return NaN (C49_equatorial_fails). Outbound anomalies get an inward velocity (C49_outbound_wrong)."
  },
  {
   "property": "C50",
   "status": "partial",
   "theorems": [
    "AMAT.Props.C50_entry_state_partial",
    "AMAT.Props.C50_no_entry"
   ],
   "note": "Proved for every non-equatorial arrival with rp <= RP + h_EI; equatorial arrivals give NaN (C49_equatorial_fails); rp above the interface gives NaN (C50_no_entry)."
  },
  {
   "property": "C51",
   "status": "partial",
   "theorems": [
    "AMAT.Props.C51_longitude_partial",
    "AMAT.Props.C51_lost_quadrant",
    "AMAT.Props.C51_lost_quadrant_reachable"
   ],
   "note": "True for entry positions with x > 0; false for x < 0 (arctan loses the quadrant): longitude off by pi and velocity U + Omega x R (C51_lost_quadrant, reachable)."
  },
  {
   "property": "C52",
   "status": "partial",
   "theorems": [
    "AMAT.Props.C52_heading_relation",
    "AMAT.Props.C52_heading_partial",
    "AMAT.Props.C52_heading_wrong",
    "AMAT.Props.C52_heading_wrong_reachable"
   ],
   "note": "True for horizontal flight; in general cos(reported) = cos(gamma) cos(true) because the projection is not normalised (C52_heading_relation, C52_heading_wrong, reachable)."
  },
  {
   "property": "C53",
   "status": "partial",
   "theorems": [
    "AMAT.Props.C53_insertion_partial",
    "AMAT.Props.C53_burn_vector_too_long",
    "AMAT.Props.C53_entry_system_rejected"
   ],
   "note": "Speed change exact; the vector burn DV_POI is off because the elliptic velocity is built with the 1.0000001 guard (C53_burn_vector_too_long); approaches built for entry are rejected (C53_entry_system_rejected)."
  },
  {
   "property": "C54",
   "status": "partial",
   "theorems": [
    "AMAT.Props.C54_coast_and_raise_partial",
    "AMAT.Props.C54_degenerate_fails"
   ],
   "note": "Proved for bound exit states off the equatorial plane; equatorial/degenerate orbits yield nan (C54_degenerate_fails); delta-V within the guard constant."
  },
  {
   "property": "C55",
   "status": "partial",
   "theorems": [
    "AMAT.Props.C55_probe_position_partial",
    "AMAT.Props.C55_probe_position"
   ],
   "note": "C55_probe_position: every burn that does not reverse the velocity, bound and escape orbits of the probe, anomalies on the orbit; a probe on an exact parabola has no elements. For bound, non-circular, non-equatorial orbits of the orbiter; circular and equatorial ones have no elements (C54_degenerate_fails)."
  },
  {
   "property": "C56",
   "status": "partial",
   "theorems": [
    "AMAT.Props.C56_eccentric_anomaly_fails",
    "AMAT.Props.C56_timed_orbit_secant_fails",
    "AMAT.Props.C56_eccentric_anomaly_accurate",
    "AMAT.Props.C56_eccentric_anomaly_returns",
    "AMAT.Props.C56_timed_orbit_secant",
    "AMAT.Props.C56_eccentric_anomaly_returns_wide",
    "AMAT.Props.C56_timed_orbit_secant_wide",
    "AMAT.Props.C56_timed_orbit_partial",
    "AMAT.Props.C56_timed_arrays_partial"
   ],
   "note": "For non-equatorial approaches (equatorial ones have no elements, C49_equatorial_fails). The _partial theorems take an arbitrary root finder with a stated residual. C56_timed_orbit_secant uses the secant method of scipy.optimize.newton as SciPy runs it: whatever it returns is the position at a time within 2e*1.48e-8/(2 pi) revolutions of the requested one, and it returns whenever e/(2(1-e))*(e+(|M|+1)*1e-4) <= 0.999 (all e up to 0.7 for 200 revolutions). C56_eccentric_anomaly_returns_wide and C56_timed_orbit_secant_wide: it returns for every e up to 0.9 (apsides within a factor of 19) during the first thirty revolutions. For every e from 1 - 1e-6 on it does not: at mean anomaly 2e-5 the secant method circles and RuntimeError is raised (C56_eccentric_anomaly_fails, C56_timed_orbit_secant_fails). Between 0.9 and 1 - 1e-6 it is not settled."
  },
  {
   "property": "C57",
   "status": "partial",
   "theorems": [
    "AMAT.Props.C57_probe_orbiter",
    "AMAT.Props.C57_orbiter_orbiter",
    "AMAT.Props.C57_probe_probe_partial",
    "AMAT.Props.C57_second_probe_fails"
   ],
   "note": "Proved for ProbeOrbiterDeflection and OrbiterOrbiterDeflection (real two-body motion in time from the manoeuvre point to the periapsis, in the reported time of flight, Lagrange identity, energy of the arrival). For ProbeProbeDeflection the second probe's velocity is right only when its own anomaly happens to equal the geometric angle (C57_probe_probe_partial gives the exact condition); C57_second_probe_fails shows it is wrong for every pair of probes on opposite sides. Equatorial first orbits are excluded (NaN, see C49)."
  },
  {
   "property": "C58",
   "status": "partial",
   "theorems": [
    "AMAT.Props.C58_lander_planet_partial",
    "AMAT.Props.C58_lander_parallax",
    "AMAT.Props.C58_lander_orbiter",
    "AMAT.Props.C58_orbiter_planet_partial",
    "AMAT.Props.C58_orbiter_parallax",
    "AMAT.Props.C58_lander_sees_orbiter",
    "AMAT.Props.C58_orbit_sees_planet"
   ],
   "note": "Lander to orbiter is exact (C58_lander_orbiter, C58_lander_sees_orbiter). Against planets the code treats the target as infinitely far: exact bands of disagreement in C58_lander_planet_partial and C58_orbiter_planet_partial, with disagreeing configurations in C58_lander_parallax and C58_orbiter_parallax. Ephemerides are an arbitrary function; for TITAN the code asks for the position of Saturn."
  },
  {
   "property": "C59",
   "status": "partial",
   "theorems": [
    "AMAT.Props.C59_stagnation_temperature_raises",
    "AMAT.Props.C59_stagnation_energy_partial",
    "AMAT.Props.C59_drag_curve_raises",
    "AMAT.Props.C59_flight_partial",
    "AMAT.Props.C59_scale_height_raises"
   ],
   "note": "False as stated: computeStagTemp raises for every vehicle and trajectory (C59_stagnation_temperature_raises); a user-defined drag curve cannot be flown with NumPy >= 1.24 (C59_drag_curve_raises); scaleHeight raises exactly at and above the atmospheric interface (C59_scale_height_raises). With constant drag coefficient or older NumPy nothing is missing in flight (C59_flight_partial). If a ratio of specific heats is assigned to the vehicle from outside, computeStagTemp returns the temperature of the energy balance of isentropic flow brought to rest (C59_stagnation_energy_partial)."
  },
  {
   "property": "C60",
   "status": "partial",
   "theorems": [
    "AMAT.Props.C60_density_estimate_drag_curve",
    "AMAT.Props.C60_density_estimate",
    "AMAT.Props.C60_estimate_biased",
    "AMAT.Props.C60_measured_function_partial"
   ],
   "note": "Exact relation with the drag law; the estimate is biased while decelerating and stored against the altitude at the start of the cycle (C60_estimate_biased). Below the lowest estimate the function continues exponentially with the scale height of the planet model. The measured function reproduces its samples when their altitudes are distinct and the extrapolation limit is at least 1 km below them (C60_measured_function_partial). With a drag curve the estimate is additionally wrong by the ratio of the drag coefficient flown to the nominal one (C60_density_estimate_drag_curve)."
  },
  {
   "property": "C61",
   "status": "proved",
   "theorems": [
    "AMAT.Props.C61_equatorial_plane_invariant",
    "AMAT.Props.C61_bodies",
    "AMAT.Props.C61_nonzero_J3_leaves_plane",
    "AMAT.Props.C61_stays_equatorial",
    "AMAT.Props.C61_switched_stays_equatorial"
   ],
   "note": "Also proves that with non-zero J3 the plane is left. C61_stays_equatorial: whole trajectories, by Gronwall, for bodies with zero J3. C61_switched_stays_equatorial: flights with lift reversals."
  },
  {
   "property": "C62",
   "status": "proved",
   "theorems": [
    "AMAT.Props.C62_plot_units",
    "AMAT.Props.C62_restart_exact"
   ],
   "note": ""
  },
  {
   "property": "C63",
   "status": "proved",
   "theorems": [
    "AMAT.Props.C63_prediction_undisturbed",
    "AMAT.Props.C63_apoapsis_undisturbed",
    "AMAT.Props.C63_vehicle_as_before",
    "AMAT.Props.C63_prediction_value",
    "AMAT.Props.C63_jettison_value",
    "AMAT.Props.C63_drag_evaluation_writes"
   ],
   "note": "Object store with deep copies: every object that existed before a prediction is unchanged, even if it raises (C63_prediction_undisturbed, C63_apoapsis_undisturbed), and the predicted values are those of the record model (C63_prediction_value, C63_jettison_value). C63_drag_evaluation_writes shows that flying the vehicle itself would disturb it."
  },
  {
   "property": "C64",
   "status": "partial",
   "theorems": [
    "AMAT.Props.C64_sampled_density_can_be_negative",
    "AMAT.Props.C64_sampled_density_nonneg_partial",
    "AMAT.Props.C64_negative_iff"
   ],
   "note": "False of the code for sigma < -1 (C64_sampled_density_can_be_negative); exact condition in C64_negative_iff."
  },
  {
   "property": "C65",
   "status": "proved",
   "theorems": [
    "AMAT.Props.C65_circular_orbit_is_solution",
    "AMAT.Props.C65_orbit_exists"
   ],
   "note": ""
  },
  {
   "property": "C66",
   "status": "proved",
   "theorems": [
    "AMAT.Props.C66_longitude_time_invariant",
    "AMAT.Props.C66_mirror",
    "AMAT.Props.C66_mirror_trajectory",
    "AMAT.Props.C66_mirror_fails_with_J3"
   ],
   "note": ""
  },
  {
   "property": "C67",
   "status": "proved",
   "theorems": [
    "AMAT.Props.C67_bplane_angle"
   ],
   "note": ""
  },
  {
   "property": "C68",
   "status": "partial",
   "theorems": [
    "AMAT.Props.C68_velocity_partial",
    "AMAT.Props.C68_always_outbound"
   ],
   "note": "Exact at direction level up to the guard constant; false on the inbound half (C68_always_outbound)."
  },
  {
   "property": "C69",
   "status": "partial",
   "theorems": [
    "AMAT.Props.C69_start_iff",
    "AMAT.Props.C69_quarter_orbit_fails",
    "AMAT.Props.C69_apoapsis_fails"
   ],
   "note": "False of the code: the exact condition for the claim is C69_start_iff, with failing releases in C69_quarter_orbit_fails and C69_apoapsis_fails."
  },
  {
   "property": "C70",
   "status": "partial",
   "theorems": [
    "AMAT.Props.C70_entry_interface_partial",
    "AMAT.Props.C70_no_entry",
    "AMAT.Props.C70_entry_state_partial"
   ],
   "note": "Interface radius, inbound half and two-body state proved up to the guard constant in the speed; the last clause is false: without an interface crossing the first call raises and later calls reuse the anomaly of an earlier probe (C70_no_entry)."
  },
  {
   "property": "C71",
   "status": "partial",
   "theorems": [
    "AMAT.Props.C71_atm_angle_is_inertial"
   ],
   "note": "False of the code: the stored value is the inertial flight-path angle; exact condition for agreement in C71_atm_angle_is_inertial."
  },
  {
   "property": "C72",
   "status": "partial",
   "theorems": [
    "AMAT.Props.C72_time_axis_partial",
    "AMAT.Props.C72_retrograde"
   ],
   "note": "Proved for bodies with positive rotation rate (C72_time_axis_partial). False for VENUS and URANUS: the samples run backwards and every data volume is non-positive (C72_retrograde)."
  },
  {
   "property": "C73",
   "status": "proved",
   "theorems": [
    "AMAT.Props.C73_reported_orbit",
    "AMAT.Props.C73_example"
   ],
   "note": "For runs whose last recorded point has negative two-body energy; escaping runs are C76. Integrator arbitrary."
  },
  {
   "property": "C74",
   "status": "proved",
   "theorems": [
    "AMAT.Props.C74_cycle_leaves_iff",
    "AMAT.Props.C74_phase_ends"
   ],
   "note": "Exact condition per cycle plus the loop; one extra exit exists before pull-up if the tolerance is larger than the target apoapsis (part of the stated condition)."
  },
  {
   "property": "C75",
   "status": "partial",
   "theorems": [
    "AMAT.Props.C75_prediction_is_flight",
    "AMAT.Props.C75_predicted_apoapsis",
    "AMAT.Props.C75_heat_load_irrelevant",
    "AMAT.Props.C75_heated_prediction_fails",
    "AMAT.Props.C75_climbing_cycle_fails",
    "AMAT.Props.C75_guided_entry_raises"
   ],
   "note": "Prediction equals ordinary propagation of the vehicle in the measured density (C75_prediction_is_flight, C75_predicted_apoapsis). Independence of the heat load holds for propogateEntry_utilD and for older SciPy versions; with the SciPy version of the lock file cumulative_trapezoid rejects a non-zero initial value, so predictions after any heating raise (C75_heated_prediction_fails, C75_climbing_cycle_fails) and whole guided runs raise (C75_guided_entry_raises)."
  },
  {
   "property": "C76",
   "status": "partial",
   "theorems": [
    "AMAT.Props.C76_escape_cost_reported",
    "AMAT.Props.C76_escape_example"
   ],
   "note": "False: C76_escape_cost_reported gives the exact reported costs for escaping final states, C76_escape_example a concrete run. Nothing of the claim holds beyond C73."
  },
  {
   "property": "C77",
   "status": "partial",
   "theorems": [
    "AMAT.Props.C77_rest_preserved_partial",
    "AMAT.Props.C77_reference_state_lost"
   ],
   "note": "Everything but the entry state (and, for drag modulation, the ballistic and drag coefficient) is preserved (C77_rest_preserved_partial); the reference entry state is overwritten by every guidance cycle (C77_reference_state_lost)."
  },
  {
   "property": "C78",
   "status": "partial",
   "theorems": [
    "AMAT.Props.C78_segments",
    "AMAT.Props.C78_worst_segment_logged",
    "AMAT.Props.C78_flight_total_partial",
    "AMAT.Props.C78_underreported",
    "AMAT.Props.C78_rates_nonneg",
    "AMAT.Props.C78_flight_example"
   ],
   "note": "True for runMonteCarlo2 and runMonteCarloD2 (C78_flight_total_partial, example C78_flight_example). False for runMonteCarlo, runMonteCarloD and runMonteCarloD_Earth, which store the load of the worst single guidance segment (C78_worst_segment_logged, concrete run C78_underreported). The condition of non-negative heating rates follows from non-negative density and speed (C78_rates_nonneg)."
  },
  {
   "property": "C79",
   "status": "partial",
   "theorems": [
    "AMAT.Props.C79_rest_preserved_partial",
    "AMAT.Props.C79_density_of_last_sample",
    "AMAT.Props.C79_nominal_density_lost",
    "AMAT.Props.C79_shared_planet"
   ],
   "note": "False: the density function of the planet is left at the last sample (C79_density_of_last_sample, concrete run C79_nominal_density_lost) and this reaches all vehicles sharing the planet object (C79_shared_planet). Constants and the other atmosphere functions survive (C79_rest_preserved_partial)."
  },
  {
   "property": "C80",
   "status": "partial",
   "theorems": [
    "AMAT.Props.C80_exponential",
    "AMAT.Props.C80_grid_points_partial",
    "AMAT.Props.C80_zero_at_top",
    "AMAT.Props.C80_raises_above",
    "AMAT.Props.C80_wrong_profile"
   ],
   "note": "For an exponential model atmosphere the value is exactly known (C80_exponential) and is H within s^2/12H at grid points (C80_grid_points_partial). False otherwise: the density passed is ignored (C80_wrong_profile), the value is 0 in the last kilometre (C80_zero_at_top) and the call raises above (C80_raises_above)."
  },
  {
   "property": "C81",
   "status": "proved",
   "theorems": [
    "AMAT.Props.C81_pressure_histories",
    "AMAT.Props.C81_constant_drag",
    "AMAT.Props.C81_pressures_ordered",
    "AMAT.Props.C81_example"
   ],
   "note": "All stored trajectories of propogateEntry and propogateEntry2; C81_constant_drag shows that constructed vehicles satisfy the condition of the drag law."
  },
  {
   "property": "C82",
   "status": "partial",
   "theorems": [
    "AMAT.Props.C82_drawn_iff",
    "AMAT.Props.C82_visible_iff",
    "AMAT.Props.C82_feasible_visible_partial",
    "AMAT.Props.C82_opportunity_hidden",
    "AMAT.Props.C82_nothing_to_compare"
   ],
   "note": "Exact condition for being visible (C82_visible_iff); holds when some listed opportunity has launch mass zero. False otherwise: the lower limit is the second smallest distinct mass minus 100, which hides the lightest opportunity (C82_opportunity_hidden), and no plot is drawn when all masses are equal (C82_nothing_to_compare)."
  },
  {
   "property": "C83",
   "status": "partial",
   "theorems": [
    "AMAT.Props.C83_within_range_partial",
    "AMAT.Props.C83_below_range",
    "AMAT.Props.C83_sls_example"
   ],
   "note": "Holds inside the published range of each curve. False below the first published C3 for every shipped curve (C83_below_range): the mass is zero there."
  },
  {
   "property": "C84",
   "status": "partial",
   "theorems": [
    "AMAT.Props.C84_lookup_exists_unique",
    "AMAT.Props.C84_reproduces_rows",
    "AMAT.Props.C84_negative_between_rows",
    "AMAT.Props.C84_cubic_columns"
   ],
   "note": "Existence, uniqueness, independence of the row order, reproduction of rows, continuity and fill values are proved for all tables, and that a cubic column is reproduced (C84_cubic_columns). The last part is false: positive rows can give a negative value in between (C84_negative_between_rows). The spline itself (scipy) is modelled by its defining equations."
  },
  {
   "property": "C85",
   "status": "partial",
   "theorems": [
    "AMAT.Props.C85_loads",
    "AMAT.Props.C85_density_positive",
    "AMAT.Props.C85_density_decreasing_partial",
    "AMAT.Props.C85_uranus_not_decreasing",
    "AMAT.Props.C85_uranus_gram_not_decreasing",
    "AMAT.Props.C85_pressure_temperature"
   ],
   "note": "Positivity of density, pressure and temperature: all nine files. Decrease of density and pressure: the seven files not for Uranus. False for both Uranus files (C85_uranus_not_decreasing, C85_uranus_gram_not_decreasing)."
  },
  {
   "property": "C86",
   "status": "proved",
   "theorems": [
    "AMAT.Props.C86_exact_arithmetic",
    "AMAT.Props.C86_search_ends",
    "AMAT.Props.C86_search_never_ends",
    "AMAT.Props.C86_practical_angles"
   ],
   "note": "Rounding to nearest with any tie rule on the doubles without upper exponent limit; the verdict test is arbitrary. C86_search_ends gives the returned limit, C86_search_never_ends the endless loop (for instance tolerance 1e-15 deg near -10 deg)."
  },
  {
   "property": "C87",
   "status": "proved",
   "theorems": [
    "AMAT.Props.C87_energy_and_heating",
    "AMAT.Props.C87_energy_strictly_decreases",
    "AMAT.Props.C87_energy_any_vehicle",
    "AMAT.Props.C87_switched_strictly_decreases"
   ],
   "note": "Energy is the Jacobi energy of the rotating frame; strict decrease over every time span inside the atmosphere in C87_energy_strictly_decreases. C87_energy_any_vehicle and C87_switched_strictly_decreases: vehicles with a drag curve and flights with bank angle switches."
  },
  {
   "property": "C88",
   "status": "partial",
   "theorems": [
    "AMAT.Props.C88_drag_curve_local_solution",
    "AMAT.Props.C88_shipped_switched_unique",
    "AMAT.Props.C88_crossing_unique",
    "AMAT.Props.C88_forward_flight",
    "AMAT.Props.C88_edge_not_differentiable",
    "AMAT.Props.C88_crossing_exists",
    "AMAT.Props.C88_grazing_one_flight",
    "AMAT.Props.C88_grazing_two_flights",
    "AMAT.Props.C88_grazing_no_flight",
    "AMAT.Props.C88_grazing_cases",
    "AMAT.Props.C88_local_solution",
    "AMAT.Props.C88_flight_unique",
    "AMAT.Props.C88_shipped_density_smooth",
    "AMAT.Props.C88_shipped_local_solution",
    "AMAT.Props.C88_shipped_flight_unique",
    "AMAT.Props.C88_switched_unique"
   ],
   "note": "Proved off the reference altitude and the edge of the atmosphere and for cos(gamma) != -0.01; at the edge the density jumps (C88_shipped_density_smooth). The excluded flight-path angle comes from the +1e-2 in the denominators of the code. C88_flight_unique and C88_shipped_flight_unique: uniqueness over whole flights, not only locally. C88_drag_curve_local_solution: vehicles with a smooth drag curve (uses the positive speed of sound of C99); C88_switched_unique and C88_shipped_switched_unique: flights with bank angle switches. At the edge itself no flight can satisfy the equations at all times around the crossing (C88_edge_not_differentiable), but every vehicle that climbs or descends there has a flight that is continuous and satisfies them off the crossing time (C88_crossing_exists), forwards in time only one (C88_forward_flight, C88_crossing_unique: whole flights through the edge). Vehicles horizontal exactly at the edge: one flight when the accelerations with and without lift point the same way (C88_grazing_one_flight), two when the lift pulls down a vehicle that would climb (C88_grazing_two_flights), none when it pushes up a vehicle that would sink (C88_grazing_no_flight); all three occur at Mars (C88_grazing_cases). Left out: one of these accelerations exactly zero, and altitude zero."
  },
  {
   "property": "C89",
   "status": "proved",
   "theorems": [
    "AMAT.Props.C89_flights_equal",
    "AMAT.Props.C89_corridors_equal",
    "AMAT.Props.C89_guided_equal"
   ],
   "note": "Vehicles are those built by the constructor; the equality is of the complete outputs (C89_flights_equal, C89_corridors_equal, C89_guided_equal)."
  },
  {
   "property": "C90",
   "status": "proved",
   "theorems": [
    "AMAT.Props.C90_lift_vector",
    "AMAT.Props.C90_bank_symmetries",
    "AMAT.Props.C90_reversed_bounds",
    "AMAT.Props.C90_ballistic_corridor"
   ],
   "note": "C90_lift_vector is the general statement; bank symmetries and corridor statements follow from it."
  },
  {
   "property": "C91",
   "status": "partial",
   "theorems": [
    "AMAT.Props.C91_profiles_are_flown",
    "AMAT.Props.C91_interval_partial",
    "AMAT.Props.C91_interval_false",
    "AMAT.Props.C91_bad_interval"
   ],
   "note": "The plotted values are proved to be those flown (C91_profiles_are_flown). The interval is false: the number of points is int(h_thres/dh), so the spacing is always larger than dh for the default h0=0 (C91_interval_false); exact condition in C91_interval_partial."
  },
  {
   "property": "C92",
   "status": "partial",
   "theorems": [
    "AMAT.Props.C92_gated_partial",
    "AMAT.Props.C92_windows_stretched",
    "AMAT.Props.C92_gated_false"
   ],
   "note": "True when the schedule has the duration of the visibility object (C92_gated_partial). The durations are not compared: a schedule for another duration with as many samples is accepted and its windows are stretched (C92_windows_stretched, C92_gated_false)."
  },
  {
   "property": "C93",
   "status": "partial",
   "theorems": [
    "AMAT.Props.C93_report_sum",
    "AMAT.Props.C93_report_adds_up_partial",
    "AMAT.Props.C93_report_adds_up_false"
   ],
   "note": "The DSN system loss enters the result but is not printed: C93_report_sum gives the exact relation, C93_report_adds_up_false the discrepancy for the default of 1 dB."
  },
  {
   "property": "C94",
   "status": "partial",
   "theorems": [
    "AMAT.Props.C94_files_of_the_runs",
    "AMAT.Props.C94_existing_folder",
    "AMAT.Props.C94_complete_simulation",
    "AMAT.Props.C94_interrupted_rows",
    "AMAT.Props.C94_example",
    "AMAT.Props.C94_zero_results_reported"
   ],
   "note": "Files of completed runs, complete simulations, untouched files and existing folders proved for all executions; false when a run raises: the summary files then contain rows of zeros for the missing runs (C94_interrupted_rows, C94_zero_results_reported)."
  },
  {
   "property": "C95",
   "status": "proved",
   "theorems": [
    "AMAT.Props.C95_dynamics",
    "AMAT.Props.C95_flights",
    "AMAT.Props.C95_convective_heating",
    "AMAT.Props.C95_below_surface"
   ],
   "note": "Both back ends. StaysAbove: the integrator evaluates the dynamics above the surface only; below it the density is a constant of the planet (C95_below_surface)."
  },
  {
   "property": "C96",
   "status": "partial",
   "theorems": [
    "AMAT.Props.C96_profile_nonneg_iff",
    "AMAT.Props.C96_venus_file_partial",
    "AMAT.Props.C96_mars_profile"
   ],
   "note": "Exact range of sigma for all 200 profiles of Venus/LAT80S.txt (holds down to -4.4257); false for Mars/LAT00N.txt, whose 72nd profile is negative at 117 km for every sigma below -0.3598. The other shipped Monte Carlo files are not transcribed."
  },
  {
   "property": "C97",
   "status": "partial",
   "theorems": [
    "AMAT.Props.C97_momentum_rate_partial",
    "AMAT.Props.C97_east_west",
    "AMAT.Props.C97_conserved_in_vacuum",
    "AMAT.Props.C97_drag_takes_momentum",
    "AMAT.Props.C97_not_conserved",
    "AMAT.Props.C97_momentum_drag_curve_partial",
    "AMAT.Props.C97_equatorial_flight_conserves",
    "AMAT.Props.C97_equatorial_entry_loses",
    "AMAT.Props.C97_switched_conserves"
   ],
   "note": "Exact rate with the error term of the +1e-2 in the heading equation (C97_momentum_rate_partial); exact for flights due east or west, hence for all equatorial flights at bodies without J3; false otherwise (C97_not_conserved). Also for user-defined CD(Mach) (C97_momentum_drag_curve_partial). C97_switched_conserves: flights with lift reversals."
  },
  {
   "property": "C98",
   "status": "proved",
   "theorems": [
    "AMAT.Props.C98_sampled_every_step",
    "AMAT.Props.C98_undecided_flies_all",
    "AMAT.Props.C98_undecided_if_between"
   ],
   "note": ""
  },
  {
   "property": "C99",
   "status": "proved",
   "theorems": [
    "AMAT.Props.C99_sound_speed_bounds",
    "AMAT.Props.C99_in_atmosphere",
    "AMAT.Props.C99_positive",
    "AMAT.Props.C99_mach_shapes",
    "AMAT.Props.C99_mach"
   ],
   "note": "Bounds by kernel-checked certificates for the cubic interpolation of the square roots of the rows; outside the table the code returns 1e20 m/s, so Mach numbers there are practically zero. computeMachScalar is the version for NumPy before 1.24 (see C59)."
  },
  {
   "property": "C100",
   "status": "proved",
   "theorems": [
    "AMAT.Props.C100_flight_continues",
    "AMAT.Props.C100_speed_and_altitude_bounded",
    "AMAT.Props.C100_flight_ends_at_obstacle",
    "AMAT.Props.C100_guided_flight"
   ],
   "note": "Idealised integrator: the claim is about exact solutions of the modelled equations of motion; the bank angle is constant, or constant in each guidance cycle (`C100_guided_flight`, any causal law). The obstacles are those where the modelled right-hand side is singular, jumps or leaves the atmosphere table."
  },
  {
   "property": "C101",
   "status": "proved",
   "theorems": [
    "AMAT.Props.C101_pull_up",
    "AMAT.Props.C101_suborbital_never_climbs",
    "AMAT.Props.C101_suborbital_never_skips"
   ],
   "note": "About exact solutions of the modelled equations of motion; the samples of propogateEntry are taken from such a solution, or reach below the surface. Flight-path angles below -180 degrees are excluded."
  },
  {
   "property": "C102",
   "status": "proved",
   "theorems": [
    "AMAT.Props.C102_legs",
    "AMAT.Props.C102_errors_grow_linearly",
    "AMAT.Props.C102_nearby_flights_exist",
    "AMAT.Props.C102_verdict_stable",
    "AMAT.Props.C102_nearby_vehicles",
    "AMAT.Props.C102_nearby_dynamics",
    "AMAT.Props.C102_nearby_conditions"
   ],
   "note": "Constants and sizes are proved to exist, not computed. Integration errors enter as defects of a curve through the samples; the solver is not shown to keep them below the size. Flights in another atmosphere or under a varying bank angle are compared while they last; that they last is proved for changed entry state, vehicle and bank angle, also in several legs at different bank angles and ballistic coefficients (C102_legs: bank schedules, jettison). Entry altitude is kept in the verdict theorem, because the usual entry altitude is the skip altitude itself. For vehicles with a drag curve the curve, mass and area are kept."
  },
  {
   "property": "C103",
   "status": "partial",
   "theorems": [
    "AMAT.Props.C103_cycle_leaves_iff",
    "AMAT.Props.C103_runs_end",
    "AMAT.Props.C103_lift_ends_high_partial",
    "AMAT.Props.C103_crash_reported"
   ],
   "note": "Holds for lift modulation. False for drag modulation: below 20 km the exit phase ends too, and the simulation returns an orbit and manoeuvre costs as if the vehicle had left (C103_crash_reported). C103_runs_end gives the exact ends of all four."
  },
  {
   "property": "C104",
   "status": "partial",
   "theorems": [
    "AMAT.Props.C104_grid_in_doubles_partial",
    "AMAT.Props.C104_extra_point",
    "AMAT.Props.C104_long_cycle"
   ],
   "note": "Point times and the end up to rounding are proved. The number of points can be one too many: Earth, 2400 s in steps of 1 s ends at 2401 s (C104_extra_point); Neptune, guidance cycles of 1 s with steps of 0.1 s last 1.1 s (C104_long_cycle). It is right whenever duration/step is not an integer up to rounding."
  },
  {
   "property": "C105",
   "status": "proved",
   "theorems": [
    "AMAT.Props.C105_heat_load_converges",
    "AMAT.Props.C105_heat_load_of_flight",
    "AMAT.Props.C105_earth_rate_jumps"
   ],
   "note": "Convergence for every sequence of runs whose steps and errors tend to zero (C105_heat_load_converges for any continuous curve, C105_heat_load_of_flight for the exact flight and runs with vanishing defects). That the installed odeint has vanishing error is not claimed. C105_earth_rate_jumps: the radiative rate at the Earth jumps at 9 km/s, which is why instants at such speeds are excluded."
  },
  {
   "property": "C106",
   "status": "partial",
   "theorems": [
    "AMAT.Props.C106_reference_bank",
    "AMAT.Props.C106_climb_acceleration",
    "AMAT.Props.C106_level_partial",
    "AMAT.Props.C106_not_level"
   ],
   "note": "False as stated: the command uses gravity at the surface and leaves out rotation and oblateness (C106_not_level: more than 0.5 m/s² upwards 50 km above the equator of Mars heading east at 3 km/s). C106_climb_acceleration gives the exact vertical acceleration for every state, gain and unclipped command; C106_level_partial is the level case with a bound; C106_reference_bank is the claim about the reference."
  },
  {
   "property": "C107",
   "status": "partial",
   "theorems": [
    "AMAT.Props.C107_same_flight_partial",
    "AMAT.Props.C107_cut_off",
    "AMAT.Props.C107_flights_differ"
   ],
   "note": "False as stated: the terminal event hit_EFPA_90 of solveTrajectory2, which despite its name is at 88 degrees below the horizontal, ends the reported flight there (C107_cut_off: no later point, exit flag 0 although the vehicle comes down; C107_flights_differ: a flight at Mars). C107_same_flight_partial: the same result for flights less steep than 88 degrees and initial heat load 0. What happens when the angle touches 88 degrees without passing it depends on the steps of the solver and is left open."
  },
  {
   "property": "C108",
   "status": "proved",
   "theorems": [
    "AMAT.Props.C108_peaks_converge"
   ],
   "note": "For every sequence of runs whose steps and errors tend to zero. The total acceleration is left out because its stored history is not the acceleration (C16). At the Earth and Venus the total heat rate jumps at the speeds of Spec.jumpSpeeds (C105_earth_rate_jumps); flights through them are covered for the convective rate."
  },
  {
   "property": "C109",
   "status": "proved",
   "theorems": [
    "AMAT.Props.C109_verdict_of_flight",
    "AMAT.Props.C109_verdict_of_flights",
    "AMAT.Props.C109_overshoot_limit",
    "AMAT.Props.C109_undershoot_limit",
    "AMAT.Props.C109_ballistic_limit"
   ],
   "note": "The required accuracy exists but is not computed: samples within rho of a curve whose rates differ from the equations of motion by at most rho. The runs over the bracket are assumed to return (C24_returns_iff says when they do). The searches ending in 2 are in C110."
  },
  {
   "property": "C110",
   "status": "proved",
   "theorems": [
    "AMAT.Props.C110_capture_of_flight",
    "AMAT.Props.C110_verdict2_of_flight",
    "AMAT.Props.C110_verdict2_of_flights",
    "AMAT.Props.C110_limits2",
    "AMAT.Props.C110_widths",
    "AMAT.Props.C110_drag_widths"
   ],
   "note": "The required accuracy exists but is not computed; the runs over the bracket are assumed to return. For solve_ivp the hypothesis SolvedWithin2 adds that all output times are returned when the event function stays positive along the solver's curve. computeTCWD and computeTCWD2 leave the vehicle with the ballistic coefficient beta1 (C35), which the theorem states."
  },
  {
   "property": "C111",
   "status": "proved",
   "theorems": [
    "AMAT.Props.C111_lift_one_flight",
    "AMAT.Props.C111_drag_one_flight",
    "AMAT.Props.C111_lift_energy_falls",
    "AMAT.Props.C111_drag_energy_falls"
   ],
   "note": "The defect of the solver is a hypothesis of the theorem (FollowsFlight, at the recorded states and bank angles); zero for an exact solver."
  },
  {
   "property": "C112",
   "status": "proved",
   "theorems": [
    "AMAT.Props.C112_energy_balance",
    "AMAT.Props.C112_convective_load_bounded",
    "AMAT.Props.C112_reported_load_bounded",
    "AMAT.Props.C112_mars_case"
   ],
   "note": "Vehicles with constant drag coefficient (userDefinedCDMach false). The reported-load theorem has the accuracy of the samples as hypotheses, as in C105."
  },
  {
   "property": "C113",
   "status": "partial",
   "theorems": [
    "AMAT.Props.C113_downrange_covers_ground",
    "AMAT.Props.C113_downrange_at_altitude",
    "AMAT.Props.C113_reported_downrange",
    "AMAT.Props.C113_not_ground_distance"
   ],
   "note": "The equality is false: the code integrates the horizontal speed at the vehicle's altitude, so downrange exceeds the length of the ground track by the altitude over the radius (C113_downrange_at_altitude: exact integral and two-sided bounds; C113_not_ground_distance: an orbit with more than 5 percent). The lower bound by the great-circle distance is proved, for flights and for reported histories whose samples lie on a flight."
  },
  {
   "property": "C114",
   "status": "proved",
   "theorems": [
    "AMAT.Props.C114_load_never_decreases",
    "AMAT.Props.C114_load_accurate",
    "AMAT.Props.C114_flight_load",
    "AMAT.Props.C114_load_can_stall"
   ],
   "note": "C114_load_never_decreases and C114_load_accurate for cumulative_trapezoid with rounding after every operation; C114_flight_load for the output times of C104. C114_load_can_stall: strict growth is lost (a positive rate may add nothing), so no more than non-decreasing can be claimed. Overflow is not modelled; that the rates themselves are rounded values of the formulas is an input here."
  },
  {
   "property": "C115",
   "status": "proved",
   "theorems": [
    "AMAT.Props.C115_too_slow_to_climb",
    "AMAT.Props.C115_too_slow_to_leave",
    "AMAT.Props.C115_speed_of_free_fall",
    "AMAT.Props.C115_heating_of_free_fall",
    "AMAT.Props.C115_reported_speeds",
    "AMAT.Props.C115_mars_case"
   ],
   "note": "C115_too_slow_to_climb (any altitude), C115_too_slow_to_leave (exit flag of propogateEntry), C115_speed_of_free_fall, C115_heating_of_free_fall, C115_reported_speeds; case: 50 km above Mars at 500 m/s, with a run on the exact flight. Free fall allows for oblateness by |J2|+4|J3| and for rotation by the speed of the rotating frame. That the integrator's samples lie on a flight is a hypothesis (see the contracts in DESIGN.md)."
  },
  {
   "property": "C116",
   "status": "proved",
   "theorems": [
    "AMAT.Props.C116_restart_in_doubles",
    "AMAT.Props.C116_first_sample",
    "AMAT.Props.C116_not_exact",
    "AMAT.Props.C116_mars_case"
   ],
   "note": "C116_restart_in_doubles, C116_first_sample for any rounding to nearest; C116_not_exact shows that the trip changes the last digit of some states; C116_mars_case meets the hypotheses. restartR_id and reportR_id tie the rounded conversions to the exact model. Overflow is not modelled; np.pi may be any number from 3 to 4."
  },
  {
   "property": "C117",
   "status": "partial",
   "theorems": [
    "AMAT.Props.C117_deflection_partial",
    "AMAT.Props.C117_zero_burn"
   ],
   "note": "C117_deflection_partial: distance, speed and the new semi-major axis are right for every deflection, and the exact angular momentum the code computes is given. The rest of the claim is false of the code: pos_vec_bi_probe and pos_vec_bi_orbiter_defl use the argument of periapsis of the orbiter, vel_vec_bi_probe that of the probe. C117_zero_burn: for every orbiter, a release a quarter orbit after periapsis that halves the speed followed by a zero deflection at apoapsis gives an orbit with the same semi-major axis, less than 7/10 of the angular momentum and larger eccentricity that never passes through the point of the manoeuvre."
  },
  {
   "property": "C118",
   "status": "proved",
   "theorems": [
    "AMAT.Props.C118_lookup_accurate",
    "AMAT.Props.C118_outside",
    "AMAT.Props.C118_rows_exact",
    "AMAT.Props.C118_stays_positive",
    "AMAT.Props.C118_falls",
    "AMAT.Props.C118_scipy_not_exact",
    "AMAT.Props.C118_shipped_launchers",
    "AMAT.Props.C118_atlas_case"
   ],
   "note": "C118_lookup_accurate, C118_outside, C118_stays_positive, C118_falls for both evaluation codes, C118_rows_exact for NumPy's, C118_scipy_not_exact the difference, C118_shipped_launchers for the files in /repo/launcher-data with rows rounded on reading; C118_atlas_case meets the hypotheses. interp1dR_id ties the rounded lookup to the exact model. Overflow is not modelled; the two evaluation codes are written from the documented behaviour of NumPy and SciPy."
  },
  {
   "property": "C119",
   "status": "partial",
   "theorems": [
    "AMAT.Props.C119_entry_point_partial",
    "AMAT.Props.C119_quarter_release"
   ],
   "note": "False of the code. C119_entry_point_partial gives the exact error: distance 2 r |sin(D/2)| from the crossing of the true orbit, right speed, flight-path angle off by D (up to the factor 1.0000001), agreement exactly when the line of apsides is not turned. C119_quarter_release: more than 3/4 of the interface radius for every release a quarter orbit after periapsis that halves the speed; mars_quarter_release meets the hypotheses."
  },
  {
   "property": "C120",
   "status": "partial",
   "theorems": [
    "AMAT.Props.C120_latitudes_agree_partial",
    "AMAT.Props.C120_wrong_hemisphere",
    "AMAT.Props.C120_wrong_hemisphere_reachable"
   ],
   "note": "False of the code for entries with x < 0: C120_wrong_hemisphere gives the exact value (the negative latitude, equal only on the equator), C120_wrong_hemisphere_reachable a polar arrival at Earth. Proved for x > 0 (C120_latitudes_agree_partial)."
  },
  {
   "property": "C121",
   "status": "proved",
   "theorems": [
    "AMAT.Props.C121_bplane_axes"
   ],
   "note": "All arrivals not along the pole."
  },
  {
   "property": "C122",
   "status": "proved",
   "theorems": [
    "AMAT.Props.C122_energy_rise",
    "AMAT.Props.C122_energy_drift_in_vacuum",
    "AMAT.Props.C122_guided_lift_rise",
    "AMAT.Props.C122_guided_drag_rise",
    "AMAT.Props.C122_mars_case"
   ],
   "note": "K = 1 + 6|J2| + 25|J3| + 2 omega^2 B^2 + vmax in units of the planet. That the solver has a given defect is a hypothesis (SciPy is not modelled); the cases are steps of Euler's method on Mars, which have every prescribed defect when short enough, and guided entries on a circle at Venus."
  },
  {
   "property": "C123",
   "status": "proved",
   "theorems": [
    "AMAT.Props.C123_roll_limit",
    "AMAT.Props.C123_roll_direction",
    "AMAT.Props.C123_tracks",
    "AMAT.Props.C123_limit_exceeded"
   ],
   "note": "Double-precision version of C38 and C39 for a single limiter (the guidance laws producing the command are not rounded). controllerR_exact shows it is the limiter of C38/C39 when nothing is rounded."
  },
  {
   "property": "C124",
   "status": "proved",
   "theorems": [
    "AMAT.Props.C124_guided_lift_caps",
    "AMAT.Props.C124_guided_drag_caps"
   ],
   "note": "Guided counterpart of C115. The exact solver is a hypothesis as in C111; the cases are guided entries on a circle at Venus."
  },
  {
   "property": "C125",
   "status": "proved",
   "theorems": [
    "AMAT.Props.C125_sample_times",
    "AMAT.Props.C125_schedule",
    "AMAT.Props.C125_edge_dropped",
    "AMAT.Props.C125_volume",
    "AMAT.Props.C125_lengths",
    "AMAT.Props.C125_underflowing_step"
   ],
   "note": "Double-precision counterpart of C11 and C12, overflow left out. C125_edge_dropped is the limit: the sample at 400 s falls at 400.00000000000006 s."
  },
  {
   "property": "C126",
   "status": "partial",
   "theorems": [
    "AMAT.Props.C126_exit_state_partial",
    "AMAT.Props.C126_heading_iff",
    "AMAT.Props.C126_northward_error",
    "AMAT.Props.C126_saturn"
   ],
   "note": "False for the heading: terminal_psi_bi is the planet-relative heading. Position, speed and flight-path angle are right (C126_exit_state_partial); C126_heading_iff gives the exact condition under which the heading is; C126_northward_error and C126_saturn give the size of the error (9.7 km/s at Saturn)."
  },
  {
   "property": "C127",
   "status": "partial",
   "theorems": [
    "AMAT.Props.C127_burn_reversed"
   ],
   "note": "False for every approach: DV_OI_vec is the approach velocity minus the orbit velocity, so that it points forwards and applying it speeds the spacecraft up (C127_burn_reversed); the orbit is reached by the opposite burn."
  },
  {
   "property": "C128",
   "status": "partial",
   "theorems": [
    "AMAT.Props.C128_probe_orbiter",
    "AMAT.Props.C128_probe_probe"
   ],
   "note": "False for every arrival whose periapsis lies below the interface (that is, for every entry): the time reported is the one until the vacuum periapsis, and every two-body motion from the manoeuvre point that is at the periapsis after that time has crossed the interface earlier, with the manoeuvre's velocity by at least (interface radius - periapsis radius) / (speed at periapsis) (C128_probe_orbiter, C128_probe_probe). The entry interface altitude does not enter into the times at all."
  },
  {
   "property": "C129",
   "status": "partial",
   "theorems": [
    "AMAT.Props.C129_vector_lengths",
    "AMAT.Props.C129_asymptote"
   ],
   "note": "False for every arrival: h_vec_bi is the cross product of periapsis and v-infinity vectors, (1 - 1/e) times as long as h; B_vec_bi has the length (1 - 1/e) v_inf^2 b_mag (C129_vector_lengths); the outgoing asymptote is at the anomaly pi - beta, and at beta the spacecraft is at the distance (1 + e)/2 rp (C129_asymptote). Only directions of these vectors are used elsewhere in the code."
  },
  {
   "property": "C130",
   "status": "partial",
   "theorems": [
    "AMAT.Props.C130_pairs_partial",
    "AMAT.Props.C130_saturn_from_titan"
   ],
   "note": "With a planetary ephemeris (positions of the planets, none of Titan: a hypothesis, the astropy ephemeris is not modelled) it holds exactly if the target is not Titan and the pair is not Saturn seen from Titan (C130_pairs_partial). Only the observer is renamed to Saturn, so Titan as a target raises; for Saturn seen from Titan the distance is 0, a lander never sees the target and an orbiter always does (C130_saturn_from_titan)."
  },
  {
   "property": "C131",
   "status": "partial",
   "theorems": [
    "AMAT.Props.C131_step_log_partial",
    "AMAT.Props.C131_first_line",
    "AMAT.Props.C131_altitude_log_partial"
   ],
   "note": "Holds from the second line on, with altitudes in km instead of the documented metres (C131_step_log_partial for both phases, C131_altitude_log_partial for the entry phases, which alone record altitude and dynamic pressure). The first line is all zeros at time 0: its altitude rate is right exactly if the entry state has altitude rate 0, and the first acceleration is that rate divided by the elapsed time (C131_first_line)."
  },
  {
   "property": "C132",
   "status": "partial",
   "theorems": [
    "AMAT.Props.C132_entry_plots",
    "AMAT.Props.C132_q_plot_partial",
    "AMAT.Props.C132_q_plot_empty"
   ],
   "note": "The four panels of makeBasicEntryPlots always show the flight (C132_entry_plots; the g-load itself is subject to C16). The curve of createQPlot is right, but its axes are fixed: a point is visible exactly between 100 and 700 km and up to 12500 Pa (C132_q_plot_partial), so a flight at Venus below 100 km gives an empty plot (C132_q_plot_empty)."
  },
  {
   "property": "C133",
   "status": "proved",
   "theorems": [
    "AMAT.Props.C133_limits",
    "AMAT.Props.C133_classification",
    "AMAT.Props.C133_density",
    "AMAT.Props.C133_capture",
    "AMAT.Props.C133_capture_missed"
   ],
   "note": "C133_classification and C133_density: exact, because altitudes are subtracted without rounding within a factor of two of the radius and rounding cannot cross a limit elsewhere (C133_limits: the hypotheses hold of all eight bodies). C133_capture: one-sided, and the margin is needed: C133_capture_missed is a negative energy above Mars computed as zero. Underflow is included, overflow is not."
  },
  {
   "property": "C134",
   "status": "partial",
   "theorems": [
    "AMAT.Props.C134_lookup_exists_unique",
    "AMAT.Props.C134_reproduces_rows",
    "AMAT.Props.C134_parabola",
    "AMAT.Props.C134_loads",
    "AMAT.Props.C134_negative_between_rows"
   ],
   "note": "Existence, uniqueness, independence of the row order, reproduction of rows and of quadratic columns, continuity and fill values are proved for all tables (C134_loads: for the four lookup functions together). The last part is false: three positive rows can give a negative density in between (C134_negative_between_rows). The spline itself (scipy) is modelled by its defining equations."
  },
  {
   "property": "C135",
   "status": "partial",
   "theorems": [
    "AMAT.Props.C135_every_kind",
    "AMAT.Props.C135_bounds_partial",
    "AMAT.Props.C135_negative_mass"
   ],
   "note": "C135_every_kind: determined by the rows, zero outside, published points reproduced, for all nine kinds. C135_bounds_partial: bounds and monotony for the seven kinds that use neighbouring rows only. For 'quadratic' and 'cubic' these parts are false: a table of positive decreasing masses gives a negative launch mass (C135_negative_mass)."
  },
  {
   "property": "C136",
   "status": "partial",
   "theorems": [
    "AMAT.Props.C136_propulsive_orbit",
    "AMAT.Props.C136_aerocapture_orbit_partial",
    "AMAT.Props.C136_deflected_orbit",
    "AMAT.Props.C136_escape_wrong_branch"
   ],
   "note": "Proved for the propulsive orbit, for coast and orbit after aerocapture, and for every bound deflected orbit. Missing: circular and equatorial exits, where the elements are NaN (C54_degenerate_fails). For an unbound deflected orbit the claim is false: the array runs through both branches of the hyperbola (C136_escape_wrong_branch)."
  },
  {
   "property": "C137",
   "status": "partial",
   "theorems": [
    "AMAT.Props.C137_site_partial",
    "AMAT.Props.C137_lost_quadrant",
    "AMAT.Props.C137_heading_iff"
   ],
   "note": "Latitude always right. Longitude and relative velocity right for x > 0 (C137_site_partial) and wrong for x < 0: longitude off by pi, rotation added instead of subtracted, heading from west (C137_lost_quadrant). The heading uses the angle of the whole velocity to east; right exactly for horizontal flight or no eastward part (C137_heading_iff)."
  },
  {
   "property": "C138",
   "status": "partial",
   "theorems": [
    "AMAT.Props.C138_handover",
    "AMAT.Props.C138_same_orbit_partial",
    "AMAT.Props.C138_degenerate"
   ],
   "note": "Proved for exits that are neither circular nor equatorial. For those the claim is false: the vehicle reports an orbit and the Orbiter is NaN throughout (C138_degenerate)."
  },
  {
   "property": "C139",
   "status": "proved",
   "theorems": [
    "AMAT.Props.C139_mixture",
    "AMAT.Props.C139_perturbation",
    "AMAT.Props.C139_spread"
   ],
   "note": ""
  },
  {
   "property": "C140",
   "status": "partial",
   "theorems": [
    "AMAT.Props.C140_start_partial",
    "AMAT.Props.C140_southbound"
   ],
   "note": "Position, speed and vertical speed carry over at every non-vertical, non-equatorial-plane entry with x > 0; the velocity carries over exactly when it has no southward part and is horizontal or has no eastward part (C140_start_partial). False otherwise: a southbound entry is flown northbound (C140_southbound), a descending one with the wrong heading. Entries with x < 0 are C51_lost_quadrant."
  },
  {
   "property": "C141",
   "status": "proved",
   "theorems": [
    "AMAT.Props.C141_reported_energy",
    "AMAT.Props.C141_higher_cut",
    "AMAT.Props.C141_below_apoapsis",
    "AMAT.Props.C141_cut_is_sample"
   ],
   "note": "C141_cut_is_sample: the values read are those of one of the integrator's samples. C141_reported_energy and C141_higher_cut are about exact flights (solutions of EOM), as C18, C61 and C97 on which they rest; the integrator's error is not modelled."
  },
  {
   "property": "C142",
   "status": "proved",
   "theorems": [
    "AMAT.Props.C142_turning_rates",
    "AMAT.Props.C142_lift_up_climbs"
   ],
   "note": "\"Soon\" is an interval after the start that depends on the flights; no claim is made about how long the order lasts. The heading part divides by cos gamma + 0.01 as the source does."
  },
  {
   "property": "C143",
   "status": "proved",
   "theorems": [
    "AMAT.Props.C143_deceleration",
    "AMAT.Props.C143_higher_beta_faster"
   ],
   "note": "\"Soon\" is an interval after the start that depends on the flights; no claim is made about how long the order lasts (the slower vehicle of a pair falls into denser air)."
  },
  {
   "property": "C144",
   "status": "proved",
   "theorems": [
    "AMAT.Props.C144_vertical_acceleration",
    "AMAT.Props.C144_comes_down",
    "AMAT.Props.C144_goes_up_comes_down",
    "AMAT.Props.C144_flight_ends"
   ],
   "note": "Exact flights (C62). The bound is not sharp: it uses the greatest density everywhere. The vehicle may reach the other obstacles of C100 (slow, pole, vertical, level at the edge) before the ground, since the equations are not regular there."
  },
  {
   "property": "C145",
   "status": "proved",
   "theorems": [
    "AMAT.Props.C145_slows_down",
    "AMAT.Props.C145_guided_pass_ends",
    "AMAT.Props.C145_least_density"
   ],
   "note": "Exact flights (C62). The bound is not sharp: it uses the least density and the least speed throughout the pass."
  },
  {
   "property": "C146",
   "status": "partial",
   "theorems": [
    "AMAT.Props.C146_unbound_leaves",
    "AMAT.Props.C146_bound_stays",
    "AMAT.Props.C146_verdict_partial",
    "AMAT.Props.C146_captured_but_leaves",
    "AMAT.Props.C146_unbound_nonradial_leaves",
    "AMAT.Props.C146_unbound_nonradial_case",
    "AMAT.Props.C146_one_motion",
    "AMAT.Props.C146_not_captured_but_stays",
    "AMAT.Props.C146_flight_captured_but_leaves",
    "AMAT.Props.C146_both_apsides",
    "AMAT.Props.C146_both_apsides_case"
   ],
   "note": "The last sentence is false: isCaptured uses the speed relative to the rotating planet. The exact relation of the two energies is proved, with the side on which each verdict is right, and an exact flight from below the skip altitude of Mars to above it that is judged captured although the free motion from its last stored point leaves for ever (C146_flight_captured_but_leaves; the flight is short, its step and duration come from existence proofs). C146_captured_but_leaves is the same with explicit numbers and a solver that keeps the state constant. Bound exits are assumed not to move radially; that the motion then never meets the centre is proved; later passes through the atmosphere are not part of it. C146_one_motion: every exit that is not radial starts exactly one free motion, for all times (elliptic, parabolic and hyperbolic), so that the statements on all motions are never empty. C146_not_captured_but_stays: the mirror finding, a westward exit judged not captured that never passes the reported apoapsis (solver that keeps the state constant). C146_both_apsides: climbing or descending, every bound motion is between the reported apsides at all times and comes to both after any time. C146_unbound_nonradial_leaves: a descending unbound exit leaves as well, after its passage."
  },
  {
   "property": "C147",
   "status": "proved",
   "theorems": [
    "AMAT.Props.C147_any_passage",
    "AMAT.Props.C147_target_orbit",
    "AMAT.Props.C147_impulse_needed"
   ],
   "note": "Two-body motion with instantaneous impulses; that the coast and the orbits stay clear of the atmosphere is not claimed. Uniqueness of two-body motion off the centre is proved, so the statement is about every motion from the state, and one exists. C147_any_passage: the same from every passage of the apoapsis, without the assumption that the vehicle climbs at its exit."
  },
  {
   "property": "C148",
   "status": "partial",
   "theorems": [
    "AMAT.Props.C148_stored_positions_partial",
    "AMAT.Props.C148_descending_elsewhere",
    "AMAT.Props.C148_descending_case"
   ],
   "note": "Circular and equatorial exits, for which the Orbiter stores nothing (C54), are excluded. The impulse is of the reported size along the velocity of the flight, or against it if the periapsis is lowered (the reported size has no sign); the reported vector PRM_dv is not used, because the factor 1.0000001 in vel_vec_bi tilts it slightly (C68). Two-body motion with an instantaneous impulse. Descending exits are excluded for a reason: the exit anomaly is an arccosine, and the stored coast then starts at another point of the orbit at the same distance (C148_descending_elsewhere, C148_descending_case)."
  },
  {
   "property": "C149",
   "status": "partial",
   "theorems": [
    "AMAT.Props.C149_arrival_flown_partial"
   ],
   "note": "Equatorial approaches, for which nothing is computed (C49_equatorial_fails), are excluded. Two-body motion in exact arithmetic."
  },
  {
   "property": "C150",
   "status": "partial",
   "theorems": [
    "AMAT.Props.C150_insertion_flown_partial"
   ],
   "note": "Equatorial approaches are excluded (C49_equatorial_fails). The burn is that of DV_OI_mag_check; the reported DV_OI_mag is larger than needed (C53_burn_vector_too_long) and DV_OI_vec points forwards (C127). For an inexact Kepler solver the timed positions are off by the residual times the period over 2 pi (C56)."
  },
  {
   "property": "C151",
   "status": "partial",
   "theorems": [
    "AMAT.Props.C151_deflection_flown_partial",
    "AMAT.Props.C151_below_aim",
    "AMAT.Props.C151_second_below_aim",
    "AMAT.Props.C151_orbiters_flown_partial"
   ],
   "note": "Proved: all but the periapsis of the second flight, which is at the aim point rp_vec_bi after TOF_space but not at periapsis there (C151_below_aim, C151_second_below_aim: whenever rp_space is not below the first periapsis radius, the spacecraft passes below rp_space). Excluded: equatorial first approach (C49_equatorial_fails), aim point in line with planet and manoeuvre point."
  },
  {
   "property": "C152",
   "status": "proved",
   "theorems": [
    "AMAT.Props.C152_closest_pass",
    "AMAT.Props.C152_second_closest_pass"
   ],
   "note": "First approach not equatorial (C49_equatorial_fails), aim point not in line with planet and manoeuvre point, where the code yields NaN. Two-body motion in exact arithmetic."
  },
  {
   "property": "C153",
   "status": "partial",
   "theorems": [
    "AMAT.Props.C153_probe_enters_partial",
    "AMAT.Props.C153_first_probe_enters_partial"
   ],
   "note": "Probe orbits in the equatorial plane, for which nothing is computed (C49_equatorial_fails), are excluded. Two-body motion in exact arithmetic. For the second, deflected probe of ProbeProbeDeflection see C57_second_probe_fails."
  },
  {
   "property": "C154",
   "status": "partial",
   "theorems": [
    "AMAT.Props.C154_release_flown_partial",
    "AMAT.Props.C154_case"
   ],
   "note": "The speed and the branch are right; the recorded entry position is off by 2 r |sin(D/2)|, D the turn of the line of apsides by the burn (see C119_quarter_release), so the claim on the position is partial. Releases above the interface. Circular and equatorial exits are excluded (C54_degenerate_fails). Two-body motion in exact arithmetic."
  },
  {
   "property": "C155",
   "status": "proved",
   "theorems": [
    "AMAT.Props.C155_deflected_orbiter_flown",
    "AMAT.Props.C155_escape_negative_apoapsis",
    "AMAT.Props.C155_case",
    "AMAT.Props.C155_escape_case"
   ],
   "note": "The state after the burn is the one the method computes; that it is not a state of the orbit shared with the probe is C117. Circular and equatorial exits of the orbiter are excluded by Release (C54_degenerate_fails). Two-body motion in exact arithmetic; the print statement is modelled as its condition (deflWarns). Escaping deflections lie outside the quantifier: there the method returns a negative r_apoapsis_orbiter_defl although the orbiter leaves beyond every distance (C155_escape_negative_apoapsis, with C155_escape_case)."
  },
  {
   "property": "C156",
   "status": "proved",
   "theorems": [
    "AMAT.Props.C156_guided_flown",
    "AMAT.Props.C156_case"
   ],
   "note": "Composition of C73 (what is reported) with the free motions of C146 and the manoeuvres of C147; unlike C147 it needs no climbing last point and holds at every passage of the apoapsis. Two-body motion in exact arithmetic. Uniqueness of the motion is C146_one_motion."
  },
  {
   "property": "C157",
   "status": "partial",
   "theorems": [
    "AMAT.Props.C157_apoapsis_reached_partial",
    "AMAT.Props.C157_case",
    "AMAT.Props.C157_escape_orbit_reported",
    "AMAT.Props.C157_escape_case",
    "AMAT.Props.C157_parabola",
    "AMAT.Props.C157_parabola_case"
   ],
   "note": "Proved for bound, non-circular, non-equatorial exits (the last two have no elements: C54_degenerate_fails). False for escaping vehicles: C157_escape_orbit_reported, for every exit of positive energy, shows that a positive apoapsis distance, a closed orbit with the requested periapsis and a finite manoeuvre cost are reported while the vehicle, climbing or descending, flies away beyond every distance; the norm of the position at anomaly pi (orbiter.py:573-577) loses the sign of a(1+e). At exactly the escape energy everything reported is NaN (C157_parabola). Two-body motion in exact arithmetic."
  }
 ]
}