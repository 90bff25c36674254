{
 "claims": [
  {
   "property": "C01",
   "status": "proved",
   "theorems": [
    "Verif.Props.C01_bright_of_radiance",
    "Verif.Props.C01_radiance_of_bright",
    "Verif.Props.C01_zero_radiance"
   ],
   "note": ""
  },
  {
   "property": "C02",
   "status": "proved",
   "theorems": [
    "Verif.Props.C02_radiance_strictMono",
    "Verif.Props.C02_bright_strictMono",
    "Verif.Props.C02_radiance_frequency"
   ],
   "note": ""
  },
  {
   "property": "C03",
   "status": "proved",
   "theorems": [
    "Verif.Props.C03_upwelling_between",
    "Verif.Props.C03_upwelling_le",
    "Verif.Props.C03_upwelling_opaque_lower"
   ],
   "note": ""
  },
  {
   "property": "C04",
   "status": "proved",
   "theorems": [
    "Verif.Props.C04_downwelling_between",
    "Verif.Props.C04_downwelling_le"
   ],
   "note": ""
  },
  {
   "property": "C05",
   "status": "proved",
   "theorems": [
    "Verif.Props.C05_isothermal_up",
    "Verif.Props.C05_isothermal_down",
    "Verif.Props.C05_isothermal_tmr"
   ],
   "note": ""
  },
  {
   "property": "C06",
   "status": "proved",
   "theorems": [
    "Verif.Props.C06_tau_ground",
    "Verif.Props.C06_tau_satellite",
    "Verif.Props.C06_tau_consistent",
    "Verif.Props.C06_first_entry_irrelevant"
   ],
   "note": ""
  },
  {
   "property": "C07",
   "status": "proved",
   "theorems": [
    "Verif.Props.C07_warming"
   ],
   "note": ""
  },
  {
   "property": "C08",
   "status": "proved",
   "theorems": [
    "Verif.Props.C08_reciprocity"
   ],
   "note": ""
  },
  {
   "property": "C09",
   "status": "proved",
   "theorems": [
    "Verif.Props.C09_stacking",
    "Verif.Props.C09_transparent_layer",
    "Verif.Props.C09_transparent_gap"
   ],
   "note": ""
  },
  {
   "property": "C10",
   "status": "proved",
   "theorems": [
    "Verif.Props.C10_switch_ground",
    "Verif.Props.C10_switch_satellite",
    "Verif.Props.C10_jump_ground",
    "Verif.Props.C10_jump_satellite"
   ],
   "note": ""
  },
  {
   "property": "C11",
   "status": "proved",
   "theorems": [
    "Verif.Props.C11_tmr_between",
    "Verif.Props.C11_tmr_opaque",
    "Verif.Props.C11_tmr_undefined"
   ],
   "note": ""
  },
  {
   "property": "C12",
   "status": "proved",
   "theorems": [
    "Verif.Props.C12_background",
    "Verif.Props.C12_affine",
    "Verif.Props.C12_monotone",
    "Verif.Props.C12_no_reflection",
    "Verif.Props.C12_mirror_is_dark"
   ],
   "note": ""
  },
  {
   "property": "C13",
   "status": "proved",
   "theorems": [
    "Verif.Props.C13_tbatm_le_ground",
    "Verif.Props.C13_tbatm_satellite_zero"
   ],
   "note": ""
  },
  {
   "property": "C14",
   "status": "proved",
   "theorems": [
    "Verif.Props.C14_exponential_mean",
    "Verif.Props.C14_between",
    "Verif.Props.C14_degenerate"
   ],
   "note": ""
  },
  {
   "property": "C15",
   "status": "proved",
   "theorems": [
    "Verif.Props.C15_sum",
    "Verif.Props.C15_path_scaling",
    "Verif.Props.C15_nonneg",
    "Verif.Props.C15_total",
    "Verif.Props.C15_subrange_raises"
   ],
   "note": ""
  },
  {
   "property": "C16",
   "status": "proved",
   "theorems": [
    "Verif.Props.C16_truncation",
    "Verif.Props.C16_factor_lost"
   ],
   "note": ""
  },
  {
   "property": "C17",
   "status": "proved",
   "theorems": [
    "Verif.Props.C17_start_irrelevant",
    "Verif.Props.C17_last_negative",
    "Verif.Props.C17_needs_zero_increment"
   ],
   "note": ""
  },
  {
   "property": "C18",
   "status": "proved",
   "theorems": [
    "Verif.Props.C18_trapezoid",
    "Verif.Props.C18_additive",
    "Verif.Props.C18_nonneg",
    "Verif.Props.C18_top_layer_missing",
    "Verif.Props.C18_one_layer_cloud_is_dry"
   ],
   "note": ""
  },
  {
   "property": "C19",
   "status": "proved",
   "theorems": [
    "Verif.Props.C19_none_iff",
    "Verif.Props.C19_between_ground",
    "Verif.Props.C19_between_satellite",
    "Verif.Props.C19_transparent_cloud"
   ],
   "note": ""
  },
  {
   "property": "C20",
   "status": "proved",
   "theorems": [
    "Verif.Props.C20_vapor_pressure",
    "Verif.Props.C20_gas_law",
    "Verif.Props.C20_nonneg",
    "Verif.Props.C20_linear",
    "Verif.Props.C20_ice_raises"
   ],
   "note": ""
  },
  {
   "property": "C21",
   "status": "proved",
   "theorems": [
    "Verif.Props.C21_refused_iff",
    "Verif.Props.C21_zenith",
    "Verif.Props.C21_slant_ge",
    "Verif.Props.C21_slant_ge_constant"
   ],
   "note": ""
  },
  {
   "property": "C22",
   "status": "proved",
   "theorems": [
    "Verif.Props.C22_angle",
    "Verif.Props.C22_angle_not_straight",
    "Verif.Props.C22_first_layer_overshoots"
   ],
   "note": ""
  },
  {
   "property": "C23",
   "status": "proved",
   "theorems": [
    "Verif.Props.C23_slant",
    "Verif.Props.C23_mirror"
   ],
   "note": ""
  },
  {
   "property": "C24",
   "status": "proved",
   "theorems": [
    "Verif.Props.C24_outcome",
    "Verif.Props.C24_never_flipped"
   ],
   "note": ""
  },
  {
   "property": "C25",
   "status": "proved",
   "theorems": [
    "Verif.Props.C25_shift",
    "Verif.Props.C25_refused",
    "Verif.Props.C25_sequence",
    "Verif.Props.C25_second",
    "Verif.Props.C25_second_levels"
   ],
   "note": ""
  },
  {
   "property": "C26",
   "status": "proved",
   "theorems": [
    "Verif.Props.C26_cell",
    "Verif.Props.C26_satellite",
    "Verif.Props.C26_satellite_le",
    "Verif.Props.C26_ground",
    "Verif.Props.C26_ground_le"
   ],
   "note": ""
  },
  {
   "property": "C27",
   "status": "proved",
   "theorems": [
    "Verif.Props.C27_selection",
    "Verif.Props.C27_run",
    "Verif.Props.C27_interchangeable",
    "Verif.Props.C27_ozone",
    "Verif.Props.C27_ozone_parameters_persist",
    "Verif.Props.C27_ozone_leak_refuted"
   ],
   "note": ""
  },
  {
   "property": "C28",
   "status": "proved",
   "theorems": [
    "Verif.Props.C28_cloudy_rerun",
    "Verif.Props.C28_clean_rerun",
    "Verif.Props.C28_never_cloudy",
    "Verif.Props.C28_stale_clouds",
    "Verif.Props.C28_refuted"
   ],
   "note": ""
  },
  {
   "property": "C29",
   "status": "proved",
   "theorems": [
    "Verif.Props.C29_rows",
    "Verif.Props.C29_success"
   ],
   "note": ""
  },
  {
   "property": "C30",
   "status": "proved",
   "theorems": [
    "Verif.Props.C30_levels",
    "Verif.Props.C30_exact",
    "Verif.Props.C30_not_flagged",
    "Verif.Props.C30_flag_too_late"
   ],
   "note": ""
  },
  {
   "property": "C31",
   "status": "proved",
   "theorems": [
    "Verif.Props.C31_satellite",
    "Verif.Props.C31_emissivity",
    "Verif.Props.C31_initial",
    "Verif.Props.C31_model_argument"
   ],
   "note": ""
  },
  {
   "property": "C32",
   "status": "proved",
   "theorems": [
    "Verif.Props.C32_water",
    "Verif.Props.C32_nitrogen",
    "Verif.Props.C32_liquid",
    "Verif.Props.C32_ozone",
    "Verif.Props.C32_ozone_unloaded",
    "Verif.Props.C32_no_table",
    "Verif.Props.C32_completes",
    "Verif.Props.C32_nitrogen_name",
    "Verif.Props.C32_liquid_name",
    "Verif.Props.C32_init_absmdl",
    "Verif.Props.C32_init_absmdl_cloudy",
    "Verif.Props.C32_ozone_never_loaded",
    "Verif.Props.C32_selected_only",
    "Verif.Props.C32_own_tables"
   ],
   "note": ""
  },
  {
   "property": "C41",
   "status": "proved",
   "theorems": [
    "Verif.Props.C41_e_mr_e",
    "Verif.Props.C41_mr_e_mr",
    "Verif.Props.C41_density_gas_law",
    "Verif.Props.C41_mixing_gas_law",
    "Verif.Props.C41_mr_rho_mr",
    "Verif.Props.C41_rho_mr_rho",
    "Verif.Props.C41_no_dry_air"
   ],
   "note": ""
  },
  {
   "property": "C42",
   "status": "proved",
   "theorems": [
    "Verif.Props.C42_saturation",
    "Verif.Props.C42_definitions",
    "Verif.Props.C42_thin_air",
    "Verif.Props.C42_round_trip"
   ],
   "note": ""
  },
  {
   "property": "C43",
   "status": "proved",
   "theorems": [
    "Verif.Props.C43_choice",
    "Verif.Props.C43_positive",
    "Verif.Props.C43_elementwise",
    "Verif.Props.C43_reference"
   ],
   "note": ""
  },
  {
   "property": "C44",
   "status": "proved",
   "theorems": [
    "Verif.Props.C44_left_inverse",
    "Verif.Props.C44_right_inverse",
    "Verif.Props.C44_height_decreasing",
    "Verif.Props.C44_pressure_decreasing"
   ],
   "note": ""
  },
  {
   "property": "C45",
   "status": "proved",
   "theorems": [
    "Verif.Props.C45_inverse",
    "Verif.Props.C45_offset_refuted"
   ],
   "note": ""
  },
  {
   "property": "C46",
   "status": "proved",
   "theorems": [
    "Verif.Props.C46_virtual",
    "Verif.Props.C46_thickness",
    "Verif.Props.C46_increasing",
    "Verif.Props.C46_isothermal"
   ],
   "note": ""
  },
  {
   "property": "C47",
   "status": "proved",
   "theorems": [
    "Verif.Props.C47_rh",
    "Verif.Props.C47_coefficients",
    "Verif.Props.C47_pole"
   ],
   "note": ""
  },
  {
   "property": "C50",
   "status": "proved",
   "theorems": [
    "Verif.Props.C50_ground",
    "Verif.Props.C50_satellite",
    "Verif.Props.C50_satellite_shift",
    "Verif.Props.C50_satellite_exact_iff",
    "Verif.Props.C50_satellite_refuted",
    "Verif.Props.C50_bounds",
    "Verif.Props.C50_run"
   ],
   "note": ""
  },
  {
   "property": "C51",
   "status": "proved",
   "theorems": [
    "Verif.Props.C51_mean",
    "Verif.Props.C51_labels",
    "Verif.Props.C51_labels_refuted"
   ],
   "note": ""
  },
  {
   "property": "C52",
   "status": "proved",
   "theorems": [
    "Verif.Props.C52_exact",
    "Verif.Props.C52_linear",
    "Verif.Props.C52_clamped",
    "Verif.Props.C52_range",
    "Verif.Props.C52_grid"
   ],
   "note": ""
  },
  {
   "property": "C53",
   "status": "proved",
   "theorems": [
    "Verif.Props.C53_succeeds_iff",
    "Verif.Props.C53_high_profile",
    "Verif.Props.C53_result",
    "Verif.Props.C53_increasing",
    "Verif.Props.C53_heights_shared",
    "Verif.Props.C53_reaches_top"
   ],
   "note": ""
  },
  {
   "property": "C54",
   "status": "proved",
   "theorems": [
    "Verif.Props.C54_repeat",
    "Verif.Props.C54_top_kept",
    "Verif.Props.C54_increasing",
    "Verif.Props.C54_same_iff",
    "Verif.Props.C54_history_refuted",
    "Verif.Props.C54_assigned",
    "Verif.Props.C54_renewed"
   ],
   "note": ""
  },
  {
   "property": "C59",
   "status": "proved",
   "theorems": [
    "Verif.Props.C59_stored_unchanged",
    "Verif.Props.C59_others_kept",
    "Verif.Props.C59_shift",
    "Verif.Props.C59_non",
    "Verif.Props.C59_errors",
    "Verif.Props.C59_shared_refuted"
   ],
   "note": ""
  },
  {
   "property": "C60",
   "status": "proved",
   "theorems": [
    "Verif.Props.C60_linear",
    "Verif.Props.C60_product",
    "Verif.Props.C60_power",
    "Verif.Props.C60_refuted",
    "Verif.Props.C60_names"
   ],
   "note": ""
  },
  {
   "property": "C62",
   "status": "proved",
   "theorems": [
    "Verif.Props.C62_select",
    "Verif.Props.C62_header",
    "Verif.Props.C62_wellformed",
    "Verif.Props.C62_unsorted_refuted"
   ],
   "note": ""
  },
  {
   "property": "C63",
   "status": "proved",
   "theorems": [
    "Verif.Props.C63_elapsed",
    "Verif.Props.C63_release",
    "Verif.Props.C63_release_refuted",
    "Verif.Props.C63_missing"
   ],
   "note": ""
  },
  {
   "property": "C48",
   "status": "proved",
   "theorems": [
    "Verif.Props.C48_ids",
    "Verif.Props.C48_masses",
    "Verif.Props.C48_masses_refuted",
    "Verif.Props.C48_ppmv"
   ],
   "note": ""
  },
  {
   "property": "C49",
   "status": "proved",
   "theorems": [
    "Verif.Props.C49_ground",
    "Verif.Props.C49_satellite",
    "Verif.Props.C49_sidebands",
    "Verif.Props.C49_mws_refuted"
   ],
   "note": ""
  },
  {
   "property": "C55",
   "status": "proved",
   "theorems": [
    "Verif.Props.C55_added_humidity_percent",
    "Verif.Props.C55_mixed_units_refuted"
   ],
   "note": ""
  },
  {
   "property": "C56",
   "status": "proved",
   "theorems": [
    "Verif.Props.C56_hemispheres",
    "Verif.Props.C56_standard_iff",
    "Verif.Props.C56_symmetric",
    "Verif.Props.C56_low_latitude"
   ],
   "note": ""
  },
  {
   "property": "C57",
   "status": "proved",
   "theorems": [
    "Verif.Props.C57_pressure_shape",
    "Verif.Props.C57_pressure_falls",
    "Verif.Props.C57_winter_pressure_refuted",
    "Verif.Props.C57_temperature_range",
    "Verif.Props.C57_temperature_outside",
    "Verif.Props.C57_vapour"
   ],
   "note": ""
  },
  {
   "property": "C58",
   "status": "proved",
   "theorems": [
    "Verif.Props.C58_surface_values_ignored",
    "Verif.Props.C58_positive",
    "Verif.Props.C58_filler",
    "Verif.Props.C58_gap_refuted",
    "Verif.Props.C58_pressure_refuted",
    "Verif.Props.C58_vapour"
   ],
   "note": ""
  },
  {
   "property": "C64",
   "status": "proved",
   "theorems": [
    "Verif.Props.C64_coordinate",
    "Verif.Props.C64_short_refuted"
   ],
   "note": ""
  },
  {
   "property": "C65",
   "status": "proved",
   "theorems": [
    "Verif.Props.C65_derived_refuted",
    "Verif.Props.C65_raw"
   ],
   "note": ""
  },
  {
   "property": "C66",
   "status": "proved",
   "theorems": [
    "Verif.Props.C66_wind"
   ],
   "note": ""
  },
  {
   "property": "C33",
   "status": "proved",
   "theorems": [
    "Verif.Props.C33_zero",
    "Verif.Props.C33_linear",
    "Verif.Props.C33_positive_debye",
    "Verif.Props.C33_positive_dilec"
   ],
   "note": ""
  },
  {
   "property": "C34",
   "status": "proved",
   "theorems": [
    "Verif.Props.C34_pressure",
    "Verif.Props.C34_positive",
    "Verif.Props.C34_colder",
    "Verif.Props.C34_frequency"
   ],
   "note": ""
  },
  {
   "property": "C35",
   "status": "proved",
   "theorems": [
    "Verif.Props.C35_shape",
    "Verif.Props.C35_shape_sd",
    "Verif.Props.C35_nonneg",
    "Verif.Props.C35_names",
    "Verif.Props.C35_dry"
   ],
   "note": ""
  },
  {
   "property": "C36",
   "status": "proved",
   "theorems": [
    "Verif.Props.C36_nodes",
    "Verif.Props.C36_continuous",
    "Verif.Props.C36_positive",
    "Verif.Props.C36_out_of_table",
    "Verif.Props.C36_fails",
    "Verif.Props.C36_new_models",
    "Verif.Props.C36_override"
   ],
   "note": ""
  },
  {
   "property": "C37",
   "status": "proved",
   "theorems": [
    "Verif.Props.C37_names",
    "Verif.Props.C37_sign",
    "Verif.Props.C37_one_table",
    "Verif.Props.C37_two_ways",
    "Verif.Props.C37_cut_too_early",
    "Verif.Props.C37_R98_negative"
   ],
   "note": ""
  },
  {
   "property": "C38",
   "status": "proved",
   "theorems": [
    "Verif.Props.C38_names",
    "Verif.Props.C38_window",
    "Verif.Props.C38_sign",
    "Verif.Props.C38_step",
    "Verif.Props.C38_linear",
    "Verif.Props.C38_R22_negative",
    "Verif.Props.C38_window_R22"
   ],
   "note": ""
  },
  {
   "property": "C39",
   "status": "proved",
   "theorems": [
    "Verif.Props.C39_oxygen",
    "Verif.Props.C39_ozone",
    "Verif.Props.C39_water"
   ],
   "note": ""
  },
  {
   "property": "C40",
   "status": "proved",
   "theorems": [
    "Verif.Props.C40_oxygen_unperturbed",
    "Verif.Props.C40_oxygen_names",
    "Verif.Props.C40_oxygen_no_effect",
    "Verif.Props.C40_water_unperturbed",
    "Verif.Props.C40_water_R03",
    "Verif.Props.C40_water_factors",
    "Verif.Props.C40_water_unperturbed_refuted",
    "Verif.Props.C40_water_names",
    "Verif.Props.C40_water_stale",
    "Verif.Props.C40_water_no_effect",
    "Verif.Props.C40_water_strengths"
   ],
   "note": ""
  },
  {
   "property": "C61",
   "status": "proved",
   "theorems": [
    "Verif.Props.C61_frame",
    "Verif.Props.C61_overwritten",
    "Verif.Props.C61_refuted"
   ],
   "note": ""
  },
  {
   "property": "C67",
   "status": "proved",
   "theorems": [
    "Verif.Props.C67_clear",
    "Verif.Props.C67_cloudy"
   ],
   "note": ""
  },
  {
   "property": "C68",
   "status": "proved",
   "theorems": [
    "Verif.Props.C68_water_lines",
    "Verif.Props.C68_water_continuum",
    "Verif.Props.C68_water_continuum_table"
   ],
   "note": ""
  },
  {
   "property": "C69",
   "status": "proved",
   "theorems": [
    "Verif.Props.C69_oxygen",
    "Verif.Props.C69_oxygen_R23",
    "Verif.Props.C69_oxygen_R24"
   ],
   "note": ""
  },
  {
   "property": "C70",
   "status": "proved",
   "theorems": [
    "Verif.Props.C70_mirror",
    "Verif.Props.C70_upper",
    "Verif.Props.C70_lower",
    "Verif.Props.C70_reflection_refuted"
   ],
   "note": ""
  },
  {
   "property": "C71",
   "status": "proved",
   "theorems": [
    "Verif.Props.C71_identifiers",
    "Verif.Props.C71_documented_refuted",
    "Verif.Props.C71_physical",
    "Verif.Props.C71_ground",
    "Verif.Props.C71_gases",
    "Verif.Props.C71_wrong_identifier",
    "Verif.Props.C71_workflow"
   ],
   "note": ""
  },
  {
   "property": "C72",
   "status": "proved",
   "theorems": [
    "Verif.Props.C72_profile_era",
    "Verif.Props.C72_profile_eps",
    "Verif.Props.C72_diagonal_only",
    "Verif.Props.C72_succeeds_era",
    "Verif.Props.C72_succeeds_eps",
    "Verif.Props.C72_heights_era",
    "Verif.Props.C72_heights_eps",
    "Verif.Props.C72_time_era",
    "Verif.Props.C72_time_eps",
    "Verif.Props.C72_node",
    "Verif.Props.C72_refuted",
    "Verif.Props.C72_units_refuted",
    "Verif.Props.C72_area"
   ],
   "note": ""
  },
  {
   "property": "C73",
   "status": "proved",
   "theorems": [
    "Verif.Props.C73_levels",
    "Verif.Props.C73_soundings",
    "Verif.Props.C73_none"
   ],
   "note": ""
  },
  {
   "property": "C74",
   "status": "proved",
   "theorems": [
    "Verif.Props.C74_metadata",
    "Verif.Props.C74_rows",
    "Verif.Props.C74_gapless",
    "Verif.Props.C74_short",
    "Verif.Props.C74_wind_as_temperature",
    "Verif.Props.C74_refuted"
   ],
   "note": ""
  },
  {
   "property": "C75",
   "status": "proved",
   "theorems": [
    "Verif.Props.C75_query",
    "Verif.Props.C75_distinct",
    "Verif.Props.C75_igra_url",
    "Verif.Props.C75_reply",
    "Verif.Props.C75_stations"
   ],
   "note": ""
  },
  {
   "property": "C76",
   "status": "proved",
   "theorems": [
    "Verif.Props.C76_satellite",
    "Verif.Props.C76_too_many",
    "Verif.Props.C76_normalized",
    "Verif.Props.C76_ground",
    "Verif.Props.C76_height"
   ],
   "note": ""
  },
  {
   "property": "C77",
   "status": "proved",
   "theorems": [
    "Verif.Props.C77_satellite",
    "Verif.Props.C77_ground",
    "Verif.Props.C77_again",
    "Verif.Props.C77_again_refuted"
   ],
   "note": ""
  },
  {
   "property": "C78",
   "status": "proved",
   "theorems": [
    "Verif.Props.C78_grouped",
    "Verif.Props.C78_columns",
    "Verif.Props.C78_errors"
   ],
   "note": ""
  },
  {
   "property": "C79",
   "status": "proved",
   "theorems": [
    "Verif.Props.C79_axis"
   ],
   "note": ""
  },
  {
   "property": "C80",
   "status": "proved",
   "theorems": [
    "Verif.Props.C80_nitrogen",
    "Verif.Props.C80_order"
   ],
   "note": ""
  },
  {
   "property": "C81",
   "status": "proved",
   "theorems": [
    "Verif.Props.C81_debye",
    "Verif.Props.C81_dielectric",
    "Verif.Props.C81_static",
    "Verif.Props.C81_dilec"
   ],
   "note": ""
  },
  {
   "property": "C82",
   "status": "proved",
   "theorems": [
    "Verif.Props.C82_ground",
    "Verif.Props.C82_ground_cut",
    "Verif.Props.C82_satellite",
    "Verif.Props.C82_satellite_reflecting",
    "Verif.Props.C82_ground_inversion"
   ],
   "note": ""
  },
  {
   "property": "C83",
   "status": "proved",
   "theorems": [
    "Verif.Props.C83_ground",
    "Verif.Props.C83_satellite"
   ],
   "note": ""
  },
  {
   "property": "C84",
   "status": "proved",
   "theorems": [
    "Verif.Props.C84_lookup",
    "Verif.Props.C84_documented",
    "Verif.Props.C84_undocumented",
    "Verif.Props.C84_gravity_unit",
    "Verif.Props.C84_neper",
    "Verif.Props.C84_gas_constant",
    "Verif.Props.C84_published",
    "Verif.Props.C84_dry_air",
    "Verif.Props.C84_vapour_density",
    "Verif.Props.C84_virtual",
    "Verif.Props.C84_zero_temperature",
    "Verif.Props.C84_number_density",
    "Verif.Props.C84_additive"
   ],
   "note": ""
  },
  {
   "property": "C85",
   "status": "proved",
   "theorems": [
    "Verif.Props.C85_satellite",
    "Verif.Props.C85_ground",
    "Verif.Props.C85_split",
    "Verif.Props.C85_split_refuted"
   ],
   "note": ""
  },
  {
   "property": "C86",
   "status": "proved",
   "theorems": [
    "Verif.Props.C86_available",
    "Verif.Props.C86_values",
    "Verif.Props.C86_asking",
    "Verif.Props.C86_shared",
    "Verif.Props.C86_strengths",
    "Verif.Props.C86_copied",
    "Verif.Props.C86_numbers",
    "Verif.Props.C86_classes",
    "Verif.Props.C86_reload",
    "Verif.Props.C86_kept"
   ],
   "note": ""
  },
  {
   "property": "C87",
   "status": "proved",
   "theorems": [
    "Verif.Props.C87_water",
    "Verif.Props.C87_recorded",
    "Verif.Props.C87_continuum",
    "Verif.Props.C87_extra",
    "Verif.Props.C87_complete",
    "Verif.Props.C87_speed",
    "Verif.Props.C87_ozone",
    "Verif.Props.C87_ozone_strength",
    "Verif.Props.C87_oxygen"
   ],
   "note": ""
  },
  {
   "property": "C88",
   "status": "proved",
   "theorems": [
    "Verif.Props.C88_R24",
    "Verif.Props.C88_R17",
    "Verif.Props.C88_R22SD",
    "Verif.Props.C88_oxygen",
    "Verif.Props.C88_R19_dry"
   ],
   "note": ""
  },
  {
   "property": "C89",
   "status": "proved",
   "theorems": [
    "Verif.Props.C89_reload",
    "Verif.Props.C89_available",
    "Verif.Props.C89_shared",
    "Verif.Props.C89_numbers",
    "Verif.Props.C89_classes"
   ],
   "note": ""
  },
  {
   "property": "C90",
   "status": "proved",
   "theorems": [
    "Verif.Props.C90_available",
    "Verif.Props.C90_unperturbed",
    "Verif.Props.C90_shared",
    "Verif.Props.C90_reload",
    "Verif.Props.C90_stay",
    "Verif.Props.C90_missing",
    "Verif.Props.C90_missing_shift",
    "Verif.Props.C90_shift_no_effect",
    "Verif.Props.C90_strength",
    "Verif.Props.C90_break",
    "Verif.Props.C90_first_line"
   ],
   "note": ""
  },
  {
   "property": "C91",
   "status": "proved",
   "theorems": [
    "Verif.Props.C91_warmer",
    "Verif.Props.C91_brightness",
    "Verif.Props.C91_atmosphere",
    "Verif.Props.C91_mean",
    "Verif.Props.C91_sharp"
   ],
   "note": ""
  },
  {
   "property": "C92",
   "status": "proved",
   "theorems": [
    "Verif.Props.C92_ground",
    "Verif.Props.C92_ground_any",
    "Verif.Props.C92_satellite",
    "Verif.Props.C92_satellite_brightness",
    "Verif.Props.C92_ground_brightness",
    "Verif.Props.C92_slope"
   ],
   "note": ""
  },
  {
   "property": "C93",
   "status": "proved",
   "theorems": [
    "Verif.Props.C93_layer",
    "Verif.Props.C93_total",
    "Verif.Props.C93_falling",
    "Verif.Props.C93_converges"
   ],
   "note": ""
  },
  {
   "property": "C94",
   "status": "proved",
   "theorems": [
    "Verif.Props.C94_ground_layers",
    "Verif.Props.C94_satellite_layers",
    "Verif.Props.C94_ground",
    "Verif.Props.C94_satellite",
    "Verif.Props.C94_ground_converges",
    "Verif.Props.C94_satellite_converges",
    "Verif.Props.C94_ground_brightness",
    "Verif.Props.C94_satellite_brightness",
    "Verif.Props.C94_ground_any",
    "Verif.Props.C94_satellite_any",
    "Verif.Props.C94_ground_brightness_any",
    "Verif.Props.C94_satellite_brightness_any"
   ],
   "note": ""
  },
  {
   "property": "C95",
   "status": "proved",
   "theorems": [
    "Verif.Props.C95_shipped",
    "Verif.Props.C95_ground_any",
    "Verif.Props.C95_satellite_any",
    "Verif.Props.C95_runs",
    "Verif.Props.C95_ground_shipped",
    "Verif.Props.C95_satellite_shipped",
    "Verif.Props.C95_ground",
    "Verif.Props.C95_satellite"
   ],
   "note": ""
  },
  {
   "property": "C96",
   "status": "proved",
   "theorems": [
    "Verif.Props.C96_level",
    "Verif.Props.C96_profile",
    "Verif.Props.C96_nonneg"
   ],
   "note": ""
  },
  {
   "property": "C97",
   "status": "proved",
   "theorems": [
    "Verif.Props.C97_table",
    "Verif.Props.C97_plain"
   ],
   "note": ""
  },
  {
   "property": "C98",
   "status": "proved",
   "theorems": [
    "Verif.Props.C98_dimers",
    "Verif.Props.C98_ozone",
    "Verif.Props.C98_cloud",
    "Verif.Props.C98_level",
    "Verif.Props.C98_table",
    "Verif.Props.C98_plane",
    "Verif.Props.C98_zenith",
    "Verif.Props.C98_absorb"
   ],
   "note": ""
  },
  {
   "property": "C99",
   "status": "proved",
   "theorems": [
    "Verif.Props.C99_class",
    "Verif.Props.C99_list",
    "Verif.Props.C99_instances_irrelevant",
    "Verif.Props.C99_rejected",
    "Verif.Props.C99_private",
    "Verif.Props.C99_instance",
    "Verif.Props.C99_base",
    "Verif.Props.C99_documented_refuted",
    "Verif.Props.C99_line_list",
    "Verif.Props.C99_unvalidated",
    "Verif.Props.C99_selection"
   ],
   "note": ""
  },
  {
   "property": "C100",
   "status": "proved",
   "theorems": [
    "Verif.Props.C100_session",
    "Verif.Props.C100_agent",
    "Verif.Props.C100_agent_refuted",
    "Verif.Props.C100_query"
   ],
   "note": ""
  },
  {
   "property": "C101",
   "status": "proved",
   "theorems": [
    "Verif.Props.C101_list",
    "Verif.Props.C101_credentials",
    "Verif.Props.C101_missing",
    "Verif.Props.C101_authenticated",
    "Verif.Props.C101_secret_refuted"
   ],
   "note": ""
  },
  {
   "property": "C102",
   "status": "proved",
   "theorems": [
    "Verif.Props.C102_layer",
    "Verif.Props.C102_total",
    "Verif.Props.C102_exponential",
    "Verif.Props.C102_of_deriv"
   ],
   "note": ""
  },
  {
   "property": "C103",
   "status": "proved",
   "theorems": [
    "Verif.Props.C103_opacities",
    "Verif.Props.C103_ground",
    "Verif.Props.C103_satellite",
    "Verif.Props.C103_order_ground",
    "Verif.Props.C103_order_satellite",
    "Verif.Props.C103_smooth_ground",
    "Verif.Props.C103_smooth_satellite"
   ],
   "note": ""
  },
  {
   "property": "C104",
   "status": "proved",
   "theorems": [
    "Verif.Props.C104_hidden_ground",
    "Verif.Props.C104_hidden_satellite",
    "Verif.Props.C104_near_ground",
    "Verif.Props.C104_near_satellite",
    "Verif.Props.C104_brightness"
   ],
   "note": ""
  },
  {
   "property": "C105",
   "status": "proved",
   "theorems": [
    "Verif.Props.C105_inputs",
    "Verif.Props.C105_same_run",
    "Verif.Props.C105_radiance",
    "Verif.Props.C105_integral",
    "Verif.Props.C105_layer_mean",
    "Verif.Props.C105_satellite_low",
    "Verif.Props.C105_satellite_refuted",
    "Verif.Props.C105_weights",
    "Verif.Props.C105_ground_run"
   ],
   "note": ""
  },
  {
   "property": "C106",
   "status": "proved",
   "theorems": [
    "Verif.Props.C106_ozone",
    "Verif.Props.C106_runs",
    "Verif.Props.C106_only",
    "Verif.Props.C106_one_name",
    "Verif.Props.C106_one_name_refuted",
    "Verif.Props.C106_documentation",
    "Verif.Props.C106_weighting"
   ],
   "note": ""
  },
  {
   "property": "C107",
   "status": "proved",
   "theorems": [
    "Verif.Props.C107_satellite",
    "Verif.Props.C107_frequencies",
    "Verif.Props.C107_session",
    "Verif.Props.C107_unset"
   ],
   "note": ""
  },
  {
   "property": "C108",
   "status": "proved",
   "theorems": [
    "Verif.Props.C108_traced",
    "Verif.Props.C108_path",
    "Verif.Props.C108_goodPath"
   ],
   "note": ""
  },
  {
   "property": "C109",
   "status": "proved",
   "theorems": [
    "Verif.Props.C109_cut",
    "Verif.Props.C109_complete",
    "Verif.Props.C109_table",
    "Verif.Props.C109_lowest",
    "Verif.Props.C109_vanishes"
   ],
   "note": ""
  },
  {
   "property": "C110",
   "status": "proved",
   "theorems": [
    "Verif.Props.C110_formula",
    "Verif.Props.C110_index",
    "Verif.Props.C110_pressure",
    "Verif.Props.C110_humidity",
    "Verif.Props.C110_temperature",
    "Verif.Props.C110_range",
    "Verif.Props.C110_never_refused",
    "Verif.Props.C110_zenith",
    "Verif.Props.C110_slant"
   ],
   "note": ""
  },
  {
   "property": "C111",
   "status": "proved",
   "theorems": [
    "Verif.Props.C111_sigma",
    "Verif.Props.C111_split",
    "Verif.Props.C111_others",
    "Verif.Props.C111_water",
    "Verif.Props.C111_refuted",
    "Verif.Props.C111_defect",
    "Verif.Props.C111_widths",
    "Verif.Props.C111_mixing",
    "Verif.Props.C111_symmetry",
    "Verif.Props.C111_columns"
   ],
   "note": ""
  },
  {
   "property": "C112",
   "status": "proved",
   "theorems": [
    "Verif.Props.C112_layer",
    "Verif.Props.C112_layer_exact",
    "Verif.Props.C112_total",
    "Verif.Props.C112_threshold_refuted",
    "Verif.Props.C112_zero_refuted",
    "Verif.Props.C112_opacity",
    "Verif.Props.C112_ground",
    "Verif.Props.C112_satellite"
   ],
   "note": ""
  },
  {
   "property": "C113",
   "status": "proved",
   "theorems": [
    "Verif.Props.C113_formula",
    "Verif.Props.C113_strength",
    "Verif.Props.C113_continuum",
    "Verif.Props.C113_wing",
    "Verif.Props.C113_centre",
    "Verif.Props.C113_self_switch"
   ],
   "note": ""
  },
  {
   "property": "C114",
   "status": "proved",
   "theorems": [
    "Verif.Props.C114_level",
    "Verif.Props.C114_run"
   ],
   "note": ""
  },
  {
   "property": "C115",
   "status": "proved",
   "theorems": [
    "Verif.Props.C115_traced",
    "Verif.Props.C115_routine",
    "Verif.Props.C115_level",
    "Verif.Props.C115_run"
   ],
   "note": ""
  },
  {
   "property": "C116",
   "status": "proved",
   "theorems": [
    "Verif.Props.C116_gases",
    "Verif.Props.C116_opacity",
    "Verif.Props.C116_ground",
    "Verif.Props.C116_satellite",
    "Verif.Props.C116_isolated",
    "Verif.Props.C116_seen",
    "Verif.Props.C116_shipped"
   ],
   "note": ""
  },
  {
   "property": "C117",
   "status": "proved",
   "theorems": [
    "Verif.Props.C117_level",
    "Verif.Props.C117_same",
    "Verif.Props.C117_opacity",
    "Verif.Props.C117_ground",
    "Verif.Props.C117_satellite",
    "Verif.Props.C117_law",
    "Verif.Props.C117_away"
   ],
   "note": ""
  },
  {
   "property": "C118",
   "status": "proved",
   "theorems": [
    "Verif.Props.C118_same_program",
    "Verif.Props.C118_level",
    "Verif.Props.C118_round_trip",
    "Verif.Props.C118_radiance",
    "Verif.Props.C118_temperature",
    "Verif.Props.C118_double",
    "Verif.Props.C118_kelvin",
    "Verif.Props.C118_isothermal",
    "Verif.Props.C118_upper"
   ],
   "note": ""
  },
  {
   "property": "C119",
   "status": "proved",
   "theorems": [
    "Verif.Props.C119_every_run",
    "Verif.Props.C119_every_run_error",
    "Verif.Props.C119_same_program",
    "Verif.Props.C119_layer",
    "Verif.Props.C119_negative",
    "Verif.Props.C119_integral",
    "Verif.Props.C119_opacities",
    "Verif.Props.C119_satellite",
    "Verif.Props.C119_any",
    "Verif.Props.C119_sharp",
    "Verif.Props.C119_run",
    "Verif.Props.C119_run_error"
   ],
   "note": ""
  },
  {
   "property": "C120",
   "status": "proved",
   "theorems": [
    "Verif.Props.C120_same_program",
    "Verif.Props.C120_path",
    "Verif.Props.C120_opacities",
    "Verif.Props.C120_tb",
    "Verif.Props.C120_run",
    "Verif.Props.C120_horizon"
   ],
   "note": ""
  },
  {
   "property": "C121",
   "status": "proved",
   "theorems": [
    "Verif.Props.C121_level",
    "Verif.Props.C121_layer",
    "Verif.Props.C121_ground",
    "Verif.Props.C121_satellite"
   ],
   "note": ""
  },
  {
   "property": "C122",
   "status": "proved",
   "theorems": [
    "Verif.Props.C122_more_ground",
    "Verif.Props.C122_more_satellite",
    "Verif.Props.C122_ozone_ground",
    "Verif.Props.C122_ozone_satellite",
    "Verif.Props.C122_ground",
    "Verif.Props.C122_satellite",
    "Verif.Props.C122_cloud_ground",
    "Verif.Props.C122_cloud_satellite",
    "Verif.Props.C122_shipped_ground",
    "Verif.Props.C122_shipped_satellite"
   ],
   "note": ""
  },
  {
   "property": "C123",
   "status": "proved",
   "theorems": [
    "Verif.Props.C123_opacity",
    "Verif.Props.C123_origin",
    "Verif.Props.C123_ground",
    "Verif.Props.C123_satellite"
   ],
   "note": ""
  },
  {
   "property": "C124",
   "status": "proved",
   "theorems": [
    "Verif.Props.C124_path_ground",
    "Verif.Props.C124_path_satellite",
    "Verif.Props.C124_ground",
    "Verif.Props.C124_satellite",
    "Verif.Props.C124_shipped"
   ],
   "note": ""
  },
  {
   "property": "C125",
   "status": "proved",
   "theorems": [
    "Verif.Props.C125_ground",
    "Verif.Props.C125_tip",
    "Verif.Props.C125_emissivity",
    "Verif.Props.C125_opaque",
    "Verif.Props.C125_positive"
   ],
   "note": ""
  },
  {
   "property": "C126",
   "status": "proved",
   "theorems": [
    "Verif.Props.C126_ground",
    "Verif.Props.C126_tip_linear",
    "Verif.Props.C126_satellite"
   ],
   "note": ""
  },
  {
   "property": "C127",
   "status": "proved",
   "theorems": [
    "Verif.Props.C127_scaled",
    "Verif.Props.C127_elevation"
   ],
   "note": ""
  },
  {
   "property": "C128",
   "status": "proved",
   "theorems": [
    "Verif.Props.C128_opacity",
    "Verif.Props.C128_ground",
    "Verif.Props.C128_emissivity",
    "Verif.Props.C128_sides"
   ],
   "note": ""
  },
  {
   "property": "C129",
   "status": "proved",
   "theorems": [
    "Verif.Props.C129_single",
    "Verif.Props.C129_period",
    "Verif.Props.C129_error",
    "Verif.Props.C129_split",
    "Verif.Props.C129_shared",
    "Verif.Props.C129_files",
    "Verif.Props.C129_times",
    "Verif.Props.C129_derived"
   ],
   "note": ""
  },
  {
   "property": "C130",
   "status": "proved",
   "theorems": [
    "Verif.Props.C130_names",
    "Verif.Props.C130_download",
    "Verif.Props.C130_history",
    "Verif.Props.C130_kept",
    "Verif.Props.C130_overwritten",
    "Verif.Props.C130_hour",
    "Verif.Props.C130_eumetsat",
    "Verif.Props.C130_readable",
    "Verif.Props.C130_fixed_grid"
   ],
   "note": ""
  },
  {
   "property": "C131",
   "status": "proved",
   "theorems": [
    "Verif.Props.C131_shares",
    "Verif.Props.C131_rate",
    "Verif.Props.C131_level",
    "Verif.Props.C131_sum",
    "Verif.Props.C131_order"
   ],
   "note": ""
  },
  {
   "property": "C132",
   "status": "proved",
   "theorems": [
    "Verif.Props.C132_ground",
    "Verif.Props.C132_satellite",
    "Verif.Props.C132_sign",
    "Verif.Props.C132_source",
    "Verif.Props.C132_cooling"
   ],
   "note": ""
  },
  {
   "property": "C133",
   "status": "proved",
   "theorems": [
    "Verif.Props.C133_sum",
    "Verif.Props.C133_emissivity",
    "Verif.Props.C133_cooling"
   ],
   "note": ""
  },
  {
   "property": "C134",
   "status": "proved",
   "theorems": [
    "Verif.Props.C134_sounding",
    "Verif.Props.C134_faithful",
    "Verif.Props.C134_only",
    "Verif.Props.C134_unchecked",
    "Verif.Props.C134_error",
    "Verif.Props.C134_refuted"
   ],
   "note": ""
  },
  {
   "property": "C135",
   "status": "proved",
   "theorems": [
    "Verif.Props.C135_page",
    "Verif.Props.C135_slash",
    "Verif.Props.C135_table",
    "Verif.Props.C135_request",
    "Verif.Props.C135_regions"
   ],
   "note": ""
  },
  {
   "property": "C136",
   "status": "proved",
   "theorems": [
    "Verif.Props.C136_total",
    "Verif.Props.C136_exists"
   ],
   "note": ""
  },
  {
   "property": "C137",
   "status": "proved",
   "theorems": [
    "Verif.Props.C137_layers",
    "Verif.Props.C137_ground",
    "Verif.Props.C137_satellite"
   ],
   "note": ""
  }
 ]
}
