{
 "claims": [
  {
   "property": "C01",
   "status": "proved",
   "theorems": [
    "Verif.Props.C01_blackbody_is_planck_law",
    "Verif.Props.C01_blackbody_wn_is_planck_law"
   ],
   "note": ""
  },
  {
   "property": "C02",
   "status": "proved",
   "theorems": [
    "Verif.Props.C02_roundtrip_temperature",
    "Verif.Props.C02_roundtrip_temperature_wn",
    "Verif.Props.C02_roundtrip_radiance",
    "Verif.Props.C02_roundtrip_radiance_wn"
   ],
   "note": ""
  },
  {
   "property": "C03",
   "status": "proved",
   "theorems": [
    "Verif.Props.C03_planck_positive_and_increasing",
    "Verif.Props.C03_rad2temp_positive_and_increasing"
   ],
   "note": ""
  },
  {
   "property": "C04",
   "status": "proved",
   "theorems": [
    "Verif.Props.C04_rad2temp_complete"
   ],
   "note": ""
  },
  {
   "property": "C05",
   "status": "proved",
   "theorems": [
    "Verif.Props.C05_wavelength_wavenumber_consistent"
   ],
   "note": ""
  },
  {
   "property": "C06",
   "status": "proved",
   "theorems": [
    "Verif.Props.C06_planck_grid",
    "Verif.Props.C06_planck_nan_iff"
   ],
   "note": ""
  },
  {
   "property": "C07",
   "status": "proved",
   "theorems": [
    "Verif.Props.C07_chunking_invariance",
    "Verif.Props.C07_xarray_and_other"
   ],
   "note": ""
  },
  {
   "property": "C08",
   "status": "partial",
   "theorems": [
    "Verif.Props.C08_keyword_radiance_always_fails",
    "Verif.Props.C08_keyword_equivalence_false",
    "Verif.Props.C08_positional_partial"
   ],
   "note": "The claim is false of the code: every keyword call fails. Proved: the failure, the negation of the equivalence, and the positional part."
  },
  {
   "property": "C09",
   "status": "proved",
   "theorems": [
    "Verif.Props.C09_band_radiance_is_a_mean",
    "Verif.Props.C09_constant_band"
   ],
   "note": ""
  },
  {
   "property": "C10",
   "status": "proved",
   "theorems": [
    "Verif.Props.C10_band_radiance_increasing"
   ],
   "note": ""
  },
  {
   "property": "C11",
   "status": "proved",
   "theorems": [
    "Verif.Props.C11_unnormalised_is_integral_times_normalised",
    "Verif.Props.C11_response_scale_invariance"
   ],
   "note": ""
  },
  {
   "property": "C12",
   "status": "proved",
   "theorems": [
    "Verif.Props.C12_lut_entry",
    "Verif.Props.C12_lut_total"
   ],
   "note": ""
  },
  {
   "property": "C13",
   "status": "proved",
   "theorems": [
    "Verif.Props.C13_lut_within_one_step"
   ],
   "note": ""
  },
  {
   "property": "C14",
   "status": "partial",
   "theorems": [
    "Verif.Props.C14_exactly",
    "Verif.Props.C14_range_partial",
    "Verif.Props.C14_default_tables",
    "Verif.Props.C14_hotter_can_look_up_less",
    "Verif.Props.C14_lut_monotone_partial"
   ],
   "note": "The claim is false of the code: the scaled temperature is stored as int16 and overflows, so from 3426.8 K to 6703.5 K the coldest entry of the tables pyspectral makes is looked up. Proved: a counterexample, exactly which entry is looked up for every temperature, and monotonicity up to 32767 steps above the start of the table."
  },
  {
   "property": "C15",
   "status": "proved",
   "theorems": [
    "Verif.Props.C15_radiance2tb_unique_temperature"
   ],
   "note": ""
  },
  {
   "property": "C16",
   "status": "proved",
   "theorems": [
    "Verif.Props.C16_seviri_round_trip",
    "Verif.Props.C16_published_coefficients",
    "Verif.Props.C16_coefficients_match_channel"
   ],
   "note": ""
  },
  {
   "property": "C17",
   "status": "partial",
   "theorems": [
    "Verif.Props.C17_water_vapour_aliases_fail",
    "Verif.Props.C17_meteosat10_has_no_coefficients",
    "Verif.Props.C17_ir_aliases_convertible_partial",
    "Verif.Props.C17_exactly"
   ],
   "note": "The claim is false of the code: the water-vapour aliases and every Meteosat-10 channel fail with KeyError. Proved: the failures, and convertibility of all other aliases on the other platforms. Also proved: among all names and platforms, exactly fourteen names on Meteosat-8 and Meteosat-9 are convertible (C17_exactly)."
  },
  {
   "property": "C18",
   "status": "proved",
   "theorems": [
    "Verif.Props.C18_wavespace_checked_first",
    "Verif.Props.C18_zero_resolution",
    "Verif.Props.C18_constructed_wavelength",
    "Verif.Props.C18_seviri_band_must_be_string",
    "Verif.Props.C18_seviri_refuses_lut_and_unnormalised",
    "Verif.Props.C18_any_resolution"
   ],
   "note": ""
  },
  {
   "property": "C19",
   "status": "partial",
   "theorems": [
    "Verif.Props.C19_numeric_band_never_works_in_wavenumber",
    "Verif.Props.C19_false_witness",
    "Verif.Props.C19_named_band_partial"
   ],
   "note": "The claim is false of the code: a numeric band never works in wavenumber space (KeyError). Proved: the failure for every sensor, and the named-band part."
  },
  {
   "property": "C20",
   "status": "proved",
   "theorems": [
    "Verif.Props.C20_convert2wavenumber",
    "Verif.Props.C20_wavenumbers_increase"
   ],
   "note": ""
  },
  {
   "property": "C21",
   "status": "proved",
   "theorems": [
    "Verif.Props.C21_idempotent_on_wavenumber_data",
    "Verif.Props.C21_converting_twice",
    "Verif.Props.C21_invertible"
   ],
   "note": ""
  },
  {
   "property": "C22",
   "status": "proved",
   "theorems": [
    "Verif.Props.C22_central_wave_inside",
    "Verif.Props.C22_central_wave_inside_unweighted",
    "Verif.Props.C22_response_scaling",
    "Verif.Props.C22_reversal",
    "Verif.Props.C22_grid_shift_and_scale",
    "Verif.Props.C22_zero_integral_is_nan"
   ],
   "note": ""
  },
  {
   "property": "C23",
   "status": "proved",
   "theorems": [
    "Verif.Props.C23_band_by_wavelength"
   ],
   "note": ""
  },
  {
   "property": "C24",
   "status": "partial",
   "theorems": [
    "Verif.Props.C24_returned_name_may_be_no_key",
    "Verif.Props.C24_returned_name_is_key_partial",
    "Verif.Props.C24_exactly"
   ],
   "note": "The claim is false of the code: the returned standard name need not be a key of the dictionary. Proved: a counterexample, the claim when the alias tables do not rename the channel, and exactly when the returned name is a key."
  },
  {
   "property": "C25",
   "status": "proved",
   "theorems": [
    "Verif.Props.C25_sort_data",
    "Verif.Props.C25_empty_raises"
   ],
   "note": ""
  },
  {
   "property": "C26",
   "status": "proved",
   "theorems": [
    "Verif.Props.C26_width",
    "Verif.Props.C26_raises_iff",
    "Verif.Props.C26_positive"
   ],
   "note": ""
  },
  {
   "property": "C27",
   "status": "partial",
   "theorems": [
    "Verif.Props.C27_not_scale_invariant",
    "Verif.Props.C27_unit_maximum_partial",
    "Verif.Props.C27_exactly"
   ],
   "note": "The claim is false of the code: the threshold is the constant 0.5, not half of the maximum. Proved: a counterexample, and the claim for curves with maximum 1. Also proved: exactly when the returned width is that of half the maximum."
  },
  {
   "property": "C28",
   "status": "partial",
   "theorems": [
    "Verif.Props.C28_bounds",
    "Verif.Props.C28_fails_iff",
    "Verif.Props.C28_bounds_reversed_for_spike",
    "Verif.Props.C28_ordered_partial",
    "Verif.Props.C28_exactly"
   ],
   "note": "The order of the bounds is false of the code for a spike. Proved: which samples give the bounds, when the call fails, a counterexample for the order, and the order when some sample lies between the limits. Also proved: exactly when the bounds exist in order."
  },
  {
   "property": "C29",
   "status": "proved",
   "theorems": [
    "Verif.Props.C29_wave_range",
    "Verif.Props.C29_samples_inside",
    "Verif.Props.C29_fails_iff"
   ],
   "note": ""
  },
  {
   "property": "C30",
   "status": "partial",
   "theorems": [
    "Verif.Props.C30_accepts_iff",
    "Verif.Props.C30_identity_on_str",
    "Verif.Props.C30_object_array_attribute_error",
    "Verif.Props.C30_rejects_partial"
   ],
   "note": "The exception class is false of the code for one-element object arrays (AttributeError). Proved: exactly which values are accepted, the counterexample, and ValueError for the rest."
  },
  {
   "property": "C31",
   "status": "proved",
   "theorems": [
    "Verif.Props.C31_canonical",
    "Verif.Props.C31_belongs_to_platform",
    "Verif.Props.C31_listed_instrument_kept",
    "Verif.Props.C31_unknown_platform"
   ],
   "note": ""
  },
  {
   "property": "C32",
   "status": "partial",
   "theorems": [
    "Verif.Props.C32_exactly",
    "Verif.Props.C32_not_idempotent",
    "Verif.Props.C32_idempotent_partial",
    "Verif.Props.C32_excluded_platforms"
   ],
   "note": "The claim is false of the code on FY-3A/B/C. Proved: a counterexample, idempotence on all other platforms, and that these three are the only excluded ones. Also proved: adjusting again changes a name exactly for mersi-1 on these platforms."
  },
  {
   "property": "C33",
   "status": "partial",
   "theorems": [
    "Verif.Props.C33_exactly",
    "Verif.Props.C33_not_symmetric",
    "Verif.Props.C33_reflexive_transitive_partial",
    "Verif.Props.C33_symmetric_partial",
    "Verif.Props.C33_non_string_raises"
   ],
   "note": "Symmetry is false of the code. Proved: a counterexample, reflexivity, transitivity, symmetry away from the AVHRR dash names, exactly which pairs are identical, ValueError for non-strings."
  },
  {
   "property": "C34",
   "status": "proved",
   "theorems": [
    "Verif.Props.C34_multi_sensor_kept",
    "Verif.Props.C34_multi_sensor_rejected",
    "Verif.Props.C34_single_sensor_replaces",
    "Verif.Props.C34_unknown_platform_kept",
    "Verif.Props.C34_no_slash"
   ],
   "note": ""
  },
  {
   "property": "C35",
   "status": "proved",
   "theorems": [
    "Verif.Props.C35_levels_after_debug",
    "Verif.Props.C35_at_most_one_console",
    "Verif.Props.C35_levels_after_on",
    "Verif.Props.C35_on_keeps_handlers"
   ],
   "note": ""
  },
  {
   "property": "C36",
   "status": "partial",
   "theorems": [
    "Verif.Props.C36_exactly",
    "Verif.Props.C36_on_off_on_stays_silent",
    "Verif.Props.C36_on_partial"
   ],
   "note": "The claim is false of the code: after on, off, on there is no console handler. Proved: the counterexample, the claim for histories without logging_off in between, and exactly which histories have a console handler."
  },
  {
   "property": "C37",
   "status": "proved",
   "theorems": [
    "Verif.Props.C37_direct",
    "Verif.Props.C37_instrument_alias",
    "Verif.Props.C37_generic_alias",
    "Verif.Props.C37_get"
   ],
   "note": ""
  },
  {
   "property": "C38",
   "status": "proved",
   "theorems": [
    "Verif.Props.C38_arguments_rejected",
    "Verif.Props.C38_by_names",
    "Verif.Props.C38_by_filename"
   ],
   "note": ""
  },
  {
   "property": "C39",
   "status": "partial",
   "theorems": [
    "Verif.Props.C39_exactly",
    "Verif.Props.C39_shared_file_name",
    "Verif.Props.C39_distinct_files_partial",
    "Verif.Props.C39_known_platforms"
   ],
   "note": "The claim is false of the code: instrument 'oli_tirs' on 'X' and 'oli' on 'tirs_X' share a file name. Proved: the collision, the claim for names without an underscore clash and for all known platforms, and exactly which pairs share a file."
  },
  {
   "property": "C40",
   "status": "proved",
   "theorems": [
    "Verif.Props.C40_loaded_data",
    "Verif.Props.C40_complete_or_keyError"
   ],
   "note": ""
  },
  {
   "property": "C41",
   "status": "proved",
   "theorems": [
    "Verif.Props.C41_names_from_file"
   ],
   "note": ""
  },
  {
   "property": "C42",
   "status": "partial",
   "theorems": [
    "Verif.Props.C42_exactly",
    "Verif.Props.C42_list_instrument",
    "Verif.Props.C42_single_instrument_partial"
   ],
   "note": "The claim is false of the code for FY-3A/3B/3C, FY-4B and Sentinel-3A/3B without a sensor attribute: the instrument is a list and every alias lookup raises TypeError. Proved: the failure, and the claim for one instrument. Also proved: exactly when the default sensor works."
  },
  {
   "property": "C43",
   "status": "proved",
   "theorems": [
    "Verif.Props.C43_convert",
    "Verif.Props.C43_only_once",
    "Verif.Props.C43_no_detectors"
   ],
   "note": ""
  },
  {
   "property": "C44",
   "status": "proved",
   "theorems": [
    "Verif.Props.C44_integral",
    "Verif.Props.C44_bounds",
    "Verif.Props.C44_unknown_band"
   ],
   "note": ""
  },
  {
   "property": "C45",
   "status": "proved",
   "theorems": [
    "Verif.Props.C45_current_does_nothing",
    "Verif.Props.C45_switched_off",
    "Verif.Props.C45_dry_run",
    "Verif.Props.C45_one_request"
   ],
   "note": ""
  },
  {
   "property": "C46",
   "status": "proved",
   "theorems": [
    "Verif.Props.C46_first_call",
    "Verif.Props.C46_no_more_requests",
    "Verif.Props.C46_not_repeated",
    "Verif.Props.C46_reader_no_request"
   ],
   "note": ""
  },
  {
   "property": "C47",
   "status": "partial",
   "theorems": [
    "Verif.Props.C47_other_directory_repeats",
    "Verif.Props.C47_once_partial"
   ],
   "note": "The claim is false of the code: with a destination other than the RSR directory every call downloads again. Proved: the repetition for every such directory and server, and the claim for the RSR directory."
  },
  {
   "property": "C48",
   "status": "partial",
   "theorems": [
    "Verif.Props.C48_version_first_looks_complete",
    "Verif.Props.C48_never_looks_complete_partial",
    "Verif.Props.C48_rerun_after_interruptions",
    "Verif.Props.C48_exactly"
   ],
   "note": "The first half is false of the code when the archive has members after the version file. Proved: a counterexample that no later check repairs, the claim for archives with the version file last, and (fully) that re-running after any interruptions gives the files of an uninterrupted run. Also proved: for an archive with distinct names on an empty directory the claim holds exactly when the version file is the last member."
  },
  {
   "property": "C49",
   "status": "proved",
   "theorems": [
    "Verif.Props.C49_error_changes_no_file",
    "Verif.Props.C49_success_removes_archive",
    "Verif.Props.C49_connection_lost",
    "Verif.Props.C49_connection_lost_leftover"
   ],
   "note": ""
  },
  {
   "property": "C50",
   "status": "partial",
   "theorems": [
    "Verif.Props.C50_wavelengths_are_responses",
    "Verif.Props.C50_not_read_back",
    "Verif.Props.C50_responses_partial"
   ],
   "note": "The claim is false of the code: the responses are stored as wavelengths. Proved: what is read back for all data, a concrete counterexample, and that the responses are read back."
  },
  {
   "property": "C51",
   "status": "proved",
   "theorems": [
    "Verif.Props.C51_single_detector",
    "Verif.Props.C51_several_detectors"
   ],
   "note": ""
  },
  {
   "property": "C52",
   "status": "proved",
   "theorems": [
    "Verif.Props.C52_default_step",
    "Verif.Props.C52_wavenumber_spectrum",
    "Verif.Props.C52_energy",
    "Verif.Props.C52_increasing"
   ],
   "note": ""
  },
  {
   "property": "C53",
   "status": "proved",
   "theorems": [
    "Verif.Props.C53_solar_constant",
    "Verif.Props.C53_positive"
   ],
   "note": ""
  },
  {
   "property": "C54",
   "status": "proved",
   "theorems": [
    "Verif.Props.C54_flux_and_irradiance",
    "Verif.Props.C54_scaling"
   ],
   "note": ""
  },
  {
   "property": "C55",
   "status": "partial",
   "theorems": [
    "Verif.Props.C55_common_grid_partial",
    "Verif.Props.C55_narrow_band"
   ],
   "note": "The claim is false of the code for a band of at most half a step: one grid point, flux 0, irradiance NaN. Proved: that failure for all such bands, and the claim for wider ones. The spline is a parameter."
  },
  {
   "property": "C56",
   "status": "proved",
   "theorems": [
    "Verif.Props.C56_history_independent"
   ],
   "note": ""
  },
  {
   "property": "C57",
   "status": "partial",
   "theorems": [
    "Verif.Props.C57_without_step_partial",
    "Verif.Props.C57_step_persists"
   ],
   "note": "The claim is false of the code: interpolate(dlambda=...) changes the step for good. Proved: a counterexample for any interpolation that reproduces squares and constants, and the claim for calls without a step."
  },
  {
   "property": "C58",
   "status": "partial",
   "theorems": [
    "Verif.Props.C58_decreasing_fails"
   ],
   "note": "The claim is false of the code: proved that every decreasing response raises ValueError, for an interpolation that rejects such abscissae as scipy's does."
  },
  {
   "property": "C59",
   "status": "proved",
   "theorems": [
    "Verif.Props.C59_percentage",
    "Verif.Props.C59_no_nan"
   ],
   "note": ""
  },
  {
   "property": "C60",
   "status": "partial",
   "theorems": [
    "Verif.Props.C60_zero_outside_partial",
    "Verif.Props.C60_attribute_error",
    "Verif.Props.C60_dask_installed",
    "Verif.Props.C60_missing_file"
   ],
   "note": "The claim is false of the code for numpy arrays without red band where dask is installed: the zeros are a numpy array and .compute() raises AttributeError. Proved: that failure for every such call, the claim with a red band and without dask, and that dask makes no other difference for numpy arrays. Dask arrays are C140."
  },
  {
   "property": "C61",
   "status": "proved",
   "theorems": [
    "Verif.Props.C61_linear_between_neighbours",
    "Verif.Props.C61_has_neighbours"
   ],
   "note": ""
  },
  {
   "property": "C62",
   "status": "proved",
   "theorems": [
    "Verif.Props.C62_clip"
   ],
   "note": ""
  },
  {
   "property": "C63",
   "status": "proved",
   "theorems": [
    "Verif.Props.C63_fades_out",
    "Verif.Props.C63_nan",
    "Verif.Props.C63_below"
   ],
   "note": ""
  },
  {
   "property": "C64",
   "status": "proved",
   "theorems": [
    "Verif.Props.C64_only_reduces"
   ],
   "note": ""
  },
  {
   "property": "C65",
   "status": "proved",
   "theorems": [
    "Verif.Props.C65_within_cell",
    "Verif.Props.C65_exact_at_nodes"
   ],
   "note": ""
  },
  {
   "property": "C66",
   "status": "proved",
   "theorems": [
    "Verif.Props.C66_unsupported_rejected",
    "Verif.Props.C66_table_file"
   ],
   "note": ""
  },
  {
   "property": "C67",
   "status": "proved",
   "theorems": [
    "Verif.Props.C67_all_types_by_default",
    "Verif.Props.C67_given_types",
    "Verif.Props.C67_validates_first",
    "Verif.Props.C67_downloads_outdated",
    "Verif.Props.C67_own_place",
    "Verif.Props.C67_second_call_quiet"
   ],
   "note": ""
  },
  {
   "property": "C68",
   "status": "partial",
   "theorems": [
    "Verif.Props.C68_check_and_download_ignores_option",
    "Verif.Props.C68_switched_off_partial",
    "Verif.Props.C68_reader_switched_off"
   ],
   "note": "The claim is false of the code: rayleigh.check_and_download ignores the option. Proved: the failure for every such configuration, and the claim for the other entry points."
  },
  {
   "property": "C69",
   "status": "proved",
   "theorems": [
    "Verif.Props.C69_effective_wavelength",
    "Verif.Props.C69_nanometer"
   ],
   "note": ""
  },
  {
   "property": "C70",
   "status": "proved",
   "theorems": [
    "Verif.Props.C70_radiance_balance"
   ],
   "note": ""
  },
  {
   "property": "C71",
   "status": "proved",
   "theorems": [
    "Verif.Props.C71_masked",
    "Verif.Props.C71_not_masked"
   ],
   "note": ""
  },
  {
   "property": "C72",
   "status": "proved",
   "theorems": [
    "Verif.Props.C72_unit_interval",
    "Verif.Props.C72_increasing"
   ],
   "note": ""
  },
  {
   "property": "C73",
   "status": "partial",
   "theorems": [
    "Verif.Props.C73_missing_thermal_hidden",
    "Verif.Props.C73_missing_thermal_partial"
   ],
   "note": "The claim is false of the code with a look-up table: the NaN is replaced by an entry of the table. Proved: the failure, and the claim without table."
  },
  {
   "property": "C74",
   "status": "proved",
   "theorems": [
    "Verif.Props.C74_history_independent"
   ],
   "note": ""
  },
  {
   "property": "C75",
   "status": "proved",
   "theorems": [
    "Verif.Props.C75_correction",
    "Verif.Props.C75_factor"
   ],
   "note": ""
  },
  {
   "property": "C76",
   "status": "proved",
   "theorems": [
    "Verif.Props.C76_emissive",
    "Verif.Props.C76_emissive_temperature"
   ],
   "note": ""
  },
  {
   "property": "C77",
   "status": "partial",
   "theorems": [
    "Verif.Props.C77_history",
    "Verif.Props.C77_temperature_raises",
    "Verif.Props.C77_radiance_partial"
   ],
   "note": "The claim is false of the code for tb=True (the default): AttributeError. Proved: the failure for every object without retrieval, and the claim for tb=False. C77_history: the same after any history of calls in which no reflectance was obtained, including failed attempts."
  },
  {
   "property": "C78",
   "status": "proved",
   "theorems": [
    "Verif.Props.C78_not_supported",
    "Verif.Props.C78_supported"
   ],
   "note": ""
  },
  {
   "property": "C79",
   "status": "proved",
   "theorems": [
    "Verif.Props.C79_table_file"
   ],
   "note": ""
  },
  {
   "property": "C80",
   "status": "partial",
   "theorems": [
    "Verif.Props.C80_second_gets_table_of_first",
    "Verif.Props.C80_own_table_partial",
    "Verif.Props.C80_fails"
   ],
   "note": "The claim is false of the code: the file name has neither detector nor wave space in it. Proved: a second object on the same file always gets the table of the first, a concrete pair of detectors with different tables, and the claim for any history whose objects on one file share one own table."
  },
  {
   "property": "C81",
   "status": "proved",
   "theorems": [
    "Verif.Props.C81_shape_mismatch",
    "Verif.Props.C81_scalars"
   ],
   "note": ""
  },
  {
   "property": "C82",
   "status": "proved",
   "theorems": [
    "Verif.Props.C82_array_types_agree"
   ],
   "note": ""
  },
  {
   "property": "C83",
   "status": "proved",
   "theorems": [
    "Verif.Props.C83_untouched",
    "Verif.Props.C83_untouched_dask",
    "Verif.Props.C83_input_kept",
    "Verif.Props.C83_same_values"
   ],
   "note": ""
  },
  {
   "property": "C84",
   "status": "proved",
   "theorems": [
    "Verif.Props.C84_formula",
    "Verif.Props.C84_grows"
   ],
   "note": ""
  },
  {
   "property": "C85",
   "status": "partial",
   "theorems": [
    "Verif.Props.C85_fails",
    "Verif.Props.C85_cold_partial",
    "Verif.Props.C85_exactly",
    "Verif.Props.C85_warm_sea"
   ],
   "note": "The claim is false of the code for every temperature above 210 K. Proved: that failure, and the claim for temperatures up to 210 K. Also proved: exactly the pixels nearer to nadir than a given angle are concerned (C85_exactly); at 300 K all pixels up to 60 degrees (C85_warm_sea)."
  },
  {
   "property": "C86",
   "status": "partial",
   "theorems": [
    "Verif.Props.C86_plain_array_fails",
    "Verif.Props.C86_get_correction_fails"
   ],
   "note": "The claim is false of the code: every plain array raises AttributeError, after the nadir pixels were changed. Proved: that failure for every plain array, directly and through get_correction."
  },
  {
   "property": "C87",
   "status": "proved",
   "theorems": [
    "Verif.Props.C87_atmosphere",
    "Verif.Props.C87_name_rejected"
   ],
   "note": ""
  },
  {
   "property": "C88",
   "status": "proved",
   "theorems": [
    "Verif.Props.C88_overrides",
    "Verif.Props.C88_keeps",
    "Verif.Props.C88_nothing_else",
    "Verif.Props.C88_empty",
    "Verif.Props.C88_idempotent",
    "Verif.Props.C88_returns_iff"
   ],
   "note": ""
  },
  {
   "property": "C89",
   "status": "proved",
   "theorems": [
    "Verif.Props.C89_env_not_a_file",
    "Verif.Props.C89_config",
    "Verif.Props.C89_returns",
    "Verif.Props.C89_download_options"
   ],
   "note": ""
  },
  {
   "property": "C90",
   "status": "proved",
   "theorems": [
    "Verif.Props.C90_restored",
    "Verif.Props.C90_transparent",
    "Verif.Props.C90_deleted",
    "Verif.Props.C90_temporary_removed"
   ],
   "note": ""
  },
  {
   "property": "C91",
   "status": "proved",
   "theorems": [
    "Verif.Props.C91_mock_rsr",
    "Verif.Props.C91_mock_rayleigh",
    "Verif.Props.C91_mock_tb_conversion",
    "Verif.Props.C91_mock_pyspectral_downloads",
    "Verif.Props.C91_forbidden",
    "Verif.Props.C91_forbidden_raises",
    "Verif.Props.C91_forbid_restored"
   ],
   "note": ""
  },
  {
   "property": "C92",
   "status": "partial",
   "theorems": [
    "Verif.Props.C92_exactly",
    "Verif.Props.C92_fake_file_partial",
    "Verif.Props.C92_fails",
    "Verif.Props.C92_known"
   ],
   "note": "The claim is false of the code for Landsat: the fake data of oli_tirs carry the platform name 'tirs'. Proved: that failure, and the claim for all names without an underscore, which covers every other known platform. Also proved: exactly when the fake data carry the platform name, and that they always exist."
  },
  {
   "property": "C93",
   "status": "proved",
   "theorems": [
    "Verif.Props.C93_options",
    "Verif.Props.C93_missing_section",
    "Verif.Props.C93_band_files",
    "Verif.Props.C93_returns",
    "Verif.Props.C93_from_config"
   ],
   "note": ""
  },
  {
   "property": "C94",
   "status": "partial",
   "theorems": [
    "Verif.Props.C94_single_lut_radiance_not_convertible_back",
    "Verif.Props.C94_array_radiance_convertible_partial",
    "Verif.Props.C94_exactly"
   ],
   "note": "The claim is false of the code: a one-element table look-up gives a Python float, which radiance2tb rejects. Proved: for every successful tb2radiance call of every converter, exactly these results are rejected and all others are converted element by element (C94_exactly)."
  },
  {
   "property": "C95",
   "status": "partial",
   "theorems": [
    "Verif.Props.C95_wavenumber_never_works",
    "Verif.Props.C95_wavelength_partial"
   ],
   "note": "The claim is false of the code: no wavenumber construction ever works, for any data set. Proved: that failure, and the claim in wavelength space for a good band and a writable cache place."
  },
  {
   "property": "C96",
   "status": "partial",
   "theorems": [
    "Verif.Props.C96_interrupted_write_breaks_cache",
    "Verif.Props.C96_interrupted_partial"
   ],
   "note": "The claim is false of the code: a death between opening and filling the file leaves an empty table that every later construction fails on. Proved: that failure, and the claim when the file is absent or complete after the death. The write of the table is modelled as open followed by one append."
  },
  {
   "property": "C97",
   "status": "partial",
   "theorems": [
    "Verif.Props.C97_images_without_table_fail",
    "Verif.Props.C97_columns_without_table_wrong",
    "Verif.Props.C97_shape_partial",
    "Verif.Props.C97_without_table",
    "Verif.Props.C97_exactly"
   ],
   "note": "The claim is false of the code without a table for images: every image of two or more rows and columns raises ValueError, a column of two pixels gives 2x2. Proved: both failures, the claim with a table or for one-dimensional arrays, what happens without a table for arrays of any number of axes, and exactly when the shape is kept."
  },
  {
   "property": "C98",
   "status": "proved",
   "theorems": [
    "Verif.Props.C98_config_in_force"
   ],
   "note": ""
  },
  {
   "property": "C99",
   "status": "proved",
   "theorems": [
    "Verif.Props.C99_mock_rayleigh",
    "Verif.Props.C99_mock_rayleigh_temporary",
    "Verif.Props.C99_mock_pyspectral_downloads"
   ],
   "note": ""
  },
  {
   "property": "C100",
   "status": "proved",
   "theorems": [
    "Verif.Props.C100_mock_rsr",
    "Verif.Props.C100_mock_tb_conversion",
    "Verif.Props.C100_mock_pyspectral_downloads"
   ],
   "note": ""
  },
  {
   "property": "C101",
   "status": "proved",
   "theorems": [
    "Verif.Props.C101_get_logger",
    "Verif.Props.C101_silent"
   ],
   "note": "Delivery of records by the logging module (levels, ancestors, handler of last resort) is stated in Spec/Logging.lean."
  },
  {
   "property": "C102",
   "status": "proved",
   "theorems": [
    "Verif.Props.C102_off_silences"
   ],
   "note": "Delivery of records by the logging module is stated in Spec/Logging.lean."
  },
  {
   "property": "C103",
   "status": "partial",
   "theorems": [
    "Verif.Props.C103_exactly",
    "Verif.Props.C103_nothing_after_on_off_on",
    "Verif.Props.C103_console_once_partial"
   ],
   "note": "The claim is false of the code after on, off, on (nothing is printed). Proved: the counterexample, the claim for histories without logging_off in between, and exactly which histories print; delivery of records by the logging module is stated in Spec/Logging.lean."
  },
  {
   "property": "C104",
   "status": "proved",
   "theorems": [
    "Verif.Props.C104_modis_samples",
    "Verif.Props.C104_modis_malformed"
   ],
   "note": "Number parsing is a parameter (any functions raising only ValueError)."
  },
  {
   "property": "C105",
   "status": "proved",
   "theorems": [
    "Verif.Props.C105_modis_band"
   ],
   "note": "np.argsort is a parameter with its contract (IsArgsort)."
  },
  {
   "property": "C106",
   "status": "proved",
   "theorems": [
    "Verif.Props.C106_modis_roundtrip"
   ],
   "note": "Storage as 32-bit float is an arbitrary function; the partial file left by a failing conversion is not modelled."
  },
  {
   "property": "C107",
   "status": "proved",
   "theorems": [
    "Verif.Props.C107_header",
    "Verif.Props.C107_detectors"
   ],
   "note": "Parsing of the table by np.genfromtxt and the writing of the VIIRS file are not modelled. The second way of reading (tables without a band column) selects columns by name and fails like C144."
  },
  {
   "property": "C108",
   "status": "proved",
   "theorems": [
    "Verif.Props.C108_same_samples",
    "Verif.Props.C108_ascending",
    "Verif.Props.C108_centrals",
    "Verif.Props.C108_other_space",
    "Verif.Props.C108_from_sheets"
   ],
   "note": ""
  },
  {
   "property": "C109",
   "status": "partial",
   "theorems": [
    "Verif.Props.C109_visible_channels_fail",
    "Verif.Props.C109_infrared_partial",
    "Verif.Props.C109_wavenumber_fails"
   ],
   "note": "The claim is false of the code: a workbook with any channel other than IR raises IndexError (numpy indexed by '95'; only ValueError is caught). Proved: that failure for every such workbook and satellite, the claim for workbooks with infrared channels only, and TypeError for objects by wavenumber."
  },
  {
   "property": "C110",
   "status": "proved",
   "theorems": [
    "Verif.Props.C110_wavenumber_tables"
   ],
   "note": ""
  },
  {
   "property": "C111",
   "status": "proved",
   "theorems": [
    "Verif.Props.C111_agri_samples"
   ],
   "note": ""
  },
  {
   "property": "C112",
   "status": "partial",
   "theorems": [
    "Verif.Props.C112_exactly",
    "Verif.Props.C112_same_column",
    "Verif.Props.C112_own_columns_partial"
   ],
   "note": "The claim is false of the code: ch4 and ch8 share column 4. Proved: that, and distinct columns for all other bands; ch4 and ch8 are the only such pair (C112_exactly)."
  },
  {
   "property": "C113",
   "status": "proved",
   "theorems": [
    "Verif.Props.C113_typo",
    "Verif.Props.C113_ascending",
    "Verif.Props.C113_idempotent"
   ],
   "note": ""
  },
  {
   "property": "C114",
   "status": "proved",
   "theorems": [
    "Verif.Props.C114_radiance_never_decreases",
    "Verif.Props.C114_radiance_never_decreases_wn"
   ],
   "note": "Numbers are those of any floating point arithmetic satisfying Base/FP.lean (monotone rounding to relative error 2^-52, accurate monotone exp and log); Base/Double.lean shows that IEEE double precision with a correctly rounded library is one. float32 arrays are not covered."
  },
  {
   "property": "C115",
   "status": "proved",
   "theorems": [
    "Verif.Props.C115_radiance_accuracy",
    "Verif.Props.C115_radiance_accuracy_wn"
   ],
   "note": "Numbers are those of any floating point arithmetic satisfying Base/FP.lean (monotone rounding to relative error 2^-52, accurate monotone exp and log); Base/Double.lean shows that IEEE double precision with a correctly rounded library is one. float32 arrays are not covered."
  },
  {
   "property": "C116",
   "status": "proved",
   "theorems": [
    "Verif.Props.C116_temperature_never_decreases",
    "Verif.Props.C116_temperature_never_decreases_wn"
   ],
   "note": "Numbers are those of any floating point arithmetic satisfying Base/FP.lean (monotone rounding to relative error 2^-52, accurate monotone exp and log); Base/Double.lean shows that IEEE double precision with a correctly rounded library is one. float32 arrays are not covered."
  },
  {
   "property": "C117",
   "status": "proved",
   "theorems": [
    "Verif.Props.C117_roundtrip_accuracy",
    "Verif.Props.C117_roundtrip_accuracy_wn",
    "Verif.Props.C117_thermal_infrared"
   ],
   "note": "Numbers are those of any floating point arithmetic satisfying Base/FP.lean (monotone rounding to relative error 2^-52, accurate monotone exp and log); Base/Double.lean shows that IEEE double precision with a correctly rounded library is one. float32 arrays are not covered."
  },
  {
   "property": "C118",
   "status": "proved",
   "theorems": [
    "Verif.Props.C118_band_radiance_never_decreases"
   ],
   "note": "Numbers are those of any floating point arithmetic satisfying Base/FP.lean (monotone rounding to relative error 2^-52, accurate monotone exp and log, sums of nonnegative numbers accurate and monotone); Base/Double.lean shows that IEEE double precision with a correctly rounded library is one. float32 arrays are not covered."
  },
  {
   "property": "C119",
   "status": "proved",
   "theorems": [
    "Verif.Props.C119_band_radiance_accuracy"
   ],
   "note": "Numbers are those of any floating point arithmetic satisfying Base/FP.lean (monotone rounding to relative error 2^-52, accurate monotone exp and log, sums of nonnegative numbers accurate and monotone); Base/Double.lean shows that IEEE double precision with a correctly rounded library is one. float32 arrays are not covered."
  },
  {
   "property": "C120",
   "status": "proved",
   "theorems": [
    "Verif.Props.C120_table_never_decreases"
   ],
   "note": "Numbers are those of any floating point arithmetic satisfying Base/FP.lean (monotone rounding to relative error 2^-52, accurate monotone exp and log, sums of nonnegative numbers accurate and monotone); Base/Double.lean shows that IEEE double precision with a correctly rounded library is one. float32 arrays are not covered."
  },
  {
   "property": "C121",
   "status": "proved",
   "theorems": [
    "Verif.Props.C121_seviri_radiance_never_decreases",
    "Verif.Props.C121_seviri_temperature_never_decreases"
   ],
   "note": "Numbers are those of any floating point arithmetic satisfying Base/FP.lean (monotone rounding to relative error 2^-52, accurate monotone exp and log); Base/Double.lean shows that IEEE double precision with a correctly rounded library is one. float32 arrays are not covered."
  },
  {
   "property": "C122",
   "status": "proved",
   "theorems": [
    "Verif.Props.C122_seviri_radiance_accuracy",
    "Verif.Props.C122_seviri_round_trip_accuracy"
   ],
   "note": "Numbers are those of any floating point arithmetic satisfying Base/FP.lean (monotone rounding to relative error 2^-52, accurate monotone exp and log); Base/Double.lean shows that IEEE double precision with a correctly rounded library is one. float32 arrays are not covered."
  },
  {
   "property": "C123",
   "status": "proved",
   "theorems": [
    "Verif.Props.C123_reflectance_never_decreases",
    "Verif.Props.C123_reflectance_never_decreases_with_table"
   ],
   "note": "Numbers are those of any floating point arithmetic satisfying Base/FP.lean (monotone rounding to relative error 2^-52, accurate monotone exp and log, sums of nonnegative numbers accurate and monotone); Base/Double.lean shows that IEEE double precision with a correctly rounded library is one. float32 arrays are not covered."
  },
  {
   "property": "C124",
   "status": "proved",
   "theorems": [
    "Verif.Props.C124_constructed_never_decreases",
    "Verif.Props.C124_constructed_table"
   ],
   "note": "Numbers are those of any floating point arithmetic satisfying Base/FP.lean (monotone rounding to relative error 2^-52, accurate monotone exp and log, sums of nonnegative numbers accurate and monotone); Base/Double.lean shows that IEEE double precision with a correctly rounded library is one. float32 arrays are not covered."
  },
  {
   "property": "C125",
   "status": "proved",
   "theorems": [
    "Verif.Props.C125_dry_run",
    "Verif.Props.C125_rsr_current",
    "Verif.Props.C125_all_types",
    "Verif.Props.C125_verbosity"
   ],
   "note": ""
  },
  {
   "property": "C126",
   "status": "proved",
   "theorems": [
    "Verif.Props.C126_all_ranges",
    "Verif.Props.C126_stops"
   ],
   "note": ""
  },
  {
   "property": "C127",
   "status": "partial",
   "theorems": [
    "Verif.Props.C127_previous_platform_again",
    "Verif.Props.C127_name_error",
    "Verif.Props.C127_own_data_partial"
   ],
   "note": "The claim is false of the code: if a platform carries none of the sensors, the previous platform is drawn again (NameError if it is the first). Proved: both failures, and the claim when every platform carries one of the sensors. RelativeSpectralResponse(platform, sensor) is a function parameter; axes and labels are not modelled."
  },
  {
   "property": "C128",
   "status": "proved",
   "theorems": [
    "Verif.Props.C128_range_covered",
    "Verif.Props.C128_never_ends"
   ],
   "note": ""
  },
  {
   "property": "C129",
   "status": "proved",
   "theorems": [
    "Verif.Props.C129_every_detector"
   ],
   "note": ""
  },
  {
   "property": "C130",
   "status": "partial",
   "theorems": [
    "Verif.Props.C130_no_curve",
    "Verif.Props.C130_fails",
    "Verif.Props.C130_empty_figure_partial"
   ],
   "note": "The claim is false of the code: det = detectors[0] indexes the keys of a dictionary, a TypeError. Proved: no curve is ever drawn, every wavelength at which a listed sensor has a band fails, and the program ends with an empty figure otherwise."
  },
  {
   "property": "C131",
   "status": "proved",
   "theorems": [
    "Verif.Props.C131_same_result",
    "Verif.Props.C131_failed_conversion_never_loads"
   ],
   "note": "Exceptions of Python; a process killed while HDF5 writes is not modelled. Creating and filling a data set is one step."
  },
  {
   "property": "C132",
   "status": "partial",
   "theorems": [
    "Verif.Props.C132_kept_partial",
    "Verif.Props.C132_old_file_lost",
    "Verif.Props.C132_false"
   ],
   "note": "The claim is false of the code: the file is opened for writing (emptied) before the bands are written. Proved: once all data are read, a failure always leaves a target that does not load, with a concrete history; the claim when the original data of some band cannot be read; other files are never touched."
  },
  {
   "property": "C133",
   "status": "partial",
   "theorems": [
    "Verif.Props.C133_split_partial",
    "Verif.Props.C133_ascending",
    "Verif.Props.C133_empty_section",
    "Verif.Props.C133_last_sample_lost"
   ],
   "note": "The claim is false of the code: the last line of the file is never read, and a section without samples makes its channel and all later ones empty (both proved). Proved: files of six non-empty sections, separated, with any last line after them. The rounding of the text written is not modelled."
  },
  {
   "property": "C134",
   "status": "partial",
   "theorems": [
    "Verif.Props.C134_columns",
    "Verif.Props.C134_rows_partial",
    "Verif.Props.C134_false",
    "Verif.Props.C134_no_response",
    "Verif.Props.C134_epic_first_row",
    "Verif.Props.C134_old_avhrr"
   ],
   "note": "The claim is false of the code: missing entries are dropped from each column by itself, so that pairs occur that are in no row (proved). Proved: what is stored for every pattern of gaps, and the claim when the same rows are missing in both columns."
  },
  {
   "property": "C135",
   "status": "proved",
   "theorems": [
    "Verif.Props.C135_msi_samples"
   ],
   "note": ""
  },
  {
   "property": "C136",
   "status": "proved",
   "theorems": [
    "Verif.Props.C136_named_places",
    "Verif.Props.C136_oli_samples",
    "Verif.Props.C136_places",
    "Verif.Props.C136_unknown"
   ],
   "note": "The 0-dimensional array numpy makes of a single kept sample is not modelled."
  },
  {
   "property": "C137",
   "status": "partial",
   "theorems": [
    "Verif.Props.C137_metimage_samples_partial",
    "Verif.Props.C137_missing_wavelength",
    "Verif.Props.C137_places"
   ],
   "note": "The claim is false of the code if a wavelength is missing: the data set of wavelengths then has one entry more than the responses (proved). Proved: the claim without missing wavelengths; masked netCDF values are not modelled."
  },
  {
   "property": "C138",
   "status": "proved",
   "theorems": [
    "Verif.Props.C138_script",
    "Verif.Props.C138_missing_old"
   ],
   "note": ""
  },
  {
   "property": "C139",
   "status": "proved",
   "theorems": [
    "Verif.Props.C139_fci"
   ],
   "note": ""
  },
  {
   "property": "C140",
   "status": "proved",
   "theorems": [
    "Verif.Props.C140_any_chunking",
    "Verif.Props.C140_table_gone"
   ],
   "note": "All dask arguments have the same blocks (dask aligns them); a mixture of numpy and dask arguments and dtype casts are not modelled. Holds for every number type, floating point included."
  },
  {
   "property": "C141",
   "status": "proved",
   "theorems": [
    "Verif.Props.C141_any_chunking"
   ],
   "note": "Tables with at least one radiance."
  },
  {
   "property": "C142",
   "status": "proved",
   "theorems": [
    "Verif.Props.C142_wavelength_only",
    "Verif.Props.C142_falls"
   ],
   "note": "The interpolator is assumed trilinear inside the grid, as for C65. That the file is the one opened inside the block is C99."
  },
  {
   "property": "C143",
   "status": "partial",
   "theorems": [
    "Verif.Props.C143_exactly",
    "Verif.Props.C143_dash_never_found",
    "Verif.Props.C143_not_found",
    "Verif.Props.C143_found_partial"
   ],
   "note": "The claim is false of the code: the writer drops only slashes from the instrument name, the reader also dashes, so files for mersi-rm, msu-gs (and any other name with a dash) are never opened (proved). Proved: exactly when the converted file is opened, and the claim for names without dash and upper-case letters. That h5py reads back what it wrote is a hypothesis."
  },
  {
   "property": "C144",
   "status": "partial",
   "theorems": [
    "Verif.Props.C144_samples_partial",
    "Verif.Props.C144_msugs_partial",
    "Verif.Props.C144_fails",
    "Verif.Props.C144_virr_never",
    "Verif.Props.C144_ami_type_error"
   ],
   "note": "The claim is false of the code: with numpy 1.20 or later genfromtxt(unpack=True, names=...) returns a list, so reading columns by name (AMI, AVHRR, COCTS, MERSI-2, VIRR) is a TypeError for every table, and VIRR objects are never made because the instrument is a list (proved). Proved: the claim for ABI, MERSI-3, MERSI-RM and MSU-GS. Parsing of the text is not modelled."
  },
  {
   "property": "C145",
   "status": "partial",
   "theorems": [
    "Verif.Props.C145_abi_keeps_partial",
    "Verif.Props.C145_warning_loses",
    "Verif.Props.C145_none_there_loses"
   ],
   "note": "The claim is false of the code: all these converters but ABI only log a warning, and the writer empties the file before it fails (proved for MERSI-3, MERSI-RM and AMI). Proved: the claim for ABI."
  },
  {
   "property": "C146",
   "status": "proved",
   "theorems": [
    "Verif.Props.C146_radiance_from_file",
    "Verif.Props.C146_local_file",
    "Verif.Props.C146_errors",
    "Verif.Props.C146_no_file"
   ],
   "note": "Exact arithmetic. The file is the one present when the reader has updated its data; downloading itself is C45-C49. In wavenumber space all curves of the file must be response curves, since all are converted. Temperatures above 1e-6 K."
  },
  {
   "property": "C147",
   "status": "proved",
   "theorems": [
    "Verif.Props.C147_reflectance_from_file"
   ],
   "note": "Exact arithmetic, finite pixels, wavelength space (in wavenumber space no Calculator can be made, C95). No table file yet (an old one is used as it is, C80); without table the arrays are one-dimensional (C97)."
  },
  {
   "property": "C148",
   "status": "proved",
   "theorems": [
    "Verif.Props.C148_pixels",
    "Verif.Props.C148_effective_from_file",
    "Verif.Props.C148_from_files",
    "Verif.Props.C148_no_response_file"
   ],
   "note": "Exact arithmetic. The interpolator of geotiepoints is assumed to be multilinear (IsMultilinear, as in C65); azimuth differences inside the table, effective wavelength strictly inside the range of the table (outside: C60). The response file is the one present; downloading is C45-C49."
  },
  {
   "property": "C149",
   "status": "partial",
   "theorems": [
    "Verif.Props.C149_roundtrip_partial",
    "Verif.Props.C149_missing_file_destroys",
    "Verif.Props.C149_first_band_unreadable",
    "Verif.Props.C149_new_numpy"
   ],
   "note": "The claim is false of the code with numpy 2, which has no alltrue: AttributeError as soon as M1 has two detectors, after the old file was emptied (proved). A missing file of a later band also destroys the old file (proved). Proved: the round trip with numpy 1, given a sample per detector, no missing wavelength in single-detector bands, and equally many distinct wavelengths per band if numpy raises for uneven arrays (1.25)."
  },
  {
   "property": "C150",
   "status": "proved",
   "theorems": [
    "Verif.Props.C150_slstr",
    "Verif.Props.C150_olci",
    "Verif.Props.C150_msugsa",
    "Verif.Props.C150_msugsa_other"
   ],
   "note": "Numbers are exact; missing values of netCDF files and pandas' handling of a sheet whose number of columns differs from the given names are not modelled."
  },
  {
   "property": "C151",
   "status": "partial",
   "theorems": [
    "Verif.Props.C151_samples_partial",
    "Verif.Props.C151_rest_dropped",
    "Verif.Props.C151_missing_sheet_loses"
   ],
   "note": "False of the code: rows after the 255th sample are dropped without a message (C151_rest_dropped), and a missing sheet only leaves `rsr` None, so the conversion fails after the old response file was emptied (C151_missing_sheet_loses). Proved: the first 255 samples are given, in order."
  },
  {
   "property": "C152",
   "status": "partial",
   "theorems": [
    "Verif.Props.C152_read_partial",
    "Verif.Props.C152_never_converts"
   ],
   "note": "False of the code: the band names are given to h5py as the values of a dictionary, which it refuses, so the conversion always fails and replaces the response file by one that does not load (C152_never_converts). Proved: the reader has the samples of rows 6 to 5453 of the last sheet of each band."
  },
  {
   "property": "C153",
   "status": "partial",
   "theorems": [
    "Verif.Props.C153_alone",
    "Verif.Props.C153_concurrent_partial",
    "Verif.Props.C153_complete_table",
    "Verif.Props.C153_race"
   ],
   "note": "The last part is false of the code: a process that finds the file while another one has only just opened it fails (C153_race). The rest is proved, and C153_alone shows that a process running alone does what the sequential model (C70-C81) does. Assumed: reading a shortened or zero-patched copy of the file raises or gives the table (the zip check sums); single bytes are read and written atomically."
  },
  {
   "property": "C154",
   "status": "partial",
   "theorems": [
    "Verif.Props.C154_alone",
    "Verif.Props.C154_current",
    "Verif.Props.C154_all_succeed_partial",
    "Verif.Props.C154_race",
    "Verif.Props.C154_marked_incomplete"
   ],
   "note": "The last two parts are false of the code: all processes use the same name for the archive, so one of two fails with FileNotFoundError when the other one removes it (C154_race), and with three a file can be left cut off under a current version, which no later check repairs (C154_marked_incomplete). The rest is proved, and C154_alone shows that a process running alone does what the sequential model (C45-C49) does. Assumed: an archive with missing or zero bytes that is read to its end without an error has the right members (check sum). Simplified: an archive is read completely before its members are written; the version line is read at once."
  },
  {
   "property": "C155",
   "status": "partial",
   "theorems": [
    "Verif.Props.C155_alone",
    "Verif.Props.C155_concurrent",
    "Verif.Props.C155_printed_partial",
    "Verif.Props.C155_race",
    "Verif.Props.C155_mixed",
    "Verif.Props.C155_get_logger",
    "Verif.Props.C155_get_logger_silent"
   ],
   "note": "the full claim is false of the code (C155_race, C155_mixed); C155_printed_partial and C155_concurrent are what holds under every schedule"
  },
  {
   "property": "C156",
   "status": "partial",
   "theorems": [
    "Verif.Props.C156_one_at_a_time_restored",
    "Verif.Props.C156_one_at_a_time_in_force",
    "Verif.Props.C156_alone",
    "Verif.Props.C156_restored_partial",
    "Verif.Props.C156_in_force_partial",
    "Verif.Props.C156_values",
    "Verif.Props.C156_race",
    "Verif.Props.C156_key_error",
    "Verif.Props.C156_race_temporary"
   ],
   "note": "the full claim is false of the code (C156_race, C156_key_error, C156_race_temporary); C156_restored_partial and C156_in_force_partial cover one overriding thread among others; C156_one_at_a_time_restored and C156_one_at_a_time_in_force cover any number of overriding threads whose blocks do not overlap"
  },
  {
   "property": "C157",
   "status": "proved",
   "theorems": [
    "Verif.Props.C157_reflectance_with_derived_flux",
    "Verif.Props.C157_inband_from_file"
   ],
   "note": "wavelength space; the spline is any function that gives a real function on these samples"
  },
  {
   "property": "C158",
   "status": "partial",
   "theorems": [
    "Verif.Props.C158_alone",
    "Verif.Props.C158_apart_partial",
    "Verif.Props.C158_tables_there_partial",
    "Verif.Props.C158_race"
   ],
   "note": "Proved for every schedule as long as no two processes have to fetch tables of the same aerosol type (any number may use tables that are current); then every finished process agrees with the sequential model, by an ownership argument (each process owns one directory and one address). False otherwise: C158_race gives a schedule in which one of two processes fails with FileNotFoundError, because the archive has one name per aerosol type and the other process removes it."
  },
  {
   "property": "C159",
   "status": "proved",
   "theorems": [
    "Verif.Props.C159_lookup",
    "Verif.Props.C159_reported",
    "Verif.Props.C159_known",
    "Verif.Props.C159_distinct",
    "Verif.Props.C159_metimage"
   ],
   "note": "The specification reads the numbers and letters of both names and does not use the tables. The METimage table (key 'VII', not reachable through an instrument name as the readers write it) is treated apart: its bands are numbered by increasing wavelength."
  },
  {
   "property": "C160",
   "status": "proved",
   "theorems": [
    "Verif.Props.C160_converted",
    "Verif.Props.C160_found",
    "Verif.Props.C160_no_fallback",
    "Verif.Props.C160_no_wavenumbers",
    "Verif.Props.C160_unknown_sheet_first"
   ],
   "note": "The theorem is about complete workbooks. Where the code does less than one would expect this is proved too: a missing workbook is not replaced by the one in the package (a misspelled attribute), responses by wavenumber can never be asked for (the method does not exist), and an unexpected sheet at the beginning makes the conversion fail after the NOAA-10 file has been destroyed."
  },
  {
   "property": "C161",
   "status": "proved",
   "theorems": [
    "Verif.Props.C161_agri",
    "Verif.Props.C161_unknown_band",
    "Verif.Props.C161_ghi",
    "Verif.Props.C161_slstr_txt",
    "Verif.Props.C161_epic",
    "Verif.Props.C161_goci2",
    "Verif.Props.C161_msi",
    "Verif.Props.C161_msi_platform",
    "Verif.Props.C161_fci",
    "Verif.Props.C161_agri_found"
   ],
   "note": "Model/OtherConvert.lean. Not modelled: the 0-dimensional array that numpy makes when exactly one sample of an AGRI or GHI table remains; the parsing of text, sheets and NetCDF files. EPIC and GOCI-2 are stated for rows complete or empty in both columns (C134 has the others)."
  },
  {
   "property": "C162",
   "status": "partial",
   "theorems": [
    "Verif.Props.C162_samples_partial",
    "Verif.Props.C162_far_samples_kept"
   ],
   "note": "Partial: false for ch1-ch3 (C162_far_samples_kept: every far sample with a response above 0.001 is handed on); proved for the other bands and for tables without far samples. FY-3B reads its columns as in C112."
  },
  {
   "property": "C163",
   "status": "proved",
   "theorems": [
    "Verif.Props.C163_central_wave_accuracy",
    "Verif.Props.C163_effective_wavelength_accuracy"
   ],
   "note": "Error bounds through the trapezoid sums (trapVal_near), the products and the quotient; the exact mean is a ratio of trapezoid integrals."
  },
  {
   "property": "C164",
   "status": "proved",
   "theorems": [
    "Verif.Props.C164_wavenumber_accuracy"
   ],
   "note": "Same structure as C20 with rounded arithmetic: monotone rounding gives the order, the error bound gives strictness."
  },
  {
   "property": "C165",
   "status": "proved",
   "theorems": [
    "Verif.Props.C165_table_within_a_step"
   ],
   "note": "Error bounds of table temperatures, scale and index; clipping at both ends."
  },
  {
   "property": "C166",
   "status": "proved",
   "theorems": [
    "Verif.Props.C166_reflectance_accuracy"
   ],
   "note": "Proved for every floating point arithmetic of Base/FP (instance: double precision)."
  },
  {
   "property": "C167",
   "status": "proved",
   "theorems": [
    "Verif.Props.C167_all_written",
    "Verif.Props.C167_stops_at_failure",
    "Verif.Props.C167_programs",
    "Verif.Props.C167_virr_never",
    "Verif.Props.C167_abi"
   ],
   "note": "The single-file programs of SEVIRI, AVHRR/1, VIIRS, MODIS and AHI are covered by their own properties."
  },
  {
   "property": "C168",
   "status": "proved",
   "theorems": [
    "Verif.Props.C168_curve",
    "Verif.Props.C168_errors",
    "Verif.Props.C168_program"
   ],
   "note": "One kept sample (numpy squeezes it to a 0-dimensional array) is outside the hypotheses. The wavelengths in the file are those of C50: the writer stores the responses in their place."
  },
  {
   "property": "C169",
   "status": "proved",
   "theorems": [
    "Verif.Props.C169_percentage",
    "Verif.Props.C169_relaxed",
    "Verif.Props.C169_reduced",
    "Verif.Props.C169_table"
   ],
   "note": "The interpolation in the angles (scipy/geotiepoints) is a parameter of the model; the percentage holds whatever it returns."
  },
  {
   "property": "C170",
   "status": "proved",
   "theorems": [
    "Verif.Props.C170_common_grid",
    "Verif.Props.C170_flux_accuracy"
   ],
   "note": "the band must be at least 0.6 steps wide (at most half a step is the failing case of C55)"
  },
  {
   "property": "C171",
   "status": "proved",
   "theorems": [
    "Verif.Props.C171_table_reflectance_accuracy"
   ],
   "note": ""
  },
  {
   "property": "C172",
   "status": "partial",
   "theorems": [
    "Verif.Props.C172_integer_radiances_partial",
    "Verif.Props.C172_integer_radiances_nan"
   ],
   "note": "Holds by wavenumber. False by wavelength: the wavelength is converted to the integer type of the radiances and becomes 0, so that every temperature is NaN, for every integer radiance and every wavelength below one metre (C172_integer_radiances_nan)."
  },
  {
   "property": "C173",
   "status": "partial",
   "theorems": [
    "Verif.Props.C173_integer_temperatures_partial",
    "Verif.Props.C173_integer_temperatures_zero"
   ],
   "note": "Proved when the table, the sunlight, the integral and the correction are whole numbers. False otherwise: with integer thermal temperatures and an integral below one (every band given by wavelengths) each reflectance is 0 or NaN, and 0 wherever the sunlight is at least 1 and the pixel is valid (C173_integer_temperatures_zero; example with 1/9 in floating point)."
  },
  {
   "property": "C174",
   "status": "proved",
   "theorems": [
    "Verif.Props.C174_integer_lookup"
   ],
   "note": ""
  },
  {
   "property": "C175",
   "status": "proved",
   "theorems": [
    "Verif.Props.C175_integer_wavenumbers"
   ],
   "note": ""
  },
  {
   "property": "C176",
   "status": "proved",
   "theorems": [
    "Verif.Props.C176_limb_correction_accuracy"
   ],
   "note": "Assumes of the power function that results between 1e-100 and 1e100 are right to the fraction 2^-50; proved of the double precision instance."
  },
  {
   "property": "C177",
   "status": "proved",
   "theorems": [
    "Verif.Props.C177_integral_accuracy"
   ],
   "note": ""
  },
  {
   "property": "C178",
   "status": "proved",
   "theorems": [
    "Verif.Props.C178_failure_stops",
    "Verif.Props.C178_resumed"
   ],
   "note": ""
  },
  {
   "property": "C179",
   "status": "proved",
   "theorems": [
    "Verif.Props.C179_emissive_accuracy"
   ],
   "note": "Composes C119 (band radiance) and C166 (reflectance) with the two roundings of the product."
  },
  {
   "property": "C180",
   "status": "proved",
   "theorems": [
    "Verif.Props.C180_unit",
    "Verif.Props.C180_table",
    "Verif.Props.C180_seviri_documented"
   ],
   "note": "Two defects are recorded: the unit is wrong when a table made with the other normalized argument is used, and the documented unit of SEVIRI radiances is not the one the formula needs."
  },
  {
   "property": "C181",
   "status": "proved",
   "theorems": [
    "Verif.Props.C181_converted",
    "Verif.Props.C181_converted_fails",
    "Verif.Props.C181_unknown_space"
   ],
   "note": "Records that wavespace and units are stale after the public method convert2wavenumber; wrong numbers are never returned by the in-band methods."
  },
  {
   "property": "C182",
   "status": "proved",
   "theorems": [
    "Verif.Props.C182_other_keywords_ignored",
    "Verif.Props.C182_selected",
    "Verif.Props.C182_documented_rural"
   ],
   "note": "C182_other_keywords_ignored compares two keyword dictionaries with the same atmosphere and aerosol_type; C182_selected gives the table file; C182_documented_rural is the documented call."
  },
  {
   "property": "C183",
   "status": "proved",
   "theorems": [
    "Verif.Props.C183_solar_constants"
   ],
   "note": "C183_solar_constants; the documented example (1366.091 and 1366077.16482) is an instance."
  },
  {
   "property": "C184",
   "status": "proved",
   "theorems": [
    "Verif.Props.C184_integrated_radiances"
   ],
   "note": "C184_integrated_radiances, from the file to the result; uses Planck's law per wavelength times wavelength squared being Planck's law per wavenumber."
  },
  {
   "property": "C185",
   "status": "proved",
   "theorems": [
    "Verif.Props.C185_central_waves",
    "Verif.Props.C185_convert",
    "Verif.Props.C185_documented_formula"
   ],
   "note": "C185_central_waves for curves, C185_convert for a reader, C185_documented_formula for the formula of the documentation."
  },
  {
   "property": "C186",
   "status": "proved",
   "theorems": [
    "Verif.Props.C186_there_and_back",
    "Verif.Props.C186_from_file"
   ],
   "note": "Exact arithmetic. planck_nearby bounds Planck's law at a nearby wavelength by Planck's law at a stretched temperature (convexity of exp). The bound (b/a)^4 is not claimed to be sharp."
  },
  {
   "property": "C187",
   "status": "proved",
   "theorems": [
    "Verif.Props.C187_band_by_wavelength",
    "Verif.Props.C187_default"
   ],
   "note": "Uses that differences of numbers within a factor of two are exact (Sterbenz), assumed of the arithmetic and proved for IEEE double (Double.rnd_sub)."
  },
  {
   "property": "C188",
   "status": "proved",
   "theorems": [
    "Verif.Props.C188_sort_data",
    "Verif.Props.C188_sorted",
    "Verif.Props.C188_full_width",
    "Verif.Props.C188_full_width_exact"
   ],
   "note": "A rounded difference is positive exactly if the difference is (fp_sub_pos), which needs gradual underflow: it follows from the exactness of differences within a factor of two."
  },
  {
   "property": "C189",
   "status": "proved",
   "theorems": [
    "Verif.Props.C189_by_wavelength",
    "Verif.Props.C189_by_wavenumber",
    "Verif.Props.C189_visible",
    "Verif.Props.C189_refused"
   ],
   "note": "Up to the figure: showing or saving it and the TeX settings are not modelled. matplotlib refusing None, unequal lengths and non-finite limits with ValueError is trusted."
  },
  {
   "property": "C190",
   "status": "proved",
   "theorems": [
    "Verif.Props.C190_made",
    "Verif.Props.C190_never_decreases",
    "Verif.Props.C190_table"
   ],
   "note": "C124 from the stored file on: scaling by the stored scale and 1e6 is included."
  },
  {
   "property": "C191",
   "status": "proved",
   "theorems": [
    "Verif.Props.C191_by_name",
    "Verif.Props.C191_by_wavelength"
   ],
   "note": "The flux must be that of the first detector (the default of inband_solarflux), also for a Calculator of another detector."
  },
  {
   "property": "C192",
   "status": "partial",
   "theorems": [
    "Verif.Props.C192_documented_file_partial",
    "Verif.Props.C192_fy3d_not_found"
   ],
   "note": "The claim is false of the code for one row: for FY-3D mersi-2 the documentation names rsr_mersi-2_FY-3D.h5, the reader opens rsr_mersi2_FY-3D.h5 (proved). Proved: the claim for the other 36 rows."
  },
  {
   "property": "C193",
   "status": "partial",
   "theorems": [
    "Verif.Props.C193_any_names_partial",
    "Verif.Props.C193_refused"
   ],
   "note": "Partial: the documentation allows any name without response data, but a platform known with several sensors refuses other sensor names, C193_refused (ValueError, e.g. Sentinel-3A with ufo)."
  },
  {
   "property": "C194",
   "status": "proved",
   "theorems": [
    "Verif.Props.C194_wave_range",
    "Verif.Props.C194_fails_iff"
   ],
   "note": "The samples are chosen by comparisons only, which are exact."
  },
  {
   "property": "C195",
   "status": "proved",
   "theorems": [
    "Verif.Props.C195_band_temperature",
    "Verif.Props.C195_emissive_temperature"
   ],
   "note": "Without look-up table (C171 covers the table's effect on the reflectance)."
  },
  {
   "property": "C196",
   "status": "proved",
   "theorems": [
    "Verif.Props.C196_bounds",
    "Verif.Props.C196_same",
    "Verif.Props.C196_ordered"
   ],
   "note": "numpy's cumsum adds in sequence. The order of the bounds can be reversed for a spike in one sample (C28)."
  },
  {
   "property": "C197",
   "status": "proved",
   "theorems": [
    "Verif.Props.C197_file_radiance"
   ],
   "note": "Without the look-up table. Exponents between 0.71 and 299; responses zero or between 1e-10 and 1e10; at most 2^20 samples."
  },
  {
   "property": "C198",
   "status": "proved",
   "theorems": [
    "Verif.Props.C198_converter",
    "Verif.Props.C198_calculator",
    "Verif.Props.C198_lookup",
    "Verif.Props.C198_flux",
    "Verif.Props.C198_programs"
   ],
   "note": "Defaults of the Rayleigh correction are in C66, of the solar step in C52, of the downloads in C67 and C125."
  },
  {
   "property": "C199",
   "status": "proved",
   "theorems": [
    "Verif.Props.C199_same_constant"
   ],
   "note": ""
  },
  {
   "property": "C200",
   "status": "proved",
   "theorems": [
    "Verif.Props.C200_solar_constant"
   ],
   "note": ""
  },
  {
   "property": "C201",
   "status": "partial",
   "theorems": [
    "Verif.Props.C201_files",
    "Verif.Props.C201_found_partial",
    "Verif.Props.C201_not_found"
   ],
   "note": "The claim is false of the code for the files of MERSI-1, MERSI-2, MERSI-RM, MSU-GS and MSU-GS/A, whose names keep a dash the reader drops: no reader for the platform opens them (proved). Proved: the names, directory and bands of all files, and the claim for the others. The VIRR program writes nothing (C167)."
  },
  {
   "property": "C202",
   "status": "partial",
   "theorems": [
    "Verif.Props.C202_numbers_partial",
    "Verif.Props.C202_renumbered",
    "Verif.Props.C202_tirs_unit"
   ],
   "note": "True of B1 to B5 (C202_numbers_partial). False of B6 to B9: they are made from the sheets of bands 9, 6, 7 and 8 of the provider (C202_renumbered). False of B10 and B11 if the column headed `wavelength [um]` is in micron as headed: the script divides it by 1000 as it does with the nanometres of OLI (C202_tirs_unit). The numbers of the provider are a table of the specification (`providerSheets`), not taken from the code."
  },
  {
   "property": "C203",
   "status": "proved",
   "theorems": [
    "Verif.Props.C203_roundtrip",
    "Verif.Props.C203_found"
   ],
   "note": "Samples without missing values (C137 treats those). 32-bit rounding is a parameter; masks of netCDF variables are not modelled."
  },
  {
   "property": "C204",
   "status": "partial",
   "theorems": [
    "Verif.Props.C204_unchanged_partial",
    "Verif.Props.C204_lacking_band_destroys",
    "Verif.Props.C204_no_file_destroys"
   ],
   "note": "True without a section in the configuration and when the first band is missing (C204_unchanged_partial). False when another band is missing (C204_lacking_band_destroys) and when there is no original file at all, which is only a warning until the response file is already emptied (C204_no_file_destroys)."
  },
  {
   "property": "C205",
   "status": "partial",
   "theorems": [
    "Verif.Props.C205_apart_partial",
    "Verif.Props.C205_only_own",
    "Verif.Props.C205_slstr_overwrites"
   ],
   "note": "True for every file but rsr_slstr_Sentinel-3B.h5 (C205_apart_partial); all other files of the disk are unchanged as well (C205_only_own). False for SLSTR on Sentinel-3B: slstr_rsr.py and slstr_rsr_txt.py make the same file, and the later run replaces what the earlier made (C205_slstr_overwrites). The programs with their own writers (MODIS, VIIRS, SEVIRI, METimage, AHI) are not among the 22."
  },
  {
   "property": "C206",
   "status": "proved",
   "theorems": [
    "Verif.Props.C206_same_result",
    "Verif.Props.C206_program",
    "Verif.Props.C206_found"
   ],
   "note": "Extends C106 (the content of the file) to the program and its files. The group of a detector is made in one step."
  },
  {
   "property": "C207",
   "status": "partial",
   "theorems": [
    "Verif.Props.C207_unchanged_partial",
    "Verif.Props.C207_missing_file_destroys",
    "Verif.Props.C207_terra_first"
   ],
   "note": "True without a section in the configuration and when the file of band 20 is missing (C207_unchanged_partial), and for the file of Aqua when the conversion for Terra fails (C207_terra_first). False when the file of any other band is missing: the response file is emptied before (C207_missing_file_destroys)."
  },
  {
   "property": "C208",
   "status": "partial",
   "theorems": [
    "Verif.Props.C208_infrared_partial",
    "Verif.Props.C208_visible_destroys",
    "Verif.Props.C208_found"
   ],
   "note": "True for workbooks with infrared channels only (C208_infrared_partial, C208_found). False for every workbook with a visible channel, as the published one: the program fails at Meteosat-8, whose previous response file is lost and replaced by one that cannot be read, and the other satellites are not converted (C208_visible_destroys)."
  },
  {
   "property": "C209",
   "status": "partial",
   "theorems": [
    "Verif.Props.C209_dask_partial",
    "Verif.Props.C209_numpy_raises",
    "Verif.Props.C209_get_correction_raises"
   ],
   "note": "True for dask arrays (C209_dask_partial: every pixel is the temperature plus the documented correction, as a float). False for numpy arrays: TypeError for every image, even one with nothing to correct, with the array left as it was (C209_numpy_raises, C209_get_correction_raises)."
  },
  {
   "property": "C210",
   "status": "partial",
   "theorems": [
    "Verif.Props.C210_floats_partial",
    "Verif.Props.C210_integers_no_correction",
    "Verif.Props.C210_floats_positive"
   ],
   "note": "True when the red band (without one: the sun zenith angles) has floating point numbers; the element types of the other arrays do not matter (C210_floats_partial), and the correction is then positive (C210_floats_positive). False with integers there: the table itself is converted to integers, so the correction is zero at every pixel, if the interpolator does not refuse (C210_integers_no_correction)."
  },
  {
   "property": "C211",
   "status": "partial",
   "theorems": [
    "Verif.Props.C211_unchanged_partial",
    "Verif.Props.C211_mixed",
    "Verif.Props.C211_next_success"
   ],
   "note": "False of the code. C211_mixed: after a success, a call of as many pixels with a wrong number of sun zenith angles raises ValueError but has already replaced the radiances; the emissive part then combines the new radiances with the old reflectances and belongs to neither scene (a concrete pair is shown). C211_unchanged_partial: calls that fail earlier leave the whole object as it was. C211_next_success: after any history of calls, failed or not, the next successful retrieval and its emissive part are those of an object on which no call was made."
  }
 ]
}
