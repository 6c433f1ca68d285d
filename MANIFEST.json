{
 "claims": [
  {
   "property": "C01",
   "status": "proved",
   "theorems": [
    "PyroMat.Units.Props.C01_roundtrip",
    "PyroMat.Units.Props.C01_roundtrip_user"
   ],
   "note": ""
  },
  {
   "property": "C02",
   "status": "proved",
   "theorems": [
    "PyroMat.Units.Props.C02_path_independent"
   ],
   "note": ""
  },
  {
   "property": "C03",
   "status": "partial",
   "theorems": [
    "PyroMat.Units.Props.C03_exponent_partial",
    "PyroMat.Units.Props.C03_exponent_zero_defect"
   ],
   "note": "exponent=0 is treated as no exponent (C03_exponent_zero_defect)."
  },
  {
   "property": "C04",
   "status": "proved",
   "theorems": [
    "PyroMat.Units.Props.C04_factors_positive",
    "PyroMat.Units.Props.C04_names_distinct",
    "PyroMat.Units.Props.C04_length_time",
    "PyroMat.Units.Props.C04_mass_force",
    "PyroMat.Units.Props.C04_molar",
    "PyroMat.Units.Props.C04_energy_volume",
    "PyroMat.Units.Props.C04_volume_is_length_cubed",
    "PyroMat.Units.Props.C04_pressure",
    "PyroMat.Units.Props.C04_temperature"
   ],
   "note": ""
  },
  {
   "property": "C05",
   "status": "proved",
   "theorems": [
    "PyroMat.Units.Props.C05_matter_roundtrip",
    "PyroMat.Units.Props.C05_matter_path_independent",
    "PyroMat.Units.Props.C05_kmol_is_mw_kg",
    "PyroMat.Units.Props.C05_matter_exponent"
   ],
   "note": ""
  },
  {
   "property": "C06",
   "status": "partial",
   "theorems": [
    "PyroMat.Units.Props.C06_unknown_unit_partial",
    "PyroMat.Units.Props.C06_same_unknown_unit_defect",
    "PyroMat.Units.Props.C06_temperature_scale_defect",
    "PyroMat.Units.Props.C06_matter_unknown",
    "PyroMat.Units.Props.C06_ismass"
   ],
   "note": "Equal unlisted names are accepted; temperature_scale accepts any name as Kelvin (two defect theorems)."
  },
  {
   "property": "C07",
   "status": "proved",
   "theorems": [
    "PyroMat.Units.Props.C07_scale_roundtrip",
    "PyroMat.Units.Props.C07_scale_path_independent",
    "PyroMat.Units.Props.C07_scale_denotes_same_temperature",
    "PyroMat.Units.Props.C07_abs_roundtrip"
   ],
   "note": ""
  },
  {
   "property": "C08",
   "status": "proved",
   "theorems": [
    "PyroMat.Units.Props.C08_difference"
   ],
   "note": ""
  },
  {
   "property": "C09",
   "status": "proved",
   "theorems": [
    "PyroMat.Units.Props.C09_gauge_abs"
   ],
   "note": ""
  },
  {
   "property": "C10",
   "status": "proved",
   "theorems": [
    "PyroMat.Units.Props.C10_conversion_inplace",
    "PyroMat.Units.Props.C10_temperature_scale_inplace",
    "PyroMat.Units.Props.C10_gauge_inplace",
    "PyroMat.Units.Props.C10_matter_inplace",
    "PyroMat.Units.Props.C10_same_unit_alias_defect"
   ],
   "note": "Value and mutation contract proved for all conversion routines; with equal units the returned object is the caller's own (C10_same_unit_alias_defect)."
  },
  {
   "property": "C11",
   "status": "proved",
   "theorems": [
    "PyroMat.Config.Props.C11_readonly",
    "PyroMat.Config.Props.C11_install_dir_version"
   ],
   "note": ""
  },
  {
   "property": "C12",
   "status": "proved",
   "theorems": [
    "PyroMat.Config.Props.C12_append_only",
    "PyroMat.Config.Props.C12_restore_appended",
    "PyroMat.Config.Props.C12_append_exact"
   ],
   "note": ""
  },
  {
   "property": "C13",
   "status": "proved",
   "theorems": [
    "PyroMat.Config.Props.C13_fixed_parameters",
    "PyroMat.Config.Props.C13_update_stops"
   ],
   "note": ""
  },
  {
   "property": "C14",
   "status": "proved",
   "theorems": [
    "PyroMat.Config.Props.C14_typed",
    "PyroMat.Config.Props.C14_untyped_entry_defect"
   ],
   "note": ""
  },
  {
   "property": "C15",
   "status": "partial",
   "theorems": [
    "PyroMat.Config.Props.C15_rejected_unchanged_partial",
    "PyroMat.Config.Props.C15_rejected_reported",
    "PyroMat.Config.Props.C15_accepted",
    "PyroMat.Config.Props.C15_others_untouched",
    "PyroMat.Config.Props.C15_partial_append_defect",
    "PyroMat.Config.Props.C15_readonly_write_is_silent"
   ],
   "note": "A rejected list assigned to an appended parameter keeps the elements before the bad one (C15_partial_append_defect)."
  },
  {
   "property": "C16",
   "status": "partial",
   "theorems": [
    "PyroMat.Config.Props.C16_load",
    "PyroMat.Config.Props.C16_last_file_wins",
    "PyroMat.Config.Props.C16_import_time_defect"
   ],
   "note": "Holds once pm.config exists; during import a repeated reference raises AttributeError (C16_import_time_defect)."
  },
  {
   "property": "C17",
   "status": "partial",
   "theorems": [
    "PyroMat.Config.Props.C17_restore_partial",
    "PyroMat.Config.Props.C17_restore_all_defect",
    "PyroMat.Config.Props.C17_restore_all_witness"
   ],
   "note": "restore_default() without argument raises AttributeError and restores nothing (C17_restore_all_defect)."
  },
  {
   "property": "C18",
   "status": "proved",
   "theorems": [
    "PyroMat.Config.Defaults.C18_def_T",
    "PyroMat.Config.Defaults.C18_def_T_reconfigure",
    "PyroMat.Config.Defaults.C18_def_p_reconfigure"
   ],
   "note": ""
  },
  {
   "property": "C19",
   "status": "partial",
   "theorems": [
    "PyroMat.Text.Props.C19_minus_one",
    "PyroMat.Text.Props.C19_wrap_partial",
    "PyroMat.Text.Props.C19_wrap_one_paragraph",
    "PyroMat.Text.Props.C19_double_lead_defect",
    "PyroMat.Text.Props.C19_second_paragraph_defect",
    "PyroMat.Text.Props.C19_blank_line_defect"
   ],
   "note": "Single paragraph fully proved (width, words preserved, lead). Three defects shown: lead doubled after a paragraph break, second paragraph's first line, blank line handling."
  },
  {
   "property": "C20",
   "status": "proved",
   "theorems": [
    "PyroMat.Data.Props.C20_wrong_form",
    "PyroMat.Data.Props.C20_suppress_revive",
    "PyroMat.Data.Props.C20_missing",
    "PyroMat.Data.Props.C20_overwrite_defect",
    "PyroMat.Data.Props.C20_suppressed_not_read"
   ],
   "note": "Suppressing over an existing x.hpd~ destroys it (C20_overwrite_defect); the inverse law has the target-free hypothesis."
  },
  {
   "property": "C21",
   "status": "proved",
   "theorems": [
    "PyroMat.Data.Props.C21_precedence",
    "PyroMat.Data.Props.C21_listing_order_irrelevant"
   ],
   "note": ""
  },
  {
   "property": "C22",
   "status": "proved",
   "theorems": [
    "PyroMat.Data.Props.C22_exist_fatal"
   ],
   "note": ""
  },
  {
   "property": "C23",
   "status": "partial",
   "theorems": [
    "PyroMat.Data.Props.C23_check_changes_nothing",
    "PyroMat.Data.Props.C23_check_report",
    "PyroMat.Data.Props.C23_keys_distinct",
    "PyroMat.Data.Props.C23_clean_after_load_partial",
    "PyroMat.Data.Props.C23_changed_defect",
    "PyroMat.Data.Props.C23_unknown_class_defect"
   ],
   "note": "Report characterised exactly. 'changed' compares with the first file of a duplicate id (C23_changed_defect); unknown classes raise in check mode (C23_unknown_class_defect); clean-after-load holds when no id is duplicated."
  },
  {
   "property": "C24",
   "status": "partial",
   "theorems": [
    "PyroMat.Data.Props.C24_origin",
    "PyroMat.Data.Props.C24_malformed_ignored",
    "PyroMat.Data.Props.C24_no_recursion_partial",
    "PyroMat.Data.Props.C24_recursion_defect"
   ],
   "note": "A directory named x.hpd is entered even with recursion off (C24_recursion_defect)."
  },
  {
   "property": "C25",
   "status": "proved",
   "theorems": [
    "PyroMat.Data.Props.C25_get",
    "PyroMat.Data.Props.C25_get_after_load"
   ],
   "note": ""
  },
  {
   "property": "C26",
   "status": "partial",
   "theorems": [
    "PyroMat.Registry.Props.C26_search",
    "PyroMat.Registry.Props.C26_no_criteria",
    "PyroMat.Registry.Props.C26_refine",
    "PyroMat.Registry.Props.C26_collection_defect",
    "PyroMat.Registry.Props.C26_collection_method"
   ],
   "note": "collection= accepts any beginning of the identifier (C26_collection_defect)."
  },
  {
   "property": "C27",
   "status": "proved",
   "theorems": [
    "PyroMat.Registry.Props.C27_precedence",
    "PyroMat.Registry.Props.C27_exist_fatal",
    "PyroMat.Registry.Props.C27_ignored",
    "PyroMat.Registry.Props.C27_listing_order_defect",
    "PyroMat.Registry.Props.C27_listing_order_irrelevant"
   ],
   "note": "Within one directory precedence depends on the OS listing order (C27_listing_order_defect)."
  },
  {
   "property": "C28",
   "status": "partial",
   "theorems": [
    "PyroMat.Registry.Props.C28_canonical",
    "PyroMat.Registry.Props.C28_hill_partial",
    "PyroMat.Registry.Props.C28_charge_defect"
   ],
   "note": "Charge of magnitude above one raises (C28_charge_defect); everything else proved."
  },
  {
   "property": "C29",
   "status": "partial",
   "theorems": [
    "PyroMat.Gas.Props.C29_rejects",
    "PyroMat.Gas.Props.C29_single_energy_defect",
    "PyroMat.Gas.Props.C29_accepts",
    "PyroMat.Gas.Props.C29_keyword_order",
    "PyroMat.Gas.Props.C29_defaults",
    "PyroMat.Gas.Props.C29_positional"
   ],
   "note": "Exact acceptance rule proved, except that a single h= or e= argument is always rejected (C29_single_energy_defect)."
  },
  {
   "property": "C30",
   "status": "partial",
   "theorems": [
    "PyroMat.Gas.Props.C30_state",
    "PyroMat.Gas.Props.C30_given_enthalpy",
    "PyroMat.Gas.Props.C30_given_energy",
    "PyroMat.Gas.Props.C30_given_entropy_pressure_partial",
    "PyroMat.Gas.Props.C30_given_entropy_density",
    "PyroMat.Gas.Props.C30_shared_entropy_defect",
    "PyroMat.Gas.Props.C30_short_hand",
    "PyroMat.Gas.Props.C30_slopes",
    "PyroMat.Gas.Props.C30_ideal_gas_law",
    "PyroMat.Gas.Props.C30_given_pressure",
    "PyroMat.Gas.Props.C30_given_temperature",
    "PyroMat.Gas.Props.C30_given_density",
    "PyroMat.Gas.Props.C30_given_volume"
   ],
   "note": "Ideal-gas law, and every given property reproduced (T, p, d, v exactly; h, e, s within the stated bound, which counts jumps between fit pieces); state() agrees with the methods. A single s with several p fails (C30_shared_entropy_defect)."
  },
  {
   "property": "C31",
   "status": "proved",
   "theorems": [
    "PyroMat.Gas.Props.C31_identities",
    "PyroMat.Gas.Props.C31_derivatives"
   ],
   "note": "h,s,g,f,e identities and derivative relations at the user level for every Shomate data entry."
  },
  {
   "property": "C32",
   "status": "proved",
   "theorems": [
    "PyroMat.Gas.Props.C32_identities",
    "PyroMat.Gas.Props.C32_derivatives"
   ],
   "note": "Same for the NASA polynomials."
  },
  {
   "property": "C33",
   "status": "proved",
   "theorems": [
    "PyroMat.Gas.Props.C33_partition",
    "PyroMat.Gas.Props.C33_evaluation"
   ],
   "note": ""
  },
  {
   "property": "C34",
   "status": "proved",
   "theorems": [
    "PyroMat.Gas.Props.C34_limits",
    "PyroMat.Gas.Props.C34_returned_temperature",
    "PyroMat.Gas.Props.C34_elementwise",
    "PyroMat.Gas.Props.C34_all_out"
   ],
   "note": "Ideal-gas classes. Array calls equal the scalar calls element by element; out-of-range elements become NaN; a call raises only when all elements are out of range. One entropy with several pressures is excluded (C30_shared_entropy_defect)."
  },
  {
   "property": "C35",
   "status": "proved",
   "theorems": [
    "PyroMat.Gas.Props.C35_in_bounds",
    "PyroMat.Gas.Props.C35_accurate",
    "PyroMat.Gas.Props.C35_never_nan",
    "PyroMat.Gas.Props.C35_returned_value_accurate",
    "PyroMat.Gas.Props.C35_elementwise",
    "PyroMat.Gas.Props.C35_example",
    "PyroMat.Gas.Props.C35_zero_target"
   ],
   "note": ""
  },
  {
   "property": "C36",
   "status": "proved",
   "theorems": [
    "PyroMat.Gas.Props.C36_pressure_change",
    "PyroMat.Gas.Props.C36_round_trip",
    "PyroMat.Gas.Props.C36_given_entropy"
   ],
   "note": "p(s,T) inverts s(T,p) exactly; entropy falls by R ln(p2/p1)."
  },
  {
   "property": "C37",
   "status": "partial",
   "theorems": [
    "PyroMat.Gas.Props.C37_constants",
    "PyroMat.Gas.Props.C37_T_default_defect",
    "PyroMat.Gas.Props.C37_unit_independence"
   ],
   "note": "Holds for every pair of properties and every unit system, and for the constants; T() with one argument uses the stored default pressure unconverted (C37_T_default_defect)."
  },
  {
   "property": "C38",
   "status": "proved",
   "theorems": [
    "PyroMat.Gas.Props.C38_atoms",
    "PyroMat.Gas.Props.C38_usable",
    "PyroMat.Gas.Props.C38_fractions",
    "PyroMat.Gas.Props.C38_molecular_weight",
    "PyroMat.Gas.Props.C38_limits",
    "PyroMat.Gas.Props.C38_means",
    "PyroMat.Gas.Props.C38_partial_pressures",
    "PyroMat.Gas.Props.C38_mixing_entropy",
    "PyroMat.Gas.Props.C38_identities",
    "PyroMat.Gas.Props.C38_derivatives"
   ],
   "note": "For positive amounts: fractions, molecular weight, limits, mole-weighted sums, entropy at partial pressures, non-negative mixing entropy, identities, derivatives and atoms of the mixture. Zero amounts and unknown constituents are C64 and C65."
  },
  {
   "property": "C39",
   "status": "partial",
   "theorems": [
    "PyroMat.Igt.Props.C39_add_partial",
    "PyroMat.Igt.Props.C39_iadd",
    "PyroMat.Igt.Props.C39_distinct",
    "PyroMat.Igt.Props.C39_comm",
    "PyroMat.Igt.Props.C39_assoc",
    "PyroMat.Igt.Props.C39_neg",
    "PyroMat.Igt.Props.C39_sub",
    "PyroMat.Igt.Props.C39_rsub",
    "PyroMat.Igt.Props.C39_sub_add",
    "PyroMat.Igt.Props.C39_scale",
    "PyroMat.Igt.Props.C39_scale_array",
    "PyroMat.Igt.Props.C39_divide",
    "PyroMat.Igt.Props.C39_distrib",
    "PyroMat.Igt.Props.C39_rank_defect",
    "PyroMat.Igt.Props.C39_scale_defect",
    "PyroMat.Igt.Props.C39_failed_iadd_defect"
   ],
   "note": "Proved for operands of equal rank and axis-wise compatible shapes. Different ranks are added along the wrong axis or refused (C39_rank_defect); multiplying by an array of higher rank and failing in-place addition also disagree (C39_scale_defect, C39_failed_iadd_defect)."
  },
  {
   "property": "C40",
   "status": "partial",
   "theorems": [
    "PyroMat.Igt.Props.C40_molar",
    "PyroMat.Igt.Props.C40_mass_partial",
    "PyroMat.Igt.Props.C40_mass_moles_partial",
    "PyroMat.Igt.Props.C40_mw_defect",
    "PyroMat.Igt.Props.C40_mass_additive",
    "PyroMat.Igt.Props.C40_molar_additive",
    "PyroMat.Igt.Props.C40_atoms",
    "PyroMat.Igt.Props.C40_atoms_additive",
    "PyroMat.Igt.Props.C40_mass_defect"
   ],
   "note": "Moles, atoms and additivity proved in full. mass() uses molecular weights in configured units against amounts in kmol, so it is right only when unit_mass/unit_molar is the kg/kmol ratio (C40_mass_defect). mw() raises KeyError when a constituent is itself an igmix substance (C40_mw_defect)."
  },
  {
   "property": "C41",
   "status": "proved",
   "theorems": [
    "PyroMat.Igt.Props.C41_mole",
    "PyroMat.Igt.Props.C41_mass",
    "PyroMat.Igt.Props.C41_each_other",
    "PyroMat.Igt.Props.C41_scale"
   ],
   "note": ""
  },
  {
   "property": "C42",
   "status": "partial",
   "theorems": [
    "PyroMat.Igt.Props.C42_same_rank_partial",
    "PyroMat.Igt.Props.C42_numpy_same_rank_partial",
    "PyroMat.Igt.Props.C42_rank_defect"
   ],
   "note": "Equal rank proved; for different ranks the shape is padded on the wrong side (C42_rank_defect)."
  },
  {
   "property": "C43",
   "status": "partial",
   "theorems": [
    "PyroMat.Igt.Props.C43_limits_partial",
    "PyroMat.Igt.Props.C43_hull_defect"
   ],
   "note": "Tlim is the hull of the component ranges, not their intersection (C43_hull_defect); C43_limits_partial characterises it."
  },
  {
   "property": "C44",
   "status": "partial",
   "theorems": [
    "PyroMat.Igt.Props.C44_parse_partial",
    "PyroMat.Igt.Props.C44_bad_quantity",
    "PyroMat.Igt.Props.C44_repeated_name_defect",
    "PyroMat.Igt.Props.C44_exponent_defect",
    "PyroMat.Igt.Props.C44_empty_defect"
   ],
   "note": "Every well-written string with distinct names and plain decimal quantities is parsed exactly. Repeated names, exponent notation and the empty string disagree (three defect theorems). str.isalpha, str.strip's blanks and float are parameters."
  },
  {
   "property": "C45",
   "status": "partial",
   "theorems": [
    "PyroMat.Igt.Props.C45_set_get",
    "PyroMat.Igt.Props.C45_absent",
    "PyroMat.Igt.Props.C45_same_row",
    "PyroMat.Igt.Props.C45_insert",
    "PyroMat.Igt.Props.C45_remove",
    "PyroMat.Igt.Props.C45_construct",
    "PyroMat.Igt.Props.C45_todict_roundtrip",
    "PyroMat.Igt.Props.C45_element_assignment_defect",
    "PyroMat.Igt.Props.C45_position_assignment_defect",
    "PyroMat.Igt.Props.C45_slice_defect",
    "PyroMat.Igt.Props.C45_insert_units_defect",
    "PyroMat.Igt.Props.C45_listing",
    "PyroMat.Igt.Props.C45_items_partial",
    "PyroMat.Igt.Props.C45_items_units_defect"
   ],
   "note": "Set/get, insert, remove, construction, dictionary round trip and listings proved for whole-row access by substance name. Element assignment through tuples, assignment by position, slices, unit handling of insert and of items disagree (five defect theorems)."
  },
  {
   "property": "C46",
   "status": "proved",
   "theorems": [
    "PyroMat.Mp.Props.C46_poly1",
    "PyroMat.Mp.Props.C46_value",
    "PyroMat.Mp.Props.C46_order"
   ],
   "note": "Value and both derivatives for every sorted coefficient list; lower orders."
  },
  {
   "property": "C47",
   "status": "partial",
   "theorems": [
    "PyroMat.Mp.Props.C47_poly2_partial",
    "PyroMat.Mp.Props.C47_value",
    "PyroMat.Mp.Props.C47_order",
    "PyroMat.Mp.Props.C47_pre_exponent_defect"
   ],
   "note": "Derivatives proved when no group has x pre-exponent 1 with another y pre-exponent (true of all shipped data); value always; C47_pre_exponent_defect shows the excluded case is wrong."
  },
  {
   "property": "C48",
   "status": "proved",
   "theorems": [
    "PyroMat.Mp.Props.C48_ideal_part",
    "PyroMat.Mp.Props.C48_order"
   ],
   "note": "All coefficient data, positive arguments."
  },
  {
   "property": "C49",
   "status": "partial",
   "theorems": [
    "PyroMat.Mp.Props.C49_residual_analytic",
    "PyroMat.Mp.Props.C49_residual_partial",
    "PyroMat.Mp.Props.C49_value",
    "PyroMat.Mp.Props.C49_order",
    "PyroMat.Mp.Props.C49_elementwise_partial",
    "PyroMat.Mp.Props.C49_mixed_defect",
    "PyroMat.Mp.Props.C49_array_defect"
   ],
   "note": "Full for data without non-analytic terms. With them: the mixed derivative is wrong (C49_mixed_defect) and elements below the critical density are wrong when another array element is near it (C49_array_defect); everything else proved."
  },
  {
   "property": "C50",
   "status": "partial",
   "theorems": [
    "PyroMat.Mp.Props.C50_nonanalytic_partial",
    "PyroMat.Mp.Props.C50_pressure_entropy",
    "PyroMat.Mp.Props.C50_combinations",
    "PyroMat.Mp.Props.C50_derivatives",
    "PyroMat.Mp.Props.C50_cv",
    "PyroMat.Mp.Props.C50_cp",
    "PyroMat.Mp.Props.C50_sound",
    "PyroMat.Mp.Props.C50_code",
    "PyroMat.Mp.Props.C50_mixed_defect"
   ],
   "note": "Formulas right whenever the Helmholtz routines return right derivatives and both parts share a temperature scale (all shipped data); without non-analytic terms they do. With them the pressure slope, cp and speed of sound are wrong (C50_mixed_defect), the rest is right off the critical density (C50_nonanalytic_partial)."
  },
  {
   "property": "C51",
   "status": "partial",
   "theorems": [
    "PyroMat.Mp.Props.C51_quality_density",
    "PyroMat.Mp.Props.C51_density_quality",
    "PyroMat.Mp.Props.C51_negative_quality_defect",
    "PyroMat.Mp.Props.C51_quality_range",
    "PyroMat.Mp.Props.C51_lever",
    "PyroMat.Mp.Props.C51_reciprocal",
    "PyroMat.Mp.Props.C51_single_phase",
    "PyroMat.Mp.Props.C51_ends",
    "PyroMat.Mp.Props.C51_code_solvers"
   ],
   "note": "Every call form, every unit system, any number of states. The bounds on iterated temperatures (hypothesis Bounded) are proved for the code's own inversions (C51_code_solvers). A negative quality given with T and p is passed through (C51_negative_quality_defect)."
  },
  {
   "property": "C52",
   "status": "partial",
   "theorems": [
    "PyroMat.Mp.Props.C52_in_bracket",
    "PyroMat.Mp.Props.C52_never_outside",
    "PyroMat.Mp.Props.C52_bracket",
    "PyroMat.Mp.Props.C52_reports",
    "PyroMat.Mp.Props.C52_elementwise",
    "PyroMat.Mp.Props.C52_answers",
    "PyroMat.Mp.Props.C52_endpoint_defect",
    "PyroMat.Mp.Props.C52_nan_defect"
   ],
   "note": "Every function, derivative and bracket. Two edge cases fail: a target equal to the value at the lower limit is refused (C52_endpoint_defect), and a stationary end point can yield NaN silently (C52_nan_defect)."
  },
  {
   "property": "C53",
   "status": "proved",
   "theorems": [
    "PyroMat.Mp.Props.C53_accurate"
   ],
   "note": "All continuous functions, any derivative values."
  },
  {
   "property": "C54",
   "status": "partial",
   "theorems": [
    "PyroMat.Mp.Props.C54_rejects",
    "PyroMat.Mp.Props.C54_accepts",
    "PyroMat.Mp.Props.C54_defaults",
    "PyroMat.Mp.Props.C54_quality_defect"
   ],
   "note": "Acceptance and rejection decided for every argument list. The documentation allows e, h, s with x, which is always refused (C54_quality_defect); e and h with T are accepted although not documented."
  },
  {
   "property": "C55",
   "status": "partial",
   "theorems": [
    "PyroMat.Mp.Props.C55_rejects_T",
    "PyroMat.Mp.Props.C55_rejects_p",
    "PyroMat.Mp.Props.C55_rejects_both",
    "PyroMat.Mp.Props.C55_defaults",
    "PyroMat.Mp.Props.C55_answers_T",
    "PyroMat.Mp.Props.C55_answers_p",
    "PyroMat.Mp.Props.C55_quality_T",
    "PyroMat.Mp.Props.C55_quality_p",
    "PyroMat.Mp.Props.C55_quality_T_defect",
    "PyroMat.Mp.Props.C55_quality_p_defect"
   ],
   "note": "Every saturation method, unit system, scalar or array, default argument included. Quality with a temperature or pressure above critical is refused too; below the triple point it is accepted (two defect theorems)."
  },
  {
   "property": "C56",
   "status": "proved",
   "theorems": [
    "PyroMat.Mp.Props.C56_satfit",
    "PyroMat.Mp.Props.C56_order",
    "PyroMat.Mp.Props.C56_value",
    "PyroMat.Mp.Props.C56_unsupported",
    "PyroMat.Mp.Props.C56_saturation",
    "PyroMat.Mp.Props.C56_saturation_value"
   ],
   "note": "Four supported forms, and the scaled saturation pressure and densities, strictly below the critical scale; value everywhere."
  },
  {
   "property": "C57",
   "status": "partial",
   "theorems": [
    "PyroMat.Solve.Props.C57_answer_partial",
    "PyroMat.Solve.Props.C57_limits_partial",
    "PyroMat.Solve.Props.C57_projected",
    "PyroMat.Solve.Props.C57_construct",
    "PyroMat.Solve.Props.C57_target",
    "PyroMat.Solve.Props.C57_passes",
    "PyroMat.Solve.Props.C57_line",
    "PyroMat.Solve.Props.C57_silent_defect",
    "PyroMat.Solve.Props.C57_limits_defect",
    "PyroMat.Solve.Props.C57_perturbation_defect",
    "PyroMat.Solve.Props.C57_start_keyword_defect",
    "PyroMat.Solve.Props.C57_zero_iterations_defect",
    "PyroMat.Solve.Props.C57_np_float_defect"
   ],
   "note": "A returned number is a matched evaluation or the silent 0; evaluations stay within the limits when Newton steps do. Silent non-convergence, backing up outside the limits, the perturbed evaluation, the extra keyword, max_iter=0 and np.float are shown as defects."
  },
  {
   "property": "C58",
   "status": "proved",
   "theorems": [
    "PyroMat.Solve.Props.C58_accepted",
    "PyroMat.Solve.Props.C58_rejected",
    "PyroMat.Solve.Props.C58_length",
    "PyroMat.Solve.Props.C58_element",
    "PyroMat.Solve.Props.C58_first",
    "PyroMat.Solve.Props.C58_elementwise"
   ],
   "note": "Acceptance, length, element values and elementwise agreement with separate calls, for any number of keywords and lengths."
  },
  {
   "property": "C59",
   "status": "proved",
   "theorems": [
    "PyroMat.If97.Props.C59_exact",
    "PyroMat.If97.Props.C59_correct",
    "PyroMat.If97.Props.C59_orders"
   ],
   "note": "Any list, any order of derivatives. The evaluation raises exactly for lists that are empty, out of order or have exponents outside (-100, 100]. Values and derivatives where no negative power of zero occurs."
  },
  {
   "property": "C60",
   "status": "partial",
   "theorems": [
    "PyroMat.If97.Props.C60_range",
    "PyroMat.If97.Props.C60_limits",
    "PyroMat.If97.Props.C60_lower_defect",
    "PyroMat.If97.Props.C60_regions"
   ],
   "note": "Region test exactly as in the IAPWS report; calls answer exactly in range 0 <= p <= 1000 bar up to 1073.15 K, 500 bar up to 2273.15 K. The lower limits Tlim and plim report are not enforced (C60_lower_defect)."
  },
  {
   "property": "C61",
   "status": "proved",
   "theorems": [
    "PyroMat.If97.Props.C61_range",
    "PyroMat.If97.Props.C61_Ts_ps",
    "PyroMat.If97.Props.C61_ps_Ts"
   ],
   "note": "Any coefficients satisfying SatLine; proved for those of the IAPWS report (iapws_line). No steam data file is in the repository."
  },
  {
   "property": "C62",
   "status": "partial",
   "theorems": [
    "PyroMat.Data.Props.C62_clear",
    "PyroMat.Data.Props.C62_new_partial",
    "PyroMat.Data.Props.C62_new_rejected",
    "PyroMat.Data.Props.C62_new_fromfile_defect"
   ],
   "note": "The documented minimum (id, class, doc) is rejected because fromfile is not added (C62_new_fromfile_defect)."
  },
  {
   "property": "C63",
   "status": "partial",
   "theorems": [
    "PyroMat.Gas.Props.C63_unchanged_partial",
    "PyroMat.Gas.Props.C63_temperature_defect",
    "PyroMat.Gas.Props.C63_entropy_defect"
   ],
   "note": "Out-of-range temperatures and entropies given with pressures are written back to the caller's arrays when no unit conversion is needed (two defect theorems)."
  },
  {
   "property": "C64",
   "status": "partial",
   "theorems": [
    "PyroMat.Gas.Props.C64_energies_partial",
    "PyroMat.Gas.Props.C64_zero_amount_defect"
   ],
   "note": "Holds for enthalpy, internal energy and heat capacities; the entropy becomes NaN (C64_zero_amount_defect)."
  },
  {
   "property": "C65",
   "status": "partial",
   "theorems": [
    "PyroMat.Gas.Props.C65_first_use_partial",
    "PyroMat.Gas.Props.C65_failed_setup_defect"
   ],
   "note": "Holds on first use; a later use of the same object returns numbers (C65_failed_setup_defect)."
  },
  {
   "property": "C66",
   "status": "partial",
   "theorems": [
    "PyroMat.If97.Props.C66_gam_defect",
    "PyroMat.If97.Props.C66_gibbs",
    "PyroMat.If97.Props.C66_entropy_partial",
    "PyroMat.If97.Props.C66_entropy_defect"
   ],
   "note": "Given well-formed coefficient lists. Entropy only in K or C (C66_entropy_defect)."
  },
  {
   "property": "C67",
   "status": "partial",
   "theorems": [
    "PyroMat.If97.Props.C67_region3"
   ],
   "note": "Assumes the pressure is bracketed by those at 0.1 and 2.4 critical densities. Entropy in K or C."
  },
  {
   "property": "C68",
   "status": "partial",
   "theorems": [
    "PyroMat.If97.Props.C68_lever",
    "PyroMat.If97.Props.C68_hsd_partial",
    "PyroMat.If97.Props.C68_hsd_defect"
   ],
   "note": "Entropy in K or C. hsd agrees except with temperature and quality alone (C68_hsd_defect)."
  },
  {
   "property": "C69",
   "status": "partial",
   "theorems": [
    "PyroMat.Mp.Props.C69_direct",
    "PyroMat.Mp.Props.C69_mixture",
    "PyroMat.Mp.Props.C69_pressure_ignored"
   ],
   "note": "Two-phase densities and lever rule given an ordered dome. Pressure given, and e, h, s in a single phase, are matched only to the solver's tolerance: see C70."
  },
  {
   "property": "C70",
   "status": "partial",
   "theorems": [
    "PyroMat.Mp.Props.C70_no_warning",
    "PyroMat.Mp.Props.C70_pressure",
    "PyroMat.Mp.Props.C70_with_density",
    "PyroMat.Mp.Props.C70_with_temperature",
    "PyroMat.Mp.Props.C70_with_pressure_partial",
    "PyroMat.Mp.Props.C70_saturated"
   ],
   "note": "For calls with no convergence warning. With pressure and energy, enthalpy or entropy the alternative to a matching value is that a call at a nearby temperature does not return a number on the same side. Exact arithmetic; the solver is _hybrid1 of the code."
  },
  {
   "property": "C71",
   "status": "partial",
   "theorems": [
    "PyroMat.Mp.Props.C71_unit_independence",
    "PyroMat.Mp.Props.C71_heat_capacity",
    "PyroMat.Mp.Props.C71_speed",
    "PyroMat.Mp.Props.C71_saturation",
    "PyroMat.Mp.Props.C71_T_h_default_defect"
   ],
   "note": "T_h and T_s without a pressure read the default pressure in the working unit, so they do depend on it (defect). Calls with fewer than two arguments need the same defaults in both configurations."
  },
  {
   "property": "C72",
   "status": "partial",
   "theorems": [
    "PyroMat.Mp.Props.C72_state",
    "PyroMat.Mp.Props.C72_state_capacities_partial",
    "PyroMat.Mp.Props.C72_state_cv_defect",
    "PyroMat.Mp.Props.C72_hsd_partial",
    "PyroMat.Mp.Props.C72_hsd_defect"
   ],
   "note": "state: cv (and gam) differ under the dome; free energy agrees when both Helmholtz groups have one temperature scale. hsd: agrees only for kg and K or C (defect otherwise)."
  },
  {
   "property": "C73",
   "status": "partial",
   "theorems": [
    "PyroMat.Mp.Props.C73_gibbs",
    "PyroMat.Mp.Props.C73_helmholtz",
    "PyroMat.Mp.Props.C73_enthalpy"
   ],
   "note": "f and h need one temperature scale in both Helmholtz groups (as in all shipped data); h under the dome needs equal pressures of the two saturated states, which fitted densities meet only approximately."
  },
  {
   "property": "C74",
   "status": "partial",
   "theorems": [
    "PyroMat.Mp.Props.C74_two_phase",
    "PyroMat.Mp.Props.C74_one_phase",
    "PyroMat.Mp.Props.C74_code"
   ],
   "note": "Data with non-analytic residual terms (coef2) and the saturation curves themselves are outside the theorems; saturation densities are assumed differentiable with the derivatives the code uses (proved for the fit forms in C56)."
  },
  {
   "property": "C75",
   "status": "partial",
   "theorems": [
    "PyroMat.Mp.Props.C75_cp",
    "PyroMat.Mp.Props.C75_sound",
    "PyroMat.Mp.Props.C75_code_cp",
    "PyroMat.Mp.Props.C75_code_sound",
    "PyroMat.Mp.Props.C75_dome",
    "PyroMat.Mp.Props.C75_single"
   ],
   "note": "Data with non-analytic residual terms (coef2) and the saturation curves are outside the theorems; the slope along the line needs pressure to depend on density (entropy on temperature). gam under the dome is +inf only where the liquid cv is not negative."
  },
  {
   "property": "C76",
   "status": "partial",
   "theorems": [
    "PyroMat.Mp.Props.C76_pressure",
    "PyroMat.Mp.Props.C76_with_temperature",
    "PyroMat.Mp.Props.C76_with_density",
    "PyroMat.Mp.Props.C76_with_pressure",
    "PyroMat.Mp.Props.C76_low_pressure_defect"
   ],
   "note": "Below the triple-point pressure the p,d form violates the property (defect). The tolerances 0.99, 1.01 and 1e-6 of the code are part of the statement; conditions on the equation of state (the other side of the bracket) are hypotheses."
  },
  {
   "property": "C77",
   "status": "partial",
   "theorems": [
    "PyroMat.Mp.Props.C77_with_density",
    "PyroMat.Mp.Props.C77_temperature_pressure",
    "PyroMat.Mp.Props.C77_with_temperature",
    "PyroMat.Mp.Props.C77_with_temperature_saturated",
    "PyroMat.Mp.Props.C77_pressure_density",
    "PyroMat.Mp.Props.C77_pressure_density_saturated",
    "PyroMat.Mp.Props.C77_low_pressure_defect",
    "PyroMat.Mp.Props.C77_with_pressure",
    "PyroMat.Mp.Props.C77_with_pressure_saturated"
   ],
   "note": "Scalar calls; array elements follow by C52. Existence is expressed by the values at the limits of the data range enclosing the value given; for e, h, s with pressure every temperature passed through must have a density. A value exactly at a limit is not covered (C52_endpoint_defect), and below the triple-point pressure the p,d form violates the property (defect)."
  },
  {
   "property": "C78",
   "status": "partial",
   "theorems": [
    "PyroMat.Mp.Props.C78_quality",
    "PyroMat.Mp.Props.C78_quality_a",
    "PyroMat.Mp.Props.C78_quality_cp",
    "PyroMat.Mp.Props.C78_deprecated",
    "PyroMat.Mp.Props.C78_deprecated_plain",
    "PyroMat.Mp.Props.C78_default_partial",
    "PyroMat.Mp.Props.C78_quality_dropped_defect"
   ],
   "note": "T_h and T_s without p and d drop the quality (defect) and ignore the unit of the default pressure (C71_T_h_default_defect)."
  },
  {
   "property": "C79",
   "status": "partial",
   "theorems": [
    "PyroMat.Mp.Props.C79_temperature_partial",
    "PyroMat.Mp.Props.C79_pressure_partial",
    "PyroMat.Mp.Props.C79_quality_partial",
    "PyroMat.Mp.Props.C79_density_partial",
    "PyroMat.Mp.Props.C79_range_defect",
    "PyroMat.Mp.Props.C79_density_defect"
   ],
   "note": "Out-of-range temperatures and pressures and densities under the dome are overwritten in the caller's array in K, Pa or kg/m3 (defects); qualities of calls with a single argument are not covered."
  },
  {
   "property": "C80",
   "status": "partial",
   "theorems": [
    "PyroMat.Mp.Props.C80_range_temperature",
    "PyroMat.Mp.Props.C80_range_pressure",
    "PyroMat.Mp.Props.C80_cv_defect",
    "PyroMat.Mp.Props.C80_pressure_defect",
    "PyroMat.Mp.Props.C80_elementwise",
    "PyroMat.Mp.Props.C80_elementwise_cp",
    "PyroMat.Mp.Props.C80_elementwise_a",
    "PyroMat.Mp.Props.C80_array",
    "PyroMat.Mp.Props.C80_array_cv_partial",
    "PyroMat.Mp.Props.C80_array_cp",
    "PyroMat.Mp.Props.C80_array_a",
    "PyroMat.Mp.Props.C80_size",
    "PyroMat.Mp.Props.C80_mismatch"
   ],
   "note": "An array of mixed saturated and unsaturated states makes cv raise ValueError (C80_cv_defect), and a pressure out of range is refused alone but not in an array (C80_pressure_defect)."
  },
  {
   "property": "C81",
   "status": "partial",
   "theorems": [
    "PyroMat.Igt.Props.C81_shape_defect",
    "PyroMat.Igt.Props.C81_answers",
    "PyroMat.Igt.Props.C81_answers_entropy_partial",
    "PyroMat.Igt.Props.C81_heat_capacity_volume",
    "PyroMat.Igt.Props.C81_enthalpy",
    "PyroMat.Igt.Props.C81_energy",
    "PyroMat.Igt.Props.C81_heat_capacity",
    "PyroMat.Igt.Props.C81_entropy_partial",
    "PyroMat.Igt.Props.C81_gibbs_partial",
    "PyroMat.Igt.Props.C81_helmholtz_partial"
   ],
   "note": "Entropy, Gibbs and Helmholtz energy only when the result has the shape of the mixture; otherwise the calls raise IndexError (C81_shape_defect). Temperatures outside a constituent's own range give NaN."
  },
  {
   "property": "C82",
   "status": "partial",
   "theorems": [
    "PyroMat.Igt.Props.C82_identities",
    "PyroMat.Igt.Props.C82_free_energies_partial",
    "PyroMat.Igt.Props.C82_answers"
   ],
   "note": "Identities proved at every position for constituents with coherent data; Gibbs and Helmholtz energy only when the arguments have the shape of the mixture, since other calls raise IndexError (C81_shape_defect)."
  },
  {
   "property": "C83",
   "status": "partial",
   "theorems": [
    "PyroMat.Igt.Props.C83_given_entropy_temperature_partial",
    "PyroMat.Igt.Props.C83_given_entropy_pressure_partial",
    "PyroMat.Igt.Props.C83_given_temperature",
    "PyroMat.Igt.Props.C83_given_pressure",
    "PyroMat.Igt.Props.C83_given_density",
    "PyroMat.Igt.Props.C83_given_volume",
    "PyroMat.Igt.Props.C83_reciprocal",
    "PyroMat.Igt.Props.C83_ideal_gas_law",
    "PyroMat.Igt.Props.C83_given_enthalpy",
    "PyroMat.Igt.Props.C83_given_energy",
    "PyroMat.Igt.Props.C83_entropy_round_trip"
   ],
   "note": "Temperature, pressure, density and volume exactly, entropy with temperature exactly (the pressure reported gives the entropy back); enthalpy, energy and entropy with pressure within the tolerance for constituents with common temperature limits. Entropy forms only when the arguments have the mixture's shape."
  },
  {
   "property": "C84",
   "status": "partial",
   "theorems": [
    "PyroMat.Igt.Props.C84_answered",
    "PyroMat.Igt.Props.C84_entropy_density_defect",
    "PyroMat.Igt.Props.C84_answered_density",
    "PyroMat.Igt.Props.C84_answered_entropy",
    "PyroMat.Igt.Props.C84_positional",
    "PyroMat.Igt.Props.C84_rejects",
    "PyroMat.Igt.Props.C84_defaults",
    "PyroMat.Igt.Props.C84_single_energy_defect"
   ],
   "note": "Refusals and defaults for all argument lists; calls with a temperature in range and a pressure, density, volume or entropy are shown to answer; the iterative forms may fail to converge."
  },
  {
   "property": "C85",
   "status": "partial",
   "theorems": [
    "PyroMat.Igt.Props.C85_instances",
    "PyroMat.Igt.Props.C85_composition",
    "PyroMat.Igt.Props.C85_energies",
    "PyroMat.Igt.Props.C85_entropies_partial",
    "PyroMat.Igt.Props.C85_from",
    "PyroMat.Igt.Props.C85_round_trip",
    "PyroMat.Igt.Props.C85_static_round_trip",
    "PyroMat.Igt.Props.C85_submixture_defect",
    "PyroMat.Igt.Props.C85_absent_defect",
    "PyroMat.Igt.Props.C85_nested_defect"
   ],
   "note": "Composition, names, heat capacities, enthalpy and internal energy for all amounts; entropies for amounts that are all positive and arguments of the mixture's shape (a listed amount of zero gives NaN in the static mixture). Three disagreements: sub-mixtures without axes, listed amounts of zero, constituents that are themselves static mixtures."
  },
  {
   "property": "C86",
   "status": "partial",
   "theorems": [
    "PyroMat.Igt.Props.C86_refused",
    "PyroMat.Igt.Props.C86_mixed_defect",
    "PyroMat.Igt.Props.C86_within",
    "PyroMat.Igt.Props.C86_density_partial",
    "PyroMat.Igt.Props.C86_volume_partial",
    "PyroMat.Igt.Props.C86_gap_defect"
   ],
   "note": "Refusal for temperature with pressure, density or volume; masking for pressure with density or volume; no call reports a temperature outside. Two disagreements: with a temperature array that is partly outside every method raises ValueError, and within the limits a constituent without data makes enthalpy, energy and heat capacity NaN. The configured def_oob value is modelled as NaN."
  },
  {
   "property": "C87",
   "status": "partial",
   "theorems": [
    "PyroMat.If97.Props.C87_scalar_defect",
    "PyroMat.If97.Props.C87_range",
    "PyroMat.If97.Props.C87_agrees",
    "PyroMat.If97.Props.C87_values_partial",
    "PyroMat.If97.Props.C87_tp",
    "PyroMat.If97.Props.C87_entropy_defect"
   ],
   "note": "Range, agreement with the property methods, values and tp=True are proved for every argument the code accepts. Disagreements: a Python number in K or bar raises AttributeError, and the entropies lack the temperature conversion outside K and C; agreement for entropy is therefore proved for K and C only."
  },
  {
   "property": "C88",
   "status": "partial",
   "theorems": [
    "PyroMat.If97.Props.C88_arrays",
    "PyroMat.If97.Props.C88_mixture",
    "PyroMat.If97.Props.C88_liquid",
    "PyroMat.If97.Props.C88_vapour",
    "PyroMat.If97.Props.C88_hot",
    "PyroMat.If97.Props.C88_vapour_high",
    "PyroMat.If97.Props.C88_region3",
    "PyroMat.If97.Props.C88_refused",
    "PyroMat.If97.Props.C88_roundtrip_mixture",
    "PyroMat.If97.Props.C88_roundtrip_hot",
    "PyroMat.If97.Props.C88_roundtrip_liquid_partial",
    "PyroMat.If97.Props.C88_pressure_defect",
    "PyroMat.If97.Props.C88_matter_defect",
    "PyroMat.If97.Props.C88_limit_defect"
   ],
   "note": "In bar and kg: the answer in every zone, the round trip for mixtures and for region 5, the residual of both iterations and the refusals. Missing: the accuracy of the fitted backward equations (their coefficients are not in the repository) and convergence. Disagreements: pressures are not converted, the amount of matter is converted the wrong way, and exactly 500 bar is refused above 1073.15 K."
  },
  {
   "property": "C89",
   "status": "partial",
   "theorems": [
    "PyroMat.If97.Props.C89_mixture",
    "PyroMat.If97.Props.C89_roundtrip_mixture",
    "PyroMat.If97.Props.C89_liquid",
    "PyroMat.If97.Props.C89_vapour",
    "PyroMat.If97.Props.C89_hot",
    "PyroMat.If97.Props.C89_region3",
    "PyroMat.If97.Props.C89_refused",
    "PyroMat.If97.Props.C89_roundtrip_hot",
    "PyroMat.If97.Props.C89_celsius_defect",
    "PyroMat.If97.Props.C89_pressure_defect"
   ],
   "note": "In the default units: the answer in every zone, the round trip for mixtures and for region 5, the residual of both iterations and the refusals. Missing: the accuracy of the fitted backward equations and convergence. Disagreements: in degrees Celsius saturated states are reported 273.15 degrees too cold, and in Pa every pressure below 165.292 bar is refused."
  },
  {
   "property": "C90",
   "status": "partial",
   "theorems": [
    "PyroMat.Data.Props.C90_suppress",
    "PyroMat.Data.Props.C90_ignore",
    "PyroMat.Data.Props.C90_after",
    "PyroMat.Data.Props.C90_obeys",
    "PyroMat.Data.Props.C90_one_left",
    "PyroMat.Data.Props.C90_delete_defect",
    "PyroMat.Data.Props.C90_case_defect",
    "PyroMat.Data.Props.C90_select_defect",
    "PyroMat.Data.Props.C90_enter_defect"
   ],
   "note": "Quietly with suppression, and in the dialogue for every sequence of answers. Missing: quiet deletion, which does not work (C90_delete_defect). Other disagreements: upper-case actions are ignored, selections outside the list suppress every file, Enter is accepted as an answer."
  },
  {
   "property": "C91",
   "status": "partial",
   "theorems": [
    "PyroMat.Data.Props.C91_recorded",
    "PyroMat.Data.Props.C91_recheck_partial",
    "PyroMat.Data.Props.C91_untouched",
    "PyroMat.Data.Props.C91_removed",
    "PyroMat.Data.Props.C91_bad_deleted",
    "PyroMat.Data.Props.C91_succeeds",
    "PyroMat.Data.Props.C91_bad_defect",
    "PyroMat.Data.Props.C91_repeat_defect",
    "PyroMat.Data.Props.C91_prompt_bad_defect",
    "PyroMat.Data.Props.C91_prompt_delete_defect",
    "PyroMat.Data.Props.C91_conflict_defect"
   ],
   "note": "Quiet mode: a fresh load gives the collection, removed and unreadable files, frame, and what a new check reports. Directories without sub-directories; sufficient permissions. Missing: agreement of entries made from scratch (C91_repeat_defect), unreadable files are not suppressed (C91_bad_defect), verbose mode ends in NameError at its own prompts, unresolved conflicts are not disqualified."
  },
  {
   "property": "C92",
   "status": "proved",
   "theorems": [
    "PyroMat.Registry.Info.C92_table",
    "PyroMat.Registry.Info.C92_order",
    "PyroMat.Registry.Info.C92_search",
    "PyroMat.Registry.Info.C92_nothing",
    "PyroMat.Registry.Info.C92_aligned"
   ],
   "note": "Proved for every collection. Python's sort is taken as a stable merge sort by code points; repr of the criteria and str.isspace are parameters."
  },
  {
   "property": "C93",
   "status": "partial",
   "theorems": [
    "PyroMat.Registry.Info.C93_summary",
    "PyroMat.Registry.Info.C93_same",
    "PyroMat.Registry.Info.C93_unknown",
    "PyroMat.Registry.Info.C93_atoms_fail",
    "PyroMat.Registry.Info.C93_no_file_defect",
    "PyroMat.Registry.Info.C93_stream_defect",
    "PyroMat.Registry.Info.C93_emptied_defect",
    "PyroMat.Registry.Info.C93_iterable_defect",
    "PyroMat.Registry.Info.C93_zero_charge_defect"
   ],
   "note": "The summary for every substance whose atoms, weight and file are available, the agreement of all ways to ask, unknown identifiers. Missing, because the code does otherwise: the documentation goes to standard output even with a target (C93_stream_defect), one-element sets and lists are emptied (C93_emptied_defect), tuples and generators are refused (C93_iterable_defect), substances without a file fail (C93_no_file_defect), zero electrons print as +0."
  },
  {
   "property": "C94",
   "status": "partial",
   "theorems": [
    "PyroMat.Shipped.Props.C94_usable",
    "PyroMat.Shipped.Props.C94_range",
    "PyroMat.Shipped.Props.C94_default_defect"
   ],
   "note": "Usable data and answers within and only within the range for all shipped gases. Missing, because the data do otherwise: 475 of them do not include the default temperature, so that a call without arguments is refused (C94_default_defect)."
  },
  {
   "property": "C95",
   "status": "partial",
   "theorems": [
    "PyroMat.Shipped.Props.C95_fall_defect",
    "PyroMat.Shipped.Props.C95_heat_capacities",
    "PyroMat.Shipped.Props.C95_growth"
   ],
   "note": "Bounds on cp, cv and gam for every answered state of every shipped gas; enthalpy and energy grow by at least 2.33 R (1.33 R) per kelvin less the jumps at breakpoints. Missing, because the data do otherwise: at a breakpoint the enthalpy of 447 gases falls, by at most 30 kJ/kmol except for ig.Rb (C95_fall_defect)."
  },
  {
   "property": "C96",
   "status": "proved",
   "theorems": [
    "PyroMat.Shipped.Props.C96_given_enthalpy",
    "PyroMat.Shipped.Props.C96_given_energy",
    "PyroMat.Shipped.Props.C96_temperature_from_enthalpy",
    "PyroMat.Shipped.Props.C96_temperature_from_energy"
   ],
   "note": "For every silent call, every shipped gas. The temperature theorems bound the error in the recovered temperature itself by the heat capacity bound of C95. Entropy is not treated here (C30 for gases with regular entropy)."
  },
  {
   "property": "C97",
   "status": "partial",
   "theorems": [
    "PyroMat.Shipped.Props.C97_good",
    "PyroMat.Shipped.Props.C97_densities",
    "PyroMat.Shipped.Props.C97_pressure",
    "PyroMat.Shipped.Props.C97_saturation_temperature",
    "PyroMat.Shipped.Props.C97_Ts",
    "PyroMat.Shipped.Props.C97_critical_pressure_defect",
    "PyroMat.Shipped.Props.C97_triple_pressure_defect"
   ],
   "note": "For all seven substances. Missing, because the data do otherwise: for R-134a the critical pressure on file is above the saturation pressure at the critical temperature (C97_critical_pressure_defect), and for R-134a and HFO-1234ze(E) the triple pressure on file is below the saturation pressure at the triple temperature (C97_triple_pressure_defect)."
  },
  {
   "property": "C98",
   "status": "partial",
   "theorems": [
    "PyroMat.Shipped.Props.C98_energies",
    "PyroMat.Shipped.Props.C98_cv_one_phase",
    "PyroMat.Shipped.Props.C98_cv",
    "PyroMat.Shipped.Props.C98_cp",
    "PyroMat.Shipped.Props.C98_sound"
   ],
   "note": "Energies and one-phase cv for all seven substances (carbon dioxide and water: off the critical density). Missing for carbon dioxide and water: cv under the dome, and cp and sound as slopes of the returned values; with their non-analytic terms the code is wrong there (C50_mixed_defect)."
  },
  {
   "property": "C99",
   "status": "proved",
   "theorems": [
    "PyroMat.Shipped.Props.C99_gas",
    "PyroMat.Shipped.Props.C99_multiphase",
    "PyroMat.Shipped.Props.C99_mass_atoms",
    "PyroMat.Shipped.Props.C99_balance"
   ],
   "note": "For every file. The atomic weights are a table in the specification (MassSpec.lean)."
  },
  {
   "property": "C100",
   "status": "proved",
   "theorems": [
    "PyroMat.Shipped.Props.C100_heat_capacities",
    "PyroMat.Shipped.Props.C100_given_enthalpy",
    "PyroMat.Shipped.Props.C100_given_energy",
    "PyroMat.Shipped.Props.C100_shipped",
    "PyroMat.Shipped.Props.C100_range",
    "PyroMat.Shipped.Props.C100_weights"
   ],
   "note": "In full. The three mixture files are transcribed by hand in PropsMixes.lean."
  },
  {
   "property": "C101",
   "status": "proved",
   "theorems": [
    "PyroMat.Shipped.Props.C101_gas_constant",
    "PyroMat.Shipped.Props.C101_ideal_gas_limit",
    "PyroMat.Shipped.Props.C101_stable"
   ],
   "note": "For all seven shipped substances and the calls with temperature and density. Real arithmetic; the rate of convergence is not bounded."
  },
  {
   "property": "C102",
   "status": "proved",
   "theorems": [
    "PyroMat.If97.Props.C102_steam",
    "PyroMat.Mp.Props.C102_values",
    "PyroMat.Mp.Props.C102_saturation_range",
    "PyroMat.Mp.Props.C102_temperature_limits",
    "PyroMat.Shipped.Props.C102_shipped"
   ],
   "note": "Real arithmetic; no steam data file is in the repository, so for steam the constants of the data are parameters."
  },
  {
   "property": "C103",
   "status": "partial",
   "theorems": [
    "PyroMat.Shipped.Props.C103_growth",
    "PyroMat.Shipped.Props.C103_given_entropy_pressure_partial",
    "PyroMat.Shipped.Props.C103_given_entropy_density",
    "PyroMat.Shipped.Props.C103_temperature_from_entropy_partial",
    "PyroMat.Shipped.Props.C103_fall_defect"
   ],
   "note": "Monotone only up to the steps at the limits between pieces (437 gases fall there, defect theorem). Not covered: one entropy with several pressures (the code applies the first pressure to all, see C30). A silent call is assumed: convergence of the iteration is not proved. Real arithmetic."
  },
  {
   "property": "C104",
   "status": "proved",
   "theorems": [
    "PyroMat.Float.Props.C104_temperature",
    "PyroMat.Float.Props.C104_roundtrip",
    "PyroMat.Float.Props.C104_conversion",
    "PyroMat.Float.Props.C104_matter"
   ],
   "note": "Arithmetic with a relative error of at most eps per operation, as IEEE doubles have short of overflow and underflow; integer exponents. In exact arithmetic the definitions are proved equal to the model of C01."
  },
  {
   "property": "C105",
   "status": "partial",
   "theorems": [
    "PyroMat.Float.Props.C105_property_partial",
    "PyroMat.Float.Props.C105_calls_partial",
    "PyroMat.Float.Props.C105_outside"
   ],
   "note": "Calls with temperatures and pressures, densities or volumes; relative error at most eps per operation, so no overflow or underflow; backward error in the temperature for scales other than kelvin; a temperature must not be within a rounding of a limit of the data file unless it is in kelvin and the limit is held exactly. d, v, T, p as results: C106. Missing: calls with h, e or s given, or pressure and density."
  },
  {
   "property": "C106",
   "status": "proved",
   "theorems": [
    "PyroMat.Float.Props.C106_density",
    "PyroMat.Float.Props.C106_volume",
    "PyroMat.Float.Props.C106_pressure",
    "PyroMat.Float.Props.C106_temperature",
    "PyroMat.Float.Props.C106_roundtrip"
   ],
   "note": "Calls with single numbers; relative error at most eps per operation, so no overflow or underflow."
  },
  {
   "property": "C107",
   "status": "partial",
   "theorems": [
    "PyroMat.Shipped.Props.C107_from_enthalpy_partial",
    "PyroMat.Shipped.Props.C107_from_energy_partial",
    "PyroMat.Shipped.Props.C107_enthalpy_gases",
    "PyroMat.Shipped.Props.C107_energy_gases"
   ],
   "note": "Missing: gases whose cp() (cv()) varies by more than a factor of 5/3, ig.Rb, temperatures within 50 K of a limit of the file (there the overshooting step is halved, so that convergence is only linear), and enthalpies within 1 J/kmol of zero (the tolerance is relative)."
  },
  {
   "property": "C108",
   "status": "partial",
   "theorems": [
    "PyroMat.Gas.Props.C108_damaged_partial",
    "PyroMat.Gas.Props.C108_ig_never_passes_defect",
    "PyroMat.Gas.Props.C108_ig2_never_passes_defect",
    "PyroMat.Shipped.Props.C108_shipped_never_pass_defect"
   ],
   "note": "Only the verdict for damaged data is as documented: the code never returns True (unlisted unit 'pa', attribute that is never set, eight coefficients asked of gases with seven). The report text and report files are not modelled."
  },
  {
   "property": "C109",
   "status": "partial",
   "theorems": [
    "PyroMat.Mp.Props.C109_accepts",
    "PyroMat.Mp.Props.C109_passed_partial",
    "PyroMat.Mp.Props.C109_unchecked_defect",
    "PyroMat.Mp.Props.C109_tables_ignored_defect",
    "PyroMat.Mp.Props.C109_comparison",
    "PyroMat.Mp.Props.C109_nan_agrees_defect",
    "PyroMat.Shipped.Props.C109_shipped"
   ],
   "note": "Missing because the code deviates: positive scales, second exponents and saturation groups are not checked, the verdict ignores the tables, and values that are not numbers agree with anything. The report text and report files are not modelled."
  },
  {
   "property": "C110",
   "status": "partial",
   "theorems": [
    "PyroMat.Data.Props.C110_operations",
    "PyroMat.Data.Props.C110_files_partial",
    "PyroMat.Data.Props.C110_untouched",
    "PyroMat.Data.Props.C110_saved_stay",
    "PyroMat.Data.Props.C110_records",
    "PyroMat.Data.Props.C110_repeat",
    "PyroMat.Data.Props.C110_lost_defect"
   ],
   "note": "Missing because the code deviates: files are overwritten in place, so an entry that is being rewritten when the process ends is on file in neither version (it is in memory, or lost with the process)."
  },
  {
   "property": "C111",
   "status": "partial",
   "theorems": [
    "PyroMat.Data.Props.C111_reachable",
    "PyroMat.Data.Props.C111_saved_partial",
    "PyroMat.Data.Props.C111_continues",
    "PyroMat.Data.Props.C111_idle",
    "PyroMat.Data.Props.C111_copy_defect"
   ],
   "note": "Missing because the code deviates: an entry made by new() that names the file of another entry (as a copy of its data does) overwrites that file.  Assumed: constructors do not look at the file name, and updates run without dat_exist_fatal and with write permission."
  },
  {
   "property": "C112",
   "status": "proved",
   "theorems": [
    "PyroMat.Float.Props.C112_poly1",
    "PyroMat.Float.Props.C112_order1",
    "PyroMat.Float.Props.C112_exact1",
    "PyroMat.Float.Props.C112_poly2",
    "PyroMat.Float.Props.C112_order2",
    "PyroMat.Float.Props.C112_exact2"
   ],
   "note": "For two variables, as in C47, no group has x pre-exponent 1 with another y pre-exponent.  Assumed of the arithmetic: each operation, and x**y for positive x, has a relative error of at most a given bound; overflow and underflow are not modelled."
  },
  {
   "property": "C113",
   "status": "proved",
   "theorems": [
    "PyroMat.Float.Props.C113_residual",
    "PyroMat.Float.Props.C113_pressure",
    "PyroMat.Float.Props.C113_exact",
    "PyroMat.Shipped.C113_shipped"
   ],
   "note": "Non-analytic terms (water and carbon dioxide) are outside.  Exponents are taken as held by the program.  Assumed of the arithmetic: each operation, x**y for positive x and exp have a relative error of at most a given bound; overflow and underflow are not modelled."
  },
  {
   "property": "C114",
   "status": "proved",
   "theorems": [
    "PyroMat.Float.Props.C114_ideal",
    "PyroMat.Float.Props.C114_energies",
    "PyroMat.Float.Props.C114_exact",
    "PyroMat.Shipped.C114_shipped"
   ],
   "note": "Non-analytic terms (water and carbon dioxide) are outside.  Exponents are taken as held by the program.  Assumed of the arithmetic: each operation, x**y for positive x, exp and log have a relative error of at most a given bound; overflow and underflow are not modelled."
  },
  {
   "property": "C115",
   "status": "proved",
   "theorems": [
    "PyroMat.Float.Props.C115_curve",
    "PyroMat.Float.Props.C115_unsupported",
    "PyroMat.Float.Props.C115_exact",
    "PyroMat.Shipped.C115_shipped"
   ],
   "note": "Values only, not the derivatives by temperature.  Exponents are taken as held by the program.  Assumed of the arithmetic: each operation, x**y for positive x and exp have a relative error of at most a given bound; overflow and underflow are not modelled."
  },
  {
   "property": "C116",
   "status": "proved",
   "theorems": [
    "PyroMat.Float.Props.C116_double",
    "PyroMat.Float.Props.C116_exact",
    "PyroMat.Float.Props.C116_bounds",
    "PyroMat.Float.Props.C116_value",
    "PyroMat.Float.Props.C116_temperature",
    "PyroMat.Float.Props.C116_recovered"
   ],
   "note": "Energies in kJ/kmol and temperatures in K (conversions are C104).  The 114 gases with limits such as 298.15 K, which a double does not hold, are outside the theorem for shipped gases.  That the search stops without a warning is a hypothesis.  Assumed of the arithmetic: each operation has a relative error of at most a given bound; overflow and underflow are not modelled."
  },
  {
   "property": "C117",
   "status": "proved",
   "theorems": [
    "PyroMat.Float.Props.C117_model",
    "PyroMat.Float.Props.C117_double",
    "PyroMat.Float.Props.C117_shipped",
    "PyroMat.Float.Props.C117_composition",
    "PyroMat.Float.Props.C117_properties",
    "PyroMat.Float.Props.C117_methods",
    "PyroMat.Float.Props.C117_methods_shipped",
    "PyroMat.Float.Props.C117_density",
    "PyroMat.Float.Props.C117_pressure",
    "PyroMat.Float.Props.C117_roundtrip",
    "PyroMat.Float.Props.C117_density_shipped"
   ],
   "note": "One temperature and one pressure (for `p` one density) for each call.  `gam`, `R`, `mw()`, calls with other pairs of arguments and the inverse routines of mixtures are not treated in floating point.  Temperature limits that the arithmetic cannot hold must not be within a rounding of the temperature.  Assumed of the arithmetic: each operation, logarithm and exponential has a relative error of at most a given bound; overflow and underflow are not modelled."
  }
 ]
}