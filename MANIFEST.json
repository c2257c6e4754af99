{
 "claims": [
  {
   "property": "C01",
   "status": "proved",
   "theorems": [
    "Verif.C01_mul_magnitude",
    "Verif.C01_mul_comm_magnitude",
    "Verif.C01_mul_assoc_magnitude",
    "Verif.C01_mul_needs_genuine"
   ],
   "note": "Real arithmetic, genuine prefixes (day, mile, mmHg and made-up prefixes excluded; the counterexample is C01_mul_needs_genuine)."
  },
  {
   "property": "C02",
   "status": "proved",
   "theorems": [
    "Verif.C02_div_magnitude",
    "Verif.C02_mul_div_cancel",
    "Verif.C02_div_zero"
   ],
   "note": "As C01."
  },
  {
   "property": "C03",
   "status": "partial",
   "theorems": [
    "Verif.C03_mul_unit_exact",
    "Verif.C03_mul_unit_partial",
    "Verif.C03_mul_unit_plain_partial",
    "Verif.C03_mul_unit_false"
   ],
   "note": "The full claim is false (C03_mul_unit_false): MultiUnit*Unit drops the prefix factor. Proved when no prefix occurs; C03_mul_unit_exact characterises when the product is right."
  },
  {
   "property": "C04",
   "status": "partial",
   "theorems": [
    "Verif.C04_unit_div_exact",
    "Verif.C04_div_by_unit",
    "Verif.C04_unit_div_partial",
    "Verif.C04_unit_div_plain_partial",
    "Verif.C04_unit_div_false"
   ],
   "note": "M/U proved in full. U/M drops the prefix factor (C04_unit_div_false); proved when no prefix occurs; C04_unit_div_exact characterises when the quotient is right."
  },
  {
   "property": "C05",
   "status": "partial",
   "theorems": [
    "Verif.C05_unit_mul_unit_exact",
    "Verif.C05_unit_div_unit",
    "Verif.C05_unit_mul_unit_partial",
    "Verif.C05_unit_mul_unit_false"
   ],
   "note": "U/U proved in full. U*U loses exponents of mixed units (C05_unit_mul_unit_false); proved for exponent 1 or same unit; C05_unit_mul_unit_exact characterises when the product is right."
  },
  {
   "property": "C06",
   "status": "partial",
   "theorems": [
    "Verif.C06_scale_unit_exact",
    "Verif.C06_scale_multi",
    "Verif.C06_div_multi",
    "Verif.C06_div_unit",
    "Verif.C06_scale_unit_partial",
    "Verif.C06_scale_unit_drops_exponent",
    "Verif.C06_scale_unit_false"
   ],
   "note": "Scaling a simple unit drops its exponent (C06_scale_unit_false; C06_scale_unit_exact says exactly when it is right). MultiUnit scaling and all scalar divisions proved."
  },
  {
   "property": "C07",
   "status": "proved",
   "theorems": [
    "Verif.C07_pow_multi",
    "Verif.C07_pow_multi_int",
    "Verif.C07_pow_unit"
   ],
   "note": "Proved for MultiUnit and Unit powers over the reals."
  },
  {
   "property": "C08",
   "status": "partial",
   "theorems": [
    "Verif.C08_add_num_exact",
    "Verif.C08_add_multi",
    "Verif.C08_sub_multi",
    "Verif.C08_add_sub_unit",
    "Verif.C08_add_sub_num_partial",
    "Verif.C08_add_num_false",
    "Verif.C08_num_add",
    "Verif.C08_multi_magnitude",
    "Verif.C08_unit_magnitude"
   ],
   "note": "Number plus Unit drops the exponent and adds to the value without looking at the unit (C08_add_num_false; C08_add_num_exact says exactly when it is right); the other guarded sums are proved."
  },
  {
   "property": "C09",
   "status": "partial",
   "theorems": [
    "Verif.C09_sum_multi_exact",
    "Verif.C09_sum_units",
    "Verif.C09_sum_multi_partial",
    "Verif.C09_sum_subclass_raises",
    "Verif.C09_sum_multi_false"
   ],
   "note": "False for subclasses of MultiUnit (C09_sum_multi_false); proved for Unit and plain MultiUnit. C09_sum_multi_exact: a three-term sum of compound quantities exists if and only if the class is MultiUnit."
  },
  {
   "property": "C10",
   "status": "proved",
   "theorems": [
    "Verif.C10_mul_reduced",
    "Verif.C10_mul_unit_reduced",
    "Verif.C10_div_reduced",
    "Verif.C10_div_unit_reduced",
    "Verif.C10_unit_div_reduced",
    "Verif.C10_pow_reduced",
    "Verif.C10_any_reduced"
   ],
   "note": "Reduced form of the results of the compound operators, for all unit lists (C10_any_reduced); for genuine prefixes the operators also return."
  },
  {
   "property": "C11",
   "status": "proved",
   "theorems": [
    "Verif.C11_deconstruct",
    "Verif.C11_deconstruct_formal",
    "Verif.C11_rounds_immaterial"
   ],
   "note": "Proved for all unit lists."
  },
  {
   "property": "C12",
   "status": "proved",
   "theorems": [
    "Verif.C12_simplify",
    "Verif.C12_simplify_formal",
    "Verif.C12_rounds_immaterial"
   ],
   "note": "Proved for all unit lists."
  },
  {
   "property": "C13",
   "status": "proved",
   "theorems": [
    "Verif.C13_cancel_net",
    "Verif.C13_combine_total",
    "Verif.C13_combine_once"
   ],
   "note": "Proved for all unit lists."
  },
  {
   "property": "C14",
   "status": "proved",
   "theorems": [
    "Verif.C14_parse_write",
    "Verif.C14_parse_spaces",
    "Verif.C14_write_injective"
   ],
   "note": "Factors with decimal exponents, nonempty symbols without operators or white space."
  },
  {
   "property": "C15",
   "status": "partial",
   "theorems": [
    "Verif.C15_accepted_iff",
    "Verif.C15_two_slashes_false",
    "Verif.C15_bad_factor_raises_partial",
    "Verif.C15_ok_all_good"
   ],
   "note": "Bad factors always raise; a second slash does not (C15_two_slashes_false). C15_accepted_iff says exactly which strings are accepted."
  },
  {
   "property": "C16",
   "status": "partial",
   "theorems": [
    "Verif.C16_strip_registry_exact",
    "Verif.C16_strip_registry_false",
    "Verif.C16_strip_registry_partial",
    "Verif.C16_never_unknown_prefix"
   ],
   "note": "day, mile, mmHg and the names of squares and cubes are split wrongly (C16_strip_registry_false); all other registered units proved, and C16_strip_registry_exact shows that the listed ones are exactly the wrong ones; UnknownPrefix never raised (overflow not modelled)."
  },
  {
   "property": "C17",
   "status": "proved",
   "theorems": [
    "Verif.C17_same_dimension",
    "Verif.C17_mismatch_raises"
   ],
   "note": "All quantities and target strings; dimension given by the independent table dimTable."
  },
  {
   "property": "C18",
   "status": "partial",
   "theorems": [
    "Verif.C18_same_magnitude_partial",
    "Verif.C18_temperature_value",
    "Verif.C18_temperature_false",
    "Verif.C18_psi_false",
    "Verif.C18_order_matters",
    "Verif.C18_magnitude_exact",
    "Verif.C18_same_magnitude_iff",
    "Verif.C18_same_temperatures",
    "Verif.C18_radiation_false"
   ],
   "note": "False for temperature units with an exponent other than one and for psi next to another derived unit (C18_temperature_false, C18_psi_false). Proved for all other quantities with genuine SI prefixes; for temperatures with any exponent the wrong factor is determined exactly (C18_magnitude_exact, C18_same_magnitude_iff)."
  },
  {
   "property": "C19",
   "status": "partial",
   "theorems": [
    "Verif.C19_round_trip_partial",
    "Verif.C19_path",
    "Verif.C19_identity",
    "Verif.C19_round_trip_false",
    "Verif.C19_round_trip_exact",
    "Verif.C19_celsius_zero"
   ],
   "note": "Round trip false when a temperature unit has exponent zero (C19_round_trip_false), proved otherwise; C19_round_trip_exact: going back either restores everything or the value had become 0 and it raises ZeroDivisionError. Path independence and identity proved in full."
  },
  {
   "property": "C20",
   "status": "partial",
   "theorems": [
    "Verif.C20_round_trip_exact",
    "Verif.C20_round_trip_partial",
    "Verif.C20_path_partial",
    "Verif.C20_round_trip_close_partial",
    "Verif.C20_round_trip_false",
    "Verif.C20_volume_false",
    "Verif.C20_volume_exact",
    "Verif.C20_area_exact"
   ],
   "note": "False for mile, foot, inch, pound (inexact inverse constants) and for litres (C20_round_trip_false, C20_volume_false). C20_round_trip_exact: in the six linear classes a round trip is exact for precisely the other units (or value 0, or equal units); within 1e-5 for foot, inch, pound. C20_volume_exact and C20_area_exact: which round trips volumes and areas have; temperatures in C22."
  },
  {
   "property": "C21",
   "status": "partial",
   "theorems": [
    "Verif.C21_factors_exact",
    "Verif.C21_to_standard_partial",
    "Verif.C21_from_standard_partial",
    "Verif.C21_megapascal_false",
    "Verif.C21_litre_false",
    "Verif.C21_volume_exact",
    "Verif.C21_acre_metres",
    "Verif.C21_acre_others",
    "Verif.C21_area_exact"
   ],
   "note": "False for MPa (1e7 Pa) and litres. Proved for all other entries of the six linear classes; C21_factors_exact shows MPa (and mile from the standard) are the only wrong ones. C21_volume_exact and C21_area_exact: between two different volumes only kL and gal, between different areas nothing is converted rightly."
  },
  {
   "property": "C22",
   "status": "proved",
   "theorems": [
    "Verif.C22_temperature_exact",
    "Verif.C22_temperature_round_trip",
    "Verif.C22_temperature_path",
    "Verif.C22_temperature_monotone",
    "Verif.C22_absolute_zero"
   ],
   "note": "All four scales, exact real arithmetic."
  },
  {
   "property": "C23",
   "status": "partial",
   "theorems": [
    "Verif.C23_to_standard_exact",
    "Verif.C23_exponent_false",
    "Verif.C23_twice_false",
    "Verif.C23_drops_exponent",
    "Verif.C23_value_one_partial"
   ],
   "note": "False in general: the exponent is applied to the value, and twice between nonstandard units. Proved for value one with the standard on one side; C23_to_standard_exact says exactly when conversion to the standard is right."
  },
  {
   "property": "C24",
   "status": "partial",
   "theorems": [
    "Verif.C24_round_trip_exact",
    "Verif.C24_from_standard_partial",
    "Verif.C24_to_existing",
    "Verif.C24_linear_partial",
    "Verif.C24_affine_false",
    "Verif.C24_pressure_unusable",
    "Verif.C24_no_chain"
   ],
   "note": "False for affine definitions from a non-standard unit (C24_affine_false) and unusable for pressure and force. Proved for units registered from the standard with any inverse pair, and for linear pairs from other units; C24_round_trip_exact: from another unit the round trip holds if and only if the two conversions commute."
  },
  {
   "property": "C25",
   "status": "proved",
   "theorems": [
    "Verif.C25_unregistered_unchanged",
    "Verif.C25_conversion_unchanged",
    "Verif.C25_last_wins",
    "Verif.C25_failed_registration"
   ],
   "note": "All finite histories of registrations, over arbitrary starting tables."
  },
  {
   "property": "C26",
   "status": "partial",
   "theorems": [
    "Verif.C26_unit_trans_exact",
    "Verif.C26_multi_equivalence",
    "Verif.C26_multi_order",
    "Verif.C26_multi_eq_magnitude_partial",
    "Verif.C26_multi_eq_magnitude_false",
    "Verif.C26_unit_refl_symm_magnitude",
    "Verif.C26_unit_trans_partial",
    "Verif.C26_unit_trans_false",
    "Verif.C26_listed_once_magnitude"
   ],
   "note": "MultiUnit equality ignores order and repetition (C26_multi_eq_magnitude_false); quantities that list every unit once, as computed ones do (C104), are equal only if their magnitudes are (C26_listed_once_magnitude). Unit equality is not transitive (C26_unit_trans_false), and C26_unit_trans_exact says exactly when. Exponents are compared as numbers; C73 shows when the types int and float of exponents make a difference."
  },
  {
   "property": "C27",
   "status": "partial",
   "theorems": [
    "Verif.C27_equal_addable_exact",
    "Verif.C27_equal_addable_partial",
    "Verif.C27_equal_addable_false"
   ],
   "note": "False because equality ignores order and addition does not (C27_equal_addable_false); C27_equal_addable_exact: addable exactly when listed identically."
  },
  {
   "property": "C28",
   "status": "proved",
   "theorems": [
    "Verif.C28_neg_multi",
    "Verif.C28_neg_unit",
    "Verif.C28_sub_eq_add_neg_multi",
    "Verif.C28_sub_eq_add_neg_unit"
   ],
   "note": "Proved."
  },
  {
   "property": "C29",
   "status": "partial",
   "theorems": [
    "Verif.C29_exact",
    "Verif.C29_foreign_partial",
    "Verif.C29_foreign_false"
   ],
   "note": "MultiUnit operators return None on foreign types (C29_foreign_false). C29_exact lists exactly which combinations raise TypeError."
  },
  {
   "property": "C30",
   "status": "partial",
   "theorems": [
    "Verif.C30_check_units_exact",
    "Verif.C30_check_units_partial",
    "Verif.C30_check_units_false",
    "Verif.C30_check_units_ignores_exponent"
   ],
   "note": "A compound mismatch raises AttributeError instead of IncorrectUnits, exponents of simple units are ignored (C30_check_units_false); C30_check_units_exact describes every argument and string."
  },
  {
   "property": "C31",
   "status": "partial",
   "theorems": [
    "Verif.C31_positional_partial",
    "Verif.C31_single_default",
    "Verif.C31_bad_call",
    "Verif.C31_no_defaults",
    "Verif.C31_several_defaults_false",
    "Verif.C31_none_defaults"
   ],
   "note": "Proved for functions with a single default (every decorated function of the library) and any positional call, and for any number of defaults all of which are None (C31_none_defaults); refuted by a witness for functions with several defaults that are not all None, whose defaults are assigned to the wrong parameters (C31_several_defaults_false)."
  },
  {
   "property": "C32",
   "status": "partial",
   "theorems": [
    "Verif.C32_told_name",
    "Verif.C32_told_right_exact",
    "Verif.C32_declaration_order_partial",
    "Verif.C32_keyword_order_false",
    "Verif.C32_told_wrong_name"
   ],
   "note": "Reported name follows declaration order for positional calls; for keyword calls the reported name follows passing order (refuted with a witness). C32_told_name and C32_told_right_exact say which name is reported and when it is the right one."
  },
  {
   "property": "C33",
   "status": "proved",
   "theorems": [
    "Verif.C33_thickness_any_units",
    "Verif.C33_T2_any_units",
    "Verif.C33_T1_any_units",
    "Verif.C33_heat_flow",
    "Verif.C33_thickness",
    "Verif.C33_T2",
    "Verif.C33_T1",
    "Verif.C33_equal_to_original"
   ],
   "note": "All reals, library constructors with SI unit strings; recovered values are plain Unit objects, equal under == to the originals. C33_*_any_units: in any known units without prefix the recovered quantity has the dimension and magnitude of the original."
  },
  {
   "property": "C34",
   "status": "proved",
   "theorems": [
    "Verif.C34_thickness_any_units",
    "Verif.C34_T2_any_units",
    "Verif.C34_T1_any_units",
    "Verif.C34_flux",
    "Verif.C34_thickness",
    "Verif.C34_T2",
    "Verif.C34_T1"
   ],
   "note": "As C33 for the flux form, in SI and (C34_*_any_units) in any known units without prefix."
  },
  {
   "property": "C35",
   "status": "partial",
   "theorems": [
    "Verif.C35_pipe",
    "Verif.C35_pipe_direction",
    "Verif.C35_sphere_partial",
    "Verif.C35_sphere_false",
    "Verif.C35_sphere_ignores_conductivity"
   ],
   "note": "Pipe proved; the sphere formula in the code divides by the wrong thing: refuted with a witness, what it computes is proved."
  },
  {
   "property": "C36",
   "status": "partial",
   "theorems": [
    "Verif.C36_rate_constant",
    "Verif.C36_activation_energy",
    "Verif.C36_temperature_raises",
    "Verif.C36_factor_raises",
    "Verif.C36_orders",
    "Verif.C36_rate_constant_kJ",
    "Verif.C36_temperature_false",
    "Verif.C36_factor_false",
    "Verif.C36_gas_constant"
   ],
   "note": "Ea is recovered for every order (any units the order produces); solving for T and for A always raises TypeError (C36_temperature_raises, C36_factor_raises, refutations)."
  },
  {
   "property": "C37",
   "status": "partial",
   "theorems": [
    "Verif.C37_cell",
    "Verif.C37_range",
    "Verif.C37_grid",
    "Verif.C37_between",
    "Verif.C37_continuous",
    "Verif.C37_table_false",
    "Verif.C37_object_range"
   ],
   "note": "Range, grid rows, between neighbours, the exact interpolation on every closed cell and continuity on the whole range are proved for all real temperatures. The extra row 373.12 K is never read, so 'equals the table at table temperatures' fails there (C37_table_false)."
  },
  {
   "property": "C38",
   "status": "partial",
   "theorems": [
    "Verif.C38_swapped",
    "Verif.C38_temperature_false",
    "Verif.C38_attributes_partial"
   ],
   "note": "False at every temperature: temperature and pressure are swapped (C38_swapped, C38_temperature_false). The other attributes are the interpolated columns (C38_attributes_partial)."
  },
  {
   "property": "C39",
   "status": "proved",
   "theorems": [
    "Verif.C39_assignment",
    "Verif.C39_history"
   ],
   "note": "All histories of assignments."
  },
  {
   "property": "C40",
   "status": "partial",
   "theorems": [
    "Verif.C40_balanced_partial",
    "Verif.C40_common_factor_never",
    "Verif.C40_false"
   ],
   "note": "False: the code divides by the gcd of the numerators and truncates, so when the other coefficients share a factor relative to the last one the last coefficient is wrong (C40_common_factor_never for all such equations; C40_false: photosynthesis gives coefficient 0 for glucose). Proved for all equations without such a factor, for any solver and float division accurate enough, end to end from the text; limit_denominator is modelled and proved to return the closest fraction. C90 gives the exact condition in terms of the smallest integer coefficients."
  },
  {
   "property": "C41",
   "status": "proved",
   "theorems": [
    "Verif.C41_parse",
    "Verif.C41_outside_two_groups",
    "Verif.C41_outside_multiplier",
    "Verif.C41_symbols"
   ],
   "note": "Proved for the whole grammar (C41_parse). The two refutations are outside the grammar: two groups, and multipliers of two digits."
  },
  {
   "property": "C42",
   "status": "partial",
   "theorems": [
    "Verif.C42_documented_never",
    "Verif.C42_parentheses_false",
    "Verif.C42_one_sided_partial",
    "Verif.C42_no_arrow"
   ],
   "note": "False: neither documented exception is ever raised (C42_documented_never); unbalanced parentheses are accepted (C42_parentheses_false); one-sided elements raise TypeError (C42_one_sided_partial)."
  },
  {
   "property": "C43",
   "status": "partial",
   "theorems": [
    "Verif.C43_redlich_kwong",
    "Verif.C43_soave",
    "Verif.C43_van_der_waals_partial",
    "Verif.C43_van_der_waals_never",
    "Verif.C43_peng_robinson_partial",
    "Verif.C43_peng_robinson_never",
    "Verif.C43_redlich_kwong_cubic",
    "Verif.C43_soave_cubic",
    "Verif.C43_other_state",
    "Verif.C43_van_der_waals_false",
    "Verif.C43_peng_robinson_false"
   ],
   "note": "Redlich-Kwong and Soave proved for both states, all inputs and iteration counts. van der Waals and Peng-Robinson iterate Redlich-Kwong's shape and never solve their own equation when converged (C43_van_der_waals_never, C43_peng_robinson_never, refutations with witnesses)."
  },
  {
   "property": "C44",
   "status": "partial",
   "theorems": [
    "Verif.C44_counter_between_any_units",
    "Verif.C44_cocurrent_exact",
    "Verif.C44_counter_value",
    "Verif.C44_counter_between_partial",
    "Verif.C44_equal_ends",
    "Verif.C44_cocurrent_value",
    "Verif.C44_cocurrent_ignores_T0A",
    "Verif.C44_cocurrent_false"
   ],
   "note": "Counter-current: proved for every unit symbol (C44_counter_between_partial, C44_equal_ends). Co-current is false: the code assigns T0A = T0B and ignores T0A (C44_cocurrent_ignores_T0A, C44_cocurrent_false); C44_cocurrent_exact: the co-current result is right if and only if T0A = 2 T0B. C44_counter_between_any_units: four temperatures in any units of temperature; whatever is returned lies between the end differences."
  },
  {
   "property": "C45",
   "status": "proved",
   "theorems": [
    "Verif.C45_between_any_units",
    "Verif.C45_approach_any_units",
    "Verif.C45_value",
    "Verif.C45_start",
    "Verif.C45_between",
    "Verif.C45_approach"
   ],
   "note": "All reals in the physical range; SI unit strings, and any known units in C45_*_any_units (whatever is returned has the magnitude claimed)."
  },
  {
   "property": "C46",
   "status": "proved",
   "theorems": [
    "Verif.C46_conduction_between_any_units",
    "Verif.C46_conduction_depth_any_units",
    "Verif.C46_diffusion_between_any_units",
    "Verif.C46_diffusion_depth_any_units",
    "Verif.C46_diffusion_value",
    "Verif.C46_diffusion_surface",
    "Verif.C46_diffusion_between",
    "Verif.C46_diffusion_depth",
    "Verif.C46_conduction_value",
    "Verif.C46_conduction_surface",
    "Verif.C46_conduction_between",
    "Verif.C46_conduction_depth"
   ],
   "note": "All reals in the physical range; SI unit strings, and any known units in C46_*_any_units; erf is the integral, its bounds and monotonicity are proved."
  },
  {
   "property": "C47",
   "status": "proved",
   "theorems": [
    "Verif.C47_value_any_units",
    "Verif.C47_bounded_any_units",
    "Verif.C47_monotone_any_units",
    "Verif.C47_value",
    "Verif.C47_bounded",
    "Verif.C47_monotone",
    "Verif.C47_sharp"
   ],
   "note": "All reals; SI unit strings, and any known units without prefix in C47_*_any_units (whatever is returned has the magnitude claimed)."
  },
  {
   "property": "C48",
   "status": "partial",
   "theorems": [
    "Verif.C48_value",
    "Verif.C48_from_surface_partial",
    "Verif.C48_no_flux_line_false"
   ],
   "note": "False as documented: the code measures x from the surface (C48_no_flux_line_false). Proved: the series it computes, the surface temperature at x = 0, symmetry about x = s."
  },
  {
   "property": "C49",
   "status": "partial",
   "theorems": [
    "Verif.C49_prandtl",
    "Verif.C49_schmidt",
    "Verif.C49_reynolds_partial",
    "Verif.C49_biot_partial",
    "Verif.C49_gretz_partial",
    "Verif.C49_grashof_partial",
    "Verif.C49_reynolds_SI",
    "Verif.C49_reynolds_cm",
    "Verif.C49_reynolds_false",
    "Verif.C49_biot_SI",
    "Verif.C49_biot_cm",
    "Verif.C49_biot_false",
    "Verif.C49_gretz_SI",
    "Verif.C49_gretz_cm",
    "Verif.C49_gretz_false",
    "Verif.C49_grashof_SI",
    "Verif.C49_grashof_cm",
    "Verif.C49_grashof_false"
   ],
   "note": "Prandtl and Schmidt: proved for all units with any SI prefixes. Reynolds, Biot, Graetz, Grashof: proved for all unprefixed lengths and divisors (density, velocity, gravity may be prefixed); false for a length in cm (C49_*_false)."
  },
  {
   "property": "C50",
   "status": "partial",
   "theorems": [
    "Verif.C50_value",
    "Verif.C50_SI_partial",
    "Verif.C50_cm2_ignored",
    "Verif.C50_celsius_ignored",
    "Verif.C50_cancelled",
    "Verif.C50_numbers_only",
    "Verif.C50_right_iff",
    "Verif.C50_area_unit_false",
    "Verif.C50_temperature_unit_false"
   ],
   "note": "False for cm^2 and Celsius (units are ignored: C50_area_unit_false, C50_temperature_unit_false). Proved for SI unit strings; C50_numbers_only and C50_right_iff: for every unit of the area and of the temperatures a result is the law applied to the bare numbers, which is the power if and only if the units multiply to 1 m^2 K^4."
  },
  {
   "property": "C51",
   "status": "partial",
   "theorems": [
    "Verif.C51_cylinder_partial",
    "Verif.C51_sphere_partial",
    "Verif.C51_other_shapes",
    "Verif.C51_increasing",
    "Verif.C51_kPa",
    "Verif.C51_unit_false",
    "Verif.C51_units",
    "Verif.C51_mixed"
   ],
   "note": "The formulas, for every registered unit of pressure and every registered unit of length, the same for wall and radius (C51_units); wall and radius in different units raise TypeError (C51_mixed); monotonicity; other shapes raise TypeError. With a prefixed strength (kPa) the same pressure is returned but in the unit without prefix, so 'in the unit of the strength' is false (C51_unit_false); mmHg becomes mHg, which is not a unit the library knows."
  },
  {
   "property": "C52",
   "status": "partial",
   "theorems": [
    "Verif.C52_far_value",
    "Verif.C52_far_false",
    "Verif.C52_osha_partial",
    "Verif.C52_zero_hours",
    "Verif.C52_enclosure_value",
    "Verif.C52_enclosure_false"
   ],
   "note": "FAR and the enclosure concentration are ten times the documented value (10E8 is 1e9): C52_far_false, C52_enclosure_false. OSHA rate and the values actually computed are proved."
  },
  {
   "property": "C53",
   "status": "proved",
   "theorems": [
    "Verif.C53_round_trip",
    "Verif.C53_round_trip_grams"
   ],
   "note": "All nonzero reals, SI and gram spellings."
  },
  {
   "property": "C54",
   "status": "partial",
   "theorems": [
    "Verif.C54_one_d",
    "Verif.C54_two_d",
    "Verif.C54_three_d",
    "Verif.C54_SI_partial",
    "Verif.C54_cm_ignored",
    "Verif.C54_cm_ignored_two_d",
    "Verif.C54_cm_ignored_three_d",
    "Verif.C54_cm_as_metres",
    "Verif.C54_cm_ratio",
    "Verif.C54_cm_false"
   ],
   "note": "False for D in cm^2/s, in one, two and three dimensions: the number is read as m^2/s (C54_cm_ignored*, C54_cm_as_metres, C54_cm_ratio: at the source the result is off by a factor 10000^(n/2); C54_cm_false). Proved for SI unit strings."
  },
  {
   "property": "C55",
   "status": "proved",
   "theorems": [
    "Verif.C55_planar",
    "Verif.C55_planar_flux",
    "Verif.C55_pipe",
    "Verif.C55_sphere",
    "Verif.C55_no_difference"
   ],
   "note": "All reals with the stated nonzero conditions, SI unit strings."
  },
  {
   "property": "C56",
   "status": "partial",
   "theorems": [
    "Verif.C56_bounds",
    "Verif.C56_best_fit_partial",
    "Verif.C56_best_fit_false",
    "Verif.C56_effective_orders"
   ],
   "note": "False: each order transforms the data left by the previous one (C56_best_fit_false). Proved for ranges where only the last order is nonzero; C56_effective_orders says which orders are really tested for all ranges of non-negative orders in which 1 is at most the last. 0 <= r squared <= 1 always. Exact real arithmetic with numpy's inf and nan."
  },
  {
   "property": "C57",
   "status": "partial",
   "theorems": [
    "Verif.C57_to_sup_injective",
    "Verif.C57_to_sup_digits",
    "Verif.C57_to_sup_sup",
    "Verif.C57_remove_zero_partial",
    "Verif.C57_remove_zero_false",
    "Verif.C57_display_false"
   ],
   "note": "to_sup proved injective. remove_zero is false (1.05 becomes 1); proved exactly when it returns its argument."
  },
  {
   "property": "C58",
   "status": "partial",
   "theorems": [
    "Verif.C58_frame",
    "Verif.C58_compound",
    "Verif.C58_simple_partial",
    "Verif.C58_alias",
    "Verif.C58_false",
    "Verif.C58_history_partial",
    "Verif.C58_inplace_same"
   ],
   "note": "False for simple quantities: convert_to to the unit already held returns the object itself (C58_alias for every such case, C58_false). Proved: compound conversions always allocate (C58_compound), simple ones when the unit differs, the frame property along any history, and full independence for histories without a self-return (C58_history_partial)."
  },
  {
   "property": "C59",
   "status": "partial",
   "theorems": [
    "Verif.C59_fullers_floats",
    "Verif.C59_fullers_quantities",
    "Verif.C59_fullers_guards",
    "Verif.C59_fullers_guard",
    "Verif.C59_wilke_floats",
    "Verif.C59_wilke_partial",
    "Verif.C59_wilke_gcms",
    "Verif.C59_wilke_false"
   ],
   "note": "Fuller proved: floats and quantities agree, non-kelvin temperatures refused. Wilke-Chang agrees for a viscosity in cP; with g/cm*s the result is always a hundredth (C59_wilke_gcms, C59_wilke_false)."
  },
  {
   "property": "C60",
   "status": "proved",
   "theorems": [
    "Verif.C60_powerset_perm",
    "Verif.C60_powerset_length",
    "Verif.C60_powerset_mem",
    "Verif.C60_powerset_nodup",
    "Verif.C60_powerset_sorted"
   ],
   "note": "All finite lists."
  },
  {
   "property": "C61",
   "status": "partial",
   "theorems": [
    "Verif.C61_ratio_number",
    "Verif.C61_number_only_if",
    "Verif.C61_simple_divisor_false",
    "Verif.C61_simple_divisor_exact",
    "Verif.C61_simple_divisor_number",
    "Verif.C61_watt_seconds"
   ],
   "note": "Compound divisor: proved for all genuine prefixes (C61_ratio_number, C61_number_only_if). Simple divisor: false as stated (C61_simple_divisor_false, C61_watt_seconds: W*s / J is not a number); C61_simple_divisor_exact gives the exact condition: the units cancel and no base symbol is written more than once above the line; the number is then the ratio of the magnitudes (C61_simple_divisor_number)."
  },
  {
   "property": "C62",
   "status": "partial",
   "theorems": [
    "Verif.C62_phase_exact",
    "Verif.C62_phase_partial",
    "Verif.C62_phase_false"
   ],
   "note": "Proved outside (365 K, 373.12 K); false at every temperature inside (C62_phase_false); C62_phase_exact states it as an equivalence."
  },
  {
   "property": "C63",
   "status": "partial",
   "theorems": [
    "Verif.C63_products_equal",
    "Verif.C63_quotients_equal",
    "Verif.C63_mul_comm",
    "Verif.C63_mul_assoc",
    "Verif.C63_div_mul_comm",
    "Verif.C63_distrib",
    "Verif.C63_negative_false",
    "Verif.C63_products_equal_signed",
    "Verif.C63_mul_comm_signed",
    "Verif.C63_mul_assoc_signed",
    "Verif.C63_quotients_equal_signed",
    "Verif.C63_derived_false",
    "Verif.C63_distrib_unit",
    "Verif.C63_div_distrib_unit",
    "Verif.C63_unit_distrib",
    "Verif.C63_neg",
    "Verif.C63_cancel_factor",
    "Verif.C63_products_sound",
    "Verif.C63_products_equal_exact",
    "Verif.C63_any_products_equal",
    "Verif.C63_product_order",
    "Verif.C63_div_div_partial",
    "Verif.C63_div_div_false",
    "Verif.C63_div_distrib",
    "Verif.C63_products_equal_signed_exact"
   ],
   "note": "Sameness of units here means: same set of (symbol, exponent) pairs, exponents compared as numbers. Proved for quantities without negative exponents; with a negative exponent in a denominator it is false (C63_negative_false). Negative exponents above the line on units that are not written out in base units are admitted by the theorems named _signed; on derived units (Pa^-1) the property is false (C63_derived_false). Any number of factors: C63_any_products_equal, C63_product_order. Repeated division: C63_div_div_partial where the first quotient is compound, false otherwise (C63_div_div_false). Distributive laws with simple factors hold although the prefix factor is lost in some of these operators (C03, C04), because it is lost on both sides."
  },
  {
   "property": "C64",
   "status": "partial",
   "theorems": [
    "Verif.C64_expression_partial",
    "Verif.C64_compound",
    "Verif.C64_expression_false"
   ],
   "note": "False in general (C64_expression_false). Proved for every expression all of whose operations are safe, where the unsafe ones are listed (MulSafe, DivSafe, AddSafe), and without side condition for compound quantities when division below the root is only by numbers (C64_compound)."
  },
  {
   "property": "C65",
   "status": "partial",
   "theorems": [
    "Verif.C65_cstr_any_units",
    "Verif.C65_cstr_defined",
    "Verif.C65_cstr_litres",
    "Verif.C65_melting_SI_partial",
    "Verif.C65_melting_additive_partial",
    "Verif.C65_melting_cm",
    "Verif.C65_melting_unit_false"
   ],
   "note": "cstr_volume proved for all units. The melting time is false for prefixed lengths (C65_melting_unit_false); proved in SI."
  },
  {
   "property": "C66",
   "status": "partial",
   "theorems": [
    "Verif.C66_equivalent_diameter",
    "Verif.C66_square_duct",
    "Verif.C66_factors",
    "Verif.C66_effectiveness",
    "Verif.C66_flow_areas",
    "Verif.C66_flow_areas_any_unit",
    "Verif.C66_flow_areas_mixed",
    "Verif.C66_flow_area_false",
    "Verif.C66_mass_velocity",
    "Verif.C66_shell_htc",
    "Verif.C66_shell_full",
    "Verif.C66_system_never_solved",
    "Verif.C66_system_guard_dead",
    "Verif.C66_system_guard_false"
   ],
   "note": "False: the flow areas come out in m instead of m^2 (C66_flow_area_false; C66_flow_areas_any_unit: in every unit of length, C66_flow_areas_mixed: two different units raise TypeError), so shell_htc_full has the right number in the wrong unit (C66_shell_full), and solving a system never returns a solution (C66_system_never_solved). The guard against m1 with cp1 (or m2 with cp2) as unknowns is dead code: it tests the names in the opposite order (C66_system_guard_dead for every call, C66_system_guard_false). The single formulas are proved in SI."
  },
  {
   "property": "C67",
   "status": "partial",
   "theorems": [
    "Verif.C67_condensation_SI",
    "Verif.C67_flux_any_units",
    "Verif.C67_flux_SI",
    "Verif.C67_flux_full_SI",
    "Verif.C67_flux_unconverted",
    "Verif.C67_flux_customary",
    "Verif.C67_flux_cast_false"
   ],
   "note": "The cast to W/m^2 is false: the converted result is dropped (C67_flux_cast_false). Magnitude proved for all units, SI exactly."
  },
  {
   "property": "C68",
   "status": "partial",
   "theorems": [
    "Verif.C68_stokes_SI_partial",
    "Verif.C68_stokes_cm",
    "Verif.C68_stokes_unit_false",
    "Verif.C68_ionic_partial",
    "Verif.C68_ionic_documented"
   ],
   "note": "False: a radius in cm is read as m (C68_stokes_unit_false), and the conductance unit of the documentation gives 1/(s m^2) (C68_ionic_documented). Proved in SI units and with A*cm^2/V*mol."
  },
  {
   "property": "C69",
   "status": "proved",
   "theorems": [
    "Verif.C69_mass_transfer",
    "Verif.C69_water",
    "Verif.C69_evaporation"
   ],
   "note": "Proved for the units of the documentation (cm/s, g/mol, SI otherwise)."
  },
  {
   "property": "C70",
   "status": "proved",
   "theorems": [
    "Verif.C70_gas_constant_domain",
    "Verif.C70_gas_constant_consistent",
    "Verif.C70_boltzmann_avogadro",
    "Verif.C70_constants_agree",
    "Verif.C70_defining_constants",
    "Verif.C70_thermal_beta",
    "Verif.C70_thermal_beta_symmetric",
    "Verif.C70_thermal_beta_positive"
   ],
   "note": "Proved; the tolerance between the gas constants is 0.001 J/mol K."
  },
  {
   "property": "C71",
   "status": "partial",
   "theorems": [
    "Verif.C71_value",
    "Verif.C71_symmetric",
    "Verif.C71_equilibrium",
    "Verif.C71_start",
    "Verif.C71_initial_false",
    "Verif.C71_exchanged_partial"
   ],
   "note": "The initial condition is false: surface and initial concentration are exchanged in the formula (C71_start, C71_initial_false)."
  },
  {
   "property": "C72",
   "status": "partial",
   "theorems": [
    "Verif.C72_turbulent_average",
    "Verif.C72_turbulent_local",
    "Verif.C72_pipe_turbulent",
    "Verif.C72_cross_cylinder",
    "Verif.C72_cross_sphere",
    "Verif.C72_pipe_laminar",
    "Verif.C72_pipe_laminar_defined",
    "Verif.C72_wall_correction",
    "Verif.C72_wall_correction_size",
    "Verif.C72_no_wall_correction",
    "Verif.C72_short_pipe_partial",
    "Verif.C72_short_pipe_defined",
    "Verif.C72_short_pipe_raises",
    "Verif.C72_laminar_local_SI",
    "Verif.C72_laminar_average_SI",
    "Verif.C72_laminar_local_BTU",
    "Verif.C72_laminar_average_BTU",
    "Verif.C72_average_twice_local",
    "Verif.C72_open_field_units",
    "Verif.C72_open_field_size",
    "Verif.C72_laminar_plate_size",
    "Verif.C72_open_field_defined"
   ],
   "note": "Proved, except that the short pipe correction raises TypeError when diameter and length have different units (C72_short_pipe_raises). The open field correlations: the size Nu k / L for all units of k and L whose quotient C18 converts faithfully (C72_open_field_size), defined exactly for the dimension of a heat transfer coefficient (C72_open_field_defined), and the exact value for W/m*K and BTU/hr*ft*F with nine length units."
  },
  {
   "property": "C73",
   "status": "partial",
   "theorems": [
    "Verif.C73_equality_partial",
    "Verif.C73_written_out_partial",
    "Verif.C73_simple_never",
    "Verif.C73_written_out_false",
    "Verif.C73_moderate_needed",
    "Verif.C73_numbers_unaffected",
    "Verif.C73_numbers_unaffected_simple",
    "Verif.C73_simple_product"
   ],
   "note": "False once a simple quantity with its default int exponent is multiplied in: MultiUnit(2,'kg/s')*Length(3,'m')*Length(4,'m') is never == MultiUnit(24,'kg*m^2/s') (C73_written_out_false, C73_simple_never). Proved for everything computed from written quantities and simple quantities with float exponents, exponents below 100 in absolute value; beyond that the int 100 of the cap breaks it (C73_moderate_needed)."
  },
  {
   "property": "C74",
   "status": "partial",
   "theorems": [
    "Verif.C74_homogeneous_partial",
    "Verif.C74_inhomogeneous_raises_partial",
    "Verif.C74_false"
   ],
   "note": "False when a power of a simple unit is multiplied by a number or by another simple unit (C74_false: 2*Length(3,'m',2) is a length) or a number is added to a simple quantity; proved for all other expressions."
  },
  {
   "property": "C75",
   "status": "partial",
   "theorems": [
    "Verif.C75_pipe_heat",
    "Verif.C75_planar_heat",
    "Verif.C75_planar_heat_thickness",
    "Verif.C75_planar_heat_T2",
    "Verif.C75_planar_heat_T1",
    "Verif.C75_planar_flux",
    "Verif.C75_planar_flux_thickness",
    "Verif.C75_planar_flux_T2",
    "Verif.C75_planar_flux_T1",
    "Verif.C75_pseudo_steady_time",
    "Verif.C75_semi_infinite_slab",
    "Verif.C75_lumped",
    "Verif.C75_z_factor",
    "Verif.C75_nh_factor",
    "Verif.C75_logmean",
    "Verif.C75_logmean_cocurrent_partial",
    "Verif.C75_ge",
    "Verif.C75_htc_shell",
    "Verif.C75_wall_viscosity",
    "Verif.C75_turbulent_avg",
    "Verif.C75_turbulent_local",
    "Verif.C75_pipe_laminar",
    "Verif.C75_pipe_turbulent",
    "Verif.C75_cross_cylinder",
    "Verif.C75_cross_sphere",
    "Verif.C75_short_pipe",
    "Verif.C75_condensation",
    "Verif.C75_flux_max",
    "Verif.C75_planar_mass_transfer",
    "Verif.C75_planar_mass_flux",
    "Verif.C75_pipe_mass_transfer",
    "Verif.C75_sphere_mass_transfer",
    "Verif.C75_semi_infinite_diffusion",
    "Verif.C75_planar_mass_transfer_molar",
    "Verif.C75_planar_mass_flux_molar",
    "Verif.C75_pipe_mass_transfer_molar",
    "Verif.C75_sphere_mass_transfer_molar",
    "Verif.C75_semi_infinite_diffusion_molar",
    "Verif.C75_two_d_pulse",
    "Verif.C75_one_d_pulse",
    "Verif.C75_three_d_pulse_sphere",
    "Verif.C75_three_d_pulse_hemisphere",
    "Verif.C75_three_d_pulse_cube",
    "Verif.C75_reynolds",
    "Verif.C75_biot",
    "Verif.C75_prandtl",
    "Verif.C75_schmidt",
    "Verif.C75_gretz",
    "Verif.C75_grashof",
    "Verif.C75_thermal_beta",
    "Verif.C75_vessel_cylinder",
    "Verif.C75_vessel_sphere",
    "Verif.C75_far",
    "Verif.C75_osha",
    "Verif.C75_evaporation",
    "Verif.C75_enclosure",
    "Verif.C75_ppm",
    "Verif.C75_cstr",
    "Verif.C75_finite_slab_conduction",
    "Verif.C75_finite_slab_total_heat",
    "Verif.C75_finite_slab_diffusion",
    "Verif.C75_stokes_einstein",
    "Verif.C75_ionic_diffusion",
    "Verif.C75_prefix_ignored",
    "Verif.C75_checked"
   ],
   "note": "A dimensional checker for expressions is proved sound (C75_checked) and applied to the formulas, series included. With prefixes the claim is false (C75_prefix_ignored). Missing: the cocurrent branch of deltat_logmean, which assigns a temperature instead of a difference (C75_logmean_cocurrent_partial), formulas the checker refuses (equivalent_diameter with an area over a length, Sb_calc, Sc_calc, K_from_standard with its cm/s, cubic equations of state, radiation)."
  },
  {
   "property": "C76",
   "status": "partial",
   "theorems": [
    "Verif.C76_convertible_iff_partial",
    "Verif.C76_converted_value_partial",
    "Verif.C76_symmetric",
    "Verif.C76_reflexive",
    "Verif.C76_order",
    "Verif.C76_force_false",
    "Verif.C76_psi_false",
    "Verif.C76_celsius_false",
    "Verif.C76_watt_false"
   ],
   "note": "False for N against kg*m/s^2, psi against Pa, two derived units in one half, and degrees Celsius in a compound target (C76_force_false, C76_psi_false, C76_watt_false, C76_celsius_false). Proved as an equivalence for units over the vocabulary: conversion returns iff dimension and net exponent of force agree (C76_convertible_iff_partial)."
  },
  {
   "property": "C77",
   "status": "partial",
   "theorems": [
    "Verif.C77_irreducible",
    "Verif.C77_idempotent",
    "Verif.C77_greatest_first",
    "Verif.C77_product_irreducible",
    "Verif.C77_quotient_irreducible",
    "Verif.C77_power_irreducible",
    "Verif.C77_simple_false",
    "Verif.C77_product_recognised_partial",
    "Verif.C77_quotient_recognised_partial",
    "Verif.C77_volt_false",
    "Verif.C77_root_false",
    "Verif.C77_product_recognised_signed_partial",
    "Verif.C77_quotient_recognised_signed_partial"
   ],
   "note": "Irreducibility, idempotence and the choice of the greatest match hold for all lists; products of two simple quantities are not simplified (C77_simple_false). Recognition is proved for Pa, J, W, psi, cP, C and exponents between 1 and 100; the volt is never recognised (C77_volt_false) and neither are roots (C77_root_false). The theorems named _signed admit negative exponents above the line on units that are not written out in base units."
  },
  {
   "property": "C78",
   "status": "partial",
   "theorems": [
    "Verif.C78_product",
    "Verif.C78_quotient",
    "Verif.C78_power",
    "Verif.C78_negation",
    "Verif.C78_sum",
    "Verif.C78_difference",
    "Verif.C78_sum_absolute",
    "Verif.C78_difference_absolute",
    "Verif.C78_convert_simple",
    "Verif.C78_convert_tables",
    "Verif.C78_convert_compound",
    "Verif.C78_convert_temperature",
    "Verif.C78_round_trip_simple",
    "Verif.C78_round_trip_compound",
    "Verif.C78_reynolds",
    "Verif.C78_calculation_partial",
    "Verif.C78_double",
    "Verif.C78_cancellation_false"
   ],
   "note": "False with cancellation (C78_cancellation_false: in double precision 0.1 kg + 0.7 kg - 0.8 kg is not zero, so no relative bound holds). Proved for every expression without cancellation and without simple temperature conversions (C78_calculation_partial); sums of any sign and temperatures have absolute bounds (C78_sum_absolute, C78_difference_absolute, C78_convert_temperature). Assumes that no operation overflows or underflows; exponents are exact."
  },
  {
   "property": "C79",
   "status": "partial",
   "theorems": [
    "Verif.C79_printed_partial",
    "Verif.C79_printed_false",
    "Verif.C79_read_back_iff",
    "Verif.C79_rate_constant_false",
    "Verif.C79_rate_constant_convert_false"
   ],
   "note": "False: remove_zero prints m^2.05 like m^2 (C79_printed_false), and only single symbols or one symbol over another are read back (C79_read_back_iff), so the rate constants of all orders above one get unknown units (C79_rate_constant_false, C79_rate_constant_convert_false). Proved: where remove_zero changes nothing, the printed text determines the numerator and denominator as printed."
  },
  {
   "property": "C80",
   "status": "proved",
   "theorems": [
    "Verif.C80_sharing_unobservable",
    "Verif.C80_memory_kept",
    "Verif.C80_variables_kept",
    "Verif.C80_operators_pure",
    "Verif.C80_power_pure"
   ],
   "note": "Every program of constructors, operators, powers, negation and conversions, from the start and statement by statement: the model with lists and BaseUnit objects in memory agrees with plain values (C80_sharing_unobservable), memory only grows (C80_memory_kept), variables are kept unless an in-place conversion concerns the same object (C80_variables_kept). The intermediate lists of conversions are not allocated in the model (they are made from deep copies)."
  },
  {
   "property": "C81",
   "status": "partial",
   "theorems": [
    "Verif.C81_deconstruct_harmless",
    "Verif.C81_cancel_keeps_net",
    "Verif.C81_combine_keeps_net",
    "Verif.C81_cancel_units_false",
    "Verif.C81_simplify_units_false",
    "Verif.C81_default_list_false",
    "Verif.C81_shared_entry_false"
   ],
   "note": "False for simplify_units: it empties the quantity it is called on and can spoil the default list (C81_simplify_units_false, C81_default_list_false); a quantity built with the same BaseUnit twice loses its unit when squared (C81_shared_entry_false). Proved: deconstruct_units and deconstruct_unit_prefixes change nothing; cancel_units and combine_units change the lists (C81_cancel_units_false) but keep the net exponents."
  },
  {
   "property": "C82",
   "status": "proved",
   "theorems": [
    "Verif.C82_plain_numbers",
    "Verif.C82_counted",
    "Verif.C82_table",
    "Verif.C82_planar_flux",
    "Verif.C82_pipe_heat",
    "Verif.C82_sum",
    "Verif.C82_difference",
    "Verif.C82_conversion",
    "Verif.C82_function",
    "Verif.C82_formula",
    "Verif.C82_formulas",
    "Verif.C82_series",
    "Verif.C82_library"
   ],
   "note": "Whole formulas by induction on the expression (C82_formula), with every listed formula of the library proved equal to its model (C82_formulas, C82_series); constant counts for 39 formulas (C82_table), explicit bounds for planar_flux and pipe_heat. Functions of the math module are assumed accurate to the same relative precision; exponents of powers are exact rationals; cubic equations of state, castDiffusion, the radiation network and water tables are not among the coded formulas."
  },
  {
   "property": "C83",
   "status": "partial",
   "theorems": [
    "Verif.C83_semi_infinite_conduction",
    "Verif.C83_semi_infinite_diffusion",
    "Verif.C83_lumped",
    "Verif.C83_lumped_unique",
    "Verif.C83_finite_conduction",
    "Verif.C83_total_heat",
    "Verif.C83_finite_diffusion",
    "Verif.C83_one_d_pulse",
    "Verif.C83_two_d_pulse",
    "Verif.C83_three_d_pulse",
    "Verif.C83_planar_heat",
    "Verif.C83_planar_flux",
    "Verif.C83_pipe_heat",
    "Verif.C83_sphere_heat_partial",
    "Verif.C83_planar_mass",
    "Verif.C83_pipe_mass",
    "Verif.C83_sphere_mass",
    "Verif.C83_sphere_heat_false",
    "Verif.C83_melting",
    "Verif.C83_logmean",
    "Verif.C83_arrhenius"
   ],
   "note": "sphere_heat is the flow divided by k (C83_sphere_heat_false, C83_sphere_heat_partial). Everything else holds as stated for SI arguments, with Cs and Co of finite_slab_diffusion exchanged (C83_finite_diffusion). Uniqueness of the transient slab solutions is C87."
  },
  {
   "property": "C84",
   "status": "proved",
   "theorems": [
    "Verif.C84_conduction_terms",
    "Verif.C84_conduction_limit",
    "Verif.C84_conduction_start",
    "Verif.C84_total_heat_terms",
    "Verif.C84_diffusion_terms",
    "Verif.C84_diffusion_limit"
   ],
   "note": "SI arguments. x is measured from the surface and Cs, Co of finite_slab_diffusion are exchanged, as the code does (C48, C71)."
  },
  {
   "property": "C85",
   "status": "proved",
   "theorems": [
    "Verif.C85_redlich_kwong_vapour",
    "Verif.C85_redlich_kwong_vapour_exists",
    "Verif.C85_redlich_kwong_vapour_rate",
    "Verif.C85_redlich_kwong_liquid",
    "Verif.C85_soave_vapour",
    "Verif.C85_soave_vapour_rate",
    "Verif.C85_soave_liquid",
    "Verif.C85_van_der_waals_vapour",
    "Verif.C85_van_der_waals_liquid",
    "Verif.C85_peng_robinson_liquid",
    "Verif.C85_documented_example",
    "Verif.C85_no_liquid",
    "Verif.C85_peng_robinson_vapour",
    "Verif.C85_peng_robinson_first",
    "Verif.C85_peng_robinson_documented"
   ],
   "note": "Vapour and liquid for all four functions (peng_robinson's vapour from the first iteration on). Hypotheses are the existence of a solution in the monotone range, or A < 1/4. The documented examples are refuted in C85_documented_example and C85_peng_robinson_documented; C85_no_liquid shows a run that grows without bound."
  },
  {
   "property": "C86",
   "status": "proved",
   "theorems": [
    "Verif.C86_pipe_heat",
    "Verif.C86_planar_heat",
    "Verif.C86_planar_heat_thickness",
    "Verif.C86_planar_heat_T2",
    "Verif.C86_planar_heat_T1",
    "Verif.C86_planar_flux",
    "Verif.C86_planar_flux_thickness",
    "Verif.C86_planar_flux_T2",
    "Verif.C86_planar_flux_T1",
    "Verif.C86_pseudo_steady_time",
    "Verif.C86_semi_infinite_slab",
    "Verif.C86_lumped",
    "Verif.C86_z_factor",
    "Verif.C86_nh_factor",
    "Verif.C86_logmean",
    "Verif.C86_ge",
    "Verif.C86_wall_viscosity",
    "Verif.C86_turbulent_avg",
    "Verif.C86_turbulent_local",
    "Verif.C86_pipe_turbulent",
    "Verif.C86_cross_cylinder",
    "Verif.C86_cross_sphere",
    "Verif.C86_short_pipe",
    "Verif.C86_condensation",
    "Verif.C86_flux_max",
    "Verif.C86_planar_mass_transfer",
    "Verif.C86_planar_mass_flux",
    "Verif.C86_pipe_mass_transfer",
    "Verif.C86_sphere_mass_transfer",
    "Verif.C86_semi_infinite_diffusion",
    "Verif.C86_planar_mass_transfer_molar",
    "Verif.C86_planar_mass_flux_molar",
    "Verif.C86_pipe_mass_transfer_molar",
    "Verif.C86_sphere_mass_transfer_molar",
    "Verif.C86_semi_infinite_diffusion_molar",
    "Verif.C86_two_d_pulse",
    "Verif.C86_reynolds",
    "Verif.C86_biot",
    "Verif.C86_prandtl",
    "Verif.C86_schmidt",
    "Verif.C86_gretz",
    "Verif.C86_grashof",
    "Verif.C86_thermal_beta",
    "Verif.C86_vessel_cylinder",
    "Verif.C86_vessel_sphere",
    "Verif.C86_far",
    "Verif.C86_osha",
    "Verif.C86_evaporation",
    "Verif.C86_enclosure",
    "Verif.C86_cstr",
    "Verif.C86_ignored_pipe_heat",
    "Verif.C86_ignored_pseudo_steady_time",
    "Verif.C86_ignored_lumped",
    "Verif.C86_ignored_htc_shell",
    "Verif.C86_ignored_planar_mass_transfer",
    "Verif.C86_ignored_pipe_mass_transfer",
    "Verif.C86_ignored_sphere_mass_transfer",
    "Verif.C86_ignored_semi_infinite_diffusion",
    "Verif.C86_ignored_two_d_pulse",
    "Verif.C86_ignored_one_d_pulse",
    "Verif.C86_ignored_three_d_pulse_sphere",
    "Verif.C86_ignored_three_d_pulse_hemisphere",
    "Verif.C86_ignored_three_d_pulse_cube",
    "Verif.C86_ignored_reynolds",
    "Verif.C86_ignored_biot",
    "Verif.C86_ignored_gretz",
    "Verif.C86_ignored_grashof",
    "Verif.C86_ignored_thermal_beta",
    "Verif.C86_ignored_evaporation",
    "Verif.C86_ignored_enclosure",
    "Verif.C86_ignored_ppm",
    "Verif.C86_ignored_semi_infinite_slab",
    "Verif.C86_ignored_planar_heat",
    "Verif.C86_checked"
   ],
   "note": "C86_checked is the soundness of the checker by induction on the expression; 49 formulas follow, each with the largest set of prefixed arguments the checker accepts. C86_ignored_* proves for 23 formulas that the prefix of the other arguments has no effect. Area and volume may be simple or compound; the other kinds are what their class is."
  },
  {
   "property": "C87",
   "status": "partial",
   "theorems": [
    "Verif.C87_semi_infinite_conduction_any_units",
    "Verif.C87_semi_infinite_diffusion_any_units",
    "Verif.C87_semi_infinite_conduction",
    "Verif.C87_semi_infinite_diffusion",
    "Verif.C87_finite_conduction",
    "Verif.C87_finite_between",
    "Verif.C87_short_times",
    "Verif.C87_finite_diffusion_partial",
    "Verif.C87_finite_diffusion_false",
    "Verif.C87_two_series",
    "Verif.C87_total_heat"
   ],
   "note": "Existence and uniqueness are proved for histories that are bounded and continuous at positive times; SI arguments; any known units for the semi-infinite formulas (C87_semi_infinite_*_any_units). finite_slab_diffusion solves the problem with Cs and Co exchanged (C87_finite_diffusion_partial), not the documented one (C87_finite_diffusion_false). The instantaneous pulses are C92."
  },
  {
   "property": "C88",
   "status": "partial",
   "theorems": [
    "Verif.C88_law",
    "Verif.C88_recovers_partial",
    "Verif.C88_misses",
    "Verif.C88_first_tested",
    "Verif.C88_after_zero",
    "Verif.C88_first_order",
    "Verif.C88_exact",
    "Verif.C88_below_one",
    "Verif.C88_recovers_false",
    "Verif.C88_small_concentrations",
    "Verif.C88_documented_range_false",
    "Verif.C88_documented_range"
   ],
   "note": "False: order 5/6 is reported as 2/3 with a perfect fit (C88_recovers_false), second order is not found with the documented range (C88_documented_range_false). C88_recovers_partial, C88_misses and C88_exact say exactly what is reported as long as order 1 has not been passed; C88_first_order, C88_first_tested, C88_after_zero and C88_documented_range are the cases in which the true order is found. Exact real arithmetic."
  },
  {
   "property": "C89",
   "status": "partial",
   "theorems": [
    "Verif.C89_enthalpy",
    "Verif.C89_heat_capacities",
    "Verif.C89_ideal_gas",
    "Verif.C89_heating_raises",
    "Verif.C89_transport",
    "Verif.C89_density_volume_partial",
    "Verif.C89_density_volume_false",
    "Verif.C89_enthalpy_of_heating",
    "Verif.C89_entropy_of_heating",
    "Verif.C89_heat_of_vaporisation",
    "Verif.C89_object_partial"
   ],
   "note": "Density times specific volume is wrong between 365 K and 375 K, where both are interpolated between liquid and steam (C89_density_volume_false: over 146 at every temperature from 366 K to 374 K); everything else holds on the whole range (C89_density_volume_partial outside that cell). Units are those attached by the object (C89_object_partial)."
  },
  {
   "property": "C90",
   "status": "partial",
   "theorems": [
    "Verif.C90_least_squares",
    "Verif.C90_result",
    "Verif.C90_exact",
    "Verif.C90_smallest_partial",
    "Verif.C90_reordered",
    "Verif.C90_order_false",
    "Verif.C90_never_reported",
    "Verif.C90_impossible_false",
    "Verif.C90_several_false"
   ],
   "note": "False: C90_order_false (H2O -> H2 + O2 gives a coefficient 0, the other order is right), C90_impossible_false (CO -> CO2), C90_several_false (a negative coefficient). C90_result gives the printed coefficients of every equation with one balance and C90_exact says they are right exactly when the coefficients of all molecules but the last have no common factor (C90_smallest_partial). C90_reordered: otherwise the order does not matter. The linear solver enters as a least squares solution up to a small error."
  },
  {
   "property": "C91",
   "status": "proved",
   "theorems": [
    "Verif.C91_refinement",
    "Verif.C91_arguments_kept",
    "Verif.C91_result_new",
    "Verif.C91_returned_argument",
    "Verif.C91_result_apart",
    "Verif.C91_formulas",
    "Verif.C91_series",
    "Verif.C91_laminar",
    "Verif.C91_flux_max_boiling",
    "Verif.C91_logmean",
    "Verif.C91_radiation",
    "Verif.C91_wilke_chang",
    "Verif.C91_fullers",
    "Verif.C91_shell",
    "Verif.C91_cubic",
    "Verif.C91_parameter_in_place_shows",
    "Verif.C91_returned_parameter_shows"
   ],
   "note": "Bodies are run on objects in memory (Units/Calls) and refine the run on plain values (Spec/Calls) for every program of statements and proper calls; every function of the library that returns a quantity is written as a body, proved proper and proved to return what its model returns. Two theorems show that converting or returning a parameter would be visible. Exceptions may differ when several parts of a body raise."
  },
  {
   "property": "C92",
   "status": "proved",
   "theorems": [
    "Verif.C92_one_d_any_units",
    "Verif.C92_two_d_any_units",
    "Verif.C92_hemisphere_any_units",
    "Verif.C92_cube_any_units",
    "Verif.C92_one_d",
    "Verif.C92_two_d",
    "Verif.C92_three_d",
    "Verif.C92_shapes",
    "Verif.C92_no_edge",
    "Verif.C92_restart"
   ],
   "note": "Existence and uniqueness among fields that are continuous at positive times, bounded and integrable from any positive time on, and concentrated at the origin as time tends to zero (weak convergence); SI arguments, and any known units in C92_*_any_units (whatever is returned has the magnitude claimed). Walls: derivatives one sided on the wall, no flux through it; proved by mirror images. No name for the shape stands for an edge of two walls (C92_no_edge), and any other text is taken as no wall. Other units: C54 (cm^2/s is false there)."
  },
  {
   "property": "C93",
   "status": "partial",
   "theorems": [
    "Verif.C93_convert",
    "Verif.C93_lumped",
    "Verif.C93_semi_infinite",
    "Verif.C93_finite_slab",
    "Verif.C93_z_factor",
    "Verif.C93_nh_factor",
    "Verif.C93_log_mean",
    "Verif.C93_log_mean_celsius",
    "Verif.C93_log_mean_convert_false",
    "Verif.C93_heat_flow",
    "Verif.C93_thickness",
    "Verif.C93_T2",
    "Verif.C93_T1",
    "Verif.C93_heat_mixed_partial",
    "Verif.C93_heat_celsius_false",
    "Verif.C93_heat_exact",
    "Verif.C93_T2_mixed_false",
    "Verif.C93_T1_mixed_false",
    "Verif.C93_flux",
    "Verif.C93_flux_thickness",
    "Verif.C93_flux_T2",
    "Verif.C93_flux_T1",
    "Verif.C93_pipe",
    "Verif.C93_lumped_value",
    "Verif.C93_stokes_absolute_partial",
    "Verif.C93_stokes_fahrenheit",
    "Verif.C93_stokes_celsius_false",
    "Verif.C93_stokes_exact",
    "Verif.C93_arrhenius_false"
   ],
   "note": "Exact reals. Transient formulas: all other arguments (any values, errors included). Conduction: SI for the other arguments, conductivity per degree of any scale; which pairs of scales work is characterised exactly (C93_heat_exact, C93_stokes_exact). Refuted: Celsius mixed with another scale, solving for a temperature with a conductivity per degree of another scale, converting a log mean difference, Fahrenheit and Celsius in stokes_einstein, everything but kelvin in arrhenius."
  },
  {
   "property": "C94",
   "status": "proved",
   "theorems": [
    "Verif.C94_mul",
    "Verif.C94_div",
    "Verif.C94_pow",
    "Verif.C94_no_drift",
    "Verif.C94_formula",
    "Verif.C94_tenths_drift",
    "Verif.C94_tenths_drift_add"
   ],
   "note": "Any rounding that is the identity on a fine enough grid (C94_mul, C94_div, C94_pow), doubles with sixteenths in particular (C94_no_drift, C94_formula). Ampere, coulomb and volt excluded: their definitions divide by 3. Without the restriction to sixteenths it fails: C94_tenths_drift."
  },
  {
   "property": "C95",
   "status": "partial",
   "theorems": [
    "Verif.C95_old_ignored",
    "Verif.C95_text",
    "Verif.C95_read_back",
    "Verif.C95_determined",
    "Verif.C95_complete",
    "Verif.C95_again_partial",
    "Verif.C95_again_false",
    "Verif.C95_documented"
   ],
   "note": "Proved for every equation text, solver and formatting: C95_text, C95_complete, C95_read_back, C95_determined, C95_old_ignored; whole documented output for equations with one balance in C95_documented. False: a balanced equation is left as it is (C95_again_false); C95_again_partial gives the exact second output."
  },
  {
   "property": "C96",
   "status": "partial",
   "theorems": [
    "Verif.C96_exact",
    "Verif.C96_false",
    "Verif.C96_every_equation_refused",
    "Verif.C96_parens_partial"
   ],
   "note": "All texts: C96_exact says what the check accepts. False for every text with any other character (C96_false, C96_every_equation_refused); right for the parentheses of a text taken alone (C96_parens_partial)."
  },
  {
   "property": "C97",
   "status": "partial",
   "theorems": [
    "Verif.C97_arithmetic_partial",
    "Verif.C97_genuine",
    "Verif.C97_prefix_letter_false",
    "Verif.C97_conversion_false",
    "Verif.C97_furlong"
   ],
   "note": "Arithmetic: proved for every new name without a prefix letter and every size (C97_arithmetic_partial, C97_genuine). False for names with a prefix letter (C97_prefix_letter_false) and for conversion after any history of registrations (C97_conversion_false, C97_furlong)."
  },
  {
   "property": "C98",
   "status": "partial",
   "theorems": [
    "Verif.C98_trends",
    "Verif.C98_trends_more",
    "Verif.C98_logmean",
    "Verif.C98_stokes_einstein",
    "Verif.C98_ionic",
    "Verif.C98_sphere_heat_partial",
    "Verif.C98_sphere_heat_false"
   ],
   "note": "Proved for 60 rows read off the formulas (C98_trends), 8 rearranged ones (C98_trends_more), the log mean, stokes_einstein and ionic_diffusion_coefficient, in all units. False for the conductivity of sphere_heat (C98_sphere_heat_false); the rest of sphere_heat in C98_sphere_heat_partial."
  },
  {
   "property": "C99",
   "status": "partial",
   "theorems": [
    "Verif.C99_returns",
    "Verif.C99_values",
    "Verif.C99_covers",
    "Verif.C99_trends",
    "Verif.C99_odd_partial",
    "Verif.C99_documented_false",
    "Verif.C99_written_differently_false"
   ],
   "note": "Proved for every row of the table (C99_returns, C99_values): all arrangements of SI units. False for sphere_heat, Sb_calc and Sc_calc (C99_documented_false), which return quantities of another dimension (C99_odd_partial). Compound arguments that are subtracted must be written alike (C99_written_differently_false). C99_trends: the trends of C98 without assuming that the calls return."
  },
  {
   "property": "C100",
   "status": "partial",
   "theorems": [
    "Verif.C100_prefixes",
    "Verif.C100_covers",
    "Verif.C100_heeded",
    "Verif.C100_struck",
    "Verif.C100_wrong",
    "Verif.C100_all_heeded_false"
   ],
   "note": "The full claim is false (C100_all_heeded_false: the Biot number of a body measured in cm is 100 times too large). What happens instead is proved for every row of the table (C100_prefixes): each argument is either heeded or read as if written without its prefix, up to a stated power of the factors; C100_struck and C100_wrong draw the consequences, C100_heeded is the claim for the rows that ignore nothing. Arguments marked absent must have no prefix; Sb_calc, Sc_calc and K_from_standard are not in the table (C100_covers)."
  },
  {
   "property": "C101",
   "status": "proved",
   "theorems": [
    "Verif.C101_rows",
    "Verif.C101_cell",
    "Verif.C101_range",
    "Verif.C101_grid",
    "Verif.C101_relative",
    "Verif.C101_phase",
    "Verif.C101_object",
    "Verif.C101_object_range",
    "Verif.C101_exact",
    "Verif.C101_between",
    "Verif.C101_cell_monotone",
    "Verif.C101_monotone"
   ],
   "note": "Every rounding that returns doubles, fixes doubles, is monotone and has relative error at most 2^-53 (python_rounding: round to nearest even is one). C101_exact ties the floating point model to the exact one of C37. Overflow and underflow are not modelled; they do not occur for these numbers."
  },
  {
   "property": "C102",
   "status": "proved",
   "theorems": [
    "Verif.C102_redlich_kwong_vapour",
    "Verif.C102_redlich_kwong_liquid",
    "Verif.C102_soave_vapour",
    "Verif.C102_van_der_waals_vapour",
    "Verif.C102_van_der_waals_liquid",
    "Verif.C102_soave_liquid",
    "Verif.C102_settles",
    "Verif.C102_peng_robinson_vapour",
    "Verif.C102_peng_robinson_liquid"
   ],
   "note": "Proved for all four functions, vapour and liquid, in the regions where the iteration contracts: explicit error bounds for every iteration count in any arithmetic of relative precision \u03b5, with examples in double precision. The equation meant for van_der_waals and peng_robinson is the one the code solves (see C43). Overflow and underflow are outside the statement."
  },
  {
   "property": "C103",
   "status": "partial",
   "theorems": [
    "Verif.C103_heat_flow",
    "Verif.C103_heat_false",
    "Verif.C103_heat_partial",
    "Verif.C103_prandtl_false",
    "Verif.C103_prandtl_grams",
    "Verif.C103_prandtl_partial",
    "Verif.C103_reynolds_false",
    "Verif.C103_reynolds_partial",
    "Verif.C103_pipe_partial",
    "Verif.C103_diffusivity_false",
    "Verif.C103_diffusivity_partial",
    "Verif.C103_kinematic_partial",
    "Verif.C103_volume",
    "Verif.C103_gibbs_false",
    "Verif.C103_gibbs_partial"
   ],
   "note": "False for Mass times an enthalpy difference (C103_heat_false: a thousandth of the heat, at all temperatures), for reynolds and prandtl of the attributes (C103_prandtl_false, C103_reynolds_false: never numbers), for the thermal diffusivity (C103_diffusivity_false) and for h - T s (C103_gibbs_false: TypeError). Proved: heat flows and volumes in full, and each of the others with the conversion it needs, including the range of the Prandtl number and the chain to htc_pipe_turbulent."
  },
  {
   "property": "C104",
   "status": "partial",
   "theorems": [
    "Verif.C104_product_partial",
    "Verif.C104_product_simple_partial",
    "Verif.C104_quotient_partial",
    "Verif.C104_simple_divisor_partial",
    "Verif.C104_simple_dividend_partial",
    "Verif.C104_power_partial",
    "Verif.C104_large_false",
    "Verif.C104_simple_divisor_false",
    "Verif.C104_simple_dividend_false"
   ],
   "note": "False above exponent 100 in base units (C104_large_false) and for the list a division by or of a simple quantity leaves uncollected (C104_simple_divisor_false, C104_simple_dividend_false); proved otherwise, for any sign of the exponents. Powers: quantities without prefixes."
  },
  {
   "property": "C105",
   "status": "proved",
   "theorems": [
    "Verif.C105_inputs",
    "Verif.C105_leaves",
    "Verif.C105_formula",
    "Verif.C105_range_needed",
    "Verif.C105_numbers",
    "Verif.C105_double_range",
    "Verif.C105_exp_lost"
   ],
   "note": "C105_range_needed and C105_exp_lost show that the range condition cannot be dropped. The values Python computes from inf and nan are not modelled."
  },
  {
   "property": "C106",
   "status": "partial",
   "theorems": [
    "Verif.C106_temperature",
    "Verif.C106_simple_partial",
    "Verif.C106_round_trips",
    "Verif.C106_drift",
    "Verif.C106_simple_false",
    "Verif.C106_compound",
    "Verif.C106_compound_iff",
    "Verif.C106_rounding",
    "Verif.C106_rounding_direct",
    "Verif.C106_rounding_compound",
    "Verif.C106_rounding_temperature"
   ],
   "note": "False with inch, foot, mile or pound on the way (C106_simple_false): n round trips multiply by the n-th power of a factor other than one (C106_round_trips), without bound (C106_drift). Proved for all other chains of the six linear kinds (C106_simple_partial), for temperatures, and for compound quantities including when a chain returns (C106_compound_iff). Volumes and areas: see C20. Rounding: C106_rounding, C106_rounding_compound and, for temperatures, C106_rounding_temperature for chains of any length."
  },
  {
   "property": "C107",
   "status": "proved",
   "theorems": [
    "Verif.C107_cooling",
    "Verif.C107_cooling_order",
    "Verif.C107_cooling_any_units",
    "Verif.C107_wall",
    "Verif.C107_wall_equivalent",
    "Verif.C107_wall_any_units",
    "Verif.C107_reactors",
    "Verif.C107_melting"
   ],
   "note": "Proved for any number of steps in SI, and in any units without prefix for cooling and the wall."
  },
  {
   "property": "C108",
   "status": "partial",
   "theorems": [
    "Verif.C108_builtin_sum",
    "Verif.C108_units",
    "Verif.C108_order",
    "Verif.C108_subtotals",
    "Verif.C108_units_iff",
    "Verif.C108_mean",
    "Verif.C108_compound_iff",
    "Verif.C108_one_class_iff",
    "Verif.C108_compound_false",
    "Verif.C108_compound_partial",
    "Verif.C108_rounding",
    "Verif.C108_rounding_order"
   ],
   "note": "False for subclasses of MultiUnit (C108_compound_false); C108_compound_iff and C108_one_class_iff say exactly when a total exists. Proved for simple quantities (value, order, subtotals, average, rounding) and plain MultiUnit. C108_builtin_sum: Python's sum() always raises on quantities."
  },
  {
   "property": "C109",
   "status": "partial",
   "theorems": [
    "Verif.C109_repeated",
    "Verif.C109_add",
    "Verif.C109_add_int",
    "Verif.C109_pow_pow",
    "Verif.C109_pow_pow_int",
    "Verif.C109_root_of_square",
    "Verif.C109_square_of_root",
    "Verif.C109_div_partial",
    "Verif.C109_div_false",
    "Verif.C109_product",
    "Verif.C109_product_order",
    "Verif.C109_repeated_compound",
    "Verif.C109_add_compound",
    "Verif.C109_pow_pow_compound",
    "Verif.C109_product_pow",
    "Verif.C109_compound_equal_false",
    "Verif.C109_rounding",
    "Verif.C109_rounding_repeated",
    "Verif.C109_power_factor",
    "Verif.C109_product_pow_factor"
   ],
   "note": "False where q**a / q**a is the number 1 but q**0 is a quantity with exponent 0 (C109_div_false), and for == between compound quantities with prefixes: a product drops the prefix, a power keeps it (C109_compound_equal_false). Proved for simple quantities as equality of objects and for compound quantities as equality of magnitudes. Rounding: C109_rounding, C109_rounding_repeated. As factors of a further product powers and repeated products do compare equal (C109_power_factor, C109_product_pow_factor)."
  },
  {
   "property": "C110",
   "status": "partial",
   "theorems": [
    "Verif.C110_laminar",
    "Verif.C110_laminar_BTU",
    "Verif.C110_turbulent",
    "Verif.C110_transition",
    "Verif.C110_turbulent_negative_false"
   ],
   "note": "Laminar: exact, in W/m^2*K and BTU/hr*ft^2*F (C110_laminar, C110_laminar_BTU). Turbulent: within 0.1 % for every plate that reaches the transition (C110_transition); from the edge on, any units, the difference is exactly the term with 871 (C110_turbulent). Positive is false: below a Reynolds number of 290000 the turbulent average is negative and nothing warns (C110_turbulent_negative_false)."
  },
  {
   "property": "C111",
   "status": "proved",
   "theorems": [
    "Verif.C111_pipe_heat",
    "Verif.C111_pipe_heat_log_mean",
    "Verif.C111_pipe_mass",
    "Verif.C111_pipe_mass_log_mean",
    "Verif.C111_sphere_mass",
    "Verif.C111_planar_layers",
    "Verif.C111_planar_one",
    "Verif.C111_pipe_layers",
    "Verif.C111_pipe_one",
    "Verif.C111_pipe_mass_layers",
    "Verif.C111_pipe_mass_one",
    "Verif.C111_sphere_mass_layers",
    "Verif.C111_sphere_mass_one",
    "Verif.C111_pipe_heat_any_units",
    "Verif.C111_pipe_heat_log_mean_any_units",
    "Verif.C111_pipe_mass_any_units",
    "Verif.C111_sphere_mass_any_units"
   ],
   "note": "Proved with SI constructors and, for the comparison with flat walls, for arguments in any known units without prefix (_any_units). Spherical conduction is left out because sphere_heat ignores the conductivity (C35)."
  },
  {
   "property": "C112",
   "status": "partial",
   "theorems": [
    "Verif.C112_written",
    "Verif.C112_order",
    "Verif.C112_reciprocal",
    "Verif.C112_scale",
    "Verif.C112_sizes_partial",
    "Verif.C112_written_differently_false"
   ],
   "note": "Proved except for the last part, which is false: m/s has the total 2 and m*s^-1 has 0, although their quotient is the number 1 (C112_written_differently_false)."
  },
  {
   "property": "C113",
   "status": "proved",
   "theorems": [
    "Verif.C113_half_space_heat",
    "Verif.C113_half_space_mass",
    "Verif.C113_half_space_analogy",
    "Verif.C113_lumped",
    "Verif.C113_slab_heat",
    "Verif.C113_slab_total_heat",
    "Verif.C113_slab_mass",
    "Verif.C113_one_d_pulse",
    "Verif.C113_two_d_pulse",
    "Verif.C113_three_d_pulse",
    "Verif.C113_planar_heat_reversed",
    "Verif.C113_planar_flux_reversed",
    "Verif.C113_pipe_heat_reversed",
    "Verif.C113_pipe_heat_renamed",
    "Verif.C113_planar_mass_reversed",
    "Verif.C113_planar_mass_flux_reversed",
    "Verif.C113_pipe_mass_reversed",
    "Verif.C113_pipe_mass_renamed",
    "Verif.C113_sphere_mass_reversed",
    "Verif.C113_sphere_mass_renamed",
    "Verif.C113_logmean_ends",
    "Verif.C113_logmean_sides",
    "Verif.C113_lumped_mixture",
    "Verif.C113_half_space_heat_mixture",
    "Verif.C113_slab_heat_mixture",
    "Verif.C113_half_space_mass_mixture",
    "Verif.C113_slab_mass_mixture",
    "Verif.C113_half_space_heat_SI",
    "Verif.C113_half_space_mass_SI",
    "Verif.C113_lumped_SI",
    "Verif.C113_slab_total_heat_SI"
   ],
   "note": "Whatever the two calls return, their magnitudes stand in the stated relation; that calls in SI units do return is C99, and the _SI theorems are equalities of whole results. Cocurrent exchangers are left out because deltat_logmean does not compute their mean difference (C44)."
  },
  {
   "property": "C114",
   "status": "proved",
   "theorems": [
    "Verif.C114_pipe_turbulent",
    "Verif.C114_pipe_laminar",
    "Verif.C114_cross_cylinder",
    "Verif.C114_cross_sphere",
    "Verif.C114_plate_turbulent",
    "Verif.C114_sphere_cools",
    "Verif.C114_grashof",
    "Verif.C114_exchanger_area",
    "Verif.C114_ventilation",
    "Verif.C114_ventilation_simple",
    "Verif.C114_ventilation_mass",
    "Verif.C114_settling",
    "Verif.C114_reactor",
    "Verif.C114_pipe_similarity",
    "Verif.C114_sphere_similarity",
    "Verif.C114_pipe_turbulent_SI",
    "Verif.C114_sphere_cools_SI",
    "Verif.C114_reactor_one_over"
   ],
   "note": "Chains of library functions in any known units without prefix. The factor of the ventilation chain is 10^7, not 10^6, because of the 10E6 in the code (C53). C114_reactor_one_over: a unit written 1/s keeps the digit as a unit, so the volume of the reactor is in L/1."
  },
  {
   "property": "C115",
   "status": "partial",
   "theorems": [
    "Verif.C115_class_lookup",
    "Verif.C115_vocabulary",
    "Verif.C115_class_unknown",
    "Verif.C115_class_unique",
    "Verif.C115_known_units",
    "Verif.C115_objects",
    "Verif.C115_objects_iff",
    "Verif.C115_constructor_partial",
    "Verif.C115_constructor_unchecked",
    "Verif.C115_constructor_false",
    "Verif.C115_constructor_exact",
    "Verif.C115_sum_honest",
    "Verif.C115_left_class",
    "Verif.C115_product_never",
    "Verif.C115_product_not_addable",
    "Verif.C115_plain_class",
    "Verif.C115_from_compound",
    "Verif.C115_compound_class",
    "Verif.C115_named_class"
   ],
   "note": "The registry and base_to_unit are as claimed. False otherwise (C115_constructor_false): seven constructors do not look at the unit, C115_constructor_exact says when the result is honest. C115_product_never: no simple product or quotient of honest quantities is honest (m times m is a Length with exponent 2, volume by area a Volume in m), so it cannot be added to or equal a quantity of the right class (C115_product_not_addable); compound results are always MultiUnit, so a computed density can be subtracted from but not added to a Density (C115_named_class). C115_vocabulary: the symbols known to the lookup, as a table written independently of the registry."
  },
  {
   "property": "C116",
   "status": "partial",
   "theorems": [
    "Verif.C116_time",
    "Verif.C116_order_of_measurements",
    "Verif.C116_concentration_partial",
    "Verif.C116_concentration_false"
   ],
   "note": "Order of the measurements (C116_order_of_measurements) and unit, zero and direction of time (C116_time): for all inputs, including exceptions. Unit of concentration: false (C116_concentration_false), because orders after 1 are tested on logarithms; C116_concentration_partial: true for positive data whenever 1 is at most the last order of the range. Exact real arithmetic."
  },
  {
   "property": "C117",
   "status": "proved",
   "theorems": [
    "Verif.C117_faults",
    "Verif.C117_exceptions",
    "Verif.C117_returns_iff",
    "Verif.C117_arrangement",
    "Verif.C117_pipe_heat",
    "Verif.C117_logmean"
   ],
   "note": "The calls of C99 without its assumptions on the numbers. Python returns a complex number for a root of a negative number; that is the outcome complexResult here, outside the model. Exact real arithmetic: overflow is C105. C117_pipe_heat and C117_logmean spell the condition out."
  },
  {
   "property": "C118",
   "status": "proved",
   "theorems": [
    "Verif.C118_faults",
    "Verif.C118_returns",
    "Verif.C118_any_set",
    "Verif.C118_as_si",
    "Verif.C118_logmean",
    "Verif.C118_covers",
    "Verif.C118_biot",
    "Verif.C118_calories"
   ],
   "note": "C118_faults is the claim, C118_returns gives the signs that exclude exceptions, C118_any_set and C118_as_si compare sets of units. C118_logmean is deltat_logmean, whose sign conditions the table cannot express. Three formulas with a constant in SI units are left out (C118_covers). A pressure is given as energy by volume. sphere_heat, Sb_calc and Sc_calc return the dimension their expression has, which is not the documented one (oddForeignTable; see C99). Symbols with a prefix letter are outside the claim: C118_calories shows calories read as centi-al, losing a factor 100."
  },
  {
   "property": "C119",
   "status": "partial",
   "theorems": [
    "Verif.C119_zero_partial",
    "Verif.C119_negative_partial",
    "Verif.C119_negative_hidden",
    "Verif.C119_zero_skips",
    "Verif.C119_third_order",
    "Verif.C119_refused_false"
   ],
   "note": "False (C119_refused_false, C119_third_order: two measurements, one zero, orders 2 and 3, give order 3 with r squared 1). True for zeros when the range starts at 0 or above and contains 1 (C119_zero_partial) and for negative entries when the range starts with 1 (C119_negative_partial). C119_negative_hidden: with a start between 0 and 1 a negative entry makes the answer (0, 0) without a word. C119_zero_skips: with orders above 1 a zero leaves only every other order of the range. Exact real arithmetic with numpy's inf and nan."
  },
  {
   "property": "C120",
   "status": "proved",
   "theorems": [
    "Verif.C120_change_units",
    "Verif.C120_as_si",
    "Verif.C120_absolute",
    "Verif.C120_logmean",
    "Verif.C120_odd_numbers"
   ],
   "note": "C120_change_units for two sets of units of the user's choice, C120_as_si with SI units on one side, C120_absolute for the three formulas with absolute temperatures (no shift), C120_logmean for deltat_logmean. For sphere_heat, Sb_calc and Sc_calc, whose results are not what is documented, C120_odd_numbers says how the number changes: Sb_calc and Sc_calc return the number of an area in units of length, sphere_heat forgets the conductivity. Known units with their real conversion factors are C86. Exact real arithmetic."
  },
  {
   "property": "C121",
   "status": "partial",
   "theorems": [
    "Verif.C121_grid_partial",
    "Verif.C121_method_partial",
    "Verif.C121_close_partial",
    "Verif.C121_count_partial",
    "Verif.C121_one_missing",
    "Verif.C121_never_one",
    "Verif.C121_first_order_lost",
    "Verif.C121_tested_false",
    "Verif.C121_stop_false",
    "Verif.C121_lost"
   ],
   "note": "C121_grid_partial and C121_method_partial: for whole numbers of any power of two (halves, quarters) the range in double precision is the exact one, for every rounding. C121_close_partial bounds the error of every tested order, C121_count_partial the number of orders. False in general: C121_one_missing, C121_never_one and C121_tested_false: from 0.5 in steps of 0.1 order 1 is never tested nor reported, whatever the measurements; C121_first_order_lost: exact arithmetic finds order 1 of a first order reaction there, double precision cannot; C121_lost: at its place all measurements between 0.61 and 1.64 become the same number. C121_stop_false: (1, 1.3, 0.1) tests four orders, the last beyond stop. np.arange is modelled as numpy computes it for floats; numpy itself is not in the repository."
  },
  {
   "property": "C122",
   "status": "partial",
   "theorems": [
    "Verif.C122_larger_partial",
    "Verif.C122_smaller_partial",
    "Verif.C122_celsius_partial",
    "Verif.C122_celsius_iff",
    "Verif.C122_kelvin_partial",
    "Verif.C122_celsius_false",
    "Verif.C122_cm_false"
   ],
   "note": "True from a larger unit through the standard unit (C122_larger_partial) and from the standard unit through a smaller one (C122_smaller_partial) when number times factor fits 53 bits; for every double between 128 and 700 K through Celsius (C122_kelvin_partial); from Celsius through Kelvin between 0 and 200 degrees exactly for whole numbers of 2^-44 (C122_celsius_iff, C122_celsius_partial from -200). False: 29 cm through metres (C122_cm_false), 0.1 degrees Celsius through Kelvin (C122_celsius_false, for every rounding). The size of the difference is bounded by C106_rounding and C106_rounding_temperature. Overflow and subnormal numbers are outside the model."
  },
  {
   "property": "C123",
   "status": "partial",
   "theorems": [
    "Verif.C123_add_comm_compound",
    "Verif.C123_add_comm_simple",
    "Verif.C123_mul_comm_simple",
    "Verif.C123_mul_comm_mixed",
    "Verif.C123_mul_comm_number",
    "Verif.C123_mul_comm_compound_partial",
    "Verif.C123_sub_zero_compound",
    "Verif.C123_sub_zero_simple",
    "Verif.C123_neg_sub_compound",
    "Verif.C123_neg_sub_simple",
    "Verif.C123_python_odd",
    "Verif.C123_div_self_compound",
    "Verif.C123_div_self_simple",
    "Verif.C123_double_compound",
    "Verif.C123_double_simple",
    "Verif.C123_add_comm_false",
    "Verif.C123_add_sub_false",
    "Verif.C123_div_mul_false",
    "Verif.C123_mul_comm_false"
   ],
   "note": "Hold for every rounding: C123_add_comm_compound, C123_add_comm_simple (same class), C123_mul_comm_simple, _mixed, _number, C123_sub_zero_*, C123_div_self_*, C123_double_*; C123_neg_sub_* for roundings that treat negatives alike, as Python's does (C123_python_odd). C123_mul_comm_compound_partial: products of compound quantities commute if one of them has no prefixes. False: C123_mul_comm_false (1 km times 1 dm*dm: the prefix factors multiply to 10 in one order and to 10.000000000000002 in the other), C123_add_comm_false (general class and particular class), C123_add_sub_false (0.1 + 0.4 - 0.4), C123_div_mul_false (1 / 49 * 49). Overflow and subnormal numbers are outside the model."
  },
  {
   "property": "C124",
   "status": "proved",
   "theorems": [
    "Verif.C124_formula",
    "Verif.C124_double",
    "Verif.C124_exact",
    "Verif.C124_no_overflow",
    "Verif.C124_library",
    "Verif.C124_library_exact",
    "Verif.C124_prefix_matters"
   ],
   "note": "C124_formula (any numbers in which products commute and multiplying a result by 1 changes nothing), C124_double (double precision, nearest, with overflow and underflow), C124_exact (real numbers), C124_library and C124_library_exact (every coded formula of the library but K_from_standard, which contains a constant in cm/s), C124_no_overflow (bounds of C105 for quantities). C124_prefix_matters: with prefixes the number is another one. Conversions are excluded; they multiply by factors and round."
  }
 ]
}