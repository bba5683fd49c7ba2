{
 "claims": [
  {
   "property": "C01",
   "status": "proved",
   "theorems": [
    "Geotecha.Piecewise.C01_interp_left",
    "Geotecha.Piecewise.C01_interp_right",
    "Geotecha.Piecewise.C01_interp_length",
    "Geotecha.Piecewise.C01_interp_between",
    "Geotecha.Piecewise.C01_interp_outside",
    "Geotecha.Piecewise.C01_interp_step"
   ],
   "note": ""
  },
  {
   "property": "C02",
   "status": "proved",
   "theorems": [
    "Geotecha.Piecewise.C02_interp_range",
    "Geotecha.Piecewise.C02_interp_hits_data"
   ],
   "note": ""
  },
  {
   "property": "C03",
   "status": "proved",
   "theorems": [
    "Geotecha.Piecewise.C03_forms_agree",
    "Geotecha.Piecewise.C03_forms_differ_outside",
    "Geotecha.Piecewise.C03_refuses"
   ],
   "note": "Agreement holds for queries within the data range; C03_forms_differ_outside shows the two forms differ outside the range when the data start or end with a step."
  },
  {
   "property": "C04",
   "status": "proved",
   "theorems": [
    "Geotecha.Piecewise.C04_round_trip",
    "Geotecha.Piecewise.C04_rejects",
    "Geotecha.Piecewise.C04_rejects'"
   ],
   "note": ""
  },
  {
   "property": "C05",
   "status": "proved",
   "theorems": [
    "Geotecha.Piecewise.C05_integral_exact",
    "Geotecha.Piecewise.C05_integral_additive",
    "Geotecha.Piecewise.C05_average"
   ],
   "note": ""
  },
  {
   "property": "C06",
   "status": "partial",
   "theorems": [
    "Geotecha.Piecewise.C06_negation",
    "Geotecha.Piecewise.C06_empty_interval_value",
    "Geotecha.Piecewise.C06_empty_interval_partial"
   ],
   "note": "False of the code: at an interior node the integral over an empty interval is not 0 (C06_negation). Proved away from nodes."
  },
  {
   "property": "C07",
   "status": "proved",
   "theorems": [
    "Geotecha.Piecewise.C07_integral_exact",
    "Geotecha.Piecewise.C07_average",
    "Geotecha.Piecewise.C07_all_inputs"
   ],
   "note": ""
  },
  {
   "property": "C08",
   "status": "proved",
   "theorems": [
    "Geotecha.Piecewise.C08_product_exact",
    "Geotecha.Piecewise.C08_outer"
   ],
   "note": ""
  },
  {
   "property": "C09",
   "status": "partial",
   "theorems": [
    "Geotecha.Piecewise.C09_classification_partial",
    "Geotecha.Piecewise.C09_negation"
   ],
   "note": "False of the code when a point is repeated (np.delete removes by position): C09_negation. Proved without repeated points."
  },
  {
   "property": "C10",
   "status": "partial",
   "theorems": [
    "Geotecha.Piecewise.C10_curve_unchanged",
    "Geotecha.Piecewise.C10_subsequence",
    "Geotecha.Piecewise.C10_dropped_near_line_partial",
    "Geotecha.Piecewise.C10_rejects",
    "Geotecha.Piecewise.C10_negation"
   ],
   "note": "False of the code for a spike that returns within 1e-8 of the kept point (C10_negation). Proved when no two points nearly coincide; then also the curve is unchanged if nearly collinear means collinear (C10_curve_unchanged)."
  },
  {
   "property": "C11",
   "status": "proved",
   "theorems": [
    "Geotecha.Piecewise.C11_reads_pure",
    "Geotecha.Piecewise.C11_fresh_reads"
   ],
   "note": ""
  },
  {
   "property": "C12",
   "status": "partial",
   "theorems": [
    "Geotecha.Piecewise.C12_add_shifts_operand",
    "Geotecha.Piecewise.C12_sub_result",
    "Geotecha.Piecewise.C12_negation",
    "Geotecha.Piecewise.C12_result_partial",
    "Geotecha.Piecewise.C12_stale_intervals"
   ],
   "note": "False of the code: the operand is shifted (C12_negation, C12_add_shifts_operand); the result itself is right for the point form (C12_result_partial), stale for the cached interval form (C12_stale_intervals)."
  },
  {
   "property": "C13",
   "status": "proved",
   "theorems": [
    "Geotecha.Piecewise.C13_same_grid",
    "Geotecha.Piecewise.C13_same_curves"
   ],
   "note": "Same grid: always. Same curves: for lines whose abscissae are equal or further apart than the merging tolerance (np.allclose) and whose steps exceed it."
  },
  {
   "property": "C14",
   "status": "partial",
   "theorems": [
    "Geotecha.Piecewise.C14_sum",
    "Geotecha.Piecewise.C14_difference",
    "Geotecha.Piecewise.C14_sum_of_operands",
    "Geotecha.Piecewise.C14_switchbacks",
    "Geotecha.Piecewise.C14_negation"
   ],
   "note": "Proved for lines whose abscissae are equal or further apart than the tolerance, whose steps exceed the tolerance, and descending data not beginning with a step. C14_negation: false for descending data beginning with a step."
  },
  {
   "property": "C15",
   "status": "proved",
   "theorems": [
    "Geotecha.Piecewise.C15_subdivide",
    "Geotecha.Piecewise.C15_piece_length",
    "Geotecha.Piecewise.C15_x_only",
    "Geotecha.Piecewise.C15_just_before",
    "Geotecha.Piecewise.C15_rejects"
   ],
   "note": "logx/logy options not modelled."
  },
  {
   "property": "C16",
   "status": "proved",
   "theorems": [
    "Geotecha.Piecewise.C16_elements",
    "Geotecha.Piecewise.C16_rejects"
   ],
   "note": ""
  },
  {
   "property": "C17",
   "status": "proved",
   "theorems": [
    "Geotecha.Piecewise.C17_force_non_decreasing",
    "Geotecha.Piecewise.C17_result_sorted"
   ],
   "note": ""
  },
  {
   "property": "C18",
   "status": "proved",
   "theorems": [
    "Geotecha.Piecewise.C18_force_strictly_increasing",
    "Geotecha.Piecewise.C18_raises_iff"
   ],
   "note": ""
  },
  {
   "property": "C19",
   "status": "proved",
   "theorems": [
    "Geotecha.Piecewise.C19_predicates"
   ],
   "note": ""
  },
  {
   "property": "C20",
   "status": "partial",
   "theorems": [
    "Geotecha.Piecewise.C20_negation",
    "Geotecha.Piecewise.C20_leading_repeat",
    "Geotecha.Piecewise.C20_initially_increasing_partial"
   ],
   "note": "False of the code when the data start with a repeat (index compared instead of value): C20_negation, C20_leading_repeat."
  },
  {
   "property": "C21",
   "status": "proved",
   "theorems": [
    "Geotecha.Piecewise.C21_parts",
    "Geotecha.Piecewise.C21_include_end_point",
    "Geotecha.Piecewise.C21_constant_data"
   ],
   "note": ""
  },
  {
   "property": "C22",
   "status": "proved",
   "theorems": [
    "Geotecha.Quad.C22_geometric",
    "Geotecha.Quad.C22_affine",
    "Geotecha.Quad.C22_table",
    "Geotecha.Quad.C22_table_geometric"
   ],
   "note": ""
  },
  {
   "property": "C23",
   "status": "proved",
   "theorems": [
    "Geotecha.Quad.C23_exact",
    "Geotecha.Quad.C23_inside",
    "Geotecha.Quad.C23_rejects"
   ],
   "note": ""
  },
  {
   "property": "C24",
   "status": "proved",
   "theorems": [
    "Geotecha.Quad.C24_exact",
    "Geotecha.Quad.C24_linear",
    "Geotecha.Quad.C24_swap",
    "Geotecha.Quad.C24_sum"
   ],
   "note": "array-valued f acts componentwise; broadcasting of unequal a, b not modelled"
  },
  {
   "property": "C25",
   "status": "proved",
   "theorems": [
    "Geotecha.Geom.C25_value",
    "Geotecha.Geom.C25_defined",
    "Geotecha.Geom.C25_translate",
    "Geotecha.Geom.C25_start"
   ],
   "note": ""
  },
  {
   "property": "C26",
   "status": "partial",
   "theorems": [
    "Geotecha.Geom.C26_partial",
    "Geotecha.Geom.C26_negation",
    "Geotecha.Geom.C26_clockwise"
   ],
   "note": "False of the code: the area is negative for every polygon whose normal has its first largest component along y (C26_negation) and nan for clockwise 2-d polygons (C26_clockwise). Proved positive otherwise."
  },
  {
   "property": "C27",
   "status": "proved",
   "theorems": [
    "Geotecha.Speccon.C27_af",
    "Geotecha.Speccon.C27_symmetric"
   ],
   "note": ""
  },
  {
   "property": "C28",
   "status": "proved",
   "theorems": [
    "Geotecha.Speccon.C28_DaDf",
    "Geotecha.Speccon.C28_symmetric"
   ],
   "note": ""
  },
  {
   "property": "C29",
   "status": "proved",
   "theorems": [
    "Geotecha.Speccon.C29_ab"
   ],
   "note": ""
  },
  {
   "property": "C30",
   "status": "partial",
   "theorems": [
    "Geotecha.Speccon.C30_EDload_partial",
    "Geotecha.Speccon.C30_negation"
   ],
   "note": "False of the code with a repeated point (C30_negation: IndexError from np.delete by position). Proved for histories without consecutive identical points; real eigenvalues."
  },
  {
   "property": "C31",
   "status": "partial",
   "theorems": [
    "Geotecha.Speccon.C31_Eload_partial"
   ],
   "note": "Same restriction as C30 (C30_negation covers both). Proved for every t, load zero outside the given times; real eigenvalues."
  },
  {
   "property": "C32",
   "status": "proved",
   "theorems": [
    "Geotecha.Speccon.C32_boundary",
    "Geotecha.Speccon.C32_increasing",
    "Geotecha.Speccon.C32_rejects",
    "Geotecha.Speccon.C32_distinct"
   ],
   "note": ""
  },
  {
   "property": "C33",
   "status": "proved",
   "theorems": [
    "Geotecha.Const.C33_inverse",
    "Geotecha.Const.C33_monotone",
    "Geotecha.Const.C33_decade",
    "Geotecha.Const.C33_constant"
   ],
   "note": ""
  },
  {
   "property": "C34",
   "status": "partial",
   "theorems": [
    "Geotecha.Const.C34_inverse",
    "Geotecha.Const.C34_slope_partial",
    "Geotecha.Const.C34_negation"
   ],
   "note": "The inverse is proved for all i; the slope is false of the code for i <= 0 (C34_negation: dv_di returns k*sign(i)); C34_slope_partial covers i > 0."
  },
  {
   "property": "C35",
   "status": "partial",
   "theorems": [
    "Geotecha.Const.C35_consistent",
    "Geotecha.Const.C35_rejects",
    "Geotecha.Const.C35_negation",
    "Geotecha.Const.C35_zero_division",
    "Geotecha.Const.C35_odd",
    "Geotecha.Const.C35_law",
    "Geotecha.Const.C35_increasing",
    "Geotecha.Const.C35_continuous",
    "Geotecha.Const.C35_inverse",
    "Geotecha.Const.C35_slope"
   ],
   "note": "fixed-point iteration for the n-from-(kstar,klinear,...) case taken at its exact fixed point; C35_negation, C35_zero_division: accepted parameter sets on which the constructor raises AttributeError/ZeroDivisionError."
  },
  {
   "property": "C36",
   "status": "partial",
   "theorems": [
    "Geotecha.Const.C36_inverse_partial",
    "Geotecha.Const.C36_negation",
    "Geotecha.Const.C36_normally_consolidated",
    "Geotecha.Const.C36_decreasing",
    "Geotecha.Const.C36_slope",
    "Geotecha.Const.C36_slope_loading",
    "Geotecha.Const.C36_linear"
   ],
   "note": "False when Cr > Cc (C36_negation); inverse proved for Cr <= Cc. The literal fact = 2.302585... is taken as ln 10."
  },
  {
   "property": "C37",
   "status": "proved",
   "theorems": [
    "Geotecha.Smear.C37_ideal",
    "Geotecha.Smear.C37_zones",
    "Geotecha.Smear.C37_split"
   ],
   "note": ""
  },
  {
   "property": "C38",
   "status": "partial",
   "theorems": [
    "Geotecha.IO.C38_fresh",
    "Geotecha.IO.C38_number",
    "Geotecha.IO.C38_matcher",
    "Geotecha.IO.C38_no_directory",
    "Geotecha.IO.C38_negation_metachar",
    "Geotecha.IO.C38_negation_start",
    "Geotecha.IO.C38_overwrite_width",
    "Geotecha.IO.C38_history"
   ],
   "note": "False of the code for prefixes with regex metacharacters (C38_negation_metachar) and negative starts (C38_negation_start); proved for all prefixes without + * ? and other metacharacters, over any history of calls. ASCII digits only."
  },
  {
   "property": "C39",
   "status": "partial",
   "theorems": [
    "Geotecha.IO.C39_accepts_iff",
    "Geotecha.IO.C39_error",
    "Geotecha.IO.C39_calls",
    "Geotecha.IO.C39_reads",
    "Geotecha.IO.C39_attributes",
    "Geotecha.IO.C39_node_classes",
    "Geotecha.IO.C39_not_executed",
    "Geotecha.IO.C39_no_imports",
    "Geotecha.IO.C39_no_dangerous_calls",
    "Geotecha.IO.C39_unknown_allow",
    "Geotecha.IO.C39_negation",
    "Geotecha.IO.C39_attribute_hole",
    "Geotecha.IO.C39_call_class_unchecked"
   ],
   "note": "C39_accepts_iff characterises acceptance exactly. The stated safety claim is false of the code: assignment in dead code makes any name callable (C39_negation), attribute names and Call/Name/Attribute classes are unchecked holes (C39_attribute_hole, C39_call_class_unchecked)."
  },
  {
   "property": "C40",
   "status": "proved",
   "theorems": [
    "Geotecha.IO.C40_exact",
    "Geotecha.IO.C40_missing"
   ],
   "note": "for objects having all attributes mentioned; a missing one raises AttributeError (C40_missing)"
  },
  {
   "property": "C41",
   "status": "proved",
   "theorems": [
    "Geotecha.IO.C41_restores",
    "Geotecha.IO.C41_missing",
    "Geotecha.IO.C41_nested",
    "Geotecha.IO.C41_deleted"
   ],
   "note": "provided the starting directory still exists at exit; C41_deleted says what happens otherwise"
  },
  {
   "property": "C42",
   "status": "proved",
   "theorems": [
    "Geotecha.Speccon.C42_abf"
   ],
   "note": ""
  },
  {
   "property": "C43",
   "status": "proved",
   "theorems": [
    "Geotecha.Speccon.C43_DDabDDf"
   ],
   "note": ""
  },
  {
   "property": "C44",
   "status": "proved",
   "theorems": [
    "Geotecha.Speccon.C44_abc"
   ],
   "note": ""
  },
  {
   "property": "C45",
   "status": "proved",
   "theorems": [
    "Geotecha.Speccon.C45_DaDb"
   ],
   "note": ""
  },
  {
   "property": "C46",
   "status": "proved",
   "theorems": [
    "Geotecha.Speccon.C46_a_linear_between",
    "Geotecha.Speccon.C46_avg_between",
    "Geotecha.Speccon.C46_dim1sin"
   ],
   "note": ""
  },
  {
   "property": "C47",
   "status": "proved",
   "theorems": [
    "Geotecha.Speccon.C47_orthogonal"
   ],
   "note": ""
  },
  {
   "property": "C48",
   "status": "proved",
   "theorems": [
    "Geotecha.Speccon.C48_Eload_cos"
   ],
   "note": "real eigenvalues"
  },
  {
   "property": "C49",
   "status": "proved",
   "theorems": [
    "Geotecha.Speccon.C49_EDload_cos"
   ],
   "note": "real eigenvalues"
  },
  {
   "property": "C50",
   "status": "proved",
   "theorems": [
    "Geotecha.Speccon.C50_Eload_sin"
   ],
   "note": "real eigenvalues"
  },
  {
   "property": "C51",
   "status": "proved",
   "theorems": [
    "Geotecha.Quad.C51_rule",
    "Geotecha.Quad.C51_rejects",
    "Geotecha.Quad.C51_quad"
   ],
   "note": "tables as exact decimals"
  },
  {
   "property": "C52",
   "status": "partial",
   "theorems": [
    "Geotecha.Geom.C52_oblique_partial",
    "Geotecha.Geom.C52_mirrored",
    "Geotecha.Geom.C52_negation"
   ],
   "note": "False of the code: planes perpendicular to an axis lose that coordinate (C52_negation), y-dominant normals give the mirrored point (C52_mirrored). Proved for oblique planes otherwise."
  },
  {
   "property": "C53",
   "status": "proved",
   "theorems": [
    "Geotecha.Geom.C53_closed",
    "Geotecha.Geom.C53_parallelepiped",
    "Geotecha.Geom.C53_tetrahedron"
   ],
   "note": ""
  },
  {
   "property": "C54",
   "status": "partial",
   "theorems": [
    "Geotecha.Geom.C54_partial",
    "Geotecha.Geom.C54_scaling"
   ],
   "note": "Proved for oblique planes with a normal not dominated by y; the code divides by the area (C54_scaling shows why this matters)."
  },
  {
   "property": "C55",
   "status": "proved",
   "theorems": [
    "Geotecha.Const.C55_k_recovered",
    "Geotecha.Const.C55_e_recovered",
    "Geotecha.Const.C55_through_data",
    "Geotecha.Const.C55_length",
    "Geotecha.Const.C55_order_irrelevant"
   ],
   "note": ""
  },
  {
   "property": "C56",
   "status": "proved",
   "theorems": [
    "Geotecha.Const.C56_normally_consolidated",
    "Geotecha.Const.C56_stress_recovered",
    "Geotecha.Const.C56_e_recovered"
   ],
   "note": ""
  },
  {
   "property": "C57",
   "status": "partial",
   "theorems": [
    "Geotecha.Const.C57_compression",
    "Geotecha.Const.C57_recompression",
    "Geotecha.Const.C57_beyond",
    "Geotecha.Const.C57_negation"
   ],
   "note": "False at the lowest data point, where the index wraps to the last point (C57_negation); IndexError beyond the last point (C57_beyond). Proved everywhere else. fact taken as ln 10."
  },
  {
   "property": "C58",
   "status": "proved",
   "theorems": [
    "Geotecha.IO.C58_force",
    "Geotecha.IO.C58_check"
   ],
   "note": ""
  },
  {
   "property": "C59",
   "status": "proved",
   "theorems": [
    "Geotecha.IO.C59_pairs"
   ],
   "note": ""
  },
  {
   "property": "C60",
   "status": "proved",
   "theorems": [
    "Geotecha.IO.C60_limits",
    "Geotecha.IO.C60_identical"
   ],
   "note": ""
  },
  {
   "property": "C61",
   "status": "proved",
   "theorems": [
    "Geotecha.IO.C61_sound"
   ],
   "note": ""
  },
  {
   "property": "C62",
   "status": "proved",
   "theorems": [
    "Geotecha.IO.C62_vr",
    "Geotecha.IO.C62_vrw",
    "Geotecha.IO.C62_vrc",
    "Geotecha.IO.C62_unsat",
    "Geotecha.IO.C62_vr_soil"
   ],
   "note": "the four setups are generated from the literals in the source by tools/gen_setup.py"
  },
  {
   "property": "C63",
   "status": "proved",
   "theorems": [
    "Geotecha.IO.C63_copy",
    "Geotecha.IO.C63_init",
    "Geotecha.IO.C63_defaults"
   ],
   "note": ""
  },
  {
   "property": "C64",
   "status": "partial",
   "theorems": [
    "Geotecha.IO.C64_all_files",
    "Geotecha.IO.C64_interrupt"
   ],
   "note": "False for KeyboardInterrupt/SystemExit: batch stops and the log level is not restored (C64_interrupt). Proved for Exceptions."
  },
  {
   "property": "C65",
   "status": "partial",
   "theorems": [
    "Geotecha.IO.C65_selection",
    "Geotecha.IO.C65_script_not_excluded"
   ],
   "note": "The script itself is not excluded (C65_script_not_excluded): the code compares with the name of the library module."
  },
  {
   "property": "C66",
   "status": "partial",
   "theorems": [
    "Geotecha.IO.C66_value",
    "Geotecha.IO.C66_sixty",
    "Geotecha.IO.C66_negative"
   ],
   "note": "False for negative times and the seconds field can read 60.00 (C66_sixty, C66_negative); the value is right for non-negative times."
  },
  {
   "property": "C67",
   "status": "partial",
   "theorems": [
    "Geotecha.IO.C67_written",
    "Geotecha.IO.C67_mutates"
   ],
   "note": "The caller's dicts are emptied: a second save writes nothing (C67_mutates). Writing proved for distinct dicts; table formatting not modelled."
  },
  {
   "property": "C68",
   "status": "partial",
   "theorems": [
    "Geotecha.IO.C68_round_trip",
    "Geotecha.IO.C68_quote",
    "Geotecha.IO.C68_injection"
   ],
   "note": "False for strings with quotes or newlines (C68_quote, C68_injection); proved for None, integers and plain strings."
  },
  {
   "property": "C69",
   "status": "proved",
   "theorems": [
    "Geotecha.Smear.C69_ideal",
    "Geotecha.Smear.C69_constant",
    "Geotecha.Smear.C69_linear",
    "Geotecha.Smear.C69_linear_all",
    "Geotecha.Smear.C69_linear_refused",
    "Geotecha.Smear.C69_parabolic",
    "Geotecha.Smear.C69_parabolic_singular",
    "Geotecha.Smear.C69_overlapping",
    "Geotecha.Smear.C69_overlapping_touching",
    "Geotecha.Smear.C69_permeability"
   ],
   "note": "Exact where np.isclose decides exactly (Sharp); otherwise within 2e-5 (C69_linear_all, C69_parabolic). mu_parabolic gives no number for kap < 1 and on the curve kap/(kap-1) = (s/(s-1))^2 (C69_parabolic_singular); mu_overlapping_linear refuses s = n (C69_overlapping_touching). mu_overlapping_linear and k_* only in the Sharp case."
  },
  {
   "property": "C70",
   "status": "proved",
   "theorems": [
    "Geotecha.Smear.C70_constant",
    "Geotecha.Smear.C70_append",
    "Geotecha.Smear.C70_linear",
    "Geotecha.Smear.C70_refuses"
   ],
   "note": "mu_piecewise_linear for zones on which np.isclose decides exactly."
  },
  {
   "property": "C71",
   "status": "proved",
   "theorems": [
    "Geotecha.Smear.C71_ideal",
    "Geotecha.Smear.C71_refused",
    "Geotecha.Smear.C71_constant",
    "Geotecha.Smear.C71_linear",
    "Geotecha.Smear.C71_parabolic",
    "Geotecha.Smear.C71_piecewise_constant",
    "Geotecha.Smear.C71_piecewise_linear",
    "Geotecha.Smear.C71_monotone"
   ],
   "note": "Inputs on which np.isclose decides exactly; muw >= 0. u_piecewise_linear divides by zero at radius 1 when the first two radii coincide (excluded by hypothesis)."
  },
  {
   "property": "C72",
   "status": "proved",
   "theorems": [
    "Geotecha.Smear.C72_order",
    "Geotecha.Smear.C72_constant_mono",
    "Geotecha.Smear.C72_piecewise_mono",
    "Geotecha.Smear.C72_spacing",
    "Geotecha.Smear.C72_spacing_piecewise"
   ],
   "note": "fsolve is not modelled: the theorem says the equation it is given has at most one solution beyond the smear zone."
  },
  {
   "property": "C73",
   "status": "proved",
   "theorems": [
    "Geotecha.Smear.C73_area",
    "Geotecha.Smear.C73_pattern",
    "Geotecha.Smear.C73_well_mean"
   ],
   "note": ""
  },
  {
   "property": "C74",
   "status": "proved",
   "theorems": [
    "Geotecha.Speccon.C74_value",
    "Geotecha.Speccon.C74_top",
    "Geotecha.Speccon.C74_bottom"
   ],
   "note": "Loads must cover the period up to the last output time (beyond the last load time Eload treats the load as removed while interpolation holds it); omega_phase lists as long as the load lists (check_input_attributes); depths closer than the interpolation tolerance are excluded (TolSep); exact arithmetic."
  },
  {
   "property": "C75",
   "status": "proved",
   "theorems": [
    "Geotecha.Speccon.C75_average"
   ],
   "note": "Loads must cover the period up to the last output time (beyond the last load time Eload treats the load as removed while interpolation holds it); omega_phase lists as long as the load lists (check_input_attributes); depths closer than the interpolation tolerance are excluded (TolSep); exact arithmetic."
  },
  {
   "property": "C76",
   "status": "proved",
   "theorems": [
    "Geotecha.Speccon.C76_integrate",
    "Geotecha.Speccon.C76_outputs_agree"
   ],
   "note": "settlement and average of speccon1d_vr under the contract of np.linalg (EigenSystem). Loads must cover the period up to the last output time (beyond the last load time Eload treats the load as removed while interpolation holds it); omega_phase lists as long as the load lists (check_input_attributes); depths closer than the interpolation tolerance are excluded (TolSep); exact arithmetic."
  },
  {
   "property": "C77",
   "status": "proved",
   "theorems": [
    "Geotecha.Speccon.C77_weak_form",
    "Geotecha.Speccon.C77_exact"
   ],
   "note": "np.linalg.eig/inv are not modelled: their contract is the hypothesis EigenSystem (solvable by C78) with nonzero real eigenvalues. The sign of pumping follows the parameter description (positive into the model), the class notes have the opposite sign. Loads must cover the period up to the last output time (beyond the last load time Eload treats the load as removed while interpolation holds it); omega_phase lists as long as the load lists (check_input_attributes); depths closer than the interpolation tolerance are excluded (TolSep); exact arithmetic."
  },
  {
   "property": "C78",
   "status": "proved",
   "theorems": [
    "Geotecha.Speccon.C78_eigensystem"
   ],
   "note": "Existence and positivity for the matrices after entries below 1e-8 are set to zero."
  },
  {
   "property": "C79",
   "status": "proved",
   "theorems": [
    "Geotecha.Speccon.C79_dissipation"
   ],
   "note": "Under the contract of np.linalg, as C77."
  },
  {
   "property": "C80",
   "status": "proved",
   "theorems": [
    "Geotecha.Speccon.C80_weak_form"
   ],
   "note": "np.linalg assumed to satisfy its contract (VRWArrays.Made: inverse and eigensystem); C83 shows such arrays exist and that the eigenvalues are not zero."
  },
  {
   "property": "C81",
   "status": "partial",
   "theorems": [
    "Geotecha.Speccon.C81_balance",
    "Geotecha.Speccon.C81_drain_partial",
    "Geotecha.Speccon.C81_bottom_gradient"
   ],
   "note": "False of the code in general. Proved for dT = 1 without a bottom gradient (or H = 1) at times without a boundary step (C81_drain_partial); C81_balance gives the exact error for other dT (a factor dT is missing), C81_bottom_gradient shows the missing factor H for drn = 1."
  },
  {
   "property": "C82",
   "status": "proved",
   "theorems": [
    "Geotecha.Speccon.C82_outputs_agree"
   ],
   "note": ""
  },
  {
   "property": "C83",
   "status": "proved",
   "theorems": [
    "Geotecha.Speccon.C83_eigensystem"
   ],
   "note": ""
  },
  {
   "property": "C84",
   "status": "proved",
   "theorems": [
    "Geotecha.Consol.C84_nonneg",
    "Geotecha.Consol.C84_solves",
    "Geotecha.Consol.C84_initial",
    "Geotecha.Consol.C84_truncation"
   ],
   "note": ""
  },
  {
   "property": "C85",
   "status": "proved",
   "theorems": [
    "Geotecha.Consol.C85_mean",
    "Geotecha.Consol.C85_mass_balance",
    "Geotecha.Consol.C85_monotone",
    "Geotecha.Consol.C85_truncation"
   ],
   "note": ""
  },
  {
   "property": "C86",
   "status": "proved",
   "theorems": [
    "Geotecha.Consol.C86_solves"
   ],
   "note": "Requires kvc != kv: for kvc = kv, which includes the default arguments, the code divides by zero (pors and porc are nan)."
  },
  {
   "property": "C87",
   "status": "proved",
   "theorems": [
    "Geotecha.Consol.C87_initial",
    "Geotecha.Consol.C87_final"
   ],
   "note": ""
  },
  {
   "property": "C88",
   "status": "proved",
   "theorems": [
    "Geotecha.Consol.C88_solves"
   ],
   "note": ""
  },
  {
   "property": "C89",
   "status": "partial",
   "theorems": [
    "Geotecha.Consol.C89_settlement_partial",
    "Geotecha.Consol.C89_negation"
   ],
   "note": "Proved at times at which the load has no step. C89_negation proves that at a load step the settlement reported is wrong (negative settlement for a positive load): the code combines the load before the step with the pore pressure after it."
  },
  {
   "property": "C90",
   "status": "partial",
   "theorems": [
    "Geotecha.Speccon.C90_error",
    "Geotecha.Speccon.C90_weak_form_partial"
   ],
   "note": "False of the code in general. C90_weak_form_partial: no boundary loads, or column permeability constant with depth. C90_error: in general, with the exact error (the code multiplies the boundary flow of the column by I - G where G is right). np.linalg assumed to satisfy its contract (VRCArrays.Made); C93 shows such arrays exist."
  },
  {
   "property": "C91",
   "status": "proved",
   "theorems": [
    "Geotecha.Speccon.C91_outputs_agree"
   ],
   "note": ""
  },
  {
   "property": "C92",
   "status": "partial",
   "theorems": [
    "Geotecha.Speccon.C92_average",
    "Geotecha.Speccon.C92_means",
    "Geotecha.Speccon.C92_parts_partial"
   ],
   "note": "C92_average and C92_means hold for all inputs. C92_parts_partial needs no boundary loads, or dT = 1 and a column permeability constant with depth: the code omits a factor 1/dT in the boundary terms of pors and porc, and adds where it should subtract the boundary flow of the column."
  },
  {
   "property": "C93",
   "status": "proved",
   "theorems": [
    "Geotecha.Speccon.C93_eigensystem"
   ],
   "note": ""
  },
  {
   "property": "C94",
   "status": "partial",
   "theorems": [
    "Geotecha.Speccon.C94_weak_form_partial",
    "Geotecha.Speccon.C94_all_given",
    "Geotecha.Speccon.C94_negation"
   ],
   "note": "False of the code in general. C94_weak_form_partial: at least one of the four boundary lists is missing, and dTw is not zero or the air has no boundary loads. C94_all_given: with all four given the boundary loads do not act on the soil (sum(v is None) != 0 is the wrong test); C94_negation gives an input where the water balance is off by the whole volume change. np.linalg assumed to satisfy its contract (UnsatArrays.Made), real eigenvalues."
  },
  {
   "property": "C95",
   "status": "proved",
   "theorems": [
    "Geotecha.Speccon.C95_outputs_agree"
   ],
   "note": "The PolyLine differences m2w - m1kw and m2a - m1ka that the code forms are assumed to be the differences (C14 says when they are)."
  },
  {
   "property": "C96",
   "status": "partial",
   "theorems": [
    "Geotecha.Speccon.C96_error",
    "Geotecha.Speccon.C96_parts_partial",
    "Geotecha.Speccon.C96_negation"
   ],
   "note": "False of the code: C96_error gives the exact error (the part m2a uw of the air is subtracted from setw instead of seta), C96_negation a concrete input; C96_parts_partial for m2a = 0."
  },
  {
   "property": "C97",
   "status": "proved",
   "theorems": [
    "Geotecha.Speccon.C97_eigenvalues"
   ],
   "note": ""
  },
  {
   "property": "C98",
   "status": "proved",
   "theorems": [
    "Geotecha.Const.C98_fredlund_xing",
    "Geotecha.Const.C98_pham_fredlund"
   ],
   "note": ""
  },
  {
   "property": "C99",
   "status": "partial",
   "theorems": [
    "Geotecha.Const.C99_fredlund_xing",
    "Geotecha.Const.C99_fredlund_xing_manual",
    "Geotecha.Const.C99_pham_fredlund_partial",
    "Geotecha.Const.C99_default_residual_suction",
    "Geotecha.Const.C99_negation"
   ],
   "note": "Fredlund-Xing in full; Pham-Fredlund: the bound w <= ws is false near zero suction (C99_negation: the water content is unbounded there), proved from a suction of one on; monotonicity needs wr < ws - 6 s1."
  },
  {
   "property": "C100",
   "status": "proved",
   "theorems": [
    "Geotecha.Const.C100_arrays",
    "Geotecha.Const.C100_fredlund_xing",
    "Geotecha.Const.C100_negation",
    "Geotecha.Const.C100_pham_fredlund"
   ],
   "note": ""
  },
  {
   "property": "C101",
   "status": "partial",
   "theorems": [
    "Geotecha.Const.C101_value",
    "Geotecha.Const.C101_shape_partial",
    "Geotecha.Const.C101_above",
    "Geotecha.Const.C101_below_negation",
    "Geotecha.Const.C101_arrays",
    "Geotecha.Const.C101_accepts"
   ],
   "note": "Below the first data point the code returns a non-positive number instead of refusing (C101_below_negation); everything else proved."
  },
  {
   "property": "C102",
   "status": "proved",
   "theorems": [
    "Geotecha.Const.C102_air"
   ],
   "note": ""
  },
  {
   "property": "C103",
   "status": "partial",
   "theorems": [
    "Geotecha.Roots.C103_sound",
    "Geotecha.Roots.C103_first_n_partial",
    "Geotecha.Roots.C103_negation"
   ],
   "note": "Soundness (C103_sound) in full under the stated fsolve contract. First-n only for roots isolated at scale dx and p=1; C103_negation: false in general (close roots are missed)."
  },
  {
   "property": "C104",
   "status": "partial",
   "theorems": [
    "Geotecha.Roots.C104_ends_iff_partial",
    "Geotecha.Roots.C104_single_ends",
    "Geotecha.Roots.C104_negation_start",
    "Geotecha.Roots.C104_negation_factor"
   ],
   "note": "False of the code: C104_negation_start, C104_negation_factor. Exact condition for p=1: C104_ends_iff_partial."
  },
  {
   "property": "C105",
   "status": "partial",
   "theorems": [
    "Geotecha.Roots.C105_first_root_near_zero",
    "Geotecha.Roots.C105_no_answer"
   ],
   "note": "False of the code; what holds instead is proved (C105_first_root_near_zero, C105_no_answer)."
  },
  {
   "property": "C106",
   "status": "partial",
   "theorems": [
    "Geotecha.Roots.C106_iteration",
    "Geotecha.Roots.C106_error",
    "Geotecha.Roots.C106_converges_partial",
    "Geotecha.Roots.C106_negation",
    "Geotecha.Roots.C106_arrays"
   ],
   "note": "Scalar and array behaviour characterised exactly; convergence for contractions with non-zero fixed point; C106_negation: false for a zero fixed point (relative test)."
  },
  {
   "property": "C107",
   "status": "proved",
   "theorems": [
    "Geotecha.Consol.XieLeo.C107_PTIB",
    "Geotecha.Consol.XieLeo.C107_PTPB"
   ],
   "note": ""
  },
  {
   "property": "C108",
   "status": "proved",
   "theorems": [
    "Geotecha.Consol.XieLeo.C108_initial",
    "Geotecha.Consol.XieLeo.C108_final",
    "Geotecha.Consol.XieLeo.C108_final_state",
    "Geotecha.Consol.XieLeo.C108_start"
   ],
   "note": ""
  },
  {
   "property": "C109",
   "status": "proved",
   "theorems": [
    "Geotecha.Consol.XieLeo.C109_PTIB",
    "Geotecha.Consol.XieLeo.C109_PTPB",
    "Geotecha.Consol.XieLeo.C109_total"
   ],
   "note": ""
  },
  {
   "property": "C110",
   "status": "partial",
   "theorems": [
    "Geotecha.Consol.XieLeo.C110_PTIB",
    "Geotecha.Consol.XieLeo.C110_PTPB_partial",
    "Geotecha.Consol.XieLeo.C110_PTPB_top_wrong"
   ],
   "note": "PTIB proved. PTPB: the code is wrong (factor 2 for 4 in the second term); the exact error and a negation for every loaded permeable layer are proved (C110_PTPB_partial, C110_PTPB_top_wrong)."
  },
  {
   "property": "C111",
   "status": "proved",
   "theorems": [
    "Geotecha.Consol.XieLeo.C111_range",
    "Geotecha.Consol.XieLeo.C111_inverse",
    "Geotecha.Consol.XieLeo.C111_ends"
   ],
   "note": ""
  },
  {
   "property": "C112",
   "status": "proved",
   "theorems": [
    "Geotecha.Consol.XieLeo.C112_PTIB",
    "Geotecha.Consol.XieLeo.C112_PTPB",
    "Geotecha.Consol.XieLeo.C112_late"
   ],
   "note": "integrate.quad is taken to be exact."
  },
  {
   "property": "C113",
   "status": "partial",
   "theorems": [
    "Geotecha.Consol.XieLeo.C113_if_bound_partial",
    "Geotecha.Consol.XieLeo.C113_always_raises"
   ],
   "note": "False of the code: effective_stress_* and total_stress_* read a module-level name qu that does not exist and always raise NameError (C113_always_raises); what they would return is proved."
  },
  {
   "property": "C114",
   "status": "proved",
   "theorems": [
    "Geotecha.Plot.C114_refuses",
    "Geotecha.Plot.C114_between",
    "Geotecha.Plot.C114_level"
   ],
   "note": ""
  },
  {
   "property": "C115",
   "status": "proved",
   "theorems": [
    "Geotecha.Plot.C115_copy",
    "Geotecha.Plot.C115_split"
   ],
   "note": ""
  },
  {
   "property": "C116",
   "status": "proved",
   "theorems": [
    "Geotecha.Plot.C116_value",
    "Geotecha.Plot.C116_perm",
    "Geotecha.Plot.C116_default"
   ],
   "note": ""
  },
  {
   "property": "C117",
   "status": "proved",
   "theorems": [
    "Geotecha.Plot.C117_styles",
    "Geotecha.Plot.C117_succeeds",
    "Geotecha.Plot.C117_empty",
    "Geotecha.Plot.C117_default",
    "Geotecha.Plot.C117_object"
   ],
   "note": ""
  },
  {
   "property": "C118",
   "status": "partial",
   "theorems": [
    "Geotecha.Plot.C118_grid",
    "Geotecha.Plot.C118_plain",
    "Geotecha.Plot.C118_share_one",
    "Geotecha.Plot.C118_calls",
    "Geotecha.Plot.C118_apply",
    "Geotecha.Plot.C118_save"
   ],
   "note": "Positions, plotted data and calls are proved; the documented sharing of axes is false of the code: whatever sharex/sharey say no axes are shared (C118_grid), a single number other than 0 raises (C118_share_one)."
  },
  {
   "property": "C119",
   "status": "proved",
   "theorems": [
    "Geotecha.Transform.C119_real",
    "Geotecha.Transform.C119_imag",
    "Geotecha.Transform.C119_complex",
    "Geotecha.Transform.C119_default"
   ],
   "note": "integrate.quad is taken to be exact (Lebesgue integrals); weights cos/sin over half lines included."
  },
  {
   "property": "C120",
   "status": "partial",
   "theorems": [
    "Geotecha.Transform.C120_imag_partial",
    "Geotecha.Transform.C120_complex_partial",
    "Geotecha.Transform.C120_even_wrong"
   ],
   "note": "The documented behaviour is false of the code for these flags; the exact values are proved and one concrete counterexample (C120_even_wrong)."
  },
  {
   "property": "C121",
   "status": "proved",
   "theorems": [
    "Geotecha.Transform.C121_roundtrip"
   ],
   "note": "Uses Mathlib's Fourier inversion theorem."
  },
  {
   "property": "C122",
   "status": "proved",
   "theorems": [
    "Geotecha.Transform.Talbot.C122_value",
    "Geotecha.Transform.Talbot.C122_nodes",
    "Geotecha.Transform.Talbot.C122_zero_time",
    "Geotecha.Transform.Talbot.C122_n_zero",
    "Geotecha.Transform.Talbot.C122_same"
   ],
   "note": ""
  },
  {
   "property": "C123",
   "status": "proved",
   "theorems": [
    "Geotecha.Transform.Talbot.C123_linear",
    "Geotecha.Transform.Talbot.C123_shift",
    "Geotecha.Transform.Talbot.C123_scale",
    "Geotecha.Transform.Talbot.C123_real",
    "Geotecha.Transform.Talbot.C123_imag"
   ],
   "note": ""
  },
  {
   "property": "C124",
   "status": "partial",
   "theorems": [
    "Geotecha.Transform.C124_value",
    "Geotecha.Transform.C124_default",
    "Geotecha.Transform.C124_dict",
    "Geotecha.Transform.C124_opts_end",
    "Geotecha.Transform.C124_errors",
    "Geotecha.Transform.C124_hankel_inverse"
   ],
   "note": "The documented form opts=dict never works: TypeError for every input (C124_dict). Everything else of the property is proved."
  },
  {
   "property": "C125",
   "status": "proved",
   "theorems": [
    "Geotecha.Transform.C125_value",
    "Geotecha.Transform.C125_limits",
    "Geotecha.Transform.C125_empty",
    "Geotecha.Transform.C125_shanks",
    "Geotecha.Transform.C125_vhankel"
   ],
   "note": "Bessel function and zeros are parameters; accuracy of gk_quad/gl_quad is a hypothesis (Accurate), met e.g. by polynomials through C51."
  },
  {
   "property": "C126",
   "status": "partial",
   "theorems": [
    "Geotecha.Transform.C126_error_partial",
    "Geotecha.Transform.C126_error_wrong"
   ],
   "note": "The documented formula is false of the code; the exact number returned is proved."
  },
  {
   "property": "C127",
   "status": "proved",
   "theorems": [
    "Geotecha.Consol.Deng.C127_solution"
   ],
   "note": ""
  },
  {
   "property": "C128",
   "status": "proved",
   "theorems": [
    "Geotecha.Consol.Deng.C128_bounds"
   ],
   "note": ""
  },
  {
   "property": "C129",
   "status": "partial",
   "theorems": [
    "Geotecha.Consol.Deng.C129_nan_partial",
    "Geotecha.Consol.Deng.C129_none_partial",
    "Geotecha.Consol.Deng.C129_refused"
   ],
   "note": "partial: the full statement is false of the code; the exceptions (nan at the top with A3>0, nan at the bottom with A2=A1, None with A2<0) are proved to be exactly where valid soil parameters give no number."
  },
  {
   "property": "C130",
   "status": "partial",
   "theorems": [
    "Geotecha.Consol.Deng.C130_pair",
    "Geotecha.Consol.Deng.C130_no_decay_partial",
    "Geotecha.Consol.Deng.C130_refused"
   ],
   "note": "C130_pair is the full statement for A3>0, any number of terms; for the default A3=0 the code is wrong (C130_no_decay_partial: constant in time)."
  },
  {
   "property": "C131",
   "status": "partial",
   "theorems": [
    "Geotecha.Consol.SS.C131_solution_partial",
    "Geotecha.Consol.SS.C131_negation"
   ],
   "note": "C131_solution_partial holds for all columns without matrix entries below 1e-10 at a root; C131_negation: with such entries the code zeroes them and gives no result although the root is correct."
  },
  {
   "property": "C132",
   "status": "proved",
   "theorems": [
    "Geotecha.Consol.SS.C132_average_settlement"
   ],
   "note": "Assumes no matrix entries below 1e-10 (see C131)."
  },
  {
   "property": "C133",
   "status": "proved",
   "theorems": [
    "Geotecha.Consol.SS.C133_settlement_monotone"
   ],
   "note": "Assumes no matrix entries below 1e-10 (see C131)."
  },
  {
   "property": "C134",
   "status": "proved",
   "theorems": [
    "Geotecha.Consol.SS.C134_missed"
   ],
   "note": "Exact effect of the search start; the example beside it (a layer of 5/296) has a run in which ten roots are missed."
  },
  {
   "property": "C135",
   "status": "partial",
   "theorems": [
    "Geotecha.Consol.SS.C135_impervious_top_partial",
    "Geotecha.Consol.SS.C135_boundary_partial"
   ],
   "note": "partial: the documented behaviour is false of the code; proved are the failures."
  },
  {
   "property": "C136",
   "status": "partial",
   "theorems": [
    "Geotecha.Consol.SS.C136_saved_partial",
    "Geotecha.Consol.SS.C136_negation"
   ],
   "note": "partial: the settlement file contains avp; C136_negation is a run where they differ."
  },
  {
   "property": "C137",
   "status": "partial",
   "theorems": [
    "Geotecha.Consol.CK.C137_tpor_partial"
   ],
   "note": "partial: the property is false of the code; proved: tpor has no effect."
  },
  {
   "property": "C138",
   "status": "partial",
   "theorems": [
    "Geotecha.Consol.CK.C138_soil_partial"
   ],
   "note": "partial: the property is false of the code; proved: results do not depend on kv, mv, gamw."
  },
  {
   "property": "C139",
   "status": "proved",
   "theorems": [
    "Geotecha.Consol.CK.C139_ends",
    "Geotecha.Consol.CK.C139_zero_time",
    "Geotecha.Consol.CK.C139_zero_division"
   ],
   "note": ""
  },
  {
   "property": "C140",
   "status": "partial",
   "theorems": [
    "Geotecha.Consol.CK.C140_average_partial",
    "Geotecha.Consol.CK.C140_degree_partial"
   ],
   "note": "partial: the property is false of the code; proved: the exact factor 1/2 and the equation whose transform is inverted."
  },
  {
   "property": "C141",
   "status": "partial",
   "theorems": [
    "Geotecha.Consol.ZY.C141_solution_partial"
   ],
   "note": "Missing for the full claim: that the modes found are the first nterms ones (false in general, C144_negation) and that the starting value tends to the uniform pressure."
  },
  {
   "property": "C142",
   "status": "proved",
   "theorems": [
    "Geotecha.Consol.ZY.C142_settlement"
   ],
   "note": ""
  },
  {
   "property": "C143",
   "status": "proved",
   "theorems": [
    "Geotecha.Consol.ZY.C143_degree"
   ],
   "note": ""
  },
  {
   "property": "C144",
   "status": "proved",
   "theorems": [
    "Geotecha.Consol.ZY.C144_missed",
    "Geotecha.Consol.ZY.C144_negation"
   ],
   "note": "Describes a defect: C144_missed in general, C144_negation a concrete uniform layer."
  },
  {
   "property": "C145",
   "status": "proved",
   "theorems": [
    "Geotecha.Consol.ZY.C145_refused"
   ],
   "note": ""
  },
  {
   "property": "C146",
   "status": "proved",
   "theorems": [
    "Geotecha.Consol.ShanArgs.C146_checks",
    "Geotecha.Consol.ShanArgs.C146_no_type"
   ],
   "note": ""
  },
  {
   "property": "C147",
   "status": "proved",
   "theorems": [
    "Geotecha.Consol.ShanArgs.C147_galerkin",
    "Geotecha.Consol.ShanArgs.C147_unique"
   ],
   "note": "Hypotheses: numpy.linalg.eig is right and gives real eigenvalues (contract IsEig; C151 shows it satisfiable for all physical soils), no resonance (there the code divides by zero)."
  },
  {
   "property": "C148",
   "status": "proved",
   "theorems": [
    "Geotecha.Consol.ShanArgs.C148_any_eig"
   ],
   "note": ""
  },
  {
   "property": "C149",
   "status": "partial",
   "theorems": [
    "Geotecha.Consol.ShanArgs.C149_documented_load_partial"
   ],
   "note": "The documented meaning is false of the code (documentation error); the pressure actually imposed is proved, with the exact times at which the two agree."
  },
  {
   "property": "C150",
   "status": "proved",
   "theorems": [
    "Geotecha.Consol.ShanArgs.C150_dissipation"
   ],
   "note": ""
  },
  {
   "property": "C151",
   "status": "proved",
   "theorems": [
    "Geotecha.Consol.ShanArgs.C151_analytic"
   ],
   "note": ""
  },
  {
   "property": "C152",
   "status": "proved",
   "theorems": [
    "Geotecha.Smear.C152_same",
    "Geotecha.Smear.C152_refuses",
    "Geotecha.Smear.C152_empty"
   ],
   "note": "np.math.factorial overflow of floats beyond 170 terms in the array branch is outside the real-number model."
  },
  {
   "property": "C153",
   "status": "proved",
   "theorems": [
    "Geotecha.Smear.C153_derivative",
    "Geotecha.Smear.C153_error",
    "Geotecha.Smear.C153_converges"
   ],
   "note": ""
  },
  {
   "property": "C154",
   "status": "partial",
   "theorems": [
    "Geotecha.Smear.C154_ideal",
    "Geotecha.Smear.C154_constant",
    "Geotecha.Smear.C154_piecewise",
    "Geotecha.Smear.C154_converges",
    "Geotecha.Smear.C154_refuses",
    "Geotecha.Smear.C154_append",
    "Geotecha.Smear.C154_beyond"
   ],
   "note": "Profile/mean-head correspondence, bounds and refusals proved; the English claim 'bad arguments are refused' fails for s > n in non_darcy_beta_constant: C154_beyond proves the negation."
  },
  {
   "property": "C155",
   "status": "proved",
   "theorems": [
    "Geotecha.Smear.C155_distribution",
    "Geotecha.Smear.C155_refuses",
    "Geotecha.Smear.C155_converges"
   ],
   "note": ""
  },
  {
   "property": "C156",
   "status": "proved",
   "theorems": [
    "Geotecha.Smear.C156_ideal",
    "Geotecha.Smear.C156_zones",
    "Geotecha.Smear.C156_split",
    "Geotecha.Smear.C156_mono",
    "Geotecha.Smear.C156_terms",
    "Geotecha.Smear.C156_darcy"
   ],
   "note": ""
  },
  {
   "property": "C157",
   "status": "partial",
   "theorems": [
    "Geotecha.Smear.C157_law",
    "Geotecha.Smear.C157_value",
    "Geotecha.Smear.C157_first_argument"
   ],
   "note": "Proved for n a number; C157_first_argument proves the defects for piecewise beta without keyword n and the missing default of nflow."
  },
  {
   "property": "C158",
   "status": "partial",
   "theorems": [
    "Geotecha.Consol.NL.C158_drain_solution_partial"
   ],
   "note": "Holds for every run whose eigenvalue pairs leave no layer straight (C163 covers the rest); partial because the search for eigenvalues may miss modes, so the initial pressure is only the best approximation by the modes found."
  },
  {
   "property": "C159",
   "status": "partial",
   "theorems": [
    "Geotecha.Consol.NL.C159_free_solution_partial"
   ],
   "note": "As C158 without drain; partial for the same reason."
  },
  {
   "property": "C160",
   "status": "proved",
   "theorems": [
    "Geotecha.Consol.NL.C160_average_settlement"
   ],
   "note": ""
  },
  {
   "property": "C161",
   "status": "proved",
   "theorems": [
    "Geotecha.Consol.NL.C161_settlement_monotone"
   ],
   "note": ""
  },
  {
   "property": "C162",
   "status": "proved",
   "theorems": [
    "Geotecha.Consol.NL.C162_refusals"
   ],
   "note": ""
  },
  {
   "property": "C163",
   "status": "proved",
   "theorems": [
    "Geotecha.Consol.NL.C163_nan",
    "Geotecha.Consol.NL.C163_false_root",
    "Geotecha.Consol.NL.C163_happens"
   ],
   "note": "C163_happens is a run with a sensible soil and the true Bessel series where all averages are nan."
  },
  {
   "property": "C164",
   "status": "partial",
   "theorems": [
    "Geotecha.Consol.NL.C164_saved_partial",
    "Geotecha.Consol.NL.C164_negation"
   ],
   "note": "The code is wrong here: it hands over the averages under the name of the settlements; C164_negation is a run where the two differ."
  },
  {
   "property": "C165",
   "status": "proved",
   "theorems": [
    "Geotecha.Beam.C165_ding_equation_of_motion",
    "Geotecha.Beam.C165_normalised_kept",
    "Geotecha.Beam.C165_normalised_only"
   ],
   "note": "odeint is not modelled: a run is any exact solution of the vector field from zeros at the first time. The cubic term is the quadrature sum (exactness of the rule: C167), not the exact integral."
  },
  {
   "property": "C166",
   "status": "proved",
   "theorems": [
    "Geotecha.Beam.C166_ding_power_balance"
   ],
   "note": ""
  },
  {
   "property": "C167",
   "status": "proved",
   "theorems": [
    "Geotecha.Beam.C167_ding_quadrature_exact",
    "Geotecha.Beam.C167_ding_quadrature_degenerate"
   ],
   "note": ""
  },
  {
   "property": "C168",
   "status": "proved",
   "theorems": [
    "Geotecha.Beam.C168_ding_clamped_free_fail",
    "Geotecha.Beam.C168_ding_two_points",
    "Geotecha.Beam.C168_ding_free_nan"
   ],
   "note": ""
  },
  {
   "property": "C169",
   "status": "proved",
   "theorems": [
    "Geotecha.Beam.C169_ding_shapes",
    "Geotecha.Beam.C169_ding_shapes_orthogonal"
   ],
   "note": ""
  },
  {
   "property": "C170",
   "status": "partial",
   "theorems": [
    "Geotecha.Beam.C170_ding_wofx_partial",
    "Geotecha.Beam.C170_ding_wofx_single",
    "Geotecha.Beam.C170_ding_wofx_no_length"
   ],
   "note": "False in general: normalise_w=True and False both return raw deflections (wofx_partial); only None returns normalised ones; without L the default raises."
  },
  {
   "property": "C171",
   "status": "partial",
   "theorems": [
    "Geotecha.Beam.C171_ding_load_partial",
    "Geotecha.Beam.C171_ding_ghost_load",
    "Geotecha.Beam.C171_ding_ghost_load_nonzero"
   ],
   "note": "False in general: the load is right at all times only as long as it is on the beam; ghost load proved after it has left."
  },
  {
   "property": "C172",
   "status": "proved",
   "theorems": [
    "Geotecha.Beam.C172_ding_weights_positive",
    "Geotecha.Beam.C172_ding_energy_nonneg",
    "Geotecha.Beam.C172_rule_exists"
   ],
   "note": ""
  },
  {
   "property": "C173",
   "status": "proved",
   "theorems": [
    "Geotecha.Beam.C173_convert_to_specbeam",
    "Geotecha.Beam.C173_convert_overrides"
   ],
   "note": ""
  },
  {
   "property": "C174",
   "status": "partial",
   "theorems": [
    "Geotecha.Beam.C174_point_loads_partial",
    "Geotecha.Beam.C174_point_loads_error",
    "Geotecha.Beam.C174_late_vehicle"
   ],
   "note": "False in general: point_loads_on_beam ignores t0, and x0 for a vehicle going left. Proved for t0 = 0; the exact error is proved in general (C174_point_loads_error), with a concrete case."
  },
  {
   "property": "C175",
   "status": "proved",
   "theorems": [
    "Geotecha.Beam.C175_pass_times"
   ],
   "note": ""
  },
  {
   "property": "C176",
   "status": "partial",
   "theorems": [
    "Geotecha.Beam.C176_analytical_gate_partial",
    "Geotecha.Beam.C176_linear_refused",
    "Geotecha.Beam.C176_only_simply_supported"
   ],
   "note": "Partial: the documented condition (linear beam) is false of the code: k3=0 alone or k3_norm=0 alone is refused (C176_linear_refused)."
  },
  {
   "property": "C177",
   "status": "proved",
   "theorems": [
    "Geotecha.Beam.C177_vehicles_from_physical",
    "Geotecha.Beam.C177_vehicles_normalised",
    "Geotecha.Beam.C177_vehicles_both"
   ],
   "note": ""
  },
  {
   "property": "C178",
   "status": "partial",
   "theorems": [
    "Geotecha.Beam.C178_stationary_loads_partial",
    "Geotecha.Beam.C178_phase_error",
    "Geotecha.Beam.C178_phase_case"
   ],
   "note": "Partial: the phase is divided by E*A in the code; exact result for all phases in C178_phase_error, concrete negation C178_phase_case."
  },
  {
   "property": "C179",
   "status": "partial",
   "theorems": [
    "Geotecha.Beam.C179_equation_of_motion_general",
    "Geotecha.Beam.C179_equation_of_motion_partial",
    "Geotecha.Beam.C179_k3bar_ignored"
   ],
   "note": "Partial because the code ignores k3bar (C179_k3bar_ignored), and because of C174/C178; the exact equation it does solve, without extra hypotheses, is C179_equation_of_motion_general. Run = exact solution of the vector field (odeint trusted)."
  },
  {
   "property": "C180",
   "status": "proved",
   "theorems": [
    "Geotecha.Beam.C180_power_balance",
    "Geotecha.Beam.C180_energy_decays"
   ],
   "note": ""
  },
  {
   "property": "C181",
   "status": "proved",
   "theorems": [
    "Geotecha.Beam.C181_wofx",
    "Geotecha.Beam.C181_wofx_single"
   ],
   "note": ""
  },
  {
   "property": "C182",
   "status": "proved",
   "theorems": [
    "Geotecha.Beam.C182_agrees_with_ding"
   ],
   "note": ""
  },
  {
   "property": "C183",
   "status": "proved",
   "theorems": [
    "Geotecha.Beam.C183_run_unique",
    "Geotecha.Beam.C183_ding_run_unique",
    "Geotecha.Beam.C183_field_total",
    "Geotecha.Beam.C183_nquad_required"
   ],
   "note": "The nquad=None part of the documentation is refuted: C183_nquad_required."
  },
  {
   "property": "C184",
   "status": "proved",
   "theorems": [
    "Geotecha.Speccon.Cx.C184_Eload_linear_complex",
    "Geotecha.Speccon.Cx.C184_Eload_sin_complex",
    "Geotecha.Speccon.Cx.C184_Eload_cos_complex_fails"
   ],
   "note": "Eload_coslinear with complex eigenvalues is refuted: C184_Eload_cos_complex_fails. The complex expressions of the code are generated from the source (tools/gen_complex.py)."
  },
  {
   "property": "C185",
   "status": "proved",
   "theorems": [
    "Geotecha.Beam.C185_analytical_is_numerical",
    "Geotecha.Beam.C185_analytical_solves_motion",
    "Geotecha.Beam.C185_same_object",
    "Geotecha.Beam.C185_harmonic_fails",
    "Geotecha.Beam.C185_physical"
   ],
   "note": "np.linalg.eig is a parameter with the contract A v = v diag(eigs) only. Resonant parameters (an eigenvalue 0 or plus/minus i v beta) are excluded; C186 shows damped beams have none."
  },
  {
   "property": "C186",
   "status": "proved",
   "theorems": [
    "Geotecha.Beam.C186_damped_beam_stable"
   ],
   "note": ""
  },
  {
   "property": "C187",
   "status": "proved",
   "theorems": [
    "Geotecha.Epus.C187_history_invariants"
   ],
   "note": "Model over exact reals; overflow and nan are not modelled."
  },
  {
   "property": "C188",
   "status": "proved",
   "theorems": [
    "Geotecha.Epus.C188_drying_empties",
    "Geotecha.Epus.C188_wetting_fills",
    "Geotecha.Epus.C188_loading_fills",
    "Geotecha.Epus.C188_unloading_elastic",
    "Geotecha.Epus.C188_histories"
   ],
   "note": ""
  },
  {
   "property": "C189",
   "status": "proved",
   "theorems": [
    "Geotecha.Epus.C189_volume_is_state_function"
   ],
   "note": ""
  },
  {
   "property": "C190",
   "status": "proved",
   "theorems": [
    "Geotecha.Epus.C190_drying_never_expands",
    "Geotecha.Epus.C190_loading_compresses_saturated",
    "Geotecha.Epus.C190_unloading_never_compresses",
    "Geotecha.Epus.C190_wetting_swells_saturated"
   ],
   "note": ""
  },
  {
   "property": "C191",
   "status": "proved",
   "theorems": [
    "Geotecha.Epus.C191_unload_reload_is_elastic",
    "Geotecha.Epus.C191_saturated_cycle_closes",
    "Geotecha.Epus.C191_loading_subdivision",
    "Geotecha.Epus.C191_unloading_subdivision"
   ],
   "note": ""
  },
  {
   "property": "C192",
   "status": "proved",
   "theorems": [
    "Geotecha.Epus.C192_emptied_volume",
    "Geotecha.Epus.C192_loading_past_yield"
   ],
   "note": "Both parts are findings about the code: the overwritten assignment (lines 591/599) and a concrete loading past yield."
  },
  {
   "property": "C193",
   "status": "proved",
   "theorems": [
    "Geotecha.Epus.C193_calresults_succeeds",
    "Geotecha.Epus.C193_default_logRS_fails",
    "Geotecha.Epus.C193_histories_succeed"
   ],
   "note": "C193_default_logRS_fails: the documented default logRS=0 cannot run."
  },
  {
   "property": "C194",
   "status": "proved",
   "theorems": [
    "Geotecha.Epus.C194_outputs_in_range",
    "Geotecha.Epus.C194_loading_keeps_saturated"
   ],
   "note": ""
  },
  {
   "property": "C195",
   "status": "proved",
   "theorems": [
    "Geotecha.Epus.C195_recorded_path",
    "Geotecha.Epus.C195_step_shape"
   ],
   "note": ""
  },
  {
   "property": "C196",
   "status": "proved",
   "theorems": [
    "Geotecha.Epus.C196_tables_in_range",
    "Geotecha.Epus.C196_dry_lookup_off_by_one",
    "Geotecha.Epus.C196_wet_lookup_exact",
    "Geotecha.Epus.C196_lookup_outside",
    "Geotecha.Epus.C196_drying_reference",
    "Geotecha.Epus.C196_wetting_reference",
    "Geotecha.Epus.C196_reference_in_range"
   ],
   "note": "C196_dry_lookup_off_by_one and C196_lookup_outside are defects, stated exactly."
  },
  {
   "property": "C197",
   "status": "proved",
   "theorems": [
    "Geotecha.Epus.C197_rerun_reproducible"
   ],
   "note": ""
  },
  {
   "property": "C198",
   "status": "proved",
   "theorems": [
    "Geotecha.Epus.C198_DWc_is_derivative_of_corrected",
    "Geotecha.Epus.C198_DWc_is_not_derivative",
    "Geotecha.Epus.C198_Wc_shape"
   ],
   "note": "The documentation of DWc is refuted (C198_DWc_is_not_derivative); what DWc is the derivative of is proved."
  },
  {
   "property": "C199",
   "status": "proved",
   "theorems": [
    "Geotecha.Epus.C199_wev_closed_form",
    "Geotecha.Epus.C199_hysteresis",
    "Geotecha.Epus.C199_wev_increasing",
    "Geotecha.Epus.C199_slurry_volumes",
    "Geotecha.Epus.C199_slurry_groups",
    "Geotecha.Epus.C199_indexes_kept"
   ],
   "note": ""
  },
  {
   "property": "C200",
   "status": "proved",
   "theorems": [
    "Geotecha.Epus.C200_combined",
    "Geotecha.Epus.C200_path_read",
    "Geotecha.Epus.C200_name_required"
   ],
   "note": "The optional name is refuted: C200_name_required."
  },
  {
   "property": "C201",
   "status": "proved",
   "theorems": [
    "Geotecha.Epus.C201_always_completes",
    "Geotecha.Epus.C201_converged",
    "Geotecha.Epus.C201_silent_nonconvergence"
   ],
   "note": "C201_silent_nonconvergence: the error for too many iterations is never raised."
  },
  {
   "property": "C202",
   "status": "proved",
   "theorems": [
    "Geotecha.Epus.C202_refine_lists_ignored",
    "Geotecha.Epus.C202_refinements"
   ],
   "note": "The documented meaning of Npoint_refine and npp_refine is refuted."
  },
  {
   "property": "C203",
   "status": "proved",
   "theorems": [
    "Geotecha.Epus.C203_depths"
   ],
   "note": ""
  },
  {
   "property": "C204",
   "status": "proved",
   "theorems": [
    "Geotecha.Epus.C204_profile",
    "Geotecha.Epus.C204_in_range"
   ],
   "note": ""
  },
  {
   "property": "C205",
   "status": "proved",
   "theorems": [
    "Geotecha.Epus.C205_suction"
   ],
   "note": "The comment that suction below the water table is zero is refuted by C205_suction."
  },
  {
   "property": "C206",
   "status": "proved",
   "theorems": [
    "Geotecha.Epus.C206_additive",
    "Geotecha.Epus.C206_saturated",
    "Geotecha.Epus.C206_gap_fails",
    "Geotecha.Epus.C206_ordinary_profile_fails",
    "Geotecha.Epus.C206_succeeds"
   ],
   "note": "C206_gap_fails / C206_ordinary_profile_fails: crash for ordinary profiles."
  },
  {
   "property": "C207",
   "status": "proved",
   "theorems": [
    "Geotecha.Epus.C207_water",
    "Geotecha.Epus.C207_air"
   ],
   "note": ""
  },
  {
   "property": "C208",
   "status": "proved",
   "theorems": [
    "Geotecha.YG.C208_two_of_four",
    "Geotecha.YG.C208_consistent",
    "Geotecha.YG.C208_how_many"
   ],
   "note": ""
  },
  {
   "property": "C209",
   "status": "proved",
   "theorems": [
    "Geotecha.YG.C209_exact_solution",
    "Geotecha.YG.C209_subdivision",
    "Geotecha.YG.C209_longer_is_denser"
   ],
   "note": ""
  },
  {
   "property": "C210",
   "status": "proved",
   "theorems": [
    "Geotecha.YG.C210_hold_ignores_time",
    "Geotecha.YG.C210_hold_counts_calls",
    "Geotecha.YG.C210_hold_wrong"
   ],
   "note": "The rate law under constant stress is refuted for the code; the exact error is proved."
  },
  {
   "property": "C211",
   "status": "proved",
   "theorems": [
    "Geotecha.YG.C211_state",
    "Geotecha.YG.C211_result_overwritten",
    "Geotecha.YG.C211_false_answer"
   ],
   "note": "C211_false_answer: the returned stress need not be the solution; C211_result_overwritten: aliasing of the result."
  },
  {
   "property": "C212",
   "status": "proved",
   "theorems": [
    "Geotecha.YG.C212_constant_rate",
    "Geotecha.YG.C212_left_behind",
    "Geotecha.YG.C212_rerun_differs"
   ],
   "note": "Varying rates (left endpoint rule in the step method) are not covered; reruns are proved to differ."
  },
  {
   "property": "C213",
   "status": "proved",
   "theorems": [
    "Geotecha.YG.C213_slope"
   ],
   "note": "Wrong sign of the creep part on unloading is proved."
  },
  {
   "property": "C214",
   "status": "proved",
   "theorems": [
    "Geotecha.YG.C214_initial_void_ratio",
    "Geotecha.YG.C214_reinit_keeps_creep",
    "Geotecha.YG.C214_reset"
   ],
   "note": ""
  },
  {
   "property": "C215",
   "status": "proved",
   "theorems": [
    "Geotecha.YG.C215_constant_rate_of_strain",
    "Geotecha.YG.C215_same_law"
   ],
   "note": "Conditional on the iteration of each step converging; constant rate."
  },
  {
   "property": "C216",
   "status": "partial",
   "theorems": [
    "Geotecha.Beam.C216_transition_weight",
    "Geotecha.Beam.C216_position_ignored",
    "Geotecha.Beam.C216_inverse_partial"
   ],
   "note": "Partial: tanhtrani/tanhtranib match tanhtran only for a = 0.5 because tanhtran ignores its argument a (C216_position_ignored, exact error proved)."
  },
  {
   "property": "C217",
   "status": "partial",
   "theorems": [
    "Geotecha.Beam.C217_reverse_curve",
    "Geotecha.Beam.C217_smooth_partial",
    "Geotecha.Beam.C217_steep_jump",
    "Geotecha.Beam.C217_end_points",
    "Geotecha.Beam.C217_integer_grid"
   ],
   "note": "Partial: smooth only when the rise does not exceed the length; otherwise the jump is proved (C217_steep_jump)."
  },
  {
   "property": "C218",
   "status": "proved",
   "theorems": [
    "Geotecha.Beam.C218_moving_load_response",
    "Geotecha.Beam.C218_critical_velocity_fails"
   ],
   "note": ""
  },
  {
   "property": "C219",
   "status": "partial",
   "theorems": [
    "Geotecha.Beam.C219_decay_iff_root_order_partial",
    "Geotecha.Beam.C219_two_roots_each_side",
    "Geotecha.Beam.C219_undamped_supercritical",
    "Geotecha.Beam.C219_real_unique_bounded"
   ],
   "note": "Partial: the code does not order the roots of np.roots; decay is characterised exactly by the order, existence of a right order and uniqueness of the bounded response are proved. np.roots is an oracle."
  },
  {
   "property": "C220",
   "status": "proved",
   "theorems": [
    "Geotecha.Beam.C220_static_shape",
    "Geotecha.Beam.C220_multi_static"
   ],
   "note": ""
  },
  {
   "property": "C221",
   "status": "proved",
   "theorems": [
    "Geotecha.Beam.C221_static_limit",
    "Geotecha.Beam.C221_daf_is_peak",
    "Geotecha.Beam.C221_daf_static",
    "Geotecha.Beam.C221_physical_response",
    "Geotecha.Beam.C221_stiffness_ratio"
   ],
   "note": ""
  },
  {
   "property": "C222",
   "status": "proved",
   "theorems": [
    "Geotecha.Speccon.C222_pore_pressure",
    "Geotecha.Speccon.C222_average_and_settlement"
   ],
   "note": ""
  },
  {
   "property": "C223",
   "status": "proved",
   "theorems": [
    "Geotecha.Speccon.C223_causal",
    "Geotecha.Speccon.C223_causal_average_settlement",
    "Geotecha.Speccon.C223_quiescent"
   ],
   "note": ""
  },
  {
   "property": "C224",
   "status": "proved",
   "theorems": [
    "Geotecha.Speccon.C224_reference_time"
   ],
   "note": ""
  },
  {
   "property": "C225",
   "status": "proved",
   "theorems": [
    "Geotecha.Speccon.C225_mirror",
    "Geotecha.Speccon.C225_symmetric"
   ],
   "note": ""
  },
  {
   "property": "C226",
   "status": "proved",
   "theorems": [
    "Geotecha.Epus.C226_drying_flag",
    "Geotecha.Epus.C226_wetting_flag",
    "Geotecha.Epus.C226_loading_flag",
    "Geotecha.Epus.C226_unloading_flag",
    "Geotecha.Epus.C226_no_shape_no_warning"
   ],
   "note": ""
  },
  {
   "property": "C227",
   "status": "proved",
   "theorems": [
    "Geotecha.Speccon.C227_pore_pressure",
    "Geotecha.Speccon.C227_average_and_settlement",
    "Geotecha.Speccon.C227_drain_pressure",
    "Geotecha.Speccon.C227_causal",
    "Geotecha.Speccon.C227_quiescent"
   ],
   "note": ""
  },
  {
   "property": "C228",
   "status": "proved",
   "theorems": [
    "Geotecha.Speccon.C228_tables",
    "Geotecha.Speccon.C228_independent",
    "Geotecha.Speccon.C228_solution",
    "Geotecha.Speccon.C228_contract"
   ],
   "note": ""
  },
  {
   "property": "C229",
   "status": "proved",
   "theorems": [
    "Geotecha.Speccon.C229_default",
    "Geotecha.Speccon.C229_forward",
    "Geotecha.Speccon.C229_backward",
    "Geotecha.Speccon.C229_picks"
   ],
   "note": ""
  },
  {
   "property": "C230",
   "status": "proved",
   "theorems": [
    "Geotecha.Piecewise.C230_coords",
    "Geotecha.Piecewise.C230_empty"
   ],
   "note": ""
  },
  {
   "property": "C231",
   "status": "proved",
   "theorems": [
    "Geotecha.Piecewise.C231_scale",
    "Geotecha.Piecewise.C231_reciprocal",
    "Geotecha.Piecewise.C231_reciprocal_negation",
    "Geotecha.Piecewise.C231_eq",
    "Geotecha.Piecewise.C231_small_values_equal",
    "Geotecha.Piecewise.C231_eq_negation"
   ],
   "note": ""
  },
  {
   "property": "C232",
   "status": "partial",
   "theorems": [
    "Geotecha.Quad.C232_single",
    "Geotecha.Quad.C232_rows_partial",
    "Geotecha.Quad.C232_stopped",
    "Geotecha.Quad.C232_not_separate"
   ],
   "note": "The docstring (each row a separate sequence) is false of the code: C232_not_separate is a concrete case, C232_stopped the general one (a zero denominator in one row leaves every row unextrapolated). C232_rows_partial: true when no denominator of any row vanishes; C232_single: in full for one row."
  },
  {
   "property": "C233",
   "status": "proved",
   "theorems": [
    "Geotecha.Transform.C233_zeros",
    "Geotecha.Transform.C233_value",
    "Geotecha.Transform.C233_tail",
    "Geotecha.Transform.C233_negative",
    "Geotecha.Transform.C233_odd",
    "Geotecha.Transform.C233_shanks"
   ],
   "note": ""
  },
  {
   "property": "C234",
   "status": "proved",
   "theorems": [
    "Geotecha.Transform.C234_nested",
    "Geotecha.Transform.C234_product"
   ],
   "note": ""
  },
  {
   "property": "C235",
   "status": "proved",
   "theorems": [
    "Geotecha.Speccon.C235_tables",
    "Geotecha.Speccon.C235_values"
   ],
   "note": ""
  },
  {
   "property": "C236",
   "status": "proved",
   "theorems": [
    "Geotecha.Speccon.C236_tables",
    "Geotecha.Speccon.C236_values"
   ],
   "note": ""
  },
  {
   "property": "C237",
   "status": "proved",
   "theorems": [
    "Geotecha.Speccon.C237_tables",
    "Geotecha.Speccon.C237_values"
   ],
   "note": ""
  },
  {
   "property": "C238",
   "status": "proved",
   "theorems": [
    "Geotecha.IO.Timeout.C238_outcomes",
    "Geotecha.IO.Timeout.C238_not_early",
    "Geotecha.IO.Timeout.C238_large_answer_lost",
    "Geotecha.IO.Timeout.C238_finished_in_time",
    "Geotecha.IO.Timeout.C238_answer_arrives",
    "Geotecha.IO.Timeout.C238_no_deadlock",
    "Geotecha.IO.Timeout.C238_unpicklable_hangs"
   ],
   "note": ""
  },
  {
   "property": "C239",
   "status": "proved",
   "theorems": [
    "Geotecha.Const.C239_graphs",
    "Geotecha.Const.C239_piecewise",
    "Geotecha.Const.C239_cccr"
   ],
   "note": ""
  },
  {
   "property": "C240",
   "status": "proved",
   "theorems": [
    "Geotecha.IO.Saving.C240_safe",
    "Geotecha.IO.Saving.C240_progress",
    "Geotecha.IO.Saving.C240_one_by_one",
    "Geotecha.IO.Saving.C240_negation_race",
    "Geotecha.IO.Saving.C240_overwrite_mixes",
    "Geotecha.IO.Saving.C240_names",
    "Geotecha.IO.Saving.C240_data",
    "Geotecha.IO.Saving.C240_figures"
   ],
   "note": ""
  },
  {
   "property": "C241",
   "status": "proved",
   "theorems": [
    "Geotecha.Speccon.C241_pore_pressure",
    "Geotecha.Speccon.C241_average_and_settlement",
    "Geotecha.Speccon.C241_soil_and_column",
    "Geotecha.Speccon.C241_causal",
    "Geotecha.Speccon.C241_quiescent"
   ],
   "note": ""
  },
  {
   "property": "C242",
   "status": "proved",
   "theorems": [
    "Geotecha.Piecewise.C242_from_points",
    "Geotecha.Piecewise.C242_from_segments",
    "Geotecha.Piecewise.C242_interpolation",
    "Geotecha.Piecewise.C242_no_effect",
    "Geotecha.Piecewise.C242_negation"
   ],
   "note": "Holds after reads, products and quotients; fails after an in-place addition (C242_negation)."
  },
  {
   "property": "C243",
   "status": "partial",
   "theorems": [
    "Geotecha.Speccon.C243_pore_pressures_partial",
    "Geotecha.Speccon.C243_averages_and_settlements_partial",
    "Geotecha.Speccon.C243_causal_partial",
    "Geotecha.Speccon.C243_quiescent",
    "Geotecha.Speccon.C243_negation"
   ],
   "note": "Proved when all three runs lack a boundary list or none does; false otherwise (C243_negation): with all four boundary lists given the program drops their effect on the soil. The differences of compressibilities computed by PolyLine subtraction are assumed to be profiles (SettleReady; see C14)."
  },
  {
   "property": "C244",
   "status": "proved",
   "theorems": [
    "Geotecha.IO.Sess.C244_open_file",
    "Geotecha.IO.Sess.C244_path",
    "Geotecha.IO.Sess.C244_closed"
   ],
   "note": ""
  },
  {
   "property": "C245",
   "status": "proved",
   "theorems": [
    "Geotecha.IO.Sess.C245_elapsed",
    "Geotecha.IO.Sess.C245_nonneg",
    "Geotecha.IO.Sess.C245_not_started",
    "Geotecha.IO.Sess.C245_started"
   ],
   "note": ""
  },
  {
   "property": "C246",
   "status": "proved",
   "theorems": [
    "Geotecha.IO.Sess.C246_history",
    "Geotecha.IO.Sess.C246_prefix",
    "Geotecha.IO.Sess.C246_attributes_done",
    "Geotecha.IO.Sess.C246_attributes_raise"
   ],
   "note": ""
  },
  {
   "property": "C247",
   "status": "proved",
   "theorems": [
    "Geotecha.Plot.Palette.C247_refused",
    "Geotecha.Plot.Palette.C247_history"
   ],
   "note": ""
  },
  {
   "property": "C248",
   "status": "proved",
   "theorems": [
    "Geotecha.Plot.Palette.C248_int",
    "Geotecha.Plot.Palette.C248_negative",
    "Geotecha.Plot.Palette.C248_float",
    "Geotecha.Plot.Palette.C248_seed",
    "Geotecha.Plot.Palette.C248_plain"
   ],
   "note": ""
  },
  {
   "property": "C249",
   "status": "proved",
   "theorems": [
    "Geotecha.Speccon.C249_difference",
    "Geotecha.Speccon.C249_settle_ready"
   ],
   "note": ""
  },
  {
   "property": "C250",
   "status": "proved",
   "theorems": [
    "Geotecha.Plot.Loads.C250_history",
    "Geotecha.Plot.Loads.C250_depth",
    "Geotecha.Plot.Loads.C250_omega_zero"
   ],
   "note": ""
  },
  {
   "property": "C251",
   "status": "proved",
   "theorems": [
    "Geotecha.Plot.Loads.C251_figure",
    "Geotecha.Plot.Loads.C251_nothing",
    "Geotecha.Plot.Loads.C251_first_empty",
    "Geotecha.Plot.Loads.C251_first_not_line",
    "Geotecha.Plot.Loads.C251_vr",
    "Geotecha.Plot.Loads.C251_vr_no_loads"
   ],
   "note": ""
  },
  {
   "property": "C252",
   "status": "proved",
   "theorems": [
    "Geotecha.Plot.Loads.C252_materials",
    "Geotecha.Plot.Loads.C252_nothing",
    "Geotecha.Plot.Loads.C252_vr",
    "Geotecha.Plot.Loads.C252_given",
    "Geotecha.Plot.Loads.C252_vrw",
    "Geotecha.Plot.Loads.C252_vrc",
    "Geotecha.Plot.Loads.C252_vrc_latent"
   ],
   "note": ""
  },
  {
   "property": "C253",
   "status": "proved",
   "theorems": [
    "Geotecha.Plot.Results.C253_right",
    "Geotecha.Plot.Results.C253_refused",
    "Geotecha.Plot.Results.C253_styles"
   ],
   "note": ""
  },
  {
   "property": "C254",
   "status": "proved",
   "theorems": [
    "Geotecha.Plot.Results.C254_all",
    "Geotecha.Plot.Results.C254_stops",
    "Geotecha.Plot.Results.C254_axis",
    "Geotecha.Plot.Results.C254_shared_dict",
    "Geotecha.Plot.Results.C254_again",
    "Geotecha.Plot.Results.C254_again_differs",
    "Geotecha.Plot.Results.C254_vr",
    "Geotecha.Plot.Results.C254_vrc",
    "Geotecha.Plot.Results.C254_vrw",
    "Geotecha.Plot.Results.C254_layered"
   ],
   "note": ""
  },
  {
   "property": "C255",
   "status": "proved",
   "theorems": [
    "Geotecha.IO.GenCode.C255_values",
    "Geotecha.IO.GenCode.C255_dict",
    "Geotecha.IO.GenCode.C255_quote",
    "Geotecha.IO.GenCode.C255_backslash"
   ],
   "note": ""
  },
  {
   "property": "C256",
   "status": "proved",
   "theorems": [
    "Geotecha.IO.Making.C256_rejected",
    "Geotecha.IO.Making.C256_quiet",
    "Geotecha.IO.Making.C256_data",
    "Geotecha.IO.Making.C256_again",
    "Geotecha.IO.Making.C256_again_replaced",
    "Geotecha.IO.Making.C256_plot_fails",
    "Geotecha.IO.Making.C256_shown",
    "Geotecha.IO.Making.C256_figures",
    "Geotecha.IO.Making.C256_one_figure"
   ],
   "note": ""
  },
  {
   "property": "C257",
   "status": "proved",
   "theorems": [
    "Geotecha.Plot.Unsat.C257_figures",
    "Geotecha.Plot.Unsat.C257_loads",
    "Geotecha.Plot.Unsat.C257_materials",
    "Geotecha.Plot.Unsat.C257_negation_label"
   ],
   "note": ""
  },
  {
   "property": "C258",
   "status": "proved",
   "theorems": [
    "Geotecha.Consol.XieLeo.PlotAll.C258_never",
    "Geotecha.Consol.XieLeo.PlotAll.C258_figure",
    "Geotecha.Consol.XieLeo.PlotAll.C258_defaults"
   ],
   "note": ""
  },
  {
   "property": "C259",
   "status": "proved",
   "theorems": [
    "Geotecha.Plot.Demo.C259_labels",
    "Geotecha.Plot.Demo.C259_sheets",
    "Geotecha.Plot.Demo.C259_history"
   ],
   "note": ""
  }
 ]
}
