{
 "claims": [
  {
   "property": "C01",
   "status": "proved",
   "theorems": [
    "PQ.C01_mul",
    "PQ.C01_div",
    "PQ.C01_pow",
    "PQ.C01_types"
   ],
   "note": ""
  },
  {
   "property": "C02",
   "status": "proved",
   "theorems": [
    "PQ.C02_canonical",
    "PQ.C02_exponent",
    "PQ.C02_cancel"
   ],
   "note": ""
  },
  {
   "property": "C03",
   "status": "proved",
   "theorems": [
    "PQ.C03_mul_comm",
    "PQ.C03_mul_assoc",
    "PQ.C03_one_mul",
    "PQ.C03_div_eq_mul_inv",
    "PQ.C03_div_self",
    "PQ.C03_mul_pow",
    "PQ.C03_pow_pow",
    "PQ.C03_pow_add",
    "PQ.C03_pow_one"
   ],
   "note": ""
  },
  {
   "property": "C04",
   "status": "proved",
   "theorems": [
    "PQ.C04_order_independent",
    "PQ.C04_numbering",
    "PQ.C04_equivalence"
   ],
   "note": ""
  },
  {
   "property": "C05",
   "status": "partial",
   "theorems": [
    "PQ.C05_eq_sound_partial",
    "PQ.C05_false"
   ],
   "note": "== is hash comparison. Proved: equal content whenever the exponents are small (|numerator|, denominator below 2^30) and the per-item hashes are collision-free in XOR; C05_false exhibits two different dimensionalities (exponents 1 and 2^61) that compare equal, for every hash function."
  },
  {
   "property": "C06",
   "status": "partial",
   "theorems": [
    "PQ.C06_inplace_distinct",
    "PQ.C06_imul_self",
    "PQ.C06_false_itruediv_self"
   ],
   "note": "Distinct operands and d *= d proved; d /= d (and d /= view of itself) raises RuntimeError because the dict is changed while iterated: C06_false_itruediv_self."
  },
  {
   "property": "C07",
   "status": "proved",
   "theorems": [
    "PQ.C07_add_sub",
    "PQ.C07_same_content_adds"
   ],
   "note": ""
  },
  {
   "property": "C08",
   "status": "proved",
   "theorems": [
    "PQ.C08_count",
    "PQ.C08_total_preorder",
    "PQ.C08_physical"
   ],
   "note": ""
  },
  {
   "property": "C09",
   "status": "proved",
   "theorems": [
    "PQ.C09_rescale_preserves_value",
    "PQ.C09_valuations_exist"
   ],
   "note": ""
  },
  {
   "property": "C10",
   "status": "proved",
   "theorems": [
    "PQ.C10_rescale_iff_compatible",
    "PQ.C10_compatible_converts"
   ],
   "note": ""
  },
  {
   "property": "C11",
   "status": "proved",
   "theorems": [
    "PQ.C11_rescale_same",
    "PQ.C11_rescale_compose",
    "PQ.C11_rescale_roundtrip"
   ],
   "note": ""
  },
  {
   "property": "C12",
   "status": "proved",
   "theorems": [
    "PQ.C12_setUnits_agrees"
   ],
   "note": ""
  },
  {
   "property": "C13",
   "status": "proved",
   "theorems": [
    "PQ.C13_add",
    "PQ.C13_radd",
    "PQ.C13_sub",
    "PQ.C13_rsub"
   ],
   "note": ""
  },
  {
   "property": "C14",
   "status": "proved",
   "theorems": [
    "PQ.C14_mul",
    "PQ.C14_rmul",
    "PQ.C14_truediv",
    "PQ.C14_rtruediv",
    "PQ.C14_errors"
   ],
   "note": ""
  },
  {
   "property": "C15",
   "status": "proved",
   "theorems": [
    "PQ.C15_pow_rejects",
    "PQ.C15_pow",
    "PQ.C15_pow_returns"
   ],
   "note": ""
  },
  {
   "property": "C16",
   "status": "proved",
   "theorems": [
    "PQ.C16_mod",
    "PQ.C16_mod_meaning"
   ],
   "note": "% with quantities and numbers, either order of units; meaning of the remainder stated with the floor of the physical quotient. Floor division is C63."
  },
  {
   "property": "C17",
   "status": "proved",
   "theorems": [
    "PQ.C17_lt",
    "PQ.C17_le",
    "PQ.C17_gt",
    "PQ.C17_ge",
    "PQ.C17_eq_compatible",
    "PQ.C17_eq_incompatible"
   ],
   "note": ""
  },
  {
   "property": "C18",
   "status": "proved",
   "theorems": [
    "PQ.C18_eq_meaning",
    "PQ.C18_equivalence"
   ],
   "note": "Meaning of == and the equivalence laws for quantities. Bare numbers are C64."
  },
  {
   "property": "C19",
   "status": "proved",
   "theorems": [
    "PQ.C19_value",
    "PQ.C19_returns",
    "PQ.C19_idempotent",
    "PQ.C19_idempotent_returns"
   ],
   "note": "Value preservation, default units only, idempotence, and the exact condition under which it returns. Units without definition are C65."
  },
  {
   "property": "C20",
   "status": "proved",
   "theorems": [
    "PQ.C20_simplified_iff_rescale"
   ],
   "note": ""
  },
  {
   "property": "C21",
   "status": "proved",
   "theorems": [
    "PQ.C21_conversions_stable",
    "PQ.C21_values_stable",
    "PQ.C21_set_default_local",
    "PQ.C21_default_convertible",
    "PQ.C21_default_dimension",
    "PQ.C21_first_default",
    "PQ.C21_good_defaults_step",
    "PQ.C21_created_default"
   ],
   "note": ""
  },
  {
   "property": "C22",
   "status": "proved",
   "theorems": [
    "PQ.C22_success",
    "PQ.C22_unknown_system",
    "PQ.C22_returns_iff"
   ],
   "note": "Every combination of system and keywords. Failing calls are C66."
  },
  {
   "property": "C23",
   "status": "proved",
   "theorems": [
    "PQ.C23_label_stable",
    "PQ.C23_labels_bound"
   ],
   "note": "For every history, also histories with constructions that raise half-way. Conflicting definitions are C67."
  },
  {
   "property": "C24",
   "status": "proved",
   "theorems": [
    "PQ.C24_rejects_other_syntax",
    "PQ.C24_only_arithmetic",
    "PQ.C24_depends_on_mentioned",
    "PQ.C24_unknown_name"
   ],
   "note": "For every parser and every meaning of the operators."
  },
  {
   "property": "C25",
   "status": "proved",
   "theorems": [
    "PQ.C25_caret_and_middle_dot",
    "PQ.C25_special_labels"
   ],
   "note": "For every string. Points are C68."
  },
  {
   "property": "C26",
   "status": "partial",
   "theorems": [
    "PQ.C26_format_lookup_partial",
    "PQ.C26_false_exponent_ten",
    "PQ.C26_false_inch"
   ],
   "note": "Proved for all dimensionalities whose symbols are identifiers and whose exponents are integers not divisible by 10 or floats with a decimal repr, against a model of the Python lexer and parser; false for exponents divisible by 10 (m**10 prints m**1) and for the inch (in**2 is a syntax error)."
  },
  {
   "property": "C27",
   "status": "proved",
   "theorems": [
    "PQ.C27_insertion_order"
   ],
   "note": "In every state reachable by one thread. What the strings say is C69, C57."
  },
  {
   "property": "C28",
   "status": "proved",
   "theorems": [
    "PQ.C28_units_immutable",
    "PQ.C28_attempts_raise"
   ],
   "note": "Over every sequence of commands of the heap model (Cmd)."
  },
  {
   "property": "C29",
   "status": "proved",
   "theorems": [
    "PQ.C29_view_refuses_unit_changes",
    "PQ.C29_view_keeps_units",
    "PQ.C29_units_of_others_kept",
    "PQ.C29_unrelated_unaffected",
    "PQ.C29_units_setter_incompatible",
    "PQ.C29_units_setter_preserves"
   ],
   "note": "*=, /=, **= and units assignment on views; frame conditions for every command. Coherence of views with their owner is C70."
  },
  {
   "property": "C30",
   "status": "proved",
   "theorems": [
    "PQ.C30_separate_objects_independent",
    "PQ.C30_copy_equal",
    "PQ.C30_copy_not_affected",
    "PQ.C30_copy_does_not_affect"
   ],
   "note": "copy(); deepcopy is C71."
  },
  {
   "property": "C31",
   "status": "proved",
   "theorems": [
    "PQ.C31_setitem_elements",
    "PQ.C31_accepts",
    "PQ.C31_setitem_stores",
    "PQ.C31_setitem_scalar",
    "PQ.C31_setitem_error",
    "PQ.C31_incompatible",
    "PQ.C31_compatible",
    "PQ.C31_put_stores",
    "PQ.C31_assignment",
    "PQ.C31_operands"
   ],
   "note": "Item assignment and put; put with several indices is not atomic when an index is out of range."
  },
  {
   "property": "C32",
   "status": "proved",
   "theorems": [
    "PQ.C32_axis_elements",
    "PQ.C32_sum",
    "PQ.C32_mean",
    "PQ.C32_max",
    "PQ.C32_min",
    "PQ.C32_ptp",
    "PQ.C32_std",
    "PQ.C32_cumsum",
    "PQ.C32_trace",
    "PQ.C32_positions",
    "PQ.C32_nansum",
    "PQ.C32_nanmean",
    "PQ.C32_nanstd"
   ],
   "note": "Every axis (None, int, tuple), exceptions included; nan variants over arrays with nans. nanmax and nanmin are C72. C32_axis_elements spells out sums and means along an axis element by element."
  },
  {
   "property": "C33",
   "status": "proved",
   "theorems": [
    "PQ.C33_axis_elements",
    "PQ.C33_prod_all",
    "PQ.C33_prod_axis",
    "PQ.C33_prod_bad_axis",
    "PQ.C33_var",
    "PQ.C33_var_std",
    "PQ.C33_cumprod"
   ],
   "note": "prod, var, std/var relation, cumprod. C33_axis_elements: products along an axis element by element."
  },
  {
   "property": "C34",
   "status": "proved",
   "theorems": [
    "PQ.C34_square",
    "PQ.C34_reciprocal",
    "PQ.C34_sqrt",
    "PQ.C34_absolute",
    "PQ.C34_negative",
    "PQ.C34_exp_log",
    "PQ.C34_trig",
    "PQ.C34_arctrig",
    "PQ.C34_angle_conversion",
    "PQ.C34_unsupported",
    "PQ.C34_uniform",
    "PQ.C34_uniform_functions",
    "PQ.C34_multiply_divide",
    "PQ.C34_arctan2",
    "PQ.C34_arctan2_function"
   ],
   "note": "square, reciprocal, sqrt, absolute, fabs, negative, conjugate, exp/log family, trig and inverse trig, radians/degrees, add, subtract, mod, fmod, remainder, hypot, maximum, minimum, multiply, divide, arctan2. The rest of the table is C73."
  },
  {
   "property": "C35",
   "status": "proved",
   "theorems": [
    "PQ.C35_trig",
    "PQ.C35_arc",
    "PQ.C35_hyperbolic",
    "PQ.C35_same_angle"
   ],
   "note": ""
  },
  {
   "property": "C36",
   "status": "partial",
   "theorems": [
    "PQ.C36_hypot_accepts_partial",
    "PQ.C36_hypot_partial",
    "PQ.C36_hypot_false",
    "PQ.C36_arctan2_partial",
    "PQ.C36_arctan2_false",
    "PQ.C36_arctan2_accepts"
   ],
   "note": "Same units: physical (hypot, arctan2). hypot refuses different units of the same kind; arctan2 accepts them and uses the raw numbers (45 degrees for 1 km, 1 m). C36_arctan2_accepts gives the exact acceptance condition."
  },
  {
   "property": "C37",
   "status": "proved",
   "theorems": [
    "PQ.C37_aligned"
   ],
   "note": "By induction over every expression. numpy functions without an override are C74; UncertainQuantity(uq) and uq.units = ... always raise AttributeError."
  },
  {
   "property": "C38",
   "status": "proved",
   "theorems": [
    "PQ.C38_rescale",
    "PQ.C38_returns",
    "PQ.C38_simplified"
   ],
   "note": "rescale and simplified, values and uncertainties as physical values, relative uncertainties elementwise."
  },
  {
   "property": "C39",
   "status": "proved",
   "theorems": [
    "PQ.C39_sum",
    "PQ.C39_difference",
    "PQ.C39_times_exact",
    "PQ.C39_exact_times",
    "PQ.C39_over_exact",
    "PQ.C39_exact_over",
    "PQ.C39_neg",
    "PQ.C39_total",
    "PQ.C39_average",
    "PQ.C39_getitem",
    "PQ.C39_average_returns",
    "PQ.C39_exact_over_returns"
   ],
   "note": "In any mixture of compatible units, broadcasting, exceptions included. Products of two uncertain quantities and powers are C75, extremes C76, sums with exact values C77."
  },
  {
   "property": "C40",
   "status": "proved",
   "theorems": [
    "PQ.C40_unit",
    "PQ.C40_quantity",
    "PQ.C40_same_process"
   ],
   "note": "Nothing but counters changes. The byte format, the memo and ndarray own state are trusted. Half-registered units are C78."
  },
  {
   "property": "C41",
   "status": "partial",
   "theorems": [
    "PQ.Memo.C41_once",
    "PQ.Memo.C41_transparent_partial",
    "PQ.Memo.C41_untouched",
    "PQ.Memo.C41_false_equal_arguments",
    "PQ.Memo.C41_false_shallow_copy",
    "PQ.Memo.C41_false_unhashable",
    "PQ.Memo.C41_false_list",
    "PQ.Memo.C41_false_no_copy"
   ],
   "note": "Proved for every history, any number of decorated functions sharing the cache, when results are flat (arrays, quantities, dimensionalities) and functions do not distinguish arguments that compare equal. False in general: g(1.0) after g(1), shallow copies, unhashable arguments, results without copy()."
  },
  {
   "property": "C42",
   "status": "proved",
   "theorems": [
    "PQ.C42_import_returns",
    "PQ.C42_labels",
    "PQ.C42_reachable",
    "PQ.C42_constants_inert",
    "PQ.C42_dimensions",
    "PQ.C42_convertible",
    "PQ.C42_defaults",
    "PQ.C42_good_defaults"
   ],
   "note": "Of the table of all 346 units and 324 constants (generated from the sources), under any hash function; 31 constants are negative (conversion between units shown unaffected). Declared kinds are C79."
  },
  {
   "property": "C43",
   "status": "proved",
   "theorems": [
    "PQ.C43_add_number"
   ],
   "note": "Returns exactly for units convertible to dimensionless. Comparisons are C64."
  },
  {
   "property": "C44",
   "status": "proved",
   "theorems": [
    "PQ.C44_clip_elements",
    "PQ.C44_clip",
    "PQ.C44_clip_incompatible",
    "PQ.C44_clip_plain_rejected",
    "PQ.C44_round"
   ],
   "note": "searchsorted and plain bounds of dimensionless quantities are C80."
  },
  {
   "property": "C45",
   "status": "partial",
   "theorems": [
    "PQ.C45_value",
    "PQ.C45_rescale_none",
    "PQ.C45_rescale_units",
    "PQ.C45_first_compatible_partial",
    "PQ.C45_first_compatible_modes_partial",
    "PQ.C45_false_float_exponent",
    "PQ.C45_false_wrong_match"
   ],
   "note": "A successful call returns the same physical value in one of the preferred units, and rescale(None) is this call; the choice of the first dimensionally equal preferred unit proved when the strings of simplified dimensionalities are faithful; refuted in general: the comparison is by string, so a float exponent is missed (C45_false_float_exponent) and m**10 is confused with m**100 (C45_false_wrong_match)."
  },
  {
   "property": "C46",
   "status": "proved",
   "theorems": [
    "PQ.C46_dimensionless_magnitude"
   ],
   "note": ""
  },
  {
   "property": "C47",
   "status": "partial",
   "theorems": [
    "PQ.C47_same_identity_partial",
    "PQ.C47_false"
   ],
   "note": "Equal for the same class and name; 1000*m named differently compares equal to km yet hashes differently: C47_false."
  },
  {
   "property": "C48",
   "status": "proved",
   "theorems": [
    "PQ.C48_diff",
    "PQ.C48_cumsum",
    "PQ.C48_trapz",
    "PQ.C48_trapz_units",
    "PQ.C48_gradient",
    "PQ.C48_cross"
   ],
   "note": "ediff1d, gradient without spacing and cross with a plain array are C81."
  },
  {
   "property": "C49",
   "status": "proved",
   "theorems": [
    "PQ.C49_tolist",
    "PQ.C49_tolist_length",
    "PQ.C49_getitem_int",
    "PQ.C49_getitem",
    "PQ.C49_iter",
    "PQ.C49_iter_rebuild",
    "PQ.C49_item_fresh"
   ],
   "note": ""
  },
  {
   "property": "C50",
   "status": "proved",
   "theorems": [
    "PQ.C50_quantity_argument",
    "PQ.C50_dimensionality_argument"
   ],
   "note": "Strings are C82."
  },
  {
   "property": "C51",
   "status": "partial",
   "theorems": [
    "PQ.C51_unwrap_elements_partial",
    "PQ.C51_unwrap_partial",
    "PQ.C51_unwrap_incompatible",
    "PQ.C51_unwrap_false"
   ],
   "note": "Proved in radians; in degrees the period 2*pi is applied to the number of degrees: C51_unwrap_false."
  },
  {
   "property": "C52",
   "status": "proved",
   "theorems": [
    "PQ.C52_inplace_agrees",
    "PQ.C52_inplace_succeeds",
    "PQ.C52_inplace_error"
   ],
   "note": "numpy 2 is C83."
  },
  {
   "property": "C53",
   "status": "proved",
   "theorems": [
    "PQ.C53_view_live"
   ],
   "note": ""
  },
  {
   "property": "C54",
   "status": "proved",
   "theorems": [
    "PQ.C54_integers_meet",
    "PQ.C54_rescale_dtype",
    "PQ.C54_rescale_value",
    "PQ.C54_rescale_accuracy",
    "PQ.C54_add",
    "PQ.C54_add_dtype",
    "PQ.C54_sub",
    "PQ.C54_compare",
    "PQ.C54_inplace_int",
    "PQ.C54_inplace_float",
    "PQ.C54_units_setter",
    "PQ.C54_promotion"
   ],
   "note": "For all dtypes (booleans, integers, floats) and both promotion rules, with the exact value when floats do not round and an error bound when they do. Item assignment and explicit dtypes are C84."
  },
  {
   "property": "C56",
   "status": "proved",
   "theorems": [
    "PQ.C56_unit_is_one",
    "PQ.C56_expression_units",
    "PQ.C56_expression",
    "PQ.C56_returns",
    "PQ.C56_comparison"
   ],
   "note": "Every expression tree over units, quantities, arrays and numbers. Uncertain operands and the shape of == are C85."
  },
  {
   "property": "C57",
   "status": "proved",
   "theorems": [
    "PQ.C57_forms"
   ],
   "note": "Plain, unicode, HTML and LaTeX forms proved to be four typesettings of one expression, for any units with plain symbols and integer exponents that print faithfully. Fractional exponents are C86."
  },
  {
   "property": "C55",
   "status": "partial",
   "theorems": [
    "PQ.C55_value_partial",
    "PQ.C55_unit_independent_partial",
    "PQ.C55_returns_partial",
    "PQ.C55_false_keyword",
    "PQ.C55_false_default_handler",
    "PQ.C55_false_single",
    "PQ.C55_false_number",
    "PQ.C55_false_undocumented"
   ],
   "note": "For every base function and handler: inputs are the arguments in default units, outputs the announced units with the physical value of the raw result, results independent of the argument units; returns when handler and base return sequences. False for quantity keyword arguments (misspelled `simplifed`), for the default handler, for a handler returning one scalar quantity, for base functions returning a number, for functions without docstring."
  },
  {
   "property": "C58",
   "status": "proved",
   "theorems": [
    "PQ.C58_rescale",
    "PQ.C58_returns",
    "PQ.C58_round_trip",
    "PQ.C58_budget_exists"
   ],
   "note": "Arithmetic with relative error at most eps per operation (no overflow or underflow), powers included. The number of errors is computed from the definitions by a budget that always exists (C58_budget_exists)."
  },
  {
   "property": "C59",
   "status": "proved",
   "theorems": [
    "PQ.C59_result",
    "PQ.C59_alone",
    "PQ.C59_rescale"
   ],
   "note": "Any program of conversions, additions, subtractions and comparisons of quantities in existing units, later ones depending on earlier results; interleaved at single attribute accesses; executed alone the programs are the functions of the sequential model."
  },
  {
   "property": "C60",
   "status": "proved",
   "theorems": [
    "PQ.C60_value",
    "PQ.C60_default_convertible",
    "PQ.C60_alone"
   ],
   "note": "Value and shape of a returned simplification, for any interleaving without a hash collision between a unit and its class's default; defaults stay convertible under any interleaving."
  },
  {
   "property": "C61",
   "status": "proved",
   "theorems": [
    "PQ.C61_bound_stable",
    "PQ.C61_created",
    "PQ.C61_label_frame",
    "PQ.C61_alone"
   ],
   "note": "Success, labels, definition and conversion of the new unit, termination; bound labels stable and other labels unchanged under any interleaving; alone it is the sequential constructor call. Units that share a label or a class counter race: C67_false_race, C69_false_race."
  },
  {
   "property": "C62",
   "status": "partial",
   "theorems": [
    "PQ.C62_quiet_partial",
    "PQ.C62_false_mixed"
   ],
   "note": "Proved when no default changes during the call. False otherwise: changing the default length between the two units of m*km returns m*km."
  },
  {
   "property": "C63",
   "status": "partial",
   "theorems": [
    "PQ.C63_floordiv_partial",
    "PQ.C63_floordiv_false"
   ],
   "note": "// does not rescale: proved for same units, refuted in general (1.5 km // 1 m): C63_floordiv_false."
  },
  {
   "property": "C64",
   "status": "partial",
   "theorems": [
    "PQ.C64_transitive_false",
    "PQ.C64_dimensionless_partial",
    "PQ.C64_transitive_partial",
    "PQ.C64_compare_false",
    "PQ.C64_plain_left"
   ],
   "note": "Comparisons with bare numbers are accepted whatever the units (C64_compare_false), so == is not transitive: 1 km == 1 == 1 m (C64_transitive_false). Proved: with a dimensionless quantity every comparison with plain numbers is that of the physical values (C64_dimensionless_partial), and == is transitive across a number for quantities with equal units (C64_transitive_partial)."
  },
  {
   "property": "C65",
   "status": "partial",
   "theorems": [
    "PQ.C65_returns_partial",
    "PQ.C65_false_undefined"
   ],
   "note": "False: a unit created without definition in a class without default (C65_false_undefined) recurses until RecursionError. C19_returns gives the exact condition, restated as C65_returns_partial; C79_simplified_partial instantiates it for the library as shipped."
  },
  {
   "property": "C66",
   "status": "partial",
   "theorems": [
    "PQ.C66_false",
    "PQ.C66_failure_partial",
    "PQ.C66_one_class_partial"
   ],
   "note": "False: set_default_units(length=km, time=m) raises AssertionError after the default length has been changed: C66_false. Proved: what a failing call may leave behind - the unit table and the registry untouched, each default either as before or a requested one, the exception traced to one faulty argument (C66_failure_partial); a call that sets one class only is atomic (C66_one_class_partial)."
  },
  {
   "property": "C67",
   "status": "partial",
   "theorems": [
    "PQ.C67_conflict_partial",
    "PQ.C67_same_name_accepted",
    "PQ.C67_false",
    "PQ.C67_false_race"
   ],
   "note": "A conflicting definition of a different value under another class or name raises KeyError (C67_conflict_partial); a second unit of the same class and name but another definition is silently accepted and the first binding kept (C67_same_name_accepted, C67_false); two threads can bind a label twice (C67_false_race)."
  },
  {
   "property": "C68",
   "status": "partial",
   "theorems": [
    "PQ.C68_dots_partial",
    "PQ.C68_false_dots"
   ],
   "note": "Proved when inner names have two or more letters; C68_false_dots: m.s.A is rejected (regex matches do not overlap)."
  },
  {
   "property": "C69",
   "status": "partial",
   "theorems": [
    "PQ.C69_false_race",
    "PQ.C69_injective_partial",
    "PQ.C69_content_partial",
    "PQ.C69_false_ten_hundred",
    "PQ.C69_false_int_float"
   ],
   "note": "Proved for faithfully printed exponents; false for m**10 vs m**100 and for exponents 10 vs 10.0; concurrent constructions can give two units the same place in the order (C69_false_race)."
  },
  {
   "property": "C70",
   "status": "partial",
   "theorems": [
    "PQ.C70_out_false",
    "PQ.C70_coherent_partial",
    "PQ.C70_coherent_from_start_partial",
    "PQ.C70_shared_elements_agree_partial",
    "PQ.C70_owner_units_false",
    "PQ.C70_fill_false",
    "PQ.C70_floordiv_false",
    "PQ.C70_squeeze_false"
   ],
   "note": "A history that avoids four operations keeps all overlapping objects in one unit (C70_coherent_partial, C70_coherent_from_start_partial, C70_shared_elements_agree_partial). The full claim is false: assigning .units on the owner rescales the memory under its views (C70_owner_units_false), and fill, //=, squeeze and out= (C70_out_false) bypass the protection."
  },
  {
   "property": "C71",
   "status": "partial",
   "theorems": [
    "PQ.C71_deepcopy_equal_partial",
    "PQ.C71_deepcopy_false"
   ],
   "note": "deepcopy gives an equal object (C71_deepcopy_equal_partial) but shares memory with the original: C71_deepcopy_false."
  },
  {
   "property": "C72",
   "status": "partial",
   "theorems": [
    "PQ.C72_elements_partial",
    "PQ.C72_nanmax_nanmin_partial",
    "PQ.C72_axis_false"
   ],
   "note": "Proved for axis=None; the axis argument is ignored: C72_axis_false."
  },
  {
   "property": "C73",
   "status": "partial",
   "theorems": [
    "PQ.C73_floor_false",
    "PQ.C73_less_false",
    "PQ.C73_logaddexp_false",
    "PQ.C73_rounding_partial",
    "PQ.C73_comparison_partial",
    "PQ.C73_comparison_functions_partial",
    "PQ.C73_logaddexp_partial"
   ],
   "note": "False: floor (rint, fix, ceil alike) depends on the units (C73_floor_false), comparison ufuncs called directly attach units to truth values (C73_less_false), logaddexp does not check its second operand (C73_logaddexp_false). Proved: rounding is done in the units held, is exact for units of size 1 and moves the value by at most one unit otherwise (C73_rounding_partial); the truth values of the comparison ufuncs are those of the physical comparison, only their units are wrong (C73_comparison_partial, C73_comparison_functions_partial); logaddexp refuses a first operand with units and is sound when the second has size 1 (C73_logaddexp_partial)."
  },
  {
   "property": "C74",
   "status": "partial",
   "theorems": [
    "PQ.C74_ufunc_false",
    "PQ.C74_reshape_false",
    "PQ.C74_ufunc_partial",
    "PQ.C74_rearrange_partial"
   ],
   "note": "False for functions without an override: fabs gives a dimensionless uncertainty (C74_ufunc_false), reshape keeps the old shape (C74_reshape_false). Proved: the exact condition under which these results are aligned (C74_ufunc_partial: dimensionless result; C74_rearrange_partial: unchanged shape); everything the class overrides is aligned by C37."
  },
  {
   "property": "C75",
   "status": "partial",
   "theorems": [
    "PQ.C75_product_partial",
    "PQ.C75_quotient_partial",
    "PQ.C75_product_sign_false",
    "PQ.C75_power_partial",
    "PQ.C75_power_sign_false",
    "PQ.C75_power_returns_partial"
   ],
   "note": "Value and size of the uncertainty proved for non-zero values; the sign is wrong for negative products and negative exponents (C75_product_sign_false, C75_power_sign_false)."
  },
  {
   "property": "C76",
   "status": "partial",
   "theorems": [
    "PQ.C76_max_partial",
    "PQ.C76_min_partial",
    "PQ.C76_extremum_axis_false",
    "PQ.C76_extremum_returns_partial"
   ],
   "note": "Proved without axis; the axis argument is ignored: C76_extremum_axis_false."
  },
  {
   "property": "C77",
   "status": "partial",
   "theorems": [
    "PQ.C77_plus_exact_false",
    "PQ.C77_exact_minus_uncertain_partial",
    "PQ.C77_exact_minus_returns_partial"
   ],
   "note": "exact - uncertain proved; uncertain + exact, exact + uncertain and uncertain - exact always raise (C77_plus_exact_false)."
  },
  {
   "property": "C78",
   "status": "partial",
   "theorems": [
    "PQ.C78_created_partial",
    "PQ.C78_false_half_registered"
   ],
   "note": "False for a unit whose constructor raised half-way: C78_false_half_registered. Proved: every unit created, with the units of its definition, by constructor calls that returned can be pickled and comes back as itself at any later time (C78_created_partial)."
  },
  {
   "property": "C79",
   "status": "partial",
   "theorems": [
    "PQ.C79_false_international_foot",
    "PQ.C79_class_partial",
    "PQ.C79_false_statampere",
    "PQ.C79_simplified_partial",
    "PQ.C79_false_oersteds"
   ],
   "note": "Proved for all but statampere, which is declared a current but is not convertible to ampere (C79_false_statampere); international_foot is not registered because of a missing comma (C79_false_international_foot)."
  },
  {
   "property": "C80",
   "status": "partial",
   "theorems": [
    "PQ.C80_searchsorted_elements_partial",
    "PQ.C80_clip_plain_dimensionless_false",
    "PQ.C80_searchsorted_partial",
    "PQ.C80_searchsorted_count_partial",
    "PQ.C80_searchsorted_units_false"
   ],
   "note": "searchsorted proved for equal units, it refuses compatible but different ones (C80_searchsorted_units_false); plain bounds of a dimensionless quantity raise AttributeError (C80_clip_plain_dimensionless_false)."
  },
  {
   "property": "C81",
   "status": "partial",
   "theorems": [
    "PQ.C81_ediff1d_elements_partial",
    "PQ.C81_ediff1d_partial",
    "PQ.C81_ediff1d_false",
    "PQ.C81_gradient_default_false",
    "PQ.C81_gradient_plain_false",
    "PQ.C81_cross_plain_false"
   ],
   "note": "ediff1d proved when all arguments are in one unit. Refuted: to_end in other units, gradient without spacing / with one plain spacing, cross with a plain array."
  },
  {
   "property": "C82",
   "status": "partial",
   "theorems": [
    "PQ.C82_string_argument_partial",
    "PQ.C82_false_scale_factor"
   ],
   "note": "Proved for strings whose value has magnitude one; a factor is silently lost: C82_false_scale_factor (1000*m)."
  },
  {
   "property": "C83",
   "status": "partial",
   "theorems": [
    "PQ.C83_inplace_agrees_partial",
    "PQ.C83_np2_false"
   ],
   "note": "Proved for +=, -= and %=; *=, /= and **= do not update the units: C83_np2_false."
  },
  {
   "property": "C84",
   "status": "partial",
   "theorems": [
    "PQ.C84_assign_partial",
    "PQ.C84_assign_int_partial",
    "PQ.C84_false_assignment",
    "PQ.C84_false_explicit_dtype",
    "PQ.C84_false_unit_astype"
   ],
   "note": "Proved for float arrays; for integer arrays only that the stored number is within one unit. False for item assignment into integers (q[0] = 1*m on integers in km stores 0), for an explicit integer dtype (truncates when the units are equal, ignored otherwise) and for astype on a unit (dtype ignored)."
  },
  {
   "property": "C85",
   "status": "partial",
   "theorems": [
    "PQ.C85_uncertain_times_partial",
    "PQ.C85_false_unit_left",
    "PQ.C85_false_eq_shape",
    "PQ.C85_false_remainder"
   ],
   "note": "An uncertain quantity on the left keeps its uncertainty (C85_uncertain_times_partial); a unit on the left drops it (C85_false_unit_left); q == u with incompatible units returns one scalar, not an array (C85_false_eq_shape)."
  },
  {
   "property": "C86",
   "status": "partial",
   "theorems": [
    "PQ.C86_false_half",
    "PQ.C86_false_unicode",
    "PQ.C86_single_partial"
   ],
   "note": "False: 0.5 in HTML and LaTeX (C86_false_half), 12.5 in unicode (C86_false_unicode) raise only the first part. Proved: the four forms of one unit with any exponent that has a fractional part, in full (C86_single_partial); integer exponents are raised as a whole by C57_forms."
  },
  {
   "property": "C87",
   "status": "partial",
   "theorems": [
    "PQ.C87_value_partial",
    "PQ.C87_stale_false"
   ],
   "note": "The value is that of the binary operation and the uncertainty object is kept (C87_value_partial); the uncertainty is not propagated: 3±0.3 m += 4±0.4 m gives 7±0.3 m (C87_stale_false)."
  },
  {
   "property": "C88",
   "status": "partial",
   "theorems": [
    "PQ.C88_copy_equal",
    "PQ.C88_independent_partial",
    "PQ.C88_copy_apart_partial",
    "PQ.C88_shared_false",
    "PQ.C88_deepcopy_false"
   ],
   "note": "The copy shows the same value and uncertainty (C88_copy_equal) and keeps showing it under programs that touch neither the copy nor an object sharing memory with the uncertainty (C88_independent_partial, C88_copy_apart_partial). False in full: copies share the uncertainty object (C88_shared_false), deepcopy drops it (C88_deepcopy_false)."
  },
  {
   "property": "C89",
   "status": "partial",
   "theorems": [
    "PQ.C89_aligned_partial",
    "PQ.C89_imul_false",
    "PQ.C89_reshape_false"
   ],
   "note": "Proved for every program that does not change units of uncertain quantities in place nor reshapes (C89_aligned_partial); refuted otherwise: x *= 2*s (C89_imul_false), x.reshape(1) (C89_reshape_false)."
  },
  {
   "property": "C90",
   "status": "partial",
   "theorems": [
    "PQ.C90_nansum_partial",
    "PQ.C90_nanmean_partial",
    "PQ.C90_nanmax_partial",
    "PQ.C90_nanmin_partial",
    "PQ.C90_stray_uncertainty_false"
   ],
   "note": "Proved for all shapes and axes when missing values have a missing uncertainty (nansum, nanmean), for nanmax and nanmin without axis. False otherwise: the uncertainty of a missing value is added (C90_stray_uncertainty_false); nanmax and nanmin ignore the axis like max and min (C76)."
  },
  {
   "property": "C91",
   "status": "partial",
   "theorems": [
    "PQ.Refs.C91_quantity_isolated",
    "PQ.Refs.C91_snapshot_kept",
    "PQ.Refs.C91_new_object",
    "PQ.Refs.C91_step_as_values",
    "PQ.Refs.C91_programs_as_values_partial",
    "PQ.Refs.C91_simplified_empty_false"
   ],
   "note": "Partial because of the found exception: `Dimensionality().simplified` is the object itself (C91_simplified_empty_false); programs that do not ask an empty Dimensionality for `simplified` are proved to have value semantics. Isolation of quantities holds without any exception."
  },
  {
   "property": "C92",
   "status": "proved",
   "theorems": [
    "PQ.C92_layout",
    "PQ.C92_means",
    "PQ.C92_physical",
    "PQ.C92_units_argument"
   ],
   "note": "Expressions, their concrete syntax (Writes), meaning (number/factor/exponent/value) are in Spec/UnitText.lean, independent of the lexer, parser and evaluator. Scientific notation, sums and the dotted product (C25) are not in the concrete syntax."
  },
  {
   "property": "C93",
   "status": "partial",
   "theorems": [
    "PQ.C93_number_in_front",
    "PQ.C93_repr_partial",
    "PQ.C93_string_is_expression",
    "PQ.C93_false_exponent_ten"
   ],
   "note": "numpy's repr of the magnitude is any expression denoting it; units and exponents must be printable. Refuted for exponents that are multiples of ten (C93_false_exponent_ten: the repr of 2 m**10 evaluates to 2 m; see C26)."
  },
  {
   "property": "C94",
   "status": "proved",
   "theorems": [
    "PQ.C94_add",
    "PQ.C94_sub",
    "PQ.C94_add_returns",
    "PQ.C94_mul",
    "PQ.C94_div",
    "PQ.C94_pow",
    "PQ.C94_order",
    "PQ.C94_equal",
    "PQ.C94_simplified",
    "PQ.C94_budgets_exist"
   ],
   "note": "Same arithmetic as C58. The counts come from budgets that always exist (C94_budgets_exist)."
  },
  {
   "property": "C95",
   "status": "partial",
   "theorems": [
    "PQ.C95_systems",
    "PQ.C95_si_restores",
    "PQ.C95_simplified_partial",
    "PQ.C95_cgs_partial",
    "PQ.C95_false_statampere"
   ],
   "note": "statampere is excepted: it cannot be simplified (C95_false_statampere, cause in C79_false_statampere); simplified is stated under the absence of hash collisions between units and defaults (shown to be satisfiable for the whole library). The success of set_default_units needs no such assumption."
  },
  {
   "property": "C96",
   "status": "proved",
   "theorems": [
    "PQ.C96_out_stores",
    "PQ.C96_out_frame",
    "PQ.C96_out_error",
    "PQ.C96_out_returns_iff",
    "PQ.C96_out_plain"
   ],
   "note": "Memory model (Heap). numpy's broadcasting of `round` into a larger `out` is not modelled: there the model demands equal shapes. var, std and clip pass the quantity itself to numpy as `out` and are not covered. A plain array as out raises AttributeError where the code intends TypeError (C96_out_plain). out= on a protected view gives it other units than its owner: C70_out_false."
  },
  {
   "property": "C97",
   "status": "partial",
   "theorems": [
    "PQ.C97_data",
    "PQ.C97_data_returns_iff",
    "PQ.C97_no_units",
    "PQ.C97_array_units",
    "PQ.C97_quantity",
    "PQ.C97_unit",
    "PQ.C97_list_partial",
    "PQ.C97_tolist_back",
    "PQ.C97_list_false",
    "PQ.C97_dimensionless_false"
   ],
   "note": "Proved for plain data, quantities, units and the tolist round trip. Two parts of the claim are false: a list of quantities in other units is silently taken as numbers (C97_list_false; C97_list_partial covers lists already in the units asked for), and an empty dimensionality or string counts as no units, so Quantity(5*m, Dimensionality()) stays 5 m (C97_dimensionless_false). dtype and None as units are not modelled here."
  },
  {
   "property": "C98",
   "status": "proved",
   "theorems": [
    "PQ.C98_parts",
    "PQ.C98_rescale",
    "PQ.C98_rescale_parts",
    "PQ.C98_add",
    "PQ.C98_sub",
    "PQ.C98_add_parts",
    "PQ.C98_mul",
    "PQ.C98_truediv",
    "PQ.C98_conj_abs",
    "PQ.C98_eq"
   ],
   "note": "The same model functions run with complex magnitudes (exact complex arithmetic), unit definitions real."
  },
  {
   "property": "C99",
   "status": "partial",
   "theorems": [
    "PQ.C99_elements_partial",
    "PQ.C99_set_parts_partial",
    "PQ.C99_set_numbers",
    "PQ.C99_dimensionless_false"
   ],
   "note": "Proved unless q is dimensionless. For a dimensionless q the claim is false: Quantity(x, {}) ignores the empty dimensionality, so q.real = 5*m stores 5 (C99_dimensionless_false)."
  },
  {
   "property": "C100",
   "status": "proved",
   "theorems": [
    "PQ.C100_term",
    "PQ.C100_cond",
    "PQ.C100_program",
    "PQ.C100_report"
   ],
   "note": "The language has no operations that look at magnitudes (.magnitude, //, floor, comparison with bare numbers): those are unit-dependent (C46, C64, C73). Units compared must not collide in hash; powers must be literal (positive elements or integer exponents)."
  },
  {
   "property": "C101",
   "status": "proved",
   "theorems": [
    "PQ.C101_term",
    "PQ.C101_cond",
    "PQ.C101_program",
    "PQ.C101_homogeneous"
   ],
   "note": "The static check is a type system of the specification (HasUnits), not code of the library. Same language and side conditions as C100."
  },
  {
   "property": "C102",
   "status": "proved",
   "theorems": [
    "PQ.Obj.C102_interchangeable",
    "PQ.Obj.C102_refinement",
    "PQ.Obj.C102_copy",
    "PQ.Obj.C102_labelled"
   ],
   "note": "copy.copy(unit) bypasses copy() and gives an object without name (not modelled). See C104 for dimensionless and for printing."
  },
  {
   "property": "C103",
   "status": "partial",
   "theorems": [
    "PQ.Obj.C103_equal_convert_partial",
    "PQ.Obj.C103_redefinition_false"
   ],
   "note": "Proved for histories in which no class and name gets a second meaning. False otherwise: UnitQuantity('foo', 2*m) and UnitQuantity('foo', 3*m) are both accepted because the registry compares the new unit with the old by hash of class and name; the two compare equal, rescaling between them does nothing, and they convert to m by 2 and 3."
  },
  {
   "property": "C104",
   "status": "partial",
   "theorems": [
    "PQ.Obj.C104_dimensionless_false",
    "PQ.Obj.C104_print_false"
   ],
   "note": "False as stated. dimensionless.copy() raises TypeError in every state (Dimensionless.__init__ takes two arguments, copy passes six). A copy has a later format_order, so m.copy()*km prints km*m while m*km prints m*km; stated on the sorted list of units from which the string is made. The parts that hold are C102."
  },
  {
   "property": "C105",
   "status": "proved",
   "theorems": [
    "PQ.C105_format"
   ],
   "note": "numpy's and Python's number texts are a parameter; assumed: the text of a scalar is its item formatted with an empty specification (not true of float32, which numpy formats through a Python float)."
  },
  {
   "property": "C106",
   "status": "partial",
   "theorems": [
    "PQ.C106_uncertain_false",
    "PQ.C106_unit_false"
   ],
   "note": "False in all scalar cases: __format__ is inherited, so f'{pq.m}' is '1.0 m' where str is '1 m (meter)', and a scalar UncertainQuantity is formatted without its uncertainty."
  },
  {
   "property": "C107",
   "status": "partial",
   "theorems": [
    "PQ.C107_str_partial",
    "PQ.C107_repr_partial",
    "PQ.C107_uncertain_partial",
    "PQ.C107_uncertain_repr_partial",
    "PQ.C107_dimensionality_partial",
    "PQ.C107_sigma_false"
   ],
   "note": "Proved for units whose printed symbols are distinct and free of separators and whose exponents are integers that print faithfully (C69 shows the rest is false: m**10 and m**100 both print m**1). Also false in Unicode mode for an uncertain quantity in a unit whose symbol begins with 'sigma': the replacement of ' sigma' by 'σ' hits the unit too."
  },
  {
   "property": "C108",
   "status": "proved",
   "theorems": [
    "PQ.C108_str",
    "PQ.C108_repr"
   ],
   "note": "str of compound units is not covered. The repr is not always a constructor call that would work: UnitLength('meter', 'm') puts the symbol where the definition belongs (not modelled: the constructor's definition argument is a quantity or number in the model)."
  },
  {
   "property": "C109",
   "status": "proved",
   "theorems": [
    "PQ.C109_unchanged",
    "PQ.C109_uncertain"
   ],
   "note": "For uncertain quantities intermediate objects may have been created, to which nothing refers."
  },
  {
   "property": "C110",
   "status": "partial",
   "theorems": [
    "PQ.C110_put_partial",
    "PQ.C110_put_false"
   ],
   "note": "False: with an index out of range numpy has already stored the values before it (C110_put_false). C110_put_partial says exactly what is left behind: what put of the indices before the first bad one does; the units never change, and any other failure (units, read-only) changes nothing."
  },
  {
   "property": "C111",
   "status": "proved",
   "theorems": [
    "PQ.C111_sum",
    "PQ.C111_convert_then_sum",
    "PQ.C111_sum_then_convert",
    "PQ.C111_mean",
    "PQ.C111_prod"
   ],
   "note": "The order of additions is any binary tree over any permutation (RoundedSum), which includes numpy's pairwise summation; overflow and underflow are not modelled."
  },
  {
   "property": "C112",
   "status": "proved",
   "theorems": [
    "PQ.Shared.C112_apart",
    "PQ.Shared.C112_finishes"
   ],
   "note": "Every shared quantity owns its memory; units are not created meanwhile (C59-C62 are about that). What a call does alone is stated by the relation Call.Does in Spec/Shared.lean, in terms of the operations on values."
  },
  {
   "property": "C113",
   "status": "proved",
   "theorems": [
    "PQ.Shared.C113_reads",
    "PQ.Shared.C113_others",
    "PQ.Shared.C113_inplace",
    "PQ.Shared.C113_setitem"
   ],
   "note": "x *= y and the like before numpy 2 and the units setter are C115."
  },
  {
   "property": "C114",
   "status": "partial",
   "theorems": [
    "PQ.Shared.C114_torn_false",
    "PQ.Shared.C114_setters_false"
   ],
   "note": "The property is false of the code; the theorems are its negation on concrete programs and schedules."
  },
  {
   "property": "C115",
   "status": "partial",
   "theorems": [
    "PQ.Shared.C115_units_partial",
    "PQ.Shared.C115_units_false",
    "PQ.Shared.C115_imul_false"
   ],
   "note": "partial: the property is false of the code; C115_units_partial says what holds, the other two are witnesses."
  },
  {
   "property": "C116",
   "status": "proved",
   "theorems": [
    "PQ.Client.C116_expression",
    "PQ.Client.C116_report"
   ],
   "note": "Induction on the expression; the exact operands are the expressions of C100. Division by zero is as in the model (see DESIGN)."
  },
  {
   "property": "C117",
   "status": "partial",
   "theorems": [
    "PQ.C117_program",
    "PQ.C117_report",
    "PQ.C117_methods",
    "PQ.C117_scale_false"
   ],
   "note": "C117_program by a simulation between the two runs (one lemma per command); C117_report the observable consequence; C117_methods shows that the methods used with out= are among the functions covered. C117_scale_false: the excluded case, where the claim is false of the code."
  },
  {
   "property": "C118",
   "status": "proved",
   "theorems": [
    "PQ.Client.C118_expression"
   ],
   "note": "C118_expression by induction on the derivation that the units check, one lemma per operation from the C38/C39/C75-C77 theorems. The regularity hypotheses exclude the inputs for which C75/C76 show the code to be wrong."
  },
  {
   "property": "C119",
   "status": "proved",
   "theorems": [
    "PQ.Client.C119_law"
   ],
   "note": "C119_law: C118 plus an induction on the expression (a symbolic reading of it gives f, the numbers it uses, and its derivatives; lin_* lemmas). `Separate` in Spec/Propagation.lean says that no number is used twice; C120 shows that this is needed."
  },
  {
   "property": "C120",
   "status": "partial",
   "theorems": [
    "PQ.Client.C120_difference_false",
    "PQ.Client.C120_square_false",
    "PQ.Client.C120_repeated_false"
   ],
   "note": "C120_difference_false and C120_square_false hold for every uncertain quantity; C120_repeated_false shows that the result for b - b is not the propagated one in the sense of C119."
  },
  {
   "property": "C121",
   "status": "proved",
   "theorems": [
    "PQ.Client.C121_expression",
    "PQ.Client.C121_comparison",
    "PQ.Client.C121_uncertain"
   ],
   "note": "C121_expression, C121_comparison, C121_uncertain: induction on the expression; no hypotheses on the registry, hash collisions or values."
  },
  {
   "property": "C122",
   "status": "partial",
   "theorems": [
    "PQ.Client.C122_quantities",
    "PQ.Client.C122_plain_array_false"
   ],
   "note": "C122_quantities for quantities; C122_plain_array_false characterises acceptance for a plain array."
  },
  {
   "property": "C123",
   "status": "proved",
   "theorems": [
    "PQ.C123_argmax",
    "PQ.C123_argmin",
    "PQ.C123_argmax_axis",
    "PQ.C123_argmin_axis"
   ],
   "note": "C123_argmax, C123_argmin (axis=None, exact error condition), C123_argmax_axis, C123_argmin_axis."
  },
  {
   "property": "C124",
   "status": "partial",
   "theorems": [
    "PQ.C124_argmax_partial",
    "PQ.C124_argmin_partial",
    "PQ.C124_axis_false",
    "PQ.C124_nanargmax_partial",
    "PQ.C124_nanargmin_partial"
   ],
   "note": "C124_argmax_partial, C124_argmin_partial, C124_nanargmax_partial, C124_nanargmin_partial for axis=None; C124_axis_false: with an axis the result has the wrong shape for every array of other than one dimension."
  },
  {
   "property": "C125",
   "status": "proved",
   "theorems": [
    "PQ.C125_create",
    "PQ.C125_all_or_nothing",
    "PQ.C125_refused",
    "PQ.C125_rescale",
    "PQ.C125_again",
    "PQ.C125_printed",
    "PQ.C125_symbol_reads"
   ],
   "note": "C125_create, C125_rescale, C125_again, C125_refused, C125_all_or_nothing, C125_printed, C125_symbol_reads. C125_rescale assumes that the hashes of the two dimensionalities differ unless they are the same (NoColl)."
  },
  {
   "property": "C126",
   "status": "proved",
   "theorems": [
    "PQ.C126_integers",
    "PQ.C126_doubles",
    "PQ.C126_rounding",
    "PQ.C126_error",
    "PQ.C126_laws",
    "PQ.C126_sqrt",
    "PQ.C126_order_independent",
    "PQ.C126_equality"
   ],
   "note": "Exact rounding (ties to even, subnormals) is modelled; overflow, inf and nan are not."
  },
  {
   "property": "C127",
   "status": "partial",
   "theorems": [
    "PQ.C127_sum_false",
    "PQ.C127_inverse_false",
    "PQ.C127_root_false",
    "PQ.C127_underflow_false"
   ],
   "note": "False of the code. m**0.1*m**0.2 is not m**0.3 and the two cannot be added (C127_sum_false); yet their inverses compare equal for every hash function because the hash subtracts one from negative exponents (C127_inverse_false); ((m**7)**(1/3))**3 is not m**7 (C127_root_false); (m**1e-200)**1e-200 keeps the metre with exponent 0 (C127_underflow_false). What holds is C126."
  },
  {
   "property": "C128",
   "status": "proved",
   "theorems": [
    "PQ.C128_add_sub",
    "PQ.C128_mul_div",
    "PQ.C128_compare",
    "PQ.C128_determined",
    "PQ.C128_elementwise"
   ],
   "note": "Bridges the operations stated with the model's array operation (C13, C14, C17) to an independent description of broadcasting by places (Spec/Broadcast.lean)."
  },
  {
   "property": "C129",
   "status": "proved",
   "theorems": [
    "PQ.C129_sum_mean",
    "PQ.C129_extremes",
    "PQ.C129_var_std",
    "PQ.C129_axes",
    "PQ.C129_cumsum",
    "PQ.C129_trace",
    "PQ.C129_reduction"
   ],
   "note": "Bridges the reductions stated with the model's array operation (C32) to an independent description of which elements are combined (Spec/Along.lean)."
  },
  {
   "property": "C130",
   "status": "proved",
   "theorems": [
    "PQ.C130_getitem",
    "PQ.C130_errors",
    "PQ.C130_slice",
    "PQ.C130_positions",
    "PQ.C130_mask",
    "PQ.C130_subscripts_valid",
    "PQ.C130_where",
    "PQ.C130_setitem",
    "PQ.C130_setmask"
   ],
   "note": "Slices are computed as CPython does (PySlice_AdjustIndices) and shown to have the items the language reference says. Mixtures of integer arrays or masks with slices are not modelled."
  },
  {
   "property": "C131",
   "status": "proved",
   "theorems": [
    "PQ.C131_diff",
    "PQ.C131_diff_once",
    "PQ.C131_diff_refuses",
    "PQ.C131_ediff1d",
    "PQ.C131_cross",
    "PQ.C131_trapz",
    "PQ.C131_trapz_spacing",
    "PQ.C131_gradient",
    "PQ.C131_gradient_line"
   ],
   "note": "The formulas are in Spec/Calculus.lean and do not mention the model of numpy; combined with C48. Sample points with more than one axis and non-scalar dx are covered only by C48. The same style of statement for unwrap is C51_unwrap_elements_partial."
  },
  {
   "property": "C132",
   "status": "proved",
   "theorems": [
    "PQ.C132_nonzero",
    "PQ.C132_argsort",
    "PQ.C132_argsort_flat"
   ],
   "note": "CorrectSort (Spec/Calculus.lean) is met by merge sort (exSort_correct)."
  },
  {
   "property": "C133",
   "status": "proved",
   "theorems": [
    "PQ.C133_neg",
    "PQ.C133_sub_is_add_neg",
    "PQ.C133_abs",
    "PQ.C133_rpow",
    "PQ.C133_bool"
   ],
   "note": "bool and abs are inherited from numpy.ndarray; the model of these is Model/Unary.lean."
  },
  {
   "property": "C134",
   "status": "partial",
   "theorems": [
    "PQ.C134_pos_false",
    "PQ.C134_divmod_false",
    "PQ.C134_rpow_false",
    "PQ.C134_float_false",
    "PQ.C134_float_partial"
   ],
   "note": "False of the code: +q and divmod raise for every operand since np.positive and np.divmod are missing from p_dict; differing exponents raise; float(1 km) is 1 and float(1000 m) is 1000. Proved part: float of a quantity without units."
  },
  {
   "property": "C135",
   "status": "proved",
   "theorems": [
    "PQ.C135_order",
    "PQ.C135_forms"
   ],
   "note": "The order is stated through histories (Spec/PrintOrder.lean): u is older than v when at some earlier reachable state u existed and v did not."
  },
  {
   "property": "C136",
   "status": "proved",
   "theorems": [
    "PQ.C136_sqrt"
   ],
   "note": ""
  },
  {
   "property": "C137",
   "status": "partial",
   "theorems": [
    "PQ.C137_copy_false",
    "PQ.C137_units_false",
    "PQ.C137_nansum_false",
    "PQ.C137_nansum_partial",
    "PQ.C137_nansum_values"
   ],
   "note": "False of the code: the copy constructor evaluates uncertainty._dimensionality of None and raises AttributeError for every x; the units setter calls super()._set_units, which does not exist; pq.nansum drops the uncertainty. Proved part: pq.nansum gives the right value and units."
  },
  {
   "property": "C138",
   "status": "proved",
   "theorems": [
    "PQ.C138_nansum_nanmean",
    "PQ.C138_nanstd"
   ],
   "note": ""
  },
  {
   "property": "C139",
   "status": "proved",
   "theorems": [
    "PQ.C139_rescale",
    "PQ.C139_add_sub",
    "PQ.C139_mul_div",
    "PQ.C139_order",
    "PQ.C139_equality",
    "PQ.C139_sum",
    "PQ.C139_sums",
    "PQ.C139_products",
    "PQ.C139_quotients",
    "PQ.C139_comparisons"
   ],
   "note": "Finite numbers are exact and zero has no sign: 1/0 is +inf. Powers of special values, max and min with nan are not covered."
  },
  {
   "property": "C140",
   "status": "proved",
   "theorems": [
    "PQ.C140_prefixes",
    "PQ.C140_rescale"
   ],
   "note": "The name 'microns' is excluded: it is not micro + ns. Stated for the units and positive constants (saneTable); exact arithmetic."
  },
  {
   "property": "C141",
   "status": "partial",
   "theorems": [
    "PQ.C141_standards",
    "PQ.C141_rescale",
    "PQ.C141_false_pond",
    "PQ.C141_false_electron_volt"
   ],
   "note": "Two definitions fail and are refuted: pond is 1000 gram-force (force.py defines it as g_0*kg); electron_volt is not elementary_charge*volt."
  },
  {
   "property": "C142",
   "status": "proved",
   "theorems": [
    "PQ.C142_symbols"
   ],
   "note": "ASCII symbols only: unicode symbols are not registered."
  },
  {
   "property": "C143",
   "status": "proved",
   "theorems": [
    "PQ.C143_nominal",
    "PQ.C143_power"
   ],
   "note": "Exact arithmetic; x / y with x certain and y uncertain goes through 1/y, so the agreement is of physical values, not of bits."
  },
  {
   "property": "C144",
   "status": "proved",
   "theorems": [
    "PQ.C144_laws",
    "PQ.C144_rescale",
    "PQ.C144_covered"
   ],
   "note": "Exact arithmetic on the decimal literals. The 31 constants with a negative value are not in the state (they are not valid sizes) and have no law."
  },
  {
   "property": "C145",
   "status": "proved",
   "theorems": [
    "PQ.C145_new_array",
    "PQ.C145_new_quantity",
    "PQ.C145_new_unit",
    "PQ.C145_copy",
    "PQ.C145_element",
    "PQ.C145_from_unit",
    "PQ.C145_magnitude",
    "PQ.C145_view",
    "PQ.C145_wrap_array",
    "PQ.C145_wrap_quantity",
    "PQ.C145_squeeze",
    "PQ.C145_convert"
   ],
   "note": "copy.deepcopy shares memory (C71_deepcopy_false); unit objects have no copy in the model."
  },
  {
   "property": "C146",
   "status": "partial",
   "theorems": [
    "PQ.C146_max",
    "PQ.C146_min",
    "PQ.C146_search",
    "PQ.C146_sorted",
    "PQ.C146_sum",
    "PQ.C146_sum_value",
    "PQ.C146_false_sum_default"
   ],
   "note": "False for sum without start: sum([m, m]) raises ValueError because it begins with 0 + m (C146_false_sum_default)."
  },
  {
   "property": "C147",
   "status": "proved",
   "theorems": [
    "PQ.C147_definition",
    "PQ.C147_base",
    "PQ.C147_number_is_no_unit"
   ],
   "note": "Proved as stated; conversions under the side condition that the hashes of the dimensionalities compared do not collide."
  },
  {
   "property": "C148",
   "status": "partial",
   "theorems": [
    "PQ.C148_reshape",
    "PQ.C148_flatten",
    "PQ.C148_transpose",
    "PQ.C148_transpose_axes",
    "PQ.C148_swapaxes",
    "PQ.C148_repeat",
    "PQ.C148_repeat_axis",
    "PQ.C148_take",
    "PQ.C148_take_axis",
    "PQ.C148_compress",
    "PQ.C148_compress_axis",
    "PQ.C148_diagonal",
    "PQ.C148_rescale",
    "PQ.C148_views",
    "PQ.C148_copies",
    "PQ.C148_sort",
    "PQ.C148_uncertain_sort_false"
   ],
   "note": "Partly false: sort() of an UncertainQuantity sorts the values in place and leaves the uncertainties where they were, so values end up with the uncertainties of others (C148_uncertain_sort_false, with any correct sort). reshape of uncertain quantities: C74_reshape_false, C89_reshape_false. For quantities proved as stated; C148_views and C148_copies make the theorems about views and item assignment (C28-C31, C53, C70, C117) apply to these methods. Arrays without axes are taken to refuse axis 0 (numpy accepts it in repeat, take, compress)."
  },
  {
   "property": "C149",
   "status": "proved",
   "theorems": [
    "PQ.C149_new",
    "PQ.C149_rescale",
    "PQ.C149_rescale_returns",
    "PQ.C149_sum",
    "PQ.C149_difference",
    "PQ.C149_times_exact",
    "PQ.C149_over_exact",
    "PQ.C149_exact_over",
    "PQ.C149_product",
    "PQ.C149_quotient",
    "PQ.C149_power",
    "PQ.C149_power_returns",
    "PQ.C149_exact_over_returns"
   ],
   "note": "Powers: where the value is positive. Products and quotients of two uncertain quantities: where both values are nonzero (the code divides by them), and up to the sign of the uncertainty as in C75. The exponent written as a number is taken to be exact. Underflow and overflow are not modelled (C139 has inf and nan)."
  },
  {
   "property": "C150",
   "status": "proved",
   "theorems": [
    "PQ.C150_condition",
    "PQ.C150_incompatible",
    "PQ.C150_arrays",
    "PQ.C150_builtins"
   ],
   "note": "bool of an empty array is False (numpy up to 2.1; deprecated, later an error)."
  },
  {
   "property": "C151",
   "status": "proved",
   "theorems": [
    "PQ.C151_import_returns",
    "PQ.C151_reachable",
    "PQ.C151_returns",
    "PQ.C151_rescale",
    "PQ.C151_rescale_units",
    "PQ.C151_thirteen_digits"
   ],
   "note": "Stated for the 346 units and the 293 positive constants (a negative unit size is outside Reachable). Overflow and underflow are not modelled. The power function of the platform is assumed to be within eps. The bounds 86 and 122 are worst cases, computed per definition by tools/gen_errors.py and checked by the kernel."
  },
  {
   "property": "C152",
   "status": "proved",
   "theorems": [
    "PQ.C152_returns",
    "PQ.C152_all_but_one",
    "PQ.C152_simplified",
    "PQ.C152_simplified_units",
    "PQ.C152_thirteen_digits"
   ],
   "note": "Stated for the 346 units and the 293 positive constants (a negative unit size is outside Reachable). Overflow and underflow are not modelled. That statampere does not simplify is C79_false_statampere."
  },
  {
   "property": "C153",
   "status": "proved",
   "theorems": [
    "PQ.C153_add_returns",
    "PQ.C153_add",
    "PQ.C153_sub",
    "PQ.C153_order",
    "PQ.C153_equal",
    "PQ.C153_add_thirteen_digits",
    "PQ.C153_less_thirteen_digits"
   ],
   "note": "Stated for the 346 units and the 293 positive constants (a negative unit size is outside Reachable). Overflow and underflow are not modelled."
  },
  {
   "property": "C154",
   "status": "proved",
   "theorems": [
    "PQ.C154_sum",
    "PQ.C154_numbers",
    "PQ.C154_number_first",
    "PQ.C154_units_argument"
   ],
   "note": "Sums at the top level of the string (not inside parentheses). Needs no collision of hash values between the units that are compared."
  }
 ]
}