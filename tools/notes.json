{
 "C05": {
  "note": "== is hash comparison. Proved: equal content whenever the exponents are small (|numerator|, denominator below 2^30) and the per-item hashes are collision-free in XOR; C05_false exhibits two different dimensionalities (exponents 1 and 2^61) that compare equal, for every hash function."
 },
 "C06": {
  "note": "Distinct operands and d *= d proved; d /= d (and d /= view of itself) raises RuntimeError because the dict is changed while iterated: C06_false_itruediv_self."
 },
 "C16": {
  "note": "% with quantities and numbers, either order of units; meaning of the remainder stated with the floor of the physical quotient. Floor division is C63."
 },
 "C18": {
  "note": "Meaning of == and the equivalence laws for quantities. Bare numbers are C64."
 },
 "C43": {
  "note": "Returns exactly for units convertible to dimensionless. Comparisons are C64."
 },
 "C19": {
  "note": "Value preservation, default units only, idempotence, and the exact condition under which it returns. Units without definition are C65."
 },
 "C22": {
  "note": "Every combination of system and keywords. Failing calls are C66."
 },
 "C23": {
  "note": "For every history, also histories with constructions that raise half-way. Conflicting definitions are C67."
 },
 "C47": {
  "note": "Equal for the same class and name; 1000*m named differently compares equal to km yet hashes differently: C47_false."
 },
 "C24": {
  "note": "For every parser and every meaning of the operators."
 },
 "C25": {
  "note": "For every string. Points are C68."
 },
 "C26": {
  "note": "Proved for all dimensionalities whose symbols are identifiers and whose exponents are integers not divisible by 10 or floats with a decimal repr, against a model of the Python lexer and parser; false for exponents divisible by 10 (m**10 prints m**1) and for the inch (in**2 is a syntax error)."
 },
 "C27": {
  "note": "In every state reachable by one thread. What the strings say is C69, C57."
 },
 "C50": {
  "note": "Strings are C82."
 },
 "C32": {
  "note": "Every axis (None, int, tuple), exceptions included; nan variants over arrays with nans. nanmax and nanmin are C72. C32_axis_elements spells out sums and means along an axis element by element."
 },
 "C33": {
  "note": "prod, var, std/var relation, cumprod. C33_axis_elements: products along an axis element by element."
 },
 "C44": {
  "note": "searchsorted and plain bounds of dimensionless quantities are C80."
 },
 "C34": {
  "note": "square, reciprocal, sqrt, absolute, fabs, negative, conjugate, exp/log family, trig and inverse trig, radians/degrees, add, subtract, mod, fmod, remainder, hypot, maximum, minimum, multiply, divide, arctan2. The rest of the table is C73."
 },
 "C36": {
  "note": "Same units: physical (hypot, arctan2). hypot refuses different units of the same kind; arctan2 accepts them and uses the raw numbers (45 degrees for 1 km, 1 m). C36_arctan2_accepts gives the exact acceptance condition."
 },
 "C48": {
  "note": "ediff1d, gradient without spacing and cross with a plain array are C81."
 },
 "C51": {
  "note": "Proved in radians; in degrees the period 2*pi is applied to the number of degrees: C51_unwrap_false."
 },
 "C37": {
  "note": "By induction over every expression. numpy functions without an override are C74; UncertainQuantity(uq) and uq.units = ... always raise AttributeError."
 },
 "C38": {
  "note": "rescale and simplified, values and uncertainties as physical values, relative uncertainties elementwise."
 },
 "C39": {
  "note": "In any mixture of compatible units, broadcasting, exceptions included. Products of two uncertain quantities and powers are C75, extremes C76, sums with exact values C77."
 },
 "C29": {
  "note": "*=, /=, **= and units assignment on views; frame conditions for every command. Coherence of views with their owner is C70."
 },
 "C30": {
  "note": "copy(); deepcopy is C71."
 },
 "C52": {
  "note": "numpy 2 is C83."
 },
 "C28": {
  "note": "Over every sequence of commands of the heap model (Cmd)."
 },
 "C31": {
  "note": "Item assignment and put; put with several indices is not atomic when an index is out of range."
 },
 "C45": {
  "note": "A successful call returns the same physical value in one of the preferred units, and rescale(None) is this call; the choice of the first dimensionally equal preferred unit proved when the strings of simplified dimensionalities are faithful; refuted in general: the comparison is by string, so a float exponent is missed (C45_false_float_exponent) and m**10 is confused with m**100 (C45_false_wrong_match)."
 },
 "C40": {
  "note": "Nothing but counters changes. The byte format, the memo and ndarray own state are trusted. Half-registered units are C78."
 },
 "C42": {
  "note": "Of the table of all 346 units and 324 constants (generated from the sources), under any hash function; 31 constants are negative (conversion between units shown unaffected). Declared kinds are C79."
 },
 "C41": {
  "note": "Proved for every history, any number of decorated functions sharing the cache, when results are flat (arrays, quantities, dimensionalities) and functions do not distinguish arguments that compare equal. False in general: g(1.0) after g(1), shallow copies, unhashable arguments, results without copy()."
 },
 "C57": {
  "note": "Plain, unicode, HTML and LaTeX forms proved to be four typesettings of one expression, for any units with plain symbols and integer exponents that print faithfully. Fractional exponents are C86."
 },
 "C55": {
  "note": "For every base function and handler: inputs are the arguments in default units, outputs the announced units with the physical value of the raw result, results independent of the argument units; returns when handler and base return sequences. False for quantity keyword arguments (misspelled `simplifed`), for the default handler, for a handler returning one scalar quantity, for base functions returning a number, for functions without docstring."
 },
 "C58": {
  "note": "Arithmetic with relative error at most eps per operation (no overflow or underflow), powers included. The number of errors is computed from the definitions by a budget that always exists (C58_budget_exists)."
 },
 "C56": {
  "note": "Every expression tree over units, quantities, arrays and numbers. Uncertain operands and the shape of == are C85."
 },
 "C54": {
  "note": "For all dtypes (booleans, integers, floats) and both promotion rules, with the exact value when floats do not round and an error bound when they do. Item assignment and explicit dtypes are C84."
 },
 "C59": {
  "note": "Any program of conversions, additions, subtractions and comparisons of quantities in existing units, later ones depending on earlier results; interleaved at single attribute accesses; executed alone the programs are the functions of the sequential model."
 },
 "C60": {
  "note": "Value and shape of a returned simplification, for any interleaving without a hash collision between a unit and its class's default; defaults stay convertible under any interleaving."
 },
 "C61": {
  "note": "Success, labels, definition and conversion of the new unit, termination; bound labels stable and other labels unchanged under any interleaving; alone it is the sequential constructor call. Units that share a label or a class counter race: C67_false_race, C69_false_race."
 },
 "C62": {
  "note": "Proved when no default changes during the call. False otherwise: changing the default length between the two units of m*km returns m*km."
 },
 "C63": {
  "note": "// does not rescale: proved for same units, refuted in general (1.5 km // 1 m): C63_floordiv_false."
 },
 "C64": {
  "note": "Comparisons with bare numbers are accepted whatever the units (C64_compare_false), so == is not transitive: 1 km == 1 == 1 m (C64_transitive_false). Proved: with a dimensionless quantity every comparison with plain numbers is that of the physical values (C64_dimensionless_partial), and == is transitive across a number for quantities with equal units (C64_transitive_partial)."
 },
 "C65": {
  "note": "False: a unit created without definition in a class without default (C65_false_undefined) recurses until RecursionError. C19_returns gives the exact condition, restated as C65_returns_partial; C79_simplified_partial instantiates it for the library as shipped."
 },
 "C66": {
  "note": "False: set_default_units(length=km, time=m) raises AssertionError after the default length has been changed: C66_false. Proved: what a failing call may leave behind - the unit table and the registry untouched, each default either as before or a requested one, the exception traced to one faulty argument (C66_failure_partial); a call that sets one class only is atomic (C66_one_class_partial)."
 },
 "C67": {
  "note": "A conflicting definition of a different value under another class or name raises KeyError (C67_conflict_partial); a second unit of the same class and name but another definition is silently accepted and the first binding kept (C67_same_name_accepted, C67_false); two threads can bind a label twice (C67_false_race)."
 },
 "C68": {
  "note": "Proved when inner names have two or more letters; C68_false_dots: m.s.A is rejected (regex matches do not overlap)."
 },
 "C69": {
  "note": "Proved for faithfully printed exponents; false for m**10 vs m**100 and for exponents 10 vs 10.0; concurrent constructions can give two units the same place in the order (C69_false_race)."
 },
 "C70": {
  "note": "A history that avoids four operations keeps all overlapping objects in one unit (C70_coherent_partial, C70_coherent_from_start_partial, C70_shared_elements_agree_partial). The full claim is false: assigning .units on the owner rescales the memory under its views (C70_owner_units_false), and fill, //=, squeeze and out= (C70_out_false) bypass the protection."
 },
 "C71": {
  "note": "deepcopy gives an equal object (C71_deepcopy_equal_partial) but shares memory with the original: C71_deepcopy_false."
 },
 "C72": {
  "note": "Proved for axis=None; the axis argument is ignored: C72_axis_false."
 },
 "C73": {
  "note": "False: floor (rint, fix, ceil alike) depends on the units (C73_floor_false), comparison ufuncs called directly attach units to truth values (C73_less_false), logaddexp does not check its second operand (C73_logaddexp_false). Proved: rounding is done in the units held, is exact for units of size 1 and moves the value by at most one unit otherwise (C73_rounding_partial); the truth values of the comparison ufuncs are those of the physical comparison, only their units are wrong (C73_comparison_partial, C73_comparison_functions_partial); logaddexp refuses a first operand with units and is sound when the second has size 1 (C73_logaddexp_partial)."
 },
 "C74": {
  "note": "False for functions without an override: fabs gives a dimensionless uncertainty (C74_ufunc_false), reshape keeps the old shape (C74_reshape_false). Proved: the exact condition under which these results are aligned (C74_ufunc_partial: dimensionless result; C74_rearrange_partial: unchanged shape); everything the class overrides is aligned by C37."
 },
 "C75": {
  "note": "Value and size of the uncertainty proved for non-zero values; the sign is wrong for negative products and negative exponents (C75_product_sign_false, C75_power_sign_false)."
 },
 "C76": {
  "note": "Proved without axis; the axis argument is ignored: C76_extremum_axis_false."
 },
 "C77": {
  "note": "exact - uncertain proved; uncertain + exact, exact + uncertain and uncertain - exact always raise (C77_plus_exact_false)."
 },
 "C78": {
  "note": "False for a unit whose constructor raised half-way: C78_false_half_registered. Proved: every unit created, with the units of its definition, by constructor calls that returned can be pickled and comes back as itself at any later time (C78_created_partial)."
 },
 "C79": {
  "note": "Proved for all but statampere, which is declared a current but is not convertible to ampere (C79_false_statampere); international_foot is not registered because of a missing comma (C79_false_international_foot)."
 },
 "C80": {
  "note": "searchsorted proved for equal units, it refuses compatible but different ones (C80_searchsorted_units_false); plain bounds of a dimensionless quantity raise AttributeError (C80_clip_plain_dimensionless_false)."
 },
 "C81": {
  "note": "ediff1d proved when all arguments are in one unit. Refuted: to_end in other units, gradient without spacing / with one plain spacing, cross with a plain array."
 },
 "C82": {
  "note": "Proved for strings whose value has magnitude one; a factor is silently lost: C82_false_scale_factor (1000*m)."
 },
 "C83": {
  "note": "Proved for +=, -= and %=; *=, /= and **= do not update the units: C83_np2_false."
 },
 "C84": {
  "note": "Proved for float arrays; for integer arrays only that the stored number is within one unit. False for item assignment into integers (q[0] = 1*m on integers in km stores 0), for an explicit integer dtype (truncates when the units are equal, ignored otherwise) and for astype on a unit (dtype ignored)."
 },
 "C85": {
  "note": "An uncertain quantity on the left keeps its uncertainty (C85_uncertain_times_partial); a unit on the left drops it (C85_false_unit_left); q == u with incompatible units returns one scalar, not an array (C85_false_eq_shape)."
 },
 "C86": {
  "note": "False: 0.5 in HTML and LaTeX (C86_false_half), 12.5 in unicode (C86_false_unicode) raise only the first part. Proved: the four forms of one unit with any exponent that has a fractional part, in full (C86_single_partial); integer exponents are raised as a whole by C57_forms."
 },
 "C87": {
  "note": "The value is that of the binary operation and the uncertainty object is kept (C87_value_partial); the uncertainty is not propagated: 3±0.3 m += 4±0.4 m gives 7±0.3 m (C87_stale_false)."
 },
 "C88": {
  "note": "The copy shows the same value and uncertainty (C88_copy_equal) and keeps showing it under programs that touch neither the copy nor an object sharing memory with the uncertainty (C88_independent_partial, C88_copy_apart_partial). False in full: copies share the uncertainty object (C88_shared_false), deepcopy drops it (C88_deepcopy_false)."
 },
 "C89": {
  "note": "Proved for every program that does not change units of uncertain quantities in place nor reshapes (C89_aligned_partial); refuted otherwise: x *= 2*s (C89_imul_false), x.reshape(1) (C89_reshape_false)."
 },
 "C90": {
  "note": "Proved for all shapes and axes when missing values have a missing uncertainty (nansum, nanmean), for nanmax and nanmin without axis. False otherwise: the uncertainty of a missing value is added (C90_stray_uncertainty_false); nanmax and nanmin ignore the axis like max and min (C76)."
 },
 "C91": {
  "note": "Partial because of the found exception: `Dimensionality().simplified` is the object itself (C91_simplified_empty_false); programs that do not ask an empty Dimensionality for `simplified` are proved to have value semantics. Isolation of quantities holds without any exception."
 },
 "C92": {
  "note": "Expressions, their concrete syntax (Writes), meaning (number/factor/exponent/value) are in Spec/UnitText.lean, independent of the lexer, parser and evaluator. Scientific notation, sums and the dotted product (C25) are not in the concrete syntax."
 },
 "C93": {
  "note": "numpy's repr of the magnitude is any expression denoting it; units and exponents must be printable. Refuted for exponents that are multiples of ten (C93_false_exponent_ten: the repr of 2 m**10 evaluates to 2 m; see C26)."
 },
 "C94": {
  "note": "Same arithmetic as C58. The counts come from budgets that always exist (C94_budgets_exist)."
 },
 "C95": {
  "note": "statampere is excepted: it cannot be simplified (C95_false_statampere, cause in C79_false_statampere); simplified is stated under the absence of hash collisions between units and defaults (shown to be satisfiable for the whole library). The success of set_default_units needs no such assumption."
 },
 "C96": {
  "note": "Memory model (Heap). numpy's broadcasting of `round` into a larger `out` is not modelled: there the model demands equal shapes. var, std and clip pass the quantity itself to numpy as `out` and are not covered. A plain array as out raises AttributeError where the code intends TypeError (C96_out_plain). out= on a protected view gives it other units than its owner: C70_out_false."
 },
 "C97": {
  "note": "Proved for plain data, quantities, units and the tolist round trip. Two parts of the claim are false: a list of quantities in other units is silently taken as numbers (C97_list_false; C97_list_partial covers lists already in the units asked for), and an empty dimensionality or string counts as no units, so Quantity(5*m, Dimensionality()) stays 5 m (C97_dimensionless_false). dtype and None as units are not modelled here."
 },
 "C98": {
  "note": "The same model functions run with complex magnitudes (exact complex arithmetic), unit definitions real."
 },
 "C99": {
  "note": "Proved unless q is dimensionless. For a dimensionless q the claim is false: Quantity(x, {}) ignores the empty dimensionality, so q.real = 5*m stores 5 (C99_dimensionless_false)."
 },
 "C100": {
  "note": "The language has no operations that look at magnitudes (.magnitude, //, floor, comparison with bare numbers): those are unit-dependent (C46, C64, C73). Units compared must not collide in hash; powers must be literal (positive elements or integer exponents)."
 },
 "C101": {
  "note": "The static check is a type system of the specification (HasUnits), not code of the library. Same language and side conditions as C100."
 },
 "C102": {
  "note": "copy.copy(unit) bypasses copy() and gives an object without name (not modelled). See C104 for dimensionless and for printing."
 },
 "C103": {
  "note": "Proved for histories in which no class and name gets a second meaning. False otherwise: UnitQuantity('foo', 2*m) and UnitQuantity('foo', 3*m) are both accepted because the registry compares the new unit with the old by hash of class and name; the two compare equal, rescaling between them does nothing, and they convert to m by 2 and 3."
 },
 "C104": {
  "note": "False as stated. dimensionless.copy() raises TypeError in every state (Dimensionless.__init__ takes two arguments, copy passes six). A copy has a later format_order, so m.copy()*km prints km*m while m*km prints m*km; stated on the sorted list of units from which the string is made. The parts that hold are C102."
 },
 "C105": {
  "note": "numpy's and Python's number texts are a parameter; assumed: the text of a scalar is its item formatted with an empty specification (not true of float32, which numpy formats through a Python float)."
 },
 "C106": {
  "note": "False in all scalar cases: __format__ is inherited, so f'{pq.m}' is '1.0 m' where str is '1 m (meter)', and a scalar UncertainQuantity is formatted without its uncertainty."
 },
 "C107": {
  "note": "Proved for units whose printed symbols are distinct and free of separators and whose exponents are integers that print faithfully (C69 shows the rest is false: m**10 and m**100 both print m**1). Also false in Unicode mode for an uncertain quantity in a unit whose symbol begins with 'sigma': the replacement of ' sigma' by 'σ' hits the unit too."
 },
 "C108": {
  "note": "str of compound units is not covered. The repr is not always a constructor call that would work: UnitLength('meter', 'm') puts the symbol where the definition belongs (not modelled: the constructor's definition argument is a quantity or number in the model)."
 },
 "C109": {
  "note": "For uncertain quantities intermediate objects may have been created, to which nothing refers."
 },
 "C110": {
  "note": "False: with an index out of range numpy has already stored the values before it (C110_put_false). C110_put_partial says exactly what is left behind: what put of the indices before the first bad one does; the units never change, and any other failure (units, read-only) changes nothing."
 },
 "C111": {
  "note": "The order of additions is any binary tree over any permutation (RoundedSum), which includes numpy's pairwise summation; overflow and underflow are not modelled."
 },
 "C112": {
  "note": "Every shared quantity owns its memory; units are not created meanwhile (C59-C62 are about that). What a call does alone is stated by the relation Call.Does in Spec/Shared.lean, in terms of the operations on values."
 },
 "C113": {
  "note": "x *= y and the like before numpy 2 and the units setter are C115."
 },
 "C114": {
  "note": "The property is false of the code; the theorems are its negation on concrete programs and schedules."
 },
 "C115": {
  "note": "partial: the property is false of the code; C115_units_partial says what holds, the other two are witnesses."
 },
 "C116": {
  "note": "Induction on the expression; the exact operands are the expressions of C100. Division by zero is as in the model (see DESIGN)."
 },
 "C117": {
  "note": "C117_program by a simulation between the two runs (one lemma per command); C117_report the observable consequence; C117_methods shows that the methods used with out= are among the functions covered. C117_scale_false: the excluded case, where the claim is false of the code."
 },
 "C118": {
  "note": "C118_expression by induction on the derivation that the units check, one lemma per operation from the C38/C39/C75-C77 theorems. The regularity hypotheses exclude the inputs for which C75/C76 show the code to be wrong."
 },
 "C119": {
  "note": "C119_law: C118 plus an induction on the expression (a symbolic reading of it gives f, the numbers it uses, and its derivatives; lin_* lemmas). `Separate` in Spec/Propagation.lean says that no number is used twice; C120 shows that this is needed."
 },
 "C120": {
  "note": "C120_difference_false and C120_square_false hold for every uncertain quantity; C120_repeated_false shows that the result for b - b is not the propagated one in the sense of C119."
 },
 "C121": {
  "note": "C121_expression, C121_comparison, C121_uncertain: induction on the expression; no hypotheses on the registry, hash collisions or values."
 },
 "C122": {
  "note": "C122_quantities for quantities; C122_plain_array_false characterises acceptance for a plain array."
 },
 "C123": {
  "note": "C123_argmax, C123_argmin (axis=None, exact error condition), C123_argmax_axis, C123_argmin_axis."
 },
 "C124": {
  "note": "C124_argmax_partial, C124_argmin_partial, C124_nanargmax_partial, C124_nanargmin_partial for axis=None; C124_axis_false: with an axis the result has the wrong shape for every array of other than one dimension."
 },
 "C125": {
  "note": "C125_create, C125_rescale, C125_again, C125_refused, C125_all_or_nothing, C125_printed, C125_symbol_reads. C125_rescale assumes that the hashes of the two dimensionalities differ unless they are the same (NoColl)."
 },
 "C126": {
  "note": "Exact rounding (ties to even, subnormals) is modelled; overflow, inf and nan are not."
 },
 "C127": {
  "note": "False of the code. m**0.1*m**0.2 is not m**0.3 and the two cannot be added (C127_sum_false); yet their inverses compare equal for every hash function because the hash subtracts one from negative exponents (C127_inverse_false); ((m**7)**(1/3))**3 is not m**7 (C127_root_false); (m**1e-200)**1e-200 keeps the metre with exponent 0 (C127_underflow_false). What holds is C126."
 },
 "C128": {
  "note": "Bridges the operations stated with the model's array operation (C13, C14, C17) to an independent description of broadcasting by places (Spec/Broadcast.lean)."
 },
 "C129": {
  "note": "Bridges the reductions stated with the model's array operation (C32) to an independent description of which elements are combined (Spec/Along.lean)."
 },
 "C130": {
  "note": "Slices are computed as CPython does (PySlice_AdjustIndices) and shown to have the items the language reference says. Mixtures of integer arrays or masks with slices are not modelled."
 },
 "C131": {
  "note": "The formulas are in Spec/Calculus.lean and do not mention the model of numpy; combined with C48. Sample points with more than one axis and non-scalar dx are covered only by C48. The same style of statement for unwrap is C51_unwrap_elements_partial."
 },
 "C132": {
  "note": "CorrectSort (Spec/Calculus.lean) is met by merge sort (exSort_correct)."
 },
 "C133": {
  "note": "bool and abs are inherited from numpy.ndarray; the model of these is Model/Unary.lean."
 },
 "C134": {
  "note": "False of the code: +q and divmod raise for every operand since np.positive and np.divmod are missing from p_dict; differing exponents raise; float(1 km) is 1 and float(1000 m) is 1000. Proved part: float of a quantity without units."
 },
 "C135": {
  "note": "The order is stated through histories (Spec/PrintOrder.lean): u is older than v when at some earlier reachable state u existed and v did not."
 },
 "C136": {
  "note": ""
 },
 "C137": {
  "note": "False of the code: the copy constructor evaluates uncertainty._dimensionality of None and raises AttributeError for every x; the units setter calls super()._set_units, which does not exist; pq.nansum drops the uncertainty. Proved part: pq.nansum gives the right value and units."
 },
 "C138": {
  "note": ""
 },
 "C139": {
  "note": "Finite numbers are exact and zero has no sign: 1/0 is +inf. Powers of special values, max and min with nan are not covered."
 },
 "C140": {
  "note": "The name 'microns' is excluded: it is not micro + ns. Stated for the units and positive constants (saneTable); exact arithmetic."
 },
 "C141": {
  "note": "Two definitions fail and are refuted: pond is 1000 gram-force (force.py defines it as g_0*kg); electron_volt is not elementary_charge*volt."
 },
 "C142": {
  "note": "ASCII symbols only: unicode symbols are not registered."
 },
 "C143": {
  "note": "Exact arithmetic; x / y with x certain and y uncertain goes through 1/y, so the agreement is of physical values, not of bits."
 },
 "C144": {
  "note": "Exact arithmetic on the decimal literals. The 31 constants with a negative value are not in the state (they are not valid sizes) and have no law."
 },
 "C145": {
  "note": "copy.deepcopy shares memory (C71_deepcopy_false); unit objects have no copy in the model."
 },
 "C146": {
  "note": "False for sum without start: sum([m, m]) raises ValueError because it begins with 0 + m (C146_false_sum_default)."
 },
 "C147": {
  "note": "Proved as stated; conversions under the side condition that the hashes of the dimensionalities compared do not collide."
 },
 "C148": {
  "note": "Partly false: sort() of an UncertainQuantity sorts the values in place and leaves the uncertainties where they were, so values end up with the uncertainties of others (C148_uncertain_sort_false, with any correct sort). reshape of uncertain quantities: C74_reshape_false, C89_reshape_false. For quantities proved as stated; C148_views and C148_copies make the theorems about views and item assignment (C28-C31, C53, C70, C117) apply to these methods. Arrays without axes are taken to refuse axis 0 (numpy accepts it in repeat, take, compress)."
 },
 "C149": {
  "note": "Powers: where the value is positive. Products and quotients of two uncertain quantities: where both values are nonzero (the code divides by them), and up to the sign of the uncertainty as in C75. The exponent written as a number is taken to be exact. Underflow and overflow are not modelled (C139 has inf and nan)."
 },
 "C150": {
  "note": "bool of an empty array is False (numpy up to 2.1; deprecated, later an error)."
 },
 "C151": {
  "note": "Stated for the 346 units and the 293 positive constants (a negative unit size is outside Reachable). Overflow and underflow are not modelled. The power function of the platform is assumed to be within eps. The bounds 86 and 122 are worst cases, computed per definition by tools/gen_errors.py and checked by the kernel."
 },
 "C152": {
  "note": "Stated for the 346 units and the 293 positive constants (a negative unit size is outside Reachable). Overflow and underflow are not modelled. That statampere does not simplify is C79_false_statampere."
 },
 "C153": {
  "note": "Stated for the 346 units and the 293 positive constants (a negative unit size is outside Reachable). Overflow and underflow are not modelled."
 },
 "C154": {
  "note": "Sums at the top level of the string (not inside parentheses). Needs no collision of hash values between the units that are compared."
 }
}