{"id": "C01", "title": "Unit algebra computes exponents", "statement": "For dimensionalities a, b and a number p, the exponent of every unit in a*b is the sum of its exponents in a and b, in a/b the difference, in a**p the product with p (a unit not mentioned counts as exponent 0).", "quantifier": "every pair of dimensionalities, every unit, every exponent p including 0 and negative/fractional ones", "why_tests_cant": "the space of unit combinations and exponents is infinite", "anchors": ["quantities/dimensionality.py:Dimensionality.__mul__", "quantities/dimensionality.py:Dimensionality.__truediv__", "quantities/dimensionality.py:Dimensionality.__pow__"]}
{"id": "C02", "title": "No cancelled unit lingers", "statement": "Whatever expression of products, quotients and powers is built from units, the resulting dimensionality never contains a unit with exponent 0 and never contains a unit twice; so a fully cancelled expression is exactly the empty (dimensionless) dimensionality.", "quantifier": "every finite expression tree over *, / and ** starting from units", "why_tests_cant": "needs an induction over all expression trees", "anchors": ["quantities/dimensionality.py:Dimensionality", "quantities/unitquantity.py:UnitQuantity._dimensionality"]}
{"id": "C03", "title": "Unit algebra laws", "statement": "Multiplication of dimensionalities is commutative and associative with the empty one as identity, a/b equals a*(b**-1), a/a is empty, (a*b)**p equals a**p*b**p, (a**p)**q equals a**(p*q); both sides compare equal with == and hash equally.", "quantifier": "every a, b, c and every p, q", "why_tests_cant": "infinitely many operand triples; both sides may be built in a different insertion order", "anchors": ["quantities/dimensionality.py:Dimensionality"]}
{"id": "C04", "title": "Equality and hash ignore insertion order", "statement": "Two dimensionalities with the same units and exponents are == and have the same hash, in whatever order the units were inserted; in particular == is an equivalence relation and equal dimensionalities have equal hashes.", "quantifier": "every pair of dimensionalities with the same content, every insertion order, every hash seed, every numbering of units", "why_tests_cant": "permutations and hash seeds cannot be enumerated", "anchors": ["quantities/dimensionality.py:Dimensionality.__hash__", "quantities/dimensionality.py:Dimensionality.__eq__"]}
{"id": "C05", "title": "Equality means same content", "statement": "a == b holds only if a and b contain the same units with the same exponents, and != is its negation.", "quantifier": "every pair of dimensionalities and every hash seed", "why_tests_cant": "a hash comparison is tested only on a handful of pairs; the pairs that collide are never sampled", "anchors": ["quantities/dimensionality.py:Dimensionality.__eq__", "quantities/dimensionality.py:Dimensionality.__hash__"]}
{"id": "C06", "title": "In-place unit algebra agrees with the pure operators", "statement": "a *= b, a /= b, a **= p leave a with the value of a*b, a/b, a**p and never alter b, also when b is a itself.", "quantifier": "every a, b, p and both aliasing situations", "why_tests_cant": "aliasing plus unbounded sizes", "anchors": ["quantities/dimensionality.py:Dimensionality.__imul__", "quantities/dimensionality.py:Dimensionality.__itruediv__", "quantities/dimensionality.py:Dimensionality.__ipow__"]}
{"id": "C07", "title": "Dimensionalities add only when equal", "statement": "a + b and a - b return a when a == b and raise ValueError otherwise, and raise TypeError for an argument that is not a dimensionality; a + b is accepted exactly when b + a is.", "quantifier": "every a and b", "why_tests_cant": "for all pairs", "anchors": ["quantities/dimensionality.py:Dimensionality.__add__", "quantities/dimensionality.py:Dimensionality.__sub__"]}
{"id": "C08", "title": "Dimensionality ordering", "statement": "The ordering of dimensionalities by number of base dimensions (<, <=, >, >=) is a total preorder, the four operators are consistent with each other, and it depends only on the physical dimension, not on which units express it.", "quantifier": "every triple of dimensionalities whose units simplify", "why_tests_cant": "for all triples", "anchors": ["quantities/dimensionality.py:Dimensionality.__lt__", "quantities/dimensionality.py:Dimensionality.__ge__", "quantities/dimensionality.py:Dimensionality.ndims"]}
{"id": "C09", "title": "Rescaling preserves the physical value", "statement": "If q.rescale(u) returns r then r denotes the same physical value as q, elementwise, has the same shape, and is expressed in u.", "quantifier": "every quantity of every shape, every target unit, every consistent assignment of sizes to base units, every history of unit definitions", "why_tests_cant": "arbitrary compound units, user-defined units and arrays", "anchors": ["quantities/quantity.py:Quantity.rescale", "quantities/quantity.py:get_conversion_factor", "quantities/quantity.py:Quantity._reference"]}
{"id": "C10", "title": "Rescaling succeeds exactly between compatible units", "statement": "q.rescale(u) returns if the base dimensions of q and u agree (the ratio of their sizes is fixed by the definitions) and raises ValueError otherwise.", "quantifier": "every pair of compound units over every registry of defined units", "why_tests_cant": "needs soundness and completeness over all unit expressions", "anchors": ["quantities/quantity.py:Quantity.rescale", "quantities/quantity.py:get_conversion_factor"]}
{"id": "C11", "title": "Rescaling is a groupoid action", "statement": "Rescaling to the units a quantity already has leaves it unchanged; rescaling to u and then to v equals rescaling directly to v; rescaling to u and back gives the original quantity.", "quantifier": "every quantity and every pair of compatible units", "why_tests_cant": "for all units and values", "anchors": ["quantities/quantity.py:Quantity.rescale"]}
{"id": "C12", "title": "Changing units in place agrees with rescale", "statement": "q.units = u on an array that owns its memory gives the same result as q.rescale(u); if the conversion is impossible a ValueError is raised and q is unchanged.", "quantifier": "every quantity, every target", "why_tests_cant": "for all units and values", "anchors": ["quantities/quantity.py:Quantity.units"]}
{"id": "C13", "title": "Addition and subtraction are physical", "statement": "If a + b (a - b, reflected forms) returns, the result denotes the sum (difference) of the physical values, broadcast like numpy, in the units of the Quantity on which the operator runs; it returns exactly when units are compatible and shapes broadcast, else raises ValueError.", "quantifier": "every pair of operands (quantities of any compatible units or plain arrays), every shape", "why_tests_cant": "operands in arbitrary mixed units", "anchors": ["quantities/quantity.py:Quantity.__add__", "quantities/quantity.py:Quantity.__radd__", "quantities/quantity.py:Quantity.__sub__", "quantities/quantity.py:Quantity.__rsub__", "quantities/quantity.py:scale_other_units", "quantities/dimensionality.py:_d_check_uniform"]}
{"id": "C14", "title": "Multiplication and division are physical", "statement": "a*b and a/b denote the product and quotient of physical values, never fail because of units, and need no conversion; a plain number scales the value.", "quantifier": "every pair of operands and every shape", "why_tests_cant": "for all unit combinations", "anchors": ["quantities/quantity.py:Quantity.__mul__", "quantities/quantity.py:Quantity.__rmul__", "quantities/quantity.py:Quantity.__truediv__", "quantities/quantity.py:Quantity.__rtruediv__", "quantities/dimensionality.py:_d_multiply", "quantities/dimensionality.py:_d_divide"]}
{"id": "C15", "title": "Powers are physical", "statement": "q**p for a uniform dimensionless exponent p denotes the p-th power of the physical value; exponents with units or non-uniform exponents raise ValueError.", "quantifier": "every quantity of positive values (any values for integer p), every exponent array", "why_tests_cant": "for all exponents", "anchors": ["quantities/quantity.py:Quantity.__pow__", "quantities/quantity.py:check_uniform", "quantities/dimensionality.py:_d_power"]}
{"id": "C16", "title": "Modulo", "statement": "a % b rescales b to the units of a and denotes the remainder of the physical values with the sign of b.", "quantifier": "every pair of operands with compatible units", "why_tests_cant": "identity must hold for all mixed-unit operands", "anchors": ["quantities/quantity.py:Quantity.__mod__"]}
{"id": "C17", "title": "Comparisons compare physical values", "statement": "For quantities with compatible units <, <=, >, >=, ==, != give elementwise the comparison of physical values, hence do not depend on the units used; for incompatible units == is all False, != all True, the orderings raise ValueError.", "quantifier": "every pair of quantities of broadcastable shapes and every units", "why_tests_cant": "for all values and units", "anchors": ["quantities/quantity.py:Quantity.__lt__", "quantities/quantity.py:Quantity.__eq__", "quantities/quantity.py:Quantity.__ne__", "quantities/quantity.py:wrap_comparison"]}
{"id": "C18", "title": "Equality of quantities is an equivalence", "statement": "== on scalar quantities in any units is reflexive, symmetric and transitive, and true exactly when the units are compatible and the physical values equal.", "quantifier": "every triple of quantities, every history of unit definitions", "why_tests_cant": "transitivity over mixed operand kinds", "anchors": ["quantities/quantity.py:Quantity.__eq__"]}
{"id": "C19", "title": "Simplification preserves the value", "statement": "q.simplified denotes the same physical value as q, is expressed only in the current default units, and simplifying again changes nothing; it returns whenever every unit involved is a base unit convertible to its default or has a definition.", "quantifier": "every quantity whose units are built from base units by any depth of definitions", "why_tests_cant": "unbounded definition depth", "anchors": ["quantities/quantity.py:Quantity.simplified", "quantities/unitquantity.py:UnitQuantity.simplified", "quantities/unitquantity.py:IrreducibleUnit.simplified"]}
{"id": "C20", "title": "Simplified units characterise compatibility", "statement": "Two quantities have == simplified dimensionalities exactly when one can be rescaled to the units of the other.", "quantifier": "every pair of quantities", "why_tests_cant": "both directions over all unit expressions", "anchors": ["quantities/quantity.py:Quantity.simplified", "quantities/quantity.py:Quantity.rescale", "quantities/dimensionality.py:Dimensionality.simplified"]}
{"id": "C21", "title": "Default units stay dimensionally correct", "statement": "After any sequence of unit definitions and set_default_unit calls, successful or not, each base-unit class's default has the physical dimension of that class, and changing defaults never changes the physical value of any existing quantity, the result of rescale, or any conversion factor.", "quantifier": "every history of constructor and set_default_unit calls", "why_tests_cant": "all histories", "anchors": ["quantities/unitquantity.py:IrreducibleUnit.set_default_unit", "quantities/unitquantity.py:IrreducibleUnit.__init__", "quantities/unitquantity.py:set_default_units"]}
{"id": "C22", "title": "set_default_units sets every requested default", "statement": "set_default_units raises nothing exactly when the system (if any) is si or cgs and every single request, of the system and of the keywords, names or is a unit into which the current default of its class converts; then every requested default is set to the requested unit and no other default and no registration is changed. An unknown system raises ValueError and changes nothing.", "quantifier": "every state, every combination of keyword arguments", "why_tests_cant": "failure in the middle of every argument subset", "anchors": ["quantities/unitquantity.py:set_default_units", "quantities/unitquantity.py:IrreducibleUnit.set_default_unit"]}
{"id": "C23", "title": "Labels are bound once", "statement": "Once a label (name, symbol, alias) is registered it denotes the same unit for the rest of the process; a successful construction binds every free label of the new unit and changes no other binding.", "quantifier": "every history of unit constructions and registrations", "why_tests_cant": "all histories", "anchors": ["quantities/registry.py:UnitRegistry.__Registry.__setitem__", "quantities/unitquantity.py:UnitQuantity.__init__"]}
{"id": "C24", "title": "Unit strings are evaluated safely", "statement": "Evaluating a unit string only applies arithmetic operators to registered units and literals: strings whose syntax contains attribute access, calls, subscripts, comprehensions, lambdas or anything else raise LookupError without being evaluated; unknown names raise; the result depends only on the registered labels the string mentions.", "quantifier": "every string (every syntax tree)", "why_tests_cant": "security claim over all inputs", "anchors": ["quantities/registry.py:UnitRegistry.__getitem__", "quantities/registry.py:UnitRegistry.__Registry"]}
{"id": "C25", "title": "Unit-string preprocessing", "statement": "Writing ^ for **, or \u00b7 for *, denotes the same unit; the empty string means dimensionless, % means percent, and 'in' in any capitalisation means inch.", "quantifier": "every unit string", "why_tests_cant": "all strings", "anchors": ["quantities/registry.py:UnitRegistry.__Registry.__getitem__"]}
{"id": "C26", "title": "Format then parse round-trips", "statement": "Looking up the string form of a dimensionality gives back a unit with that dimensionality.", "quantifier": "every dimensionality over registered units", "why_tests_cant": "infinitely many exponents", "anchors": ["quantities/dimensionality.py:Dimensionality.string", "quantities/markup.py:format_units", "quantities/registry.py:UnitRegistry.__getitem__"]}
{"id": "C27", "title": "String forms do not depend on insertion order", "statement": "The string, unicode, latex and html forms of a dimensionality do not depend on the order in which its units were inserted.", "quantifier": "every dimensionality", "why_tests_cant": "all orders and exponents", "anchors": ["quantities/markup.py:format_units", "quantities/markup.py:superscript", "quantities/markup.py:format_units_latex", "quantities/markup.py:format_units_html"]}
{"id": "C28", "title": "Units are immutable", "statement": "No in-place operator, item assignment or units assignment changes a unit object: each raises or rebinds, and the unit keeps value 1 and its dimensionality.", "quantifier": "every sequence of attempted mutations", "why_tests_cant": "all sequences", "anchors": ["quantities/unitquantity.py:UnitQuantity.__setitem__", "quantities/unitquantity.py:UnitQuantity.__iadd__", "quantities/unitquantity.py:UnitQuantity.units"]}
{"id": "C29", "title": "Unit changes through a view are refused", "statement": "An in-place operation or units assignment through a view that would change units is refused and changes nothing; no operation changes the units of another object, nor the contents of objects that share no memory with its target; the units setter preserves the physical value.", "quantifier": "every sequence of view creations and in-place operations on every aliasing pattern", "why_tests_cant": "aliasing histories", "anchors": ["quantities/quantity.py:Quantity.units", "quantities/dimensionality.py:protected_multiplication", "quantities/quantity.py:Quantity.__imul__", "quantities/decorators.py"]}
{"id": "C30", "title": "Copies are independent", "statement": "q.copy() is equal to q and no later in-place change to one is visible in the other; generally, objects that share no memory never affect each other.", "quantifier": "every quantity and every later sequence of in-place operations", "why_tests_cant": "memory sharing is invisible to value tests", "anchors": ["quantities/quantity.py:Quantity", "numpy.ndarray.copy"]}
{"id": "C31", "title": "Item assignment respects units", "statement": "q[i] = v stores v converted to the units of q (ValueError if incompatible, nothing stored) and leaves every other element and the units unchanged.", "quantifier": "every array, index, value", "why_tests_cant": "all", "anchors": ["quantities/quantity.py:Quantity.__setitem__", "quantities/quantity.py:Quantity.put"]}
{"id": "C32", "title": "Reductions commute with rescaling", "statement": "sum, mean, min, max, ptp, std, cumsum, trace, argmin/argmax, nansum, nanmean, nanstd of q along any axis: the result is the reduction of the physical values and keeps the units of q, so reducing commutes with rescaling.", "quantifier": "every array, every axis, every compatible unit", "why_tests_cant": "all arrays and units", "anchors": ["quantities/quantity.py:Quantity.sum", "quantities/quantity.py:Quantity.mean", "quantities/quantity.py:Quantity.min", "quantities/quantity.py:Quantity.max", "quantities/quantity.py:Quantity.ptp", "quantities/quantity.py:Quantity.cumsum", "quantities/quantity.py:Quantity.std"]}
{"id": "C33", "title": "prod, var, cumprod units", "statement": "prod over n elements has units**n and denotes the product of physical values, var has units**2, cumprod is refused unless dimensionless.", "quantifier": "every array and axis", "why_tests_cant": "the exponent depends on the size of the reduced axis", "anchors": ["quantities/quantity.py:Quantity.prod", "quantities/quantity.py:Quantity.var", "quantities/quantity.py:Quantity.cumprod"]}
{"id": "C34", "title": "ufunc unit rules are sound", "statement": "For the arithmetic, power, exponential, logarithmic, trigonometric, angle-conversion and extremum ufuncs the units attached to the result make it denote the operation on the physical values, operands that have no meaning (wrong units) are refused; ufuncs outside the table raise.", "quantifier": "every ufunc in the table, every operand", "why_tests_cant": "soundness over all operands and unit changes", "anchors": ["quantities/dimensionality.py:p_dict", "quantities/quantity.py:Quantity.__array_prepare__"]}
{"id": "C35", "title": "Trigonometric functions take angles", "statement": "umath.sin/cos/tan depend only on the physical angle (degrees and radians of the same angle agree) and reject non-angles with ValueError; inverse functions return radians.", "quantifier": "every angle in every angular unit", "why_tests_cant": "all units", "anchors": ["quantities/umath.py:sin", "quantities/umath.py:cos", "quantities/umath.py:arctan2", "quantities/dimensionality.py:_d_trig", "quantities/dimensionality.py:_d_arctrig"]}
{"id": "C36", "title": "hypot and arctan2 are physical", "statement": "umath.hypot and arctan2 of two lengths in different units give the physical hypotenuse and angle.", "quantifier": "every pair of compatible operands", "why_tests_cant": "mixed units", "anchors": ["quantities/umath.py:hypot", "quantities/umath.py:arctan2"]}
{"id": "C37", "title": "Uncertainty carries the units and shape of the value", "statement": "Every uncertain quantity built with the constructor, the uncertainty setter, rescale, simplified, the operators, indexing, sum, mean, max, min and sqrt has an uncertainty with the units and the shape of its value.", "quantifier": "every expression over uncertain quantities", "why_tests_cant": "all expressions", "anchors": ["quantities/uncertainquantity.py:UncertainQuantity"]}
{"id": "C38", "title": "Rescaling keeps relative uncertainty", "statement": "Rescaling an uncertain quantity preserves its value, its absolute uncertainty as physical values, and its relative uncertainty.", "quantifier": "every uncertain quantity and compatible unit", "why_tests_cant": "all", "anchors": ["quantities/uncertainquantity.py:UncertainQuantity.rescale", "quantities/uncertainquantity.py:UncertainQuantity.relative_uncertainty"]}
{"id": "C39", "title": "Uncertainty propagation", "statement": "Sums and differences of uncertain quantities add values and add uncertainties in quadrature; multiplying or dividing by an exact value, dividing an exact value, negation, sum, mean and indexing propagate value and uncertainty to first order; uncertainties stay non-negative.", "quantifier": "every pair of uncertain operands", "why_tests_cant": "sign combinations and mixed units", "anchors": ["quantities/uncertainquantity.py:UncertainQuantity.__add__", "quantities/uncertainquantity.py:UncertainQuantity.__mul__", "quantities/uncertainquantity.py:UncertainQuantity.__pow__"]}
{"id": "C40", "title": "Pickling round-trips", "statement": "Unpickling the pickle of a quantity, unit, constant or uncertain quantity gives an equal object with the same class, magnitudes, units with all their attributes and uncertainty, in the same process at any later time or in a process with the same registry.", "quantifier": "every quantity", "why_tests_cant": "all values and units", "anchors": ["quantities/quantity.py:Quantity.__reduce__", "quantities/unitquantity.py:UnitQuantity.__reduce__", "quantities/uncertainquantity.py:UncertainQuantity.__reduce__", "quantities/constants/_utils.py"]}
{"id": "C41", "title": "Memoization is transparent", "statement": "A function decorated with memoize returns, for every sequence of calls interleaved with arbitrary in-place changes of previously returned objects, what the undecorated function would return.", "quantifier": "every pure function, every sequence of calls and mutations of returned objects", "why_tests_cant": "cache staleness depends on history", "anchors": ["quantities/decorators.py:memoize"]}
{"id": "C42", "title": "Shipped units are coherent", "statement": "Importing the library raises nothing; afterwards every name, symbol and alias is bound to its unit and to nothing else; every unit has a positive size, refers only to units defined before it and has a well-defined base dimension; two shipped units are convertible exactly when their base dimensions agree; the default units are the SI units.", "quantifier": "all shipped unit definitions", "why_tests_cant": "the table has hundreds of entries, tests look at few", "anchors": ["quantities/units"]}
{"id": "C43", "title": "Bare numbers are dimensionless in sums", "statement": "Adding or subtracting a plain number to a quantity is accepted exactly if the quantity is dimensionless (its units convert to none).", "quantifier": "every quantity and number", "why_tests_cant": "all units", "anchors": ["quantities/quantity.py:scale_other_units", "quantities/quantity.py:Quantity.__add__"]}
{"id": "C44", "title": "clip and round respect units", "statement": "q.clip(lo, hi) converts its bounds to the units of q and gives the physical clip, incompatible and plain bounds for a quantity with units are refused; q.round(n) rounds the magnitudes in the units of q.", "quantifier": "every array, bounds in any compatible units", "why_tests_cant": "all units", "anchors": ["quantities/quantity.py:Quantity.clip", "quantities/quantity.py:Quantity.round"]}
{"id": "C45", "title": "rescale_preferred", "statement": "rescale_preferred returns the quantity expressed in the preferred unit with the same simplified units, same physical value, and raises if there is none.", "quantifier": "every list of preferred units and every quantity", "why_tests_cant": "all lists", "anchors": ["quantities/quantity.py:Quantity.rescale_preferred"]}
{"id": "C46", "title": "dimensionless_magnitude", "statement": "dimensionless_magnitude returns the physical pure number whatever units cancel, and raises ValueError if the quantity is not dimensionless.", "quantifier": "every quantity", "why_tests_cant": "all units", "anchors": ["quantities/quantity.py:Quantity.dimensionless_magnitude"]}
{"id": "C47", "title": "Units are usable as dict keys", "statement": "Equal units hash equally.", "quantifier": "every pair of units", "why_tests_cant": "all pairs of units", "anchors": ["quantities/unitquantity.py:UnitQuantity.__hash__", "quantities/unitquantity.py:UnitQuantity.__eq__"]}
{"id": "C48", "title": "Umath integration and differentiation", "statement": "umath.diff, cumsum, trapz (any mixture of quantities and numbers), gradient with given spacings and cross of two quantities give the physical result in the units the operation has, independent of the input units.", "quantifier": "every array and units", "why_tests_cant": "all", "anchors": ["quantities/umath.py:trapz", "quantities/umath.py:gradient", "quantities/umath.py:diff"]}
{"id": "C49", "title": "Quantity elements keep units", "statement": "Indexing, iterating and tolist give scalar quantities in the units of the array with the stored magnitudes; concatenating them back gives the array.", "quantifier": "every array and index", "why_tests_cant": "all", "anchors": ["quantities/quantity.py:Quantity.__getitem__", "quantities/quantity.py:Quantity.__iter__", "quantities/quantity.py:Quantity.tolist"]}
{"id": "C50", "title": "Units given as quantities keep their scale", "statement": "When units are given as a quantity (Quantity(x, u), q.rescale(u), q.units = u), the units used denote the physical value of u; a u whose magnitude is not 1 is refused with ValueError.", "quantifier": "every unit string and every quantity", "why_tests_cant": "ranges over all strings of the unit grammar", "anchors": ["quantities/quantity.py:validate_dimensionality", "quantities/quantity.py:validate_unit_quantity", "quantities/registry.py:UnitRegistry.__getitem__"]}
{"id": "C51", "title": "unwrap removes physical turns", "statement": "umath.unwrap of an angle in any angular unit, with a discontinuity in any angular unit, gives the angle with whole turns removed, as numpy's unwrap of the physical angle does; non-angles are rejected.", "quantifier": "every array of angles in every angular unit", "why_tests_cant": "every unit and every array", "anchors": ["quantities/umath.py:unwrap"]}
{"id": "C52", "title": "In-place operators agree with the binary ones (numpy 1)", "statement": "With numpy before 2.0, q += v, q -= v, q *= v, q /= v, q **= n on an array that is not a view leave q equal, in magnitudes and units, to the result of the corresponding binary operator, or raise what it raises and leave q unchanged.", "quantifier": "every quantity array that owns its memory, every operand, every aliasing pattern of the other objects", "why_tests_cant": "all operands and sharing patterns", "anchors": ["quantities/quantity.py:Quantity.__iadd__", "quantities/quantity.py:Quantity.__isub__", "quantities/quantity.py:Quantity.__imul__", "quantities/quantity.py:Quantity.__itruediv__", "quantities/quantity.py:Quantity.__ipow__", "quantities/decorators.py:check_uniform"]}
{"id": "C53", "title": "Views stay in sync with the owner", "statement": "A slice of a quantity array is a live window: after any sequence of element assignments through the view or the owner, reading the view gives the owner's current elements at those positions, in the units of the owner.", "quantifier": "every array, every slice, every later sequence of element assignments", "why_tests_cant": "histories and aliasing", "anchors": ["quantities/quantity.py:Quantity.__getitem__", "quantities/quantity.py:Quantity.__setitem__", "quantities/quantity.py:Quantity.__array_finalize__"]}
{"id": "C54", "title": "Unit conversion never silently truncates integers", "statement": "Converting, adding, subtracting and comparing quantities with integer or boolean magnitudes in different units yields floating-point results without truncation (floats keep their precision); in-place operations and the units setter, which would have to store a converted number in an integer array, raise and change nothing.", "quantifier": "every dtype of both operands, every requested dtype, every history of unit definitions, all compatible units, all arrays, numpy 1 and 2 promotion", "why_tests_cant": "all pairs of dtypes, shapes, numpy's value-based promotion, and all values", "anchors": ["quantities/quantity.py:Quantity.rescale", "quantities/quantity.py:Quantity.astype", "quantities/quantity.py:scale_other_units", "quantities/quantity.py:Quantity.__setitem__", "quantities/quantity.py:Quantity.units"]}
{"id": "C56", "title": "Units, quantities and numbers mix freely in expressions", "statement": "In any expression built from unit objects, quantities, plain arrays and numbers with + - * / ** and comparisons, with the operands in either order, a unit behaves as the quantity of magnitude one in that unit, the value returned is the value of the same expression over physical values (and its units those of the expression of units), and an operation returns exactly when the units are compatible where they must be and the shapes broadcast.", "quantifier": "every history of unit definitions, every expression tree of any depth, every operand of every kind on each side", "why_tests_cant": "the outcome depends on Python's choice between the two operands' methods for every pair of classes, and on unbounded nesting; tests try a few pairs", "anchors": ["quantities/unitquantity.py:UnitQuantity.__add__", "quantities/unitquantity.py:UnitQuantity.__radd__", "quantities/unitquantity.py:UnitQuantity.__rtruediv__", "quantities/quantity.py:scale_other_units", "quantities/quantity.py:Quantity.__array_prepare__", "quantities/quantity.py:Quantity.__rmul__", "quantities/uncertainquantity.py:UncertainQuantity.__rmul__"]}
{"id": "C57", "title": "Typeset forms show the same units", "statement": "For units with plain symbols (no compound units) and whole exponents that print faithfully (not multiples of ten, see C69), the unicode, HTML and LaTeX forms of a dimensionality show the same units with the same exponents, in the same order, on the same side of the fraction line, as its plain string, each whole exponent raised.", "quantifier": "every set of units, every exponent of each, every display order", "why_tests_cant": "any number of units and any exponents; the forms are computed by text substitution on the plain string", "anchors": ["quantities/markup.py:superscript", "quantities/markup.py:format_units_unicode", "quantities/markup.py:format_units_latex", "quantities/markup.py:format_units_html"]}
{"id": "C55", "title": "Wrapped functions compute with physical values", "statement": "A function wrapped by quantitizer receives its quantity arguments in default units, and returns each result in the units its handler announces, with the physical value of the raw result read in default units; so the physical results do not depend on the units in which the arguments are given.", "quantifier": "every base function and handler, every list of arguments in any units, every state of the library", "why_tests_cant": "all functions and all choices of units", "anchors": ["quantities/decorators.py:quantitizer", "quantities/quantity.py:Quantity.simplified", "quantities/dimensionality.py:Dimensionality.simplified"]}
{"id": "C58", "title": "Conversions are accurate up to counted rounding errors", "statement": "With floating-point magnitudes, rounding never decides whether a conversion is possible, and a conversion returns the exact physical value (that implied by the unit definitions) element by element up to a number of rounding errors that depends only on the two units involved, not on the magnitudes; converting there and back recovers the magnitudes up to twice that number.", "quantifier": "every arithmetic with relative error at most eps per multiplication, division and power; every history of unit definitions; all units and all arrays", "why_tests_cant": "all floating-point values and all chains of unit definitions; tests compare a few values with a tolerance", "anchors": ["quantities/quantity.py:Quantity.rescale", "quantities/quantity.py:Quantity._reference", "quantities/quantity.py:get_conversion_factor", "quantities/unitquantity.py:UnitQuantity.__new__"]}
{"id": "C59", "title": "Calculations are unaffected by other threads", "statement": "A thread that converts, adds, subtracts and compares quantities obtains exactly the results it would obtain alone, whatever other threads do meanwhile (compute, create units, change default units), and it finishes once it has run often enough.", "quantifier": "every number of threads, every interleaving at the level of single attribute loads and stores, every calculation", "why_tests_cant": "all interleavings", "anchors": ["quantities/quantity.py:Quantity.rescale", "quantities/quantity.py:Quantity._reference", "quantities/unitquantity.py:UnitQuantity.__new__", "quantities/registry.py"]}
{"id": "C60", "title": "simplified keeps the value while defaults change", "statement": "A simplification that returns while other threads change default units or create units denotes the same physical value, and under every interleaving the default unit of a class stays convertible to what it was.", "quantifier": "every number of threads and every interleaving", "why_tests_cant": "all interleavings", "anchors": ["quantities/quantity.py:Quantity.simplified", "quantities/unitquantity.py:IrreducibleUnit.simplified", "quantities/unitquantity.py:IrreducibleUnit.set_default_unit"]}
{"id": "C61", "title": "Units can be created concurrently", "statement": "A unit whose name and labels are new and used by no other thread is created as if its thread ran alone: the call returns, every label denotes the unit, the unit has its definition; labels already bound keep their meaning and labels nobody registers do not change.", "quantifier": "every number of threads and every interleaving", "why_tests_cant": "all interleavings", "anchors": ["quantities/unitquantity.py:UnitQuantity.__new__", "quantities/unitquantity.py:UnitQuantity.__init__", "quantities/registry.py:UnitRegistry.__Registry.__setitem__"]}
{"id": "C62", "title": "simplified uses one state of the default units", "statement": "The result of simplified is the simplification with respect to one state of the default units, even when another thread changes them meanwhile.", "quantifier": "every number of threads and every interleaving", "why_tests_cant": "all interleavings", "anchors": ["quantities/quantity.py:Quantity.simplified", "quantities/unitquantity.py:IrreducibleUnit.simplified", "quantities/unitquantity.py:IrreducibleUnit.set_default_unit"]}
{"id": "C63", "title": "Floor division", "statement": "a // b denotes the floor of the physical quotient, so that a = (a//b)*b + a%b.", "quantifier": "every pair of operands with compatible units", "why_tests_cant": "identity must hold for all mixed-unit operands", "anchors": ["quantities/dimensionality.py:p_dict", "quantities/dimensionality.py:_d_divide"]}
{"id": "C64", "title": "Bare numbers are dimensionless in comparisons", "statement": "Comparing a quantity with a plain number is accepted only if the quantity is dimensionless, and == between quantities and numbers is transitive.", "quantifier": "every quantity, every number, every comparison operator", "why_tests_cant": "all units and numbers; transitivity over mixed operand kinds", "anchors": ["quantities/quantity.py:wrap_comparison", "quantities/quantity.py:Quantity.__eq__"]}
{"id": "C65", "title": "Every quantity can be simplified", "statement": "q.simplified returns for every quantity over registered units.", "quantifier": "every registered unit", "why_tests_cant": "every way of creating units", "anchors": ["quantities/quantity.py:Quantity.simplified", "quantities/unitquantity.py:UnitQuantity.simplified", "quantities/unitquantity.py:IrreducibleUnit.simplified"]}
{"id": "C66", "title": "A failing set_default_units changes nothing", "statement": "When set_default_units raises it leaves all defaults as they were, and a unit of the wrong kind raises TypeError.", "quantifier": "every state, every combination of keyword arguments", "why_tests_cant": "failure in the middle of every argument subset", "anchors": ["quantities/unitquantity.py:set_default_units", "quantities/unitquantity.py:IrreducibleUnit.set_default_unit"]}
{"id": "C67", "title": "Conflicting definitions are refused", "statement": "Redefining a registered label to a different value raises KeyError.", "quantifier": "every history of unit constructions and registrations", "why_tests_cant": "all histories", "anchors": ["quantities/registry.py:UnitRegistry.__Registry.__setitem__", "quantities/unitquantity.py:UnitQuantity.__init__"]}
{"id": "C68", "title": "A point means multiplication", "statement": "Writing a point between unit names denotes the same unit as writing *.", "quantifier": "every unit string", "why_tests_cant": "all strings", "anchors": ["quantities/registry.py:UnitRegistry.__Registry.__getitem__"]}
{"id": "C69", "title": "Strings identify dimensionalities", "statement": "Equal dimensionalities have the same string and different dimensionalities have different strings.", "quantifier": "every dimensionality", "why_tests_cant": "all orders and exponents", "anchors": ["quantities/markup.py:format_units", "quantities/markup.py:superscript", "quantities/markup.py:format_units_latex", "quantities/markup.py:format_units_html"]}
{"id": "C70", "title": "Views stay coherent with their owner", "statement": "After any sequence of operations every array's magnitudes are still interpreted with the units they were stored in: objects that share memory agree on its units.", "quantifier": "every sequence of view creations and in-place operations on every aliasing pattern", "why_tests_cant": "aliasing histories", "anchors": ["quantities/quantity.py:Quantity.units", "quantities/dimensionality.py:protected_multiplication", "quantities/quantity.py:Quantity.__imul__", "quantities/decorators.py"]}
{"id": "C71", "title": "Deep copies are independent", "statement": "copy.deepcopy(q) is equal to q and no later in-place change to one is visible in the other.", "quantifier": "every quantity and every later sequence of in-place operations", "why_tests_cant": "memory sharing is invisible to value tests", "anchors": ["quantities/quantity.py:Quantity", "numpy.ndarray.copy"]}
{"id": "C72", "title": "nanmax and nanmin", "statement": "q.nanmax(axis) and q.nanmin(axis) give the extremes of the non-nan physical values along the axis in the units of q.", "quantifier": "every array, every axis, every compatible unit", "why_tests_cant": "all arrays and units", "anchors": ["quantities/quantity.py:Quantity.nanmax", "quantities/quantity.py:Quantity.nanmin"]}
{"id": "C73", "title": "Every ufunc in the table is sound", "statement": "The remaining ufuncs that quantities accept (rounding, comparison, logaddexp) give a result that transforms correctly under a change of units, or raise.", "quantifier": "every ufunc in the table, every operand", "why_tests_cant": "soundness over all operands and unit changes", "anchors": ["quantities/dimensionality.py:p_dict", "quantities/quantity.py:Quantity.__array_prepare__"]}
{"id": "C74", "title": "numpy functions keep the uncertainty aligned", "statement": "The result of a numpy function or method applied to an uncertain quantity has an uncertainty with the units and the shape of its value.", "quantifier": "every expression over uncertain quantities", "why_tests_cant": "all expressions", "anchors": ["quantities/uncertainquantity.py:UncertainQuantity.__array_finalize__", "quantities/quantity.py:Quantity.__array_prepare__"]}
{"id": "C75", "title": "Uncertainty of products, quotients and powers", "statement": "Products and quotients of uncertain quantities add relative uncertainties in quadrature; a power multiplies the relative uncertainty by the absolute exponent; uncertainties stay non-negative.", "quantifier": "every pair of uncertain operands", "why_tests_cant": "sign combinations and mixed units", "anchors": ["quantities/uncertainquantity.py:UncertainQuantity.__mul__", "quantities/uncertainquantity.py:UncertainQuantity.__truediv__", "quantities/uncertainquantity.py:UncertainQuantity.__pow__"]}
{"id": "C76", "title": "Extremes of uncertain quantities", "statement": "max and min along an axis give the extreme measurements along that axis, each with its uncertainty.", "quantifier": "every array, every axis", "why_tests_cant": "all arrays and axes", "anchors": ["quantities/uncertainquantity.py:UncertainQuantity.max", "quantities/uncertainquantity.py:UncertainQuantity.min"]}
{"id": "C77", "title": "Exact values in sums", "statement": "An exact quantity added to or subtracted from an uncertain one, on either side, counts as having uncertainty zero.", "quantifier": "every pair of uncertain operands", "why_tests_cant": "sign combinations and mixed units", "anchors": ["quantities/uncertainquantity.py:UncertainQuantity.__add__", "quantities/uncertainquantity.py:UncertainQuantity.__radd__", "quantities/uncertainquantity.py:UncertainQuantity.__rsub__"]}
{"id": "C78", "title": "Every unit object can be pickled", "statement": "Unpickling succeeds for every unit object that a program holds.", "quantifier": "every unit object, also one whose construction was interrupted by an exception", "why_tests_cant": "all values and units", "anchors": ["quantities/quantity.py:Quantity.__reduce__", "quantities/unitquantity.py:UnitQuantity.__reduce__", "quantities/uncertainquantity.py:UncertainQuantity.__reduce__", "quantities/constants/_utils.py"]}
{"id": "C79", "title": "Shipped units have the kind and the names they declare", "statement": "Every shipped unit of a kind (length, current, ...) is convertible to the default unit of that kind, quantities over shipped units can be simplified, and every alias the sources intend is registered.", "quantifier": "all shipped unit definitions", "why_tests_cant": "the table has hundreds of entries, tests look at few", "anchors": ["quantities/units"]}
{"id": "C80", "title": "searchsorted and plain bounds", "statement": "q.searchsorted(v) gives the insertion point of the physical value for v in any compatible units; clip of a dimensionless quantity accepts plain numbers as bounds.", "quantifier": "every array, bounds in any compatible units", "why_tests_cant": "all units", "anchors": ["quantities/quantity.py:Quantity.searchsorted", "quantities/quantity.py:Quantity.clip"]}
{"id": "C81", "title": "ediff1d, default spacings and plain operands", "statement": "umath.ediff1d with begin and end values, gradient without spacing and cross with a plain array give the physical result in the units the operation has.", "quantifier": "every array and units", "why_tests_cant": "all", "anchors": ["quantities/umath.py:ediff1d", "quantities/umath.py:gradient", "quantities/umath.py:cross"]}
{"id": "C82", "title": "Units given as strings keep their scale", "statement": "When units are given as a string, the units used denote the physical value of the string; a string with a factor other than 1 is refused.", "quantifier": "every unit string and every quantity", "why_tests_cant": "ranges over all strings of the unit grammar", "anchors": ["quantities/quantity.py:validate_dimensionality", "quantities/quantity.py:validate_unit_quantity", "quantities/registry.py:UnitRegistry.__getitem__"]}
{"id": "C83", "title": "In-place operators agree with the binary ones (numpy 2)", "statement": "With numpy 2, q += v, q -= v, q *= v, q /= v, q **= n on an array that is not a view leave q equal, in magnitudes and units, to the result of the corresponding binary operator.", "quantifier": "every quantity array that owns its memory, every operand, every aliasing pattern of the other objects", "why_tests_cant": "all operands and sharing patterns", "anchors": ["quantities/quantity.py:Quantity.__iadd__", "quantities/quantity.py:Quantity.__isub__", "quantities/quantity.py:Quantity.__imul__", "quantities/quantity.py:Quantity.__itruediv__", "quantities/quantity.py:Quantity.__ipow__", "quantities/decorators.py:check_uniform"]}
{"id": "C84", "title": "Item assignment and explicit dtypes do not truncate", "statement": "Item assignment stores the value converted to the units of the array; an explicitly requested dtype is honoured.", "quantifier": "every dtype of both operands, every requested dtype, every history of unit definitions, all compatible units, all arrays, numpy 1 and 2 promotion", "why_tests_cant": "all pairs of dtypes, shapes, numpy's value-based promotion, and all values", "anchors": ["quantities/quantity.py:Quantity.__setitem__", "quantities/quantity.py:Quantity.rescale", "quantities/quantity.py:Quantity.astype"]}
{"id": "C85", "title": "Operand order does not lose information", "statement": "Multiplying a unit or quantity and an uncertain quantity in either order keeps the uncertainty, and == returns one truth value per element whatever the units.", "quantifier": "every operand of every class on each side", "why_tests_cant": "the outcome depends on Python's choice between the two operands' methods for every pair of classes, and on unbounded nesting; tests try a few pairs", "anchors": ["quantities/unitquantity.py:UnitQuantity.__add__", "quantities/unitquantity.py:UnitQuantity.__radd__", "quantities/unitquantity.py:UnitQuantity.__rtruediv__", "quantities/quantity.py:scale_other_units", "quantities/quantity.py:Quantity.__array_prepare__", "quantities/quantity.py:Quantity.__rmul__", "quantities/uncertainquantity.py:UncertainQuantity.__rmul__"]}
{"id": "C86", "title": "Typeset fractional exponents", "statement": "Fractional exponents are raised as a whole in the unicode, HTML and LaTeX forms.", "quantifier": "every set of units, every exponent of each, every display order", "why_tests_cant": "any number of units and any exponents; the forms are computed by text substitution on the plain string", "anchors": ["quantities/markup.py:superscript", "quantities/markup.py:format_units_unicode", "quantities/markup.py:format_units_latex", "quantities/markup.py:format_units_html"]}
{"id": "C87", "title": "In-place operations propagate the uncertainty", "statement": "After x += y, x *= y etc. on an uncertain quantity x, value and uncertainty of x are those of x + y, x * y.", "quantifier": "every reachable memory state, every in-place operator, every operand, every alias of x", "why_tests_cant": "all memory states, aliases and operands", "anchors": ["quantities/uncertainquantity.py:UncertainQuantity", "quantities/quantity.py:Quantity.__iadd__", "quantities/quantity.py:Quantity.__imul__"]}
{"id": "C88", "title": "Copies of uncertain quantities are independent", "statement": "y = x.copy() of an uncertain quantity shows the value and uncertainty of x, and no later program step on other objects changes what y shows.", "quantifier": "every reachable memory state, every program run afterwards that does not touch y", "why_tests_cant": "unbounded programs and every pattern of sharing between arrays", "anchors": ["quantities/uncertainquantity.py:UncertainQuantity.__array_finalize__", "quantities/quantity.py:Quantity.__deepcopy__", "quantities/uncertainquantity.py:UncertainQuantity.uncertainty"]}
{"id": "C89", "title": "Values and uncertainties stay aligned in memory", "statement": "At every point of a program the uncertainty of every uncertain quantity has the shape and the units of its value.", "quantifier": "every program (sequence of constructions, subscripts, copies, in-place operations, item assignments and uncertainty assignments), with exceptions anywhere", "why_tests_cant": "unbounded programs, aliasing and exceptions at every step", "anchors": ["quantities/uncertainquantity.py:UncertainQuantity.uncertainty", "quantities/uncertainquantity.py:UncertainQuantity.__getitem__", "quantities/uncertainquantity.py:UncertainQuantity.__array_finalize__"]}
{"id": "C90", "title": "Missing measurements are ignored", "statement": "nansum, nanmean, nanmax and nanmin of an uncertain quantity give the measurement that sum, mean, max and min give of the measurements whose value is not nan.", "quantifier": "every array of every shape with any pattern of nans in values and uncertainties, every axis or tuple of axes, all units", "why_tests_cant": "every shape, axis and pattern of missing values", "anchors": ["quantities/uncertainquantity.py:UncertainQuantity.nansum", "quantities/uncertainquantity.py:UncertainQuantity.nanmean", "quantities/uncertainquantity.py:UncertainQuantity.nanmax", "quantities/uncertainquantity.py:UncertainQuantity.nanmin"]}
{"id": "C91", "title": "A dimensionality handed out is a snapshot", "statement": "Dimensionality objects are mutable, but nothing is shared through them: whatever a program does to a Dimensionality it got from a quantity, passed to one as units, or computed from others (d *= e, d /= e, d **= p, d[u] = p, d.clear(), d.update(e)), no quantity changes its value or units; whatever happens to quantities (units assigned, in-place arithmetic, fill, out=), no Dimensionality held by the program changes; every Dimensionality obtained is an object of its own. A program behaves as if dimensionalities were values. (Exception found: the simplified attribute of an empty Dimensionality is that object itself.)", "quantifier": "every program of commands on Dimensionality variables and quantities, of any length, with any magnitudes, units and world of units, on numpy 1 and 2", "why_tests_cant": "a test checks one sequence of operations; an object shared by mistake is only seen after the right edit through the right other reference, anywhere later in a program", "anchors": ["quantities/dimensionality.py: Dimensionality.__imul__, __itruediv__, __ipow__, copy, simplified", "quantities/quantity.py: Quantity.dimensionality, __new__, __array_finalize__, units.setter, rescale, fill, sum, validate_dimensionality", "quantities/uncertainquantity.py: UncertainQuantity.__new__"]}
{"id": "C92", "title": "Unit strings mean what they say", "statement": "Every string that writes a sensible arithmetic expression over registered unit names and decimal numbers (`*` or `\u00b7`, `/`, `**` or `^`, unary minus, parentheses, blanks, with Python's precedence and associativity) is accepted by the registry, and what it yields is what the expression says: the number it denotes, or a quantity whose numerical factor and unit exponents, and hence whose physical value under any assignment of sizes to units, are those of the expression. The layout (blanks, redundant parentheses, which of the operator spellings is used) does not matter. Given as the `units` argument, the string stands for the expression's exponents.", "quantifier": "all registries, all expressions of any size and nesting, all ways of writing them, all assignments of sizes to units", "why_tests_cant": "the strings and their nesting are unbounded; tests try a few dozen unit strings", "anchors": ["quantities/registry.py: __Registry.__getitem__, UnitRegistry.__getitem__", "quantities/quantity.py: validate_dimensionality"]}
{"id": "C93", "title": "The repr of a quantity is an expression for it", "statement": "The text `repr(q)` prints, magnitude `*` unit string, evaluates to a quantity with the magnitude and units of q; more generally a number written in front of any unit string with `*` multiplies the whole unit, however the unit string is built (quotients, parentheses, a leading 1/...), and the unit string of a dimensionality is an expression denoting the product of its units to their exponents.", "quantifier": "all registries, all dimensionalities with printable units, all unit strings, all magnitudes", "why_tests_cant": "the dimensionalities (number of units, exponents, signs) are unbounded; doctests show a few", "anchors": ["quantities/quantity.py: Quantity.__repr__", "quantities/unitquantity.py: UnitQuantity.__repr__", "quantities/markup.py: format_units", "quantities/registry.py"]}
{"id": "C94", "title": "Operators, comparisons and simplified are accurate under rounding", "statement": "With operations that round (relative error at most eps each), a+b and a-b are the exact physical sum and difference up to a counted number of rounding errors on each operand; a*b, a/b, a**p have one rounding error whatever the units; a<b, <=, >, >=, == tell the truth about the exact physical values except where these agree up to the rounding errors of the conversion; q.simplified is the exact value up to a counted number of errors and in default units only; rounding never decides whether a sum exists.", "quantifier": "all arithmetics with bounded relative error, all histories, all quantities and shapes", "why_tests_cant": "floating-point inputs and unit definitions are unbounded; a test checks a few conversions to a tolerance chosen by hand", "anchors": ["quantities/quantity.py: __add__, __sub__, __mul__, __truediv__, __pow__, __lt__, __eq__, simplified", "quantities/unitquantity.py: simplified"]}
{"id": "C95", "title": "The unit systems SI and cgs always work", "statement": "After import, and after any further definitions of units and changes of defaults, successful or not, set_default_units('SI') and set_default_units('cgs') raise nothing and make the base units of the system the defaults, changing nothing else; SI restores the defaults of the import. After any such history, simplified succeeds on every quantity in shipped units, keeps the physical value and returns units of the current defaults only (in cgs: cm, g, s, K, cd, mol and A, bit).", "quantifier": "every history of the process after import, every hash function, every shape and every product of powers of shipped units", "why_tests_cant": "the histories of default changes and the quantities are unbounded", "anchors": ["quantities/unitquantity.py:set_default_units", "quantities/unitquantity.py:IrreducibleUnit.set_default_unit", "quantities/unitquantity.py:IrreducibleUnit.simplified", "quantities/units/*"]}
{"id": "C96", "title": "Results written into an existing quantity (out=)", "statement": "q.sum(out=y), and likewise max, min, ptp, round, trace, mean, prod and cumsum with a quantity y as out, return y itself; y then has exactly the units and elements that the call without out would have returned. No other quantity changes its units, and none that shares no memory with y changes its elements. The call succeeds exactly when the call without out does and y is a writeable quantity of the result's shape (so not a unit, not a plain array), and a call that raises leaves everything unchanged.", "quantifier": "every state of memory reachable by any sequence of creations, views and in-place operations, every method and argument", "why_tests_cant": "the memory histories, shapes and aliasing patterns are unbounded", "anchors": ["quantities/quantity.py:Quantity.sum", "quantities/quantity.py:Quantity.max", "quantities/quantity.py:Quantity.mean", "quantities/quantity.py:Quantity.prod", "quantities/quantity.py:Quantity.cumsum", "quantities/quantity.py:Quantity.trace"]}
{"id": "C97", "title": "Building quantities: Quantity(data, units)", "statement": "Quantity(data, units) with numbers, arrays or nested lists has exactly the units asked for, the shape of the nested lists, and at every index the number found there; it succeeds exactly when the lists are regular and the units valid (irregular lists: ValueError). Quantity(q, units) for a quantity or unit q has the same physical values in the units asked for, or raises ValueError when they are incompatible; without units it is q. Entries of a list that are quantities keep their physical values, and Quantity(q.tolist(), q.units) is q.", "quantifier": "every depth and shape of nested lists, every quantity, unit and units argument, every history of unit definitions", "why_tests_cant": "nesting, shapes, units and numbers are unbounded", "anchors": ["quantities/quantity.py:Quantity.__new__", "quantities/quantity.py:validate_dimensionality", "quantities/quantity.py:Quantity.tolist"]}
{"id": "C98", "title": "Complex quantities", "statement": "For quantities with complex magnitudes, conversion keeps the complex physical value and succeeds exactly when the units are compatible; q.real and q.imag are the parts of the physical value in the units of q, and both commute with conversion and addition; + and - add and subtract physical values (compatible units and broadcasting shapes exactly, otherwise ValueError), * and / multiply and divide them with the exponents of the units added and subtracted; conjugate and abs give the conjugate and the modulus of the physical value in the units of q; == compares physical values.", "quantifier": "every complex array of every shape, every product of powers of units, every history of unit definitions", "why_tests_cant": "numbers, shapes, units and histories are unbounded", "anchors": ["quantities/quantity.py:Quantity.real", "quantities/quantity.py:Quantity.imag", "quantities/quantity.py:Quantity.rescale", "quantities/quantity.py:Quantity.__add__", "quantities/dimensionality.py:p_dict"]}
{"id": "C99", "title": "Assigning the real or imaginary part", "statement": "q.real = x keeps the units and the imaginary part of q and makes its real part the physical value of x, broadcast to the shape of q; likewise q.imag = x. Plain numbers are taken in the units of q. If the units of x are incompatible with those of q, or x does not broadcast, ValueError is raised and q is unchanged.", "quantifier": "every complex q, every x, every history of unit definitions", "why_tests_cant": "numbers, shapes, units and histories are unbounded", "anchors": ["quantities/quantity.py:Quantity.real", "quantities/quantity.py:Quantity.imag"]}
{"id": "C100", "title": "Programs cannot tell the units of their inputs", "statement": "Take any program made of assignments, branches and loops over expressions built from variables, quantities, plain numbers, + - * / %, powers, neg, abs, sum, mean, max, min, ptp, std, cumsum, item access and rescale, with conditions built from comparisons of quantities. Run it twice from inputs that are the same physical quantities in different units: both runs take the same branches and the same number of iterations, raise the same exception or end with variables that are the same physical quantities; what is printed after a final rescale to given units is the same array of numbers.", "quantifier": "every program of the language, every environment, every pair of units for each input, every number of iterations, every history of unit definitions", "why_tests_cant": "programs, inputs, units and numbers of iterations are unbounded", "anchors": ["quantities/quantity.py:Quantity", "quantities/dimensionality.py:p_dict"]}
{"id": "C101", "title": "Units checked in advance", "statement": "If the variables of such a program are declared with dimensions, every sum, difference, remainder, conversion, assignment and comparison is between units of the same dimension (products, quotients and powers combine dimensions), then the program behaves exactly like the same program on bare numbers in any one coherent system of units: same branches, same iterations, same values, same exceptions (none because of units), and the declarations hold at the end. Computing the bare numbers in another coherent system changes the number of a term only by the ratio of the units of its dimension.", "quantifier": "every program whose units check, every environment that meets the declarations, every coherent system of units, every number of iterations, every history of unit definitions", "why_tests_cant": "programs, inputs, systems of units and numbers of iterations are unbounded", "anchors": ["quantities/quantity.py:Quantity", "quantities/dimensionality.py:p_dict", "quantities/quantity.py:Quantity.rescale"]}
{"id": "C102", "title": "Copies of a unit are interchangeable", "statement": "unit.copy() of a unit other than dimensionless whose constructor returned raises nothing at any later time, compares equal to the original, has its hash, and changes no registry lookup and no default unit. Exchanging units in quantities by copies (or by any other objects of the same class and name with the same meaning) changes no result of rescale, + - * / **, comparisons and simplified: same exception, or same numbers with units of the same classes and names.", "quantifier": "every history of unit constructions, copies and changes of default units in which no class and name gets a second meaning; every quantity and every choice of copies in it", "why_tests_cant": "histories, the number of copies and the quantities are unbounded", "anchors": ["quantities/unitquantity.py:UnitQuantity.copy", "quantities/unitquantity.py:UnitQuantity.__hash__", "quantities/registry.py:UnitRegistry", "quantities/dimensionality.py:Dimensionality"]}
{"id": "C103", "title": "Units that compare equal convert alike", "statement": "Two unit objects that compare equal have the same conversion factors to and from every unit.", "quantifier": "every history of unit constructions, copies and changes of default units; every pair of units that compare equal; every third unit", "why_tests_cant": "histories and units are unbounded", "anchors": ["quantities/unitquantity.py:UnitQuantity.__init__", "quantities/registry.py:UnitRegistry.__setitem__", "quantities/quantity.py:get_conversion_factor", "quantities/quantity.py:Quantity.__eq__"]}
{"id": "C104", "title": "Every unit can be copied, and copies print like the original", "statement": "unit.copy() works for every unit, and replacing a unit by its copy does not change how a quantity is printed.", "quantifier": "every history, every unit", "why_tests_cant": "histories and units are unbounded", "anchors": ["quantities/unitquantity.py:UnitQuantity.copy", "quantities/unitquantity.py:Dimensionless.__init__", "quantities/markup.py:format_units"]}
{"id": "C105", "title": "format() of a quantity shows the units", "statement": "format(q), which is what an f-string shows, is str(q) for scalars and arrays, in plain and Unicode mode. With a format specification a scalar shows its number in that format followed by the units that str(q) shows; if the number refuses the specification the same exception is raised; an array refuses any specification with TypeError.", "quantifier": "every quantity, every format specification, both settings of use_unicode, every set of units", "why_tests_cant": "values, shapes, specifications and units are unbounded", "anchors": ["quantities/quantity.py:Quantity.__format__", "quantities/quantity.py:Quantity.__str__", "quantities/dimensionality.py:Dimensionality.__str__"]}
{"id": "C106", "title": "format() shows everything str() shows", "statement": "format(x) is str(x) for units and uncertain quantities too.", "quantifier": "every unit and every uncertain quantity", "why_tests_cant": "units, values and uncertainties are unbounded", "anchors": ["quantities/quantity.py:Quantity.__format__", "quantities/unitquantity.py:UnitQuantity.__str__", "quantities/uncertainquantity.py:UncertainQuantity.__str__"]}
{"id": "C107", "title": "What is printed determines the quantity", "statement": "Two quantities with the same str, or with the same repr, have the same units with the same exponents and the same printed numbers, in both modes; two uncertain quantities also have the same printed uncertainties; two dimensionalities with the same repr have the same units and exponents.", "quantifier": "every pair of quantities, uncertain quantities and dimensionalities, both settings of use_unicode", "why_tests_cant": "pairs of quantities and units are unbounded", "anchors": ["quantities/quantity.py:Quantity.__str__", "quantities/quantity.py:Quantity.__repr__", "quantities/uncertainquantity.py:UncertainQuantity.__str__", "quantities/uncertainquantity.py:UncertainQuantity.__repr__", "quantities/dimensionality.py:Dimensionality.__repr__", "quantities/markup.py:format_units_unicode"]}
{"id": "C108", "title": "What is printed determines the unit", "statement": "Two registered units with the same str are the same unit; two units with the same repr have the same class and name, so they are the same unit, registered or not.", "quantifier": "every pair of units with names without parentheses, quotes and blanks (compound units: any name, plain mode), whatever their definitions and symbols, both settings of use_unicode", "why_tests_cant": "units, names, symbols and definitions are unbounded", "anchors": ["quantities/unitquantity.py:UnitQuantity.__repr__", "quantities/unitquantity.py:UnitQuantity.__str__", "quantities/unitquantity.py:CompoundUnit.__repr__"]}
{"id": "C109", "title": "An operation that raises changes nothing", "statement": "If an operation on arrays, quantities or uncertain quantities other than put (construction, views, item assignment, fill, in-place operators, **=, units = ..., uncertainty = ..., out=) raises an exception, then every existing array has the elements and units it had before, and every uncertain quantity its uncertainty.", "quantifier": "every reachable state of memory (any sequence of operations, any views and aliases), every operation and operands, both numpy behaviours", "why_tests_cant": "exception safety is a statement about all states and all ways to fail; tests check that something raises, rarely that nothing changed, and never for all aliases", "anchors": ["quantities/quantity.py: Quantity.__setitem__, fill, __iadd__, __ipow__, units", "quantities/uncertainquantity.py: UncertainQuantity.set_uncertainty"]}
{"id": "C110", "title": "A put that raises changes nothing", "statement": "If q.put(indices, values) raises an exception, q has the elements and units it had before.", "quantifier": "every reachable state of memory, every list of indices and values", "why_tests_cant": "index lists are unbounded, and q may be shared by any number of views", "anchors": ["quantities/quantity.py: Quantity.put"]}
{"id": "C111", "title": "Sums, means and products in rounded arithmetic", "statement": "In floating point q.sum(axis) and q.mean(axis) keep the units of q, and their physical value differs from the exact sum or mean of the physical values by at most what one rounding error per number added (one more for the mean's division) makes of the sum or mean of the absolute values, whatever order numpy adds in; converting the units before or after the sum only adds the errors of the conversion. q.prod(axis) raises the units to the number of factors, and its physical value is the exact product up to one relative rounding error per factor.", "quantifier": "every rounded arithmetic with bounded relative error, every quantity of any shape, every axis argument, every order and association of the additions or multiplications, every assignment of sizes to units", "why_tests_cant": "the result depends on rounding, on the length of the array and on the order in which numpy adds; tests compare with a tolerance on a few small arrays", "anchors": ["quantities/quantity.py: Quantity.sum, mean, prod, rescale"]}
{"id": "C112", "title": "Threads that share quantities", "statement": "When several threads call methods of shared quantities (conversions, arithmetic, comparisons, in-place operators, the units setter, item assignment) and no thread changes a quantity that another thread mentions, then whatever the schedule each thread gets the results it would get alone, leaves the quantities it works on as it would leave them alone, finishes once it has had enough turns, and quantities nobody changes stay as they are.", "quantifier": "every number of threads, every program of calls that depends on earlier results, every schedule that switches threads between any two loads or stores, numpy before and after 2.0", "why_tests_cant": "a race needs a thread switch between two particular loads, which a test does not control", "anchors": ["quantities/quantity.py: Quantity.units, rescale, __iadd__, __imul__, __setitem__, scale_other_units, wrap_comparison"]}
{"id": "C113", "title": "Interrupted operations", "statement": "A call that is stopped between any two loads or stores (KeyboardInterrupt, a killed loop) leaves every quantity it does not work on in place unchanged; if it is not an in-place operation it has changed nothing; x += y, x -= y, x %= y and x[key] = y leave units and shape alone and every element has its old value or its final value.", "quantifier": "every call, every program, every point at which it can be stopped, every state of the shared quantities", "why_tests_cant": "the number of points at which a call can be stopped grows with the size of the arrays, and tests do not stop calls", "anchors": ["quantities/quantity.py: Quantity.units, __iadd__, __isub__, __imod__, __imul__, __setitem__"]}
{"id": "C114", "title": "Races on one quantity", "statement": "A thread that reads a quantity while another thread converts it in place gets its old or its new value, and concurrent conversions to the same units leave its value unchanged. (This fails: q.rescale('km') running while another thread executes q.units = 'km' returns 0.001 km for 1000 m, and two threads executing q.units = 'km' leave 0.001 km.)", "quantifier": "every schedule of a thread that converts a quantity in place and threads that use it", "why_tests_cant": "a race needs a thread switch between two particular loads, which a test does not control", "anchors": ["quantities/quantity.py: Quantity.units, rescale"]}
{"id": "C115", "title": "Interrupted unit changes", "statement": "q.units = u and, before numpy 2, q *= y stopped between any two loads or stores leave q with its old or its new physical value. (This fails: stopped after the multiplication and before the relabelling q.units = 'km' leaves 1 m for 1000 m; before numpy 2, q *= 2 s stopped before the multiplication leaves 1000 m s. What does hold at every point: the setter is complete, or q has its old units and every element is the old or the converted number; nothing else changes.)", "quantifier": "every point at which the call can be stopped, every quantity and every target units", "why_tests_cant": "tests do not stop calls", "anchors": ["quantities/quantity.py: Quantity.units, __imul__, __array_prepare__"]}
{"id": "C116", "title": "Uncertain expressions do not depend on the units of the inputs", "statement": "An expression built from +, -, *, / on uncertain quantities, *, / and reflected *, -, / with an exact operand, powers, sqrt, items, sum, mean, max, min and rescale, evaluated on the same measurements written in other compatible units, returns a measurement with the same physical value and the same physical uncertainty or raises the same exception; reported with rescale(u) the magnitudes and the uncertainties are the same numbers. (Provided the units compared do not collide in the hash, powers are taken literally and an exact numerator is not divided by zero.)", "quantifier": "every expression, every assignment of measurements to its variables, every choice of compatible units for each of them, every shape", "why_tests_cant": "a test evaluates one expression in one pair of units; the claim is about all expressions and all units", "anchors": ["quantities/uncertainquantity.py: UncertainQuantity", "quantities/quantity.py: Quantity.rescale, scale_other_units"]}
{"id": "C117", "title": "Programs with views and in-place operations do not depend on the units of the inputs", "statement": "Run the same program - creating quantities, views, copies, items, assigning items, put, fill with a quantity, in-place operators, units setter, out= - on two states with the same arrays in which corresponding quantities have the same physical value in other compatible units. Every command returns the same object or raises the same exception in both runs, and at the end corresponding quantities again have the same physical values, so that rescaled to any units they show the same numbers. Excluded: .magnitude, plain arrays as operands, fill with a bare number, //=, units changes of an array other quantities share, and (numpy 2) in-place operations that should change the units. It fails for view *= k when k is a ratio of units such as km/m: whether the operation raises depends on whether k's units are literally empty.", "quantifier": "every program (any number of commands), every pair of physically equal initial states, every sharing of memory between the quantities, numpy 1 and 2", "why_tests_cant": "a test runs one program in one choice of units; the claim is about all programs, all memory layouts and all choices of units", "anchors": ["quantities/quantity.py: Quantity.units (setter), __setitem__, put, fill, __iadd__, __isub__, __imul__, __itruediv__, __ipow__, __imod__, copy, __getitem__, __array_prepare__", "quantities/decorators.py: protected_multiplication, check_uniform"]}
{"id": "C118", "title": "Uncertain expressions are computed by propagating variances", "statement": "If the units of an expression built from uncertain and exact quantities check in advance (sums and differences of units of one kind, rescale to units of the same kind), then evaluating it with the library gives units of the announced kind, and the values and variances (squares of the uncertainties) are, in any coherent system of units, those that the textbook rules for independent measurements give on bare numbers: variances add in sums, differences and totals, relative variances add in products and quotients, powers scale the variance by the squared derivative, averages divide the total variance by n squared. It raises exactly the exceptions the computation on bare numbers raises (broadcasting, axis, index), never one about units. Factors of uncertain products and quotients must be non-zero, powers need positive bases (or non-zero ones and an integer exponent), extrema are over the whole array.", "quantifier": "every expression (any depth and size), every shape, every choice of compatible units for the variables, every coherent system of units", "why_tests_cant": "a test evaluates a few expressions on a few numbers; the claim is about all expressions, units and values", "anchors": ["quantities/uncertainquantity.py: UncertainQuantity.__add__, __sub__, __mul__, __truediv__, __pow__, __neg__, sqrt, sum, mean, max, min, __getitem__, rescale, __rsub__, __rmul__, __rtruediv__", "quantities/quantity.py: Quantity.__array_prepare__"]}
{"id": "C119", "title": "Law of propagation of uncertainty", "statement": "If no measured number enters an element of the result of an expression twice and no extremum is taken, the uncertainty the library reports for that element is the standard first-order one: with f the function of all measured numbers that the expression computes for the element, sigma^2 is the sum over the measured numbers x_k of (df/dx_k)^2 sigma_k^2, with the partial derivatives of real analysis taken at the measured values; and the reported value is f of the measured values. All in any one coherent system of units. Same regularity conditions as C118.", "quantifier": "every expression (any depth and size) over uncertain arrays of any shape and exact operands, every choice of compatible units, every element of the result", "why_tests_cant": "the claim relates the result to the derivative of an arbitrary expression; tests compare a few formulas with hand-computed numbers", "anchors": ["quantities/uncertainquantity.py: UncertainQuantity.__add__, __sub__, __mul__, __truediv__, __pow__, __neg__, sqrt, sum, mean, __getitem__, rescale, __rsub__, __rmul__, __rtruediv__"]}
{"id": "C120", "title": "The law of propagation holds when a measured number occurs more than once", "statement": "The uncertainty reported for an expression is the one propagated through the function it computes even if a measured quantity occurs several times in it: x - x is exact, and x * x has the same uncertainty as x ** 2. This is false of the code, which treats each occurrence as an independent measurement: for every x, x - x is reported with the uncertainty sqrt(2) sigma, and the variance reported for x * x is half of that of x ** 2.", "quantifier": "every expression and every uncertain quantity", "why_tests_cant": "tests combine different variables; the failure concerns every uncertain quantity used twice", "anchors": ["quantities/uncertainquantity.py: UncertainQuantity.__add__, __sub__, __mul__, __truediv__, __pow__, __neg__, sqrt, sum, mean, __getitem__, rescale, __rsub__, __rmul__, __rtruediv__"]}
{"id": "C121", "title": "Units can be checked without the numbers", "statement": "Whether an expression raises, which exception it raises, and the units and shape of its result (for an uncertain quantity: of its value and of its uncertainty) depend only on the units and shapes of the variables, never on the numbers: evaluating it with any other numbers of the same shapes and units ends in the same way. The same holds for comparisons of such expressions (same exception, or a truth array of the same shape).", "quantifier": "every expression (operators with quantities and plain numbers, powers, unary operators, reductions, items, rescale; the same with uncertain quantities), every registry and history of it, all numbers", "why_tests_cant": "a test uses particular numbers; the claim is that no other numbers could have behaved differently", "anchors": ["quantities/quantity.py: Quantity.__add__, __sub__, __mul__, __truediv__, __mod__, __pow__, __radd__, __rsub__, __rmul__, __rtruediv__, rescale, scale_other_units, wrap_comparison, __eq__, __ne__, sum, mean, max, min, ptp, std, cumsum, __getitem__", "quantities/uncertainquantity.py: UncertainQuantity"]}
{"id": "C122", "title": "Numpy functions accept or refuse their arguments independently of the numbers", "statement": "The units of the result of a numpy function, and whether it raises, depend only on the units and shapes of its arguments. True for functions of one or two quantities. False when one argument is a plain array: np.add(q, a), for q with units, accepts a exactly if all its elements are zero.", "quantifier": "every unary and binary numpy function with a dimensionality rule, all quantities and arrays", "why_tests_cant": "tests pass particular arrays; acceptance hinges on the values of the plain array", "anchors": ["quantities/dimensionality.py: _d_check_uniform, p_dict", "quantities/quantity.py: Quantity.__array_prepare__"]}
{"id": "C123", "title": "argmax and argmin name the first extreme element, and max and min return it", "statement": "q.argmax() is the row-major number of the first largest element of q, q.argmax(axis) gives on every line along the axis the position of its first largest element, and q.max() / q.max(axis) are those very elements, in the units of q; likewise argmin and min. Without elements both raise ValueError.", "quantifier": "every quantity of every shape and units, every axis (negative ones count from the end)", "why_tests_cant": "ties, negative axes and arbitrary shapes: tests fix a few arrays", "anchors": ["quantities/quantity.py: Quantity.argmax, argmin, max, min"]}
{"id": "C124", "title": "Positions of the extreme measurements of an uncertain quantity", "statement": "For an uncertain quantity, argmax, argmin, nanargmax and nanargmin (with the axis argument they document) are the positions of the first extreme measurement, and max, min, nanmax, nanmin are the measurements at these positions with their uncertainties. True without an axis; false with an axis: it is ignored, one number comes back instead of one per line.", "quantifier": "every uncertain quantity, with and without missing values", "why_tests_cant": "tests use one array; the claim is about every shape, tie and pattern of missing values", "anchors": ["quantities/uncertainquantity.py: UncertainQuantity.argmax, argmin, nanargmax, nanargmin, max, min, nanmax, nanmin"]}
{"id": "C125", "title": "A compound unit is worth the expression it is named after", "statement": "CompoundUnit(text), for a text that writes a unit expression with a positive numerical factor, raises nothing, registers no label, changes no other unit and no default, and makes a unit whose physical size is the value of the expression: it converts to and from the units of the expression by the numerical factor. Creating or copying it again later changes nothing. If the text cannot be read the exception of the lookup comes out and nothing has changed. A printed dimensionality with compound units, '(text)', reads back to a quantity of the same physical value.", "quantifier": "every text (layout, blanks, parentheses, decimals, powers), every expression, every registry reachable by any history, every later history, every magnitude, every printed dimensionality with faithfully printed exponents", "why_tests_cant": "the set of expressions and histories is infinite; tests create one or two compound units", "anchors": ["quantities/unitquantity.py: CompoundUnit.__new__, __init__, name, copy", "quantities/registry.py: UnitRegistry.__getitem__", "quantities/markup.py: format_units"]}
{"id": "C126", "title": "Unit algebra with Python numbers as exponents", "statement": "Exponents are Python ints and floats. An expression of products, quotients and powers with integer powers has exactly the mathematical exponents, no cancelled unit and no unit twice, however large the integers; so has one with float powers if every exponent on the way is representable as a double. In general each operation gives each unit the exact exponent or the double nearest to it, of two equally near ones the even one (off by at most one part in 2**53 unless tiny). d/d is dimensionless and a*b has the content of b*a whatever was rounded; (d**0.5)**2 has the content of d for integer exponents up to 2**53; == ignores insertion order, and is that of exact exponents when 1 can be subtracted from the negative exponents without rounding.", "quantifier": "every expression tree, every integer or double exponent, every pair of dimensionalities, every hash function and numbering of units", "why_tests_cant": "the set of doubles and of expressions is too large to try; tests use small integers and 0.5", "anchors": ["quantities/dimensionality.py: Dimensionality.__mul__, __truediv__, __pow__, __hash__, __eq__, __add__"]}
{"id": "C127", "title": "Float exponents obey the laws of exponents", "statement": "For float powers, d**a * d**b equals d**(a+b), (d**a)**b equals d**(a*b), equal dimensionalities have equal inverses and vice versa, and no unit with exponent 0 lingers.", "quantifier": "every dimensionality and every pair of float exponents", "why_tests_cant": "most pairs of small fractions work; the failures are scattered", "anchors": ["quantities/dimensionality.py: Dimensionality.__mul__, __truediv__, __pow__, __hash__, __eq__, __add__"]}
{"id": "C128", "title": "Operations on arrays of different shapes, element by element", "statement": "Two shapes can be broadcast when, counting axes from the last, their lengths agree or one of them is 1 or absent. a+b and a-b return exactly when the units are compatible and the shapes can be broadcast; a*b, a/b and comparisons of compatible quantities exactly when the shapes can be broadcast. The result then has the broadcast shape, and the element at every place has the physical value (truth value) of the operation on the one element of a and the one of b that lie under that place.", "quantifier": "every pair of shapes of any rank and size, every pair of quantities, every assignment of sizes to the base units", "why_tests_cant": "shapes are unbounded in rank and size; tests try a scalar and two equal vectors", "anchors": ["quantities/quantity.py: Quantity.__array_prepare__, __add__, __sub__, __mul__, __truediv__, __lt__, __eq__", "quantities/dimensionality.py: _d_multiply, _d_divide, _d_check_uniform"]}
{"id": "C129", "title": "Reductions along any set of axes", "statement": "sum, mean, max, min, ptp, var and std with axis=None, an integer or a tuple of integers: the axis argument is accepted exactly when it names distinct existing axes (negative ones counted from the end); the result has the shape left when those axes are removed, and the element at each place is the sum, mean, largest, smallest, range, variance or deviation of the elements of the array whose other coordinates are those of that place, in the proper unit; max, min and ptp raise ValueError when there is nothing to combine; cumsum gives at each place the total of the elements up to it (on its line, or in row-major order without an axis), and trace the totals of the diagonals of the plane of two distinct axes.", "quantifier": "every array of any rank, every axis argument, every unit, every assignment of sizes to the base units, every ddof", "why_tests_cant": "arrays and axis tuples are unbounded; tests reduce one or two small matrices", "anchors": ["quantities/quantity.py: Quantity.sum, mean, max, min, ptp, var, std, cumsum, trace"]}
{"id": "C130", "title": "Subscripts select the elements the rules of Python say", "statement": "q[k1, k2, ...] with integers, slices (any start, stop, step, negative or omitted), '...' and newaxis returns exactly when there is at most one '...', there are enough axes, the integers are in range and no step is 0, and raises IndexError otherwise, or ValueError for a step of 0; the result has the units of q and at every place the element the rules of subscripts say. Integer arrays select the sub-arrays named, masks the elements where they are true; q[q > b] keeps exactly the elements physically greater than the scalar b, whatever the units of b. q[...] = x and q[mask] = x change exactly the selected places, to the physical value of x. All such subscripts are of the kind the properties of views (C29, C53, C70, C117) and item assignment (C31) ask for.", "quantifier": "every tuple of subscripts, every slice, every mask and integer array, every shape, every quantity and scalar in compatible units", "why_tests_cant": "slices, shapes and masks are unbounded; tests index short vectors", "anchors": ["quantities/quantity.py: Quantity.__getitem__, __setitem__"]}
{"id": "C131", "title": "Differences, integrals, slopes and cross products follow the textbook formulas on physical values", "statement": "diff(q, m, axis) has the units of q and at every place the m-th finite difference (alternating binomial sum) of the physical values along the axis, for every order and axis; ediff1d the differences of neighbours in row-major order with the given values around them; cross the cross product of the physical vectors over broadcast axes, with the units multiplied; trapz the area by the trapezoidal rule over the sample points or the spacing, with the units multiplied; gradient, at every place and for every axis, the slope of the line through the two outermost points at the ends and of the parabola through three neighbours inside, with respect to the physical coordinates the distance argument stands for. Bad orders and axes are refused with ValueError.", "quantifier": "every order, axis, shape, units, spacing and set of sample points, and every quantity", "why_tests_cant": "shapes, orders and values are unbounded; tests evaluate a few short vectors", "anchors": ["quantities/umath.py: diff, ediff1d, gradient, cross, trapz"]}
{"id": "C132", "title": "nonzero and argsort return the right positions", "statement": "q.nonzero() lists in row-major order, each once, exactly the places where the physical value is not zero. q.argsort(axis) with any correct comparison sort returns, along every line, a permutation of the positions that puts the physical values in ascending order; with axis=None the row-major numbers of all elements in ascending order.", "quantifier": "every quantity, shape, axis, unit and every correct comparison sort", "why_tests_cant": "arrays are unbounded and the sort is a parameter", "anchors": ["quantities/quantity.py: Quantity.nonzero, Quantity.argsort"]}
{"id": "C133", "title": "Unary operators, reflected powers and truth values act on physical values", "statement": "-q and abs(q) always return, keep units and shape and negate or take the absolute value of every physical element; -(-q) is q; a - b is a + (-b), units, elements and exceptions included; x ** q with a plain base returns exactly when the exponent has no units, is one and the same number throughout and broadcasts with the base, gives the powers without units, and otherwise raises ValueError; bool(q) of one element says whether its physical value is nonzero and of several raises ValueError.", "quantifier": "every quantity, shape, unit, base and exponent", "why_tests_cant": "arrays, units and values are unbounded", "anchors": ["quantities/quantity.py: Quantity.__neg__, __abs__ (ndarray), __sub__, __rpow__, __bool__ (ndarray)", "quantities/dimensionality.py: _d_copy, _d_check_uniform"]}
{"id": "C134", "title": "Operators of plain numbers work on quantities too", "statement": "+q returns q, divmod(a, b) returns (a // b, a % b), x ** q works for exponents that differ, and float(q) depends only on the physical value.", "quantifier": "every quantity and operand", "why_tests_cant": "arrays, units and values are unbounded", "anchors": ["quantities/dimensionality.py: p_dict", "quantities/quantity.py: Quantity.__array_prepare__, __rpow__"]}
{"id": "C135", "title": "Units are printed class by class in the documented order, older units first", "statement": "In all four printed forms (plain, Unicode, HTML, LaTeX) the units above and below the line appear in a fixed total order: constants, mass, length, time, current, luminous intensity, substance, temperature, information, currency, other units, compound units, dimensionless units; within a class the unit created first comes first. Of two different units exactly one is printed before the other, whatever they are combined with.", "quantifier": "every history of unit creations and default changes (successful or failing), and every dimensionality with plain symbols and faithfully printed integer exponents", "why_tests_cant": "histories and dimensionalities are unbounded; the order is the outcome of counters kept on classes across all constructor calls", "anchors": ["quantities/unitquantity.py: UnitQuantity.__new__, _primary_order, _secondary_order, format_order", "quantities/markup.py: format_units, format_units_unicode, format_units_html, format_units_latex"]}
{"id": "C136", "title": "The square root of a measurement", "statement": "x.sqrt() of an uncertain quantity always returns, keeps the shape, halves the exponents of the units; where the value is positive the result squared is the value and the uncertainty s of the result satisfies 2 * result * s = uncertainty of x.", "quantifier": "every uncertain quantity that programs can build, every shape, unit and system of unit sizes", "why_tests_cant": "values, units and shapes are unbounded", "anchors": ["quantities/uncertainquantity.py: UncertainQuantity.sqrt, __pow__"]}
{"id": "C137", "title": "Uncertain quantities can be copied, given new units in place and summed with pq.nansum like other quantities", "statement": "UncertainQuantity(x) copies x; x.units = d converts value and uncertainty in place; pq.nansum(x) gives what x.nansum() gives.", "quantifier": "every uncertain quantity and compatible units", "why_tests_cant": "values, units and shapes are unbounded", "anchors": ["quantities/uncertainquantity.py: UncertainQuantity.__new__, units, nansum", "quantities/umath.py: nansum"]}
{"id": "C138", "title": "Reductions that skip nan, element by element", "statement": "q.nansum(axis), q.nanmean(axis) and q.nanstd(axis, ddof=n) return exactly when axis names distinct axes (None, an axis also counted from the end, a tuple); the result keeps the units and has the shape without those axes; each element is the sum, the mean, the deviation of the physical values, nans left out, of the elements it combines; where nothing is left the sum is 0 and the others are nan.", "quantifier": "every array with nans, every axis argument, every ddof >= 0, every unit and system of unit sizes", "why_tests_cant": "shapes, axes, positions of nans and units are unbounded", "anchors": ["quantities/quantity.py: nansum, nanmean, nanstd"]}
{"id": "C139", "title": "Infinities and nan have units too", "statement": "With infinite and nan elements, rescale still returns exactly when the units are compatible and keeps every physical value: finite elements stay finite, infinite ones infinite with their sign, nan stays nan. a + b and a - b (compatible units, broadcasting shapes), a * b and a / b (broadcasting shapes) are numpy's operations on the physical values (inf - inf, inf * 0, 0 / 0, inf / inf are nan, x / 0 infinite); orderings with nan are False; q == q is False and q != q True exactly where q is nan; sums are nan if nan or both infinities occur and infinite if one infinity does. No exception depends on the elements.", "quantifier": "every array of finite numbers, infinities and nans, every shape, axis, unit and system of unit sizes", "why_tests_cant": "arrays, units and positions of special values are unbounded", "anchors": ["quantities/quantity.py: rescale, __add__, __sub__, __mul__, __truediv__, __eq__, __ne__, __lt__, __le__, __gt__, __ge__, sum"]}
{"id": "C140", "title": "Prefixes are powers of ten", "statement": "A shipped unit whose name is an SI or binary prefix followed by the name of another shipped unit is exactly that power of ten (or of two) times the other, for every name, plural and alias (kilometers/meters, millisecond/second, kibibytes/bytes\u2026); rescaling multiplies by it.", "quantifier": "every pair of registered names, every array", "why_tests_cant": "all 346 units with all their names, every array and every consistent assignment of unit sizes", "anchors": ["quantities/units/*.py", "quantities/unitquantity.py: UnitQuantity.__new__", "quantities/quantity.py: rescale"]}
{"id": "C141", "title": "Units have their standard sizes", "statement": "Each of about 175 common units (minute, inch, mile, acre, gallon, pound, newton, calorie, BTU, horsepower, psi, tesla, oersted, degree, knot, Fahrenheit degree, byte, curie\u2026) has exactly its standard definition in terms of other units, so that rescaling multiplies by the standard factor; temperatures convert as differences.", "quantifier": "every definition in the list, every array", "why_tests_cant": "every array, hash function and consistent assignment of unit sizes", "anchors": ["quantities/units/*.py", "quantities/quantity.py: rescale"]}
{"id": "C142", "title": "Symbols mean what they abbreviate", "statement": "Each of about 170 standard symbols (m, km, kg, Pa, kPa, MHz, KiB, degC, mol\u2026) is bound in the registry to the same unit as the name it abbreviates.", "quantifier": "every symbol in the list", "why_tests_cant": "the registry is built by the import of all unit modules, in any hash order", "anchors": ["quantities/units/*.py", "quantities/registry.py", "quantities/unitquantity.py: UnitQuantity.__new__"]}
{"id": "C143", "title": "Uncertainties never change the nominal result", "statement": "Attaching an uncertainty to an operand never changes what is computed: whenever x op y (+, -, *, /, %, // and powers) returns with uncertain operands, the same operator on the values alone returns too, and the two results are the same physical value, element by element.", "quantifier": "every binary operator, every pair of operands (unit, quantity, uncertain quantity, number, array) of compatible or incompatible units, every array shape, every reachable unit registry", "why_tests_cant": "the uncertain classes override some operators and inherit others, with reflected forms that compute the value by another route (1/y times x); all operand class pairs and arrays must agree", "anchors": ["quantities/uncertainquantity.py: __add__, __radd__, __sub__, __rsub__, __mul__, __truediv__, __rtruediv__, __pow__", "quantities/quantity.py: __mod__, __floordiv__, __array_prepare__"]}
{"id": "C144", "title": "Physical constants have their accepted values and obey the laws relating them", "statement": "The constants module ships the accepted values: 305 laws (SI Brochure 2019 and CODATA 2018 values; relations such as R = N_A k, alpha = e^2/(4 pi eps0 hbar c), Compton wavelengths, mass ratios, atomic and natural units) hold of the shipped constants within a stated relative tolerance, with exactly the right dimensions, whatever sizes are given to the base units; so rescaling a constant to SI units gives the accepted value. Every constant with a positive value but the golden ratio is covered.", "quantifier": "every law of the list, every assignment of sizes to the base units, every hash function, every array rescaled from a constant to its unit", "why_tests_cant": "a test compares the magnitude of one constant with a literal; that the whole table is dimensionally and numerically coherent through chains of definitions needs the definitions of all the units involved", "anchors": ["quantities/constants/*.py", "quantities/constants/_codata.py: physical_constants", "quantities/constants/_utils.py: _cd", "quantities/units/*.py"]}
{"id": "C145", "title": "A new array object shows the right values and shares memory exactly as documented", "statement": "Creating a quantity from data, a unit, copying, taking one element, Quantity(unit) and Quantity(q, units) give an object with the right units and values that is independent: nothing done to other objects is ever seen in it, nothing done to it is ever seen in them. q.magnitude, slices, transposes and reshapes, squeeze and real, Quantity(array, units) and Quantity(q) give an object with the right type, units and shape that is a window: after any later program it shows what the original shows at the selected places. No creation changes any existing object.", "quantifier": "every reachable state of memory (any aliasing), both numpy versions, every array, key and units argument, every later sequence of commands", "why_tests_cant": "sharing shows only through later writes to any of the objects involved; all histories before and after the creation count", "anchors": ["quantities/quantity.py: Quantity.__new__, magnitude, real, squeeze, __getitem__, copy, __array_finalize__", "quantities/unitquantity.py: UnitQuantity"]}
{"id": "C146", "title": "Python's built-in functions work physically on sequences of quantities", "statement": "For a sequence of units and quantities of single values, max and min return the first element with the greatest or least physical value and sorted returns the elements in ascending order of physical value, equal ones in the order they came; all three return exactly when any two elements have compatible units and raise ValueError otherwise (sorted even though it does not compare all pairs). x in xs, xs.index(x) and xs.count(x) never raise because of units and find exactly the elements whose units are compatible and whose physical value is equal. sum(xs, start) returns exactly when all units are compatible with those of start and the shapes broadcast, and is the sum of the physical values in the units of start.", "quantifier": "every reachable registry of units, sequence of any length mixing units, quantities and uncertain quantities in any units, every correct comparison sort, every start", "why_tests_cant": "all lengths, orders and mixtures of units count, and every comparison a sorting algorithm may choose to make", "anchors": ["quantities/quantity.py: Quantity.__add__, __radd__, __lt__, __gt__, __eq__, scale_other_units", "quantities/unitquantity.py: UnitQuantity.__add__, __radd__"]}
{"id": "C147", "title": "A new unit means what it was defined to mean", "statement": "A unit created as x times d (the definition being the quantity of magnitude x in units d, or the number x, d then being dimensionless) is, ever after and in whatever other units are created or default units chosen, x times as big as d, and converting it to d gives x. A unit created without a definition (and not a name for 1) is ever after compatible with no combination of the units that existed before: converting it to any of them raises ValueError. A string of digits is not accepted as units (AttributeError), so that numbers do not become units by mistake.", "quantifier": "every reachable registry of units, every new unit of any class and definition, every later history, every compound unit of the earlier units, every natural number written in decimal", "why_tests_cant": "all definitions and all later histories count", "anchors": ["quantities/unitquantity.py: UnitQuantity.__new__, __init__, _reference", "quantities/registry.py: UnitRegistry.__getitem__", "quantities/dimensionality.py / quantities/quantity.py: validate_dimensionality, rescale"]}
{"id": "C148", "title": "Rearranging or selecting elements keeps every quantity", "statement": "reshape, flatten/ravel, transpose/.T (with or without axes), swapaxes, repeat, take, compress and diagonal give a quantity with the units of the original, whose elements are exactly those of the original that the method's definition names (row-major order kept by reshape and flatten; axes permuted; each element repeated k times; the positions taken or marked; the diagonal of a plane), of the right shape; they raise ValueError for shapes with another number of elements (or an undetermined -1) and axes that do not exist or are named twice, IndexError for positions out of range. Doing any of them before or after converting units gives the same. sort puts the elements of every line along the axis in ascending order of physical value, each as often as before, with the units of the original.", "quantifier": "every quantity of every shape, every argument of the methods (target shapes with and without -1, axes, repetitions, positions of any shape, conditions of any length, offsets), every correct comparison sort, every size of the units", "why_tests_cant": "all shapes, axes, positions and sorting algorithms count", "anchors": ["quantities/quantity.py: Quantity.__array_finalize__ (inherited ndarray methods)", "quantities/uncertainquantity.py: UncertainQuantity (no override of sort)"]}
{"id": "C149", "title": "Error propagation is accurate up to a counted number of rounding errors", "statement": "With inexact arithmetic (every operation with a relative error of at most eps) an UncertainQuantity still denotes, after rescale, +, -, *, / and powers, the measurement the rules of error propagation prescribe: rescaling keeps value and uncertainty up to the errors of the two units' definitions plus four; the uncertainty of a sum or difference is the root of the sum of squares up to the errors of converting the second operand plus six, whatever the values (no cancellation), and its value has the absolute error of C94; products and quotients of two uncertain quantities and powers are right up to five rounding errors in value and uncertainty, products and quotients with exact numbers or quantities up to two and a half (four and a half when dividing by the uncertain one). Whether a conversion is possible, and whether a power returns, never depends on rounding.", "quantifier": "every arithmetic with relative errors at most eps, every reachable world, every pair of uncertain quantities (any units, shapes, values that the formula does not divide by), every exponent", "why_tests_cant": "error bounds over all magnitudes and units cannot be sampled; tests compare a handful of values with tolerances", "anchors": ["quantities/uncertainquantity.py: UncertainQuantity.rescale, __add__, __sub__, __mul__, __truediv__, __rtruediv__, __pow__, sqrt, set_uncertainty"]}
{"id": "C150", "title": "A comparison is a condition only for single values", "statement": "Used as a condition (if a < b, while, not, and), a comparison of two quantities or units is that of the physical values when the result has one element, whatever its number of axes, is False for empty arrays, and raises ValueError when the result has several elements or the shapes do not fit together, whatever the units. With incompatible units the orderings raise ValueError whatever the shapes, == is False and != True for operands of one element, and both raise ValueError for operands of several. Hence max, min, in, index and count raise ValueError for quantities of one shape with several elements, as soon as there is anything to compare.", "quantifier": "every comparison operator, every pair of units and quantities of every shape in every reachable world, every sequence", "why_tests_cant": "all shapes and units count; tests try scalars", "anchors": ["quantities/quantity.py: Quantity.__lt__, __le__, __eq__, __ne__, __gt__, __ge__", "quantities/unitquantity.py: UnitQuantity.__lt__, __eq__"]}
{"id": "C151", "title": "Conversions between shipped units are right in the first thirteen digits", "statement": "Importing the library in an arithmetic with relative errors of at most eps in every literal and operation returns, and exactly those conversions between shipped units (compound ones and constants included) return that the exact definitions permit. The result of a conversion has the physical value, according to the exact decimal definitions and the real number pi, of the quantity converted, up to a counted number of rounding errors: at most 86 for each unit to the first power (122 when constants are involved), two for each unit and four. With doubles (eps at most 2^-52) a conversion between two shipped units is off by at most 10^-13 of the exact result.", "quantifier": "every pair of shipped units and every compound of shipped units and positive constants, every array of numbers, every arithmetic with relative errors at most eps, every hash function without collisions on the units involved", "why_tests_cant": "the tests convert a few units with a tolerance; errors accumulate along chains of definitions and depend on the arithmetic of the platform", "anchors": ["quantities/units/*.py, quantities/constants/*.py: every definition", "quantities/unitquantity.py: UnitQuantity.__new__, _reference", "quantities/quantity.py: Quantity.rescale, get_conversion_factor"]}
{"id": "C152", "title": "Simplifying shipped units is right in the first thirteen digits", "statement": "After importing the library in an arithmetic with relative errors of at most eps, exactly those quantities in shipped units simplify that do with exact arithmetic (all but those that contain statampere). The result is in default units only and has the physical value, according to the exact definitions, of the quantity simplified, up to a counted number of rounding errors: at most 148 for each unit to the first power (263 when constants are involved), two for each unit, and one. With doubles, numbers in one shipped unit simplify with an error of at most 10^-13 of the exact result.", "quantifier": "every quantity in shipped units and positive constants, compound ones with fractional exponents included, every array of numbers, every arithmetic with relative errors at most eps, every hash function without collisions between units and defaults", "why_tests_cant": "the tests simplify a few units with a tolerance; the error depends on the chain of definitions and on how many base units a unit consists of", "anchors": ["quantities/quantity.py: Quantity.simplified", "quantities/unitquantity.py: UnitQuantity.simplified, _reference", "quantities/units/*.py, quantities/constants/*.py: every definition"]}
{"id": "C153", "title": "Sums and comparisons of shipped units are right in the first thirteen digits", "statement": "After importing the library in an arithmetic with relative errors of at most eps, a + b of quantities in shipped units or constants exists exactly when the exact definitions make their units convertible and the shapes broadcast, has the units of a, and its physical value according to the exact definitions is off by at most what a counted number of rounding errors (122 for each unit to the first power, two for each unit, and five) make of the two operands; the same for a - b. <, <=, >, >= and == (of convertible quantities) give the truth about the exact physical values except where these agree up to the rounding errors of the conversion. With doubles, sums of numbers in single units or constants are off by at most 10^-13 of the two operands, and numbers that differ by more than 10^-13 of the right one are compared correctly.", "quantifier": "every pair of quantities in shipped units and positive constants (compound units included), all arrays of broadcastable shapes, every arithmetic with relative errors at most eps, every hash function without collisions on the units involved", "why_tests_cant": "the tests add and compare a few exactly representable values; whether rounding along the definitions changes a comparison depends on every unit of the library and on the arithmetic", "anchors": ["quantities/quantity.py: Quantity.__add__, __sub__, __lt__, __le__, __gt__, __ge__, __eq__, scale_other_units, wrap_comparison", "quantities/units/*.py, quantities/constants/*.py: every definition"]}
{"id": "C154", "title": "A unit string that is a sum denotes a quantity; as units only its first term counts", "statement": "Looking up a string that writes a sum of unit expressions, such as 'km + m - m', gives a quantity in the units of the first term that has units with the physical value of the signed sum if the units of all terms convert into each other (terms may be plain numbers, which count as dimensionless), and is refused with a ValueError if one of them does not. Given as the units of a quantity, such a string is accepted under the same condition and stands for the units of the first term alone: the further terms, and every number the terms contain, are dropped silently. A sum of plain numbers is that number, which is refused as units with an AttributeError.", "quantifier": "every sum of any number of terms (each any sensible unit expression over registered names, compound units, powers and numeric factors included), all signs, all blanks around the signs and operators, every registry state the library can reach, every ordered field with a lawful power function", "why_tests_cant": "the tests look up products and powers only; what a sum in a unit string does depends on the parser, on the arithmetic of units and quantities and on every combination of terms", "anchors": ["quantities/registry.py: UnitRegistry.__getitem__", "quantities/unitquantity.py: UnitQuantity.__add__, __radd__, __sub__, __rsub__", "quantities/quantity.py: validate_dimensionality, Quantity.__add__, Quantity.__sub__"]}
