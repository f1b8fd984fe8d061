# Formal model of python-quantities in Lean 4

## What is proved about what

Everything below is about the Lean model in `lean/Verif/Model/`. The model was written by reading
`/repo/quantities` and every definition cites the file and lines it models. The code is not run.

| directory | content |
|---|---|
| `Verif/Model` | the code, function by function, exceptions as values |
| `Verif/Spec` | small specifications (physical value, base dimensions, exponent functions), independent of the model's algorithms |
| `Verif/Lemmas` | helper lemmas |
| `Verif/Props` | the property theorems, with a concrete instance beside each, and refutations of the claims the code violates |

## Trusted base

* Lean 4.33.0's kernel; axioms at most `propext`, `Classical.choice`, `Quot.sound`.
* The reading of the Python source.
* Python and numpy behaviour, as written into the model:
  - `dict` preserves insertion order; `sorted` is a stable sort; CPython's numeric hash (modulus
    `2^61-1`), and `hash` replacing `-1` by `-2`;
  - numpy broadcasting, elementwise ufuncs, reductions as folds along an axis;
  - `__array_prepare__`/`__array_wrap__` being called with the operands of a ufunc.
* Numbers. Model functions are written over an arbitrary number type `K` with just the operations the
  code uses. Theorems about control flow, units and errors assume nothing about `K`, so they
  hold for IEEE floats too. Theorems about values assume an ordered field with a lawful power
  (`LawfulRPow`, instance: the reals): overflow, nan and inf are not modelled, and rounding only in
  C58 and C94, where the same model functions run on numbers whose operations have a
  bounded relative error.
* Exponents are exact rationals.
* Hashing: `==` of dimensionalities compares 64-bit hashes. Nothing is assumed about the hash
  function of units and pairs. Where a theorem needs that `==` did not answer `True` for different
  contents it has a hypothesis about *the pair being compared* (`NoColl`), never a global one.

## What is modelled, and how much of it

| model | source | what is left out or simplified |
|---|---|---|
| `Dict`, `Py`, `Dimensionality` | `dimensionality.py` 1-289 | exponents exact rationals; Python ints and floats as exponents only distinguished in `Markup` (`NumKinds`) |
| `World` | `unitquantity.py` (classes, constructors), `registry.py` 16-70, `quantity.py` 48-54, 138-144 | definitions are scalars; the two registry entries that are classes; a second live object of the same class and name (see `UnitObjects`) |
| `NDArr` | numpy broadcasting | arrays are shape and element function; no dtype |
| `Quantity` | `quantity.py` `rescale`, operators, comparisons, `simplified`, `magnitude`, `units` setter | Python's choice of reflected operator for subclasses |
| `Defaults` | `unitquantity.py` 305-323, `__init__.py` `set_default_units` | |
| `Registry` | `registry.py`, `quantity.py` 30-46 | Python's parser: the model starts from the syntax tree; `eval` of whitelisted nodes only |
| `Markup` | `markup.py`, `dimensionality.py` 72-96 | the regular expressions are modelled as the functions they compute |
| `NDReduce`, `Reduce` | `quantity.py` 475-740 | numpy reductions are the folds of `NDReduce` (trusted); nan is `Option`; sorting is any comparison sort |
| `NumpyLib`, `Umath` | `umath.py`, numpy's `__array_function__`-less library calls | `out=` not modelled |
| ufunc dispatch | `quantity.py` `__array_prepare__`/`__array_wrap__`, `dimensionality.py` p_dict | |
| `Uncertain` | `uncertainquantity.py` | first-order propagation as the code computes it |
| `Heap` | ndarray memory: buffers, views, `base`, `__setitem__`, in-place operators, `units` setter, `copy` | the rule which numpy operations return views; numpy<2 / >=2 is a parameter; `flags.writeable` setting, views of units, `sort`/`resize`, the `**=` fast paths for exponents 0 and 1, `imag` |
| `UncertainHeap` | `uncertainquantity.py` constructor, `uncertainty` setter, `__getitem__`, `__array_finalize__`, inherited in-place operators, `copy`, `deepcopy`, on the memory of `Heap` | wrapping an uncertain quantity by `Quantity(x)`, uncertain uncertainties, arithmetic (see `Uncertain`) |
| `Elements` | `__iter__`, `__getitem__`, `tolist`, `__len__`, `item` | |
| `Preferred` | `quantity.py` `rescale_preferred`, `__init__.py` | |
| `Pickle` | `__reduce__`, `__setstate__`, `_reconstruct_quantity`, unit pickling | byte format, memo and ndarray state trusted; `__doc__` left out |
| `Shipped`, `ShippedTable` | every constructor call in `units/*.py`, `constants/*.py` | table generated by `tools/gen_shipped.py` from the syntax tree of the sources (the generator is trusted, its rows cite file and line); decimal literals at their exact decimal value; 31 negative constants are outside the hypotheses of the conversion theorems |
| `Quantitizer` | `decorators.py` `quantitizer` | side effects of the wrapped functions, uncertain arguments, result items that are quantities already |
| `Dispatch` | Python's choice between `__op__` and `__rop__` for units, quantities, arrays, numbers and uncertain quantities: `unitquantity.py` 176-330, `quantity.py` operators, `uncertainquantity.py` operators | three-argument `pow`, operands of foreign classes |
| `DType` | dtypes in `rescale`, `astype`, `scale_other_units`, `__iadd__`, `units` setter, `__setitem__` | numpy's promotion and same-kind tables are written down as documented (trusted); rounding, casts of out-of-range numbers and numpy 1's value-based choice are parameters; complex, long double, object and string dtypes left out; item assignment of one element |
| `Threads` | unit constructors, `registry.py` `__setitem__`, `set_default_unit`, `rescale`, `+`, `-`, comparisons, `simplified` under CPython's interleaving | atomic: one attribute or dict access, hashing one dimensionality, the comparison of a taken label; `Dimensionless` is not created by threads; free-threaded builds (torn dict updates) not covered |
| `UncertainNan` | `uncertainquantity.py` `nansum`, `nanmean`, `nanmax`, `nanmin` | nan is `Option`; an infinite uncertainty is nan |
| `DimRefs` | `dimensionality.py` 69-218, `quantity.py` 31-47, 118-136, 176-241, 294-311, 346-408, 437-442, 519-543, `uncertainquantity.py` 22-24: `Dimensionality` objects by reference |
| `Construct` | `quantity.py` 118-131: `Quantity.__new__`, with `np.asarray` of nested lists |
| `Complex` | `quantity.py` 160-174, `dimensionality.py` 326-327: complex magnitudes, `real`, `imag` and their setters, `conjugate`, `absolute` |
| `UnitObjects` | the same code as `World`, `Quantity`, with unit objects instead of class and name; `unitquantity.py` 275-285 (`copy`) | `CompoundUnit.copy` reuses the definition |
| `Display` | `quantity.py` 412-434, `dimensionality.py` 187-195, `unitquantity.py` 139-166, 383-384, `uncertainquantity.py` 176-199 | number and string texts are a parameter (`NumText`); unit definitions in a unit's `repr` are given with the exponents Python holds |
| `FloatExponents` | `dimensionality.py` again, with exponents as Python ints and IEEE doubles (rounding and underflow; no overflow, no nan) |
| `Subscript` | `Quantity.__getitem__`, `__setitem__` with concrete subscripts (numpy indexing: integers, slices, ellipsis, newaxis; integer arrays and masks on their own) |
| `NumpyLib` (formulas) | the formulas of C131 for `diff`, `ediff1d`, `gradient`, `cross`, `trapz`, `unwrap` are stated in `Spec/Calculus.lean` |
| `Unary` | `abs(q)`, `+q`, `divmod`, `bool(q)`, `float(q)`: operators `Quantity` inherits from `np.ndarray` |
| `PrintOrder` | specification of the printing order used by C135 |
| `Extended` | `quantity.py` 56-65, 102-110, 223-241, 336-410, 454-490 run with IEEE infinities and nan (`XFloat`) | exact finite numbers, no overflow, one zero; powers of infinities and nan |
| `Shipped` sizes | `quantities/units/*.py` (same generated table) | sizes exact rationals times powers of π; `statcoulomb`, `statampere` (irrational size) have none |
| Standard values | `Spec/Standards.lean` | units whose accepted value is measured or was rounded by the library (parsec, slug, dalton, statvolt…) are not in the list |
| Symbols | registry labels of the generated table | |
| Nominal values | `Props/Nominal.lean` over `Model/Dispatch.lean`, `Model/Uncertain.lean` | operators of `Dispatch` only |
| `Memo` | `decorators.py` `memoize` | arguments immutable, no nan; objects have parts but parts have none; decorated functions pure and returning new objects |

## Not modelled

complex numbers other than in `Complex` (`real`, `imag`, `conjugate`, `absolute`), object `dtype`s, structured arrays,
masked arrays, the digits of printed magnitudes (a parameter of `Display`), `set_printoptions`, warnings, documentation
(`with_doc`), `version.py`, `quantities.test`, `UncertainQuantity._reference` (a unit defined by an uncertain quantity), numpy's own algorithms, `dtype`-changing constructors.

## Plan per property

C01-C04, C06, C07: `Model/Dimensionality`. Spec: the exponent function `Dim.exp : unit -> Q`. By
induction over the dict (list of items). C02 by induction over an expression type.
C05: false as stated, since `__eq__` compares 64-bit hashes and CPython's number hash is modulo
`2^61-1`: refuted by exponents 1 and `2^61`; partial theorem: equality modulo collision.
C06: false for `d /= d` on one object (RuntimeError): refuted, partial theorem for distinct objects.
C08: from `ndims` of the simplified dimensionality.
C09-C12: `Model/World`, `Model/Quantity`. Spec: a *valuation* gives each unit a positive size
consistent with the definitions; the physical value of a quantity is magnitude times size. An
invariant over every history of unit definitions says the stored reference of each unit is what the
definitions imply. Completeness of C10 through base-dimension exponents.
C13-C18: operators on `Quantity`; theorems commute the physical value with numpy broadcasting.
C63, C64: false (`//` does not convert, bare numbers compare with the magnitude): refutations.
C19, C20: mutual recursion with fuel (the interpreter's recursion limit); every fuel large enough.
C21, C22: transition system over constructor and default changes. C66 is false (non-atomic,
AssertionError): refutation. C65 (units without definition) is false: refutation.
C41: `Model/Memo`: heap of returned objects, shared cache, client histories.
C23, C24, C25: `Model/Registry`: registry state machine, syntax trees, whitelist, evaluation.
C67 (conflicting definitions), C68 (points in unit strings): refutations and partial theorems.
C26, C27, C69: `Model/Markup`. C26 and C69 are false for integer exponents that are multiples of ten; partial theorems.
C28-C31: `Model/Heap`: buffers, array objects with base pointers, in-place operations.
C32, C33, C44, C48, C49: `Model/Reduce`.
C34-C36: ufunc table soundness against the physical value.
C37-C39: `Model/Uncertain`.
C40: `Model/Pickle`.
C42: a table generated from the sources of `quantities/units`, checked by the kernel in full.
C43: corollary of C13. C47: refuted by a witness, partial theorem.
C70-C86 are the companions of C29-C57 for the inputs on which the code departs from the expectation a user has
(each was found while proving the companion): C70 views of an owner (C29), C71 deepcopy (C30), C72 nanmax/nanmin (C32),
C73 rounding and comparison ufuncs (C34), C74 numpy functions on uncertain quantities (C37), C75-C77 products, extremes
and exact operands of uncertain quantities (C39), C78 half-registered units (C40), C79 declared kinds (C42),
C80 searchsorted (C44), C81 ediff1d, gradient, cross (C48), C82 unit strings with a factor (C50), C83 numpy 2 in-place
(C52), C84 item assignment into integers (C54), C85 uncertain operands on the right (C56), C86 fractional exponents
(C57). For each: a refutation by a concrete input and a partial theorem where part of it holds.
C45, C46: corollaries of C09/C10 with the string comparison of `rescale_preferred`.
C51: unit rules of numpy library calls; C52, C53: item assignment.

C57: `Model/Markup`, `Spec/Typeset`: the regular-expression substitutions on the plain string, by induction over the
pieces of the string.
C54: `Model/DType`: typed arrays; each typed operation between different units refines the exact one. `Props/Promotion` says which dtype meets two dtypes (the least of the kind that holds the integers of both).
C55: `Model/Quantitizer`: arbitrary base function and handler; from C19 and C09.
C56: `Model/Dispatch`, `Spec/Expressions`: expression trees, by induction on the tree from the theorems per operator.
C58: `Spec/Rounding`: the model functions over numbers with rounded operations; an invariant over histories bounds
the logarithm of the error of every stored reference.


C59-C62: `Model/Threads`: a thread that computes is a program that looks at the shared state again at every attribute
access; threads that create a unit or set a default are state machines with one state per point of interruption; a
schedule is any list of thread numbers. C59: units never change once created, so each look returns what it would have
returned at the start (`Prog.Holds`: an assertion stable under later states). C60: the same with the value of the result
as assertion and well-formedness of the shared state as invariant of all threads. C61: invariant of the constructor call
at each of its points, framed by threads that avoid its name and labels; refinement: alone it is `newUnit`. C62: proved
when defaults are quiet, a concrete schedule refutes it in general.
C87-C89: `Model/UncertainHeap`: each uncertain quantity is an array object with a pointer to the object of its
uncertainty; the frame theorems of `Heap` carry over; alignment is an invariant of careful programs. All three are false
without restriction (stale uncertainty, shared uncertainty, units or shape changed in place): refutations.
C90: `Model/UncertainNan`: lists of optional values with optional uncertainties; lane by lane as C39.
* C91: `Model/DimRefs` gives every `Dimensionality` object an identity; quantities and variables hold references. Invariant: no variable refers to an object a quantity refers to. Each command is shown to be one of seven effects on the store and, without aliased variables, to agree with a machine on values (`Spec/DimRefs`); programs by induction.
- C92: `Spec/UnitText` gives expressions, ways of writing them and their meaning; `Lemmas/UnitText` proves by induction on the derivation that every written form survives the label rewriting, is lexed and parsed (with the fuel the parser gets) to the expression's tree; `Lemmas/UnitText2` that the tree evaluates to the meaning.
- C93: `Lemmas/Repr` shows that the printed form of a printable dimensionality is a derivation of `Writes` and that a prefix multiplies a whole term; then C92.
C94: `Spec/Rounding`: operators, comparisons and `simplified` run on rounded numbers; forward error analysis by logarithms of the accumulated factors, induction over the loop and the recursion of `simplified`.
C95: the shipped table (`Model/ShippedTable`) and `Model/Defaults`; the labels used by `set_default_units` are looked up in the table by kernel computation, success by transitivity of the conversion check along any history, `simplified` by C19 and C79 transported along the history. C22 gains the exact condition under which `set_default_units` returns.
C96: `Heap.into` (`Model/Heap`, quantity.py 511-770): the store and units update are followed in the reached heaps (C28-C31's memory model); the frame theorem uses the cells `out` addresses.
C97: `Model/Construct`; nested lists by induction on their nesting, quantities by C09/C10, the round trip through `tolist` by the lemma on what `np.asarray` reads at each index.
C98, C99: `Model/Complex` runs the functions of `Model/Quantity` on complex numbers over the embedding of the (real) world; the conversion factor is shown to be the real one (induction over the reference units), and the real results C09, C10, C13 are transported through the real and imaginary parts.
C100: `Spec/Programs` defines a client language (terms, conditions, statements with loops) whose operators are the model's functions; unit parametricity is proved by induction over terms and, for loops, over the number of iterations.
C101: a type system for units (`HasUnits`, `Checks`) over the client language of C100; erasure to bare numbers is proved by induction over the typing derivation and the number of iterations; homogeneity is a corollary for two valuations.
C102, C103: `Model/UnitObjects` has unit objects as dict keys (several may have the same class and name); `Spec/UnitObjects` forgets the objects (`abs`). Every operation and every step of a history commutes with forgetting (`Lemmas/UnitObjects*`), so the states of `World` are a refinement-abstraction of the object states, and the theorems about `World` hold for any number of copies. A second, different definition of a class and name breaks the simulation; C103 exhibits the consequence.
C105-C108: `Model/Display` is `str`, `repr` and `format`; `Spec/Display` says which symbols and texts are ordinary. `Lemmas/Display` proves that typeset Unicode expressions can be told apart (unique decomposition into symbols, superscripts and separators); the plain string determines the Unicode one, so the same holds for it.
C109, C110 (exception safety, `Props/Failure.lean`): case analysis over all commands; that `fill` and `out=` cannot fail half-way on a unit object rests on unit memory being read-only in every reachable state.
C111 (`Props/RoundedSums.lean`): induction over the tree of additions gives the classical forward error bound; the conversion's errors multiply in.
C112 (`Model/Shared.lean`, `Props/Shared.lean`): every method is cut into loads and stores of attributes and elements; an invariant over schedules relates each thread to its uninterrupted execution; the uninterrupted execution of each call is shown to be the sequential operation.
C113 (`Props/Shared.lean`): an invariant over the steps of each call (`Always`, with a loop rule).
C114 (`Props/Shared.lean`): witnesses, computed step by step.
C115 (`Props/Shared.lean`): the same invariant as C113, and witnesses.
C116 (`Props/UncertainPrograms.lean`): each operation determines the measurements of its result from those of its operands; induction on the expression.
C117 (`Spec/Twins.lean`, `Lemmas/Twins.lean`, `Props/Twins.lean`): simulation between two heaps with the same layout and physically equal quantities.
C118 (`Spec/Variance.lean`, `Props/Variance.lean`): denotational semantics of uncertain expressions as propagation of (value, variance) pairs on bare numbers; the library refines it.
C119 (`Spec/Propagation.lean`, `Lemmas/Propagation.lean`, `Props/Propagation.lean`): induction on expressions with Mathlib's derivatives; arrays are treated element by element.
C120 (`Props/Propagation.lean`): negation witnesses, for every uncertain quantity.
C121 (`Spec/Static.lean`, `Props/Static.lean`): relational induction on expressions, two runs with other numbers.
C122 (`Props/Static.lean`): case analysis on the dimensionality rules; negation witness for plain arrays.
C123 (`Spec/Positions.lean`, `Props/Positions.lean`): fold invariant of `argmax`; row-major numbering and lines along an axis are specified with `List.insertIdx`.
C124 (`Props/Positions.lean`): as C123, plus the positions of the present values; negation witness for an axis.
C125 (`Model/Compound.lean`, `Spec/Compound.lean`, `Props/Compound.lean`): the meaning of the text by C92, the new unit by `newUnit_spec`, conversion by C10; printing by writing the printed string as an expression.
C126, C127 (`Model/FloatExponents.lean`, `Spec/FloatExponents.lean`, `Props/FloatExponents.lean`): rounding to 53 bits is shown to give the nearest double; entries of products and quotients are characterised unit by unit; expressions by induction; the failures by kernel computation on concrete doubles.
C128 (`Spec/Broadcast.lean`, `Lemmas/Broadcast.lean`, `Props/Broadcast.lean`): broadcasting described place by place (counting axes from the end), shown equivalent to the recursive `bshape`/`bidx` of the model, and composed with C13, C14, C17.
C129 (`Spec/Along.lean`, `Lemmas/Along.lean`, `Props/Along.lean`): the places combined are those whose remaining coordinates agree; the mask-and-merge recursion of the model is shown to enumerate exactly them, in order.
C130 (`Model/Subscript.lean`, `Spec/Subscript.lean`, `Lemmas/Subscript.lean`, `Props/Subscript.lean`): the model computes slices by the CPython arithmetic, the specification is the item rule of the language reference and an inductive relation between places; equivalence by induction over the tuple; composed with C31 for assignment and C17 for masks.
C131, C132 (`Spec/Calculus.lean`, `Lemmas/Calculus.lean`, `Props/Calculus.lean`): finite differences by induction on the order with Mathlib's forward differences; the gradient by the interpolating parabola; the cross product by Mathlib's crossProduct; unwrap by the invariant that corrections are whole periods; argsort relative to any correct comparison sort.
C133, C134 (`Model/Unary.lean`, `Props/Unary.lean`): direct proofs over any ordered field; the witnesses of C134 are evaluations of the model on the example world.
C135 (`Spec/PrintOrder.lean`, `Props/PrintOrder.lean`): induction over histories shows that a class's counter grows, so numbers within a class reflect age; combined with C57_forms. C08_count in the same file.
C136, C137 (`Props/UncertainMore.lean`): C136 from C75's power law with exponent 1/2 and algebra; C137 by evaluation of the model.
C138, C44_clip_elements, C72_elements_partial, C36_hypot_accepts_partial (`Props/AlongNan.lean`): from C32, C44, C72 and the element-wise specifications of `Spec/Along.lean` and `Spec/Broadcast.lean`.
C139 (`Model/Extended.lean`, `Spec/Extended.lean`, `Props/Extended.lean`): the generic model functions instantiated at IEEE-like numbers; every operation commutes with scaling by a positive finite size. `Props/ExtendedOps` pins down these operations themselves by the rules of IEEE 754.
C140–C142 (`Spec/Standards.lean`, `Lemmas/ShippedCoefs.lean`, `ShippedValues.lean`, `ShippedStandards.lean`, `Props/Standards.lean`): every unit's size is computed as p/q·π^k of base units and checked against the table by the kernel, then compared with prefixes, definitions and symbols taken from the SI Brochure and NIST SP 811; the theorems quantify over all valuations.
C143 (`Props/Nominal.lean`): `PyVal.nominal` forgets the uncertainty; for every operator the two runs are unfolded side by side: they compute the same value (`nominal_exact`), except for the reflected methods, whose value is shown physically equal through C13–C15.
C144 (`Props/Constants.lean`, laws in `Spec/Constants.lean`): the size of each constant in base units is computed from the generated table (`constOf`, proved right in `Lemmas/ShippedConstants.lean`) and compared with the law by the kernel in integer arithmetic, with π between two decimals.
C145 (`Props/Creation.lean`, `Spec/Creation.lean`): the creations of `Model/Heap.lean` either allocate cells above every existing one (`Ext1`), so C30's separation theorem gives independence, or push an object whose cells are those of the original, which no later command moves.
C146 (`Model/Builtins.lean`, `Spec/Builtins.lean`, `Props/Builtins.lean`): the loops of the built-ins over the operators of `Model/Dispatch.lean`; a sorting algorithm is any decision tree of comparisons that is correct for numbers, and is shown to connect all elements (shift the values of one class of compatible elements past the others: the run does not notice).
C147 (`Spec/Definitions.lean`, `Props/Definitions.lean`): the record kept of a new unit is followed through every later history (`evolves_keeps`); sizes are those of every valuation of the later registry.
C148 (`Model/Rearrange.lean`, `Spec/Rearrange.lean`, `Props/Rearrange.lean`): the methods as subscripts (which element goes where), with row-major numbering (`rowMajor`) and axis naming (`NamesAxis`) from the specification; sorting with any comparison sort that is correct on numbers.
C149 (`Spec/UncertainRounding.lean`, `Lemmas/UncertainRounding*.lean`, `Props/UncertainRounding.lean`): `Model/Uncertain.lean` run on numbers `Fl A` of an arithmetic with relative errors; relative errors are tracked as bounded factors, and sums of squares have no cancellation. Two assumptions were added to the arithmetic: squaring a number of either sign has relative error at most eps, and a positive power of zero is zero.
C150 (`Props/Conditions.lean`): `truthOf` of `Model/Builtins.lean` applied to the comparisons of C56.
C151 (`Spec/Rounding.lean` RoundedLiterals and unitSteps, `Lemmas/ShippedErrors.lean` (generated table of error counts, kernel-checked), `Lemmas/ShippedRounded*.lean`, `Props/RoundedLibrary.lean`): the table is loaded with `Fl A` (`loadWith`), by strong induction on rows each unit's stored size is the exact one up to the listed factor, and the stored reference has the listed error budget; C58 then gives the conversion.
C152 (`Lemmas/ShippedSimplify.lean` kernel-checked totals, `Props/RoundedSimplified.lean`): the defaults and the stored references of the two loaded states have the same dimensionality, so the same quantities simplify; a SimplifyBudget is built from the listed error counts and the listed base exponents; C94 gives the rounded value and the sizes are transferred as in C151.
C153 (`Props/RoundedMixed.lean`): C94 for the state loaded with rounded arithmetic, then the sizes of both operands are replaced by the exact ones (`operand_transfer`, `close_transfer`), which adds the errors in the values of the units.
C154 (`Props/UnitSums.lean`, `Model/RegistrySums.lean`): the registry's evaluation with `+` and `-` of its values defined by the modelled unit and quantity arithmetic; induction over the terms with C13 for one step and the round trip of the parser (`Lemmas/UnitSums.lean`) for the text.
