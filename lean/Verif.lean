import Verif.Model.Py
import Verif.Model.Dict
import Verif.Model.Dimensionality
import Verif.Model.NDArr
import Verif.Model.World
import Verif.Model.Quantity
import Verif.Spec.Exponents
import Verif.Spec.Numbers
import Verif.Spec.Physical
import Verif.Spec.Arrays
import Verif.Props.Dimensionality
import Verif.Props.Conversion
import Verif.Props.Arithmetic
import Verif.Props.Compare
import Verif.Model.Defaults
import Verif.Spec.Simplify
import Verif.Spec.History
import Verif.Props.Simplified
import Verif.Props.History
import Verif.Props.UnitStrings
import Verif.Props.Reductions
import Verif.Props.Ufuncs
import Verif.Props.Umath
import Verif.Props.Uncertain
import Verif.Props.Memory
import Verif.Props.Views
import Verif.Props.ItemAssign
import Verif.Props.Elements
import Verif.Props.Preferred
import Verif.Props.Pickle
import Verif.Props.Shipped
import Verif.Props.Memo
import Verif.Props.Typeset
import Verif.Props.Quantitizer
import Verif.Props.Rounding
import Verif.Props.Dispatch
import Verif.Props.DType
import Verif.Model.Threads
import Verif.Spec.Threads
import Verif.Lemmas.Threads
import Verif.Lemmas.Threads2
import Verif.Lemmas.Threads3
import Verif.Lemmas.Threads4
import Verif.Props.Threads
import Verif.Model.UncertainHeap
import Verif.Spec.UncertainMemory
import Verif.Lemmas.UncertainHeap
import Verif.Lemmas.UncertainHeap2
import Verif.Props.UncertainMemory
import Verif.Model.UncertainNan
import Verif.Spec.UncertainNan
import Verif.Lemmas.UncertainNan
import Verif.Props.UncertainNan
import Verif.Model.DimRefs
import Verif.Spec.DimRefs
import Verif.Lemmas.DimRefs
import Verif.Props.DimRefs
import Verif.Props.UnitText
import Verif.Props.Repr
import Verif.Props.RoundedArith
import Verif.Props.Systems
import Verif.Lemmas.Systems
import Verif.Props.Out
import Verif.Props.Construct
import Verif.Props.Complex
import Verif.Props.Programs
import Verif.Props.UnitObjects
import Verif.Props.Display
import Verif.Props.Failure
import Verif.Props.RoundedSums
import Verif.Props.UncertainReturns
import Verif.Props.Shared
import Verif.Spec.UncertainPrograms
import Verif.Props.UncertainPrograms
import Verif.Spec.Twins
import Verif.Lemmas.Twins
import Verif.Props.Twins
import Verif.Spec.Variance
import Verif.Props.Variance
import Verif.Spec.Propagation
import Verif.Lemmas.Propagation
import Verif.Props.Propagation
import Verif.Spec.Static
import Verif.Props.Static
import Verif.Spec.Positions
import Verif.Lemmas.Positions
import Verif.Props.Positions
import Verif.Model.Compound
import Verif.Spec.Compound
import Verif.Lemmas.Compound
import Verif.Props.Compound
import Verif.Model.FloatExponents
import Verif.Spec.FloatExponents
import Verif.Lemmas.FloatExponents
import Verif.Lemmas.FloatExponents2
import Verif.Props.FloatExponents
import Verif.Spec.Broadcast
import Verif.Lemmas.Broadcast
import Verif.Props.Broadcast
import Verif.Spec.Along
import Verif.Lemmas.Along
import Verif.Lemmas.Along2
import Verif.Props.Along
import Verif.Model.Subscript
import Verif.Spec.Subscript
import Verif.Lemmas.Subscript
import Verif.Props.Subscript
import Verif.Spec.Calculus
import Verif.Lemmas.Calculus
import Verif.Props.Calculus
import Verif.Model.Unary
import Verif.Props.Unary
import Verif.Spec.PrintOrder
import Verif.Props.PrintOrder
import Verif.Props.UncertainMore
import Verif.Props.AlongNan
import Verif.Lemmas.Assign
import Verif.Props.Assign
import Verif.Props.Vocabulary
import Verif.Spec.Extended
import Verif.Lemmas.Extended
import Verif.Props.Extended
import Verif.Props.ExtendedOps
import Verif.Props.Promotion
import Verif.Spec.Standards
import Verif.Lemmas.ShippedCoefs
import Verif.Lemmas.ShippedValues
import Verif.Lemmas.ShippedStandards
import Verif.Props.Standards
import Verif.Props.Nominal
import Verif.Spec.Constants
import Verif.Lemmas.ShippedConstants
import Verif.Props.Constants
import Verif.Spec.Creation
import Verif.Props.Creation
import Verif.Model.Builtins
import Verif.Spec.Builtins
import Verif.Props.Builtins
import Verif.Spec.Definitions
import Verif.Props.Definitions
import Verif.Model.Rearrange
import Verif.Spec.Rearrange
import Verif.Lemmas.Rearrange
import Verif.Props.Rearrange
import Verif.Spec.UncertainRounding
import Verif.Lemmas.UncertainRounding
import Verif.Lemmas.UncertainRounding2
import Verif.Lemmas.UncertainRounding3
import Verif.Props.UncertainRounding
import Verif.Props.Conditions
import Verif.Lemmas.ShippedErrors
import Verif.Lemmas.ShippedRounded
import Verif.Lemmas.ShippedRounded2
import Verif.Props.RoundedLibrary
import Verif.Lemmas.ShippedSimplify
import Verif.Props.RoundedSimplified
import Verif.Props.RoundedMixed
import Verif.Props.UnitSums
