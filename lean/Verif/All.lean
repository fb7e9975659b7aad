import Verif.Props.Aliasing
import Verif.Props.Arguments
import Verif.Props.ArraySlices
import Verif.Props.Arrays
import Verif.Props.Axes
import Verif.Props.AxisOps
import Verif.Props.Bindings
import Verif.Props.Build
import Verif.Props.Calls
import Verif.Props.Checked
import Verif.Props.Clients
import Verif.Props.ComparedValues
import Verif.Props.ConstEval
import Verif.Props.Constness
import Verif.Props.ContextOrder
import Verif.Props.Contexts
import Verif.Props.Conversions
import Verif.Props.Copies
import Verif.Props.Custom
import Verif.Props.Customised
import Verif.Props.Effects
import Verif.Props.EndRatio
import Verif.Props.Failures
import Verif.Props.Fixed
import Verif.Props.FloatInterp
import Verif.Props.FloatSums
import Verif.Props.FunctionCopies
import Verif.Props.FunctionObjects
import Verif.Props.FunctionPairs
import Verif.Props.Identity
import Verif.Props.Index
import Verif.Props.Interp
import Verif.Props.Known
import Verif.Props.Laws
import Verif.Props.Lifetimes
import Verif.Props.LongAxes
import Verif.Props.Loops
import Verif.Props.Machine
import Verif.Props.MachineSearch
import Verif.Props.Memory
import Verif.Props.Messages
import Verif.Props.Mismatch
import Verif.Props.Mixed
import Verif.Props.MixedInterp
import Verif.Props.NamedAxes
import Verif.Props.NumberIota
import Verif.Props.NumberStores
import Verif.Props.Numbers
import Verif.Props.Objects
import Verif.Props.OptionTypes
import Verif.Props.Options
import Verif.Props.OrderedIdentity
import Verif.Props.Overlap
import Verif.Props.Ownership
import Verif.Props.Parallel
import Verif.Props.Print
import Verif.Props.Programs
import Verif.Props.Reading
import Verif.Props.Reverse
import Verif.Props.Search
import Verif.Props.SearchAny
import Verif.Props.Sequences
import Verif.Props.ShapeAlgebra
import Verif.Props.SliceAlgos
import Verif.Props.Slicing
import Verif.Props.SourceTypes
import Verif.Props.StackThrows
import Verif.Props.Stays
import Verif.Props.StoredValues
import Verif.Props.Texts
import Verif.Props.Throws
import Verif.Props.ThrowsMore
import Verif.Props.Typed
import Verif.Props.TypedSearch
import Verif.Props.TypedShape
import Verif.Props.TypedSlices
import Verif.Props.TypedTexts
import Verif.Props.TypedViews
import Verif.Props.Uncopyable
import Verif.Props.UserExtents
import Verif.Props.UserNames
import Verif.Props.Values
import Verif.Props.Views
import Verif.Props.Walk
import Verif.Props.Writing

/-! All property files. -/
