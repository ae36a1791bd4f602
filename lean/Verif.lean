import Verif.Model.Res
import Verif.Model.Bound
import Verif.Model.Ranges
import Verif.Model.Sets
import Verif.Model.Union
import Verif.Model.Intersection
import Verif.Model.Complement
import Verif.Model.Any
import Verif.Model.Traits
import Verif.Model.TraitImpls
import Verif.Model.Step
import Verif.Model.Convert
import Verif.Model.Iter
import Verif.Spec.Step
import Verif.Proofs.Step
import Verif.Proofs.Char
import Verif.Spec.Iter
import Verif.Proofs.Iter
import Verif.Proofs.SetIter
import Verif.Proofs.IntoIter
import Verif.Proofs.LowerIter
import Verif.Proofs.Interval
import Verif.Proofs.Cut
import Verif.Proofs.Sem
import Verif.Proofs.Ops
import Verif.Proofs.AnyOps
import Verif.Spec.Algebra
import Verif.Spec.Samples
import Verif.Proofs.Laws
import Verif.Props.Algebra
import Verif.Props.Emptiness
import Verif.Props.Bounds
import Verif.Props.Step
import Verif.Proofs.Schedule
import Verif.Proofs.Checked
import Verif.Props.Iter
import Verif.Props.IterLimits
import Verif.Model.Index
import Verif.Spec.Index
import Verif.Proofs.Index
import Verif.Props.Convert
import Verif.Props.Index
import Verif.Props.Edge
import Verif.Props.Lattice
import Verif.Model.Derive
import Verif.Spec.Map
import Verif.Props.Derived
import Verif.Props.Members
import Verif.Props.HalfLine
import Verif.Model.Serde
import Verif.Props.Serde
import Verif.Props.Counting
import Verif.Proofs.Natural
import Verif.Props.Natural
import Verif.Tests.Union1
import Verif.Tests.Union2
import Verif.Tests.Intersection1
import Verif.Tests.Intersection2
import Verif.Tests.Complement
import Verif.Tests.Conversions
import Verif.Tests.Iterator
import Verif.Tests.Index
import Verif.Tests.Docs
import Verif.Spec.Elem
import Verif.Props.Lawful
import Verif.Spec.Size
import Verif.Props.Size
import Verif.Spec.Trees
import Verif.Props.Trees
import Verif.Spec.Detour
import Verif.Props.Detour
import Verif.Spec.Mono
import Verif.Props.Mono
import Verif.Spec.StdIter
import Verif.Proofs.StdIter
import Verif.Props.StdIter
import Verif.Props.Reach
import Verif.Model.Depth
import Verif.Props.Depth
import Verif.Props.Cost
import Verif.Spec.Wild
import Verif.Props.Wild
import Verif.Spec.Repair
import Verif.Props.Repair
import Verif.Props.Sharp
import Verif.Spec.Region
import Verif.Proofs.Region
import Verif.Props.Region
import Verif.Spec.Ty
import Verif.Proofs.Dispatch
import Verif.Props.Dispatch
import Verif.Spec.Definable
import Verif.Props.Express
import Verif.Props.Fewest
import Verif.Spec.TExpr
import Verif.Props.Typed
import Verif.Spec.Mirror
import Verif.Proofs.Mirror
import Verif.Props.Mirror
import Verif.Spec.Sweep
import Verif.Proofs.Sweep
import Verif.Props.Sweep
import Verif.Model.InterCost
import Verif.Props.InterCost
import Verif.Spec.Observe
import Verif.Proofs.Observe
import Verif.Props.Observe
import Verif.Spec.Serde
import Verif.Model.Debug
import Verif.Props.Debug
import Verif.Model.Unwind
import Verif.Spec.Unwind
import Verif.Proofs.Unwind
import Verif.Proofs.Lost
import Verif.Props.Unwind
import Verif.Spec.Client
import Verif.Proofs.Client
import Verif.Props.Client
import Verif.Spec.Big
import Verif.Proofs.Big
import Verif.Props.Big
import Verif.Spec.Climb
import Verif.Props.Climb
import Verif.Spec.History
import Verif.Props.History
import Verif.Model.Calls
import Verif.Spec.Calls
import Verif.Proofs.Calls
import Verif.Props.Calls
import Verif.Spec.Circle
import Verif.Props.Circle
import Verif.Model.Asks
import Verif.Spec.Asks
import Verif.Proofs.Asks
import Verif.Proofs.AsksWp
import Verif.Proofs.AsksAll
import Verif.Proofs.AsksPath
import Verif.Props.Asks
import Verif.Spec.AsksOrder
import Verif.Proofs.AsksCost
import Verif.Proofs.AsksLawful
import Verif.Proofs.AsksOrder
import Verif.Props.AsksCost
import Verif.Model.AsksEq
import Verif.Spec.AsksEq
import Verif.Props.AsksEq
import Verif.Spec.Pretty
import Verif.Proofs.Pretty
import Verif.Props.Pretty
import Verif.Model.CallsConvert
import Verif.Props.CallsConvert
import Verif.Model.CallsConsume
import Verif.Proofs.CallsConsume
import Verif.Props.CallsConsume
import Verif.Spec.AsksTrace
import Verif.Proofs.AsksTrace
import Verif.Props.AsksTrace
import Verif.Proofs.AsksTraceSets
import Verif.Props.AsksTraceSets
import Verif.Model.AnyIter
import Verif.Spec.AnyIter
import Verif.Proofs.AnyIter
import Verif.Props.AnyIter
import Verif.Spec.RepairIter
import Verif.Proofs.RepairIter
import Verif.Props.RepairIter
import Verif.Spec.BrokenIter
import Verif.Props.BrokenIter
import Verif.Spec.Damage
import Verif.Proofs.Damage
import Verif.Props.Damage
import Verif.Spec.TypeLaws
import Verif.Props.TypeLaws
import Verif.Spec.SymDiff
import Verif.Props.SymDiff
import Verif.Spec.Within
import Verif.Props.Within
import Verif.Spec.Identities
import Verif.Props.Identities
import Verif.Model.Moves
import Verif.Props.Moves
import Verif.Spec.Scan
import Verif.Proofs.Scan
import Verif.Proofs.ScanLine
import Verif.Props.Scan
import Verif.Spec.Terms
import Verif.Proofs.Terms
import Verif.Proofs.TermsLine
import Verif.Proofs.TermsValue
import Verif.Props.Terms
import Verif.Spec.Sentences
import Verif.Proofs.Sentences
import Verif.Proofs.SentencesLine
import Verif.Props.Sentences
import Verif.Model.Flags
import Verif.Props.Flags
import Verif.Props.Elements
import Verif.Props.Hex
import Verif.Props.Text
import Verif.Props.Via
import Verif.Props.StdUpper
import Verif.Props.Misjudged
import Verif.Props.DenseOnly
import Verif.Props.DenseIff
import Verif.Props.WrongPairs
import Verif.Props.SubsetStd
import Verif.Props.OpenEnds
import Verif.Props.OpenMembers
