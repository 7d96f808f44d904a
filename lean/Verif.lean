import Verif.Model.ParseNumber
import Verif.Proofs.BigIntTop
import Verif.Proofs.SlowPath
import Verif.Proofs.ScanSpec
import Verif.Proofs.ParseSpec
import Verif.Proofs.FloatTop
import Verif.Proofs.Api
import Verif.Proofs.Result
import Verif.Proofs.Indep
import Verif.Proofs.Outcome
import Verif.Proofs.ScanText
import Verif.Props.Vocabulary
import Verif.Props.Pow10
import Verif.Props.Rounding
import Verif.Props.Syntax
import Verif.Props.Flags
import Verif.Props.Delim
import Verif.Props.Build
import Verif.Props.Faults
import Verif.Props.Integer
import Verif.Props.Complete
import Verif.Props.CompleteInt
import Verif.Props.HalfExact
import Verif.Props.Wide
import Verif.Props.Total
import Verif.Props.Reparse
import Verif.Props.ErrorBound
import Verif.Props.CaseCompare
import Verif.Props.Relations
import Verif.Props.Pns
import Verif.Props.NegWide
import Verif.Props.Diagnosis
import Verif.Props.Lists
import Verif.Props.FormatBits
import Verif.Props.ExactText
import Verif.Props.Digits10
import Verif.Props.BigIntExact
import Verif.Props.Words
import Verif.Props.Memory
import Verif.Props.Overloads
import Verif.Props.Operators
import Verif.Props.Whole
import Verif.Props.AnyPoint
import Verif.Spec.HalfScaled
import Verif.Props.HalfScaled
import Verif.Props.Cost
import Verif.Props.Scripts
import Verif.Props.Lookahead
import Verif.Props.ShortFast
import Verif.Props.Narrow
import Verif.Props.EveryPoint
import Verif.Props.Ipv4
import Verif.Props.Leading
import Verif.Props.Trimmed
import Verif.Props.Fields
import Verif.Props.Pow10Order
import Verif.Props.Standards
import Verif.Props.Hardware
import Verif.Props.CostCounts
import Verif.Props.CostPaid
import Verif.Props.CostBig
import Verif.Props.AmalgamateRepo
import Verif.Props.RandomString
import Verif.Props.RandomReach
import Verif.Props.Notices
import Verif.Tests.Vectors
import Verif.Props.WhichOverload
import Verif.Props.Instances
import Verif.Props.Cells
import Verif.Props.Findmax
import Verif.Props.NarrowHalf
import Verif.Props.NarrowTie
