import Verif.Core.Basic
import Verif.Spec.Predicates
import Verif.Spec.Wire
import Verif.Model.Traits
import Verif.Model.EnumCore
import Verif.Model.Enums.All
import Verif.Proofs.Combinators
import Verif.Proofs.Prims
import Verif.Proofs.Laws
import Verif.Model.Flags
import Verif.Model.Irregular
import Verif.Model.Records
import Verif.Spec.IrregularWire
import Verif.Spec.RecordWire
import Verif.Proofs.EnumLaws
import Verif.Proofs.Irregular
import Verif.Proofs.Records
import Verif.Model.Header
import Verif.Model.PduCore
import Verif.Model.Pdus1
import Verif.Model.Pdus2
import Verif.Model.Pdus3
import Verif.Model.Pdus4
import Verif.Model.PduKind
import Verif.Spec.PduCommon
import Verif.Spec.PduWire1
import Verif.Spec.PduWire2
import Verif.Spec.PduWire3
import Verif.Spec.PduWire4
import Verif.Spec.PduKindWire
import Verif.Proofs.Pdus1
import Verif.Proofs.Pdus2
import Verif.Proofs.Pdus3
import Verif.Proofs.Pdus4
import Verif.Proofs.PduLaws
import Verif.Proofs.PduKind
import Verif.Spec.HeaderWire
import Verif.Spec.Codes
import Verif.Proofs.Header
import Verif.Proofs.PduGeneric
import Verif.Proofs.KindFacts
import Verif.Proofs.Panics
import Verif.Properties.Header
import Verif.Properties.Pdu
import Verif.Properties.Panics
import Verif.Spec.KindTables
import Verif.Proofs.Yields
import Verif.Proofs.EntityState
import Verif.Proofs.RoundTrip
import Verif.Properties.RoundTrip
import Verif.Spec.Stream
import Verif.Proofs.Injective
import Verif.Properties.Stream
import Verif.Properties.Enums
import Verif.Properties.Status
import Verif.Properties.Flags
import Verif.Properties.Records
import Verif.Properties.Irregular
import Verif.Properties.Gridded
import Verif.Properties.Transmitter
import Verif.Model.Float32
import Verif.Proofs.Float32
import Verif.Model.Timestamp
import Verif.Properties.Timestamp
import Verif.Model.Vector3
import Verif.Proofs.Vector3
import Verif.Proofs.Vector3Norm
import Verif.Proofs.Sqrt
import Verif.Properties.Vector3
import Verif.Properties.Vector3Special
import Verif.Properties.Vector3Opposite
import Verif.Properties.Vector3Error
import Verif.Properties.Vector3Order
import Verif.Model.Constants
import Verif.Properties.Constants
import Verif.Spec.Needs
import Verif.Proofs.Needs
import Verif.Properties.Needs
import Verif.Model.Examples
import Verif.Properties.Examples
import Verif.Model.Constructors
import Verif.Spec.ConstructorTable
import Verif.Spec.DefaultTable
import Verif.Proofs.ConstructorTable
import Verif.Properties.Constructors
import Verif.Spec.FieldTable
import Verif.Spec.Fresh
import Verif.Properties.Fields
import Verif.Model.Errors
import Verif.Proofs.Errors
import Verif.Properties.Errors
import Verif.Spec.HeaderCalls
import Verif.Properties.Length
import Verif.Spec.SisoCodes
import Verif.Spec.SisoCodesMore
import Verif.Spec.SisoCodesRest
import Verif.Proofs.SisoRest
import Verif.Properties.Siso
import Verif.Spec.Surplus
import Verif.Properties.DeclaredLength
import Verif.Properties.Conditional
import Verif.Spec.Layout
import Verif.Spec.HeaderLayout
import Verif.Spec.RecordLayout
import Verif.Spec.PduLayout1
import Verif.Spec.PduLayout2
import Verif.Spec.PduLayout3
import Verif.Spec.PduLayout4
import Verif.Spec.PduLayout
import Verif.Spec.Elements
import Verif.Spec.PduElements
import Verif.Proofs.Layout
import Verif.Proofs.LayoutHeads
import Verif.Proofs.LayoutHeader
import Verif.Proofs.LayoutRecords
import Verif.Proofs.LayoutPdus1
import Verif.Proofs.LayoutPdus2
import Verif.Proofs.LayoutPdus3
import Verif.Proofs.LayoutPdus4
import Verif.Proofs.LayoutKinds
import Verif.Proofs.Elements
import Verif.Proofs.ElementsPdus
import Verif.Properties.Layout
import Verif.Spec.Message
import Verif.Proofs.Message
import Verif.Proofs.MessagePdus
import Verif.Properties.Message
import Verif.Properties.Relay
import Verif.Properties.Stable
import Verif.Properties.RelayVariable
import Verif.Spec.CountedParts
import Verif.Proofs.AgreeVariable
import Verif.Properties.DecodeVariable
import Verif.Model.Guide
import Verif.Properties.Guide
import Verif.Model.Equality
import Verif.Properties.Equality
import Verif.Properties.Size
import Verif.Spec.MessageSize
import Verif.Proofs.MessageSize
import Verif.Properties.MessageSize
import Verif.Properties.Fresh
import Verif.Spec.Steps
import Verif.Proofs.Steps
import Verif.Proofs.StepsRecords
import Verif.Proofs.StepsPdus
import Verif.Proofs.Leaves
import Verif.Properties.Crash
import Verif.Properties.Work
import Verif.Proofs.Builds
import Verif.Proofs.BuildsRecords
import Verif.Proofs.BuildsPdus
import Verif.Properties.Builds
import Verif.Model.Visibility
import Verif.Spec.Buildable
import Verif.Properties.Obtainable
import Verif.Properties.Assignment
import Verif.Spec.Truthful
import Verif.Proofs.Told
import Verif.Proofs.ToldPdus
import Verif.Properties.Unambiguous
import Verif.Model.Network
import Verif.Model.StatusMethods
import Verif.Properties.StatusMethods
import Verif.Properties.Damage
import Verif.Properties.Fair
import Verif.Properties.UserPdus
import Verif.Properties.Sources
import Verif.Properties.Schedules
import Verif.Spec.Dispatch
import Verif.Properties.Dispatch
import Verif.Properties.Edit
import Verif.Properties.ByHand
import Verif.Properties.Standard
import Verif.Properties.TimestampClock
import Verif.Model.Printing
import Verif.Model.PrintedRecords
import Verif.Model.PrintedPdus
import Verif.Model.LogText
import Verif.Spec.Printing
import Verif.Spec.CalmRecords
import Verif.Spec.LogText
import Verif.Proofs.Legible
import Verif.Proofs.EnumNames
import Verif.Proofs.EnumNamesChecked
import Verif.Proofs.LegibleHeaders
import Verif.Proofs.LegibleRecords
import Verif.Proofs.LegibleBody
import Verif.Proofs.LegiblePdus1
import Verif.Proofs.LegiblePdus2
import Verif.Proofs.LegiblePdus3
import Verif.Proofs.LegibleKinds
import Verif.Properties.Printing
import Verif.Properties.LogText
import Verif.Spec.PrintedErrors
import Verif.Properties.PrintedErrors
import Verif.Model.Setup
import Verif.Proofs.Addresses
import Verif.Properties.Setup
import Verif.Validation.Tests
import Verif.Validation.CrateTests
import Verif.Audit
