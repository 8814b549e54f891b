import Verif.Basic
import Verif.Dec
import Verif.DecFacts
import Verif.Base64
import Verif.Json
import Verif.JsonFacts
import Verif.Wire
import Verif.WireFacts
import Verif.JsonCodec
import Verif.Model.Types
import Verif.Model.TypesJson
import Verif.Model.Proto
import Verif.Model.Store
import Verif.Model.Semver
import Verif.Model.Metadata
import Verif.Model.CosmosMsg
import Verif.Model.QueryMsg
import Verif.Model.Packet
import Verif.Model.Contract
import Verif.Model.World
import Verif.Facts.Handlers
import Verif.Facts.World
import Verif.Facts.Inv
import Verif.Facts.Step
import Verif.Model.Tx
import Verif.Facts.Tx
import Verif.Spec.Observe
import Verif.Props.Scenario
import Verif.Props.Ownership
import Verif.Spec.Proposal
import Verif.Props.Handshake
import Verif.Props.Channel
import Verif.Spec.Host
import Verif.Facts.Host
import Verif.Props.Send
import Verif.Spec.Answer
import Verif.Facts.Answer
import Verif.Facts.History
import Verif.Props.Answers
import Verif.Props.Paging
import Verif.Props.Reading
import Verif.Props.Closure
import Verif.Props.Mistake
import Verif.Props.Queries
import Verif.Facts.Callee
import Verif.Props.Callbacks
import Verif.Model.RawStore
import Verif.Spec.RawStore
import Verif.Facts.RawStore
import Verif.Model.RawWorld
import Verif.Facts.RawWorld
import Verif.Spec.Semver
import Verif.Facts.Semver
import Verif.Facts.RawKeep
import Verif.Facts.Migrate
import Verif.Props.Migrate
import Verif.Model.Helpers
import Verif.Spec.Wasm
import Verif.Props.Storage
import Verif.Props.Misc
import Verif.Model.Receivers
import Verif.Spec.OwnerWorld
import Verif.Props.Receivers
import Verif.Props.Owner
import Verif.Spec.Formats
import Verif.Facts.FormatWire
import Verif.Facts.FormatJson
import Verif.Facts.FormatBase64
import Verif.Props.Formats
import Verif.Props.Api
import Verif.Spec.System
import Verif.Facts.System
import Verif.Spec.OwnerApi
import Verif.Facts.OwnerApi
import Verif.Props.System
import Verif.Spec.ApiStored
import Verif.Facts.ApiStored
import Verif.Model.RawOwner
import Verif.Spec.RawOwnerWorld
import Verif.Facts.RawOwner
import Verif.Props.OwnerBytes
import Verif.Spec.Interchain
import Verif.Facts.Interchain
import Verif.Props.Interchain
import Verif.Model.Library
import Verif.Props.Library
import Verif.Spec.OwnerNet
import Verif.Facts.OwnerNet
import Verif.Props.OwnerMachine
import Verif.Props.OwnerNet
import Verif.Spec.Settle
import Verif.Props.Settle
import Verif.Spec.Reopen
import Verif.Facts.Reopen
import Verif.Props.Reopen
import Verif.Spec.Admission
import Verif.Props.Admission
import Verif.Spec.Events
import Verif.Props.Events
import Verif.Props.Order
import Verif.Spec.RawInterchain
import Verif.Props.Books
import Verif.Props.Machine
import Verif.Props.Bytes
import Verif.Spec.OwnerSettle
import Verif.Props.OwnerSettle
import Verif.Spec.Use
import Verif.Props.Use
import Verif.Props.Forward
import Verif.Props.Recover
import Verif.Model.GoClient
import Verif.Spec.Funds
import Verif.Spec.OwnerUse
import Verif.Spec.GoClient
import Verif.Props.Funds
import Verif.Props.OwnerUse
import Verif.Props.GoClient
import Verif.Model.GoAnswers
import Verif.Model.GoReader
import Verif.Spec.GoAnswers
import Verif.Facts.GoAnswers
import Verif.Props.GoAnswers
import Verif.Spec.Refusal
import Verif.Props.Refusal
import Verif.Spec.Stored
import Verif.Props.Stored
import Verif.Spec.OwnerRefusal
import Verif.Props.OwnerRefusal
import Verif.Spec.OwnerStored
import Verif.Props.OwnerStored
import Verif.Spec.StoredAs
import Verif.Props.StoredAs
import Verif.Spec.Schedule
import Verif.Facts.Schedule
import Verif.Props.Schedule
import Verif.Spec.Isolation
import Verif.Facts.Isolation
import Verif.Props.Isolation
import Verif.Spec.Footprint
import Verif.Facts.Footprint
import Verif.Props.Footprint
import Verif.Spec.Accounts
import Verif.Props.Accounts
import Verif.Spec.Upgrade
import Verif.Facts.Upgrade
import Verif.Props.Upgrade
import Verif.Spec.Writing
import Verif.Facts.Writing
import Verif.Facts.WritingOwner
import Verif.Props.Writing
import Verif.Spec.Script
import Verif.Spec.Displays
import Verif.Facts.Script
import Verif.Props.Script
import Verif.Props.Earlier
import Verif.Spec.Retry
import Verif.Props.Retry
import Verif.Spec.InterchainTx
import Verif.Props.InterchainTx
import Verif.Spec.Readme
import Verif.Props.Readme
import Verif.Props.Comments
import Verif.UnitTests
