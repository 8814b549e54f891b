import Verif.Spec.Observe
import Verif.Wire

/-!
# The channel proposal as the chain reads it

An independent reading of the protobuf bytes of `ibc.core.channel.v1.MsgChannelOpenInit`, with the field numbers of
ibc-go's `tx.proto` and `channel.proto`, and the ICS-27 metadata as a JSON object.
-/
namespace Ica.Spec

/-- What a `MsgChannelOpenInit` says. -/
structure Proposal where
  port : String
  /-- `ibc.core.channel.v1.State`: 1 is INIT -/
  state : Nat
  /-- `ibc.core.channel.v1.Order`: 1 is unordered, 2 is ordered -/
  ordering : Nat
  counterpartyPort : String
  counterpartyChannel : String
  connections : List String
  version : String
  signer : String

/-- Read the bytes: `MsgChannelOpenInit { 1: port_id, 2: channel, 3: signer }`,
`Channel { 1: state, 2: ordering, 3: counterparty, 4: connection_hops, 5: version }`,
`Counterparty { 1: port_id, 2: channel_id }`. -/
def readProposal (bs : Bytes) : Option Proposal := do
  let m ← parseWire bs
  let port ← dStr (sel 1 m)
  let ch ← ← dMsg (sel 2 m)
  let signer ← dStr (sel 3 m)
  let state ← dU64 (sel 1 ch)
  let ordering ← dU64 (sel 2 ch)
  let cp ← ← dMsg (sel 3 ch)
  let hops ← dStrs (sel 4 ch)
  let version ← dStr (sel 5 ch)
  let cpPort ← dStr (sel 1 cp)
  let cpChannel ← dStr (sel 2 cp)
  some ⟨port, state.toNat, ordering.toNat, cpPort, cpChannel, hops, version, signer⟩

/-- The number of an ordering on the wire. -/
def orderNumber : IbcOrder → Nat
  | .unordered => 1
  | .ordered => 2

/-- ICS-27 metadata proposed by a controller: no address yet. -/
def proposedMetadata (connection hostConnection : String) : Json :=
  .obj [("version", .str "ics27-1"), ("controller_connection_id", .str connection),
    ("host_connection_id", .str hostConnection), ("address", .str ""), ("encoding", .str "proto3"),
    ("tx_type", .str "sdk_multi_msg")]

/-- The ordering asked for: ordered unless stated otherwise. -/
def askedOrder (o : ChannelOpenInitOptions) : IbcOrder :=
  match o.channelOrdering with
  | some x => x
  | none => .ordered

/-- The counterparty port asked for: icahost unless stated otherwise. -/
def askedPort (o : ChannelOpenInitOptions) : String :=
  match o.counterpartyPortId with
  | some p => p
  | none => "icahost"

/-- The options most recently given in a history, by instantiation or by `CreateChannel` with options. -/
def lastOptions (h : List (Op × List Obs)) : Option ChannelOpenInitOptions :=
  h.foldl (fun acc x =>
    match x.1 with
    | .instantiate _ msg _ _ => some msg.channelOpenInitOptions
    | .execute _ (.createChannel (some o)) _ _ => some o
    | _ => acc) none

/-- The options an operation asks a channel with, after a history. -/
def askedOptions (h : List (Op × List Obs)) : Op → Option ChannelOpenInitOptions
  | .instantiate _ msg _ _ => some msg.channelOpenInitOptions
  | .execute _ (.createChannel (some o)) _ _ => some o
  | .execute _ (.createChannel none) _ _ => lastOptions h
  | _ => none

/-- The contract accepts this as metadata for a channel over the given connection. -/
structure ValidMetadata (api : Api) (m : IcaMetadata) (connection : String) : Prop where
  version : m.version = "ics27-1"
  connection : m.controllerConnectionId = connection
  encoding : m.encoding = .protobuf
  txType : m.txType = "sdk_multi_msg"
  /-- empty, or at most 128 bytes of alphanumeric characters -/
  address : m.address = "" ∨
    ((utf8 m.address).length ≤ 128 ∧ ∀ c ∈ m.address.toList,
      ('0' ≤ c ∧ c ≤ '9') ∨ ('A' ≤ c ∧ c ≤ 'Z') ∨ ('a' ≤ c ∧ c ≤ 'z') ∨
      (128 ≤ c.toNat ∧ api.alnumNonAscii c = true))

end Ica.Spec
