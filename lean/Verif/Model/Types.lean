import Verif.Dec
import Verif.Hex

/-!
# Types of cosmwasm-std and of the contract

Generated by `tools/gen.py`.
-/
namespace Ica

/-- `Coin` (cosmwasm-std 2.1.3, not in /repo); used at `/repo/src/types/cosmos_msg.rs` 84-330, `/repo/src/types/query_msg.rs` 396-401. -/
structure Coin where
  denom : String
  amount : U128
  deriving DecidableEq

/-- `IbcOrder` (cosmwasm-std 2.1.3, not in /repo); used at `/repo/src/ibc/types/stargate.rs` 71-74, `/repo/src/types/state.rs` 194-196. -/
inductive IbcOrder where
  | unordered
  | ordered
  deriving DecidableEq

/-- `IbcEndpoint` (cosmwasm-std 2.1.3, not in /repo). -/
structure IbcEndpoint where
  portId : String
  channelId : String
  deriving DecidableEq

/-- `IbcChannel` (cosmwasm-std 2.1.3, not in /repo); used at `/repo/src/ibc/handshake.rs` 97-261. -/
structure IbcChannel where
  endpoint : IbcEndpoint
  counterpartyEndpoint : IbcEndpoint
  order : IbcOrder
  version : String
  connectionId : String
  deriving DecidableEq

/-- `IbcTimeoutBlock` (cosmwasm-std 2.1.3, not in /repo); used at `/repo/src/types/cosmos_msg.rs` 118-121. -/
structure IbcTimeoutBlock where
  revision : UInt64
  height : UInt64
  deriving DecidableEq

/-- `IbcTimeout` (cosmwasm-std 2.1.3, not in /repo); used at `/repo/src/ibc/types/packet.rs` 191, `/repo/src/types/cosmos_msg.rs` 118-122. -/
structure IbcTimeout where
  block : Option IbcTimeoutBlock
  timestamp : Option UInt64
  deriving DecidableEq

/-- `IbcPacket` (cosmwasm-std 2.1.3, not in /repo); used at `/repo/src/ibc/relay.rs` 26-192. -/
structure IbcPacket where
  data : Bytes
  src : IbcEndpoint
  dest : IbcEndpoint
  sequence : UInt64
  timeout : IbcTimeout
  deriving DecidableEq

/-- `BankMsg` (cosmwasm-std 2.1.3, not in /repo); matched at `/repo/src/types/cosmos_msg.rs` 84-99. -/
inductive BankMsg where
  | send (toAddress : String) (amount : List Coin)
  | burn (amount : List Coin)
  deriving DecidableEq

/-- `StakingMsg` (cosmwasm-std 2.1.3, not in /repo); matched at `/repo/src/types/cosmos_msg.rs` 260-299. -/
inductive StakingMsg where
  | delegate (validator : String) (amount : Coin)
  | undelegate (validator : String) (amount : Coin)
  | redelegate (srcValidator : String) (dstValidator : String) (amount : Coin)
  deriving DecidableEq

/-- `DistributionMsg` (cosmwasm-std 2.1.3, not in /repo); matched at `/repo/src/types/cosmos_msg.rs` 302-330. -/
inductive DistributionMsg where
  | setWithdrawAddress (address : String)
  | withdrawDelegatorReward (validator : String)
  | fundCommunityPool (amount : List Coin)
  deriving DecidableEq

/-- `IbcMsg` (cosmwasm-std 2.1.3, not in /repo); matched at `/repo/src/types/cosmos_msg.rs` 101-127, built at `/repo/src/ibc/types/packet.rs` 188-192 and `/repo/src/contract.rs` 182-184. -/
inductive IbcMsg where
  | transfer (channelId : String) (toAddress : String) (amount : Coin) (timeout : IbcTimeout) (memo : Option String)
  | sendPacket (channelId : String) (data : Bytes) (timeout : IbcTimeout)
  | closeChannel (channelId : String)
  deriving DecidableEq

/-- `WasmMsg` (cosmwasm-std 2.1.3, not in /repo); matched at `/repo/src/types/cosmos_msg.rs` 129-214, built at `/repo/src/types/callbacks.rs` 82-86 and `/repo/src/helpers.rs` 53-183. -/
inductive WasmMsg where
  | execute (contractAddr : String) (msg : Bytes) (funds : List Coin)
  | instantiate (admin : Option String) (codeId : UInt64) (msg : Bytes) (funds : List Coin) (label : String)
  | instantiate2 (admin : Option String) (codeId : UInt64) (label : String) (msg : Bytes) (funds : List Coin) (salt : Bytes)
  | migrate (contractAddr : String) (newCodeId : UInt64) (msg : Bytes)
  | updateAdmin (contractAddr : String) (admin : String)
  | clearAdmin (contractAddr : String)
  deriving DecidableEq

/-- `VoteOption` (cosmwasm-std 2.1.3, not in /repo); matched at `/repo/src/types/cosmos_msg.rs` 217-224. -/
inductive VoteOption where
  | yes
  | no
  | abstain
  | noWithVeto
  deriving DecidableEq

/-- `WeightedVoteOption` (cosmwasm-std 2.1.3, not in /repo); used at `/repo/src/types/cosmos_msg.rs` 239-247. -/
structure WeightedVoteOption where
  option : VoteOption
  weight : Decimal
  deriving DecidableEq

/-- `GovMsg` (cosmwasm-std 2.1.3, not in /repo); matched at `/repo/src/types/cosmos_msg.rs` 226-257. -/
inductive GovMsg where
  | vote (proposalId : UInt64) (option : VoteOption)
  | voteWeighted (proposalId : UInt64) (options : List WeightedVoteOption)
  deriving DecidableEq

/-- `Empty` (cosmwasm-std 2.1.3, not in /repo). -/
structure Empty where
  deriving DecidableEq

/-- `CosmosMsg<Empty>` (cosmwasm-std 2.1.3, not in /repo); matched at `/repo/src/types/cosmos_msg.rs` 38-57. -/
inductive CosmosMsg where
  | bank (x : BankMsg)
  | custom (x : Empty)
  | staking (x : StakingMsg)
  | distribution (x : DistributionMsg)
  | stargate (typeUrl : String) (value : Bytes)
  | ibc (x : IbcMsg)
  | wasm (x : WasmMsg)
  | gov (x : GovMsg)
  deriving DecidableEq

/-- `PageRequest` (cosmwasm-std 2.1.3, not in /repo); used at `/repo/src/types/query_msg.rs` 254-260. -/
structure PageRequest where
  key : Option Bytes
  limit : UInt32
  reverse : Bool
  deriving DecidableEq

/-- `BankQuery` (cosmwasm-std 2.1.3, not in /repo); matched at `/repo/src/types/query_msg.rs` 232-275. -/
inductive BankQuery where
  | supply (denom : String)
  | balance (address : String) (denom : String)
  | allBalances (address : String)
  | denomMetadata (denom : String)
  | allDenomMetadata (pagination : Option PageRequest)
  deriving DecidableEq

/-- `StakingQuery` (cosmwasm-std 2.1.3, not in /repo); matched at `/repo/src/types/query_msg.rs` 312-365. -/
inductive StakingQuery where
  | bondedDenom
  | allDelegations (delegator : String)
  | delegation (delegator : String) (validator : String)
  | allValidators
  | validator (address : String)
  deriving DecidableEq

/-- `DistributionQuery` (cosmwasm-std 2.1.3, not in /repo); rejected at `/repo/src/types/query_msg.rs` 24-26. -/
inductive DistributionQuery where
  | delegatorWithdrawAddress (delegatorAddress : String)
  | delegationRewards (delegatorAddress : String) (validatorAddress : String)
  | delegationTotalRewards (delegatorAddress : String)
  | delegatorValidators (delegatorAddress : String)
  deriving DecidableEq

/-- `IbcQuery` (cosmwasm-std 2.1.3, not in /repo); rejected at `/repo/src/types/query_msg.rs` 19. -/
inductive IbcQuery where
  | portId
  | listChannels (portId : Option String)
  | channel (channelId : String) (portId : Option String)
  deriving DecidableEq

/-- `WasmQuery` (cosmwasm-std 2.1.3, not in /repo); matched at `/repo/src/types/query_msg.rs` 277-310. -/
inductive WasmQuery where
  | smart (contractAddr : String) (msg : Bytes)
  | raw (contractAddr : String) (key : Bytes)
  | contractInfo (contractAddr : String)
  | codeInfo (codeId : UInt64)
  deriving DecidableEq

/-- `QueryRequest<Empty>` (cosmwasm-std 2.1.3, not in /repo); matched at `/repo/src/types/query_msg.rs` 13-29. -/
inductive QueryRequest where
  | bank (x : BankQuery)
  | custom (x : Empty)
  | staking (x : StakingQuery)
  | distribution (x : DistributionQuery)
  | stargate (path : String) (data : Bytes)
  | ibc (x : IbcQuery)
  | wasm (x : WasmQuery)
  deriving DecidableEq

/-- `/repo/src/types/msg.rs` 95-118 (plain serde derive: unknown members are ignored). -/
structure ChannelOpenInitOptions where
  connectionId : String
  counterpartyConnectionId : String
  counterpartyPortId : Option String
  channelOrdering : Option IbcOrder
  deriving DecidableEq

/-- `/repo/src/ibc/types/metadata.rs` 42-50. -/
inductive TxEncoding where
  | protobuf
  | proto3Json
  deriving DecidableEq

/-- `/repo/src/types/state.rs` 104-109. -/
structure IcaInfo where
  icaAddress : String
  channelId : String
  encoding : TxEncoding
  deriving DecidableEq

/-- `/repo/src/types/state.rs` 53-63 (plain serde derive with defaults). -/
structure ContractState where
  icaInfo : Option IcaInfo
  callbackAddress : Option String
  deriving DecidableEq

/-- `/repo/src/types/state.rs` 134-159. -/
inductive ChannelStatus where
  | uninitialized
  | init
  | tryOpen
  | opened
  | closed
  | flushing
  | flushComplete
  deriving DecidableEq

/-- `/repo/src/types/state.rs` 163-169. -/
structure ChannelState where
  channel : IbcChannel
  channelStatus : ChannelStatus
  deriving DecidableEq

/-- `cw_utils::Expiration` (cw-ownable 2.0.0, not in /repo); used by `cw_ownable::Action` at `/repo/src/contract.rs` 228-241. -/
inductive Expiration where
  | atHeight (x : UInt64)
  | atTime (x : UInt64)
  | never
  deriving DecidableEq

/-- `cw_ownable::Ownership` (not in /repo); returned at `/repo/src/contract.rs` 102. -/
structure Ownership where
  owner : Option String
  pendingOwner : Option String
  pendingExpiry : Option Expiration
  deriving DecidableEq

/-- `cw_ownable::Action` (not in /repo); `/repo/src/contract.rs` 228-241. -/
inductive Action where
  | transferOwnership (newOwner : String) (expiry : Option Expiration)
  | acceptOwnership
  | renounceOwnership
  deriving DecidableEq

/-- `cw2::ContractVersion` (not in /repo); written at `/repo/src/contract.rs` 21, 113. -/
structure ContractVersion where
  contract : String
  version : String
  deriving DecidableEq

/-- `/repo/src/types/msg.rs` 8-21. -/
structure InstantiateMsg where
  owner : Option String
  channelOpenInitOptions : ChannelOpenInitOptions
  sendCallbacksTo : Option String
  deriving DecidableEq

/-- `/repo/src/types/msg.rs` 23-71 with the variant added by `cw_ownable_execute`. -/
inductive ExecuteMsg where
  | createChannel (options : Option ChannelOpenInitOptions)
  | closeChannel
  | sendCosmosMsgs (messages : List CosmosMsg) (queries : List QueryRequest) (packetMemo : Option String) (timeoutSeconds : Option UInt64)
  | updateCallbackAddress (callbackAddress : Option String)
  | updateOwnership (x : Action)
  deriving DecidableEq

/-- `/repo/src/types/msg.rs` 73-85 with the variant added by `cw_ownable_query`. -/
inductive QueryMsg where
  | getChannel
  | getContractState
  | ownership
  deriving DecidableEq

/-- `/repo/src/types/msg.rs` 87-89. -/
structure MigrateMsg where
  deriving DecidableEq

/-- `/repo/src/ibc/types/metadata.rs` 21-39. -/
structure IcaMetadata where
  version : String
  controllerConnectionId : String
  hostConnectionId : String
  address : String
  encoding : TxEncoding
  txType : String
  deriving DecidableEq

/-- `/repo/src/ibc/types/packet.rs` 27-46 (`data: Vec<u8>` is an array of numbers). -/
structure IcaPacketData where
  «type» : UInt32
  data : List UInt8
  memo : Option String
  deriving DecidableEq

/-- `/repo/src/ibc/types/packet.rs` 211-219. -/
inductive AckData where
  | result (x : Bytes)
  | error (x : String)
  deriving DecidableEq

/-- `DenomUnit` (cosmwasm-std 2.1.3, not in /repo); built at `/repo/src/types/query_msg.rs` 412-420. -/
structure DenomUnit where
  denom : String
  exponent : UInt32
  aliases : List String
  deriving DecidableEq

/-- `DenomMetadata` (cosmwasm-std 2.1.3, not in /repo); built at `/repo/src/types/query_msg.rs` 403-422. -/
structure DenomMetadata where
  description : String
  denomUnits : List DenomUnit
  base : String
  display : String
  name : String
  symbol : String
  uri : String
  uriHash : String
  deriving DecidableEq

/-- `SupplyResponse`, `BalanceResponse` (cosmwasm-std 2.1.3, not in /repo): one coin `amount`. -/
structure CoinResponse where
  amount : Coin
  deriving DecidableEq

/-- `AllBalanceResponse` (cosmwasm-std 2.1.3, not in /repo). -/
structure AllBalanceResponse where
  amount : List Coin
  deriving DecidableEq

/-- `DenomMetadataResponse` (cosmwasm-std 2.1.3, not in /repo). -/
structure DenomMetadataResponse where
  metadata : DenomMetadata
  deriving DecidableEq

/-- `AllDenomMetadataResponse` (cosmwasm-std 2.1.3, not in /repo). -/
structure AllDenomMetadataResponse where
  metadata : List DenomMetadata
  nextKey : Option Bytes
  deriving DecidableEq

/-- `/repo/src/types/query_msg.rs` 138-152. -/
inductive BankQueryResponse where
  | supply (x : CoinResponse)
  | balance (x : CoinResponse)
  | allBalances (x : AllBalanceResponse)
  | denomMetadata (x : DenomMetadataResponse)
  | allDenomMetadata (x : AllDenomMetadataResponse)
  deriving DecidableEq

/-- `ContractInfoResponse` (cosmwasm-std 2.1.3, not in /repo); built at `/repo/src/types/query_msg.rs` 532-546. -/
structure ContractInfoResponse where
  codeId : UInt64
  creator : String
  admin : Option String
  pinned : Bool
  ibcPort : Option String
  deriving DecidableEq

/-- `CodeInfoResponse` (cosmwasm-std 2.1.3, not in /repo); used at `/repo/src/types/query_msg.rs` 162-164. -/
structure CodeInfoResponse where
  codeId : UInt64
  creator : String
  checksum : Checksum
  deriving DecidableEq

/-- `/repo/src/types/query_msg.rs` 154-169 (the contract never produces `CodeInfo`, but a receiver can read it). -/
inductive WasmQueryResponse where
  | contractInfo (x : Option ContractInfoResponse)
  | codeInfo (x : Option CodeInfoResponse)
  | rawContractState (x : Option Bytes)
  | smartContractState (x : Bytes)
  deriving DecidableEq

/-- `/repo/src/types/query_msg.rs` 201-210. -/
structure Delegation where
  delegator : String
  validator : String
  amount : Coin
  deriving DecidableEq

/-- `/repo/src/types/query_msg.rs` 187-192. -/
structure IcaDelegationResponse where
  delegation : Option Delegation
  deriving DecidableEq

/-- `/repo/src/types/query_msg.rs` 194-199. -/
structure IcaAllDelegationsResponse where
  delegations : List Delegation
  deriving DecidableEq

/-- `Validator` (cosmwasm-std 2.1.3, not in /repo); built at `/repo/src/types/query_msg.rs` 424-442. -/
structure Validator where
  address : String
  commission : Decimal
  maxCommission : Decimal
  maxChangeRate : Decimal
  deriving DecidableEq

/-- `AllValidatorsResponse` (cosmwasm-std 2.1.3, not in /repo). -/
structure AllValidatorsResponse where
  validators : List Validator
  deriving DecidableEq

/-- `ValidatorResponse` (cosmwasm-std 2.1.3, not in /repo). -/
structure ValidatorResponse where
  validator : Option Validator
  deriving DecidableEq

/-- `BondedDenomResponse` (cosmwasm-std 2.1.3, not in /repo). -/
structure BondedDenomResponse where
  denom : String
  deriving DecidableEq

/-- `/repo/src/types/query_msg.rs` 171-185. -/
inductive StakingQueryResponse where
  | bondedDenom (x : BondedDenomResponse)
  | allDelegations (x : IcaAllDelegationsResponse)
  | delegation (x : IcaDelegationResponse)
  | allValidators (x : AllValidatorsResponse)
  | validator (x : ValidatorResponse)
  deriving DecidableEq

/-- `/repo/src/types/query_msg.rs` 118-136. -/
inductive IcaQueryResponse where
  | bank (x : BankQueryResponse)
  | stargate (data : Bytes) (path : String)
  | wasm (x : WasmQueryResponse)
  | staking (x : StakingQueryResponse)
  deriving DecidableEq

/-- `/repo/src/types/query_msg.rs` 103-116. -/
inductive IcaQueryResult where
  | success (height : UInt64) (responses : List IcaQueryResponse)
  | error (x : String)
  deriving DecidableEq

/-- `IcaControllerCallbackMsg`, `/repo/src/types/callbacks.rs` 16-59 (plain serde derive). -/
inductive CallbackMsg where
  | onAcknowledgementPacketCallback (icaAcknowledgement : AckData) (originalPacket : IbcPacket) (relayer : String) (queryResult : Option IcaQueryResult)
  | onTimeoutPacketCallback (originalPacket : IbcPacket) (relayer : String)
  | onChannelOpenAckCallback (channel : IbcChannel) (icaAddress : String) (txEncoding : TxEncoding)
  deriving DecidableEq

/-- `ReceiverExecuteMsg`, `/repo/src/types/callbacks.rs` 92-97. -/
inductive ReceiverExecuteMsg where
  | receiveIcaCallback (x : CallbackMsg)
  deriving DecidableEq

end Ica
