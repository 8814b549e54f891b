import Verif.Model.Store

/-!
# Queries: requests to protobuf, protobuf responses to values

`/repo/src/types/query_msg.rs`.
-/
namespace Ica

/-! ## Paths (`/repo/src/types/query_msg.rs` 61-97) -/
namespace Path
/-- `/repo/src/types/query_msg.rs` 63. -/
def balance : String := "/cosmos.bank.v1beta1.Query/Balance"
/-- `/repo/src/types/query_msg.rs` 65. -/
def allBalances : String := "/cosmos.bank.v1beta1.Query/AllBalances"
/-- `/repo/src/types/query_msg.rs` 67. -/
def denomMetadata : String := "/cosmos.bank.v1beta1.Query/DenomMetadata"
/-- `/repo/src/types/query_msg.rs` 69. -/
def allDenomMetadata : String := "/cosmos.bank.v1beta1.Query/DenomsMetadata"
/-- `/repo/src/types/query_msg.rs` 71. -/
def supply : String := "/cosmos.bank.v1beta1.Query/SupplyOf"
/-- `/repo/src/types/query_msg.rs` 75. -/
def validator : String := "/cosmos.staking.v1beta1.Query/Validator"
/-- `/repo/src/types/query_msg.rs` 78. -/
def allValidators : String := "/cosmos.staking.v1beta1.Query/Validators"
/-- `/repo/src/types/query_msg.rs` 81. -/
def delegation : String := "/cosmos.staking.v1beta1.Query/Delegation"
/-- `/repo/src/types/query_msg.rs` 84. -/
def allDelegations : String := "/cosmos.staking.v1beta1.Query/DelegatorDelegations"
/-- `/repo/src/types/query_msg.rs` 87. -/
def stakingParams : String := "/cosmos.staking.v1beta1.Query/Params"
/-- `/repo/src/types/query_msg.rs` 90. -/
def contractInfo : String := "/cosmwasm.wasm.v1.Query/ContractInfo"
/-- `/repo/src/types/query_msg.rs` 94. -/
def raw : String := "/cosmwasm.wasm.v1.Query/RawContractState"
/-- `/repo/src/types/query_msg.rs` 96. -/
def smart : String := "/cosmwasm.wasm.v1.Query/SmartContractState"
end Path

/-- `convert_to_protobuf::bank` (`/repo/src/types/query_msg.rs` 232-275). -/
def bankToProtobuf (q : BankQuery) : Res (String × Bytes × Bool) :=
  match q with
  | .balance address denom => .ok (Path.balance, P.QueryBalanceRequest.toBytes ⟨address, denom⟩, false)
  | .allBalances address => .ok (Path.allBalances, P.QueryAllBalancesRequest.toBytes ⟨address, none⟩, false)
  | .denomMetadata denom => .ok (Path.denomMetadata, P.QueryDenomMetadataRequest.toBytes ⟨denom⟩, false)
  | .allDenomMetadata pagination =>
    .ok (Path.allDenomMetadata, P.QueryDenomsMetadataRequest.toBytes
      ⟨pagination.map fun p =>
        { key := p.key.getD [], offset := 0, limit := p.limit.toUInt64, countTotal := false,
          reverse := p.reverse }⟩, false)
  | .supply denom => .ok (Path.supply, P.QuerySupplyOfRequest.toBytes ⟨denom⟩, false)

/-- `convert_to_protobuf::wasm` (`/repo/src/types/query_msg.rs` 277-310). -/
def wasmToProtobuf (q : WasmQuery) : Res (String × Bytes × Bool) :=
  match q with
  | .raw contractAddr key =>
    .ok (Path.raw, P.QueryRawContractStateRequest.toBytes ⟨contractAddr, key⟩, false)
  | .smart contractAddr msg =>
    .ok (Path.smart, P.QuerySmartContractStateRequest.toBytes ⟨contractAddr, msg⟩, false)
  | .contractInfo contractAddr =>
    .ok (Path.contractInfo, P.QueryContractInfoRequest.toBytes ⟨contractAddr⟩, false)
  | .codeInfo _ => .panic "CodeInfo query is not supported due to response size."

/-- `convert_to_protobuf::staking` (`/repo/src/types/query_msg.rs` 312-365). -/
def stakingToProtobuf (q : StakingQuery) : Res (String × Bytes × Bool) :=
  match q with
  | .validator address => .ok (Path.validator, P.QueryValidatorRequest.toBytes ⟨address⟩, false)
  | .allValidators => .ok (Path.allValidators, P.QueryValidatorsRequest.toBytes ⟨"", none⟩, false)
  | .delegation delegator validator =>
    .ok (Path.delegation, P.QueryDelegationRequest.toBytes ⟨delegator, validator⟩, false)
  | .allDelegations delegator =>
    .ok (Path.allDelegations, P.QueryDelegatorDelegationsRequest.toBytes ⟨delegator, none⟩, false)
  | .bondedDenom => .ok (Path.stakingParams, P.QueryParamsRequest.toBytes ⟨⟩, false)

/-- `query_to_protobuf` (`/repo/src/types/query_msg.rs` 13-29, with feature `staking`). -/
def queryToProtobuf (q : QueryRequest) : Res (String × Bytes × Bool) :=
  match q with
  | .bank b => bankToProtobuf b
  | .stargate path data => .ok (path, data, true)
  | .wasm w => wasmToProtobuf w
  | .ibc _ => .panic "ibc-go queries are not marked module safe (yet)"
  | .custom _ => .panic "custom queries are not supported"
  | .staking s => stakingToProtobuf s
  | .distribution _ => .panic "distribution queries are not marked module safe (yet)"

/-! ## Responses -/

/-- A prost decode, `?` applied. -/
def decodeOr {α : Type} (o : Option α) : Res α :=
  match o with
  | some x => .ok x
  | none => .err (.prostDecode "failed to decode Protobuf message")

/-- `convert_to_coin` (`/repo/src/types/query_msg.rs` 396-401). -/
def convertToCoin (c : P.Coin) : Res Coin :=
  match parseU128 c.amount with
  | some a => .ok ⟨c.denom, a⟩
  | none => .err (.std "Generic error: Parsing u128")

/-- `Coin::default()`. -/
def defaultCoin : Coin := ⟨"", ⟨0, by decide⟩⟩

/-- `convert_to_metadata` (`/repo/src/types/query_msg.rs` 403-422). -/
def convertToMetadata (m : P.Metadata) : DenomMetadata :=
  { name := m.name, symbol := m.symbol, description := m.description, base := m.base, display := m.display,
    uri := m.uri, uriHash := m.uriHash,
    denomUnits := m.denomUnits.map fun u => ⟨u.denom, u.exponent, u.aliases⟩ }

/-- `DenomMetadata::default()`. -/
def defaultMetadata : DenomMetadata := ⟨"", [], "", "", "", "", "", ""⟩

/-- `Decimal::from_str(..)?`. -/
def decimalOr (s : String) : Res Decimal :=
  match parseDecimal s with
  | some d => .ok d
  | none => .err (.std "Generic error: Error parsing decimal")

/-- `convert_to_validator` (`/repo/src/types/query_msg.rs` 424-442). -/
def convertToValidator (v : P.Validator) : Res Validator :=
  let rates : P.CommissionRates :=
    (((v.commission.getD ⟨none, none⟩).commissionRates).getD ⟨"", "", ""⟩)
  (decimalOr rates.rate).bind fun a =>
  (decimalOr rates.maxRate).bind fun b =>
  (decimalOr rates.maxChangeRate).bind fun c =>
  .ok ⟨v.operatorAddress, a, b, c⟩

/-- `x.map(f).transpose()?` on `Option`. -/
def optRes {α β : Type} (o : Option α) (f : α → Res β) : Res (Option β) :=
  match o with
  | none => .ok none
  | some x => (f x).bind fun y => .ok (some y)

/-- `map_or_else(|| Ok(Coin::default()), convert_to_coin)?` (`/repo/src/types/query_msg.rs` 475-476). -/
def coinOrDefault (o : Option P.Coin) : Res Coin :=
  match o with
  | none => .ok defaultCoin
  | some c => convertToCoin c

/-- `bank_response` (`/repo/src/types/query_msg.rs` 469-524). -/
def bankResponse (path : String) (resp : Bytes) : Res IcaQueryResponse :=
  if path = Path.balance then
    (decodeOr (P.QueryBalanceResponse.ofBytes resp)).bind fun r =>
    (coinOrDefault r.balance).bind fun c => .ok (.bank (.balance ⟨c⟩))
  else if path = Path.allBalances then
    (decodeOr (P.QueryAllBalancesResponse.ofBytes resp)).bind fun r =>
    (mapRes convertToCoin r.balances).bind fun cs => .ok (.bank (.allBalances ⟨cs⟩))
  else if path = Path.denomMetadata then
    (decodeOr (P.QueryDenomMetadataResponse.ofBytes resp)).bind fun r =>
    .ok (.bank (.denomMetadata ⟨(r.metadata.map convertToMetadata).getD defaultMetadata⟩))
  else if path = Path.allDenomMetadata then
    (decodeOr (P.QueryDenomsMetadataResponse.ofBytes resp)).bind fun r =>
    .ok (.bank (.allDenomMetadata ⟨r.metadatas.map convertToMetadata, r.pagination.map (·.nextKey)⟩))
  else if path = Path.supply then
    (decodeOr (P.QuerySupplyOfResponse.ofBytes resp)).bind fun r =>
    (coinOrDefault r.amount).bind fun c => .ok (.bank (.supply ⟨c⟩))
  else .err (.unknownDataType path)

/-- `if s.is_empty() { None } else { Some(s) }` (`/repo/src/types/query_msg.rs` 535-545). -/
def nonEmpty (s : String) : Option String := if s = "" then none else some s

/-- `wasm_response` (`/repo/src/types/query_msg.rs` 526-568). -/
def wasmResponse (path : String) (resp : Bytes) : Res IcaQueryResponse :=
  if path = Path.contractInfo then
    (decodeOr (P.QueryContractInfoResponse.ofBytes resp)).bind fun r =>
    .ok (.wasm (.contractInfo (r.contractInfo.map fun i =>
      ⟨i.codeId, i.creator, nonEmpty i.admin, false, nonEmpty i.ibcPortId⟩)))
  else if path = Path.raw then
    (decodeOr (P.QueryDataResponse.ofBytes resp)).bind fun r =>
    .ok (.wasm (.rawContractState (if r.data = [] then none else some r.data)))
  else if path = Path.smart then
    (decodeOr (P.QueryDataResponse.ofBytes resp)).bind fun r => .ok (.wasm (.smartContractState r.data))
  else .err (.unknownDataType path)

/-- One delegation (`/repo/src/types/query_msg.rs` 606-616, 628-638). -/
def convertToDelegation (balance : Option P.Coin) (d : P.Delegation) : Res Delegation :=
  (convertToCoin (balance.getD ⟨"", ""⟩)).bind fun c => .ok ⟨d.delegatorAddress, d.validatorAddress, c⟩

/-- `filter_map(..).collect::<StdResult<_>>()` (`/repo/src/types/query_msg.rs` 625-639). -/
def collectDelegations : List P.DelegationResponse → Res (List Delegation)
  | [] => .ok []
  | r :: rs =>
    match r.delegation with
    | none => collectDelegations rs
    | some d =>
      (convertToDelegation r.balance d).bind fun x =>
      (collectDelegations rs).bind fun xs => .ok (x :: xs)

/-- `staking_response` (`/repo/src/types/query_msg.rs` 570-655). -/
def stakingResponse (path : String) (resp : Bytes) : Res IcaQueryResponse :=
  if path = Path.validator then
    (decodeOr (P.QueryValidatorResponse.ofBytes resp)).bind fun r =>
    (optRes r.validator convertToValidator).bind fun v => .ok (.staking (.validator ⟨v⟩))
  else if path = Path.allValidators then
    (decodeOr (P.QueryValidatorsResponse.ofBytes resp)).bind fun r =>
    (mapRes convertToValidator r.validators).bind fun vs => .ok (.staking (.allValidators ⟨vs⟩))
  else if path = Path.delegation then
    (decodeOr (P.QueryDelegationResponse.ofBytes resp)).bind fun r =>
    (optRes (r.delegationResponse.bind fun dr => dr.delegation.map fun d => (dr.balance, d))
      fun p => convertToDelegation p.1 p.2).bind fun d => .ok (.staking (.delegation ⟨d⟩))
  else if path = Path.allDelegations then
    (decodeOr (P.QueryDelegatorDelegationsResponse.ofBytes resp)).bind fun r =>
    (collectDelegations r.delegationResponses).bind fun ds => .ok (.staking (.allDelegations ⟨ds⟩))
  else if path = Path.stakingParams then
    (decodeOr (P.QueryParamsResponse.ofBytes resp)).bind fun r =>
    match r.params with
    | none => .err (.emptyResponse path)
    | some p => .ok (.staking (.bondedDenom ⟨p.bondDenom⟩))
  else .err (.unknownDataType path)

/-- `str::starts_with`. -/
def startsWith (s pre : String) : Bool := pre.toList.isPrefixOf s.toList

/-- `from_protobuf::response` (`/repo/src/types/query_msg.rs` 448-467). -/
def responseFromProtobuf (path : String) (resp : Bytes) (isStargate : Bool) : Res IcaQueryResponse :=
  if isStargate then .ok (.stargate resp path)
  else if startsWith path "/cosmos.bank.v1beta1.Query/" then bankResponse path resp
  else if startsWith path "/cosmwasm.wasm.v1.Query/" then wasmResponse path resp
  else if startsWith path "/cosmos.staking.v1beta1.Query/" then stakingResponse path resp
  else .err (.unknownDataType path)

/-- The text of an error (`Display for ContractError`, `/repo/src/types/error.rs` 8-106). Texts of third-party errors are
shortened; that of `OwnershipError::NotOwner` is in `/repo/src/contract.rs` 466-469, those of the other errors of cw-ownable
are not in /repo and are left out. Only texts of errors of reading an answer are used by the contract itself. -/
def errText (e : Err) : String :=
  match e with
  | .std m => m
  | .prostDecode m => "prost decoding error: " ++ m
  | .semver => "semver parse error"
  | .ownership .notOwner => "Caller is not the contract's current owner"
  | .ownership _ => "ownership error"
  | .bufany => "bufany error"
  | .ownershipCannotBeRenounced => "this contract must have an owner"
  | .invalidMigrationVersion expected actual => "invalid migration version: expected " ++ expected ++ ", got " ++ actual
  | .invalidHostPort => "invalid host port"
  | .invalidControllerPort => "invalid controller port"
  | .invalidVersion expected actual =>
    "invalid interchain accounts version: expected " ++ expected ++ ", got " ++ actual
  | .channelOpenInitNotAllowed => "MsgChannelOpenInit is not allowed"
  | .channelCloseInitNotAllowed => "MsgChannelCloseInit is not allowed"
  | .invalidIcaAddress => "invalid interchain account address"
  | .unsupportedTxType t => "unsupported transaction type " ++ t
  | .invalidConnection => "invalid connection"
  | .unknownDataType s => "unknown data type: " ++ s
  | .activeChannelAlreadySet => "active channel already set for this contract"
  | .invalidChannelInContractState => "invalid channel in contract state"
  | .icaInfoNotSet => "interchain account information is not set"
  | .noChannelInitOptions => "no channel init options are provided to the contract"
  | .invalidChannelStatus expected actual => "invalid channel status: expected " ++ expected ++ ", got " ++ actual
  | .unsupportedPacketEncoding e => "unsupported packet encoding: " ++ e
  | .emptyResponse s => "empty response: " ++ s
  | .unknownReplyId id => "unknown reply id: " ++ decString id.toNat

/-- `result_from_response` (`/repo/src/types/query_msg.rs` 34-58). A panic cannot occur in the mapping; it is
passed on. -/
def resultFromResponse (paths : QueryPaths) (m : P.MsgModuleQuerySafeResponse) : Res IcaQueryResult :=
  if paths.length ≠ m.responses.length then
    .ok (.error ("expected " ++ decString paths.length ++ " responses, got " ++ decString m.responses.length))
  else
    match mapRes (fun p => responseFromProtobuf p.1.1 p.2 p.1.2) (paths.zip m.responses) with
    | .ok rs => .ok (.success m.height rs)
    | .err e => .ok (.error (errText e))
    | .panic p => .panic p

end Ica
