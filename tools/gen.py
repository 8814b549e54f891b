#!/usr/bin/env python3
"""Generates lean/Verif/Model/{Types,TypesJson,Proto}.lean from the tables below.
The generated files are committed; this script only saves typing."""
import os
OUT = os.path.join(os.path.dirname(os.path.abspath(__file__)), "..", "lean", "Verif", "Model")

# ---------------------------------------------------------------- type language
# "Str" "U64" "U32" "U8" "Bool" "Uint64" "Uint128" "Decimal" "Bin" "Bytes8" ; ("List",T) ("Opt",T) ("Pair",A,B) ; or a named type
PRIM = {"Str": ("String", "jcStr"), "U64": ("UInt64", "jcU64"), "U32": ("UInt32", "jcU32"), "U8": ("UInt8", "jcU8"),
        "Bool": ("Bool", "jcBool"), "Uint64": ("UInt64", "jcUint64"), "Uint128": ("U128", "jcUint128"),
        "Decimal": ("Decimal", "jcDecimal"), "Bin": ("Bytes", "jcBin"),
        "Checksum": ("Checksum", "jcChecksum")}

def lt(t, top=True):
    if isinstance(t, tuple):
        if t[0] == "List": r = "List " + lt(t[1], False)
        elif t[0] == "Opt": r = "Option " + lt(t[1], False)
        elif t[0] == "Pair": r = lt(t[1], False) + " × " + lt(t[2], False)
        return r if top else "(" + r + ")"
    return PRIM[t][0] if t in PRIM else t

def jc(t, top=True):
    if isinstance(t, tuple):
        if t[0] == "List": r = "jcList " + jc(t[1], False)
        elif t[0] == "Opt": r = "jcOpt " + jc(t[1], False)
        elif t[0] == "Pair": r = "jcPair " + jc(t[1], False) + " " + jc(t[2], False)
        return r if top else "(" + r + ")"
    return PRIM[t][1] if t in PRIM else t + ".jc"

def law(t, top=True):
    if isinstance(t, tuple):
        if t[0] == "List": r = "jcList_law " + law(t[1], False)
        elif t[0] == "Opt": r = "jcOpt_law " + law(t[1], False) + " " + nn(t[1], False)
        elif t[0] == "Pair": r = "jcPair_law " + law(t[1], False) + " " + law(t[2], False)
        return r if top else "(" + r + ")"
    return (PRIM[t][1] if t in PRIM else t + ".jc") + "_law"

def nn(t, top=True):
    if isinstance(t, tuple):
        if t[0] == "List": r = "jcList_nn " + jc(t[1], False)
        elif t[0] == "Pair": r = "jcPair_nn " + jc(t[1], False) + " " + jc(t[2], False)
        else: raise Exception("nested option")
        return r if top else "(" + r + ")"
    return (PRIM[t][1] if t in PRIM else t + ".jc") + "_nn"

# field: (lean, json, type, mode) mode in req|opt(null printed)|skip|nulllist|deflist
def F(lean, json, t, mode="req"): return (lean, json, t, mode)

S, E = "struct", "enum"
T = []
def struct(name, cite, fields, strict=True): T.append((S, name, cite, fields, strict))
# variants: (lean, json, kind, payload) kind: unit | new T | rec [fields]
def enum(name, cite, variants, strict=True): T.append((E, name, cite, variants, strict))
def V0(lean, json): return (lean, json, "unit", None)
def V1(lean, json, t): return (lean, json, "new", t)
def VR(lean, json, *fs): return (lean, json, "rec", list(fs))

CW = "cosmwasm-std 2.1.3, not in /repo"
struct("Coin", f"`Coin` ({CW}); used at `/repo/src/types/cosmos_msg.rs` 84-330, `/repo/src/types/query_msg.rs` 396-401.",
       [F("denom","denom","Str"), F("amount","amount","Uint128")], False)
enum("IbcOrder", f"`IbcOrder` ({CW}); used at `/repo/src/ibc/types/stargate.rs` 71-74, `/repo/src/types/state.rs` 194-196.",
     [V0("unordered","ORDER_UNORDERED"), V0("ordered","ORDER_ORDERED")])
struct("IbcEndpoint", f"`IbcEndpoint` ({CW}).", [F("portId","port_id","Str"), F("channelId","channel_id","Str")], False)
struct("IbcChannel", f"`IbcChannel` ({CW}); used at `/repo/src/ibc/handshake.rs` 97-261.",
       [F("endpoint","endpoint","IbcEndpoint"), F("counterpartyEndpoint","counterparty_endpoint","IbcEndpoint"),
        F("order","order","IbcOrder"), F("version","version","Str"), F("connectionId","connection_id","Str")], False)
struct("IbcTimeoutBlock", f"`IbcTimeoutBlock` ({CW}); used at `/repo/src/types/cosmos_msg.rs` 118-121.",
       [F("revision","revision","U64"), F("height","height","U64")], False)
struct("IbcTimeout", f"`IbcTimeout` ({CW}); used at `/repo/src/ibc/types/packet.rs` 191, `/repo/src/types/cosmos_msg.rs` 118-122.",
       [F("block","block",("Opt","IbcTimeoutBlock"),"opt"), F("timestamp","timestamp",("Opt","Uint64"),"opt")], False)
struct("IbcPacket", f"`IbcPacket` ({CW}); used at `/repo/src/ibc/relay.rs` 26-192.",
       [F("data","data","Bin"), F("src","src","IbcEndpoint"), F("dest","dest","IbcEndpoint"),
        F("sequence","sequence","U64"), F("timeout","timeout","IbcTimeout")], False)
enum("BankMsg", f"`BankMsg` ({CW}); matched at `/repo/src/types/cosmos_msg.rs` 84-99.",
     [VR("send","send",F("toAddress","to_address","Str"),F("amount","amount",("List","Coin"))),
      VR("burn","burn",F("amount","amount",("List","Coin")))], False)
enum("StakingMsg", f"`StakingMsg` ({CW}); matched at `/repo/src/types/cosmos_msg.rs` 260-299.",
     [VR("delegate","delegate",F("validator","validator","Str"),F("amount","amount","Coin")),
      VR("undelegate","undelegate",F("validator","validator","Str"),F("amount","amount","Coin")),
      VR("redelegate","redelegate",F("srcValidator","src_validator","Str"),F("dstValidator","dst_validator","Str"),F("amount","amount","Coin"))], False)
enum("DistributionMsg", f"`DistributionMsg` ({CW}); matched at `/repo/src/types/cosmos_msg.rs` 302-330.",
     [VR("setWithdrawAddress","set_withdraw_address",F("address","address","Str")),
      VR("withdrawDelegatorReward","withdraw_delegator_reward",F("validator","validator","Str")),
      VR("fundCommunityPool","fund_community_pool",F("amount","amount",("List","Coin")))], False)
enum("IbcMsg", f"`IbcMsg` ({CW}); matched at `/repo/src/types/cosmos_msg.rs` 101-127, built at `/repo/src/ibc/types/packet.rs` 188-192 and `/repo/src/contract.rs` 182-184.",
     [VR("transfer","transfer",F("channelId","channel_id","Str"),F("toAddress","to_address","Str"),F("amount","amount","Coin"),F("timeout","timeout","IbcTimeout"),F("memo","memo",("Opt","Str"),"opt")),
      VR("sendPacket","send_packet",F("channelId","channel_id","Str"),F("data","data","Bin"),F("timeout","timeout","IbcTimeout")),
      VR("closeChannel","close_channel",F("channelId","channel_id","Str"))], False)
enum("WasmMsg", f"`WasmMsg` ({CW}); matched at `/repo/src/types/cosmos_msg.rs` 129-214, built at `/repo/src/types/callbacks.rs` 82-86 and `/repo/src/helpers.rs` 53-183.",
     [VR("execute","execute",F("contractAddr","contract_addr","Str"),F("msg","msg","Bin"),F("funds","funds",("List","Coin"))),
      VR("instantiate","instantiate",F("admin","admin",("Opt","Str"),"opt"),F("codeId","code_id","U64"),F("msg","msg","Bin"),F("funds","funds",("List","Coin")),F("label","label","Str")),
      VR("instantiate2","instantiate2",F("admin","admin",("Opt","Str"),"opt"),F("codeId","code_id","U64"),F("label","label","Str"),F("msg","msg","Bin"),F("funds","funds",("List","Coin")),F("salt","salt","Bin")),
      VR("migrate","migrate",F("contractAddr","contract_addr","Str"),F("newCodeId","new_code_id","U64"),F("msg","msg","Bin")),
      VR("updateAdmin","update_admin",F("contractAddr","contract_addr","Str"),F("admin","admin","Str")),
      VR("clearAdmin","clear_admin",F("contractAddr","contract_addr","Str"))], False)
enum("VoteOption", f"`VoteOption` ({CW}); matched at `/repo/src/types/cosmos_msg.rs` 217-224.",
     [V0("yes","yes"), V0("no","no"), V0("abstain","abstain"), V0("noWithVeto","no_with_veto")])
struct("WeightedVoteOption", f"`WeightedVoteOption` ({CW}); used at `/repo/src/types/cosmos_msg.rs` 239-247.",
       [F("option","option","VoteOption"), F("weight","weight","Decimal")], False)
enum("GovMsg", f"`GovMsg` ({CW}); matched at `/repo/src/types/cosmos_msg.rs` 226-257.",
     [VR("vote","vote",F("proposalId","proposal_id","U64"),F("option","option","VoteOption")),
      VR("voteWeighted","vote_weighted",F("proposalId","proposal_id","U64"),F("options","options",("List","WeightedVoteOption")))], False)
struct("Empty", f"`Empty` ({CW}).", [], False)
enum("CosmosMsg", f"`CosmosMsg<Empty>` ({CW}); matched at `/repo/src/types/cosmos_msg.rs` 38-57.",
     [V1("bank","bank","BankMsg"), V1("custom","custom","Empty"), V1("staking","staking","StakingMsg"), V1("distribution","distribution","DistributionMsg"),
      VR("stargate","stargate",F("typeUrl","type_url","Str"),F("value","value","Bin")),
      V1("ibc","ibc","IbcMsg"), V1("wasm","wasm","WasmMsg"), V1("gov","gov","GovMsg")], False)
struct("PageRequest", f"`PageRequest` ({CW}); used at `/repo/src/types/query_msg.rs` 254-260.",
       [F("key","key",("Opt","Bin"),"opt"), F("limit","limit","U32"), F("reverse","reverse","Bool")], False)
enum("BankQuery", f"`BankQuery` ({CW}); matched at `/repo/src/types/query_msg.rs` 232-275.",
     [VR("supply","supply",F("denom","denom","Str")), VR("balance","balance",F("address","address","Str"),F("denom","denom","Str")),
      VR("allBalances","all_balances",F("address","address","Str")), VR("denomMetadata","denom_metadata",F("denom","denom","Str")),
      VR("allDenomMetadata","all_denom_metadata",F("pagination","pagination",("Opt","PageRequest"),"opt"))], False)
enum("StakingQuery", f"`StakingQuery` ({CW}); matched at `/repo/src/types/query_msg.rs` 312-365.",
     [VR("bondedDenom","bonded_denom"), VR("allDelegations","all_delegations",F("delegator","delegator","Str")),
      VR("delegation","delegation",F("delegator","delegator","Str"),F("validator","validator","Str")),
      VR("allValidators","all_validators"), VR("validator","validator",F("address","address","Str"))], False)
enum("DistributionQuery", f"`DistributionQuery` ({CW}); rejected at `/repo/src/types/query_msg.rs` 24-26.",
     [VR("delegatorWithdrawAddress","delegator_withdraw_address",F("delegatorAddress","delegator_address","Str")),
      VR("delegationRewards","delegation_rewards",F("delegatorAddress","delegator_address","Str"),F("validatorAddress","validator_address","Str")),
      VR("delegationTotalRewards","delegation_total_rewards",F("delegatorAddress","delegator_address","Str")),
      VR("delegatorValidators","delegator_validators",F("delegatorAddress","delegator_address","Str"))], False)
enum("IbcQuery", f"`IbcQuery` ({CW}); rejected at `/repo/src/types/query_msg.rs` 19.",
     [VR("portId","port_id"), VR("listChannels","list_channels",F("portId","port_id",("Opt","Str"),"opt")),
      VR("channel","channel",F("channelId","channel_id","Str"),F("portId","port_id",("Opt","Str"),"opt"))], False)
enum("WasmQuery", f"`WasmQuery` ({CW}); matched at `/repo/src/types/query_msg.rs` 277-310.",
     [VR("smart","smart",F("contractAddr","contract_addr","Str"),F("msg","msg","Bin")),
      VR("raw","raw",F("contractAddr","contract_addr","Str"),F("key","key","Bin")),
      VR("contractInfo","contract_info",F("contractAddr","contract_addr","Str")),
      VR("codeInfo","code_info",F("codeId","code_id","U64"))], False)
enum("QueryRequest", f"`QueryRequest<Empty>` ({CW}); matched at `/repo/src/types/query_msg.rs` 13-29.",
     [V1("bank","bank","BankQuery"), V1("custom","custom","Empty"), V1("staking","staking","StakingQuery"), V1("distribution","distribution","DistributionQuery"),
      VR("stargate","stargate",F("path","path","Str"),F("data","data","Bin")), V1("ibc","ibc","IbcQuery"), V1("wasm","wasm","WasmQuery")], False)
# contract types
struct("ChannelOpenInitOptions", "`/repo/src/types/msg.rs` 95-118 (plain serde derive: unknown members are ignored).",
       [F("connectionId","connection_id","Str"), F("counterpartyConnectionId","counterparty_connection_id","Str"),
        F("counterpartyPortId","counterparty_port_id",("Opt","Str"),"opt"), F("channelOrdering","channel_ordering",("Opt","IbcOrder"),"opt")], False)
enum("TxEncoding", "`/repo/src/ibc/types/metadata.rs` 42-50.", [V0("protobuf","proto3"), V0("proto3Json","proto3json")])
struct("IcaInfo", "`/repo/src/types/state.rs` 104-109.", [F("icaAddress","ica_address","Str"), F("channelId","channel_id","Str"), F("encoding","encoding","TxEncoding")])
struct("ContractState", "`/repo/src/types/state.rs` 53-63 (plain serde derive with defaults).",
       [F("icaInfo","ica_info",("Opt","IcaInfo"),"opt"), F("callbackAddress","callback_address",("Opt","Str"),"opt")], False)
enum("ChannelStatus", "`/repo/src/types/state.rs` 134-159.",
     [V0("uninitialized","STATE_UNINITIALIZED_UNSPECIFIED"), V0("init","STATE_INIT"), V0("tryOpen","STATE_TRYOPEN"), V0("opened","STATE_OPEN"),
      V0("closed","STATE_CLOSED"), V0("flushing","STATE_FLUSHING"), V0("flushComplete","STATE_FLUSHCOMPLETE")])
struct("ChannelState", "`/repo/src/types/state.rs` 163-169.", [F("channel","channel","IbcChannel"), F("channelStatus","channel_status","ChannelStatus")])
enum("Expiration", "`cw_utils::Expiration` (cw-ownable 2.0.0, not in /repo); used by `cw_ownable::Action` at `/repo/src/contract.rs` 228-241.",
     [V1("atHeight","at_height","U64"), V1("atTime","at_time","Uint64"), VR("never","never")])
struct("Ownership", "`cw_ownable::Ownership` (not in /repo); returned at `/repo/src/contract.rs` 102.",
       [F("owner","owner",("Opt","Str"),"opt"), F("pendingOwner","pending_owner",("Opt","Str"),"opt"), F("pendingExpiry","pending_expiry",("Opt","Expiration"),"opt")])
enum("Action", "`cw_ownable::Action` (not in /repo); `/repo/src/contract.rs` 228-241.",
     [VR("transferOwnership","transfer_ownership",F("newOwner","new_owner","Str"),F("expiry","expiry",("Opt","Expiration"),"opt")),
      V0("acceptOwnership","accept_ownership"), V0("renounceOwnership","renounce_ownership")])
struct("ContractVersion", "`cw2::ContractVersion` (not in /repo); written at `/repo/src/contract.rs` 21, 113.", [F("contract","contract","Str"), F("version","version","Str")])
struct("InstantiateMsg", "`/repo/src/types/msg.rs` 8-21.",
       [F("owner","owner",("Opt","Str"),"skip"), F("channelOpenInitOptions","channel_open_init_options","ChannelOpenInitOptions"), F("sendCallbacksTo","send_callbacks_to",("Opt","Str"),"skip")])
enum("ExecuteMsg", "`/repo/src/types/msg.rs` 23-71 with the variant added by `cw_ownable_execute`.",
     [VR("createChannel","create_channel",F("options","channel_open_init_options",("Opt","ChannelOpenInitOptions"),"skip")),
      VR("closeChannel","close_channel"),
      VR("sendCosmosMsgs","send_cosmos_msgs",F("messages","messages",("List","CosmosMsg"),"nulllist"),F("queries","queries",("List","QueryRequest"),"deflist"),
         F("packetMemo","packet_memo",("Opt","Str"),"skip"),F("timeoutSeconds","timeout_seconds",("Opt","U64"),"skip")),
      VR("updateCallbackAddress","update_callback_address",F("callbackAddress","callback_address",("Opt","Str"),"opt")),
      V1("updateOwnership","update_ownership","Action")])
enum("QueryMsg", "`/repo/src/types/msg.rs` 73-85 with the variant added by `cw_ownable_query`.",
     [VR("getChannel","get_channel"), VR("getContractState","get_contract_state"), VR("ownership","ownership")])
struct("MigrateMsg", "`/repo/src/types/msg.rs` 87-89.", [])
struct("IcaMetadata", "`/repo/src/ibc/types/metadata.rs` 21-39.",
       [F("version","version","Str"), F("controllerConnectionId","controller_connection_id","Str"), F("hostConnectionId","host_connection_id","Str"),
        F("address","address","Str"), F("encoding","encoding","TxEncoding"), F("txType","tx_type","Str")])
struct("IcaPacketData", "`/repo/src/ibc/types/packet.rs` 27-46 (`data: Vec<u8>` is an array of numbers).",
       [F("type","type","U32"), F("data","data",("List","U8")), F("memo","memo",("Opt","Str"),"skip")])
enum("AckData", "`/repo/src/ibc/types/packet.rs` 211-219.", [V1("result","result","Bin"), V1("error","error","Str")])
# query responses
struct("DenomUnit", f"`DenomUnit` ({CW}); built at `/repo/src/types/query_msg.rs` 412-420.", [F("denom","denom","Str"), F("exponent","exponent","U32"), F("aliases","aliases",("List","Str"))], False)
struct("DenomMetadata", f"`DenomMetadata` ({CW}); built at `/repo/src/types/query_msg.rs` 403-422.",
       [F("description","description","Str"), F("denomUnits","denom_units",("List","DenomUnit")), F("base","base","Str"), F("display","display","Str"),
        F("name","name","Str"), F("symbol","symbol","Str"), F("uri","uri","Str"), F("uriHash","uri_hash","Str")], False)
struct("CoinResponse", f"`SupplyResponse`, `BalanceResponse` ({CW}): one coin `amount`.", [F("amount","amount","Coin")], False)
struct("AllBalanceResponse", f"`AllBalanceResponse` ({CW}).", [F("amount","amount",("List","Coin"))], False)
struct("DenomMetadataResponse", f"`DenomMetadataResponse` ({CW}).", [F("metadata","metadata","DenomMetadata")], False)
struct("AllDenomMetadataResponse", f"`AllDenomMetadataResponse` ({CW}).", [F("metadata","metadata",("List","DenomMetadata")), F("nextKey","next_key",("Opt","Bin"),"opt")], False)
enum("BankQueryResponse", "`/repo/src/types/query_msg.rs` 138-152.",
     [V1("supply","supply","CoinResponse"), V1("balance","balance","CoinResponse"), V1("allBalances","all_balances","AllBalanceResponse"),
      V1("denomMetadata","denom_metadata","DenomMetadataResponse"), V1("allDenomMetadata","all_denom_metadata","AllDenomMetadataResponse")])
struct("ContractInfoResponse", f"`ContractInfoResponse` ({CW}); built at `/repo/src/types/query_msg.rs` 532-546.",
       [F("codeId","code_id","U64"), F("creator","creator","Str"), F("admin","admin",("Opt","Str"),"opt"), F("pinned","pinned","Bool"), F("ibcPort","ibc_port",("Opt","Str"),"opt")], False)
struct("CodeInfoResponse", f"`CodeInfoResponse` ({CW}); used at `/repo/src/types/query_msg.rs` 162-164.",
       [F("codeId","code_id","U64"), F("creator","creator","Str"), F("checksum","checksum","Checksum")], False)
enum("WasmQueryResponse", "`/repo/src/types/query_msg.rs` 154-169 (the contract never produces `CodeInfo`, but a receiver can read it).",
     [V1("contractInfo","contract_info",("Opt","ContractInfoResponse")), V1("codeInfo","code_info",("Opt","CodeInfoResponse")), V1("rawContractState","raw_contract_state",("Opt","Bin")), V1("smartContractState","smart_contract_state","Bin")])
struct("Delegation", "`/repo/src/types/query_msg.rs` 201-210.", [F("delegator","delegator","Str"), F("validator","validator","Str"), F("amount","amount","Coin")])
struct("IcaDelegationResponse", "`/repo/src/types/query_msg.rs` 187-192.", [F("delegation","delegation",("Opt","Delegation"),"opt")])
struct("IcaAllDelegationsResponse", "`/repo/src/types/query_msg.rs` 194-199.", [F("delegations","delegations",("List","Delegation"))])
struct("Validator", f"`Validator` ({CW}); built at `/repo/src/types/query_msg.rs` 424-442.",
       [F("address","address","Str"), F("commission","commission","Decimal"), F("maxCommission","max_commission","Decimal"), F("maxChangeRate","max_change_rate","Decimal")], False)
struct("AllValidatorsResponse", f"`AllValidatorsResponse` ({CW}).", [F("validators","validators",("List","Validator"))], False)
struct("ValidatorResponse", f"`ValidatorResponse` ({CW}).", [F("validator","validator",("Opt","Validator"),"opt")], False)
struct("BondedDenomResponse", f"`BondedDenomResponse` ({CW}).", [F("denom","denom","Str")], False)
enum("StakingQueryResponse", "`/repo/src/types/query_msg.rs` 171-185.",
     [V1("bondedDenom","bonded_denom","BondedDenomResponse"), V1("allDelegations","all_delegations","IcaAllDelegationsResponse"), V1("delegation","delegation","IcaDelegationResponse"),
      V1("allValidators","all_validators","AllValidatorsResponse"), V1("validator","validator","ValidatorResponse")])
enum("IcaQueryResponse", "`/repo/src/types/query_msg.rs` 118-136.",
     [V1("bank","bank","BankQueryResponse"), VR("stargate","stargate",F("data","data","Bin"),F("path","path","Str")), V1("wasm","wasm","WasmQueryResponse"), V1("staking","staking","StakingQueryResponse")])
enum("IcaQueryResult", "`/repo/src/types/query_msg.rs` 103-116.",
     [VR("success","success",F("height","height","U64"),F("responses","responses",("List","IcaQueryResponse"))), V1("error","error","Str")])
enum("CallbackMsg", "`IcaControllerCallbackMsg`, `/repo/src/types/callbacks.rs` 16-59 (plain serde derive).",
     [VR("onAcknowledgementPacketCallback","on_acknowledgement_packet_callback",F("icaAcknowledgement","ica_acknowledgement","AckData"),F("originalPacket","original_packet","IbcPacket"),
         F("relayer","relayer","Str"),F("queryResult","query_result",("Opt","IcaQueryResult"),"skip")),
      VR("onTimeoutPacketCallback","on_timeout_packet_callback",F("originalPacket","original_packet","IbcPacket"),F("relayer","relayer","Str")),
      VR("onChannelOpenAckCallback","on_channel_open_ack_callback",F("channel","channel","IbcChannel"),F("icaAddress","ica_address","Str"),F("txEncoding","tx_encoding","TxEncoding"))], False)
enum("ReceiverExecuteMsg", "`ReceiverExecuteMsg`, `/repo/src/types/callbacks.rs` 92-97.", [V1("receiveIcaCallback","receive_ica_callback","CallbackMsg")])

KW = {"type", "from", "to", "end", "open", "instance", "variable", "match", "with", "at", "in", "where", "option"}
def q(n): return "«%s»" % n if n in {"type","end","open","at","in","where","with","match","from"} else n

def gen_types():
    o = ["import Verif.Dec", "import Verif.Hex", "", "/-!", "# Types of cosmwasm-std and of the contract", "", "Generated by `tools/gen.py`.", "-/", "namespace Ica", ""]
    for ent in T:
        if ent[0] == S:
            _, n, cite, fs, strict = ent
            o.append(f"/-- {cite} -/")
            o.append(f"structure {n} where")
            for (l, j, t, m) in fs: o.append(f"  {q(l)} : {lt(t)}")
            o.append("  deriving DecidableEq"); o.append("")
        else:
            _, n, cite, vs, strict = ent
            o.append(f"/-- {cite} -/")
            o.append(f"inductive {n} where")
            for (l, j, k, p) in vs:
                if k == "unit": o.append(f"  | {l}")
                elif k == "new": o.append(f"  | {l} (x : {lt(p)})")
                else: o.append(f"  | {l}" + "".join(f" ({q(f[0])} : {lt(f[2])})" for f in p))
            o.append("  deriving DecidableEq"); o.append("")
    o.append("end Ica")
    open(os.path.join(OUT, "Types.lean"), "w").write("\n".join(o) + "\n")

def inner(t): return t[1]
def enc_fields(fs, acc):
    """Lean expression for the member list; acc(l) gives the field value expression"""
    groups = []
    cur = []
    for (l, j, t, m) in fs:
        if m == "skip":
            if cur: groups.append("[" + ", ".join(cur) + "]"); cur = []
            groups.append(f'skipNone {jc(inner(t), False)} "{j}" {acc(l)}')
        elif m == "deflist":
            if cur: groups.append("[" + ", ".join(cur) + "]"); cur = []
            groups.append(f'skipEmpty {jc(inner(t), False)} "{j}" {acc(l)}')
        else:
            cur.append(f'("{j}", {jc(t, False)}.enc {acc(l)})' if isinstance(t, tuple) else f'("{j}", {jc(t)}.enc {acc(l)})')
    if cur: groups.append("[" + ", ".join(cur) + "]")
    if not groups: return "[]"
    r = groups[-1]
    for g in reversed(groups[:-1]): r = f"{g} ++ ({r})"
    return r

def dec_field(f, src):
    (l, j, t, m) = f
    if m == "req": return f'reqF {jc(t, False)} "{j}" {src}'
    if m in ("opt", "skip"): return f'optF {jc(inner(t), False)} "{j}" {src}'
    if m == "nulllist": return f'nullListF {jc(inner(t), False)} "{j}" {src}'
    if m == "deflist": return f'defListF {jc(inner(t), False)} "{j}" {src}'

def deps(t, acc):
    if isinstance(t, tuple):
        for x in t[1:]: deps(x, acc)
        return acc
    acc.append(t); return acc

def simp_laws(fs_types):
    out = []
    for t in fs_types:
        l = law(t)
        if l not in out: out.append(l)
    return out

def field_law_terms(fs):
    """laws used for the fields of a struct-like thing"""
    out = []
    def add(x):
        if x not in out: out.append(x)
    for (l, j, t, m) in fs:
        if m == "req": add(f"({law(t)}) _")
        elif m == "opt": add(f"({law(t)}) _")
        elif m == "skip": add(f"(jcOpt_dec_enc {law(inner(t), False)} {nn(inner(t), False)})")
        elif m == "nulllist": add(f"(jcOpt_dec_enc (jcList_law {law(inner(t), False)}) (jcList_nn _))")
        elif m == "deflist": add(f"(jcOpt_dec_enc (jcList_law {law(inner(t), False)}) (jcList_nn _))")
    return out

BASE = "getObj, countKey, lookupKey, reqF, optF, nullListF, defListF"
def gen_json():
    o = ["import Verif.JsonCodec", "import Verif.Model.Types", "", "/-!", "# JSON codecs of the types in `Types.lean`", "",
         "serde derives; generated by `tools/gen.py`. `getObj true` is `deny_unknown_fields`.", "-/",
         "set_option linter.unusedSimpArgs false", "set_option linter.unusedVariables false", "namespace Ica", ""]
    for ent in T:
        _, n, cite, body, strict = ent
        st = "true" if strict else "false"
        o.append(f"/-- JSON of `{n}`: {cite} -/")
        o.append(f"def {n}.jc : JC {n} where")
        if ent[0] == S:
            fs = body
            o.append(f"  enc m := .obj ({enc_fields(fs, lambda l: 'm.' + q(l))})")
            keys = "[" + ", ".join('"%s"' % f[1] for f in fs) + "]"
            o.append(f"  dec j :=")
            o.append(f"    match getObj {st} {keys} j with")
            o.append(f"    | none => none")
            o.append(f"    | some {'fs' if fs else '_'} =>")
            ind = "      "
            for f in fs:
                o.append(f"{ind}match {dec_field(f, 'fs')} with")
                o.append(f"{ind}| none => none")
                o.append(f"{ind}| some x_{f[0]} =>")
            o.append(f"{ind}some ⟨" + ", ".join("x_" + f[0] for f in fs) + "⟩")
            o.append("")
            o.append(f"theorem {n}.jc_law : {n}.jc.Law := by")
            names = ", ".join("x" + str(i) for i in range(len(fs)))
            o.append(f"  rintro ⟨{names}⟩")
            for i, f in enumerate(fs):
                if f[3] == "skip": o.append(f"  all_goals rcases x{i} with _ | x{i}")
                if f[3] == "deflist": o.append(f"  all_goals rcases x{i} with _ | ⟨x{i}a, x{i}b⟩")
            laws = ", ".join(field_law_terms(fs))
            o.append(f"  all_goals simp [{n}.jc, {BASE}, skipNone, skipEmpty{', ' + laws if laws else ''}]")
            o.append(f"theorem {n}.jc_nn : {n}.jc.NonNull := fun _ h => by cases h")
            o.append("")
        else:
            vs = body
            o.append(f"  enc m := match m with")
            for (l, j, k, p) in vs:
                if k == "unit": o.append(f'    | .{l} => .str "{j}"')
                elif k == "new": o.append(f'    | .{l} x => .obj [("{j}", {jc(p, False)}.enc x)]' if isinstance(p, tuple) else f'    | .{l} x => .obj [("{j}", {jc(p)}.enc x)]')
                else: o.append(f'    | .{l}' + "".join(" x_" + f[0] for f in p) + f' => .obj [("{j}", .obj ({enc_fields(p, lambda l: "x_" + l)}))]')
            o.append(f"  dec j := match j with")
            units = [(l, j) for (l, j, k, p) in vs if k == "unit"]
            if units:
                o.append("    | .str s =>")
                ind = "      "
                for (l, j) in units: o.append(f'{ind}if s = "{j}" then some .{l} else')
                o.append(f"{ind}none")
            others = [v for v in vs if v[2] != "unit"]
            if others:
                o.append("    | .obj [(k, v)] =>")
                ind = "      "
                for (l, j, k, p) in others:
                    if k == "new":
                        o.append(f'{ind}if k = "{j}" then ({jc(p, False) if isinstance(p, tuple) else jc(p)}.dec v).map .{l} else')
                    else:
                        keys = "[" + ", ".join('"%s"' % f[1] for f in p) + "]"
                        o.append(f'{ind}if k = "{j}" then')
                        o.append(f"{ind}  match getObj {st} {keys} v with")
                        o.append(f"{ind}  | none => none")
                        o.append(f"{ind}  | some {'fs' if p else '_'} =>")
                        for f in p:
                            o.append(f"{ind}    match {dec_field(f, 'fs')} with")
                            o.append(f"{ind}    | none => none")
                            o.append(f"{ind}    | some x_{f[0]} =>")
                        o.append(f"{ind}    some (.{l}" + "".join(" x_" + f[0] for f in p) + ")")
                        o.append(f"{ind}else")
                o.append(f"{ind}none")
            o.append("    | _ => none")
            o.append("")
            o.append(f"theorem {n}.jc_law : {n}.jc.Law := by")
            o.append(f"  intro x; cases x with")
            for (l, j, k, p) in vs:
                if k == "unit":
                    o.append(f"  | {l} => simp [{n}.jc]")
                elif k == "new":
                    o.append(f"  | {l} x => simp [{n}.jc, ({law(p)}) x]")
                else:
                    o.append(f"  | {l}" + "".join(f" x{i}" for i in range(len(p))) + " =>")
                    for i, f in enumerate(p):
                        if f[3] == "skip": o.append(f"    all_goals rcases x{i} with _ | x{i}")
                        if f[3] == "deflist": o.append(f"    all_goals rcases x{i} with _ | ⟨x{i}a, x{i}b⟩")
                    laws = ", ".join(field_law_terms(p))
                    o.append(f"    all_goals simp [{n}.jc, {BASE}, skipNone, skipEmpty{', ' + laws if laws else ''}]")
            o.append(f"theorem {n}.jc_nn : {n}.jc.NonNull := fun x h => by cases x <;> cases h")
            o.append("")
    o.append("end Ica")
    open(os.path.join(OUT, "TypesJson.lean"), "w").write("\n".join(o) + "\n")

# ---------------------------------------------------------------- protobuf
P = []
def msg(name, cite, *fields): P.append((name, cite, fields))
CM = "`/repo/src/types/cosmos_msg.rs` "
QM = "`/repo/src/types/query_msg.rs` "
msg("Any", "`google.protobuf.Any`; built at " + CM + "38-57.", ("typeUrl",1,"str"), ("value",2,"bytes"))
msg("CosmosTx", "`ibc.applications.interchain_accounts.v1.CosmosTx`; built at `/repo/src/ibc/types/packet.rs` 62.", ("messages",1,"msgs","Any"))
msg("MsgData", "`cosmos.base.abci.v1beta1.MsgData`, deprecated; read at `/repo/src/ibc/types/packet.rs` 225-230.", ("msgType",1,"str"), ("data",2,"bytes"))
msg("TxMsgData", "`cosmos.base.abci.v1beta1.TxMsgData`; read at `/repo/src/ibc/types/packet.rs` 225-230.", ("data",1,"msgs","MsgData"), ("msgResponses",2,"msgs","Any"))
msg("AbciQueryRequest", QM + "674-684.", ("path",1,"str"), ("data",2,"bytes"))
msg("MsgModuleQuerySafe", QM + "663-671.", ("signer",1,"str"), ("requests",2,"msgs","AbciQueryRequest"))
msg("MsgModuleQuerySafeResponse", QM + "687-696.", ("height",1,"u64"), ("responses",2,"bytess"))
msg("Coin", "`cosmos.base.v1beta1.Coin`; built at " + CM + "90-93.", ("denom",1,"str"), ("amount",2,"str"))
msg("MsgSend", "`cosmos.bank.v1beta1.MsgSend`; built at " + CM + "86-96.", ("fromAddress",1,"str"), ("toAddress",2,"str"), ("amount",3,"msgs","Coin"))
msg("Height", "`ibc.core.client.v1.Height`; built at " + CM + "118-121.", ("revisionNumber",1,"u64"), ("revisionHeight",2,"u64"))
msg("MsgTransfer", "`ibc.applications.transfer.v1.MsgTransfer`; built at " + CM + "109-124.", ("sourcePort",1,"str"), ("sourceChannel",2,"str"), ("token",3,"msg","Coin"), ("sender",4,"str"),
    ("receiver",5,"str"), ("timeoutHeight",6,"msg","Height"), ("timeoutTimestamp",7,"u64"), ("memo",8,"str"))
msg("MsgExecuteContract", "`cosmwasm.wasm.v1.MsgExecuteContract`; built at " + CM + "135-146.", ("sender",1,"str"), ("contract",2,"str"), ("msg",3,"bytes"), ("funds",5,"msgs","Coin"))
msg("MsgInstantiateContract", "`cosmwasm.wasm.v1.MsgInstantiateContract`; built at " + CM + "153-166.", ("sender",1,"str"), ("admin",2,"str"), ("codeId",3,"u64"), ("label",4,"str"), ("msg",5,"bytes"), ("funds",6,"msgs","Coin"))
msg("MsgInstantiateContract2", "`cosmwasm.wasm.v1.MsgInstantiateContract2`; built at " + CM + "196-211.", ("sender",1,"str"), ("admin",2,"str"), ("codeId",3,"u64"), ("label",4,"str"), ("msg",5,"bytes"), ("funds",6,"msgs","Coin"),
    ("salt",7,"bytes"), ("fixMsg",8,"bool"))
msg("MsgMigrateContract", "`cosmwasm.wasm.v1.MsgMigrateContract`; built at " + CM + "171-176.", ("sender",1,"str"), ("contract",2,"str"), ("codeId",3,"u64"), ("msg",4,"bytes"))
msg("MsgUpdateAdmin", "`cosmwasm.wasm.v1.MsgUpdateAdmin`; built at " + CM + "180-184.", ("sender",1,"str"), ("newAdmin",2,"str"), ("contract",3,"str"))
msg("MsgClearAdmin", "`cosmwasm.wasm.v1.MsgClearAdmin`; built at " + CM + "185-188.", ("sender",1,"str"), ("contract",3,"str"))
msg("MsgVote", "`cosmos.gov.v1beta1.MsgVote`; built at " + CM + "230-234.", ("proposalId",1,"u64"), ("voter",2,"str"), ("option",3,"u64"))
msg("WeightedVoteOption", "`cosmos.gov.v1.WeightedVoteOption`; built at " + CM + "242-245.", ("option",1,"u64"), ("weight",2,"str"))
msg("MsgVoteWeighted", "`cosmos.gov.v1.MsgVoteWeighted`; built at " + CM + "249-254.", ("proposalId",1,"u64"), ("voter",2,"str"), ("options",3,"msgs","WeightedVoteOption"), ("metadata",4,"str"))
msg("MsgDelegate", "`cosmos.staking.v1beta1.MsgDelegate`; built at " + CM + "263-270.", ("delegatorAddress",1,"str"), ("validatorAddress",2,"str"), ("amount",3,"msg","Coin"))
msg("MsgUndelegate", "`cosmos.staking.v1beta1.MsgUndelegate`; built at " + CM + "273-280.", ("delegatorAddress",1,"str"), ("validatorAddress",2,"str"), ("amount",3,"msg","Coin"))
msg("MsgBeginRedelegate", "`cosmos.staking.v1beta1.MsgBeginRedelegate`; built at " + CM + "286-296.", ("delegatorAddress",1,"str"), ("validatorSrcAddress",2,"str"), ("validatorDstAddress",3,"str"), ("amount",4,"msg","Coin"))
msg("MsgSetWithdrawAddress", "`cosmos.distribution.v1beta1.MsgSetWithdrawAddress`; built at " + CM + "310-315.", ("delegatorAddress",1,"str"), ("withdrawAddress",2,"str"))
msg("MsgWithdrawDelegatorReward", "`cosmos.distribution.v1beta1.MsgWithdrawDelegatorReward`; built at " + CM + "304-309.", ("delegatorAddress",1,"str"), ("validatorAddress",2,"str"))
msg("MsgFundCommunityPool", "`cosmos.distribution.v1beta1.MsgFundCommunityPool`; built at " + CM + "316-327.", ("amount",1,"msgs","Coin"), ("depositor",2,"str"))
msg("Counterparty", "`ibc.core.channel.v1.Counterparty`; built at `/repo/src/ibc/types/stargate.rs` 81-84.", ("portId",1,"str"), ("channelId",2,"str"))
msg("Channel", "`ibc.core.channel.v1.Channel`; built at `/repo/src/ibc/types/stargate.rs` 78-87.", ("state",1,"u64"), ("ordering",2,"u64"), ("counterparty",3,"msg","Counterparty"), ("connectionHops",4,"strs"), ("version",5,"str"))
msg("MsgChannelOpenInit", "`ibc.core.channel.v1.MsgChannelOpenInit`; built at `/repo/src/ibc/types/stargate.rs` 76-89.", ("portId",1,"str"), ("channel",2,"msg","Channel"), ("signer",3,"str"))
msg("SendPacketResponse", "wasmd's `MsgIBCSendResponse`; its field 1 is read with anybuf at `/repo/src/contract.rs` 279-281.", ("sequence",1,"u64"))
# query requests
msg("PageRequest", "`cosmos.base.query.v1beta1.PageRequest`; built at " + QM + "254-260.", ("key",1,"bytes"), ("offset",2,"u64"), ("limit",3,"u64"), ("countTotal",4,"bool"), ("reverse",5,"bool"))
msg("QueryBalanceRequest", QM + "234-238.", ("address",1,"str"), ("denom",2,"str"))
msg("QueryAllBalancesRequest", QM + "239-247.", ("address",1,"str"), ("pagination",2,"msg","PageRequest"))
msg("QueryDenomMetadataRequest", QM + "248-252.", ("denom",1,"str"))
msg("QueryDenomsMetadataRequest", QM + "253-267.", ("pagination",1,"msg","PageRequest"))
msg("QuerySupplyOfRequest", QM + "268-272.", ("denom",1,"str"))
msg("QueryRawContractStateRequest", QM + "279-287.", ("address",1,"str"), ("queryData",2,"bytes"))
msg("QuerySmartContractStateRequest", QM + "288-296.", ("address",1,"str"), ("queryData",2,"bytes"))
msg("QueryContractInfoRequest", QM + "297-304.", ("address",1,"str"))
msg("QueryValidatorRequest", QM + "320-327.", ("validatorAddr",1,"str"))
msg("QueryValidatorsRequest", QM + "328-336.", ("status",1,"str"), ("pagination",2,"msg","PageRequest"))
msg("QueryDelegationRequest", QM + "337-348.", ("delegatorAddr",1,"str"), ("validatorAddr",2,"str"))
msg("QueryDelegatorDelegationsRequest", QM + "349-357.", ("delegatorAddr",1,"str"), ("pagination",2,"msg","PageRequest"))
msg("QueryParamsRequest", QM + "358-362.")
# query responses
msg("PageResponse", "`cosmos.base.query.v1beta1.PageResponse`; read at " + QM + "508-509.", ("nextKey",1,"bytes"), ("total",2,"u64"))
msg("QueryBalanceResponse", QM + "471-479.", ("balance",1,"msg","Coin"))
msg("QueryAllBalancesResponse", QM + "480-490.", ("balances",1,"msgs","Coin"), ("pagination",2,"msg","PageResponse"))
msg("DenomUnit", "`cosmos.bank.v1beta1.DenomUnit`; read at " + QM + "412-420.", ("denom",1,"str"), ("exponent",2,"u32"), ("aliases",3,"strs"))
msg("Metadata", "`cosmos.bank.v1beta1.Metadata`; read at " + QM + "403-422.", ("description",1,"str"), ("denomUnits",2,"msgs","DenomUnit"), ("base",3,"str"), ("display",4,"str"), ("name",5,"str"), ("symbol",6,"str"), ("uri",7,"str"), ("uriHash",8,"str"))
msg("QueryDenomMetadataResponse", QM + "491-499.", ("metadata",1,"msg","Metadata"))
msg("QueryDenomsMetadataResponse", QM + "500-512.", ("metadatas",1,"msgs","Metadata"), ("pagination",2,"msg","PageResponse"))
msg("QuerySupplyOfResponse", QM + "513-521.", ("amount",1,"msg","Coin"))
msg("AbsoluteTxPosition", "`cosmwasm.wasm.v1.AbsoluteTxPosition`; part of what is read at " + QM + "528-549.", ("blockHeight",1,"u64"), ("txIndex",2,"u64"))
msg("ContractInfo", "`cosmwasm.wasm.v1.ContractInfo`; read at " + QM + "528-549.",
    ("codeId",1,"u64"), ("creator",2,"str"), ("admin",3,"str"), ("label",4,"str"), ("created",5,"msg","AbsoluteTxPosition"), ("ibcPortId",6,"str"), ("extension",7,"msg","Any"))
msg("QueryContractInfoResponse", QM + "528-549.", ("address",1,"str"), ("contractInfo",2,"msg","ContractInfo"))
msg("QueryDataResponse", "`QueryRawContractStateResponse`, `QuerySmartContractStateResponse`; read at " + QM + "550-565.", ("data",1,"bytes"))
msg("CommissionRates", "`cosmos.staking.v1beta1.CommissionRates`; read at " + QM + "430-441.", ("rate",1,"str"), ("maxRate",2,"str"), ("maxChangeRate",3,"str"))
msg("Timestamp", "`google.protobuf.Timestamp` and `Duration` (signed numbers as their 64 bits on the wire; never read); part of what is read at " + QM + "424-442, 643-652.", ("seconds",1,"u64"), ("nanos",2,"u64"))
msg("Commission", "`cosmos.staking.v1beta1.Commission`; read at " + QM + "430-434.", ("commissionRates",1,"msg","CommissionRates"), ("updateTime",2,"msg","Timestamp"))
msg("Description", "`cosmos.staking.v1beta1.Description`; part of what is read at " + QM + "424-442.", ("moniker",1,"str"), ("identity",2,"str"), ("website",3,"str"), ("securityContact",4,"str"), ("details",5,"str"))
msg("Validator", "`cosmos.staking.v1beta1.Validator` (signed numbers and the enum as their 64 bits on the wire); read at " + QM + "424-442.", ("operatorAddress",1,"str"), ("consensusPubkey",2,"msg","Any"), ("jailed",3,"bool"), ("status",4,"u64"),
    ("tokens",5,"str"), ("delegatorShares",6,"str"), ("description",7,"msg","Description"), ("unbondingHeight",8,"u64"), ("unbondingTime",9,"msg","Timestamp"), ("commission",10,"msg","Commission"),
    ("minSelfDelegation",11,"str"), ("unbondingOnHoldRefCount",12,"u64"), ("unbondingIds",13,"packed"))
msg("QueryValidatorResponse", QM + "583-588.", ("validator",1,"msg","Validator"))
msg("QueryValidatorsResponse", QM + "589-599.", ("validators",1,"msgs","Validator"), ("pagination",2,"msg","PageResponse"))
msg("Delegation", "`cosmos.staking.v1beta1.Delegation`; read at " + QM + "606-616.", ("delegatorAddress",1,"str"), ("validatorAddress",2,"str"), ("shares",3,"str"))
msg("DelegationResponse", "`cosmos.staking.v1beta1.DelegationResponse`; read at " + QM + "604-617.", ("delegation",1,"msg","Delegation"), ("balance",2,"msg","Coin"))
msg("QueryDelegationResponse", QM + "600-620.", ("delegationResponse",1,"msg","DelegationResponse"))
msg("QueryDelegatorDelegationsResponse", QM + "621-642.", ("delegationResponses",1,"msgs","DelegationResponse"), ("pagination",2,"msg","PageResponse"))
msg("Params", "`cosmos.staking.v1beta1.Params`; read at " + QM + "643-652.", ("unbondingTime",1,"msg","Timestamp"), ("maxValidators",2,"u32"), ("maxEntries",3,"u32"), ("historicalEntries",4,"u32"), ("bondDenom",5,"str"), ("minCommissionRate",6,"str"))
msg("QueryParamsResponse", QM + "643-652.", ("params",1,"msg","Params"))

PT = {"str":"String","bytes":"Bytes","u64":"UInt64","u32":"UInt32","bool":"Bool","strs":"List String","bytess":"List Bytes","packed":"List UInt64"}
def gen_proto():
    o = ["import Verif.WireFacts", "", "/-!", "# Protobuf messages", "",
         "The messages the contract encodes or decodes with `prost` (cosmos-sdk-proto 0.23, ibc-proto 0.47, not in /repo), as",
         "structures with an encoder and a decoder. `/repo` citations give where the contract builds or reads them.",
         "Generated by `tools/gen.py`.", "-/", "set_option linter.unusedSimpArgs false", "set_option linter.unusedVariables false", "set_option linter.unusedTactic false", "namespace Ica", "",
         "/-- Decode an optional embedded message (prost, not in /repo). -/",
         "def dOpt {α : Type} (d : Fields → Option α) (vs : List WVal) : Option (Option α) :=",
         "  match dMsg vs with", "  | none => none", "  | some none => some none", "  | some (some fs) => (d fs).map some", "",
         "/-- Decode a list of field lists (prost, not in /repo). -/",
         "def decAll {α : Type} (d : Fields → Option α) : List Fields → Option (List α)",
         "  | [] => some []", "  | fs :: l =>", "    match d fs with", "    | none => none", "    | some x =>", "      match decAll d l with", "      | none => none", "      | some xs => some (x :: xs)", "",
         "/-- Decode a repeated embedded message (prost, not in /repo). -/",
         "def dAll {α : Type} (d : Fields → Option α) (vs : List WVal) : Option (List α) :=",
         "  match dMsgs vs with", "  | none => none", "  | some l => decAll d l", "",
         "theorem dOpt_vMsg {α : Type} {e : α → Fields} {d : Fields → Option α} (hv : ∀ x, Valid (e x))",
         "    (hd : ∀ x, d (e x) = some x) (o : Option α) : dOpt d (vMsg (o.map e)) = some o := by",
         "  have h := dMsg_vMsg (o := o.map e) (by intro fs hfs; cases o with | none => cases hfs | some x => injection hfs with hfs; subst hfs; exact hv x)",
         "  cases o with", "  | none => simp [dOpt, h]; rfl", "  | some x => simp only [Option.map_some] at h ⊢; simp only [dOpt, h, hd x, Option.map_some]", "",
         "theorem decAll_map {α : Type} {e : α → Fields} {d : Fields → Option α} (hd : ∀ x, d (e x) = some x) (l : List α) :",
         "    decAll d (l.map e) = some l := by",
         "  induction l with", "  | nil => rfl", "  | cons x l ih => simp [decAll, hd x, ih]", "",
         "theorem dAll_vMsgs {α : Type} {e : α → Fields} {d : Fields → Option α} (hv : ∀ x, Valid (e x))",
         "    (hd : ∀ x, d (e x) = some x) (l : List α) : dAll d (vMsgs (l.map e)) = some l := by",
         "  have h := dMsgs_vMsgs (l := l.map e) (by intro fs hfs; simp only [List.mem_map] at hfs; obtain ⟨x, -, rfl⟩ := hfs; exact hv x)",
         "  simp only [dAll, h, decAll_map hd]", "",
         "namespace P", ""]
    for (n, cite, fs) in P:
        o.append(f"/-- {cite} -/")
        o.append(f"structure {n} where")
        for f in fs:
            k = f[2]
            t = PT[k] if k in PT else ("Option " + f[3] if k == "msg" else "List " + f[3])
            o.append(f"  {q(f[0])} : {t}")
        o.append("  deriving DecidableEq")
        o.append("")
        o.append(f"/-- Encode `{n}`: {cite} -/")
        o.append(f"def {n}.enc (m : {n}) : Fields :=")
        parts = []
        for f in fs:
            k, tag, x = f[2], f[1], "m." + q(f[0])
            v = {"str": f"vStr {x}", "bytes": f"vBytes {x}", "u64": f"vU64 {x}", "u32": f"vU64 {x}.toUInt64", "bool": f"vBool {x}", "strs": f"vStrs {x}", "bytess": f"vBytess {x}", "packed": f"vPacked {x}"}.get(k)
            if k == "msg": v = f"vMsg ({x}.map {f[3]}.enc)"
            if k == "msgs": v = f"vMsgs ({x}.map {f[3]}.enc)"
            parts.append(f"tagged {tag} ({v})")
        o.append("  " + (" ++\n  ".join(parts) if parts else "[]"))
        o.append("")
        o.append(f"/-- Decode `{n}` (unknown fields skipped): {cite} -/")
        o.append(f"def {n}.dec (fs : Fields) : Option {n} :=")
        for f in fs:
            k, tag = f[2], f[1]
            d = {"str": "dStr", "bytes": "dBytes", "u64": "dU64", "u32": "dU32", "bool": "dBool", "strs": "dStrs", "bytess": "dBytess", "packed": "dPacked"}.get(k)
            if k == "msg": d = f"dOpt {f[3]}.dec"
            if k == "msgs": d = f"dAll {f[3]}.dec"
            o.append(f"  match {d} (sel {tag} fs) with")
            o.append(f"  | none => none")
            o.append(f"  | some x_{f[0]} =>")
        o.append("  some ⟨" + ", ".join("x_" + f[0] for f in fs) + "⟩")
        o.append("")
        o.append(f"theorem {n}.valid (m : {n}) : Valid m.enc := by")
        if fs:
            o.append(f"  simp only [{n}.enc, valid_append]")
            o.append("  exact " + ("⟨" + ", ".join("valid_tagged (by constructor <;> decide) _" for _ in fs) + "⟩" if len(fs) > 1 else "valid_tagged (by constructor <;> decide) _")) if False else o.append("  repeat' apply And.intro\n  all_goals exact valid_tagged (by constructor <;> decide) _")
        else:
            o.append("  exact valid_nil")
        o.append("")
        laws = []
        for f in fs:
            if f[2] == "msg": l = f"dOpt_vMsg {f[3]}.valid {f[3]}.dec_enc"
            elif f[2] == "msgs": l = f"dAll_vMsgs {f[3]}.valid {f[3]}.dec_enc"
            elif f[2] == "u32": l = "dU32_vU64"
            else: continue
            if l not in laws: laws.append(l)
        o.append(f"theorem {n}.dec_enc (m : {n}) : {n}.dec m.enc = some m := by")
        o.append(f"  simp [{n}.dec, {n}.enc, sel_tagged_ne{''.join(', ' + l for l in laws)}]")
        o.append("")
        o.append(f"/-- `encode_to_vec`. {cite} -/")
        o.append(f"def {n}.toBytes (m : {n}) : Bytes := encFields m.enc")
        o.append(f"/-- `{n}::decode`. {cite} -/")
        o.append(f"def {n}.ofBytes (bs : Bytes) : Option {n} := (parseWire bs).bind {n}.dec")
        o.append(f"theorem {n}.ofBytes_toBytes (m : {n}) : {n}.ofBytes m.toBytes = some m := by")
        o.append(f"  simp [{n}.ofBytes, {n}.toBytes, parseWire_encFields m.valid, m.dec_enc]")
        o.append("")
    o.append("end P")
    o.append("end Ica")
    open(os.path.join(OUT, "Proto.lean"), "w").write("\n".join(o) + "\n")

if __name__ == "__main__":
    gen_types(); gen_json(); gen_proto()
