#!/usr/bin/env python3
"""Generates lean/Verif/Facts/Api.lean and ApiStored.lean: every codec of `Model/TypesJson.lean` reads the shape of `Spec/Api.lean` or
`Spec/ApiStored.lean`.
The shapes are written by hand; only the proofs, which follow the form of the codecs, are generated."""
import os, sys
sys.path.insert(0, os.path.dirname(os.path.abspath(__file__)))
import gen
OUT = os.path.join(os.path.dirname(os.path.abspath(__file__)), "..", "lean", "Verif", "Facts")
SPEC = {"Coin": "Coin", "IbcOrder": "Order", "IbcTimeoutBlock": "TimeoutBlock", "IbcTimeout": "Timeout", "BankMsg": "Bank", "StakingMsg": "Staking",
        "DistributionMsg": "Distribution", "IbcMsg": "Ibc", "WasmMsg": "Wasm", "VoteOption": "Vote", "WeightedVoteOption": "WeightedVote",
        "GovMsg": "Gov", "Empty": "Anything", "CosmosMsg": "Cosmos", "PageRequest": "Page", "BankQuery": "BankQ", "StakingQuery": "StakingQ",
        "DistributionQuery": "DistributionQ", "IbcQuery": "IbcQ", "WasmQuery": "WasmQ", "QueryRequest": "Query",
        "ChannelOpenInitOptions": "Options", "Expiration": "Expiry", "Action": "OwnershipAction", "InstantiateMsg": "Instantiate",
        "ExecuteMsg": "Execute", "QueryMsg": "QueryMessage", "MigrateMsg": "Migrate", "TxEncoding": "Encoding", "IcaMetadata": "Metadata",
        "AckData": "Acknowledgement"}
SPEC2 = {"IbcEndpoint": "Endpoint", "IbcChannel": "Channel", "IbcPacket": "Packet", "IcaInfo": "Account", "ContractState": "ControllerState",
        "ChannelStatus": "Status", "ChannelState": "TrackedChannel", "Ownership": "OwnershipRecord", "ContractVersion": "VersionRecord",
        "DenomUnit": "Unit", "DenomMetadata": "Denomination", "CoinResponse": "OneCoin", "AllBalanceResponse": "AllCoins",
        "DenomMetadataResponse": "OneDenomination", "AllDenomMetadataResponse": "AllDenominations", "BankQueryResponse": "BankAnswer",
        "ContractInfoResponse": "ContractInfo", "CodeInfoResponse": "CodeInfo", "WasmQueryResponse": "WasmAnswer", "Delegation": "OneDelegation",
        "IcaDelegationResponse": "MaybeDelegation", "IcaAllDelegationsResponse": "AllDelegations", "Validator": "OneValidator",
        "AllValidatorsResponse": "AllValidators", "ValidatorResponse": "MaybeValidator", "BondedDenomResponse": "StakeDenom",
        "StakingQueryResponse": "StakingAnswer", "IcaQueryResponse": "Answer", "IcaQueryResult": "QueryOutcome", "CallbackMsg": "Callback",
        "ReceiverExecuteMsg": "CallbackCall"}
PRIM = {"Str": "reads_text", "U64": "reads_num64", "U32": "reads_num32", "U8": "reads_num8", "Bool": "reads_truth",
        "Uint64": "reads_quoted64", "Uint128": "reads_quoted128", "Decimal": "reads_decimal", "Bin": "reads_base64", "Checksum": "reads_hex32"}
def reads(t, top=True):
    if isinstance(t, tuple):
        r = {"List": "reads_many", "Opt": "reads_nullable"}[t[0]] + " " + reads(t[1], False)
        return r if top else "(" + r + ")"
    return PRIM[t] if t in PRIM else t + "_reads"
def fiff(f):
    (l, j, t, m) = f
    if m == "req": return f"reqF_iff {reads(t, False)}"
    if m in ("opt", "skip"): return f"optF_iff {reads(t[1], False)}"
    if m == "nulllist": return f"nullListF_iff {reads(t[1], False)}"
    if m == "deflist": return f"defListF_iff {reads(t[1], False)}"
def count(f):
    return {"req": "has_count", "opt": "may_count", "skip": "may_count", "nulllist": "hasArray_count", "deflist": "mayArray_count"}[f[3]]

def fwd(o, ind, fs, strict, pre):
    """h : (getObj ..).bind (..) = some m; closes the goal, `pre` opens the variant"""
    o.append(f"{ind}obtain ⟨fs, hg, g0⟩ := Option.bind_eq_some_iff.mp h")
    if strict: o.append(f"{ind}obtain ⟨rfl, ho, hk⟩ := getObj_closed.mp hg")
    else: o.append(f"{ind}obtain ⟨rfl, hk⟩ := getObj_open.mp hg")
    for i, f in enumerate(fs):
        o.append(f"{ind}obtain ⟨x{i}, h{i}, g{i+1}⟩ := Option.bind_eq_some_iff.mp g{i}")
    o.append(f"{ind}cases g{len(fs)}")
    parts = [f"({fiff(f)} (hk _ (by simp))).mp h{i}" for i, f in enumerate(fs)] or ["trivial"]
    o.append(f"{ind}exact ⟨{pre}fs, rfl, {'ho, ' if strict else ''}{', '.join(parts)}⟩")

def bwd(o, ind, n, fs, strict, pre):
    hs = ", ".join(f"h{i}" for i in range(len(fs))) or "-"
    o.append(f"{ind}rintro ⟨{pre}fs, rfl, {'ho, ' if strict else ''}{hs}⟩")
    for i, f in enumerate(fs):
        o.append(f"{ind}have c{i} := {count(f)} h{i}")
        o.append(f"{ind}replace h{i} := ({fiff(f)} c{i}).mpr h{i}")
    keys = "[" + ", ".join('"%s"' % f[1] for f in fs) + "]"
    cs = ", ".join(f"c{i}" for i in range(len(fs)))
    st = "true" if strict else "false"
    prf = f"getObj_closed.mpr ⟨rfl, ho, by simp [{cs}]⟩" if strict else f"getObj_open.mpr ⟨rfl, by simp [{cs}]⟩"
    o.append(f"{ind}have hg : getObj {st} {keys} (.obj fs) = some fs := {prf}")
    o.append(f"{ind}simp [{n}.jc, hg{''.join(f', h{i}' for i in range(len(fs)))}]")

HEAD1 = ["import Verif.Facts.ApiBase", "", "/-!", "# The codecs read the interface (helper lemmas for C69)", "",
         "Generated by `tools/gen_api.py`; the shapes are those of `Verif/Spec/Api.lean`.", "-/",
         "set_option linter.unusedSimpArgs false", "set_option linter.unusedVariables false", "namespace Ica", "open Api Lean Meta", "",
         "/-- A match that passes `none` on is a bind. -/",
         "simproc_decl matchToBind (_) := fun e => do",
         "  let some m ← matchMatcherApp? e | return .continue",
         "  unless m.discrs.size = 1 && m.alts.size = 2 && m.remaining.size = 0 do return .continue",
         "  let d := m.discrs[0]!",
         "  let t ← whnfR (← inferType d)",
         "  unless t.isAppOfArity ``Option 1 do return .continue",
         "  let r ← whnfR (← inferType e)",
         "  unless r.isAppOfArity ``Option 1 do return .continue",
         "  let e' ← mkAppM ``Option.bind #[d, m.alts[1]!]",
         "  return .visit { expr := e', proof? := none }", ""]
HEAD2 = ["import Verif.Facts.Api", "import Verif.Spec.ApiStored", "import Verif.Facts.Hex", "", "/-!", "# The codecs read callbacks and stored values (helper lemmas)", "",
         "Generated by `tools/gen_api.py`; the shapes are those of `Verif/Spec/ApiStored.lean`.", "-/",
         "set_option linter.unusedSimpArgs false", "set_option linter.unusedVariables false", "namespace Ica", "open Api", ""]

def main(SPEC, o, out):
    for ent in gen.T:
        kind, n, cite, body, strict = ent
        if n not in SPEC: continue
        o.append(f"theorem {n}_reads : Reads {n}.jc Api.{SPEC[n]} := by")
        o.append(f"  intro j m")
        if kind == gen.S:
            o.append("  constructor")
            o.append("  · intro h")
            o.append(f"    simp only [{n}.jc, matchToBind] at h")
            fwd(o, "    ", body, strict, "")
            bwd_o = []
            bwd(bwd_o, "    ", n, body, strict, "")
            # structures: the value is m
            bwd_o[0] = "  · " + bwd_o[0].strip()
            o += bwd_o
        else:
            units = [v for v in body if v[2] == "unit"]
            others = [v for v in body if v[2] != "unit"]
            o.append("  constructor")
            o.append("  · intro h")
            o.append(f"    simp only [{n}.jc, matchToBind] at h")
            o.append("    split at h")
            if units:
                ind = "    · "
                for (l, j, k, p) in units:
                    o.append(f"{ind}split at h")
                    ind = " " * len(ind)
                    o.append(f"{ind}· next hk => subst hk; cases h; rfl")
                    ind = ind + "· "
                o.append(f"{ind}cases h")
            if others:
                ind = "    · "
                for (l, j, k, p) in others:
                    o.append(f"{ind}split at h")
                    ind = " " * len(ind)
                    o.append(f"{ind}· next hk =>")
                    i2 = ind + "  "
                    o.append(f"{i2}subst hk")
                    if k == "new":
                        o.append(f"{i2}obtain ⟨x, hx, rfl⟩ := Option.map_eq_some_iff.mp h")
                        o.append(f"{i2}exact ⟨_, rfl, ({reads(p)} _ _).mp hx⟩")
                    else:
                        fwd(o, i2, p, strict, "_, rfl, ")
                    ind = ind + "· "
                o.append(f"{ind}cases h")
            o.append("    · cases h")
            o.append("  · cases m with")
            for (l, j, k, p) in body:
                if k == "unit":
                    o.append(f"    | {l} => rintro rfl; simp [{n}.jc{', statusName' if n == 'ChannelStatus' else ''}]")
                elif k == "new":
                    o.append(f"    | {l} x =>")
                    o.append(f"      rintro ⟨v, rfl, hv⟩")
                    o.append(f"      replace hv := ({reads(p)} _ _).mpr hv")
                    o.append(f"      simp [{n}.jc, hv]")
                else:
                    o.append(f"    | {l}" + "".join(f" y{i}" for i in range(len(p))) + " =>")
                    bwd(o, "      ", n, p, strict, "v, rfl, ")
        o.append("")
    o.append("end Ica")
    open(os.path.join(OUT, out), "w").write("\n".join(o) + "\n")
main(SPEC, HEAD1, "Api.lean")
main(SPEC2, HEAD2, "ApiStored.lean")
