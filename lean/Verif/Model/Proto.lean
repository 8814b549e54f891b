import Verif.WireFacts

/-!
# Protobuf messages

The messages the contract encodes or decodes with `prost` (cosmos-sdk-proto 0.23, ibc-proto 0.47, not in /repo), as
structures with an encoder and a decoder. `/repo` citations give where the contract builds or reads them.
Generated by `tools/gen.py`.
-/
set_option linter.unusedSimpArgs false
set_option linter.unusedVariables false
set_option linter.unusedTactic false
namespace Ica

/-- Decode an optional embedded message (prost, not in /repo). -/
def dOpt {α : Type} (d : Fields → Option α) (vs : List WVal) : Option (Option α) :=
  match dMsg vs with
  | none => none
  | some none => some none
  | some (some fs) => (d fs).map some

/-- Decode a list of field lists (prost, not in /repo). -/
def decAll {α : Type} (d : Fields → Option α) : List Fields → Option (List α)
  | [] => some []
  | fs :: l =>
    match d fs with
    | none => none
    | some x =>
      match decAll d l with
      | none => none
      | some xs => some (x :: xs)

/-- Decode a repeated embedded message (prost, not in /repo). -/
def dAll {α : Type} (d : Fields → Option α) (vs : List WVal) : Option (List α) :=
  match dMsgs vs with
  | none => none
  | some l => decAll d l

theorem dOpt_vMsg {α : Type} {e : α → Fields} {d : Fields → Option α} (hv : ∀ x, Valid (e x))
    (hd : ∀ x, d (e x) = some x) (o : Option α) : dOpt d (vMsg (o.map e)) = some o := by
  have h := dMsg_vMsg (o := o.map e) (by intro fs hfs; cases o with | none => cases hfs | some x => injection hfs with hfs; subst hfs; exact hv x)
  cases o with
  | none => simp [dOpt, h]; rfl
  | some x => simp only [Option.map_some] at h ⊢; simp only [dOpt, h, hd x, Option.map_some]

theorem decAll_map {α : Type} {e : α → Fields} {d : Fields → Option α} (hd : ∀ x, d (e x) = some x) (l : List α) :
    decAll d (l.map e) = some l := by
  induction l with
  | nil => rfl
  | cons x l ih => simp [decAll, hd x, ih]

theorem dAll_vMsgs {α : Type} {e : α → Fields} {d : Fields → Option α} (hv : ∀ x, Valid (e x))
    (hd : ∀ x, d (e x) = some x) (l : List α) : dAll d (vMsgs (l.map e)) = some l := by
  have h := dMsgs_vMsgs (l := l.map e) (by intro fs hfs; simp only [List.mem_map] at hfs; obtain ⟨x, -, rfl⟩ := hfs; exact hv x)
  simp only [dAll, h, decAll_map hd]

namespace P

/-- `google.protobuf.Any`; built at `/repo/src/types/cosmos_msg.rs` 38-57. -/
structure Any where
  typeUrl : String
  value : Bytes
  deriving DecidableEq

/-- Encode `Any`: `google.protobuf.Any`; built at `/repo/src/types/cosmos_msg.rs` 38-57. -/
def Any.enc (m : Any) : Fields :=
  tagged 1 (vStr m.typeUrl) ++
  tagged 2 (vBytes m.value)

/-- Decode `Any` (unknown fields skipped): `google.protobuf.Any`; built at `/repo/src/types/cosmos_msg.rs` 38-57. -/
def Any.dec (fs : Fields) : Option Any :=
  match dStr (sel 1 fs) with
  | none => none
  | some x_typeUrl =>
  match dBytes (sel 2 fs) with
  | none => none
  | some x_value =>
  some ⟨x_typeUrl, x_value⟩

theorem Any.valid (m : Any) : Valid m.enc := by
  simp only [Any.enc, valid_append]
  repeat' apply And.intro
  all_goals exact valid_tagged (by constructor <;> decide) _

theorem Any.dec_enc (m : Any) : Any.dec m.enc = some m := by
  simp [Any.dec, Any.enc, sel_tagged_ne]

/-- `encode_to_vec`. `google.protobuf.Any`; built at `/repo/src/types/cosmos_msg.rs` 38-57. -/
def Any.toBytes (m : Any) : Bytes := encFields m.enc
/-- `Any::decode`. `google.protobuf.Any`; built at `/repo/src/types/cosmos_msg.rs` 38-57. -/
def Any.ofBytes (bs : Bytes) : Option Any := (parseWire bs).bind Any.dec
theorem Any.ofBytes_toBytes (m : Any) : Any.ofBytes m.toBytes = some m := by
  simp [Any.ofBytes, Any.toBytes, parseWire_encFields m.valid, m.dec_enc]

/-- `ibc.applications.interchain_accounts.v1.CosmosTx`; built at `/repo/src/ibc/types/packet.rs` 62. -/
structure CosmosTx where
  messages : List Any
  deriving DecidableEq

/-- Encode `CosmosTx`: `ibc.applications.interchain_accounts.v1.CosmosTx`; built at `/repo/src/ibc/types/packet.rs` 62. -/
def CosmosTx.enc (m : CosmosTx) : Fields :=
  tagged 1 (vMsgs (m.messages.map Any.enc))

/-- Decode `CosmosTx` (unknown fields skipped): `ibc.applications.interchain_accounts.v1.CosmosTx`; built at `/repo/src/ibc/types/packet.rs` 62. -/
def CosmosTx.dec (fs : Fields) : Option CosmosTx :=
  match dAll Any.dec (sel 1 fs) with
  | none => none
  | some x_messages =>
  some ⟨x_messages⟩

theorem CosmosTx.valid (m : CosmosTx) : Valid m.enc := by
  simp only [CosmosTx.enc, valid_append]
  repeat' apply And.intro
  all_goals exact valid_tagged (by constructor <;> decide) _

theorem CosmosTx.dec_enc (m : CosmosTx) : CosmosTx.dec m.enc = some m := by
  simp [CosmosTx.dec, CosmosTx.enc, sel_tagged_ne, dAll_vMsgs Any.valid Any.dec_enc]

/-- `encode_to_vec`. `ibc.applications.interchain_accounts.v1.CosmosTx`; built at `/repo/src/ibc/types/packet.rs` 62. -/
def CosmosTx.toBytes (m : CosmosTx) : Bytes := encFields m.enc
/-- `CosmosTx::decode`. `ibc.applications.interchain_accounts.v1.CosmosTx`; built at `/repo/src/ibc/types/packet.rs` 62. -/
def CosmosTx.ofBytes (bs : Bytes) : Option CosmosTx := (parseWire bs).bind CosmosTx.dec
theorem CosmosTx.ofBytes_toBytes (m : CosmosTx) : CosmosTx.ofBytes m.toBytes = some m := by
  simp [CosmosTx.ofBytes, CosmosTx.toBytes, parseWire_encFields m.valid, m.dec_enc]

/-- `cosmos.base.abci.v1beta1.MsgData`, deprecated; read at `/repo/src/ibc/types/packet.rs` 225-230. -/
structure MsgData where
  msgType : String
  data : Bytes
  deriving DecidableEq

/-- Encode `MsgData`: `cosmos.base.abci.v1beta1.MsgData`, deprecated; read at `/repo/src/ibc/types/packet.rs` 225-230. -/
def MsgData.enc (m : MsgData) : Fields :=
  tagged 1 (vStr m.msgType) ++
  tagged 2 (vBytes m.data)

/-- Decode `MsgData` (unknown fields skipped): `cosmos.base.abci.v1beta1.MsgData`, deprecated; read at `/repo/src/ibc/types/packet.rs` 225-230. -/
def MsgData.dec (fs : Fields) : Option MsgData :=
  match dStr (sel 1 fs) with
  | none => none
  | some x_msgType =>
  match dBytes (sel 2 fs) with
  | none => none
  | some x_data =>
  some ⟨x_msgType, x_data⟩

theorem MsgData.valid (m : MsgData) : Valid m.enc := by
  simp only [MsgData.enc, valid_append]
  repeat' apply And.intro
  all_goals exact valid_tagged (by constructor <;> decide) _

theorem MsgData.dec_enc (m : MsgData) : MsgData.dec m.enc = some m := by
  simp [MsgData.dec, MsgData.enc, sel_tagged_ne]

/-- `encode_to_vec`. `cosmos.base.abci.v1beta1.MsgData`, deprecated; read at `/repo/src/ibc/types/packet.rs` 225-230. -/
def MsgData.toBytes (m : MsgData) : Bytes := encFields m.enc
/-- `MsgData::decode`. `cosmos.base.abci.v1beta1.MsgData`, deprecated; read at `/repo/src/ibc/types/packet.rs` 225-230. -/
def MsgData.ofBytes (bs : Bytes) : Option MsgData := (parseWire bs).bind MsgData.dec
theorem MsgData.ofBytes_toBytes (m : MsgData) : MsgData.ofBytes m.toBytes = some m := by
  simp [MsgData.ofBytes, MsgData.toBytes, parseWire_encFields m.valid, m.dec_enc]

/-- `cosmos.base.abci.v1beta1.TxMsgData`; read at `/repo/src/ibc/types/packet.rs` 225-230. -/
structure TxMsgData where
  data : List MsgData
  msgResponses : List Any
  deriving DecidableEq

/-- Encode `TxMsgData`: `cosmos.base.abci.v1beta1.TxMsgData`; read at `/repo/src/ibc/types/packet.rs` 225-230. -/
def TxMsgData.enc (m : TxMsgData) : Fields :=
  tagged 1 (vMsgs (m.data.map MsgData.enc)) ++
  tagged 2 (vMsgs (m.msgResponses.map Any.enc))

/-- Decode `TxMsgData` (unknown fields skipped): `cosmos.base.abci.v1beta1.TxMsgData`; read at `/repo/src/ibc/types/packet.rs` 225-230. -/
def TxMsgData.dec (fs : Fields) : Option TxMsgData :=
  match dAll MsgData.dec (sel 1 fs) with
  | none => none
  | some x_data =>
  match dAll Any.dec (sel 2 fs) with
  | none => none
  | some x_msgResponses =>
  some ⟨x_data, x_msgResponses⟩

theorem TxMsgData.valid (m : TxMsgData) : Valid m.enc := by
  simp only [TxMsgData.enc, valid_append]
  repeat' apply And.intro
  all_goals exact valid_tagged (by constructor <;> decide) _

theorem TxMsgData.dec_enc (m : TxMsgData) : TxMsgData.dec m.enc = some m := by
  simp [TxMsgData.dec, TxMsgData.enc, sel_tagged_ne, dAll_vMsgs MsgData.valid MsgData.dec_enc, dAll_vMsgs Any.valid Any.dec_enc]

/-- `encode_to_vec`. `cosmos.base.abci.v1beta1.TxMsgData`; read at `/repo/src/ibc/types/packet.rs` 225-230. -/
def TxMsgData.toBytes (m : TxMsgData) : Bytes := encFields m.enc
/-- `TxMsgData::decode`. `cosmos.base.abci.v1beta1.TxMsgData`; read at `/repo/src/ibc/types/packet.rs` 225-230. -/
def TxMsgData.ofBytes (bs : Bytes) : Option TxMsgData := (parseWire bs).bind TxMsgData.dec
theorem TxMsgData.ofBytes_toBytes (m : TxMsgData) : TxMsgData.ofBytes m.toBytes = some m := by
  simp [TxMsgData.ofBytes, TxMsgData.toBytes, parseWire_encFields m.valid, m.dec_enc]

/-- `/repo/src/types/query_msg.rs` 674-684. -/
structure AbciQueryRequest where
  path : String
  data : Bytes
  deriving DecidableEq

/-- Encode `AbciQueryRequest`: `/repo/src/types/query_msg.rs` 674-684. -/
def AbciQueryRequest.enc (m : AbciQueryRequest) : Fields :=
  tagged 1 (vStr m.path) ++
  tagged 2 (vBytes m.data)

/-- Decode `AbciQueryRequest` (unknown fields skipped): `/repo/src/types/query_msg.rs` 674-684. -/
def AbciQueryRequest.dec (fs : Fields) : Option AbciQueryRequest :=
  match dStr (sel 1 fs) with
  | none => none
  | some x_path =>
  match dBytes (sel 2 fs) with
  | none => none
  | some x_data =>
  some ⟨x_path, x_data⟩

theorem AbciQueryRequest.valid (m : AbciQueryRequest) : Valid m.enc := by
  simp only [AbciQueryRequest.enc, valid_append]
  repeat' apply And.intro
  all_goals exact valid_tagged (by constructor <;> decide) _

theorem AbciQueryRequest.dec_enc (m : AbciQueryRequest) : AbciQueryRequest.dec m.enc = some m := by
  simp [AbciQueryRequest.dec, AbciQueryRequest.enc, sel_tagged_ne]

/-- `encode_to_vec`. `/repo/src/types/query_msg.rs` 674-684. -/
def AbciQueryRequest.toBytes (m : AbciQueryRequest) : Bytes := encFields m.enc
/-- `AbciQueryRequest::decode`. `/repo/src/types/query_msg.rs` 674-684. -/
def AbciQueryRequest.ofBytes (bs : Bytes) : Option AbciQueryRequest := (parseWire bs).bind AbciQueryRequest.dec
theorem AbciQueryRequest.ofBytes_toBytes (m : AbciQueryRequest) : AbciQueryRequest.ofBytes m.toBytes = some m := by
  simp [AbciQueryRequest.ofBytes, AbciQueryRequest.toBytes, parseWire_encFields m.valid, m.dec_enc]

/-- `/repo/src/types/query_msg.rs` 663-671. -/
structure MsgModuleQuerySafe where
  signer : String
  requests : List AbciQueryRequest
  deriving DecidableEq

/-- Encode `MsgModuleQuerySafe`: `/repo/src/types/query_msg.rs` 663-671. -/
def MsgModuleQuerySafe.enc (m : MsgModuleQuerySafe) : Fields :=
  tagged 1 (vStr m.signer) ++
  tagged 2 (vMsgs (m.requests.map AbciQueryRequest.enc))

/-- Decode `MsgModuleQuerySafe` (unknown fields skipped): `/repo/src/types/query_msg.rs` 663-671. -/
def MsgModuleQuerySafe.dec (fs : Fields) : Option MsgModuleQuerySafe :=
  match dStr (sel 1 fs) with
  | none => none
  | some x_signer =>
  match dAll AbciQueryRequest.dec (sel 2 fs) with
  | none => none
  | some x_requests =>
  some ⟨x_signer, x_requests⟩

theorem MsgModuleQuerySafe.valid (m : MsgModuleQuerySafe) : Valid m.enc := by
  simp only [MsgModuleQuerySafe.enc, valid_append]
  repeat' apply And.intro
  all_goals exact valid_tagged (by constructor <;> decide) _

theorem MsgModuleQuerySafe.dec_enc (m : MsgModuleQuerySafe) : MsgModuleQuerySafe.dec m.enc = some m := by
  simp [MsgModuleQuerySafe.dec, MsgModuleQuerySafe.enc, sel_tagged_ne, dAll_vMsgs AbciQueryRequest.valid AbciQueryRequest.dec_enc]

/-- `encode_to_vec`. `/repo/src/types/query_msg.rs` 663-671. -/
def MsgModuleQuerySafe.toBytes (m : MsgModuleQuerySafe) : Bytes := encFields m.enc
/-- `MsgModuleQuerySafe::decode`. `/repo/src/types/query_msg.rs` 663-671. -/
def MsgModuleQuerySafe.ofBytes (bs : Bytes) : Option MsgModuleQuerySafe := (parseWire bs).bind MsgModuleQuerySafe.dec
theorem MsgModuleQuerySafe.ofBytes_toBytes (m : MsgModuleQuerySafe) : MsgModuleQuerySafe.ofBytes m.toBytes = some m := by
  simp [MsgModuleQuerySafe.ofBytes, MsgModuleQuerySafe.toBytes, parseWire_encFields m.valid, m.dec_enc]

/-- `/repo/src/types/query_msg.rs` 687-696. -/
structure MsgModuleQuerySafeResponse where
  height : UInt64
  responses : List Bytes
  deriving DecidableEq

/-- Encode `MsgModuleQuerySafeResponse`: `/repo/src/types/query_msg.rs` 687-696. -/
def MsgModuleQuerySafeResponse.enc (m : MsgModuleQuerySafeResponse) : Fields :=
  tagged 1 (vU64 m.height) ++
  tagged 2 (vBytess m.responses)

/-- Decode `MsgModuleQuerySafeResponse` (unknown fields skipped): `/repo/src/types/query_msg.rs` 687-696. -/
def MsgModuleQuerySafeResponse.dec (fs : Fields) : Option MsgModuleQuerySafeResponse :=
  match dU64 (sel 1 fs) with
  | none => none
  | some x_height =>
  match dBytess (sel 2 fs) with
  | none => none
  | some x_responses =>
  some ⟨x_height, x_responses⟩

theorem MsgModuleQuerySafeResponse.valid (m : MsgModuleQuerySafeResponse) : Valid m.enc := by
  simp only [MsgModuleQuerySafeResponse.enc, valid_append]
  repeat' apply And.intro
  all_goals exact valid_tagged (by constructor <;> decide) _

theorem MsgModuleQuerySafeResponse.dec_enc (m : MsgModuleQuerySafeResponse) : MsgModuleQuerySafeResponse.dec m.enc = some m := by
  simp [MsgModuleQuerySafeResponse.dec, MsgModuleQuerySafeResponse.enc, sel_tagged_ne]

/-- `encode_to_vec`. `/repo/src/types/query_msg.rs` 687-696. -/
def MsgModuleQuerySafeResponse.toBytes (m : MsgModuleQuerySafeResponse) : Bytes := encFields m.enc
/-- `MsgModuleQuerySafeResponse::decode`. `/repo/src/types/query_msg.rs` 687-696. -/
def MsgModuleQuerySafeResponse.ofBytes (bs : Bytes) : Option MsgModuleQuerySafeResponse := (parseWire bs).bind MsgModuleQuerySafeResponse.dec
theorem MsgModuleQuerySafeResponse.ofBytes_toBytes (m : MsgModuleQuerySafeResponse) : MsgModuleQuerySafeResponse.ofBytes m.toBytes = some m := by
  simp [MsgModuleQuerySafeResponse.ofBytes, MsgModuleQuerySafeResponse.toBytes, parseWire_encFields m.valid, m.dec_enc]

/-- `cosmos.base.v1beta1.Coin`; built at `/repo/src/types/cosmos_msg.rs` 90-93. -/
structure Coin where
  denom : String
  amount : String
  deriving DecidableEq

/-- Encode `Coin`: `cosmos.base.v1beta1.Coin`; built at `/repo/src/types/cosmos_msg.rs` 90-93. -/
def Coin.enc (m : Coin) : Fields :=
  tagged 1 (vStr m.denom) ++
  tagged 2 (vStr m.amount)

/-- Decode `Coin` (unknown fields skipped): `cosmos.base.v1beta1.Coin`; built at `/repo/src/types/cosmos_msg.rs` 90-93. -/
def Coin.dec (fs : Fields) : Option Coin :=
  match dStr (sel 1 fs) with
  | none => none
  | some x_denom =>
  match dStr (sel 2 fs) with
  | none => none
  | some x_amount =>
  some ⟨x_denom, x_amount⟩

theorem Coin.valid (m : Coin) : Valid m.enc := by
  simp only [Coin.enc, valid_append]
  repeat' apply And.intro
  all_goals exact valid_tagged (by constructor <;> decide) _

theorem Coin.dec_enc (m : Coin) : Coin.dec m.enc = some m := by
  simp [Coin.dec, Coin.enc, sel_tagged_ne]

/-- `encode_to_vec`. `cosmos.base.v1beta1.Coin`; built at `/repo/src/types/cosmos_msg.rs` 90-93. -/
def Coin.toBytes (m : Coin) : Bytes := encFields m.enc
/-- `Coin::decode`. `cosmos.base.v1beta1.Coin`; built at `/repo/src/types/cosmos_msg.rs` 90-93. -/
def Coin.ofBytes (bs : Bytes) : Option Coin := (parseWire bs).bind Coin.dec
theorem Coin.ofBytes_toBytes (m : Coin) : Coin.ofBytes m.toBytes = some m := by
  simp [Coin.ofBytes, Coin.toBytes, parseWire_encFields m.valid, m.dec_enc]

/-- `cosmos.bank.v1beta1.MsgSend`; built at `/repo/src/types/cosmos_msg.rs` 86-96. -/
structure MsgSend where
  fromAddress : String
  toAddress : String
  amount : List Coin
  deriving DecidableEq

/-- Encode `MsgSend`: `cosmos.bank.v1beta1.MsgSend`; built at `/repo/src/types/cosmos_msg.rs` 86-96. -/
def MsgSend.enc (m : MsgSend) : Fields :=
  tagged 1 (vStr m.fromAddress) ++
  tagged 2 (vStr m.toAddress) ++
  tagged 3 (vMsgs (m.amount.map Coin.enc))

/-- Decode `MsgSend` (unknown fields skipped): `cosmos.bank.v1beta1.MsgSend`; built at `/repo/src/types/cosmos_msg.rs` 86-96. -/
def MsgSend.dec (fs : Fields) : Option MsgSend :=
  match dStr (sel 1 fs) with
  | none => none
  | some x_fromAddress =>
  match dStr (sel 2 fs) with
  | none => none
  | some x_toAddress =>
  match dAll Coin.dec (sel 3 fs) with
  | none => none
  | some x_amount =>
  some ⟨x_fromAddress, x_toAddress, x_amount⟩

theorem MsgSend.valid (m : MsgSend) : Valid m.enc := by
  simp only [MsgSend.enc, valid_append]
  repeat' apply And.intro
  all_goals exact valid_tagged (by constructor <;> decide) _

theorem MsgSend.dec_enc (m : MsgSend) : MsgSend.dec m.enc = some m := by
  simp [MsgSend.dec, MsgSend.enc, sel_tagged_ne, dAll_vMsgs Coin.valid Coin.dec_enc]

/-- `encode_to_vec`. `cosmos.bank.v1beta1.MsgSend`; built at `/repo/src/types/cosmos_msg.rs` 86-96. -/
def MsgSend.toBytes (m : MsgSend) : Bytes := encFields m.enc
/-- `MsgSend::decode`. `cosmos.bank.v1beta1.MsgSend`; built at `/repo/src/types/cosmos_msg.rs` 86-96. -/
def MsgSend.ofBytes (bs : Bytes) : Option MsgSend := (parseWire bs).bind MsgSend.dec
theorem MsgSend.ofBytes_toBytes (m : MsgSend) : MsgSend.ofBytes m.toBytes = some m := by
  simp [MsgSend.ofBytes, MsgSend.toBytes, parseWire_encFields m.valid, m.dec_enc]

/-- `ibc.core.client.v1.Height`; built at `/repo/src/types/cosmos_msg.rs` 118-121. -/
structure Height where
  revisionNumber : UInt64
  revisionHeight : UInt64
  deriving DecidableEq

/-- Encode `Height`: `ibc.core.client.v1.Height`; built at `/repo/src/types/cosmos_msg.rs` 118-121. -/
def Height.enc (m : Height) : Fields :=
  tagged 1 (vU64 m.revisionNumber) ++
  tagged 2 (vU64 m.revisionHeight)

/-- Decode `Height` (unknown fields skipped): `ibc.core.client.v1.Height`; built at `/repo/src/types/cosmos_msg.rs` 118-121. -/
def Height.dec (fs : Fields) : Option Height :=
  match dU64 (sel 1 fs) with
  | none => none
  | some x_revisionNumber =>
  match dU64 (sel 2 fs) with
  | none => none
  | some x_revisionHeight =>
  some ⟨x_revisionNumber, x_revisionHeight⟩

theorem Height.valid (m : Height) : Valid m.enc := by
  simp only [Height.enc, valid_append]
  repeat' apply And.intro
  all_goals exact valid_tagged (by constructor <;> decide) _

theorem Height.dec_enc (m : Height) : Height.dec m.enc = some m := by
  simp [Height.dec, Height.enc, sel_tagged_ne]

/-- `encode_to_vec`. `ibc.core.client.v1.Height`; built at `/repo/src/types/cosmos_msg.rs` 118-121. -/
def Height.toBytes (m : Height) : Bytes := encFields m.enc
/-- `Height::decode`. `ibc.core.client.v1.Height`; built at `/repo/src/types/cosmos_msg.rs` 118-121. -/
def Height.ofBytes (bs : Bytes) : Option Height := (parseWire bs).bind Height.dec
theorem Height.ofBytes_toBytes (m : Height) : Height.ofBytes m.toBytes = some m := by
  simp [Height.ofBytes, Height.toBytes, parseWire_encFields m.valid, m.dec_enc]

/-- `ibc.applications.transfer.v1.MsgTransfer`; built at `/repo/src/types/cosmos_msg.rs` 109-124. -/
structure MsgTransfer where
  sourcePort : String
  sourceChannel : String
  token : Option Coin
  sender : String
  receiver : String
  timeoutHeight : Option Height
  timeoutTimestamp : UInt64
  memo : String
  deriving DecidableEq

/-- Encode `MsgTransfer`: `ibc.applications.transfer.v1.MsgTransfer`; built at `/repo/src/types/cosmos_msg.rs` 109-124. -/
def MsgTransfer.enc (m : MsgTransfer) : Fields :=
  tagged 1 (vStr m.sourcePort) ++
  tagged 2 (vStr m.sourceChannel) ++
  tagged 3 (vMsg (m.token.map Coin.enc)) ++
  tagged 4 (vStr m.sender) ++
  tagged 5 (vStr m.receiver) ++
  tagged 6 (vMsg (m.timeoutHeight.map Height.enc)) ++
  tagged 7 (vU64 m.timeoutTimestamp) ++
  tagged 8 (vStr m.memo)

/-- Decode `MsgTransfer` (unknown fields skipped): `ibc.applications.transfer.v1.MsgTransfer`; built at `/repo/src/types/cosmos_msg.rs` 109-124. -/
def MsgTransfer.dec (fs : Fields) : Option MsgTransfer :=
  match dStr (sel 1 fs) with
  | none => none
  | some x_sourcePort =>
  match dStr (sel 2 fs) with
  | none => none
  | some x_sourceChannel =>
  match dOpt Coin.dec (sel 3 fs) with
  | none => none
  | some x_token =>
  match dStr (sel 4 fs) with
  | none => none
  | some x_sender =>
  match dStr (sel 5 fs) with
  | none => none
  | some x_receiver =>
  match dOpt Height.dec (sel 6 fs) with
  | none => none
  | some x_timeoutHeight =>
  match dU64 (sel 7 fs) with
  | none => none
  | some x_timeoutTimestamp =>
  match dStr (sel 8 fs) with
  | none => none
  | some x_memo =>
  some ⟨x_sourcePort, x_sourceChannel, x_token, x_sender, x_receiver, x_timeoutHeight, x_timeoutTimestamp, x_memo⟩

theorem MsgTransfer.valid (m : MsgTransfer) : Valid m.enc := by
  simp only [MsgTransfer.enc, valid_append]
  repeat' apply And.intro
  all_goals exact valid_tagged (by constructor <;> decide) _

theorem MsgTransfer.dec_enc (m : MsgTransfer) : MsgTransfer.dec m.enc = some m := by
  simp [MsgTransfer.dec, MsgTransfer.enc, sel_tagged_ne, dOpt_vMsg Coin.valid Coin.dec_enc, dOpt_vMsg Height.valid Height.dec_enc]

/-- `encode_to_vec`. `ibc.applications.transfer.v1.MsgTransfer`; built at `/repo/src/types/cosmos_msg.rs` 109-124. -/
def MsgTransfer.toBytes (m : MsgTransfer) : Bytes := encFields m.enc
/-- `MsgTransfer::decode`. `ibc.applications.transfer.v1.MsgTransfer`; built at `/repo/src/types/cosmos_msg.rs` 109-124. -/
def MsgTransfer.ofBytes (bs : Bytes) : Option MsgTransfer := (parseWire bs).bind MsgTransfer.dec
theorem MsgTransfer.ofBytes_toBytes (m : MsgTransfer) : MsgTransfer.ofBytes m.toBytes = some m := by
  simp [MsgTransfer.ofBytes, MsgTransfer.toBytes, parseWire_encFields m.valid, m.dec_enc]

/-- `cosmwasm.wasm.v1.MsgExecuteContract`; built at `/repo/src/types/cosmos_msg.rs` 135-146. -/
structure MsgExecuteContract where
  sender : String
  contract : String
  msg : Bytes
  funds : List Coin
  deriving DecidableEq

/-- Encode `MsgExecuteContract`: `cosmwasm.wasm.v1.MsgExecuteContract`; built at `/repo/src/types/cosmos_msg.rs` 135-146. -/
def MsgExecuteContract.enc (m : MsgExecuteContract) : Fields :=
  tagged 1 (vStr m.sender) ++
  tagged 2 (vStr m.contract) ++
  tagged 3 (vBytes m.msg) ++
  tagged 5 (vMsgs (m.funds.map Coin.enc))

/-- Decode `MsgExecuteContract` (unknown fields skipped): `cosmwasm.wasm.v1.MsgExecuteContract`; built at `/repo/src/types/cosmos_msg.rs` 135-146. -/
def MsgExecuteContract.dec (fs : Fields) : Option MsgExecuteContract :=
  match dStr (sel 1 fs) with
  | none => none
  | some x_sender =>
  match dStr (sel 2 fs) with
  | none => none
  | some x_contract =>
  match dBytes (sel 3 fs) with
  | none => none
  | some x_msg =>
  match dAll Coin.dec (sel 5 fs) with
  | none => none
  | some x_funds =>
  some ⟨x_sender, x_contract, x_msg, x_funds⟩

theorem MsgExecuteContract.valid (m : MsgExecuteContract) : Valid m.enc := by
  simp only [MsgExecuteContract.enc, valid_append]
  repeat' apply And.intro
  all_goals exact valid_tagged (by constructor <;> decide) _

theorem MsgExecuteContract.dec_enc (m : MsgExecuteContract) : MsgExecuteContract.dec m.enc = some m := by
  simp [MsgExecuteContract.dec, MsgExecuteContract.enc, sel_tagged_ne, dAll_vMsgs Coin.valid Coin.dec_enc]

/-- `encode_to_vec`. `cosmwasm.wasm.v1.MsgExecuteContract`; built at `/repo/src/types/cosmos_msg.rs` 135-146. -/
def MsgExecuteContract.toBytes (m : MsgExecuteContract) : Bytes := encFields m.enc
/-- `MsgExecuteContract::decode`. `cosmwasm.wasm.v1.MsgExecuteContract`; built at `/repo/src/types/cosmos_msg.rs` 135-146. -/
def MsgExecuteContract.ofBytes (bs : Bytes) : Option MsgExecuteContract := (parseWire bs).bind MsgExecuteContract.dec
theorem MsgExecuteContract.ofBytes_toBytes (m : MsgExecuteContract) : MsgExecuteContract.ofBytes m.toBytes = some m := by
  simp [MsgExecuteContract.ofBytes, MsgExecuteContract.toBytes, parseWire_encFields m.valid, m.dec_enc]

/-- `cosmwasm.wasm.v1.MsgInstantiateContract`; built at `/repo/src/types/cosmos_msg.rs` 153-166. -/
structure MsgInstantiateContract where
  sender : String
  admin : String
  codeId : UInt64
  label : String
  msg : Bytes
  funds : List Coin
  deriving DecidableEq

/-- Encode `MsgInstantiateContract`: `cosmwasm.wasm.v1.MsgInstantiateContract`; built at `/repo/src/types/cosmos_msg.rs` 153-166. -/
def MsgInstantiateContract.enc (m : MsgInstantiateContract) : Fields :=
  tagged 1 (vStr m.sender) ++
  tagged 2 (vStr m.admin) ++
  tagged 3 (vU64 m.codeId) ++
  tagged 4 (vStr m.label) ++
  tagged 5 (vBytes m.msg) ++
  tagged 6 (vMsgs (m.funds.map Coin.enc))

/-- Decode `MsgInstantiateContract` (unknown fields skipped): `cosmwasm.wasm.v1.MsgInstantiateContract`; built at `/repo/src/types/cosmos_msg.rs` 153-166. -/
def MsgInstantiateContract.dec (fs : Fields) : Option MsgInstantiateContract :=
  match dStr (sel 1 fs) with
  | none => none
  | some x_sender =>
  match dStr (sel 2 fs) with
  | none => none
  | some x_admin =>
  match dU64 (sel 3 fs) with
  | none => none
  | some x_codeId =>
  match dStr (sel 4 fs) with
  | none => none
  | some x_label =>
  match dBytes (sel 5 fs) with
  | none => none
  | some x_msg =>
  match dAll Coin.dec (sel 6 fs) with
  | none => none
  | some x_funds =>
  some ⟨x_sender, x_admin, x_codeId, x_label, x_msg, x_funds⟩

theorem MsgInstantiateContract.valid (m : MsgInstantiateContract) : Valid m.enc := by
  simp only [MsgInstantiateContract.enc, valid_append]
  repeat' apply And.intro
  all_goals exact valid_tagged (by constructor <;> decide) _

theorem MsgInstantiateContract.dec_enc (m : MsgInstantiateContract) : MsgInstantiateContract.dec m.enc = some m := by
  simp [MsgInstantiateContract.dec, MsgInstantiateContract.enc, sel_tagged_ne, dAll_vMsgs Coin.valid Coin.dec_enc]

/-- `encode_to_vec`. `cosmwasm.wasm.v1.MsgInstantiateContract`; built at `/repo/src/types/cosmos_msg.rs` 153-166. -/
def MsgInstantiateContract.toBytes (m : MsgInstantiateContract) : Bytes := encFields m.enc
/-- `MsgInstantiateContract::decode`. `cosmwasm.wasm.v1.MsgInstantiateContract`; built at `/repo/src/types/cosmos_msg.rs` 153-166. -/
def MsgInstantiateContract.ofBytes (bs : Bytes) : Option MsgInstantiateContract := (parseWire bs).bind MsgInstantiateContract.dec
theorem MsgInstantiateContract.ofBytes_toBytes (m : MsgInstantiateContract) : MsgInstantiateContract.ofBytes m.toBytes = some m := by
  simp [MsgInstantiateContract.ofBytes, MsgInstantiateContract.toBytes, parseWire_encFields m.valid, m.dec_enc]

/-- `cosmwasm.wasm.v1.MsgInstantiateContract2`; built at `/repo/src/types/cosmos_msg.rs` 196-211. -/
structure MsgInstantiateContract2 where
  sender : String
  admin : String
  codeId : UInt64
  label : String
  msg : Bytes
  funds : List Coin
  salt : Bytes
  fixMsg : Bool
  deriving DecidableEq

/-- Encode `MsgInstantiateContract2`: `cosmwasm.wasm.v1.MsgInstantiateContract2`; built at `/repo/src/types/cosmos_msg.rs` 196-211. -/
def MsgInstantiateContract2.enc (m : MsgInstantiateContract2) : Fields :=
  tagged 1 (vStr m.sender) ++
  tagged 2 (vStr m.admin) ++
  tagged 3 (vU64 m.codeId) ++
  tagged 4 (vStr m.label) ++
  tagged 5 (vBytes m.msg) ++
  tagged 6 (vMsgs (m.funds.map Coin.enc)) ++
  tagged 7 (vBytes m.salt) ++
  tagged 8 (vBool m.fixMsg)

/-- Decode `MsgInstantiateContract2` (unknown fields skipped): `cosmwasm.wasm.v1.MsgInstantiateContract2`; built at `/repo/src/types/cosmos_msg.rs` 196-211. -/
def MsgInstantiateContract2.dec (fs : Fields) : Option MsgInstantiateContract2 :=
  match dStr (sel 1 fs) with
  | none => none
  | some x_sender =>
  match dStr (sel 2 fs) with
  | none => none
  | some x_admin =>
  match dU64 (sel 3 fs) with
  | none => none
  | some x_codeId =>
  match dStr (sel 4 fs) with
  | none => none
  | some x_label =>
  match dBytes (sel 5 fs) with
  | none => none
  | some x_msg =>
  match dAll Coin.dec (sel 6 fs) with
  | none => none
  | some x_funds =>
  match dBytes (sel 7 fs) with
  | none => none
  | some x_salt =>
  match dBool (sel 8 fs) with
  | none => none
  | some x_fixMsg =>
  some ⟨x_sender, x_admin, x_codeId, x_label, x_msg, x_funds, x_salt, x_fixMsg⟩

theorem MsgInstantiateContract2.valid (m : MsgInstantiateContract2) : Valid m.enc := by
  simp only [MsgInstantiateContract2.enc, valid_append]
  repeat' apply And.intro
  all_goals exact valid_tagged (by constructor <;> decide) _

theorem MsgInstantiateContract2.dec_enc (m : MsgInstantiateContract2) : MsgInstantiateContract2.dec m.enc = some m := by
  simp [MsgInstantiateContract2.dec, MsgInstantiateContract2.enc, sel_tagged_ne, dAll_vMsgs Coin.valid Coin.dec_enc]

/-- `encode_to_vec`. `cosmwasm.wasm.v1.MsgInstantiateContract2`; built at `/repo/src/types/cosmos_msg.rs` 196-211. -/
def MsgInstantiateContract2.toBytes (m : MsgInstantiateContract2) : Bytes := encFields m.enc
/-- `MsgInstantiateContract2::decode`. `cosmwasm.wasm.v1.MsgInstantiateContract2`; built at `/repo/src/types/cosmos_msg.rs` 196-211. -/
def MsgInstantiateContract2.ofBytes (bs : Bytes) : Option MsgInstantiateContract2 := (parseWire bs).bind MsgInstantiateContract2.dec
theorem MsgInstantiateContract2.ofBytes_toBytes (m : MsgInstantiateContract2) : MsgInstantiateContract2.ofBytes m.toBytes = some m := by
  simp [MsgInstantiateContract2.ofBytes, MsgInstantiateContract2.toBytes, parseWire_encFields m.valid, m.dec_enc]

/-- `cosmwasm.wasm.v1.MsgMigrateContract`; built at `/repo/src/types/cosmos_msg.rs` 171-176. -/
structure MsgMigrateContract where
  sender : String
  contract : String
  codeId : UInt64
  msg : Bytes
  deriving DecidableEq

/-- Encode `MsgMigrateContract`: `cosmwasm.wasm.v1.MsgMigrateContract`; built at `/repo/src/types/cosmos_msg.rs` 171-176. -/
def MsgMigrateContract.enc (m : MsgMigrateContract) : Fields :=
  tagged 1 (vStr m.sender) ++
  tagged 2 (vStr m.contract) ++
  tagged 3 (vU64 m.codeId) ++
  tagged 4 (vBytes m.msg)

/-- Decode `MsgMigrateContract` (unknown fields skipped): `cosmwasm.wasm.v1.MsgMigrateContract`; built at `/repo/src/types/cosmos_msg.rs` 171-176. -/
def MsgMigrateContract.dec (fs : Fields) : Option MsgMigrateContract :=
  match dStr (sel 1 fs) with
  | none => none
  | some x_sender =>
  match dStr (sel 2 fs) with
  | none => none
  | some x_contract =>
  match dU64 (sel 3 fs) with
  | none => none
  | some x_codeId =>
  match dBytes (sel 4 fs) with
  | none => none
  | some x_msg =>
  some ⟨x_sender, x_contract, x_codeId, x_msg⟩

theorem MsgMigrateContract.valid (m : MsgMigrateContract) : Valid m.enc := by
  simp only [MsgMigrateContract.enc, valid_append]
  repeat' apply And.intro
  all_goals exact valid_tagged (by constructor <;> decide) _

theorem MsgMigrateContract.dec_enc (m : MsgMigrateContract) : MsgMigrateContract.dec m.enc = some m := by
  simp [MsgMigrateContract.dec, MsgMigrateContract.enc, sel_tagged_ne]

/-- `encode_to_vec`. `cosmwasm.wasm.v1.MsgMigrateContract`; built at `/repo/src/types/cosmos_msg.rs` 171-176. -/
def MsgMigrateContract.toBytes (m : MsgMigrateContract) : Bytes := encFields m.enc
/-- `MsgMigrateContract::decode`. `cosmwasm.wasm.v1.MsgMigrateContract`; built at `/repo/src/types/cosmos_msg.rs` 171-176. -/
def MsgMigrateContract.ofBytes (bs : Bytes) : Option MsgMigrateContract := (parseWire bs).bind MsgMigrateContract.dec
theorem MsgMigrateContract.ofBytes_toBytes (m : MsgMigrateContract) : MsgMigrateContract.ofBytes m.toBytes = some m := by
  simp [MsgMigrateContract.ofBytes, MsgMigrateContract.toBytes, parseWire_encFields m.valid, m.dec_enc]

/-- `cosmwasm.wasm.v1.MsgUpdateAdmin`; built at `/repo/src/types/cosmos_msg.rs` 180-184. -/
structure MsgUpdateAdmin where
  sender : String
  newAdmin : String
  contract : String
  deriving DecidableEq

/-- Encode `MsgUpdateAdmin`: `cosmwasm.wasm.v1.MsgUpdateAdmin`; built at `/repo/src/types/cosmos_msg.rs` 180-184. -/
def MsgUpdateAdmin.enc (m : MsgUpdateAdmin) : Fields :=
  tagged 1 (vStr m.sender) ++
  tagged 2 (vStr m.newAdmin) ++
  tagged 3 (vStr m.contract)

/-- Decode `MsgUpdateAdmin` (unknown fields skipped): `cosmwasm.wasm.v1.MsgUpdateAdmin`; built at `/repo/src/types/cosmos_msg.rs` 180-184. -/
def MsgUpdateAdmin.dec (fs : Fields) : Option MsgUpdateAdmin :=
  match dStr (sel 1 fs) with
  | none => none
  | some x_sender =>
  match dStr (sel 2 fs) with
  | none => none
  | some x_newAdmin =>
  match dStr (sel 3 fs) with
  | none => none
  | some x_contract =>
  some ⟨x_sender, x_newAdmin, x_contract⟩

theorem MsgUpdateAdmin.valid (m : MsgUpdateAdmin) : Valid m.enc := by
  simp only [MsgUpdateAdmin.enc, valid_append]
  repeat' apply And.intro
  all_goals exact valid_tagged (by constructor <;> decide) _

theorem MsgUpdateAdmin.dec_enc (m : MsgUpdateAdmin) : MsgUpdateAdmin.dec m.enc = some m := by
  simp [MsgUpdateAdmin.dec, MsgUpdateAdmin.enc, sel_tagged_ne]

/-- `encode_to_vec`. `cosmwasm.wasm.v1.MsgUpdateAdmin`; built at `/repo/src/types/cosmos_msg.rs` 180-184. -/
def MsgUpdateAdmin.toBytes (m : MsgUpdateAdmin) : Bytes := encFields m.enc
/-- `MsgUpdateAdmin::decode`. `cosmwasm.wasm.v1.MsgUpdateAdmin`; built at `/repo/src/types/cosmos_msg.rs` 180-184. -/
def MsgUpdateAdmin.ofBytes (bs : Bytes) : Option MsgUpdateAdmin := (parseWire bs).bind MsgUpdateAdmin.dec
theorem MsgUpdateAdmin.ofBytes_toBytes (m : MsgUpdateAdmin) : MsgUpdateAdmin.ofBytes m.toBytes = some m := by
  simp [MsgUpdateAdmin.ofBytes, MsgUpdateAdmin.toBytes, parseWire_encFields m.valid, m.dec_enc]

/-- `cosmwasm.wasm.v1.MsgClearAdmin`; built at `/repo/src/types/cosmos_msg.rs` 185-188. -/
structure MsgClearAdmin where
  sender : String
  contract : String
  deriving DecidableEq

/-- Encode `MsgClearAdmin`: `cosmwasm.wasm.v1.MsgClearAdmin`; built at `/repo/src/types/cosmos_msg.rs` 185-188. -/
def MsgClearAdmin.enc (m : MsgClearAdmin) : Fields :=
  tagged 1 (vStr m.sender) ++
  tagged 3 (vStr m.contract)

/-- Decode `MsgClearAdmin` (unknown fields skipped): `cosmwasm.wasm.v1.MsgClearAdmin`; built at `/repo/src/types/cosmos_msg.rs` 185-188. -/
def MsgClearAdmin.dec (fs : Fields) : Option MsgClearAdmin :=
  match dStr (sel 1 fs) with
  | none => none
  | some x_sender =>
  match dStr (sel 3 fs) with
  | none => none
  | some x_contract =>
  some ⟨x_sender, x_contract⟩

theorem MsgClearAdmin.valid (m : MsgClearAdmin) : Valid m.enc := by
  simp only [MsgClearAdmin.enc, valid_append]
  repeat' apply And.intro
  all_goals exact valid_tagged (by constructor <;> decide) _

theorem MsgClearAdmin.dec_enc (m : MsgClearAdmin) : MsgClearAdmin.dec m.enc = some m := by
  simp [MsgClearAdmin.dec, MsgClearAdmin.enc, sel_tagged_ne]

/-- `encode_to_vec`. `cosmwasm.wasm.v1.MsgClearAdmin`; built at `/repo/src/types/cosmos_msg.rs` 185-188. -/
def MsgClearAdmin.toBytes (m : MsgClearAdmin) : Bytes := encFields m.enc
/-- `MsgClearAdmin::decode`. `cosmwasm.wasm.v1.MsgClearAdmin`; built at `/repo/src/types/cosmos_msg.rs` 185-188. -/
def MsgClearAdmin.ofBytes (bs : Bytes) : Option MsgClearAdmin := (parseWire bs).bind MsgClearAdmin.dec
theorem MsgClearAdmin.ofBytes_toBytes (m : MsgClearAdmin) : MsgClearAdmin.ofBytes m.toBytes = some m := by
  simp [MsgClearAdmin.ofBytes, MsgClearAdmin.toBytes, parseWire_encFields m.valid, m.dec_enc]

/-- `cosmos.gov.v1beta1.MsgVote`; built at `/repo/src/types/cosmos_msg.rs` 230-234. -/
structure MsgVote where
  proposalId : UInt64
  voter : String
  option : UInt64
  deriving DecidableEq

/-- Encode `MsgVote`: `cosmos.gov.v1beta1.MsgVote`; built at `/repo/src/types/cosmos_msg.rs` 230-234. -/
def MsgVote.enc (m : MsgVote) : Fields :=
  tagged 1 (vU64 m.proposalId) ++
  tagged 2 (vStr m.voter) ++
  tagged 3 (vU64 m.option)

/-- Decode `MsgVote` (unknown fields skipped): `cosmos.gov.v1beta1.MsgVote`; built at `/repo/src/types/cosmos_msg.rs` 230-234. -/
def MsgVote.dec (fs : Fields) : Option MsgVote :=
  match dU64 (sel 1 fs) with
  | none => none
  | some x_proposalId =>
  match dStr (sel 2 fs) with
  | none => none
  | some x_voter =>
  match dU64 (sel 3 fs) with
  | none => none
  | some x_option =>
  some ⟨x_proposalId, x_voter, x_option⟩

theorem MsgVote.valid (m : MsgVote) : Valid m.enc := by
  simp only [MsgVote.enc, valid_append]
  repeat' apply And.intro
  all_goals exact valid_tagged (by constructor <;> decide) _

theorem MsgVote.dec_enc (m : MsgVote) : MsgVote.dec m.enc = some m := by
  simp [MsgVote.dec, MsgVote.enc, sel_tagged_ne]

/-- `encode_to_vec`. `cosmos.gov.v1beta1.MsgVote`; built at `/repo/src/types/cosmos_msg.rs` 230-234. -/
def MsgVote.toBytes (m : MsgVote) : Bytes := encFields m.enc
/-- `MsgVote::decode`. `cosmos.gov.v1beta1.MsgVote`; built at `/repo/src/types/cosmos_msg.rs` 230-234. -/
def MsgVote.ofBytes (bs : Bytes) : Option MsgVote := (parseWire bs).bind MsgVote.dec
theorem MsgVote.ofBytes_toBytes (m : MsgVote) : MsgVote.ofBytes m.toBytes = some m := by
  simp [MsgVote.ofBytes, MsgVote.toBytes, parseWire_encFields m.valid, m.dec_enc]

/-- `cosmos.gov.v1.WeightedVoteOption`; built at `/repo/src/types/cosmos_msg.rs` 242-245. -/
structure WeightedVoteOption where
  option : UInt64
  weight : String
  deriving DecidableEq

/-- Encode `WeightedVoteOption`: `cosmos.gov.v1.WeightedVoteOption`; built at `/repo/src/types/cosmos_msg.rs` 242-245. -/
def WeightedVoteOption.enc (m : WeightedVoteOption) : Fields :=
  tagged 1 (vU64 m.option) ++
  tagged 2 (vStr m.weight)

/-- Decode `WeightedVoteOption` (unknown fields skipped): `cosmos.gov.v1.WeightedVoteOption`; built at `/repo/src/types/cosmos_msg.rs` 242-245. -/
def WeightedVoteOption.dec (fs : Fields) : Option WeightedVoteOption :=
  match dU64 (sel 1 fs) with
  | none => none
  | some x_option =>
  match dStr (sel 2 fs) with
  | none => none
  | some x_weight =>
  some ⟨x_option, x_weight⟩

theorem WeightedVoteOption.valid (m : WeightedVoteOption) : Valid m.enc := by
  simp only [WeightedVoteOption.enc, valid_append]
  repeat' apply And.intro
  all_goals exact valid_tagged (by constructor <;> decide) _

theorem WeightedVoteOption.dec_enc (m : WeightedVoteOption) : WeightedVoteOption.dec m.enc = some m := by
  simp [WeightedVoteOption.dec, WeightedVoteOption.enc, sel_tagged_ne]

/-- `encode_to_vec`. `cosmos.gov.v1.WeightedVoteOption`; built at `/repo/src/types/cosmos_msg.rs` 242-245. -/
def WeightedVoteOption.toBytes (m : WeightedVoteOption) : Bytes := encFields m.enc
/-- `WeightedVoteOption::decode`. `cosmos.gov.v1.WeightedVoteOption`; built at `/repo/src/types/cosmos_msg.rs` 242-245. -/
def WeightedVoteOption.ofBytes (bs : Bytes) : Option WeightedVoteOption := (parseWire bs).bind WeightedVoteOption.dec
theorem WeightedVoteOption.ofBytes_toBytes (m : WeightedVoteOption) : WeightedVoteOption.ofBytes m.toBytes = some m := by
  simp [WeightedVoteOption.ofBytes, WeightedVoteOption.toBytes, parseWire_encFields m.valid, m.dec_enc]

/-- `cosmos.gov.v1.MsgVoteWeighted`; built at `/repo/src/types/cosmos_msg.rs` 249-254. -/
structure MsgVoteWeighted where
  proposalId : UInt64
  voter : String
  options : List WeightedVoteOption
  metadata : String
  deriving DecidableEq

/-- Encode `MsgVoteWeighted`: `cosmos.gov.v1.MsgVoteWeighted`; built at `/repo/src/types/cosmos_msg.rs` 249-254. -/
def MsgVoteWeighted.enc (m : MsgVoteWeighted) : Fields :=
  tagged 1 (vU64 m.proposalId) ++
  tagged 2 (vStr m.voter) ++
  tagged 3 (vMsgs (m.options.map WeightedVoteOption.enc)) ++
  tagged 4 (vStr m.metadata)

/-- Decode `MsgVoteWeighted` (unknown fields skipped): `cosmos.gov.v1.MsgVoteWeighted`; built at `/repo/src/types/cosmos_msg.rs` 249-254. -/
def MsgVoteWeighted.dec (fs : Fields) : Option MsgVoteWeighted :=
  match dU64 (sel 1 fs) with
  | none => none
  | some x_proposalId =>
  match dStr (sel 2 fs) with
  | none => none
  | some x_voter =>
  match dAll WeightedVoteOption.dec (sel 3 fs) with
  | none => none
  | some x_options =>
  match dStr (sel 4 fs) with
  | none => none
  | some x_metadata =>
  some ⟨x_proposalId, x_voter, x_options, x_metadata⟩

theorem MsgVoteWeighted.valid (m : MsgVoteWeighted) : Valid m.enc := by
  simp only [MsgVoteWeighted.enc, valid_append]
  repeat' apply And.intro
  all_goals exact valid_tagged (by constructor <;> decide) _

theorem MsgVoteWeighted.dec_enc (m : MsgVoteWeighted) : MsgVoteWeighted.dec m.enc = some m := by
  simp [MsgVoteWeighted.dec, MsgVoteWeighted.enc, sel_tagged_ne, dAll_vMsgs WeightedVoteOption.valid WeightedVoteOption.dec_enc]

/-- `encode_to_vec`. `cosmos.gov.v1.MsgVoteWeighted`; built at `/repo/src/types/cosmos_msg.rs` 249-254. -/
def MsgVoteWeighted.toBytes (m : MsgVoteWeighted) : Bytes := encFields m.enc
/-- `MsgVoteWeighted::decode`. `cosmos.gov.v1.MsgVoteWeighted`; built at `/repo/src/types/cosmos_msg.rs` 249-254. -/
def MsgVoteWeighted.ofBytes (bs : Bytes) : Option MsgVoteWeighted := (parseWire bs).bind MsgVoteWeighted.dec
theorem MsgVoteWeighted.ofBytes_toBytes (m : MsgVoteWeighted) : MsgVoteWeighted.ofBytes m.toBytes = some m := by
  simp [MsgVoteWeighted.ofBytes, MsgVoteWeighted.toBytes, parseWire_encFields m.valid, m.dec_enc]

/-- `cosmos.staking.v1beta1.MsgDelegate`; built at `/repo/src/types/cosmos_msg.rs` 263-270. -/
structure MsgDelegate where
  delegatorAddress : String
  validatorAddress : String
  amount : Option Coin
  deriving DecidableEq

/-- Encode `MsgDelegate`: `cosmos.staking.v1beta1.MsgDelegate`; built at `/repo/src/types/cosmos_msg.rs` 263-270. -/
def MsgDelegate.enc (m : MsgDelegate) : Fields :=
  tagged 1 (vStr m.delegatorAddress) ++
  tagged 2 (vStr m.validatorAddress) ++
  tagged 3 (vMsg (m.amount.map Coin.enc))

/-- Decode `MsgDelegate` (unknown fields skipped): `cosmos.staking.v1beta1.MsgDelegate`; built at `/repo/src/types/cosmos_msg.rs` 263-270. -/
def MsgDelegate.dec (fs : Fields) : Option MsgDelegate :=
  match dStr (sel 1 fs) with
  | none => none
  | some x_delegatorAddress =>
  match dStr (sel 2 fs) with
  | none => none
  | some x_validatorAddress =>
  match dOpt Coin.dec (sel 3 fs) with
  | none => none
  | some x_amount =>
  some ⟨x_delegatorAddress, x_validatorAddress, x_amount⟩

theorem MsgDelegate.valid (m : MsgDelegate) : Valid m.enc := by
  simp only [MsgDelegate.enc, valid_append]
  repeat' apply And.intro
  all_goals exact valid_tagged (by constructor <;> decide) _

theorem MsgDelegate.dec_enc (m : MsgDelegate) : MsgDelegate.dec m.enc = some m := by
  simp [MsgDelegate.dec, MsgDelegate.enc, sel_tagged_ne, dOpt_vMsg Coin.valid Coin.dec_enc]

/-- `encode_to_vec`. `cosmos.staking.v1beta1.MsgDelegate`; built at `/repo/src/types/cosmos_msg.rs` 263-270. -/
def MsgDelegate.toBytes (m : MsgDelegate) : Bytes := encFields m.enc
/-- `MsgDelegate::decode`. `cosmos.staking.v1beta1.MsgDelegate`; built at `/repo/src/types/cosmos_msg.rs` 263-270. -/
def MsgDelegate.ofBytes (bs : Bytes) : Option MsgDelegate := (parseWire bs).bind MsgDelegate.dec
theorem MsgDelegate.ofBytes_toBytes (m : MsgDelegate) : MsgDelegate.ofBytes m.toBytes = some m := by
  simp [MsgDelegate.ofBytes, MsgDelegate.toBytes, parseWire_encFields m.valid, m.dec_enc]

/-- `cosmos.staking.v1beta1.MsgUndelegate`; built at `/repo/src/types/cosmos_msg.rs` 273-280. -/
structure MsgUndelegate where
  delegatorAddress : String
  validatorAddress : String
  amount : Option Coin
  deriving DecidableEq

/-- Encode `MsgUndelegate`: `cosmos.staking.v1beta1.MsgUndelegate`; built at `/repo/src/types/cosmos_msg.rs` 273-280. -/
def MsgUndelegate.enc (m : MsgUndelegate) : Fields :=
  tagged 1 (vStr m.delegatorAddress) ++
  tagged 2 (vStr m.validatorAddress) ++
  tagged 3 (vMsg (m.amount.map Coin.enc))

/-- Decode `MsgUndelegate` (unknown fields skipped): `cosmos.staking.v1beta1.MsgUndelegate`; built at `/repo/src/types/cosmos_msg.rs` 273-280. -/
def MsgUndelegate.dec (fs : Fields) : Option MsgUndelegate :=
  match dStr (sel 1 fs) with
  | none => none
  | some x_delegatorAddress =>
  match dStr (sel 2 fs) with
  | none => none
  | some x_validatorAddress =>
  match dOpt Coin.dec (sel 3 fs) with
  | none => none
  | some x_amount =>
  some ⟨x_delegatorAddress, x_validatorAddress, x_amount⟩

theorem MsgUndelegate.valid (m : MsgUndelegate) : Valid m.enc := by
  simp only [MsgUndelegate.enc, valid_append]
  repeat' apply And.intro
  all_goals exact valid_tagged (by constructor <;> decide) _

theorem MsgUndelegate.dec_enc (m : MsgUndelegate) : MsgUndelegate.dec m.enc = some m := by
  simp [MsgUndelegate.dec, MsgUndelegate.enc, sel_tagged_ne, dOpt_vMsg Coin.valid Coin.dec_enc]

/-- `encode_to_vec`. `cosmos.staking.v1beta1.MsgUndelegate`; built at `/repo/src/types/cosmos_msg.rs` 273-280. -/
def MsgUndelegate.toBytes (m : MsgUndelegate) : Bytes := encFields m.enc
/-- `MsgUndelegate::decode`. `cosmos.staking.v1beta1.MsgUndelegate`; built at `/repo/src/types/cosmos_msg.rs` 273-280. -/
def MsgUndelegate.ofBytes (bs : Bytes) : Option MsgUndelegate := (parseWire bs).bind MsgUndelegate.dec
theorem MsgUndelegate.ofBytes_toBytes (m : MsgUndelegate) : MsgUndelegate.ofBytes m.toBytes = some m := by
  simp [MsgUndelegate.ofBytes, MsgUndelegate.toBytes, parseWire_encFields m.valid, m.dec_enc]

/-- `cosmos.staking.v1beta1.MsgBeginRedelegate`; built at `/repo/src/types/cosmos_msg.rs` 286-296. -/
structure MsgBeginRedelegate where
  delegatorAddress : String
  validatorSrcAddress : String
  validatorDstAddress : String
  amount : Option Coin
  deriving DecidableEq

/-- Encode `MsgBeginRedelegate`: `cosmos.staking.v1beta1.MsgBeginRedelegate`; built at `/repo/src/types/cosmos_msg.rs` 286-296. -/
def MsgBeginRedelegate.enc (m : MsgBeginRedelegate) : Fields :=
  tagged 1 (vStr m.delegatorAddress) ++
  tagged 2 (vStr m.validatorSrcAddress) ++
  tagged 3 (vStr m.validatorDstAddress) ++
  tagged 4 (vMsg (m.amount.map Coin.enc))

/-- Decode `MsgBeginRedelegate` (unknown fields skipped): `cosmos.staking.v1beta1.MsgBeginRedelegate`; built at `/repo/src/types/cosmos_msg.rs` 286-296. -/
def MsgBeginRedelegate.dec (fs : Fields) : Option MsgBeginRedelegate :=
  match dStr (sel 1 fs) with
  | none => none
  | some x_delegatorAddress =>
  match dStr (sel 2 fs) with
  | none => none
  | some x_validatorSrcAddress =>
  match dStr (sel 3 fs) with
  | none => none
  | some x_validatorDstAddress =>
  match dOpt Coin.dec (sel 4 fs) with
  | none => none
  | some x_amount =>
  some ⟨x_delegatorAddress, x_validatorSrcAddress, x_validatorDstAddress, x_amount⟩

theorem MsgBeginRedelegate.valid (m : MsgBeginRedelegate) : Valid m.enc := by
  simp only [MsgBeginRedelegate.enc, valid_append]
  repeat' apply And.intro
  all_goals exact valid_tagged (by constructor <;> decide) _

theorem MsgBeginRedelegate.dec_enc (m : MsgBeginRedelegate) : MsgBeginRedelegate.dec m.enc = some m := by
  simp [MsgBeginRedelegate.dec, MsgBeginRedelegate.enc, sel_tagged_ne, dOpt_vMsg Coin.valid Coin.dec_enc]

/-- `encode_to_vec`. `cosmos.staking.v1beta1.MsgBeginRedelegate`; built at `/repo/src/types/cosmos_msg.rs` 286-296. -/
def MsgBeginRedelegate.toBytes (m : MsgBeginRedelegate) : Bytes := encFields m.enc
/-- `MsgBeginRedelegate::decode`. `cosmos.staking.v1beta1.MsgBeginRedelegate`; built at `/repo/src/types/cosmos_msg.rs` 286-296. -/
def MsgBeginRedelegate.ofBytes (bs : Bytes) : Option MsgBeginRedelegate := (parseWire bs).bind MsgBeginRedelegate.dec
theorem MsgBeginRedelegate.ofBytes_toBytes (m : MsgBeginRedelegate) : MsgBeginRedelegate.ofBytes m.toBytes = some m := by
  simp [MsgBeginRedelegate.ofBytes, MsgBeginRedelegate.toBytes, parseWire_encFields m.valid, m.dec_enc]

/-- `cosmos.distribution.v1beta1.MsgSetWithdrawAddress`; built at `/repo/src/types/cosmos_msg.rs` 310-315. -/
structure MsgSetWithdrawAddress where
  delegatorAddress : String
  withdrawAddress : String
  deriving DecidableEq

/-- Encode `MsgSetWithdrawAddress`: `cosmos.distribution.v1beta1.MsgSetWithdrawAddress`; built at `/repo/src/types/cosmos_msg.rs` 310-315. -/
def MsgSetWithdrawAddress.enc (m : MsgSetWithdrawAddress) : Fields :=
  tagged 1 (vStr m.delegatorAddress) ++
  tagged 2 (vStr m.withdrawAddress)

/-- Decode `MsgSetWithdrawAddress` (unknown fields skipped): `cosmos.distribution.v1beta1.MsgSetWithdrawAddress`; built at `/repo/src/types/cosmos_msg.rs` 310-315. -/
def MsgSetWithdrawAddress.dec (fs : Fields) : Option MsgSetWithdrawAddress :=
  match dStr (sel 1 fs) with
  | none => none
  | some x_delegatorAddress =>
  match dStr (sel 2 fs) with
  | none => none
  | some x_withdrawAddress =>
  some ⟨x_delegatorAddress, x_withdrawAddress⟩

theorem MsgSetWithdrawAddress.valid (m : MsgSetWithdrawAddress) : Valid m.enc := by
  simp only [MsgSetWithdrawAddress.enc, valid_append]
  repeat' apply And.intro
  all_goals exact valid_tagged (by constructor <;> decide) _

theorem MsgSetWithdrawAddress.dec_enc (m : MsgSetWithdrawAddress) : MsgSetWithdrawAddress.dec m.enc = some m := by
  simp [MsgSetWithdrawAddress.dec, MsgSetWithdrawAddress.enc, sel_tagged_ne]

/-- `encode_to_vec`. `cosmos.distribution.v1beta1.MsgSetWithdrawAddress`; built at `/repo/src/types/cosmos_msg.rs` 310-315. -/
def MsgSetWithdrawAddress.toBytes (m : MsgSetWithdrawAddress) : Bytes := encFields m.enc
/-- `MsgSetWithdrawAddress::decode`. `cosmos.distribution.v1beta1.MsgSetWithdrawAddress`; built at `/repo/src/types/cosmos_msg.rs` 310-315. -/
def MsgSetWithdrawAddress.ofBytes (bs : Bytes) : Option MsgSetWithdrawAddress := (parseWire bs).bind MsgSetWithdrawAddress.dec
theorem MsgSetWithdrawAddress.ofBytes_toBytes (m : MsgSetWithdrawAddress) : MsgSetWithdrawAddress.ofBytes m.toBytes = some m := by
  simp [MsgSetWithdrawAddress.ofBytes, MsgSetWithdrawAddress.toBytes, parseWire_encFields m.valid, m.dec_enc]

/-- `cosmos.distribution.v1beta1.MsgWithdrawDelegatorReward`; built at `/repo/src/types/cosmos_msg.rs` 304-309. -/
structure MsgWithdrawDelegatorReward where
  delegatorAddress : String
  validatorAddress : String
  deriving DecidableEq

/-- Encode `MsgWithdrawDelegatorReward`: `cosmos.distribution.v1beta1.MsgWithdrawDelegatorReward`; built at `/repo/src/types/cosmos_msg.rs` 304-309. -/
def MsgWithdrawDelegatorReward.enc (m : MsgWithdrawDelegatorReward) : Fields :=
  tagged 1 (vStr m.delegatorAddress) ++
  tagged 2 (vStr m.validatorAddress)

/-- Decode `MsgWithdrawDelegatorReward` (unknown fields skipped): `cosmos.distribution.v1beta1.MsgWithdrawDelegatorReward`; built at `/repo/src/types/cosmos_msg.rs` 304-309. -/
def MsgWithdrawDelegatorReward.dec (fs : Fields) : Option MsgWithdrawDelegatorReward :=
  match dStr (sel 1 fs) with
  | none => none
  | some x_delegatorAddress =>
  match dStr (sel 2 fs) with
  | none => none
  | some x_validatorAddress =>
  some ⟨x_delegatorAddress, x_validatorAddress⟩

theorem MsgWithdrawDelegatorReward.valid (m : MsgWithdrawDelegatorReward) : Valid m.enc := by
  simp only [MsgWithdrawDelegatorReward.enc, valid_append]
  repeat' apply And.intro
  all_goals exact valid_tagged (by constructor <;> decide) _

theorem MsgWithdrawDelegatorReward.dec_enc (m : MsgWithdrawDelegatorReward) : MsgWithdrawDelegatorReward.dec m.enc = some m := by
  simp [MsgWithdrawDelegatorReward.dec, MsgWithdrawDelegatorReward.enc, sel_tagged_ne]

/-- `encode_to_vec`. `cosmos.distribution.v1beta1.MsgWithdrawDelegatorReward`; built at `/repo/src/types/cosmos_msg.rs` 304-309. -/
def MsgWithdrawDelegatorReward.toBytes (m : MsgWithdrawDelegatorReward) : Bytes := encFields m.enc
/-- `MsgWithdrawDelegatorReward::decode`. `cosmos.distribution.v1beta1.MsgWithdrawDelegatorReward`; built at `/repo/src/types/cosmos_msg.rs` 304-309. -/
def MsgWithdrawDelegatorReward.ofBytes (bs : Bytes) : Option MsgWithdrawDelegatorReward := (parseWire bs).bind MsgWithdrawDelegatorReward.dec
theorem MsgWithdrawDelegatorReward.ofBytes_toBytes (m : MsgWithdrawDelegatorReward) : MsgWithdrawDelegatorReward.ofBytes m.toBytes = some m := by
  simp [MsgWithdrawDelegatorReward.ofBytes, MsgWithdrawDelegatorReward.toBytes, parseWire_encFields m.valid, m.dec_enc]

/-- `cosmos.distribution.v1beta1.MsgFundCommunityPool`; built at `/repo/src/types/cosmos_msg.rs` 316-327. -/
structure MsgFundCommunityPool where
  amount : List Coin
  depositor : String
  deriving DecidableEq

/-- Encode `MsgFundCommunityPool`: `cosmos.distribution.v1beta1.MsgFundCommunityPool`; built at `/repo/src/types/cosmos_msg.rs` 316-327. -/
def MsgFundCommunityPool.enc (m : MsgFundCommunityPool) : Fields :=
  tagged 1 (vMsgs (m.amount.map Coin.enc)) ++
  tagged 2 (vStr m.depositor)

/-- Decode `MsgFundCommunityPool` (unknown fields skipped): `cosmos.distribution.v1beta1.MsgFundCommunityPool`; built at `/repo/src/types/cosmos_msg.rs` 316-327. -/
def MsgFundCommunityPool.dec (fs : Fields) : Option MsgFundCommunityPool :=
  match dAll Coin.dec (sel 1 fs) with
  | none => none
  | some x_amount =>
  match dStr (sel 2 fs) with
  | none => none
  | some x_depositor =>
  some ⟨x_amount, x_depositor⟩

theorem MsgFundCommunityPool.valid (m : MsgFundCommunityPool) : Valid m.enc := by
  simp only [MsgFundCommunityPool.enc, valid_append]
  repeat' apply And.intro
  all_goals exact valid_tagged (by constructor <;> decide) _

theorem MsgFundCommunityPool.dec_enc (m : MsgFundCommunityPool) : MsgFundCommunityPool.dec m.enc = some m := by
  simp [MsgFundCommunityPool.dec, MsgFundCommunityPool.enc, sel_tagged_ne, dAll_vMsgs Coin.valid Coin.dec_enc]

/-- `encode_to_vec`. `cosmos.distribution.v1beta1.MsgFundCommunityPool`; built at `/repo/src/types/cosmos_msg.rs` 316-327. -/
def MsgFundCommunityPool.toBytes (m : MsgFundCommunityPool) : Bytes := encFields m.enc
/-- `MsgFundCommunityPool::decode`. `cosmos.distribution.v1beta1.MsgFundCommunityPool`; built at `/repo/src/types/cosmos_msg.rs` 316-327. -/
def MsgFundCommunityPool.ofBytes (bs : Bytes) : Option MsgFundCommunityPool := (parseWire bs).bind MsgFundCommunityPool.dec
theorem MsgFundCommunityPool.ofBytes_toBytes (m : MsgFundCommunityPool) : MsgFundCommunityPool.ofBytes m.toBytes = some m := by
  simp [MsgFundCommunityPool.ofBytes, MsgFundCommunityPool.toBytes, parseWire_encFields m.valid, m.dec_enc]

/-- `ibc.core.channel.v1.Counterparty`; built at `/repo/src/ibc/types/stargate.rs` 81-84. -/
structure Counterparty where
  portId : String
  channelId : String
  deriving DecidableEq

/-- Encode `Counterparty`: `ibc.core.channel.v1.Counterparty`; built at `/repo/src/ibc/types/stargate.rs` 81-84. -/
def Counterparty.enc (m : Counterparty) : Fields :=
  tagged 1 (vStr m.portId) ++
  tagged 2 (vStr m.channelId)

/-- Decode `Counterparty` (unknown fields skipped): `ibc.core.channel.v1.Counterparty`; built at `/repo/src/ibc/types/stargate.rs` 81-84. -/
def Counterparty.dec (fs : Fields) : Option Counterparty :=
  match dStr (sel 1 fs) with
  | none => none
  | some x_portId =>
  match dStr (sel 2 fs) with
  | none => none
  | some x_channelId =>
  some ⟨x_portId, x_channelId⟩

theorem Counterparty.valid (m : Counterparty) : Valid m.enc := by
  simp only [Counterparty.enc, valid_append]
  repeat' apply And.intro
  all_goals exact valid_tagged (by constructor <;> decide) _

theorem Counterparty.dec_enc (m : Counterparty) : Counterparty.dec m.enc = some m := by
  simp [Counterparty.dec, Counterparty.enc, sel_tagged_ne]

/-- `encode_to_vec`. `ibc.core.channel.v1.Counterparty`; built at `/repo/src/ibc/types/stargate.rs` 81-84. -/
def Counterparty.toBytes (m : Counterparty) : Bytes := encFields m.enc
/-- `Counterparty::decode`. `ibc.core.channel.v1.Counterparty`; built at `/repo/src/ibc/types/stargate.rs` 81-84. -/
def Counterparty.ofBytes (bs : Bytes) : Option Counterparty := (parseWire bs).bind Counterparty.dec
theorem Counterparty.ofBytes_toBytes (m : Counterparty) : Counterparty.ofBytes m.toBytes = some m := by
  simp [Counterparty.ofBytes, Counterparty.toBytes, parseWire_encFields m.valid, m.dec_enc]

/-- `ibc.core.channel.v1.Channel`; built at `/repo/src/ibc/types/stargate.rs` 78-87. -/
structure Channel where
  state : UInt64
  ordering : UInt64
  counterparty : Option Counterparty
  connectionHops : List String
  version : String
  deriving DecidableEq

/-- Encode `Channel`: `ibc.core.channel.v1.Channel`; built at `/repo/src/ibc/types/stargate.rs` 78-87. -/
def Channel.enc (m : Channel) : Fields :=
  tagged 1 (vU64 m.state) ++
  tagged 2 (vU64 m.ordering) ++
  tagged 3 (vMsg (m.counterparty.map Counterparty.enc)) ++
  tagged 4 (vStrs m.connectionHops) ++
  tagged 5 (vStr m.version)

/-- Decode `Channel` (unknown fields skipped): `ibc.core.channel.v1.Channel`; built at `/repo/src/ibc/types/stargate.rs` 78-87. -/
def Channel.dec (fs : Fields) : Option Channel :=
  match dU64 (sel 1 fs) with
  | none => none
  | some x_state =>
  match dU64 (sel 2 fs) with
  | none => none
  | some x_ordering =>
  match dOpt Counterparty.dec (sel 3 fs) with
  | none => none
  | some x_counterparty =>
  match dStrs (sel 4 fs) with
  | none => none
  | some x_connectionHops =>
  match dStr (sel 5 fs) with
  | none => none
  | some x_version =>
  some ⟨x_state, x_ordering, x_counterparty, x_connectionHops, x_version⟩

theorem Channel.valid (m : Channel) : Valid m.enc := by
  simp only [Channel.enc, valid_append]
  repeat' apply And.intro
  all_goals exact valid_tagged (by constructor <;> decide) _

theorem Channel.dec_enc (m : Channel) : Channel.dec m.enc = some m := by
  simp [Channel.dec, Channel.enc, sel_tagged_ne, dOpt_vMsg Counterparty.valid Counterparty.dec_enc]

/-- `encode_to_vec`. `ibc.core.channel.v1.Channel`; built at `/repo/src/ibc/types/stargate.rs` 78-87. -/
def Channel.toBytes (m : Channel) : Bytes := encFields m.enc
/-- `Channel::decode`. `ibc.core.channel.v1.Channel`; built at `/repo/src/ibc/types/stargate.rs` 78-87. -/
def Channel.ofBytes (bs : Bytes) : Option Channel := (parseWire bs).bind Channel.dec
theorem Channel.ofBytes_toBytes (m : Channel) : Channel.ofBytes m.toBytes = some m := by
  simp [Channel.ofBytes, Channel.toBytes, parseWire_encFields m.valid, m.dec_enc]

/-- `ibc.core.channel.v1.MsgChannelOpenInit`; built at `/repo/src/ibc/types/stargate.rs` 76-89. -/
structure MsgChannelOpenInit where
  portId : String
  channel : Option Channel
  signer : String
  deriving DecidableEq

/-- Encode `MsgChannelOpenInit`: `ibc.core.channel.v1.MsgChannelOpenInit`; built at `/repo/src/ibc/types/stargate.rs` 76-89. -/
def MsgChannelOpenInit.enc (m : MsgChannelOpenInit) : Fields :=
  tagged 1 (vStr m.portId) ++
  tagged 2 (vMsg (m.channel.map Channel.enc)) ++
  tagged 3 (vStr m.signer)

/-- Decode `MsgChannelOpenInit` (unknown fields skipped): `ibc.core.channel.v1.MsgChannelOpenInit`; built at `/repo/src/ibc/types/stargate.rs` 76-89. -/
def MsgChannelOpenInit.dec (fs : Fields) : Option MsgChannelOpenInit :=
  match dStr (sel 1 fs) with
  | none => none
  | some x_portId =>
  match dOpt Channel.dec (sel 2 fs) with
  | none => none
  | some x_channel =>
  match dStr (sel 3 fs) with
  | none => none
  | some x_signer =>
  some ⟨x_portId, x_channel, x_signer⟩

theorem MsgChannelOpenInit.valid (m : MsgChannelOpenInit) : Valid m.enc := by
  simp only [MsgChannelOpenInit.enc, valid_append]
  repeat' apply And.intro
  all_goals exact valid_tagged (by constructor <;> decide) _

theorem MsgChannelOpenInit.dec_enc (m : MsgChannelOpenInit) : MsgChannelOpenInit.dec m.enc = some m := by
  simp [MsgChannelOpenInit.dec, MsgChannelOpenInit.enc, sel_tagged_ne, dOpt_vMsg Channel.valid Channel.dec_enc]

/-- `encode_to_vec`. `ibc.core.channel.v1.MsgChannelOpenInit`; built at `/repo/src/ibc/types/stargate.rs` 76-89. -/
def MsgChannelOpenInit.toBytes (m : MsgChannelOpenInit) : Bytes := encFields m.enc
/-- `MsgChannelOpenInit::decode`. `ibc.core.channel.v1.MsgChannelOpenInit`; built at `/repo/src/ibc/types/stargate.rs` 76-89. -/
def MsgChannelOpenInit.ofBytes (bs : Bytes) : Option MsgChannelOpenInit := (parseWire bs).bind MsgChannelOpenInit.dec
theorem MsgChannelOpenInit.ofBytes_toBytes (m : MsgChannelOpenInit) : MsgChannelOpenInit.ofBytes m.toBytes = some m := by
  simp [MsgChannelOpenInit.ofBytes, MsgChannelOpenInit.toBytes, parseWire_encFields m.valid, m.dec_enc]

/-- wasmd's `MsgIBCSendResponse`; its field 1 is read with anybuf at `/repo/src/contract.rs` 279-281. -/
structure SendPacketResponse where
  sequence : UInt64
  deriving DecidableEq

/-- Encode `SendPacketResponse`: wasmd's `MsgIBCSendResponse`; its field 1 is read with anybuf at `/repo/src/contract.rs` 279-281. -/
def SendPacketResponse.enc (m : SendPacketResponse) : Fields :=
  tagged 1 (vU64 m.sequence)

/-- Decode `SendPacketResponse` (unknown fields skipped): wasmd's `MsgIBCSendResponse`; its field 1 is read with anybuf at `/repo/src/contract.rs` 279-281. -/
def SendPacketResponse.dec (fs : Fields) : Option SendPacketResponse :=
  match dU64 (sel 1 fs) with
  | none => none
  | some x_sequence =>
  some ⟨x_sequence⟩

theorem SendPacketResponse.valid (m : SendPacketResponse) : Valid m.enc := by
  simp only [SendPacketResponse.enc, valid_append]
  repeat' apply And.intro
  all_goals exact valid_tagged (by constructor <;> decide) _

theorem SendPacketResponse.dec_enc (m : SendPacketResponse) : SendPacketResponse.dec m.enc = some m := by
  simp [SendPacketResponse.dec, SendPacketResponse.enc, sel_tagged_ne]

/-- `encode_to_vec`. wasmd's `MsgIBCSendResponse`; its field 1 is read with anybuf at `/repo/src/contract.rs` 279-281. -/
def SendPacketResponse.toBytes (m : SendPacketResponse) : Bytes := encFields m.enc
/-- `SendPacketResponse::decode`. wasmd's `MsgIBCSendResponse`; its field 1 is read with anybuf at `/repo/src/contract.rs` 279-281. -/
def SendPacketResponse.ofBytes (bs : Bytes) : Option SendPacketResponse := (parseWire bs).bind SendPacketResponse.dec
theorem SendPacketResponse.ofBytes_toBytes (m : SendPacketResponse) : SendPacketResponse.ofBytes m.toBytes = some m := by
  simp [SendPacketResponse.ofBytes, SendPacketResponse.toBytes, parseWire_encFields m.valid, m.dec_enc]

/-- `cosmos.base.query.v1beta1.PageRequest`; built at `/repo/src/types/query_msg.rs` 254-260. -/
structure PageRequest where
  key : Bytes
  offset : UInt64
  limit : UInt64
  countTotal : Bool
  reverse : Bool
  deriving DecidableEq

/-- Encode `PageRequest`: `cosmos.base.query.v1beta1.PageRequest`; built at `/repo/src/types/query_msg.rs` 254-260. -/
def PageRequest.enc (m : PageRequest) : Fields :=
  tagged 1 (vBytes m.key) ++
  tagged 2 (vU64 m.offset) ++
  tagged 3 (vU64 m.limit) ++
  tagged 4 (vBool m.countTotal) ++
  tagged 5 (vBool m.reverse)

/-- Decode `PageRequest` (unknown fields skipped): `cosmos.base.query.v1beta1.PageRequest`; built at `/repo/src/types/query_msg.rs` 254-260. -/
def PageRequest.dec (fs : Fields) : Option PageRequest :=
  match dBytes (sel 1 fs) with
  | none => none
  | some x_key =>
  match dU64 (sel 2 fs) with
  | none => none
  | some x_offset =>
  match dU64 (sel 3 fs) with
  | none => none
  | some x_limit =>
  match dBool (sel 4 fs) with
  | none => none
  | some x_countTotal =>
  match dBool (sel 5 fs) with
  | none => none
  | some x_reverse =>
  some ⟨x_key, x_offset, x_limit, x_countTotal, x_reverse⟩

theorem PageRequest.valid (m : PageRequest) : Valid m.enc := by
  simp only [PageRequest.enc, valid_append]
  repeat' apply And.intro
  all_goals exact valid_tagged (by constructor <;> decide) _

theorem PageRequest.dec_enc (m : PageRequest) : PageRequest.dec m.enc = some m := by
  simp [PageRequest.dec, PageRequest.enc, sel_tagged_ne]

/-- `encode_to_vec`. `cosmos.base.query.v1beta1.PageRequest`; built at `/repo/src/types/query_msg.rs` 254-260. -/
def PageRequest.toBytes (m : PageRequest) : Bytes := encFields m.enc
/-- `PageRequest::decode`. `cosmos.base.query.v1beta1.PageRequest`; built at `/repo/src/types/query_msg.rs` 254-260. -/
def PageRequest.ofBytes (bs : Bytes) : Option PageRequest := (parseWire bs).bind PageRequest.dec
theorem PageRequest.ofBytes_toBytes (m : PageRequest) : PageRequest.ofBytes m.toBytes = some m := by
  simp [PageRequest.ofBytes, PageRequest.toBytes, parseWire_encFields m.valid, m.dec_enc]

/-- `/repo/src/types/query_msg.rs` 234-238. -/
structure QueryBalanceRequest where
  address : String
  denom : String
  deriving DecidableEq

/-- Encode `QueryBalanceRequest`: `/repo/src/types/query_msg.rs` 234-238. -/
def QueryBalanceRequest.enc (m : QueryBalanceRequest) : Fields :=
  tagged 1 (vStr m.address) ++
  tagged 2 (vStr m.denom)

/-- Decode `QueryBalanceRequest` (unknown fields skipped): `/repo/src/types/query_msg.rs` 234-238. -/
def QueryBalanceRequest.dec (fs : Fields) : Option QueryBalanceRequest :=
  match dStr (sel 1 fs) with
  | none => none
  | some x_address =>
  match dStr (sel 2 fs) with
  | none => none
  | some x_denom =>
  some ⟨x_address, x_denom⟩

theorem QueryBalanceRequest.valid (m : QueryBalanceRequest) : Valid m.enc := by
  simp only [QueryBalanceRequest.enc, valid_append]
  repeat' apply And.intro
  all_goals exact valid_tagged (by constructor <;> decide) _

theorem QueryBalanceRequest.dec_enc (m : QueryBalanceRequest) : QueryBalanceRequest.dec m.enc = some m := by
  simp [QueryBalanceRequest.dec, QueryBalanceRequest.enc, sel_tagged_ne]

/-- `encode_to_vec`. `/repo/src/types/query_msg.rs` 234-238. -/
def QueryBalanceRequest.toBytes (m : QueryBalanceRequest) : Bytes := encFields m.enc
/-- `QueryBalanceRequest::decode`. `/repo/src/types/query_msg.rs` 234-238. -/
def QueryBalanceRequest.ofBytes (bs : Bytes) : Option QueryBalanceRequest := (parseWire bs).bind QueryBalanceRequest.dec
theorem QueryBalanceRequest.ofBytes_toBytes (m : QueryBalanceRequest) : QueryBalanceRequest.ofBytes m.toBytes = some m := by
  simp [QueryBalanceRequest.ofBytes, QueryBalanceRequest.toBytes, parseWire_encFields m.valid, m.dec_enc]

/-- `/repo/src/types/query_msg.rs` 239-247. -/
structure QueryAllBalancesRequest where
  address : String
  pagination : Option PageRequest
  deriving DecidableEq

/-- Encode `QueryAllBalancesRequest`: `/repo/src/types/query_msg.rs` 239-247. -/
def QueryAllBalancesRequest.enc (m : QueryAllBalancesRequest) : Fields :=
  tagged 1 (vStr m.address) ++
  tagged 2 (vMsg (m.pagination.map PageRequest.enc))

/-- Decode `QueryAllBalancesRequest` (unknown fields skipped): `/repo/src/types/query_msg.rs` 239-247. -/
def QueryAllBalancesRequest.dec (fs : Fields) : Option QueryAllBalancesRequest :=
  match dStr (sel 1 fs) with
  | none => none
  | some x_address =>
  match dOpt PageRequest.dec (sel 2 fs) with
  | none => none
  | some x_pagination =>
  some ⟨x_address, x_pagination⟩

theorem QueryAllBalancesRequest.valid (m : QueryAllBalancesRequest) : Valid m.enc := by
  simp only [QueryAllBalancesRequest.enc, valid_append]
  repeat' apply And.intro
  all_goals exact valid_tagged (by constructor <;> decide) _

theorem QueryAllBalancesRequest.dec_enc (m : QueryAllBalancesRequest) : QueryAllBalancesRequest.dec m.enc = some m := by
  simp [QueryAllBalancesRequest.dec, QueryAllBalancesRequest.enc, sel_tagged_ne, dOpt_vMsg PageRequest.valid PageRequest.dec_enc]

/-- `encode_to_vec`. `/repo/src/types/query_msg.rs` 239-247. -/
def QueryAllBalancesRequest.toBytes (m : QueryAllBalancesRequest) : Bytes := encFields m.enc
/-- `QueryAllBalancesRequest::decode`. `/repo/src/types/query_msg.rs` 239-247. -/
def QueryAllBalancesRequest.ofBytes (bs : Bytes) : Option QueryAllBalancesRequest := (parseWire bs).bind QueryAllBalancesRequest.dec
theorem QueryAllBalancesRequest.ofBytes_toBytes (m : QueryAllBalancesRequest) : QueryAllBalancesRequest.ofBytes m.toBytes = some m := by
  simp [QueryAllBalancesRequest.ofBytes, QueryAllBalancesRequest.toBytes, parseWire_encFields m.valid, m.dec_enc]

/-- `/repo/src/types/query_msg.rs` 248-252. -/
structure QueryDenomMetadataRequest where
  denom : String
  deriving DecidableEq

/-- Encode `QueryDenomMetadataRequest`: `/repo/src/types/query_msg.rs` 248-252. -/
def QueryDenomMetadataRequest.enc (m : QueryDenomMetadataRequest) : Fields :=
  tagged 1 (vStr m.denom)

/-- Decode `QueryDenomMetadataRequest` (unknown fields skipped): `/repo/src/types/query_msg.rs` 248-252. -/
def QueryDenomMetadataRequest.dec (fs : Fields) : Option QueryDenomMetadataRequest :=
  match dStr (sel 1 fs) with
  | none => none
  | some x_denom =>
  some ⟨x_denom⟩

theorem QueryDenomMetadataRequest.valid (m : QueryDenomMetadataRequest) : Valid m.enc := by
  simp only [QueryDenomMetadataRequest.enc, valid_append]
  repeat' apply And.intro
  all_goals exact valid_tagged (by constructor <;> decide) _

theorem QueryDenomMetadataRequest.dec_enc (m : QueryDenomMetadataRequest) : QueryDenomMetadataRequest.dec m.enc = some m := by
  simp [QueryDenomMetadataRequest.dec, QueryDenomMetadataRequest.enc, sel_tagged_ne]

/-- `encode_to_vec`. `/repo/src/types/query_msg.rs` 248-252. -/
def QueryDenomMetadataRequest.toBytes (m : QueryDenomMetadataRequest) : Bytes := encFields m.enc
/-- `QueryDenomMetadataRequest::decode`. `/repo/src/types/query_msg.rs` 248-252. -/
def QueryDenomMetadataRequest.ofBytes (bs : Bytes) : Option QueryDenomMetadataRequest := (parseWire bs).bind QueryDenomMetadataRequest.dec
theorem QueryDenomMetadataRequest.ofBytes_toBytes (m : QueryDenomMetadataRequest) : QueryDenomMetadataRequest.ofBytes m.toBytes = some m := by
  simp [QueryDenomMetadataRequest.ofBytes, QueryDenomMetadataRequest.toBytes, parseWire_encFields m.valid, m.dec_enc]

/-- `/repo/src/types/query_msg.rs` 253-267. -/
structure QueryDenomsMetadataRequest where
  pagination : Option PageRequest
  deriving DecidableEq

/-- Encode `QueryDenomsMetadataRequest`: `/repo/src/types/query_msg.rs` 253-267. -/
def QueryDenomsMetadataRequest.enc (m : QueryDenomsMetadataRequest) : Fields :=
  tagged 1 (vMsg (m.pagination.map PageRequest.enc))

/-- Decode `QueryDenomsMetadataRequest` (unknown fields skipped): `/repo/src/types/query_msg.rs` 253-267. -/
def QueryDenomsMetadataRequest.dec (fs : Fields) : Option QueryDenomsMetadataRequest :=
  match dOpt PageRequest.dec (sel 1 fs) with
  | none => none
  | some x_pagination =>
  some ⟨x_pagination⟩

theorem QueryDenomsMetadataRequest.valid (m : QueryDenomsMetadataRequest) : Valid m.enc := by
  simp only [QueryDenomsMetadataRequest.enc, valid_append]
  repeat' apply And.intro
  all_goals exact valid_tagged (by constructor <;> decide) _

theorem QueryDenomsMetadataRequest.dec_enc (m : QueryDenomsMetadataRequest) : QueryDenomsMetadataRequest.dec m.enc = some m := by
  simp [QueryDenomsMetadataRequest.dec, QueryDenomsMetadataRequest.enc, sel_tagged_ne, dOpt_vMsg PageRequest.valid PageRequest.dec_enc]

/-- `encode_to_vec`. `/repo/src/types/query_msg.rs` 253-267. -/
def QueryDenomsMetadataRequest.toBytes (m : QueryDenomsMetadataRequest) : Bytes := encFields m.enc
/-- `QueryDenomsMetadataRequest::decode`. `/repo/src/types/query_msg.rs` 253-267. -/
def QueryDenomsMetadataRequest.ofBytes (bs : Bytes) : Option QueryDenomsMetadataRequest := (parseWire bs).bind QueryDenomsMetadataRequest.dec
theorem QueryDenomsMetadataRequest.ofBytes_toBytes (m : QueryDenomsMetadataRequest) : QueryDenomsMetadataRequest.ofBytes m.toBytes = some m := by
  simp [QueryDenomsMetadataRequest.ofBytes, QueryDenomsMetadataRequest.toBytes, parseWire_encFields m.valid, m.dec_enc]

/-- `/repo/src/types/query_msg.rs` 268-272. -/
structure QuerySupplyOfRequest where
  denom : String
  deriving DecidableEq

/-- Encode `QuerySupplyOfRequest`: `/repo/src/types/query_msg.rs` 268-272. -/
def QuerySupplyOfRequest.enc (m : QuerySupplyOfRequest) : Fields :=
  tagged 1 (vStr m.denom)

/-- Decode `QuerySupplyOfRequest` (unknown fields skipped): `/repo/src/types/query_msg.rs` 268-272. -/
def QuerySupplyOfRequest.dec (fs : Fields) : Option QuerySupplyOfRequest :=
  match dStr (sel 1 fs) with
  | none => none
  | some x_denom =>
  some ⟨x_denom⟩

theorem QuerySupplyOfRequest.valid (m : QuerySupplyOfRequest) : Valid m.enc := by
  simp only [QuerySupplyOfRequest.enc, valid_append]
  repeat' apply And.intro
  all_goals exact valid_tagged (by constructor <;> decide) _

theorem QuerySupplyOfRequest.dec_enc (m : QuerySupplyOfRequest) : QuerySupplyOfRequest.dec m.enc = some m := by
  simp [QuerySupplyOfRequest.dec, QuerySupplyOfRequest.enc, sel_tagged_ne]

/-- `encode_to_vec`. `/repo/src/types/query_msg.rs` 268-272. -/
def QuerySupplyOfRequest.toBytes (m : QuerySupplyOfRequest) : Bytes := encFields m.enc
/-- `QuerySupplyOfRequest::decode`. `/repo/src/types/query_msg.rs` 268-272. -/
def QuerySupplyOfRequest.ofBytes (bs : Bytes) : Option QuerySupplyOfRequest := (parseWire bs).bind QuerySupplyOfRequest.dec
theorem QuerySupplyOfRequest.ofBytes_toBytes (m : QuerySupplyOfRequest) : QuerySupplyOfRequest.ofBytes m.toBytes = some m := by
  simp [QuerySupplyOfRequest.ofBytes, QuerySupplyOfRequest.toBytes, parseWire_encFields m.valid, m.dec_enc]

/-- `/repo/src/types/query_msg.rs` 279-287. -/
structure QueryRawContractStateRequest where
  address : String
  queryData : Bytes
  deriving DecidableEq

/-- Encode `QueryRawContractStateRequest`: `/repo/src/types/query_msg.rs` 279-287. -/
def QueryRawContractStateRequest.enc (m : QueryRawContractStateRequest) : Fields :=
  tagged 1 (vStr m.address) ++
  tagged 2 (vBytes m.queryData)

/-- Decode `QueryRawContractStateRequest` (unknown fields skipped): `/repo/src/types/query_msg.rs` 279-287. -/
def QueryRawContractStateRequest.dec (fs : Fields) : Option QueryRawContractStateRequest :=
  match dStr (sel 1 fs) with
  | none => none
  | some x_address =>
  match dBytes (sel 2 fs) with
  | none => none
  | some x_queryData =>
  some ⟨x_address, x_queryData⟩

theorem QueryRawContractStateRequest.valid (m : QueryRawContractStateRequest) : Valid m.enc := by
  simp only [QueryRawContractStateRequest.enc, valid_append]
  repeat' apply And.intro
  all_goals exact valid_tagged (by constructor <;> decide) _

theorem QueryRawContractStateRequest.dec_enc (m : QueryRawContractStateRequest) : QueryRawContractStateRequest.dec m.enc = some m := by
  simp [QueryRawContractStateRequest.dec, QueryRawContractStateRequest.enc, sel_tagged_ne]

/-- `encode_to_vec`. `/repo/src/types/query_msg.rs` 279-287. -/
def QueryRawContractStateRequest.toBytes (m : QueryRawContractStateRequest) : Bytes := encFields m.enc
/-- `QueryRawContractStateRequest::decode`. `/repo/src/types/query_msg.rs` 279-287. -/
def QueryRawContractStateRequest.ofBytes (bs : Bytes) : Option QueryRawContractStateRequest := (parseWire bs).bind QueryRawContractStateRequest.dec
theorem QueryRawContractStateRequest.ofBytes_toBytes (m : QueryRawContractStateRequest) : QueryRawContractStateRequest.ofBytes m.toBytes = some m := by
  simp [QueryRawContractStateRequest.ofBytes, QueryRawContractStateRequest.toBytes, parseWire_encFields m.valid, m.dec_enc]

/-- `/repo/src/types/query_msg.rs` 288-296. -/
structure QuerySmartContractStateRequest where
  address : String
  queryData : Bytes
  deriving DecidableEq

/-- Encode `QuerySmartContractStateRequest`: `/repo/src/types/query_msg.rs` 288-296. -/
def QuerySmartContractStateRequest.enc (m : QuerySmartContractStateRequest) : Fields :=
  tagged 1 (vStr m.address) ++
  tagged 2 (vBytes m.queryData)

/-- Decode `QuerySmartContractStateRequest` (unknown fields skipped): `/repo/src/types/query_msg.rs` 288-296. -/
def QuerySmartContractStateRequest.dec (fs : Fields) : Option QuerySmartContractStateRequest :=
  match dStr (sel 1 fs) with
  | none => none
  | some x_address =>
  match dBytes (sel 2 fs) with
  | none => none
  | some x_queryData =>
  some ⟨x_address, x_queryData⟩

theorem QuerySmartContractStateRequest.valid (m : QuerySmartContractStateRequest) : Valid m.enc := by
  simp only [QuerySmartContractStateRequest.enc, valid_append]
  repeat' apply And.intro
  all_goals exact valid_tagged (by constructor <;> decide) _

theorem QuerySmartContractStateRequest.dec_enc (m : QuerySmartContractStateRequest) : QuerySmartContractStateRequest.dec m.enc = some m := by
  simp [QuerySmartContractStateRequest.dec, QuerySmartContractStateRequest.enc, sel_tagged_ne]

/-- `encode_to_vec`. `/repo/src/types/query_msg.rs` 288-296. -/
def QuerySmartContractStateRequest.toBytes (m : QuerySmartContractStateRequest) : Bytes := encFields m.enc
/-- `QuerySmartContractStateRequest::decode`. `/repo/src/types/query_msg.rs` 288-296. -/
def QuerySmartContractStateRequest.ofBytes (bs : Bytes) : Option QuerySmartContractStateRequest := (parseWire bs).bind QuerySmartContractStateRequest.dec
theorem QuerySmartContractStateRequest.ofBytes_toBytes (m : QuerySmartContractStateRequest) : QuerySmartContractStateRequest.ofBytes m.toBytes = some m := by
  simp [QuerySmartContractStateRequest.ofBytes, QuerySmartContractStateRequest.toBytes, parseWire_encFields m.valid, m.dec_enc]

/-- `/repo/src/types/query_msg.rs` 297-304. -/
structure QueryContractInfoRequest where
  address : String
  deriving DecidableEq

/-- Encode `QueryContractInfoRequest`: `/repo/src/types/query_msg.rs` 297-304. -/
def QueryContractInfoRequest.enc (m : QueryContractInfoRequest) : Fields :=
  tagged 1 (vStr m.address)

/-- Decode `QueryContractInfoRequest` (unknown fields skipped): `/repo/src/types/query_msg.rs` 297-304. -/
def QueryContractInfoRequest.dec (fs : Fields) : Option QueryContractInfoRequest :=
  match dStr (sel 1 fs) with
  | none => none
  | some x_address =>
  some ⟨x_address⟩

theorem QueryContractInfoRequest.valid (m : QueryContractInfoRequest) : Valid m.enc := by
  simp only [QueryContractInfoRequest.enc, valid_append]
  repeat' apply And.intro
  all_goals exact valid_tagged (by constructor <;> decide) _

theorem QueryContractInfoRequest.dec_enc (m : QueryContractInfoRequest) : QueryContractInfoRequest.dec m.enc = some m := by
  simp [QueryContractInfoRequest.dec, QueryContractInfoRequest.enc, sel_tagged_ne]

/-- `encode_to_vec`. `/repo/src/types/query_msg.rs` 297-304. -/
def QueryContractInfoRequest.toBytes (m : QueryContractInfoRequest) : Bytes := encFields m.enc
/-- `QueryContractInfoRequest::decode`. `/repo/src/types/query_msg.rs` 297-304. -/
def QueryContractInfoRequest.ofBytes (bs : Bytes) : Option QueryContractInfoRequest := (parseWire bs).bind QueryContractInfoRequest.dec
theorem QueryContractInfoRequest.ofBytes_toBytes (m : QueryContractInfoRequest) : QueryContractInfoRequest.ofBytes m.toBytes = some m := by
  simp [QueryContractInfoRequest.ofBytes, QueryContractInfoRequest.toBytes, parseWire_encFields m.valid, m.dec_enc]

/-- `/repo/src/types/query_msg.rs` 320-327. -/
structure QueryValidatorRequest where
  validatorAddr : String
  deriving DecidableEq

/-- Encode `QueryValidatorRequest`: `/repo/src/types/query_msg.rs` 320-327. -/
def QueryValidatorRequest.enc (m : QueryValidatorRequest) : Fields :=
  tagged 1 (vStr m.validatorAddr)

/-- Decode `QueryValidatorRequest` (unknown fields skipped): `/repo/src/types/query_msg.rs` 320-327. -/
def QueryValidatorRequest.dec (fs : Fields) : Option QueryValidatorRequest :=
  match dStr (sel 1 fs) with
  | none => none
  | some x_validatorAddr =>
  some ⟨x_validatorAddr⟩

theorem QueryValidatorRequest.valid (m : QueryValidatorRequest) : Valid m.enc := by
  simp only [QueryValidatorRequest.enc, valid_append]
  repeat' apply And.intro
  all_goals exact valid_tagged (by constructor <;> decide) _

theorem QueryValidatorRequest.dec_enc (m : QueryValidatorRequest) : QueryValidatorRequest.dec m.enc = some m := by
  simp [QueryValidatorRequest.dec, QueryValidatorRequest.enc, sel_tagged_ne]

/-- `encode_to_vec`. `/repo/src/types/query_msg.rs` 320-327. -/
def QueryValidatorRequest.toBytes (m : QueryValidatorRequest) : Bytes := encFields m.enc
/-- `QueryValidatorRequest::decode`. `/repo/src/types/query_msg.rs` 320-327. -/
def QueryValidatorRequest.ofBytes (bs : Bytes) : Option QueryValidatorRequest := (parseWire bs).bind QueryValidatorRequest.dec
theorem QueryValidatorRequest.ofBytes_toBytes (m : QueryValidatorRequest) : QueryValidatorRequest.ofBytes m.toBytes = some m := by
  simp [QueryValidatorRequest.ofBytes, QueryValidatorRequest.toBytes, parseWire_encFields m.valid, m.dec_enc]

/-- `/repo/src/types/query_msg.rs` 328-336. -/
structure QueryValidatorsRequest where
  status : String
  pagination : Option PageRequest
  deriving DecidableEq

/-- Encode `QueryValidatorsRequest`: `/repo/src/types/query_msg.rs` 328-336. -/
def QueryValidatorsRequest.enc (m : QueryValidatorsRequest) : Fields :=
  tagged 1 (vStr m.status) ++
  tagged 2 (vMsg (m.pagination.map PageRequest.enc))

/-- Decode `QueryValidatorsRequest` (unknown fields skipped): `/repo/src/types/query_msg.rs` 328-336. -/
def QueryValidatorsRequest.dec (fs : Fields) : Option QueryValidatorsRequest :=
  match dStr (sel 1 fs) with
  | none => none
  | some x_status =>
  match dOpt PageRequest.dec (sel 2 fs) with
  | none => none
  | some x_pagination =>
  some ⟨x_status, x_pagination⟩

theorem QueryValidatorsRequest.valid (m : QueryValidatorsRequest) : Valid m.enc := by
  simp only [QueryValidatorsRequest.enc, valid_append]
  repeat' apply And.intro
  all_goals exact valid_tagged (by constructor <;> decide) _

theorem QueryValidatorsRequest.dec_enc (m : QueryValidatorsRequest) : QueryValidatorsRequest.dec m.enc = some m := by
  simp [QueryValidatorsRequest.dec, QueryValidatorsRequest.enc, sel_tagged_ne, dOpt_vMsg PageRequest.valid PageRequest.dec_enc]

/-- `encode_to_vec`. `/repo/src/types/query_msg.rs` 328-336. -/
def QueryValidatorsRequest.toBytes (m : QueryValidatorsRequest) : Bytes := encFields m.enc
/-- `QueryValidatorsRequest::decode`. `/repo/src/types/query_msg.rs` 328-336. -/
def QueryValidatorsRequest.ofBytes (bs : Bytes) : Option QueryValidatorsRequest := (parseWire bs).bind QueryValidatorsRequest.dec
theorem QueryValidatorsRequest.ofBytes_toBytes (m : QueryValidatorsRequest) : QueryValidatorsRequest.ofBytes m.toBytes = some m := by
  simp [QueryValidatorsRequest.ofBytes, QueryValidatorsRequest.toBytes, parseWire_encFields m.valid, m.dec_enc]

/-- `/repo/src/types/query_msg.rs` 337-348. -/
structure QueryDelegationRequest where
  delegatorAddr : String
  validatorAddr : String
  deriving DecidableEq

/-- Encode `QueryDelegationRequest`: `/repo/src/types/query_msg.rs` 337-348. -/
def QueryDelegationRequest.enc (m : QueryDelegationRequest) : Fields :=
  tagged 1 (vStr m.delegatorAddr) ++
  tagged 2 (vStr m.validatorAddr)

/-- Decode `QueryDelegationRequest` (unknown fields skipped): `/repo/src/types/query_msg.rs` 337-348. -/
def QueryDelegationRequest.dec (fs : Fields) : Option QueryDelegationRequest :=
  match dStr (sel 1 fs) with
  | none => none
  | some x_delegatorAddr =>
  match dStr (sel 2 fs) with
  | none => none
  | some x_validatorAddr =>
  some ⟨x_delegatorAddr, x_validatorAddr⟩

theorem QueryDelegationRequest.valid (m : QueryDelegationRequest) : Valid m.enc := by
  simp only [QueryDelegationRequest.enc, valid_append]
  repeat' apply And.intro
  all_goals exact valid_tagged (by constructor <;> decide) _

theorem QueryDelegationRequest.dec_enc (m : QueryDelegationRequest) : QueryDelegationRequest.dec m.enc = some m := by
  simp [QueryDelegationRequest.dec, QueryDelegationRequest.enc, sel_tagged_ne]

/-- `encode_to_vec`. `/repo/src/types/query_msg.rs` 337-348. -/
def QueryDelegationRequest.toBytes (m : QueryDelegationRequest) : Bytes := encFields m.enc
/-- `QueryDelegationRequest::decode`. `/repo/src/types/query_msg.rs` 337-348. -/
def QueryDelegationRequest.ofBytes (bs : Bytes) : Option QueryDelegationRequest := (parseWire bs).bind QueryDelegationRequest.dec
theorem QueryDelegationRequest.ofBytes_toBytes (m : QueryDelegationRequest) : QueryDelegationRequest.ofBytes m.toBytes = some m := by
  simp [QueryDelegationRequest.ofBytes, QueryDelegationRequest.toBytes, parseWire_encFields m.valid, m.dec_enc]

/-- `/repo/src/types/query_msg.rs` 349-357. -/
structure QueryDelegatorDelegationsRequest where
  delegatorAddr : String
  pagination : Option PageRequest
  deriving DecidableEq

/-- Encode `QueryDelegatorDelegationsRequest`: `/repo/src/types/query_msg.rs` 349-357. -/
def QueryDelegatorDelegationsRequest.enc (m : QueryDelegatorDelegationsRequest) : Fields :=
  tagged 1 (vStr m.delegatorAddr) ++
  tagged 2 (vMsg (m.pagination.map PageRequest.enc))

/-- Decode `QueryDelegatorDelegationsRequest` (unknown fields skipped): `/repo/src/types/query_msg.rs` 349-357. -/
def QueryDelegatorDelegationsRequest.dec (fs : Fields) : Option QueryDelegatorDelegationsRequest :=
  match dStr (sel 1 fs) with
  | none => none
  | some x_delegatorAddr =>
  match dOpt PageRequest.dec (sel 2 fs) with
  | none => none
  | some x_pagination =>
  some ⟨x_delegatorAddr, x_pagination⟩

theorem QueryDelegatorDelegationsRequest.valid (m : QueryDelegatorDelegationsRequest) : Valid m.enc := by
  simp only [QueryDelegatorDelegationsRequest.enc, valid_append]
  repeat' apply And.intro
  all_goals exact valid_tagged (by constructor <;> decide) _

theorem QueryDelegatorDelegationsRequest.dec_enc (m : QueryDelegatorDelegationsRequest) : QueryDelegatorDelegationsRequest.dec m.enc = some m := by
  simp [QueryDelegatorDelegationsRequest.dec, QueryDelegatorDelegationsRequest.enc, sel_tagged_ne, dOpt_vMsg PageRequest.valid PageRequest.dec_enc]

/-- `encode_to_vec`. `/repo/src/types/query_msg.rs` 349-357. -/
def QueryDelegatorDelegationsRequest.toBytes (m : QueryDelegatorDelegationsRequest) : Bytes := encFields m.enc
/-- `QueryDelegatorDelegationsRequest::decode`. `/repo/src/types/query_msg.rs` 349-357. -/
def QueryDelegatorDelegationsRequest.ofBytes (bs : Bytes) : Option QueryDelegatorDelegationsRequest := (parseWire bs).bind QueryDelegatorDelegationsRequest.dec
theorem QueryDelegatorDelegationsRequest.ofBytes_toBytes (m : QueryDelegatorDelegationsRequest) : QueryDelegatorDelegationsRequest.ofBytes m.toBytes = some m := by
  simp [QueryDelegatorDelegationsRequest.ofBytes, QueryDelegatorDelegationsRequest.toBytes, parseWire_encFields m.valid, m.dec_enc]

/-- `/repo/src/types/query_msg.rs` 358-362. -/
structure QueryParamsRequest where
  deriving DecidableEq

/-- Encode `QueryParamsRequest`: `/repo/src/types/query_msg.rs` 358-362. -/
def QueryParamsRequest.enc (m : QueryParamsRequest) : Fields :=
  []

/-- Decode `QueryParamsRequest` (unknown fields skipped): `/repo/src/types/query_msg.rs` 358-362. -/
def QueryParamsRequest.dec (fs : Fields) : Option QueryParamsRequest :=
  some ⟨⟩

theorem QueryParamsRequest.valid (m : QueryParamsRequest) : Valid m.enc := by
  exact valid_nil

theorem QueryParamsRequest.dec_enc (m : QueryParamsRequest) : QueryParamsRequest.dec m.enc = some m := by
  simp [QueryParamsRequest.dec, QueryParamsRequest.enc, sel_tagged_ne]

/-- `encode_to_vec`. `/repo/src/types/query_msg.rs` 358-362. -/
def QueryParamsRequest.toBytes (m : QueryParamsRequest) : Bytes := encFields m.enc
/-- `QueryParamsRequest::decode`. `/repo/src/types/query_msg.rs` 358-362. -/
def QueryParamsRequest.ofBytes (bs : Bytes) : Option QueryParamsRequest := (parseWire bs).bind QueryParamsRequest.dec
theorem QueryParamsRequest.ofBytes_toBytes (m : QueryParamsRequest) : QueryParamsRequest.ofBytes m.toBytes = some m := by
  simp [QueryParamsRequest.ofBytes, QueryParamsRequest.toBytes, parseWire_encFields m.valid, m.dec_enc]

/-- `cosmos.base.query.v1beta1.PageResponse`; read at `/repo/src/types/query_msg.rs` 508-509. -/
structure PageResponse where
  nextKey : Bytes
  total : UInt64
  deriving DecidableEq

/-- Encode `PageResponse`: `cosmos.base.query.v1beta1.PageResponse`; read at `/repo/src/types/query_msg.rs` 508-509. -/
def PageResponse.enc (m : PageResponse) : Fields :=
  tagged 1 (vBytes m.nextKey) ++
  tagged 2 (vU64 m.total)

/-- Decode `PageResponse` (unknown fields skipped): `cosmos.base.query.v1beta1.PageResponse`; read at `/repo/src/types/query_msg.rs` 508-509. -/
def PageResponse.dec (fs : Fields) : Option PageResponse :=
  match dBytes (sel 1 fs) with
  | none => none
  | some x_nextKey =>
  match dU64 (sel 2 fs) with
  | none => none
  | some x_total =>
  some ⟨x_nextKey, x_total⟩

theorem PageResponse.valid (m : PageResponse) : Valid m.enc := by
  simp only [PageResponse.enc, valid_append]
  repeat' apply And.intro
  all_goals exact valid_tagged (by constructor <;> decide) _

theorem PageResponse.dec_enc (m : PageResponse) : PageResponse.dec m.enc = some m := by
  simp [PageResponse.dec, PageResponse.enc, sel_tagged_ne]

/-- `encode_to_vec`. `cosmos.base.query.v1beta1.PageResponse`; read at `/repo/src/types/query_msg.rs` 508-509. -/
def PageResponse.toBytes (m : PageResponse) : Bytes := encFields m.enc
/-- `PageResponse::decode`. `cosmos.base.query.v1beta1.PageResponse`; read at `/repo/src/types/query_msg.rs` 508-509. -/
def PageResponse.ofBytes (bs : Bytes) : Option PageResponse := (parseWire bs).bind PageResponse.dec
theorem PageResponse.ofBytes_toBytes (m : PageResponse) : PageResponse.ofBytes m.toBytes = some m := by
  simp [PageResponse.ofBytes, PageResponse.toBytes, parseWire_encFields m.valid, m.dec_enc]

/-- `/repo/src/types/query_msg.rs` 471-479. -/
structure QueryBalanceResponse where
  balance : Option Coin
  deriving DecidableEq

/-- Encode `QueryBalanceResponse`: `/repo/src/types/query_msg.rs` 471-479. -/
def QueryBalanceResponse.enc (m : QueryBalanceResponse) : Fields :=
  tagged 1 (vMsg (m.balance.map Coin.enc))

/-- Decode `QueryBalanceResponse` (unknown fields skipped): `/repo/src/types/query_msg.rs` 471-479. -/
def QueryBalanceResponse.dec (fs : Fields) : Option QueryBalanceResponse :=
  match dOpt Coin.dec (sel 1 fs) with
  | none => none
  | some x_balance =>
  some ⟨x_balance⟩

theorem QueryBalanceResponse.valid (m : QueryBalanceResponse) : Valid m.enc := by
  simp only [QueryBalanceResponse.enc, valid_append]
  repeat' apply And.intro
  all_goals exact valid_tagged (by constructor <;> decide) _

theorem QueryBalanceResponse.dec_enc (m : QueryBalanceResponse) : QueryBalanceResponse.dec m.enc = some m := by
  simp [QueryBalanceResponse.dec, QueryBalanceResponse.enc, sel_tagged_ne, dOpt_vMsg Coin.valid Coin.dec_enc]

/-- `encode_to_vec`. `/repo/src/types/query_msg.rs` 471-479. -/
def QueryBalanceResponse.toBytes (m : QueryBalanceResponse) : Bytes := encFields m.enc
/-- `QueryBalanceResponse::decode`. `/repo/src/types/query_msg.rs` 471-479. -/
def QueryBalanceResponse.ofBytes (bs : Bytes) : Option QueryBalanceResponse := (parseWire bs).bind QueryBalanceResponse.dec
theorem QueryBalanceResponse.ofBytes_toBytes (m : QueryBalanceResponse) : QueryBalanceResponse.ofBytes m.toBytes = some m := by
  simp [QueryBalanceResponse.ofBytes, QueryBalanceResponse.toBytes, parseWire_encFields m.valid, m.dec_enc]

/-- `/repo/src/types/query_msg.rs` 480-490. -/
structure QueryAllBalancesResponse where
  balances : List Coin
  pagination : Option PageResponse
  deriving DecidableEq

/-- Encode `QueryAllBalancesResponse`: `/repo/src/types/query_msg.rs` 480-490. -/
def QueryAllBalancesResponse.enc (m : QueryAllBalancesResponse) : Fields :=
  tagged 1 (vMsgs (m.balances.map Coin.enc)) ++
  tagged 2 (vMsg (m.pagination.map PageResponse.enc))

/-- Decode `QueryAllBalancesResponse` (unknown fields skipped): `/repo/src/types/query_msg.rs` 480-490. -/
def QueryAllBalancesResponse.dec (fs : Fields) : Option QueryAllBalancesResponse :=
  match dAll Coin.dec (sel 1 fs) with
  | none => none
  | some x_balances =>
  match dOpt PageResponse.dec (sel 2 fs) with
  | none => none
  | some x_pagination =>
  some ⟨x_balances, x_pagination⟩

theorem QueryAllBalancesResponse.valid (m : QueryAllBalancesResponse) : Valid m.enc := by
  simp only [QueryAllBalancesResponse.enc, valid_append]
  repeat' apply And.intro
  all_goals exact valid_tagged (by constructor <;> decide) _

theorem QueryAllBalancesResponse.dec_enc (m : QueryAllBalancesResponse) : QueryAllBalancesResponse.dec m.enc = some m := by
  simp [QueryAllBalancesResponse.dec, QueryAllBalancesResponse.enc, sel_tagged_ne, dAll_vMsgs Coin.valid Coin.dec_enc, dOpt_vMsg PageResponse.valid PageResponse.dec_enc]

/-- `encode_to_vec`. `/repo/src/types/query_msg.rs` 480-490. -/
def QueryAllBalancesResponse.toBytes (m : QueryAllBalancesResponse) : Bytes := encFields m.enc
/-- `QueryAllBalancesResponse::decode`. `/repo/src/types/query_msg.rs` 480-490. -/
def QueryAllBalancesResponse.ofBytes (bs : Bytes) : Option QueryAllBalancesResponse := (parseWire bs).bind QueryAllBalancesResponse.dec
theorem QueryAllBalancesResponse.ofBytes_toBytes (m : QueryAllBalancesResponse) : QueryAllBalancesResponse.ofBytes m.toBytes = some m := by
  simp [QueryAllBalancesResponse.ofBytes, QueryAllBalancesResponse.toBytes, parseWire_encFields m.valid, m.dec_enc]

/-- `cosmos.bank.v1beta1.DenomUnit`; read at `/repo/src/types/query_msg.rs` 412-420. -/
structure DenomUnit where
  denom : String
  exponent : UInt32
  aliases : List String
  deriving DecidableEq

/-- Encode `DenomUnit`: `cosmos.bank.v1beta1.DenomUnit`; read at `/repo/src/types/query_msg.rs` 412-420. -/
def DenomUnit.enc (m : DenomUnit) : Fields :=
  tagged 1 (vStr m.denom) ++
  tagged 2 (vU64 m.exponent.toUInt64) ++
  tagged 3 (vStrs m.aliases)

/-- Decode `DenomUnit` (unknown fields skipped): `cosmos.bank.v1beta1.DenomUnit`; read at `/repo/src/types/query_msg.rs` 412-420. -/
def DenomUnit.dec (fs : Fields) : Option DenomUnit :=
  match dStr (sel 1 fs) with
  | none => none
  | some x_denom =>
  match dU32 (sel 2 fs) with
  | none => none
  | some x_exponent =>
  match dStrs (sel 3 fs) with
  | none => none
  | some x_aliases =>
  some ⟨x_denom, x_exponent, x_aliases⟩

theorem DenomUnit.valid (m : DenomUnit) : Valid m.enc := by
  simp only [DenomUnit.enc, valid_append]
  repeat' apply And.intro
  all_goals exact valid_tagged (by constructor <;> decide) _

theorem DenomUnit.dec_enc (m : DenomUnit) : DenomUnit.dec m.enc = some m := by
  simp [DenomUnit.dec, DenomUnit.enc, sel_tagged_ne, dU32_vU64]

/-- `encode_to_vec`. `cosmos.bank.v1beta1.DenomUnit`; read at `/repo/src/types/query_msg.rs` 412-420. -/
def DenomUnit.toBytes (m : DenomUnit) : Bytes := encFields m.enc
/-- `DenomUnit::decode`. `cosmos.bank.v1beta1.DenomUnit`; read at `/repo/src/types/query_msg.rs` 412-420. -/
def DenomUnit.ofBytes (bs : Bytes) : Option DenomUnit := (parseWire bs).bind DenomUnit.dec
theorem DenomUnit.ofBytes_toBytes (m : DenomUnit) : DenomUnit.ofBytes m.toBytes = some m := by
  simp [DenomUnit.ofBytes, DenomUnit.toBytes, parseWire_encFields m.valid, m.dec_enc]

/-- `cosmos.bank.v1beta1.Metadata`; read at `/repo/src/types/query_msg.rs` 403-422. -/
structure Metadata where
  description : String
  denomUnits : List DenomUnit
  base : String
  display : String
  name : String
  symbol : String
  uri : String
  uriHash : String
  deriving DecidableEq

/-- Encode `Metadata`: `cosmos.bank.v1beta1.Metadata`; read at `/repo/src/types/query_msg.rs` 403-422. -/
def Metadata.enc (m : Metadata) : Fields :=
  tagged 1 (vStr m.description) ++
  tagged 2 (vMsgs (m.denomUnits.map DenomUnit.enc)) ++
  tagged 3 (vStr m.base) ++
  tagged 4 (vStr m.display) ++
  tagged 5 (vStr m.name) ++
  tagged 6 (vStr m.symbol) ++
  tagged 7 (vStr m.uri) ++
  tagged 8 (vStr m.uriHash)

/-- Decode `Metadata` (unknown fields skipped): `cosmos.bank.v1beta1.Metadata`; read at `/repo/src/types/query_msg.rs` 403-422. -/
def Metadata.dec (fs : Fields) : Option Metadata :=
  match dStr (sel 1 fs) with
  | none => none
  | some x_description =>
  match dAll DenomUnit.dec (sel 2 fs) with
  | none => none
  | some x_denomUnits =>
  match dStr (sel 3 fs) with
  | none => none
  | some x_base =>
  match dStr (sel 4 fs) with
  | none => none
  | some x_display =>
  match dStr (sel 5 fs) with
  | none => none
  | some x_name =>
  match dStr (sel 6 fs) with
  | none => none
  | some x_symbol =>
  match dStr (sel 7 fs) with
  | none => none
  | some x_uri =>
  match dStr (sel 8 fs) with
  | none => none
  | some x_uriHash =>
  some ⟨x_description, x_denomUnits, x_base, x_display, x_name, x_symbol, x_uri, x_uriHash⟩

theorem Metadata.valid (m : Metadata) : Valid m.enc := by
  simp only [Metadata.enc, valid_append]
  repeat' apply And.intro
  all_goals exact valid_tagged (by constructor <;> decide) _

theorem Metadata.dec_enc (m : Metadata) : Metadata.dec m.enc = some m := by
  simp [Metadata.dec, Metadata.enc, sel_tagged_ne, dAll_vMsgs DenomUnit.valid DenomUnit.dec_enc]

/-- `encode_to_vec`. `cosmos.bank.v1beta1.Metadata`; read at `/repo/src/types/query_msg.rs` 403-422. -/
def Metadata.toBytes (m : Metadata) : Bytes := encFields m.enc
/-- `Metadata::decode`. `cosmos.bank.v1beta1.Metadata`; read at `/repo/src/types/query_msg.rs` 403-422. -/
def Metadata.ofBytes (bs : Bytes) : Option Metadata := (parseWire bs).bind Metadata.dec
theorem Metadata.ofBytes_toBytes (m : Metadata) : Metadata.ofBytes m.toBytes = some m := by
  simp [Metadata.ofBytes, Metadata.toBytes, parseWire_encFields m.valid, m.dec_enc]

/-- `/repo/src/types/query_msg.rs` 491-499. -/
structure QueryDenomMetadataResponse where
  metadata : Option Metadata
  deriving DecidableEq

/-- Encode `QueryDenomMetadataResponse`: `/repo/src/types/query_msg.rs` 491-499. -/
def QueryDenomMetadataResponse.enc (m : QueryDenomMetadataResponse) : Fields :=
  tagged 1 (vMsg (m.metadata.map Metadata.enc))

/-- Decode `QueryDenomMetadataResponse` (unknown fields skipped): `/repo/src/types/query_msg.rs` 491-499. -/
def QueryDenomMetadataResponse.dec (fs : Fields) : Option QueryDenomMetadataResponse :=
  match dOpt Metadata.dec (sel 1 fs) with
  | none => none
  | some x_metadata =>
  some ⟨x_metadata⟩

theorem QueryDenomMetadataResponse.valid (m : QueryDenomMetadataResponse) : Valid m.enc := by
  simp only [QueryDenomMetadataResponse.enc, valid_append]
  repeat' apply And.intro
  all_goals exact valid_tagged (by constructor <;> decide) _

theorem QueryDenomMetadataResponse.dec_enc (m : QueryDenomMetadataResponse) : QueryDenomMetadataResponse.dec m.enc = some m := by
  simp [QueryDenomMetadataResponse.dec, QueryDenomMetadataResponse.enc, sel_tagged_ne, dOpt_vMsg Metadata.valid Metadata.dec_enc]

/-- `encode_to_vec`. `/repo/src/types/query_msg.rs` 491-499. -/
def QueryDenomMetadataResponse.toBytes (m : QueryDenomMetadataResponse) : Bytes := encFields m.enc
/-- `QueryDenomMetadataResponse::decode`. `/repo/src/types/query_msg.rs` 491-499. -/
def QueryDenomMetadataResponse.ofBytes (bs : Bytes) : Option QueryDenomMetadataResponse := (parseWire bs).bind QueryDenomMetadataResponse.dec
theorem QueryDenomMetadataResponse.ofBytes_toBytes (m : QueryDenomMetadataResponse) : QueryDenomMetadataResponse.ofBytes m.toBytes = some m := by
  simp [QueryDenomMetadataResponse.ofBytes, QueryDenomMetadataResponse.toBytes, parseWire_encFields m.valid, m.dec_enc]

/-- `/repo/src/types/query_msg.rs` 500-512. -/
structure QueryDenomsMetadataResponse where
  metadatas : List Metadata
  pagination : Option PageResponse
  deriving DecidableEq

/-- Encode `QueryDenomsMetadataResponse`: `/repo/src/types/query_msg.rs` 500-512. -/
def QueryDenomsMetadataResponse.enc (m : QueryDenomsMetadataResponse) : Fields :=
  tagged 1 (vMsgs (m.metadatas.map Metadata.enc)) ++
  tagged 2 (vMsg (m.pagination.map PageResponse.enc))

/-- Decode `QueryDenomsMetadataResponse` (unknown fields skipped): `/repo/src/types/query_msg.rs` 500-512. -/
def QueryDenomsMetadataResponse.dec (fs : Fields) : Option QueryDenomsMetadataResponse :=
  match dAll Metadata.dec (sel 1 fs) with
  | none => none
  | some x_metadatas =>
  match dOpt PageResponse.dec (sel 2 fs) with
  | none => none
  | some x_pagination =>
  some ⟨x_metadatas, x_pagination⟩

theorem QueryDenomsMetadataResponse.valid (m : QueryDenomsMetadataResponse) : Valid m.enc := by
  simp only [QueryDenomsMetadataResponse.enc, valid_append]
  repeat' apply And.intro
  all_goals exact valid_tagged (by constructor <;> decide) _

theorem QueryDenomsMetadataResponse.dec_enc (m : QueryDenomsMetadataResponse) : QueryDenomsMetadataResponse.dec m.enc = some m := by
  simp [QueryDenomsMetadataResponse.dec, QueryDenomsMetadataResponse.enc, sel_tagged_ne, dAll_vMsgs Metadata.valid Metadata.dec_enc, dOpt_vMsg PageResponse.valid PageResponse.dec_enc]

/-- `encode_to_vec`. `/repo/src/types/query_msg.rs` 500-512. -/
def QueryDenomsMetadataResponse.toBytes (m : QueryDenomsMetadataResponse) : Bytes := encFields m.enc
/-- `QueryDenomsMetadataResponse::decode`. `/repo/src/types/query_msg.rs` 500-512. -/
def QueryDenomsMetadataResponse.ofBytes (bs : Bytes) : Option QueryDenomsMetadataResponse := (parseWire bs).bind QueryDenomsMetadataResponse.dec
theorem QueryDenomsMetadataResponse.ofBytes_toBytes (m : QueryDenomsMetadataResponse) : QueryDenomsMetadataResponse.ofBytes m.toBytes = some m := by
  simp [QueryDenomsMetadataResponse.ofBytes, QueryDenomsMetadataResponse.toBytes, parseWire_encFields m.valid, m.dec_enc]

/-- `/repo/src/types/query_msg.rs` 513-521. -/
structure QuerySupplyOfResponse where
  amount : Option Coin
  deriving DecidableEq

/-- Encode `QuerySupplyOfResponse`: `/repo/src/types/query_msg.rs` 513-521. -/
def QuerySupplyOfResponse.enc (m : QuerySupplyOfResponse) : Fields :=
  tagged 1 (vMsg (m.amount.map Coin.enc))

/-- Decode `QuerySupplyOfResponse` (unknown fields skipped): `/repo/src/types/query_msg.rs` 513-521. -/
def QuerySupplyOfResponse.dec (fs : Fields) : Option QuerySupplyOfResponse :=
  match dOpt Coin.dec (sel 1 fs) with
  | none => none
  | some x_amount =>
  some ⟨x_amount⟩

theorem QuerySupplyOfResponse.valid (m : QuerySupplyOfResponse) : Valid m.enc := by
  simp only [QuerySupplyOfResponse.enc, valid_append]
  repeat' apply And.intro
  all_goals exact valid_tagged (by constructor <;> decide) _

theorem QuerySupplyOfResponse.dec_enc (m : QuerySupplyOfResponse) : QuerySupplyOfResponse.dec m.enc = some m := by
  simp [QuerySupplyOfResponse.dec, QuerySupplyOfResponse.enc, sel_tagged_ne, dOpt_vMsg Coin.valid Coin.dec_enc]

/-- `encode_to_vec`. `/repo/src/types/query_msg.rs` 513-521. -/
def QuerySupplyOfResponse.toBytes (m : QuerySupplyOfResponse) : Bytes := encFields m.enc
/-- `QuerySupplyOfResponse::decode`. `/repo/src/types/query_msg.rs` 513-521. -/
def QuerySupplyOfResponse.ofBytes (bs : Bytes) : Option QuerySupplyOfResponse := (parseWire bs).bind QuerySupplyOfResponse.dec
theorem QuerySupplyOfResponse.ofBytes_toBytes (m : QuerySupplyOfResponse) : QuerySupplyOfResponse.ofBytes m.toBytes = some m := by
  simp [QuerySupplyOfResponse.ofBytes, QuerySupplyOfResponse.toBytes, parseWire_encFields m.valid, m.dec_enc]

/-- `cosmwasm.wasm.v1.AbsoluteTxPosition`; part of what is read at `/repo/src/types/query_msg.rs` 528-549. -/
structure AbsoluteTxPosition where
  blockHeight : UInt64
  txIndex : UInt64
  deriving DecidableEq

/-- Encode `AbsoluteTxPosition`: `cosmwasm.wasm.v1.AbsoluteTxPosition`; part of what is read at `/repo/src/types/query_msg.rs` 528-549. -/
def AbsoluteTxPosition.enc (m : AbsoluteTxPosition) : Fields :=
  tagged 1 (vU64 m.blockHeight) ++
  tagged 2 (vU64 m.txIndex)

/-- Decode `AbsoluteTxPosition` (unknown fields skipped): `cosmwasm.wasm.v1.AbsoluteTxPosition`; part of what is read at `/repo/src/types/query_msg.rs` 528-549. -/
def AbsoluteTxPosition.dec (fs : Fields) : Option AbsoluteTxPosition :=
  match dU64 (sel 1 fs) with
  | none => none
  | some x_blockHeight =>
  match dU64 (sel 2 fs) with
  | none => none
  | some x_txIndex =>
  some ⟨x_blockHeight, x_txIndex⟩

theorem AbsoluteTxPosition.valid (m : AbsoluteTxPosition) : Valid m.enc := by
  simp only [AbsoluteTxPosition.enc, valid_append]
  repeat' apply And.intro
  all_goals exact valid_tagged (by constructor <;> decide) _

theorem AbsoluteTxPosition.dec_enc (m : AbsoluteTxPosition) : AbsoluteTxPosition.dec m.enc = some m := by
  simp [AbsoluteTxPosition.dec, AbsoluteTxPosition.enc, sel_tagged_ne]

/-- `encode_to_vec`. `cosmwasm.wasm.v1.AbsoluteTxPosition`; part of what is read at `/repo/src/types/query_msg.rs` 528-549. -/
def AbsoluteTxPosition.toBytes (m : AbsoluteTxPosition) : Bytes := encFields m.enc
/-- `AbsoluteTxPosition::decode`. `cosmwasm.wasm.v1.AbsoluteTxPosition`; part of what is read at `/repo/src/types/query_msg.rs` 528-549. -/
def AbsoluteTxPosition.ofBytes (bs : Bytes) : Option AbsoluteTxPosition := (parseWire bs).bind AbsoluteTxPosition.dec
theorem AbsoluteTxPosition.ofBytes_toBytes (m : AbsoluteTxPosition) : AbsoluteTxPosition.ofBytes m.toBytes = some m := by
  simp [AbsoluteTxPosition.ofBytes, AbsoluteTxPosition.toBytes, parseWire_encFields m.valid, m.dec_enc]

/-- `cosmwasm.wasm.v1.ContractInfo`; read at `/repo/src/types/query_msg.rs` 528-549. -/
structure ContractInfo where
  codeId : UInt64
  creator : String
  admin : String
  label : String
  created : Option AbsoluteTxPosition
  ibcPortId : String
  extension : Option Any
  deriving DecidableEq

/-- Encode `ContractInfo`: `cosmwasm.wasm.v1.ContractInfo`; read at `/repo/src/types/query_msg.rs` 528-549. -/
def ContractInfo.enc (m : ContractInfo) : Fields :=
  tagged 1 (vU64 m.codeId) ++
  tagged 2 (vStr m.creator) ++
  tagged 3 (vStr m.admin) ++
  tagged 4 (vStr m.label) ++
  tagged 5 (vMsg (m.created.map AbsoluteTxPosition.enc)) ++
  tagged 6 (vStr m.ibcPortId) ++
  tagged 7 (vMsg (m.extension.map Any.enc))

/-- Decode `ContractInfo` (unknown fields skipped): `cosmwasm.wasm.v1.ContractInfo`; read at `/repo/src/types/query_msg.rs` 528-549. -/
def ContractInfo.dec (fs : Fields) : Option ContractInfo :=
  match dU64 (sel 1 fs) with
  | none => none
  | some x_codeId =>
  match dStr (sel 2 fs) with
  | none => none
  | some x_creator =>
  match dStr (sel 3 fs) with
  | none => none
  | some x_admin =>
  match dStr (sel 4 fs) with
  | none => none
  | some x_label =>
  match dOpt AbsoluteTxPosition.dec (sel 5 fs) with
  | none => none
  | some x_created =>
  match dStr (sel 6 fs) with
  | none => none
  | some x_ibcPortId =>
  match dOpt Any.dec (sel 7 fs) with
  | none => none
  | some x_extension =>
  some ⟨x_codeId, x_creator, x_admin, x_label, x_created, x_ibcPortId, x_extension⟩

theorem ContractInfo.valid (m : ContractInfo) : Valid m.enc := by
  simp only [ContractInfo.enc, valid_append]
  repeat' apply And.intro
  all_goals exact valid_tagged (by constructor <;> decide) _

theorem ContractInfo.dec_enc (m : ContractInfo) : ContractInfo.dec m.enc = some m := by
  simp [ContractInfo.dec, ContractInfo.enc, sel_tagged_ne, dOpt_vMsg AbsoluteTxPosition.valid AbsoluteTxPosition.dec_enc, dOpt_vMsg Any.valid Any.dec_enc]

/-- `encode_to_vec`. `cosmwasm.wasm.v1.ContractInfo`; read at `/repo/src/types/query_msg.rs` 528-549. -/
def ContractInfo.toBytes (m : ContractInfo) : Bytes := encFields m.enc
/-- `ContractInfo::decode`. `cosmwasm.wasm.v1.ContractInfo`; read at `/repo/src/types/query_msg.rs` 528-549. -/
def ContractInfo.ofBytes (bs : Bytes) : Option ContractInfo := (parseWire bs).bind ContractInfo.dec
theorem ContractInfo.ofBytes_toBytes (m : ContractInfo) : ContractInfo.ofBytes m.toBytes = some m := by
  simp [ContractInfo.ofBytes, ContractInfo.toBytes, parseWire_encFields m.valid, m.dec_enc]

/-- `/repo/src/types/query_msg.rs` 528-549. -/
structure QueryContractInfoResponse where
  address : String
  contractInfo : Option ContractInfo
  deriving DecidableEq

/-- Encode `QueryContractInfoResponse`: `/repo/src/types/query_msg.rs` 528-549. -/
def QueryContractInfoResponse.enc (m : QueryContractInfoResponse) : Fields :=
  tagged 1 (vStr m.address) ++
  tagged 2 (vMsg (m.contractInfo.map ContractInfo.enc))

/-- Decode `QueryContractInfoResponse` (unknown fields skipped): `/repo/src/types/query_msg.rs` 528-549. -/
def QueryContractInfoResponse.dec (fs : Fields) : Option QueryContractInfoResponse :=
  match dStr (sel 1 fs) with
  | none => none
  | some x_address =>
  match dOpt ContractInfo.dec (sel 2 fs) with
  | none => none
  | some x_contractInfo =>
  some ⟨x_address, x_contractInfo⟩

theorem QueryContractInfoResponse.valid (m : QueryContractInfoResponse) : Valid m.enc := by
  simp only [QueryContractInfoResponse.enc, valid_append]
  repeat' apply And.intro
  all_goals exact valid_tagged (by constructor <;> decide) _

theorem QueryContractInfoResponse.dec_enc (m : QueryContractInfoResponse) : QueryContractInfoResponse.dec m.enc = some m := by
  simp [QueryContractInfoResponse.dec, QueryContractInfoResponse.enc, sel_tagged_ne, dOpt_vMsg ContractInfo.valid ContractInfo.dec_enc]

/-- `encode_to_vec`. `/repo/src/types/query_msg.rs` 528-549. -/
def QueryContractInfoResponse.toBytes (m : QueryContractInfoResponse) : Bytes := encFields m.enc
/-- `QueryContractInfoResponse::decode`. `/repo/src/types/query_msg.rs` 528-549. -/
def QueryContractInfoResponse.ofBytes (bs : Bytes) : Option QueryContractInfoResponse := (parseWire bs).bind QueryContractInfoResponse.dec
theorem QueryContractInfoResponse.ofBytes_toBytes (m : QueryContractInfoResponse) : QueryContractInfoResponse.ofBytes m.toBytes = some m := by
  simp [QueryContractInfoResponse.ofBytes, QueryContractInfoResponse.toBytes, parseWire_encFields m.valid, m.dec_enc]

/-- `QueryRawContractStateResponse`, `QuerySmartContractStateResponse`; read at `/repo/src/types/query_msg.rs` 550-565. -/
structure QueryDataResponse where
  data : Bytes
  deriving DecidableEq

/-- Encode `QueryDataResponse`: `QueryRawContractStateResponse`, `QuerySmartContractStateResponse`; read at `/repo/src/types/query_msg.rs` 550-565. -/
def QueryDataResponse.enc (m : QueryDataResponse) : Fields :=
  tagged 1 (vBytes m.data)

/-- Decode `QueryDataResponse` (unknown fields skipped): `QueryRawContractStateResponse`, `QuerySmartContractStateResponse`; read at `/repo/src/types/query_msg.rs` 550-565. -/
def QueryDataResponse.dec (fs : Fields) : Option QueryDataResponse :=
  match dBytes (sel 1 fs) with
  | none => none
  | some x_data =>
  some ⟨x_data⟩

theorem QueryDataResponse.valid (m : QueryDataResponse) : Valid m.enc := by
  simp only [QueryDataResponse.enc, valid_append]
  repeat' apply And.intro
  all_goals exact valid_tagged (by constructor <;> decide) _

theorem QueryDataResponse.dec_enc (m : QueryDataResponse) : QueryDataResponse.dec m.enc = some m := by
  simp [QueryDataResponse.dec, QueryDataResponse.enc, sel_tagged_ne]

/-- `encode_to_vec`. `QueryRawContractStateResponse`, `QuerySmartContractStateResponse`; read at `/repo/src/types/query_msg.rs` 550-565. -/
def QueryDataResponse.toBytes (m : QueryDataResponse) : Bytes := encFields m.enc
/-- `QueryDataResponse::decode`. `QueryRawContractStateResponse`, `QuerySmartContractStateResponse`; read at `/repo/src/types/query_msg.rs` 550-565. -/
def QueryDataResponse.ofBytes (bs : Bytes) : Option QueryDataResponse := (parseWire bs).bind QueryDataResponse.dec
theorem QueryDataResponse.ofBytes_toBytes (m : QueryDataResponse) : QueryDataResponse.ofBytes m.toBytes = some m := by
  simp [QueryDataResponse.ofBytes, QueryDataResponse.toBytes, parseWire_encFields m.valid, m.dec_enc]

/-- `cosmos.staking.v1beta1.CommissionRates`; read at `/repo/src/types/query_msg.rs` 430-441. -/
structure CommissionRates where
  rate : String
  maxRate : String
  maxChangeRate : String
  deriving DecidableEq

/-- Encode `CommissionRates`: `cosmos.staking.v1beta1.CommissionRates`; read at `/repo/src/types/query_msg.rs` 430-441. -/
def CommissionRates.enc (m : CommissionRates) : Fields :=
  tagged 1 (vStr m.rate) ++
  tagged 2 (vStr m.maxRate) ++
  tagged 3 (vStr m.maxChangeRate)

/-- Decode `CommissionRates` (unknown fields skipped): `cosmos.staking.v1beta1.CommissionRates`; read at `/repo/src/types/query_msg.rs` 430-441. -/
def CommissionRates.dec (fs : Fields) : Option CommissionRates :=
  match dStr (sel 1 fs) with
  | none => none
  | some x_rate =>
  match dStr (sel 2 fs) with
  | none => none
  | some x_maxRate =>
  match dStr (sel 3 fs) with
  | none => none
  | some x_maxChangeRate =>
  some ⟨x_rate, x_maxRate, x_maxChangeRate⟩

theorem CommissionRates.valid (m : CommissionRates) : Valid m.enc := by
  simp only [CommissionRates.enc, valid_append]
  repeat' apply And.intro
  all_goals exact valid_tagged (by constructor <;> decide) _

theorem CommissionRates.dec_enc (m : CommissionRates) : CommissionRates.dec m.enc = some m := by
  simp [CommissionRates.dec, CommissionRates.enc, sel_tagged_ne]

/-- `encode_to_vec`. `cosmos.staking.v1beta1.CommissionRates`; read at `/repo/src/types/query_msg.rs` 430-441. -/
def CommissionRates.toBytes (m : CommissionRates) : Bytes := encFields m.enc
/-- `CommissionRates::decode`. `cosmos.staking.v1beta1.CommissionRates`; read at `/repo/src/types/query_msg.rs` 430-441. -/
def CommissionRates.ofBytes (bs : Bytes) : Option CommissionRates := (parseWire bs).bind CommissionRates.dec
theorem CommissionRates.ofBytes_toBytes (m : CommissionRates) : CommissionRates.ofBytes m.toBytes = some m := by
  simp [CommissionRates.ofBytes, CommissionRates.toBytes, parseWire_encFields m.valid, m.dec_enc]

/-- `google.protobuf.Timestamp` and `Duration` (signed numbers as their 64 bits on the wire; never read); part of what is read at `/repo/src/types/query_msg.rs` 424-442, 643-652. -/
structure Timestamp where
  seconds : UInt64
  nanos : UInt64
  deriving DecidableEq

/-- Encode `Timestamp`: `google.protobuf.Timestamp` and `Duration` (signed numbers as their 64 bits on the wire; never read); part of what is read at `/repo/src/types/query_msg.rs` 424-442, 643-652. -/
def Timestamp.enc (m : Timestamp) : Fields :=
  tagged 1 (vU64 m.seconds) ++
  tagged 2 (vU64 m.nanos)

/-- Decode `Timestamp` (unknown fields skipped): `google.protobuf.Timestamp` and `Duration` (signed numbers as their 64 bits on the wire; never read); part of what is read at `/repo/src/types/query_msg.rs` 424-442, 643-652. -/
def Timestamp.dec (fs : Fields) : Option Timestamp :=
  match dU64 (sel 1 fs) with
  | none => none
  | some x_seconds =>
  match dU64 (sel 2 fs) with
  | none => none
  | some x_nanos =>
  some ⟨x_seconds, x_nanos⟩

theorem Timestamp.valid (m : Timestamp) : Valid m.enc := by
  simp only [Timestamp.enc, valid_append]
  repeat' apply And.intro
  all_goals exact valid_tagged (by constructor <;> decide) _

theorem Timestamp.dec_enc (m : Timestamp) : Timestamp.dec m.enc = some m := by
  simp [Timestamp.dec, Timestamp.enc, sel_tagged_ne]

/-- `encode_to_vec`. `google.protobuf.Timestamp` and `Duration` (signed numbers as their 64 bits on the wire; never read); part of what is read at `/repo/src/types/query_msg.rs` 424-442, 643-652. -/
def Timestamp.toBytes (m : Timestamp) : Bytes := encFields m.enc
/-- `Timestamp::decode`. `google.protobuf.Timestamp` and `Duration` (signed numbers as their 64 bits on the wire; never read); part of what is read at `/repo/src/types/query_msg.rs` 424-442, 643-652. -/
def Timestamp.ofBytes (bs : Bytes) : Option Timestamp := (parseWire bs).bind Timestamp.dec
theorem Timestamp.ofBytes_toBytes (m : Timestamp) : Timestamp.ofBytes m.toBytes = some m := by
  simp [Timestamp.ofBytes, Timestamp.toBytes, parseWire_encFields m.valid, m.dec_enc]

/-- `cosmos.staking.v1beta1.Commission`; read at `/repo/src/types/query_msg.rs` 430-434. -/
structure Commission where
  commissionRates : Option CommissionRates
  updateTime : Option Timestamp
  deriving DecidableEq

/-- Encode `Commission`: `cosmos.staking.v1beta1.Commission`; read at `/repo/src/types/query_msg.rs` 430-434. -/
def Commission.enc (m : Commission) : Fields :=
  tagged 1 (vMsg (m.commissionRates.map CommissionRates.enc)) ++
  tagged 2 (vMsg (m.updateTime.map Timestamp.enc))

/-- Decode `Commission` (unknown fields skipped): `cosmos.staking.v1beta1.Commission`; read at `/repo/src/types/query_msg.rs` 430-434. -/
def Commission.dec (fs : Fields) : Option Commission :=
  match dOpt CommissionRates.dec (sel 1 fs) with
  | none => none
  | some x_commissionRates =>
  match dOpt Timestamp.dec (sel 2 fs) with
  | none => none
  | some x_updateTime =>
  some ⟨x_commissionRates, x_updateTime⟩

theorem Commission.valid (m : Commission) : Valid m.enc := by
  simp only [Commission.enc, valid_append]
  repeat' apply And.intro
  all_goals exact valid_tagged (by constructor <;> decide) _

theorem Commission.dec_enc (m : Commission) : Commission.dec m.enc = some m := by
  simp [Commission.dec, Commission.enc, sel_tagged_ne, dOpt_vMsg CommissionRates.valid CommissionRates.dec_enc, dOpt_vMsg Timestamp.valid Timestamp.dec_enc]

/-- `encode_to_vec`. `cosmos.staking.v1beta1.Commission`; read at `/repo/src/types/query_msg.rs` 430-434. -/
def Commission.toBytes (m : Commission) : Bytes := encFields m.enc
/-- `Commission::decode`. `cosmos.staking.v1beta1.Commission`; read at `/repo/src/types/query_msg.rs` 430-434. -/
def Commission.ofBytes (bs : Bytes) : Option Commission := (parseWire bs).bind Commission.dec
theorem Commission.ofBytes_toBytes (m : Commission) : Commission.ofBytes m.toBytes = some m := by
  simp [Commission.ofBytes, Commission.toBytes, parseWire_encFields m.valid, m.dec_enc]

/-- `cosmos.staking.v1beta1.Description`; part of what is read at `/repo/src/types/query_msg.rs` 424-442. -/
structure Description where
  moniker : String
  identity : String
  website : String
  securityContact : String
  details : String
  deriving DecidableEq

/-- Encode `Description`: `cosmos.staking.v1beta1.Description`; part of what is read at `/repo/src/types/query_msg.rs` 424-442. -/
def Description.enc (m : Description) : Fields :=
  tagged 1 (vStr m.moniker) ++
  tagged 2 (vStr m.identity) ++
  tagged 3 (vStr m.website) ++
  tagged 4 (vStr m.securityContact) ++
  tagged 5 (vStr m.details)

/-- Decode `Description` (unknown fields skipped): `cosmos.staking.v1beta1.Description`; part of what is read at `/repo/src/types/query_msg.rs` 424-442. -/
def Description.dec (fs : Fields) : Option Description :=
  match dStr (sel 1 fs) with
  | none => none
  | some x_moniker =>
  match dStr (sel 2 fs) with
  | none => none
  | some x_identity =>
  match dStr (sel 3 fs) with
  | none => none
  | some x_website =>
  match dStr (sel 4 fs) with
  | none => none
  | some x_securityContact =>
  match dStr (sel 5 fs) with
  | none => none
  | some x_details =>
  some ⟨x_moniker, x_identity, x_website, x_securityContact, x_details⟩

theorem Description.valid (m : Description) : Valid m.enc := by
  simp only [Description.enc, valid_append]
  repeat' apply And.intro
  all_goals exact valid_tagged (by constructor <;> decide) _

theorem Description.dec_enc (m : Description) : Description.dec m.enc = some m := by
  simp [Description.dec, Description.enc, sel_tagged_ne]

/-- `encode_to_vec`. `cosmos.staking.v1beta1.Description`; part of what is read at `/repo/src/types/query_msg.rs` 424-442. -/
def Description.toBytes (m : Description) : Bytes := encFields m.enc
/-- `Description::decode`. `cosmos.staking.v1beta1.Description`; part of what is read at `/repo/src/types/query_msg.rs` 424-442. -/
def Description.ofBytes (bs : Bytes) : Option Description := (parseWire bs).bind Description.dec
theorem Description.ofBytes_toBytes (m : Description) : Description.ofBytes m.toBytes = some m := by
  simp [Description.ofBytes, Description.toBytes, parseWire_encFields m.valid, m.dec_enc]

/-- `cosmos.staking.v1beta1.Validator` (signed numbers and the enum as their 64 bits on the wire); read at `/repo/src/types/query_msg.rs` 424-442. -/
structure Validator where
  operatorAddress : String
  consensusPubkey : Option Any
  jailed : Bool
  status : UInt64
  tokens : String
  delegatorShares : String
  description : Option Description
  unbondingHeight : UInt64
  unbondingTime : Option Timestamp
  commission : Option Commission
  minSelfDelegation : String
  unbondingOnHoldRefCount : UInt64
  unbondingIds : List UInt64
  deriving DecidableEq

/-- Encode `Validator`: `cosmos.staking.v1beta1.Validator` (signed numbers and the enum as their 64 bits on the wire); read at `/repo/src/types/query_msg.rs` 424-442. -/
def Validator.enc (m : Validator) : Fields :=
  tagged 1 (vStr m.operatorAddress) ++
  tagged 2 (vMsg (m.consensusPubkey.map Any.enc)) ++
  tagged 3 (vBool m.jailed) ++
  tagged 4 (vU64 m.status) ++
  tagged 5 (vStr m.tokens) ++
  tagged 6 (vStr m.delegatorShares) ++
  tagged 7 (vMsg (m.description.map Description.enc)) ++
  tagged 8 (vU64 m.unbondingHeight) ++
  tagged 9 (vMsg (m.unbondingTime.map Timestamp.enc)) ++
  tagged 10 (vMsg (m.commission.map Commission.enc)) ++
  tagged 11 (vStr m.minSelfDelegation) ++
  tagged 12 (vU64 m.unbondingOnHoldRefCount) ++
  tagged 13 (vPacked m.unbondingIds)

/-- Decode `Validator` (unknown fields skipped): `cosmos.staking.v1beta1.Validator` (signed numbers and the enum as their 64 bits on the wire); read at `/repo/src/types/query_msg.rs` 424-442. -/
def Validator.dec (fs : Fields) : Option Validator :=
  match dStr (sel 1 fs) with
  | none => none
  | some x_operatorAddress =>
  match dOpt Any.dec (sel 2 fs) with
  | none => none
  | some x_consensusPubkey =>
  match dBool (sel 3 fs) with
  | none => none
  | some x_jailed =>
  match dU64 (sel 4 fs) with
  | none => none
  | some x_status =>
  match dStr (sel 5 fs) with
  | none => none
  | some x_tokens =>
  match dStr (sel 6 fs) with
  | none => none
  | some x_delegatorShares =>
  match dOpt Description.dec (sel 7 fs) with
  | none => none
  | some x_description =>
  match dU64 (sel 8 fs) with
  | none => none
  | some x_unbondingHeight =>
  match dOpt Timestamp.dec (sel 9 fs) with
  | none => none
  | some x_unbondingTime =>
  match dOpt Commission.dec (sel 10 fs) with
  | none => none
  | some x_commission =>
  match dStr (sel 11 fs) with
  | none => none
  | some x_minSelfDelegation =>
  match dU64 (sel 12 fs) with
  | none => none
  | some x_unbondingOnHoldRefCount =>
  match dPacked (sel 13 fs) with
  | none => none
  | some x_unbondingIds =>
  some ⟨x_operatorAddress, x_consensusPubkey, x_jailed, x_status, x_tokens, x_delegatorShares, x_description, x_unbondingHeight, x_unbondingTime, x_commission, x_minSelfDelegation, x_unbondingOnHoldRefCount, x_unbondingIds⟩

theorem Validator.valid (m : Validator) : Valid m.enc := by
  simp only [Validator.enc, valid_append]
  repeat' apply And.intro
  all_goals exact valid_tagged (by constructor <;> decide) _

theorem Validator.dec_enc (m : Validator) : Validator.dec m.enc = some m := by
  simp [Validator.dec, Validator.enc, sel_tagged_ne, dOpt_vMsg Any.valid Any.dec_enc, dOpt_vMsg Description.valid Description.dec_enc, dOpt_vMsg Timestamp.valid Timestamp.dec_enc, dOpt_vMsg Commission.valid Commission.dec_enc]

/-- `encode_to_vec`. `cosmos.staking.v1beta1.Validator` (signed numbers and the enum as their 64 bits on the wire); read at `/repo/src/types/query_msg.rs` 424-442. -/
def Validator.toBytes (m : Validator) : Bytes := encFields m.enc
/-- `Validator::decode`. `cosmos.staking.v1beta1.Validator` (signed numbers and the enum as their 64 bits on the wire); read at `/repo/src/types/query_msg.rs` 424-442. -/
def Validator.ofBytes (bs : Bytes) : Option Validator := (parseWire bs).bind Validator.dec
theorem Validator.ofBytes_toBytes (m : Validator) : Validator.ofBytes m.toBytes = some m := by
  simp [Validator.ofBytes, Validator.toBytes, parseWire_encFields m.valid, m.dec_enc]

/-- `/repo/src/types/query_msg.rs` 583-588. -/
structure QueryValidatorResponse where
  validator : Option Validator
  deriving DecidableEq

/-- Encode `QueryValidatorResponse`: `/repo/src/types/query_msg.rs` 583-588. -/
def QueryValidatorResponse.enc (m : QueryValidatorResponse) : Fields :=
  tagged 1 (vMsg (m.validator.map Validator.enc))

/-- Decode `QueryValidatorResponse` (unknown fields skipped): `/repo/src/types/query_msg.rs` 583-588. -/
def QueryValidatorResponse.dec (fs : Fields) : Option QueryValidatorResponse :=
  match dOpt Validator.dec (sel 1 fs) with
  | none => none
  | some x_validator =>
  some ⟨x_validator⟩

theorem QueryValidatorResponse.valid (m : QueryValidatorResponse) : Valid m.enc := by
  simp only [QueryValidatorResponse.enc, valid_append]
  repeat' apply And.intro
  all_goals exact valid_tagged (by constructor <;> decide) _

theorem QueryValidatorResponse.dec_enc (m : QueryValidatorResponse) : QueryValidatorResponse.dec m.enc = some m := by
  simp [QueryValidatorResponse.dec, QueryValidatorResponse.enc, sel_tagged_ne, dOpt_vMsg Validator.valid Validator.dec_enc]

/-- `encode_to_vec`. `/repo/src/types/query_msg.rs` 583-588. -/
def QueryValidatorResponse.toBytes (m : QueryValidatorResponse) : Bytes := encFields m.enc
/-- `QueryValidatorResponse::decode`. `/repo/src/types/query_msg.rs` 583-588. -/
def QueryValidatorResponse.ofBytes (bs : Bytes) : Option QueryValidatorResponse := (parseWire bs).bind QueryValidatorResponse.dec
theorem QueryValidatorResponse.ofBytes_toBytes (m : QueryValidatorResponse) : QueryValidatorResponse.ofBytes m.toBytes = some m := by
  simp [QueryValidatorResponse.ofBytes, QueryValidatorResponse.toBytes, parseWire_encFields m.valid, m.dec_enc]

/-- `/repo/src/types/query_msg.rs` 589-599. -/
structure QueryValidatorsResponse where
  validators : List Validator
  pagination : Option PageResponse
  deriving DecidableEq

/-- Encode `QueryValidatorsResponse`: `/repo/src/types/query_msg.rs` 589-599. -/
def QueryValidatorsResponse.enc (m : QueryValidatorsResponse) : Fields :=
  tagged 1 (vMsgs (m.validators.map Validator.enc)) ++
  tagged 2 (vMsg (m.pagination.map PageResponse.enc))

/-- Decode `QueryValidatorsResponse` (unknown fields skipped): `/repo/src/types/query_msg.rs` 589-599. -/
def QueryValidatorsResponse.dec (fs : Fields) : Option QueryValidatorsResponse :=
  match dAll Validator.dec (sel 1 fs) with
  | none => none
  | some x_validators =>
  match dOpt PageResponse.dec (sel 2 fs) with
  | none => none
  | some x_pagination =>
  some ⟨x_validators, x_pagination⟩

theorem QueryValidatorsResponse.valid (m : QueryValidatorsResponse) : Valid m.enc := by
  simp only [QueryValidatorsResponse.enc, valid_append]
  repeat' apply And.intro
  all_goals exact valid_tagged (by constructor <;> decide) _

theorem QueryValidatorsResponse.dec_enc (m : QueryValidatorsResponse) : QueryValidatorsResponse.dec m.enc = some m := by
  simp [QueryValidatorsResponse.dec, QueryValidatorsResponse.enc, sel_tagged_ne, dAll_vMsgs Validator.valid Validator.dec_enc, dOpt_vMsg PageResponse.valid PageResponse.dec_enc]

/-- `encode_to_vec`. `/repo/src/types/query_msg.rs` 589-599. -/
def QueryValidatorsResponse.toBytes (m : QueryValidatorsResponse) : Bytes := encFields m.enc
/-- `QueryValidatorsResponse::decode`. `/repo/src/types/query_msg.rs` 589-599. -/
def QueryValidatorsResponse.ofBytes (bs : Bytes) : Option QueryValidatorsResponse := (parseWire bs).bind QueryValidatorsResponse.dec
theorem QueryValidatorsResponse.ofBytes_toBytes (m : QueryValidatorsResponse) : QueryValidatorsResponse.ofBytes m.toBytes = some m := by
  simp [QueryValidatorsResponse.ofBytes, QueryValidatorsResponse.toBytes, parseWire_encFields m.valid, m.dec_enc]

/-- `cosmos.staking.v1beta1.Delegation`; read at `/repo/src/types/query_msg.rs` 606-616. -/
structure Delegation where
  delegatorAddress : String
  validatorAddress : String
  shares : String
  deriving DecidableEq

/-- Encode `Delegation`: `cosmos.staking.v1beta1.Delegation`; read at `/repo/src/types/query_msg.rs` 606-616. -/
def Delegation.enc (m : Delegation) : Fields :=
  tagged 1 (vStr m.delegatorAddress) ++
  tagged 2 (vStr m.validatorAddress) ++
  tagged 3 (vStr m.shares)

/-- Decode `Delegation` (unknown fields skipped): `cosmos.staking.v1beta1.Delegation`; read at `/repo/src/types/query_msg.rs` 606-616. -/
def Delegation.dec (fs : Fields) : Option Delegation :=
  match dStr (sel 1 fs) with
  | none => none
  | some x_delegatorAddress =>
  match dStr (sel 2 fs) with
  | none => none
  | some x_validatorAddress =>
  match dStr (sel 3 fs) with
  | none => none
  | some x_shares =>
  some ⟨x_delegatorAddress, x_validatorAddress, x_shares⟩

theorem Delegation.valid (m : Delegation) : Valid m.enc := by
  simp only [Delegation.enc, valid_append]
  repeat' apply And.intro
  all_goals exact valid_tagged (by constructor <;> decide) _

theorem Delegation.dec_enc (m : Delegation) : Delegation.dec m.enc = some m := by
  simp [Delegation.dec, Delegation.enc, sel_tagged_ne]

/-- `encode_to_vec`. `cosmos.staking.v1beta1.Delegation`; read at `/repo/src/types/query_msg.rs` 606-616. -/
def Delegation.toBytes (m : Delegation) : Bytes := encFields m.enc
/-- `Delegation::decode`. `cosmos.staking.v1beta1.Delegation`; read at `/repo/src/types/query_msg.rs` 606-616. -/
def Delegation.ofBytes (bs : Bytes) : Option Delegation := (parseWire bs).bind Delegation.dec
theorem Delegation.ofBytes_toBytes (m : Delegation) : Delegation.ofBytes m.toBytes = some m := by
  simp [Delegation.ofBytes, Delegation.toBytes, parseWire_encFields m.valid, m.dec_enc]

/-- `cosmos.staking.v1beta1.DelegationResponse`; read at `/repo/src/types/query_msg.rs` 604-617. -/
structure DelegationResponse where
  delegation : Option Delegation
  balance : Option Coin
  deriving DecidableEq

/-- Encode `DelegationResponse`: `cosmos.staking.v1beta1.DelegationResponse`; read at `/repo/src/types/query_msg.rs` 604-617. -/
def DelegationResponse.enc (m : DelegationResponse) : Fields :=
  tagged 1 (vMsg (m.delegation.map Delegation.enc)) ++
  tagged 2 (vMsg (m.balance.map Coin.enc))

/-- Decode `DelegationResponse` (unknown fields skipped): `cosmos.staking.v1beta1.DelegationResponse`; read at `/repo/src/types/query_msg.rs` 604-617. -/
def DelegationResponse.dec (fs : Fields) : Option DelegationResponse :=
  match dOpt Delegation.dec (sel 1 fs) with
  | none => none
  | some x_delegation =>
  match dOpt Coin.dec (sel 2 fs) with
  | none => none
  | some x_balance =>
  some ⟨x_delegation, x_balance⟩

theorem DelegationResponse.valid (m : DelegationResponse) : Valid m.enc := by
  simp only [DelegationResponse.enc, valid_append]
  repeat' apply And.intro
  all_goals exact valid_tagged (by constructor <;> decide) _

theorem DelegationResponse.dec_enc (m : DelegationResponse) : DelegationResponse.dec m.enc = some m := by
  simp [DelegationResponse.dec, DelegationResponse.enc, sel_tagged_ne, dOpt_vMsg Delegation.valid Delegation.dec_enc, dOpt_vMsg Coin.valid Coin.dec_enc]

/-- `encode_to_vec`. `cosmos.staking.v1beta1.DelegationResponse`; read at `/repo/src/types/query_msg.rs` 604-617. -/
def DelegationResponse.toBytes (m : DelegationResponse) : Bytes := encFields m.enc
/-- `DelegationResponse::decode`. `cosmos.staking.v1beta1.DelegationResponse`; read at `/repo/src/types/query_msg.rs` 604-617. -/
def DelegationResponse.ofBytes (bs : Bytes) : Option DelegationResponse := (parseWire bs).bind DelegationResponse.dec
theorem DelegationResponse.ofBytes_toBytes (m : DelegationResponse) : DelegationResponse.ofBytes m.toBytes = some m := by
  simp [DelegationResponse.ofBytes, DelegationResponse.toBytes, parseWire_encFields m.valid, m.dec_enc]

/-- `/repo/src/types/query_msg.rs` 600-620. -/
structure QueryDelegationResponse where
  delegationResponse : Option DelegationResponse
  deriving DecidableEq

/-- Encode `QueryDelegationResponse`: `/repo/src/types/query_msg.rs` 600-620. -/
def QueryDelegationResponse.enc (m : QueryDelegationResponse) : Fields :=
  tagged 1 (vMsg (m.delegationResponse.map DelegationResponse.enc))

/-- Decode `QueryDelegationResponse` (unknown fields skipped): `/repo/src/types/query_msg.rs` 600-620. -/
def QueryDelegationResponse.dec (fs : Fields) : Option QueryDelegationResponse :=
  match dOpt DelegationResponse.dec (sel 1 fs) with
  | none => none
  | some x_delegationResponse =>
  some ⟨x_delegationResponse⟩

theorem QueryDelegationResponse.valid (m : QueryDelegationResponse) : Valid m.enc := by
  simp only [QueryDelegationResponse.enc, valid_append]
  repeat' apply And.intro
  all_goals exact valid_tagged (by constructor <;> decide) _

theorem QueryDelegationResponse.dec_enc (m : QueryDelegationResponse) : QueryDelegationResponse.dec m.enc = some m := by
  simp [QueryDelegationResponse.dec, QueryDelegationResponse.enc, sel_tagged_ne, dOpt_vMsg DelegationResponse.valid DelegationResponse.dec_enc]

/-- `encode_to_vec`. `/repo/src/types/query_msg.rs` 600-620. -/
def QueryDelegationResponse.toBytes (m : QueryDelegationResponse) : Bytes := encFields m.enc
/-- `QueryDelegationResponse::decode`. `/repo/src/types/query_msg.rs` 600-620. -/
def QueryDelegationResponse.ofBytes (bs : Bytes) : Option QueryDelegationResponse := (parseWire bs).bind QueryDelegationResponse.dec
theorem QueryDelegationResponse.ofBytes_toBytes (m : QueryDelegationResponse) : QueryDelegationResponse.ofBytes m.toBytes = some m := by
  simp [QueryDelegationResponse.ofBytes, QueryDelegationResponse.toBytes, parseWire_encFields m.valid, m.dec_enc]

/-- `/repo/src/types/query_msg.rs` 621-642. -/
structure QueryDelegatorDelegationsResponse where
  delegationResponses : List DelegationResponse
  pagination : Option PageResponse
  deriving DecidableEq

/-- Encode `QueryDelegatorDelegationsResponse`: `/repo/src/types/query_msg.rs` 621-642. -/
def QueryDelegatorDelegationsResponse.enc (m : QueryDelegatorDelegationsResponse) : Fields :=
  tagged 1 (vMsgs (m.delegationResponses.map DelegationResponse.enc)) ++
  tagged 2 (vMsg (m.pagination.map PageResponse.enc))

/-- Decode `QueryDelegatorDelegationsResponse` (unknown fields skipped): `/repo/src/types/query_msg.rs` 621-642. -/
def QueryDelegatorDelegationsResponse.dec (fs : Fields) : Option QueryDelegatorDelegationsResponse :=
  match dAll DelegationResponse.dec (sel 1 fs) with
  | none => none
  | some x_delegationResponses =>
  match dOpt PageResponse.dec (sel 2 fs) with
  | none => none
  | some x_pagination =>
  some ⟨x_delegationResponses, x_pagination⟩

theorem QueryDelegatorDelegationsResponse.valid (m : QueryDelegatorDelegationsResponse) : Valid m.enc := by
  simp only [QueryDelegatorDelegationsResponse.enc, valid_append]
  repeat' apply And.intro
  all_goals exact valid_tagged (by constructor <;> decide) _

theorem QueryDelegatorDelegationsResponse.dec_enc (m : QueryDelegatorDelegationsResponse) : QueryDelegatorDelegationsResponse.dec m.enc = some m := by
  simp [QueryDelegatorDelegationsResponse.dec, QueryDelegatorDelegationsResponse.enc, sel_tagged_ne, dAll_vMsgs DelegationResponse.valid DelegationResponse.dec_enc, dOpt_vMsg PageResponse.valid PageResponse.dec_enc]

/-- `encode_to_vec`. `/repo/src/types/query_msg.rs` 621-642. -/
def QueryDelegatorDelegationsResponse.toBytes (m : QueryDelegatorDelegationsResponse) : Bytes := encFields m.enc
/-- `QueryDelegatorDelegationsResponse::decode`. `/repo/src/types/query_msg.rs` 621-642. -/
def QueryDelegatorDelegationsResponse.ofBytes (bs : Bytes) : Option QueryDelegatorDelegationsResponse := (parseWire bs).bind QueryDelegatorDelegationsResponse.dec
theorem QueryDelegatorDelegationsResponse.ofBytes_toBytes (m : QueryDelegatorDelegationsResponse) : QueryDelegatorDelegationsResponse.ofBytes m.toBytes = some m := by
  simp [QueryDelegatorDelegationsResponse.ofBytes, QueryDelegatorDelegationsResponse.toBytes, parseWire_encFields m.valid, m.dec_enc]

/-- `cosmos.staking.v1beta1.Params`; read at `/repo/src/types/query_msg.rs` 643-652. -/
structure Params where
  unbondingTime : Option Timestamp
  maxValidators : UInt32
  maxEntries : UInt32
  historicalEntries : UInt32
  bondDenom : String
  minCommissionRate : String
  deriving DecidableEq

/-- Encode `Params`: `cosmos.staking.v1beta1.Params`; read at `/repo/src/types/query_msg.rs` 643-652. -/
def Params.enc (m : Params) : Fields :=
  tagged 1 (vMsg (m.unbondingTime.map Timestamp.enc)) ++
  tagged 2 (vU64 m.maxValidators.toUInt64) ++
  tagged 3 (vU64 m.maxEntries.toUInt64) ++
  tagged 4 (vU64 m.historicalEntries.toUInt64) ++
  tagged 5 (vStr m.bondDenom) ++
  tagged 6 (vStr m.minCommissionRate)

/-- Decode `Params` (unknown fields skipped): `cosmos.staking.v1beta1.Params`; read at `/repo/src/types/query_msg.rs` 643-652. -/
def Params.dec (fs : Fields) : Option Params :=
  match dOpt Timestamp.dec (sel 1 fs) with
  | none => none
  | some x_unbondingTime =>
  match dU32 (sel 2 fs) with
  | none => none
  | some x_maxValidators =>
  match dU32 (sel 3 fs) with
  | none => none
  | some x_maxEntries =>
  match dU32 (sel 4 fs) with
  | none => none
  | some x_historicalEntries =>
  match dStr (sel 5 fs) with
  | none => none
  | some x_bondDenom =>
  match dStr (sel 6 fs) with
  | none => none
  | some x_minCommissionRate =>
  some ⟨x_unbondingTime, x_maxValidators, x_maxEntries, x_historicalEntries, x_bondDenom, x_minCommissionRate⟩

theorem Params.valid (m : Params) : Valid m.enc := by
  simp only [Params.enc, valid_append]
  repeat' apply And.intro
  all_goals exact valid_tagged (by constructor <;> decide) _

theorem Params.dec_enc (m : Params) : Params.dec m.enc = some m := by
  simp [Params.dec, Params.enc, sel_tagged_ne, dOpt_vMsg Timestamp.valid Timestamp.dec_enc, dU32_vU64]

/-- `encode_to_vec`. `cosmos.staking.v1beta1.Params`; read at `/repo/src/types/query_msg.rs` 643-652. -/
def Params.toBytes (m : Params) : Bytes := encFields m.enc
/-- `Params::decode`. `cosmos.staking.v1beta1.Params`; read at `/repo/src/types/query_msg.rs` 643-652. -/
def Params.ofBytes (bs : Bytes) : Option Params := (parseWire bs).bind Params.dec
theorem Params.ofBytes_toBytes (m : Params) : Params.ofBytes m.toBytes = some m := by
  simp [Params.ofBytes, Params.toBytes, parseWire_encFields m.valid, m.dec_enc]

/-- `/repo/src/types/query_msg.rs` 643-652. -/
structure QueryParamsResponse where
  params : Option Params
  deriving DecidableEq

/-- Encode `QueryParamsResponse`: `/repo/src/types/query_msg.rs` 643-652. -/
def QueryParamsResponse.enc (m : QueryParamsResponse) : Fields :=
  tagged 1 (vMsg (m.params.map Params.enc))

/-- Decode `QueryParamsResponse` (unknown fields skipped): `/repo/src/types/query_msg.rs` 643-652. -/
def QueryParamsResponse.dec (fs : Fields) : Option QueryParamsResponse :=
  match dOpt Params.dec (sel 1 fs) with
  | none => none
  | some x_params =>
  some ⟨x_params⟩

theorem QueryParamsResponse.valid (m : QueryParamsResponse) : Valid m.enc := by
  simp only [QueryParamsResponse.enc, valid_append]
  repeat' apply And.intro
  all_goals exact valid_tagged (by constructor <;> decide) _

theorem QueryParamsResponse.dec_enc (m : QueryParamsResponse) : QueryParamsResponse.dec m.enc = some m := by
  simp [QueryParamsResponse.dec, QueryParamsResponse.enc, sel_tagged_ne, dOpt_vMsg Params.valid Params.dec_enc]

/-- `encode_to_vec`. `/repo/src/types/query_msg.rs` 643-652. -/
def QueryParamsResponse.toBytes (m : QueryParamsResponse) : Bytes := encFields m.enc
/-- `QueryParamsResponse::decode`. `/repo/src/types/query_msg.rs` 643-652. -/
def QueryParamsResponse.ofBytes (bs : Bytes) : Option QueryParamsResponse := (parseWire bs).bind QueryParamsResponse.dec
theorem QueryParamsResponse.ofBytes_toBytes (m : QueryParamsResponse) : QueryParamsResponse.ofBytes m.toBytes = some m := by
  simp [QueryParamsResponse.ofBytes, QueryParamsResponse.toBytes, parseWire_encFields m.valid, m.dec_enc]

end P
end Ica
