import Verif.Facts.Api

/-! # What the codecs write (helper lemmas for C70) -/
namespace Ica
open Format Api

/-- The codec writes trees of the relation. -/
def Writes {α : Type} (c : JC α) (r : α → Json → Prop) : Prop := ∀ x, r x (c.enc x)

theorem writes_nat (n : Nat) : QuotedNatural n (.str (decString n)) :=
  ⟨_, rfl, by simp only [decString, String.toList_ofList]; exact isNatural_decChars n⟩
theorem writes_u64 : Writes jcUint64 (fun n => QuotedNatural n.toNat) := fun n => writes_nat n.toNat
theorem writes_base64 : Writes jcBin QuotedBase64 := fun b =>
  ⟨_, rfl, by simp only [String.toList_ofList]; exact isBase64_b64Enc b⟩
theorem writes_many {α : Type} {c : JC α} {r : α → Json → Prop} (h : Writes c r) : Writes (jcList c) (WritesMany r) := by
  intro l
  refine ⟨_, rfl, ?_⟩
  rw [List.forall₂_map_right_iff, List.forall₂_same]
  exact fun x _ => h x
theorem writes_opt {α : Type} {c : JC α} {r : α → Json → Prop} (h : Writes c r) : Writes (jcOpt c) (NullOr r) := by
  intro o; cases o with
  | none => rfl
  | some x => exact h x
theorem enc_opt {α : Type} {c : JC α} {f : α → Json} (h : ∀ x, c.enc x = f x) (o : Option α) : (jcOpt c).enc o = orNull f o := by
  cases o with
  | none => rfl
  | some x => exact h x
theorem enc_list {α : Type} {c : JC α} {f : α → Json} (h : ∀ x, c.enc x = f x) (l : List α) : (jcList c).enc l = .arr (l.map f) := by
  simp only [jcList, Json.arr.injEq]
  exact List.map_congr_left fun x _ => h x

theorem trimZeros_last (cs : List Char) : (trimZeros cs).getLast? ≠ some '0' := by
  unfold trimZeros
  rw [List.getLast?_reverse]
  intro h
  have := List.head?_dropWhile_not (fun c => c == '0') cs.reverse
  rw [h] at this
  simp at this

theorem writes_decimal : Writes jcDecimal WritesDecimal := by
  intro d
  have e18 : decimalFractional = 10 ^ 18 := by decide
  unfold WritesDecimal
  simp only [jcDecimal, Decimal.toString, Decimal.chars, decimalChars, ← e18]
  refine ⟨_, decChars (d.atomics.val / decimalFractional), rfl, isNatural_decChars _, ?_⟩
  simp only [String.toList_ofList]
  by_cases h : d.atomics.val % decimalFractional = 0
  · exact Or.inl ⟨h, by rw [if_pos h]⟩
  · right
    rw [if_neg h]
    have hlt : d.atomics.val % decimalFractional < 10 ^ 18 := by rw [e18]; exact Nat.mod_lt _ (by decide)
    obtain ⟨v, h1, h2, h3, h4, h5⟩ := frac_text h (decChars_length (by decide) hlt)
    refine ⟨_, h4, fun c hc => (isDigit_iff c).mp (h5 c hc), h3, trimZeros_last _, rfl, ?_⟩
    have hv : v = decimal (trimZeros (pad18 (decChars (d.atomics.val % decimalFractional)))) := by
      rw [parseDigits_eq h5] at h1
      exact (Option.some.inj h1).symm
    rw [← hv]
    exact h2.symm

theorem enc_endpoint (e : IbcEndpoint) : IbcEndpoint.jc.enc e = endpointJson e := rfl
theorem enc_order (o : IbcOrder) : IbcOrder.jc.enc o = .str (orderName o) := by cases o <;> rfl
theorem enc_encoding (e : TxEncoding) : TxEncoding.jc.enc e = .str (encodingName e) := by cases e <;> rfl
theorem enc_status (s : ChannelStatus) : ChannelStatus.jc.enc s = .str (statusName s) := by cases s <;> rfl
theorem enc_channel (c : IbcChannel) : IbcChannel.jc.enc c = channelJson c := by
  simp only [IbcChannel.jc, channelJson, enc_order, enc_endpoint]; rfl
theorem enc_text (s : String) : jcStr.enc s = .str s := rfl
theorem enc_textOpt (o : Option String) : (jcOpt jcStr).enc o = textOrNull o := enc_opt enc_text o

theorem enc_contractState (s : ContractState) : ContractState.jc.enc s = contractStateJson s := by
  simp only [ContractState.jc, contractStateJson, enc_textOpt]
  congr 3
  rw [enc_opt (f := fun (i : IcaInfo) => .obj [("ica_address", .str i.icaAddress), ("channel_id", .str i.channelId),
    ("encoding", .str (encodingName i.encoding))])]
  intro i
  simp only [IcaInfo.jc, enc_encoding, enc_text]
theorem enc_channelState (s : ChannelState) : ChannelState.jc.enc s = channelStateJson s := by
  simp only [ChannelState.jc, channelStateJson, enc_channel, enc_status]

theorem writes_expiry : Writes Expiration.jc WritesExpiry := by
  intro e; cases e with
  | atHeight h => rfl
  | atTime t => exact ⟨_, writes_u64 t, rfl⟩
  | never => rfl
theorem writes_ownership : Writes Ownership.jc WritesOwnership := by
  intro o
  refine ⟨_, writes_opt writes_expiry o.pendingExpiry, ?_⟩
  simp only [Ownership.jc, enc_textOpt]

theorem enc_block (b : IbcTimeoutBlock) :
    IbcTimeoutBlock.jc.enc b = .obj [("revision", .num b.revision.toNat), ("height", .num b.height.toNat)] := rfl
theorem writes_timeout : Writes IbcTimeout.jc WritesTimeout := by
  intro t
  refine ⟨_, writes_opt writes_u64 t.timestamp, ?_⟩
  simp only [IbcTimeout.jc, enc_opt enc_block]
theorem writes_packet : Writes IbcPacket.jc WritesPacket := by
  intro p
  exact ⟨_, _, writes_base64 p.data, writes_timeout p.timeout, rfl⟩
theorem writes_ack : Writes AckData.jc WritesAck := by
  intro a; cases a with
  | result b => exact ⟨_, writes_base64 b, rfl⟩
  | error e => rfl

theorem writes_coin : Writes Coin.jc WritesCoin := fun c => ⟨_, writes_nat c.amount.val, rfl⟩
theorem enc_unit (u : DenomUnit) : DenomUnit.jc.enc u =
    .obj [("denom", .str u.denom), ("exponent", .num u.exponent.toNat), ("aliases", .arr (u.aliases.map .str))] := by
  simp only [DenomUnit.jc, enc_list enc_text]; rfl
theorem enc_metadata (m : DenomMetadata) : DenomMetadata.jc.enc m = denomMetadataJson m := by
  simp only [DenomMetadata.jc, denomMetadataJson, enc_list enc_unit, enc_text]
theorem writes_bank : Writes BankQueryResponse.jc WritesBank := by
  intro r; cases r with
  | supply x => exact ⟨_, writes_coin _, rfl⟩
  | balance x => exact ⟨_, writes_coin _, rfl⟩
  | allBalances x => exact ⟨_, writes_many writes_coin _, rfl⟩
  | denomMetadata x =>
    simp only [WritesBank, BankQueryResponse.jc, DenomMetadataResponse.jc, enc_metadata]
  | allDenomMetadata x =>
    refine ⟨_, writes_opt writes_base64 x.nextKey, ?_⟩
    simp only [BankQueryResponse.jc, AllDenomMetadataResponse.jc, enc_list enc_metadata]
theorem enc_info (c : ContractInfoResponse) : ContractInfoResponse.jc.enc c = .obj [("code_id", .num c.codeId.toNat),
      ("creator", .str c.creator), ("admin", textOrNull c.admin), ("pinned", .bool c.pinned), ("ibc_port", textOrNull c.ibcPort)] := by
  simp only [ContractInfoResponse.jc, enc_textOpt]; rfl
theorem hexText_spec (bs : Bytes) : hexText bs = bs.flatMap fun b =>
    [("0123456789abcdef".toList)[b.toNat / 16]?.getD ' ', ("0123456789abcdef".toList)[b.toNat % 16]?.getD ' '] := by
  have key : ∀ m : Fin 16, hexLower m.val = (("0123456789abcdef".toList)[m.val]?.getD ' ') := by decide
  induction bs with
  | nil => rfl
  | cons b bs ih =>
    have hb : b.toNat < 256 := b.toNat_lt
    have h1 := key ⟨b.toNat / 16, by omega⟩
    have h2 := key ⟨b.toNat % 16, by omega⟩
    dsimp only at h1 h2
    rw [hexText, List.flatMap_cons, ih, h1, h2]; rfl
theorem writes_checksum : Writes jcChecksum WritesChecksum := fun c =>
  ⟨_, rfl, by rw [String.toList_ofList]; exact hexText_spec _⟩
theorem writes_wasm : Writes WasmQueryResponse.jc WritesWasm := by
  intro r; cases r with
  | contractInfo o => simp only [WritesWasm, WasmQueryResponse.jc, enc_opt enc_info]
  | codeInfo o =>
    refine ⟨_, writes_opt (c := CodeInfoResponse.jc) (fun c => ⟨_, writes_checksum c.checksum, rfl⟩) o, rfl⟩
  | rawContractState o => exact ⟨_, writes_opt writes_base64 o, rfl⟩
  | smartContractState x => exact ⟨_, writes_base64 x, rfl⟩
theorem writes_delegation : Writes Delegation.jc WritesDelegation := fun d => ⟨_, writes_coin d.amount, rfl⟩
theorem writes_validator : Writes Validator.jc WritesValidator := fun v =>
  ⟨_, _, _, writes_decimal v.commission, writes_decimal v.maxCommission, writes_decimal v.maxChangeRate, rfl⟩
theorem writes_staking : Writes StakingQueryResponse.jc WritesStaking := by
  intro r; cases r with
  | bondedDenom x => rfl
  | allDelegations x => exact ⟨_, writes_many writes_delegation _, rfl⟩
  | delegation x => exact ⟨_, writes_opt writes_delegation _, rfl⟩
  | allValidators x => exact ⟨_, writes_many writes_validator _, rfl⟩
  | validator x => exact ⟨_, writes_opt writes_validator _, rfl⟩
theorem writes_response : Writes IcaQueryResponse.jc WritesResponse := by
  intro r; cases r with
  | bank x => exact ⟨_, writes_bank x, rfl⟩
  | stargate d p => exact ⟨_, writes_base64 d, rfl⟩
  | wasm x => exact ⟨_, writes_wasm x, rfl⟩
  | staking x => exact ⟨_, writes_staking x, rfl⟩
theorem writes_result : Writes IcaQueryResult.jc WritesResult := by
  intro r; cases r with
  | success h rs => exact ⟨_, writes_many writes_response rs, rfl⟩
  | error e => rfl

theorem writes_callback (m : CallbackMsg) : WritesCallback m (ReceiverExecuteMsg.jc.enc (.receiveIcaCallback m)) := by
  refine ⟨_, rfl, ?_⟩
  cases m with
  | onAcknowledgementPacketCallback ack p relayer result =>
    refine ⟨_, _, writes_ack ack, writes_packet p, skipNone IcaQueryResult.jc "query_result" result, ?_, rfl⟩
    cases result with
    | none => rfl
    | some r => exact ⟨_, writes_result r, rfl⟩
  | onTimeoutPacketCallback p relayer => exact ⟨_, writes_packet p, rfl⟩
  | onChannelOpenAckCallback c addr e =>
    show Json.obj [("on_channel_open_ack_callback", .obj [("channel", IbcChannel.jc.enc c), ("ica_address", .str addr),
      ("tx_encoding", TxEncoding.jc.enc e)])] = _
    simp only [enc_channel, enc_encoding]

end Ica
