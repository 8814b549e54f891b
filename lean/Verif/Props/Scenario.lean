import Verif.Facts.Tx

/-!
# A concrete scenario

Worlds of one concrete deployment, each proved reachable, used by the `example`s beside the property theorems
and by the counterexamples. Nothing here is used in a proof of a positive property.
-/
namespace Ica.Ex

/-- The effects of the steps used below, as functions (same terms as in `Step`). -/
def eInst (w : World) (sender : String) (msg : InstantiateMsg) (fresh : String) : World :=
  { w with
    live := true
    store := { w.store with
      version := some ⟨CONTRACT_NAME, CONTRACT_VERSION⟩
      ownership := some ⟨some (msg.owner.getD sender), none, none⟩
      state := some ⟨none, msg.sendCallbacksTo⟩
      options := some msg.channelOpenInitOptions
      allowOpenInit := some false }
    chans := setChan w.chans fresh
      ⟨proposalChannel w.env.contractAddr fresh msg.channelOpenInitOptions, .init⟩ }
/-- Creating a channel. -/
def eCreate (w : World) (fresh : String) (o : ChannelOpenInitOptions) : World :=
  { w with
    store := { w.store with options := some o, allowOpenInit := some false }
    chans := setChan w.chans fresh ⟨proposalChannel w.env.contractAddr fresh o, .init⟩ }
/-- OpenAck. -/
def eAck (w : World) (st : ContractState) (id cpId v : String) (c : ChainChan) (m : IcaMetadata) : World :=
  { w with
    store := { w.store with
      state := some { st with icaInfo := some ⟨m.address, c.chan.endpoint.channelId, m.encoding⟩ }
      channel := some ⟨ackedChan c.chan cpId v, .opened⟩ }
    chans := setChan w.chans id ⟨ackedChan c.chan cpId v, .opened⟩ }
/-- Closing. -/
def eClose (w : World) (c : ChainChan) : World :=
  { w with
    store := { w.store with allowCloseInit := some false, channel := some ⟨c.chan, .closed⟩ }
    chans := setChan w.chans c.chan.endpoint.channelId ⟨c.chan, .closed⟩ }
/-- The counterparty closed. -/
def eConfirm (w : World) (id : String) (c : ChainChan) : World :=
  { w with
    store := { w.store with channel := some ⟨c.chan, .closed⟩ }
    chans := setChan w.chans id ⟨c.chan, .closed⟩ }
/-- Sending. -/
def eSend (w : World) (info : IcaInfo) (qs : List QueryRequest) (cqs : List (String × Bytes × Bool))
    (p : IbcPacket) : World :=
  { w with
    store := storeAfterSend w.store info.channelId (UInt64.ofNat (w.nextSeq info.channelId)) qs cqs
    nextSeq := setSeq w.nextSeq info.channelId (w.nextSeq info.channelId + 1)
    commits := setCommit w.commits info.channelId (UInt64.ofNat (w.nextSeq info.channelId)) (some p) }
/-- Success acknowledgement. -/
def eAckOk (w : World) (id : String) (seq : UInt64) : World :=
  { w with
    store := { w.store with pending := setPending w.store.pending id seq none }
    commits := setCommit w.commits id seq none }
/-- Error acknowledgement. -/
def eAckErr (w : World) (id : String) (seq : UInt64) : World :=
  { w with commits := setCommit w.commits id seq none }
/-- Timeout. -/
def eTimeout (w : World) (id : String) (seq : UInt64) (c : ChainChan) (cs : ChannelState) : World :=
  { w with
    store := { w.store with
      channel := some (if cs.channel.order = .ordered then ⟨cs.channel, .closed⟩ else cs)
      pending := setPending w.store.pending id seq none }
    commits := setCommit w.commits id seq none
    chans := if c.chan.order = .ordered then setChan w.chans id ⟨c.chan, .closed⟩ else w.chans }

/-- Addresses are valid when non-empty; no non-ASCII character is alphanumeric. -/
def api : Api := ⟨fun s => s != "", fun _ => false⟩
/-- Address and block of the contract. -/
def env : Env := ⟨"wasm1controller", 100, 1700000000000000000⟩
/-- Options of the first channel. -/
def opts : ChannelOpenInitOptions := ⟨"connection-0", "connection-7", none, none⟩
/-- Options of later channels: unordered. -/
def opts' : ChannelOpenInitOptions := ⟨"connection-0", "connection-7", some "icahost", some .unordered⟩
/-- Instantiation by alice's deployer, with callbacks. -/
def inst : InstantiateMsg := ⟨some "alice", opts, some "cb"⟩
/-- What the host answers in the handshake. -/
def meta0 : IcaMetadata := ⟨"ics27-1", "connection-0", "connection-7", "cosmos1ica", .protobuf, "sdk_multi_msg"⟩
/-- Its JSON text. -/
def ver : String := meta0.display
/-- ICA info after the handshake of a channel. -/
def info (id : String) : IcaInfo := ⟨"cosmos1ica", id, .protobuf⟩
/-- Contract state after the handshake. -/
def st (id : String) : ContractState := ⟨some (info id), some "cb"⟩
/-- The channel as proposed. -/
def prop (id : String) (o : ChannelOpenInitOptions) : IbcChannel := proposalChannel "wasm1controller" id o
/-- The channel once open. -/
def chan (id : String) (o : ChannelOpenInitOptions) : IbcChannel := ackedChan (prop id o) "channel-5" ver

/-- The messages and queries that are sent. -/
def msgs : List CosmosMsg := [.bank (.send "cosmos1bob" [⟨"uatom", ⟨5, by decide⟩⟩]), .stargate "/x.Y" [1, 2]]
/-- One query. -/
def qs : List QueryRequest := [.bank (.balance "cosmos1bob" "uatom"), .stargate "/z.Q/W" [7]]
/-- The converted messages. -/
def anys : List P.Any :=
  [⟨"/cosmos.bank.v1beta1.MsgSend", P.MsgSend.toBytes ⟨"cosmos1ica", "cosmos1bob", [⟨"uatom", decString 5⟩]⟩⟩,
   ⟨"/x.Y", [1, 2]⟩]
/-- The converted queries. -/
def cqs : List (String × Bytes × Bool) :=
  [(Path.balance, P.QueryBalanceRequest.toBytes ⟨"cosmos1bob", "uatom"⟩, false), ("/z.Q/W", [7], true)]
/-- The packet. -/
def pkt : IbcPacket :=
  ⟨IcaPacketData.jc.toBytes (.fromProtoAnys (packetAnys "cosmos1ica" anys cqs) (some "hi")),
    ⟨portOf "wasm1controller", "channel-0"⟩, ⟨"icahost", "channel-5"⟩, 1, ⟨none, some 1700000600000000000⟩⟩

/-- Before the instantiation. -/
def w0 : World := World.genesis env
/-- Instantiated: channel-0 is proposed. -/
def w1 : World := eInst w0 "deployer" inst "channel-0"
/-- channel-0 is open. -/
def w2 : World := eAck w1 ⟨none, some "cb"⟩ "channel-0" "channel-5" ver ⟨prop "channel-0" opts, .init⟩ meta0
/-- A packet with queries is in flight. -/
def w3 : World := eSend w2 (info "channel-0") qs cqs pkt
/-- It is acknowledged with an error. -/
def w4e : World := eAckErr w3 "channel-0" 1
/-- It times out. -/
def w4t : World := eTimeout w3 "channel-0" 1 ⟨chan "channel-0" opts, .opened⟩ ⟨chan "channel-0" opts, .opened⟩
/-- The owner closes the channel (no packet in flight). -/
def w5 : World := eClose w2 ⟨chan "channel-0" opts, .opened⟩
/-- The owner proposes an unordered channel-1. -/
def w6 : World := eCreate w5 "channel-1" opts'
/-- It opens. -/
def w7 : World := eAck w6 (st "channel-0") "channel-1" "channel-5" ver ⟨prop "channel-1" opts', .init⟩ meta0

/-- With the packet in flight, the counterparty closes channel-0. -/
def x1 : World := eConfirm w3 "channel-0" ⟨chan "channel-0" opts, .opened⟩
/-- The owner proposes channel-1 (ordered). -/
def x2 : World := eCreate x1 "channel-1" opts
/-- It opens. -/
def x3 : World := eAck x2 (st "channel-0") "channel-1" "channel-5" ver ⟨prop "channel-1" opts, .init⟩ meta0
/-- The packet of channel-0 times out. -/
def x4 : World := eTimeout x3 "channel-0" 1 ⟨chan "channel-0" opts, .closed⟩ ⟨chan "channel-1" opts, .opened⟩

/-- Right after the instantiation the owner proposes channel-1 too. -/
def y1 : World := eCreate w1 "channel-1" opts
/-- channel-0 opens. -/
def y2 : World := eAck y1 ⟨none, some "cb"⟩ "channel-0" "channel-5" ver ⟨prop "channel-0" opts, .init⟩ meta0
/-- channel-1 opens. -/
def y3 : World := eAck y2 (st "channel-0") "channel-1" "channel-5" ver ⟨prop "channel-1" opts, .init⟩ meta0

theorem goodAddr : ∀ c ∈ "cosmos1ica".toList, isAlphanumeric api c = true := by
  have h : ("cosmos1ica".toList.all (isAlphanumeric api)) = true := by decide +kernel
  simpa [List.all_eq_true] using h
theorem metaOk : MetaOk api meta0 "connection-0" where
  version := rfl
  connection := rfl
  encoding := rfl
  address := Or.inr ⟨by decide +kernel, goodAddr⟩
  txType := rfl
theorem metaNe : meta0.address ≠ "" := by decide +kernel
theorem verParse : IcaMetadata.parse ver = some meta0 := parse_display meta0

theorem toStep {w w' : World} {op : Op} {obs : List Obs} (hr : Reachable api w)
    (h : Step api w op w' obs) : Reachable api w' := hr.step ((apply_iff_step (inv_of_reachable hr)).2 h)

theorem r0 : Reachable api w0 := ⟨env, [], .nil⟩
theorem s1 : Step api w0 (.instantiate "deployer" inst "channel-0" true) w1 [.channelCreated "channel-0"] :=
  .instantiate _ _ _ rfl rfl (by decide +kernel) (by simp [inst, api]) rfl
theorem r1 : Reachable api w1 := toStep r0 s1
theorem s2 : Step api w1 (.relayOpenAck "channel-0" "channel-5" ver) w2
    (callObs (some "cb") (.onChannelOpenAckCallback (chan "channel-0" opts) "cosmos1ica" .protobuf)) :=
  .openAck _ _ _ ⟨prop "channel-0" opts, .init⟩ ⟨none, some "cb"⟩ meta0 (by simp [w1, eInst, setChan]; rfl) rfl rfl
    verParse metaOk metaNe
theorem r2 : Reachable api w2 := toStep r1 s2
theorem owner2 : IsOwner w2.store "alice" := ⟨_, rfl, rfl⟩
theorem s3 : Step api w2 (.execute "alice" (.sendCosmosMsgs msgs qs (some "hi") none) "" true) w3
    [.packetSent pkt] :=
  .send _ _ _ _ _ _ (st "channel-0") (info "channel-0") anys cqs ⟨chan "channel-0" opts, .opened⟩
    1700000600000000000 pkt rfl owner2 rfl rfl rfl rfl rfl (by decide +kernel)
    (by simp [w2, eAck, setChan, info]; rfl) rfl (by decide +kernel) (by rfl)
theorem r3 : Reachable api w3 := toStep r2 s3
theorem s5 : Step api w2 (.execute "alice" .closeChannel "" true) w5 [.channelClosed "channel-0"] :=
  .close _ _ ⟨chan "channel-0" opts, .opened⟩ rfl owner2 rfl
    (by simp [w2, eAck, setChan, chan, prop, ackedChan, proposalChannel]) rfl
theorem r5 : Reachable api w5 := toStep r2 s5
theorem s6 : Step api w5 (.execute "alice" (.createChannel (some opts')) "channel-1" true) w6
    [.channelCreated "channel-1"] :=
  .create _ _ _ opts' rfl ⟨_, rfl, rfl⟩ (by simp [w5, eClose, setChan, chan, prop, ackedChan, proposalChannel, w2,
    eAck, w1, eInst, w0, World.genesis]) (by simp [w5, eClose]) rfl rfl
theorem r6 : Reachable api w6 := toStep r5 s6
theorem s7 : Step api w6 (.relayOpenAck "channel-1" "channel-5" ver) w7
    (callObs (some "cb") (.onChannelOpenAckCallback (chan "channel-1" opts') "cosmos1ica" .protobuf)) :=
  .openAck _ _ _ ⟨prop "channel-1" opts', .init⟩ (st "channel-0") meta0 (by simp [w6, eCreate, setChan]; rfl) rfl rfl
    verParse metaOk metaNe
theorem r7 : Reachable api w7 := toStep r6 s7

theorem seq0 : UInt64.ofNat (w2.nextSeq "channel-0") = 1 := rfl
theorem commit3 : w3.commits "channel-0" 1 = some pkt := by
  simp [w3, eSend, setCommit, info, seq0]
theorem chan3 : w3.chans "channel-0" = some ⟨chan "channel-0" opts, .opened⟩ := by
  simp [w3, eSend, w2, eAck, setChan]; rfl
theorem cb3 : w3.store.state = some (st "channel-0") := by
  simp only [w3, eSend, storeAfterSend]
  rw [if_neg (by decide)]
  rfl
theorem channel3 : w3.store.channel = some ⟨chan "channel-0" opts, .opened⟩ := by
  simp only [w3, eSend, storeAfterSend]
  rw [if_neg (by decide)]
  rfl
theorem pending3 : w3.store.pending "channel-0" 1 = some [(Path.balance, false), ("/z.Q/W", true)] := by
  simp only [w3, eSend, storeAfterSend]
  rw [if_neg (by decide)]
  simp [setPending, info, seq0, queryPaths, cqs]

/-- An error acknowledgement. -/
def errAck : Bytes := AckData.jc.toBytes (.error "out of gas")
theorem s4e : Step api w3 (.relayAck "channel-0" 1 errAck "relayer") w4e
    (.event (ackErrorEvent pkt "out of gas") :: callObs (some "cb")
      (.onAcknowledgementPacketCallback (.error "out of gas") pkt "relayer" (some (.error "out of gas")))) :=
  .ackErr _ _ _ _ _ _ (st "channel-0") _ commit3 chan3 rfl cb3 (JC.ofBytes_toBytes AckData.jc_law _)
theorem r4e : Reachable api w4e := toStep r3 s4e
theorem s4t : Step api w3 (.relayTimeout "channel-0" 1 "relayer") w4t
    (callObs (some "cb") (.onTimeoutPacketCallback pkt "relayer")) :=
  .timeout _ _ _ _ _ (st "channel-0") _ commit3 chan3 cb3 channel3
theorem r4t : Reachable api w4t := toStep r3 s4t

theorem t1 : Step api w3 (.relayCloseConfirm "channel-0") x1 [.channelClosed "channel-0"] :=
  .closeConfirm _ _ chan3 rfl channel3
theorem rx1 : Reachable api x1 := toStep r3 t1
theorem storeOwner3 : w3.store.ownership = some ⟨some "alice", none, none⟩ := by
  simp only [w3, eSend, storeAfterSend]
  rw [if_neg (by decide)]
  rfl
theorem options3 : w3.store.options = some opts := by
  simp only [w3, eSend, storeAfterSend]
  rw [if_neg (by decide)]
  rfl
theorem t2 : Step api x1 (.execute "alice" (.createChannel none) "channel-1" true) x2
    [.channelCreated "channel-1"] :=
  .create _ _ _ opts rfl ⟨_, storeOwner3, rfl⟩ (by simp [x1, eConfirm, setChan, w3, eSend, w2,
    eAck, w1, eInst, w0, World.genesis]) (by simp [x1, eConfirm]) options3 rfl
theorem rx2 : Reachable api x2 := toStep rx1 t2
theorem t3 : Step api x2 (.relayOpenAck "channel-1" "channel-5" ver) x3
    (callObs (some "cb") (.onChannelOpenAckCallback (chan "channel-1" opts) "cosmos1ica" .protobuf)) :=
  .openAck _ _ _ ⟨prop "channel-1" opts, .init⟩ (st "channel-0") meta0 (by simp [x2, eCreate, setChan]; rfl) rfl cb3
    verParse metaOk metaNe
theorem rx3 : Reachable api x3 := toStep rx2 t3
theorem t4 : Step api x3 (.relayTimeout "channel-0" 1 "relayer") x4
    (callObs (some "cb") (.onTimeoutPacketCallback pkt "relayer")) :=
  .timeout _ _ _ _ ⟨chan "channel-0" opts, .closed⟩ (st "channel-1") ⟨chan "channel-1" opts, .opened⟩ commit3
    (by simp [x3, eAck, x2, eCreate, x1, eConfirm, setChan]) rfl rfl
theorem rx4 : Reachable api x4 := toStep rx3 t4

theorem u1 : Step api w1 (.execute "alice" (.createChannel none) "channel-1" true) y1
    [.channelCreated "channel-1"] :=
  .create _ _ _ opts rfl ⟨_, rfl, rfl⟩ (by simp [w1, eInst, setChan, w0, World.genesis])
    (fun c h => by cases h) rfl rfl
theorem ry1 : Reachable api y1 := toStep r1 u1
theorem u2 : Step api y1 (.relayOpenAck "channel-0" "channel-5" ver) y2
    (callObs (some "cb") (.onChannelOpenAckCallback (chan "channel-0" opts) "cosmos1ica" .protobuf)) :=
  .openAck _ _ _ ⟨prop "channel-0" opts, .init⟩ ⟨none, some "cb"⟩ meta0
    (by simp [y1, eCreate, w1, eInst, setChan]; rfl) rfl rfl verParse metaOk metaNe
theorem ry2 : Reachable api y2 := toStep ry1 u2
theorem u3 : Step api y2 (.relayOpenAck "channel-1" "channel-5" ver) y3
    (callObs (some "cb") (.onChannelOpenAckCallback (chan "channel-1" opts) "cosmos1ica" .protobuf)) :=
  .openAck _ _ _ ⟨prop "channel-1" opts, .init⟩ (st "channel-0") meta0
    (by simp [y2, eAck, y1, eCreate, setChan]; rfl) rfl rfl verParse metaOk metaNe
theorem ry3 : Reachable api y3 := toStep ry2 u3

end Ica.Ex
