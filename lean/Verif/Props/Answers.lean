import Verif.Facts.History

/-!
# The scenario continued: acknowledgements

A success acknowledgement with query answers, and a packet without queries.
-/
namespace Ica.Ex
open Spec

/-- The host's answers to the scenario's two queries. -/
def ans1 : HostAnswer := .balance ⟨"uatom", ⟨12, by decide⟩⟩
/-- The message response that carries them, at host height 77. -/
def qresp : P.MsgModuleQuerySafeResponse := ⟨77, [ans1.bytes, [9]]⟩
/-- The responses of the three messages of the packet. -/
def okRes : Bytes :=
  P.TxMsgData.toBytes ⟨[], [⟨"/cosmos.bank.v1beta1.MsgSendResponse", []⟩, ⟨"/x.YResponse", []⟩,
    ⟨"/ibc.applications.interchain_accounts.host.v1.MsgModuleQuerySafeResponse", qresp.toBytes⟩]⟩
/-- The success acknowledgement. -/
def okAck : Bytes := AckData.jc.toBytes (.result okRes)
/-- What is reported. -/
def okResult : IcaQueryResult := .success 77 [.bank (.balance ⟨⟨"uatom", ⟨12, by decide⟩⟩⟩), .stargate [9] "/z.Q/W"]

theorem okDecode : decodeModuleQuerySafeRespLast (.result okRes) = .ok qresp := by
  simp only [decodeModuleQuerySafeRespLast, toTxMsgData, okRes, P.TxMsgData.ofBytes_toBytes, decodeOr, Res.bind,
    List.getLast?_cons_cons, List.getLast?_singleton, P.MsgModuleQuerySafeResponse.ofBytes_toBytes]
theorem okAnswer : readQueryAnswer okRes = some (77, [ans1.bytes, [9]]) := decodeLast_eq_ok.1 okDecode
theorem okAckRead : readAck okAck = some (.result okRes) := by
  rw [readAck_eq]; exact JC.ofBytes_toBytes AckData.jc_law _
theorem okQuery : ackQueryResult (w3.store.pending "channel-0" 1) okRes = .ok (some okResult) := by
  have h1 : responseFromProtobuf Path.balance ans1.bytes false = .ok ans1.reported := response_of_answer (a := ans1) trivial
  have h2 : responseFromProtobuf "/z.Q/W" [9] true = .ok (.stargate [9] "/z.Q/W") := rfl
  rw [pending3]
  simp only [ackQueryResult, okDecode, Res.bind_ok', resultFromResponse]
  simp [Res.bind, qresp, mapRes, h1, h2, okResult]
  rfl

/-- Acknowledged with success. -/
def w4s : World := eAckOk w3 "channel-0" 1
theorem s4s : Step api w3 (.relayAck "channel-0" 1 okAck "relayer") w4s
    (.event (ackSuccessEvent pkt okRes) :: callObs (some "cb")
      (.onAcknowledgementPacketCallback (.result okRes) pkt "relayer" (some okResult))) :=
  .ackOk _ _ _ _ _ _ (st "channel-0") okRes (some okResult) commit3 chan3 rfl cb3 (JC.ofBytes_toBytes AckData.jc_law _)
    okQuery
theorem r4s : Reachable api w4s := toStep r3 s4s

/-- The same messages without queries. -/
def pktN : IbcPacket :=
  ⟨IcaPacketData.jc.toBytes (.fromProtoAnys (packetAnys "cosmos1ica" anys []) none),
    ⟨portOf "wasm1controller", "channel-0"⟩, ⟨"icahost", "channel-5"⟩, 1, ⟨none, some 1700000600000000000⟩⟩
/-- A packet without queries is in flight. -/
def n3 : World := eSend w2 (info "channel-0") [] [] pktN
theorem sn3 : Step api w2 (.execute "alice" (.sendCosmosMsgs msgs [] none none) "" true) n3 [.packetSent pktN] :=
  .send _ _ _ _ _ _ (st "channel-0") (info "channel-0") anys [] ⟨chan "channel-0" opts, .opened⟩
    1700000600000000000 pktN rfl owner2 rfl rfl rfl rfl rfl (by decide +kernel)
    (by simp [w2, eAck, setChan, info]; rfl) rfl (by decide +kernel) (by rfl)
theorem rn3 : Reachable api n3 := toStep r2 sn3
/-- It is acknowledged with an error. -/
def n4 : World := eAckErr n3 "channel-0" 1
theorem sn4 : Step api n3 (.relayAck "channel-0" 1 errAck "relayer") n4
    (.event (ackErrorEvent pktN "out of gas") :: callObs (some "cb")
      (.onAcknowledgementPacketCallback (.error "out of gas") pktN "relayer" (some (.error "out of gas")))) :=
  .ackErr _ _ _ _ _ ⟨chan "channel-0" opts, .opened⟩ (st "channel-0") _
    (by simp [n3, eSend, setCommit, info, seq0]) (by simp [n3, eSend, w2, eAck, setChan]; rfl) rfl
    (by simp [n3, eSend, storeAfterSend]; rfl) (JC.ofBytes_toBytes AckData.jc_law _)
theorem rn4 : Reachable api n4 := toStep rn3 sn4

/-- The histories, operation by operation. -/
def h2 : List (Op × List Obs) :=
  [(.instantiate "deployer" inst "channel-0" true, [.channelCreated "channel-0"]),
   (.relayOpenAck "channel-0" "channel-5" ver,
    callObs (some "cb") (.onChannelOpenAckCallback (chan "channel-0" opts) "cosmos1ica" .protobuf))]
/-- With the packet sent. -/
def h3 : List (Op × List Obs) :=
  h2 ++ [(.execute "alice" (.sendCosmosMsgs msgs qs (some "hi") none) "" true, [.packetSent pkt])]
/-- With the error acknowledgement. -/
def h4e : List (Op × List Obs) :=
  h3 ++ [(.relayAck "channel-0" 1 errAck "relayer", .event (ackErrorEvent pkt "out of gas") :: callObs (some "cb")
      (.onAcknowledgementPacketCallback (.error "out of gas") pkt "relayer" (some (.error "out of gas"))))]
/-- With the success acknowledgement. -/
def h4s : List (Op × List Obs) :=
  h3 ++ [(.relayAck "channel-0" 1 okAck "relayer", .event (ackSuccessEvent pkt okRes) :: callObs (some "cb")
      (.onAcknowledgementPacketCallback (.result okRes) pkt "relayer" (some okResult)))]
/-- With the packet without queries. -/
def hn3 : List (Op × List Obs) :=
  h2 ++ [(.execute "alice" (.sendCosmosMsgs msgs [] none none) "" true, [.packetSent pktN])]

theorem e2 : Exec api (World.genesis env) h2 w2 :=
  .step (h := [(Op.instantiate "deployer" inst "channel-0" true, [Obs.channelCreated "channel-0"])])
    (.step (h := []) .nil ((apply_iff_step (inv_of_reachable r0)).2 s1)) ((apply_iff_step (inv_of_reachable r1)).2 s2)
theorem e3 : Exec api (World.genesis env) h3 w3 := .step e2 ((apply_iff_step (inv_of_reachable r2)).2 s3)
theorem e4e : Exec api (World.genesis env) h4e w4e := .step e3 ((apply_iff_step (inv_of_reachable r3)).2 s4e)
theorem e4s : Exec api (World.genesis env) h4s w4s := .step e3 ((apply_iff_step (inv_of_reachable r3)).2 s4s)
theorem en3 : Exec api (World.genesis env) hn3 n3 := .step e2 ((apply_iff_step (inv_of_reachable r2)).2 sn3)
theorem sent3 : Sent h3 pkt qs :=
  ⟨"alice", msgs, some "hi", none, "", true, List.mem_append_right _ (List.mem_singleton.2 rfl)⟩
theorem sentN : Sent hn3 pktN [] :=
  ⟨"alice", msgs, none, none, "", true, List.mem_append_right _ (List.mem_singleton.2 rfl)⟩

end Ica.Ex
