import Verif.Spec.InterchainTx
import Verif.Props.Interchain

/-!
# Callback contracts that call back change nothing of the end-to-end guarantees (C127)
-/
namespace Ica
open Spec

theorem ran_exec {api : Api} {n n' : Net} {ts : List Tx} {log : List (Op × List Obs)} (hr : Ran api n ts n' log) :
    NetExec api n (log.map fun x => (NetOp.ctrl x.1, x.2)) n' := by
  induction hr with
  | nil => exact .nil
  | undone _ ih => exact ih
  | quiet hp ha _ _ ih => exact netExec_append (NetExec.nil.step (.ctrl _ _ _ hp ha)) ih
  | called hp ha _ _ _ ih1 ih2 =>
    rw [List.map_cons, List.map_append]
    exact netExec_append (NetExec.nil.step (.ctrl _ _ _ hp ha)) (netExec_append ih1 ih2)

/-- **C127.** Whatever callback contracts do when they are called, what happened is a history in which they were only told, with the
same transactions in the same order: so whatever holds of all such histories holds also when they run. -/
theorem C127_as_if_told {api : Api} {n0 n : Net} {h : List (NetOp × List Obs)} (he : NetTxExec api n0 h n) : NetExec api n0 h n := by
  induction he with
  | nil => exact .nil
  | tx _ hr ih => exact netExec_append ih (ran_exec hr)
  | host _ _ hs ih => exact ih.step hs

/-- **C127**, hosts: they execute only what the owner of the contract asked for, and no packet twice. -/
theorem C127_only_asked_once {api : Api} {env : Env} {n0 n : Net} {h : List (NetOp × List Obs)} (h0 : n0.Initial env)
    (he : NetTxExec api n0 h n) :
    (∀ e ∈ n.log, AskedFor (onController h) e.packet e.account e.messages) ∧
    ∀ (i j : Nat) (a b : Executed), n.log[i]? = some a → n.log[j]? = some b → a.packet = b.packet → i = j :=
  ⟨fun _ hx => C82_only_asked h0 (C127_as_if_told he) hx,
    fun _ _ _ _ ha hb hp => C82_at_most_once h0 (C127_as_if_told he) ha hb hp⟩

/-- **C127**, callbacks: they tell what the host did, also those of packets settled within other callbacks. -/
theorem C127_told {api : Api} {env : Env} {n0 n : Net} {h : List (NetOp × List Obs)} (h0 : n0.Initial env)
    (he : NetTxExec api n0 h n) {x : Op × List Obs} (hx : x ∈ onController h) {cb relayer : String} {p : IbcPacket} :
    (∀ res q, CalledBack x.2 cb (.onAcknowledgementPacketCallback (.result res) p relayer q) →
      ∃ e ∈ n.log, e.packet = p ∧ readTxMsgData res = some e.responses) ∧
    (∀ err q, CalledBack x.2 cb (.onAcknowledgementPacketCallback (.error err) p relayer q) → ∀ e ∈ n.log, e.packet ≠ p) ∧
    (CalledBack x.2 cb (.onTimeoutPacketCallback p relayer) → ∀ e ∈ n.log, e.packet ≠ p) :=
  ⟨fun _ _ hc => C83_success_told h0 (C127_as_if_told he) hx hc, fun _ _ hc => C83_error_told h0 (C127_as_if_told he) hx hc,
    fun hc => C83_timeout_told h0 (C127_as_if_told he) hx hc⟩

/-- **C127**, account: what the contract reports is the account the host has. -/
theorem C127_reported_account {api : Api} {env : Env} {n0 n : Net} {h : List (NetOp × List Obs)} (h0 : n0.Initial env)
    (he : NetTxExec api n0 h n) {info : IcaInfo} (hi : icaOf n.w = some info) :
    ∃ ch s, Reports n.w ch s ∧ info.channelId = ch.endpoint.channelId ∧
      (n.hosts ch.connectionId).account = some info.icaAddress := C81_reported_account h0 (C127_as_if_told he) hi

theorem ran_append {api : Api} {n n1 n2 : Net} {a b : List Tx} {l1 l2 : List (Op × List Obs)} (ha : Ran api n a n1 l1)
    (hb : Ran api n1 b n2 l2) : Ran api n (a ++ b) n2 (l1 ++ l2) := by
  induction ha with
  | nil => exact hb
  | undone _ ih => exact .undone (ih hb)
  | quiet h1 h2 h3 _ ih => exact .quiet h1 h2 h3 (ih hb)
  | called h1 h2 h3 h4 _ _ ih2 =>
    rw [List.cons_append, List.cons_append, List.append_assoc]
    exact .called h1 h2 h3 h4 (ih2 hb)

mutual
theorem ran_tx {api : Api} : (t : Tx) → (n : Net) → (∀ op ∈ innerOps [t], ∀ m, Proven m op) → ∀ {w' log},
    applyTx api n.w t = some (w', log) → ∃ n', Ran api n [t] n' log ∧ n'.w = w'
  | .mk op callee, n, hf, w', log, ha => by
    have hop : Proven n op := hf op (by cases callee <;> simp [innerOps]) n
    rw [applyTx] at ha
    split at ha
    · cases ha
    · rename_i w1 obs h1
      split at ha
      · rename_i hc
        split at ha
        · cases ha
        · rename_i ts
          cases ha
          obtain ⟨n', r1, r2⟩ := ran_txs (api := api) ts (n.moved op w1 obs) (fun o ho => hf o (by simp [innerOps, ho]))
          have := Ran.called hop h1 hc r1 (.nil n')
          rw [List.append_nil] at this
          exact ⟨n', this, r2⟩
      · rename_i hc
        cases ha
        exact ⟨_, .quiet hop h1 (by simpa using hc) (.nil _), rfl⟩
theorem ran_txs {api : Api} : (ts : List Tx) → (n : Net) → (∀ op ∈ innerOps ts, ∀ m, Proven m op) →
    ∃ n', Ran api n ts n' (applyTxs api n.w ts).2 ∧ n'.w = (applyTxs api n.w ts).1
  | [], n, _ => ⟨n, by rw [applyTxs]; exact ⟨.nil n, rfl⟩⟩
  | t :: ts, n, hf => by
    rw [applyTxs]
    have h1 : ∀ op ∈ innerOps [t], ∀ m, Proven m op := fun op ho => hf op (by
      cases t with | mk o c => cases c <;> simp_all [innerOps] <;> tauto)
    have h2 : ∀ op ∈ innerOps ts, ∀ m, Proven m op := fun op ho => hf op (by
      cases t with | mk o c => cases c <;> simp_all [innerOps])
    split
    · obtain ⟨n', r1, r2⟩ := ran_txs (api := api) ts n h2
      exact ⟨n', .undone r1, r2⟩
    · rename_i w1 log ha
      obtain ⟨n1, r1, r2⟩ := ran_tx t n h1 ha
      obtain ⟨n2, q1, q2⟩ := ran_txs (api := api) ts n1 h2
      rw [r2] at q1 q2
      exact ⟨n2, ran_append r1 q1, q2⟩
end

/-- **C127** speaks of all transactions of `Model/Tx`: what the callback contract may do without a relayer's proofs, calling this contract
in whatever way and as deep as it likes, is among the histories. -/
theorem C127_all_transactions {api : Api} {n : Net} {op : Op} {ts : List Tx} (hp : Proven n op)
    (hf : ∀ o ∈ innerOps ts, ∀ m, Proven m o) {w' : World} {log : List (Op × List Obs)}
    (ha : applyTx api n.w (.mk op (some ts)) = some (w', log)) : ∃ n', Ran api n [.mk op (some ts)] n' log ∧ n'.w = w' := by
  rw [applyTx] at ha
  split at ha
  · cases ha
  · rename_i w1 obs h1
    dsimp only at ha
    split at ha
    · rename_i hc
      cases ha
      obtain ⟨n', r1, r2⟩ := ran_txs (api := api) ts (n.moved op w1 obs) hf
      have := Ran.called hp h1 hc r1 (.nil n')
      rw [List.append_nil] at this
      exact ⟨n', this, r2⟩
    · rename_i hc
      cases ha
      exact ⟨_, .quiet hp h1 (by simpa using hc) (.nil _), rfl⟩

/-- The channel's opening is told to the callback contract, and within that call the first request is sent, before the host has even
learnt that the channel is open. Then the host learns it. -/
example : ∃ h n, NetTxExec Ex.api Ex.net0 h n ∧ Ex.pkt ∈ n.sent ∧ (∃ x ∈ onController h, ∃ m, CalledBack x.2 "cb" m) ∧
    ∃ hc, (n.hosts "connection-0").chans "channel-5" = some hc ∧ hc.status = .opened := by
  have a1 : NetTxExec Ex.api Ex.net0 _ Ex.net1 := .tx (t := .mk (.instantiate "deployer" Ex.inst "channel-0" true) none) .nil
    (.quiet trivial ((apply_iff_step (inv_of_reachable Ex.r0)).2 Ex.s1) rfl (.nil _))
  have a2 := a1.host (by simp) Ex.ns2
  have hs : Ran Ex.api Ex.net2 [.mk (.relayOpenAck "channel-0" "channel-5" Ex.ver)
      (some [.mk (.execute "alice" (.sendCosmosMsgs Ex.msgs Ex.qs (some "hi") none) "" true) none])]
      (Ex.net3.moved (.execute "alice" (.sendCosmosMsgs Ex.msgs Ex.qs (some "hi") none) "" true) Ex.w3 [.packetSent Ex.pkt])
      [(.relayOpenAck "channel-0" "channel-5" Ex.ver,
        callObs (some "cb") (.onChannelOpenAckCallback (Ex.chan "channel-0" Ex.opts) "cosmos1ica" .protobuf)),
       (.execute "alice" (.sendCosmosMsgs Ex.msgs Ex.qs (some "hi") none) "" true, [.packetSent Ex.pkt])] :=
    .called (inner := [_]) (log := []) ⟨⟨Ex.prop "channel-0" Ex.opts, .init⟩, Ex.hchan Ex.ver, by
        show Ex.w1.chans _ = _
        simp [Ex.w1, Ex.eInst, setChan]
        rfl, Ex.host2, rfl, rfl, rfl⟩ ((apply_iff_step (inv_of_reachable Ex.r1)).2 Ex.s2) rfl
      (.quiet trivial ((apply_iff_step (inv_of_reachable Ex.r2)).2 Ex.s3) rfl (.nil _)) (.nil _)
  have a3 := a2.tx hs
  have hc : Ex.w3.chans "channel-0" = some ⟨Ex.chan "channel-0" Ex.opts, .opened⟩ := Ex.chan2
  have a4 := a3.host (by simp) (.hostOpenConfirm "connection-0" "channel-5" (Ex.hchan Ex.ver)
    ⟨Ex.chan "channel-0" Ex.opts, .opened⟩ Ex.host2 rfl hc (fun h => by cases h) rfl)
  refine ⟨_, _, a4, ?_, ⟨(.relayOpenAck "channel-0" "channel-5" Ex.ver,
    callObs (some "cb") (.onChannelOpenAckCallback (Ex.chan "channel-0" Ex.opts) "cosmos1ica" .protobuf)), ?_,
    .onChannelOpenAckCallback (Ex.chan "channel-0" Ex.opts) "cosmos1ica" .protobuf, _, rfl, ?_⟩,
    ⟨{ Ex.hchan Ex.ver with status := .opened }, by simp [setHost, HostSide.setChan], rfl⟩⟩
  · simp [Net.moved, sentPackets]
  · simp [onController]
  · exact JC.ofBytes_toBytes ReceiverExecuteMsg.jc_law _

end Ica
