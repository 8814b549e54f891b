import Verif.Model.Contract

/-!
# The chain around the contract

A transition system for the contract together with the part of the chain it talks to: IBC core (ibc-go's
channel keeper), wasmd's IBC handler and its dispatch of submessages. None of this is code of `/repo`; it is
the environment assumed by the theorems over histories, and it is part of the trusted base (see DESIGN.md).

* Everything the contract sends is dispatched from the bytes it sends: `MsgChannelOpenInit` is decoded from
  protobuf, replies get the protobuf bytes of `MsgIBCSendPacketResponse`.
* The chain's own checks that do not concern the contract (light clients, proofs, connections, timeouts that
  have passed) are an arbitrary answer `core` given with the operation, so theorems hold for every such answer.
* Relayers may acknowledge and time out committed packets in any order; `Spec/Interchain` adds that ordered channels take
  acknowledgements in turn.
-/
namespace Ica

/-- State of a channel end as stored by IBC core. -/
inductive ChainStatus where
  | init
  | opened
  | closed
  deriving DecidableEq

/-- A channel end of the contract's port as stored by IBC core; `chan` is what wasmd shows the contract. -/
structure ChainChan where
  chan : IbcChannel
  status : ChainStatus
  deriving DecidableEq

/-- The contract's storage and the chain state that concerns the contract. -/
structure World where
  store : Store
  /-- the contract exists -/
  live : Bool
  env : Env
  /-- channel ends on the contract's port, by channel id -/
  chans : String → Option ChainChan
  /-- next sequence number of each channel -/
  nextSeq : String → Nat
  /-- committed packets, not yet acknowledged or timed out, by channel id and sequence -/
  commits : String → UInt64 → Option IbcPacket

/-- What an operation does that is visible outside. -/
inductive Obs where
  | event (e : Event)
  | channelCreated (id : String)
  | channelClosed (id : String)
  | packetSent (p : IbcPacket)
  | call (addr : String) (msg : Bytes) (funds : List Coin)
  | other (m : CosmosMsg)
  deriving DecidableEq

/-- The port wasmd gives a contract. -/
def portOf (contractAddr : String) : String := "wasm." ++ contractAddr

/-- Before the contract exists. -/
def World.genesis (env : Env) : World :=
  ⟨Store.empty, false, env, fun _ => none, fun _ => 1, fun _ _ => none⟩

/-- Set one channel. -/
def setChan (f : String → Option ChainChan) (id : String) (c : ChainChan) : String → Option ChainChan :=
  fun id' => if id' = id then some c else f id'

/-- Set one packet commitment. -/
def setCommit (f : String → UInt64 → Option IbcPacket) (id : String) (n : UInt64) (p : Option IbcPacket) :
    String → UInt64 → Option IbcPacket :=
  fun id' n' => if id' = id ∧ n' = n then p else f id' n'

/-- Set one sequence counter. -/
def setSeq (f : String → Nat) (id : String) (n : Nat) : String → Nat :=
  fun id' => if id' = id then n else f id'

/-- Dispatch submessages one after the other; a failure stops everything. -/
def dispatchList (one : World → SubMsg → Option (World × List Obs)) :
    World → List SubMsg → Option (World × List Obs)
  | w, [] => some (w, [])
  | w, m :: ms =>
    match one w m with
    | none => none
    | some (w1, o1) =>
      match dispatchList one w1 ms with
      | none => none
      | some (w2, o2) => some (w2, o1 ++ o2)

/-- After a contract call: keep its storage, emit its events, dispatch its submessages. An error or an abort of
the contract fails the call. -/
def finish (one : World → SubMsg → Option (World × List Obs)) (w : World) (r : Res (Store × Response)) :
    Option (World × List Obs) :=
  match r with
  | .ok (s, resp) =>
    match dispatchList one { w with store := s } resp.messages with
    | some (w', obs) => some (w', resp.events.map .event ++ obs)
    | none => none
  | .err _ => none
  | .panic _ => none

/-- `ibc.core.channel.v1.Order` as wasmd shows it to the contract; other numbers are invalid. -/
def orderOfNum (n : UInt64) : Option IbcOrder :=
  if n = 1 then some .unordered else if n = 2 then some .ordered else none

/-- `MsgChannelOpenInit` in IBC core: basic validation, a fresh channel id, the contract's callback, then the
channel is written in state INIT with the version the contract returned. -/
def coreOpenInit (api : Api) (w : World) (m : P.MsgChannelOpenInit) (fresh : String) (core : Bool) :
    Option (World × List Obs) :=
  match m.channel with
  | none => none
  | some c =>
    match c.counterparty, c.connectionHops, orderOfNum c.ordering with
    | some cp, [conn], some order =>
      if core ∧ w.live ∧ c.state = 1 ∧ cp.channelId = "" ∧ m.portId = portOf w.env.contractAddr ∧
          w.chans fresh = none then
        let ch : IbcChannel := ⟨⟨m.portId, fresh⟩, ⟨cp.portId, ""⟩, order, c.version, conn⟩
        match ibcChannelOpen api w.store (.openInit ch) with
        | .ok (s, v) =>
          some ({ w with
            store := s
            chans := setChan w.chans fresh ⟨{ ch with version := if v = "" then c.version else v }, .init⟩ },
            [.channelCreated fresh])
        | .err _ => none
        | .panic _ => none
      else none
    | _, _, _ => none

/-- `MsgChannelCloseInit` in IBC core: the channel must not be closed; the contract's callback; then CLOSED. -/
def coreCloseInit (one : World → SubMsg → Option (World × List Obs)) (w : World) (id : String) (core : Bool) :
    Option (World × List Obs) :=
  match w.chans id with
  | none => none
  | some c =>
    if core ∧ c.status ≠ .closed then
      match finish one w (ibcChannelClose w.store (.closeInit c.chan)) with
      | some (w', obs) =>
        some ({ w' with chans := setChan w'.chans id ⟨c.chan, .closed⟩ }, obs ++ [.channelClosed id])
      | none => none
    else none

/-- `SendPacket` in IBC core: the channel must be OPEN; the packet gets the channel's next sequence and is
committed; the response carries the sequence. -/
def coreSendPacket (w : World) (id : String) (data : Bytes) (timeout : IbcTimeout) (core : Bool) :
    Option (World × Bytes × List Obs) :=
  match w.chans id with
  | none => none
  | some c =>
    if core ∧ c.status = .opened ∧ w.nextSeq id < 18446744073709551616 then
      let n := UInt64.ofNat (w.nextSeq id)
      let p : IbcPacket := ⟨data, c.chan.endpoint, c.chan.counterpartyEndpoint, n, timeout⟩
      some ({ w with
        nextSeq := setSeq w.nextSeq id (w.nextSeq id + 1)
        commits := setCommit w.commits id n (some p) }, P.SendPacketResponse.toBytes ⟨n⟩, [.packetSent p])
    else none

/-- What a called contract does: `none` it fails; otherwise the world after it (and everything it did) has run. -/
abbrev Callee := World → String → Bytes → List Coin → Option World

/-- One message of the contract: IBC messages go to core, a call of another contract is observed and runs that
contract, anything else is observed only. Stargate messages must be signed by the contract. -/
def execMsg (callee : Callee) (api : Api) (one : World → SubMsg → Option (World × List Obs)) (fresh : String) (core : Bool)
    (w : World) (m : CosmosMsg) : Option (World × Option Bytes × List Obs) :=
  match m with
  | .stargate url value =>
    if url = "/ibc.core.channel.v1.MsgChannelOpenInit" then
      match P.MsgChannelOpenInit.ofBytes value with
      | some m =>
        if m.signer = w.env.contractAddr then
          match coreOpenInit api w m fresh core with
          | some (w', obs) => some (w', none, obs)
          | none => none
        else none
      | none => none
    else some (w, none, [.other m])
  | .ibc (.closeChannel id) =>
    match coreCloseInit one w id core with
    | some (w', obs) => some (w', none, obs)
    | none => none
  | .ibc (.sendPacket id data timeout) =>
    match coreSendPacket w id data timeout core with
    | some (w', resp, obs) => some (w', some resp, obs)
    | none => none
  | .wasm (.execute addr msg funds) =>
    match callee w addr msg funds with
    | some w' => some (w', none, [.call addr msg funds])
    | none => none
  | m => some (w, none, [.other m])

/-- One submessage with its reply: a failing message fails the transaction unless the contract asked for a
reply on error. The first argument bounds the nesting of messages. -/
def dispatch (callee : Callee) (api : Api) (fresh : String) (core : Bool) : Nat → World → SubMsg → Option (World × List Obs)
  | 0, _, _ => none
  | f + 1, w, sm =>
    match execMsg callee api (dispatch callee api fresh core f) fresh core w sm.msg with
    | some (w', data, obs) =>
      if sm.replyOn = .success ∨ sm.replyOn = .always then
        match finish (dispatch callee api fresh core f) w' (reply w'.store sm.id (.ok data)) with
        | some (w'', obs') => some (w'', obs ++ obs')
        | none => none
      else some (w', obs)
    | none =>
      if sm.replyOn = .error ∨ sm.replyOn = .always then
        finish (dispatch callee api fresh core f) w (reply w.store sm.id (.err "submessage failed"))
      else none

/-- Bound on nested messages (wasmd has a larger one; the contract needs two levels). -/
def maxDepth : Nat := 8

/-- Operations: a transaction message that reaches the contract, or a new block. `fresh` is the channel id the
chain would assign, `core` the answer of the chain's own checks. -/
inductive Op where
  | block (height time : UInt64)
  | instantiate (sender : String) (msg : InstantiateMsg) (fresh : String) (core : Bool)
  | execute (sender : String) (msg : ExecuteMsg) (fresh : String) (core : Bool)
  | migrate
  /-- `MsgChannelOpenInit` submitted by someone else than the contract -/
  | relayOpenInit (msg : P.MsgChannelOpenInit) (fresh : String)
  | relayOpenTry (ch : IbcChannel) (counterpartyVersion : String)
  | relayOpenAck (id counterpartyId counterpartyVersion : String)
  | relayOpenConfirm (ch : IbcChannel)
  /-- `MsgChannelCloseInit` submitted by someone else than the contract -/
  | relayCloseInit (id : String)
  | relayCloseConfirm (id : String)
  | relayRecv (p : IbcPacket)
  | relayAck (id : String) (seq : UInt64) (ack : Bytes) (relayer : String)
  | relayTimeout (id : String) (seq : UInt64) (relayer : String)

/-- Apply an operation. `none` means the transaction fails, and the chain discards everything it did. -/
def applyWith (callee : Callee) (api : Api) (w : World) (op : Op) : Option (World × List Obs) :=
  match op with
  | .block h t =>
    if w.env.height ≤ h ∧ w.env.time ≤ t then some ({ w with env := { w.env with height := h, time := t } }, [])
    else none
  | .instantiate sender msg fresh core =>
    if w.live then none
    else
      finish (dispatch callee api fresh core maxDepth) { w with live := true }
        (instantiate api w.env w.store sender msg)
  | .execute sender msg fresh core =>
    if w.live then finish (dispatch callee api fresh core maxDepth) w (execute api w.env w.store sender msg)
    else none
  | .migrate => if w.live then finish (dispatch callee api "" false maxDepth) w (migrate w.store) else none
  | .relayOpenInit m fresh => if m.signer = w.env.contractAddr then none else coreOpenInit api w m fresh true
  | .relayOpenTry ch v =>
    match ibcChannelOpen api w.store (.openTry ch v) with
    | .ok (s, v') => some ({ w with
        store := s, chans := setChan w.chans ch.endpoint.channelId ⟨{ ch with version := v' }, .init⟩ },
        [.channelCreated ch.endpoint.channelId])
    | .err _ => none
    | .panic _ => none
  | .relayOpenAck id cpId cpVersion =>
    match w.chans id with
    | none => none
    | some c =>
      if c.status = .init then
        let ch : IbcChannel :=
          { c.chan with
            version := cpVersion
            counterpartyEndpoint := { c.chan.counterpartyEndpoint with channelId := cpId } }
        finish (dispatch callee api "" false maxDepth) { w with chans := setChan w.chans id ⟨ch, .opened⟩ }
          (ibcChannelConnect api w.store (.openAck ch cpVersion))
      else none
  | .relayOpenConfirm ch =>
    finish (dispatch callee api "" false maxDepth) w (ibcChannelConnect api w.store (.openConfirm ch))
  | .relayCloseInit id => coreCloseInit (dispatch callee api "" false maxDepth) w id true
  | .relayCloseConfirm id =>
    match w.chans id with
    | none => none
    | some c =>
      if c.status ≠ .closed then
        match finish (dispatch callee api "" false maxDepth) w (ibcChannelClose w.store (.closeConfirm c.chan)) with
        | some (w', obs) =>
          some ({ w' with chans := setChan w'.chans id ⟨c.chan, .closed⟩ }, obs ++ [.channelClosed id])
        | none => none
      else none
  | .relayRecv p => finish (dispatch callee api "" false maxDepth) w (ibcPacketReceive w.store p)
  | .relayAck id seq ack relayer =>
    match w.commits id seq, w.chans id with
    | some p, some c =>
      if c.status = .opened then
        finish (dispatch callee api "" false maxDepth) { w with commits := setCommit w.commits id seq none }
          (ibcPacketAck w.store ack p relayer)
      else none
    | _, _ => none
  | .relayTimeout id seq relayer =>
    match w.commits id seq, w.chans id with
    | some p, some c =>
      finish (dispatch callee api "" false maxDepth)
        { w with
          commits := setCommit w.commits id seq none
          chans := if c.chan.order = .ordered then setChan w.chans id ⟨c.chan, .closed⟩ else w.chans }
        (ibcPacketTimeout w.store p relayer)
    | _, _ => none

/-- A called contract that succeeds and does nothing to this contract or its channels. -/
def quiet : Callee := fun w _ _ _ => some w

/-- Apply an operation, where calls of a callback contract are observed as `Obs.call` and assumed to succeed without
further effect; `Model/Tx.lean` adds callback contracts that fail or call back. -/
def apply (api : Api) (w : World) (op : Op) : Option (World × List Obs) := applyWith quiet api w op

/-- A history: the operations that were committed, with what they made visible. -/
inductive Exec (api : Api) (w0 : World) : List (Op × List Obs) → World → Prop where
  | nil : Exec api w0 [] w0
  | step {h : List (Op × List Obs)} {w w' : World} {op : Op} {obs : List Obs} :
      Exec api w0 h w → apply api w op = some (w', obs) → Exec api w0 (h ++ [(op, obs)]) w'

/-- Worlds reachable from before the instantiation, at any address and block. -/
def Reachable (api : Api) (w : World) : Prop := ∃ env h, Exec api (World.genesis env) h w

/-- Run operations one after the other; failing ones have no effect. -/
def runOps (api : Api) : World → List Op → World × List Obs
  | w, [] => (w, [])
  | w, op :: ops =>
    match apply api w op with
    | some (w', obs) => ((runOps api w' ops).1, obs ++ (runOps api w' ops).2)
    | none => runOps api w ops

end Ica
