import Verif.Model.World
import Verif.Model.RawStore

/-!
# The chain around the contract, with the contract's storage and messages as bytes

The transition system of `Model/World.lean` with the entry points of `Model/RawStore.lean`: storage is raw bytes, and
the messages of users arrive as JSON text. The chain keeps what a contract call wrote only if the call succeeds. As
there, none of this is code of `/repo`.
-/
namespace Ica.Raw

/-- `World` with raw storage. -/
structure RWorld where
  raw : RawStore
  live : Bool
  env : Env
  chans : String → Option ChainChan
  nextSeq : String → Nat
  commits : String → UInt64 → Option IbcPacket

/-- The same with typed storage. -/
def RWorld.typed (w : RWorld) (s : Store) : World := ⟨s, w.live, w.env, w.chans, w.nextSeq, w.commits⟩

/-- Before the contract exists. -/
def RWorld.genesis (env : Env) : RWorld := ⟨.empty, false, env, fun _ => none, fun _ => 1, fun _ _ => none⟩

/-- As `Ica.dispatchList`. -/
def dispatchList (one : RWorld → SubMsg → Option (RWorld × List Obs)) :
    RWorld → List SubMsg → Option (RWorld × List Obs)
  | w, [] => some (w, [])
  | w, m :: ms =>
    match one w m with
    | none => none
    | some (w1, o1) =>
      match dispatchList one w1 ms with
      | none => none
      | some (w2, o2) => some (w2, o1 ++ o2)

/-- As `Ica.finish`: run an entry point on the world's storage; on failure what it wrote is dropped. -/
def finish (one : RWorld → SubMsg → Option (RWorld × List Obs)) (w : RWorld) (m : RM Response) :
    Option (RWorld × List Obs) :=
  match m w.raw with
  | (.ok resp, raw) =>
    match dispatchList one { w with raw := raw } resp.messages with
    | some (w', obs) => some (w', resp.events.map .event ++ obs)
    | none => none
  | (.err _, _) => none
  | (.panic _, _) => none

/-- As `Ica.coreOpenInit`. -/
def coreOpenInit (api : Api) (w : RWorld) (m : P.MsgChannelOpenInit) (fresh : String) (core : Bool) :
    Option (RWorld × List Obs) :=
  match m.channel with
  | none => none
  | some c =>
    match c.counterparty, c.connectionHops, orderOfNum c.ordering with
    | some cp, [conn], some order =>
      if core ∧ w.live ∧ c.state = 1 ∧ cp.channelId = "" ∧ m.portId = portOf w.env.contractAddr ∧
          w.chans fresh = none then
        let ch : IbcChannel := ⟨⟨m.portId, fresh⟩, ⟨cp.portId, ""⟩, order, c.version, conn⟩
        match ibcChannelOpen api (.openInit ch) w.raw with
        | (.ok v, raw) =>
          some ({ w with
            raw := raw
            chans := setChan w.chans fresh ⟨{ ch with version := if v = "" then c.version else v }, .init⟩ },
            [.channelCreated fresh])
        | (.err _, _) => none
        | (.panic _, _) => none
      else none
    | _, _, _ => none

/-- As `Ica.coreCloseInit`. -/
def coreCloseInit (one : RWorld → SubMsg → Option (RWorld × List Obs)) (w : RWorld) (id : String) (core : Bool) :
    Option (RWorld × List Obs) :=
  match w.chans id with
  | none => none
  | some c =>
    if core ∧ c.status ≠ .closed then
      match finish one w (ibcChannelClose (.closeInit c.chan)) with
      | some (w', obs) =>
        some ({ w' with chans := setChan w'.chans id ⟨c.chan, .closed⟩ }, obs ++ [.channelClosed id])
      | none => none
    else none

/-- As `Ica.coreSendPacket`. -/
def coreSendPacket (w : RWorld) (id : String) (data : Bytes) (timeout : IbcTimeout) (core : Bool) :
    Option (RWorld × Bytes × List Obs) :=
  match w.chans id with
  | none => none
  | some c =>
    if core ∧ c.status = .opened ∧ w.nextSeq id < 18446744073709551616 then
      let n := UInt64.ofNat (w.nextSeq id)
      let p : IbcPacket := ⟨data, c.chan.endpoint, c.chan.counterpartyEndpoint, n, timeout⟩
      some ({ w with
        nextSeq := setSeq w.nextSeq id (w.nextSeq id + 1)
        commits := setCommit w.commits id n (some p) }, P.SendPacketResponse.toBytes ⟨n⟩, [.packetSent p])
    else none

/-- As `Ica.execMsg` with a callback contract that does nothing. -/
def execMsg (api : Api) (one : RWorld → SubMsg → Option (RWorld × List Obs)) (fresh : String) (core : Bool)
    (w : RWorld) (m : CosmosMsg) : Option (RWorld × Option Bytes × List Obs) :=
  match m with
  | .stargate url value =>
    if url = "/ibc.core.channel.v1.MsgChannelOpenInit" then
      match P.MsgChannelOpenInit.ofBytes value with
      | some m =>
        if m.signer = w.env.contractAddr then
          match coreOpenInit api w m fresh core with
          | some (w', obs) => some (w', none, obs)
          | none => none
        else none
      | none => none
    else some (w, none, [.other m])
  | .ibc (.closeChannel id) =>
    match coreCloseInit one w id core with
    | some (w', obs) => some (w', none, obs)
    | none => none
  | .ibc (.sendPacket id data timeout) =>
    match coreSendPacket w id data timeout core with
    | some (w', resp, obs) => some (w', some resp, obs)
    | none => none
  | .wasm (.execute addr msg funds) => some (w, none, [.call addr msg funds])
  | m => some (w, none, [.other m])

/-- As `Ica.dispatch`. -/
def dispatch (api : Api) (fresh : String) (core : Bool) : Nat → RWorld → SubMsg → Option (RWorld × List Obs)
  | 0, _, _ => none
  | f + 1, w, sm =>
    match execMsg api (dispatch api fresh core f) fresh core w sm.msg with
    | some (w', data, obs) =>
      if sm.replyOn = .success ∨ sm.replyOn = .always then
        match finish (dispatch api fresh core f) w' (reply sm.id (.ok data)) with
        | some (w'', obs') => some (w'', obs ++ obs')
        | none => none
      else some (w', obs)
    | none =>
      if sm.replyOn = .error ∨ sm.replyOn = .always then
        finish (dispatch api fresh core f) w (reply sm.id (.err "submessage failed"))
      else none

/-- Operations; the messages to the contract are JSON text. -/
inductive ROp where
  | instantiate (sender : String) (msg : Bytes) (fresh : String) (core : Bool)
  | execute (sender : String) (msg : Bytes) (fresh : String) (core : Bool)
  | migrate (msg : Bytes)
  /-- all others: blocks and relayers -/
  | chain (op : Op)

/-- Apply an operation (as `Ica.apply`). -/
def apply (api : Api) (w : RWorld) (op : ROp) : Option (RWorld × List Obs) :=
  match op with
  | .instantiate sender msg fresh core =>
    if w.live then none
    else finish (dispatch api fresh core maxDepth) { w with live := true } (vmInstantiate api w.env sender msg)
  | .execute sender msg fresh core =>
    if w.live then finish (dispatch api fresh core maxDepth) w (vmExecute api w.env sender msg) else none
  | .migrate msg => if w.live then finish (dispatch api "" false maxDepth) w (vmMigrate msg) else none
  | .chain (.block h t) =>
    if w.env.height ≤ h ∧ w.env.time ≤ t then some ({ w with env := { w.env with height := h, time := t } }, [])
    else none
  | .chain (.relayOpenInit m fresh) =>
    if m.signer = w.env.contractAddr then none else coreOpenInit api w m fresh true
  | .chain (.relayOpenTry ch v) =>
    match ibcChannelOpen api (.openTry ch v) w.raw with
    | (.ok v', raw) => some ({ w with
        raw := raw, chans := setChan w.chans ch.endpoint.channelId ⟨{ ch with version := v' }, .init⟩ },
        [.channelCreated ch.endpoint.channelId])
    | (.err _, _) => none
    | (.panic _, _) => none
  | .chain (.relayOpenAck id cpId cpVersion) =>
    match w.chans id with
    | none => none
    | some c =>
      if c.status = .init then
        let ch : IbcChannel :=
          { c.chan with
            version := cpVersion
            counterpartyEndpoint := { c.chan.counterpartyEndpoint with channelId := cpId } }
        finish (dispatch api "" false maxDepth) { w with chans := setChan w.chans id ⟨ch, .opened⟩ }
          (ibcChannelConnect api (.openAck ch cpVersion))
      else none
  | .chain (.relayOpenConfirm ch) => finish (dispatch api "" false maxDepth) w (ibcChannelConnect api (.openConfirm ch))
  | .chain (.relayCloseInit id) => coreCloseInit (dispatch api "" false maxDepth) w id true
  | .chain (.relayCloseConfirm id) =>
    match w.chans id with
    | none => none
    | some c =>
      if c.status ≠ .closed then
        match finish (dispatch api "" false maxDepth) w (ibcChannelClose (.closeConfirm c.chan)) with
        | some (w', obs) =>
          some ({ w' with chans := setChan w'.chans id ⟨c.chan, .closed⟩ }, obs ++ [.channelClosed id])
        | none => none
      else none
  | .chain (.relayRecv p) => finish (dispatch api "" false maxDepth) w (ibcPacketReceive p)
  | .chain (.relayAck id seq ack relayer) =>
    match w.commits id seq, w.chans id with
    | some p, some c =>
      if c.status = .opened then
        finish (dispatch api "" false maxDepth) { w with commits := setCommit w.commits id seq none }
          (ibcPacketAck ack p relayer)
      else none
    | _, _ => none
  | .chain (.relayTimeout id seq relayer) =>
    match w.commits id seq, w.chans id with
    | some p, some c =>
      finish (dispatch api "" false maxDepth)
        { w with
          commits := setCommit w.commits id seq none
          chans := if c.chan.order = .ordered then setChan w.chans id ⟨c.chan, .closed⟩ else w.chans }
        (ibcPacketTimeout p relayer)
    | _, _ => none
  -- these arrive as bytes
  | .chain (.instantiate _ _ _ _) => none
  | .chain (.execute _ _ _ _) => none
  | .chain .migrate => none

/-- A history of committed operations. -/
inductive RExec (api : Api) (w0 : RWorld) : List (ROp × List Obs) → RWorld → Prop where
  | nil : RExec api w0 [] w0
  | step {h : List (ROp × List Obs)} {w w' : RWorld} {op : ROp} {obs : List Obs} :
      RExec api w0 h w → apply api w op = some (w', obs) → RExec api w0 (h ++ [(op, obs)]) w'

end Ica.Raw
