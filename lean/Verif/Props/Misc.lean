import Verif.Facts.Migrate
import Verif.Props.Callbacks
import Verif.Spec.Wasm

/-!
# Failures, the callback address and the helpers (C51, C53-C55)
-/
namespace Ica
open Spec

/-! ## C51 -/

/-- A call of one of the contract's entry points that may return messages, with everything the chain passes to it. -/
inductive Spec.Entry where
  | instantiate (sender : String) (msg : Bytes)
  | execute (sender : String) (msg : Bytes)
  | migrate (msg : Bytes)
  | reply (id : UInt64) (r : SubMsgResult)
  | connect (m : ConnectMsg)
  | close (m : CloseMsg)
  | ack (ack : Bytes) (p : IbcPacket) (relayer : String)
  | timeout (p : IbcPacket) (relayer : String)
  | receive (p : IbcPacket)

/-- Run it. -/
def Spec.Entry.run (api : Api) (env : Env) : Entry → Raw.RM Response
  | .instantiate sender msg => Raw.vmInstantiate api env sender msg
  | .execute sender msg => Raw.vmExecute api env sender msg
  | .migrate msg => Raw.vmMigrate msg
  | .reply id r => Raw.reply id r
  | .connect m => Raw.ibcChannelConnect api m
  | .close m => Raw.ibcChannelClose m
  | .ack a p relayer => Raw.ibcPacketAck a p relayer
  | .timeout p relayer => Raw.ibcPacketTimeout p relayer
  | .receive p => Raw.ibcPacketReceive p

namespace Raw

/-- Every value the computation returns satisfies `Q`. -/
def Post {α : Type} (m : RM α) (Q : α → Prop) : Prop := ∀ raw raw' a, m raw = (.ok a, raw') → Q a

theorem post_bind {α β : Type} {m : RM α} {f : α → RM β} {Q : β → Prop} (h : ∀ a, Post (f a) Q) : Post (m >>= f) Q := by
  intro raw raw' b hb
  obtain ⟨a, r1, _, h2⟩ := bind_ok.mp hb
  exact h a _ _ _ h2

theorem post_pure {α : Type} {a : α} {Q : α → Prop} (h : Q a) : Post (pure a : RM α) Q := by
  intro raw raw' b hb
  obtain ⟨rfl, _⟩ := pure_ok.mp hb
  exact h

theorem post_fail {α : Type} {e : Err} {Q : α → Prop} : Post (fail e : RM α) Q := fun _ _ _ h => by cases h
theorem post_panic {α : Type} {e : String} {Q : α → Prop} : Post (lift (.panic e) : RM α) Q := fun _ _ _ h => by cases h

/-- No submessage asks to be told about its failure. -/
def Uncaught (r : Response) : Prop := ∀ m ∈ r.messages, m.replyOn = .never ∨ m.replyOn = .success

theorem uncaught_empty : Uncaught .empty := fun m hm => by cases hm
theorem uncaught_new (m : CosmosMsg) (e : List Event) : Uncaught ⟨[.new m], e⟩ := by
  intro x hx
  rw [List.mem_singleton.mp hx]
  exact .inl rfl
theorem uncaught_ite {c : Prop} [Decidable c] {m m' : CosmosMsg} {i : UInt64} :
    Uncaught ⟨[if c then .new m else ⟨i, m', .success⟩], []⟩ := by
  intro x hx
  rw [List.mem_singleton.mp hx]
  split
  · exact .inl rfl
  · exact .inr rfl
theorem uncaught_openAck {cb : Option String} {ch : IbcChannel} {m : IcaMetadata} : Uncaught (openAckResponse cb ch m) := by
  unfold openAckResponse; split
  · exact uncaught_new _ _
  · exact uncaught_empty
theorem uncaught_timeout {cb : Option String} {p : IbcPacket} {r : String} : Uncaught (timeoutResponse cb p r) := by
  unfold timeoutResponse; split
  · exact uncaught_new _ _
  · exact uncaught_empty
theorem uncaught_ack {cb : Option String} {m : CallbackMsg} {e : Event} : Uncaught (ackResponse cb m e) := by
  unfold ackResponse; split
  · exact uncaught_new _ _
  · intro x hx; cases hx

theorem post_with {α : Type} {jc : JC α} {b : Bytes} {f : α → RM Response} (h : ∀ m, Post (f m) Uncaught) :
    Post (withMsg jc b f) Uncaught := by
  unfold withMsg
  split
  · exact h _
  · exact post_fail

theorem post_instantiate (api : Api) (env : Env) (sender : String) (msg : InstantiateMsg) :
    Post (instantiate api env sender msg) Uncaught :=
  post_bind fun _ => post_bind fun _ => post_bind fun _ => post_bind fun _ => post_bind fun _ => post_bind fun _ =>
    post_pure (uncaught_new _ _)

theorem post_execute (api : Api) (env : Env) (sender : String) (msg : ExecuteMsg) :
    Post (execute api env sender msg) Uncaught := by
  cases msg with
  | createChannel o => exact post_bind fun _ => post_bind fun _ => post_bind fun _ => post_pure (uncaught_new _ _)
  | closeChannel =>
    refine post_bind fun _ => post_bind fun c => ?_
    split
    · exact post_fail
    · exact post_bind fun _ => post_pure (uncaught_new _ _)
  | updateCallbackAddress a =>
    exact post_bind fun _ => post_bind fun _ => post_bind fun _ => post_bind fun _ => post_pure uncaught_empty
  | sendCosmosMsgs ms qs memo t =>
    exact post_bind fun _ => post_bind fun _ => post_bind fun _ => post_bind fun _ => post_bind fun _ =>
      post_pure uncaught_ite
  | updateOwnership a =>
    unfold execute updateOwnership
    dsimp only
    split
    · exact post_fail
    · exact post_bind fun _ => post_pure uncaught_empty

theorem post_close (ch : IbcChannel) : Post (channelCloseConfirm ch) Uncaught := by
  refine post_bind fun c => ?_
  split
  · exact post_fail
  · split
    · exact post_fail
    · exact post_bind fun _ => post_pure uncaught_empty

theorem post_timeoutCallback (p : IbcPacket) (r : String) : Post (timeoutCallback p r) Uncaught :=
  post_bind fun _ => post_bind fun _ => post_pure uncaught_timeout

theorem post_entry (api : Api) (env : Env) (e : Entry) : Post (e.run api env) Uncaught := by
  cases e with
  | instantiate sender msg => exact post_with (post_instantiate api env sender)
  | execute sender msg => exact post_with (post_execute api env sender)
  | migrate msg =>
    exact post_with fun _ => post_bind fun _ => post_bind fun _ => post_bind fun _ => post_bind fun _ =>
      post_bind fun _ => post_pure uncaught_empty
  | reply id r =>
    unfold Entry.run reply
    dsimp only
    split
    · unfold replySendQueryPacket
      cases r with
      | ok d =>
        exact post_bind fun _ => post_bind fun _ => post_bind fun _ => post_bind fun _ => post_bind fun _ =>
          post_bind fun _ => post_pure uncaught_empty
      | err e => exact post_panic
    · exact post_fail
  | connect m =>
    cases m with
    | openAck ch v =>
      refine post_bind fun st => ?_
      split
      · exact post_fail
      · split
        · exact post_fail
        · refine post_bind fun _ => ?_
          split
          · exact post_fail
          · exact post_bind fun _ => post_bind fun _ => post_pure uncaught_openAck
    | openConfirm ch => exact post_panic
  | close m =>
    cases m with
    | closeInit ch =>
      refine post_bind fun a => ?_
      split
      · exact post_fail
      · exact post_bind fun _ => post_close ch
    | closeConfirm ch => exact post_close ch
  | ack a p relayer =>
    unfold Entry.run ibcPacketAck
    dsimp only
    split
    · exact post_fail
    · exact post_bind fun _ => post_bind fun _ => post_bind fun _ => post_bind fun _ => post_pure uncaught_ack
    · exact post_bind fun _ => post_pure uncaught_ack
  | timeout p relayer =>
    refine post_bind fun c => ?_
    split
    · exact post_bind fun _ => post_timeoutCallback p relayer
    · exact post_timeoutCallback p relayer
  | receive p => exact post_panic

theorem dispatchList_split {one : RWorld → SubMsg → Option (RWorld × List Obs)} {m : SubMsg} {post : List SubMsg} :
    ∀ {pre : List SubMsg} {w w1 : RWorld} {o : List Obs}, dispatchList one w pre = some (w1, o) → one w1 m = none →
      dispatchList one w (pre ++ m :: post) = none
  | [], w, w1, o, h, h2 => by
    simp only [dispatchList, Option.some.injEq, Prod.mk.injEq] at h
    rw [List.nil_append, dispatchList, h.1, h2]
  | x :: pre, w, w1, o, h, h2 => by
    rw [dispatchList] at h
    rw [List.cons_append, dispatchList]
    cases hx : one w x with
    | none => rfl
    | some p =>
      obtain ⟨w2, o2⟩ := p
      rw [hx] at h
      dsimp only at h ⊢
      cases hp : dispatchList one w2 pre with
      | none => rw [hp] at h; cases h
      | some p =>
        obtain ⟨w3, o3⟩ := p
        rw [hp] at h
        simp only [Option.some.injEq, Prod.mk.injEq] at h
        obtain ⟨rfl, _⟩ := h
        rw [dispatchList_split hp h2]

theorem coreOpenInit_refused (api : Api) (w : RWorld) (m : Ica.P.MsgChannelOpenInit) (fresh : String) :
    coreOpenInit api w m fresh false = none := by
  unfold coreOpenInit
  split
  · rfl
  · split
    · rw [if_neg]
      rintro ⟨h, _⟩
      cases h
    · rfl

end Raw

/-- **C51.** On any storage, with any arguments: no entry point ever returns a submessage whose failure it would be told
about instead of failing with it. -/
theorem C51_nothing_is_caught {api : Api} {env : Env} {e : Entry} {raw raw' : Raw.RawStore} {r : Response}
    (h : e.run api env raw = (.ok r, raw')) : ∀ m ∈ r.messages, m.replyOn = .never ∨ m.replyOn = .success :=
  Raw.post_entry api env e _ _ _ h

/-- **C51.** So, in any world: if one of the messages an entry point returns fails when it is executed, after the ones
before it, then the whole call fails. -/
theorem C51_nested_failure_fails {api : Api} {env : Env} {e : Entry} {w w1 : Raw.RWorld} {raw' : Raw.RawStore}
    {r : Response} {fresh : String} {core : Bool} {depth : Nat} {pre post : List SubMsg} {m : SubMsg} {o : List Obs}
    (h : e.run api env w.raw = (.ok r, raw')) (hr : r.messages = pre ++ m :: post)
    (hpre : Raw.dispatchList (Raw.dispatch api fresh core (depth + 1)) { w with raw := raw' } pre = some (w1, o))
    (hm : Raw.execMsg api (Raw.dispatch api fresh core depth) fresh core w1 m.msg = none) :
    Raw.finish (Raw.dispatch api fresh core (depth + 1)) w (e.run api env) = none := by
  have hd : Raw.dispatch api fresh core (depth + 1) w1 m = none := by
    rw [Raw.dispatch, hm]
    have := C51_nothing_is_caught h m (by rw [hr]; simp)
    dsimp only
    rcases this with e | e <;> rw [e] <;> rfl
  unfold Raw.finish
  rw [h]
  dsimp only
  rw [hr, Raw.dispatchList_split hpre hd]

/-- **C51.** A call that fails or aborts commits nothing, wherever it stops. -/
theorem C51_failed_entry_fails {api : Api} {env : Env} {e : Entry} {w : Raw.RWorld} {raw' : Raw.RawStore}
    {one : Raw.RWorld → SubMsg → Option (Raw.RWorld × List Obs)}
    (h : (∃ x, e.run api env w.raw = (.err x, raw')) ∨ ∃ x, e.run api env w.raw = (.panic x, raw')) :
    Raw.finish one w (e.run api env) = none := by
  unfold Raw.finish
  rcases h with ⟨x, h⟩ | ⟨x, h⟩ <;> rw [h]

/-- **C51.** A transaction that fails, in whatever part of it, leaves the world to the following ones as it was. -/
theorem C51_failed_tx_no_trace {api : Api} {w : World} {t : Tx} (h : applyTx api w t = none) (ts : List Tx) :
    applyTxs api w (t :: ts) = applyTxs api w ts := by
  rw [applyTxs, h]

/-- The entry point does write before it fails: an instantiation with a bad callback address has stored the version
and the owner when it stops. -/
example : ∃ raw' e, Entry.run Ex.api Ex.env (.instantiate "deployer" (InstantiateMsg.jc.toBytes ⟨none, Ex.opts, some ""⟩))
      Raw.RawStore.empty = (.err e, raw') ∧ raw' (utf8 "ownership") ≠ none := by
  unfold Entry.run
  dsimp only
  unfold Raw.vmInstantiate Raw.withMsg
  rw [JC.ofBytes_toBytes InstantiateMsg.jc_law]
  refine ⟨_, _, rfl, ?_⟩
  intro h
  have : Raw.setKey (Raw.setKey Raw.RawStore.empty (utf8 "contract_info")
      (some (ContractVersion.jc.toBytes ⟨CONTRACT_NAME, CONTRACT_VERSION⟩))) (utf8 "ownership")
      (some (Ownership.jc.toBytes ⟨some "deployer", none, none⟩)) (utf8 "ownership") = none := h
  simp [Raw.setKey] at this

/-- A nested message that fails: the chain refuses the channel. -/
example : ∃ raw' r m, Entry.run Ex.api Ex.env (.instantiate "deployer" (InstantiateMsg.jc.toBytes Ex.inst))
      (Raw.RWorld.genesis Ex.env).raw = (.ok r, raw') ∧ r.messages = [] ++ m :: [] ∧
    Raw.execMsg Ex.api (Raw.dispatch Ex.api "channel-0" false 7) "channel-0" false
      { Raw.RWorld.genesis Ex.env with raw := raw' } m.msg = none := by
  unfold Entry.run
  dsimp only
  unfold Raw.vmInstantiate Raw.withMsg
  rw [JC.ofBytes_toBytes InstantiateMsg.jc_law]
  refine ⟨_, _, _, rfl, rfl, ?_⟩
  generalize Raw.dispatch Ex.api "channel-0" false 7 = d
  unfold Raw.execMsg SubMsg.new newIcaChannelOpenInitCosmosMsg
  dsimp only
  split
  · split
    · split
      · rw [Raw.coreOpenInit_refused]
      · rfl
    · rfl
  · next h => exact absurd rfl h

/-! ## C53 -/

/-- The callback address an operation sets, if it is one that sets it. -/
def Spec.setsCallback : Op → Option (Option String)
  | .instantiate _ msg _ _ => some msg.sendCallbacksTo
  | .execute _ (.updateCallbackAddress a) _ _ => some a
  | _ => none

/-- The last one set in a history of successful operations; none before the first. -/
def Spec.latestCallback : List (Op × List Obs) → Option String → Option String
  | [], cur => cur
  | x :: h, cur => latestCallback h ((setsCallback x.1).getD cur)

theorem latestCallback_append (h : List (Op × List Obs)) (x : Op × List Obs) (cur : Option String) :
    latestCallback (h ++ [x]) cur = (setsCallback x.1).getD (latestCallback h cur) := by
  induction h generalizing cur with
  | nil => rfl
  | cons y h ih => exact ih _

/-- In any world, an operation sets the callback address or leaves it alone. -/
theorem callback_step {api : Api} {w w' : World} {op : Op} {obs : List Obs} (h : apply api w op = some (w', obs)) :
    callbackOf w' = (setsCallback op).getD (callbackOf w) := by
  cases op with
  | block a b => obtain ⟨_, _, rfl, _⟩ := apply_block.mp h; rfl
  | instantiate sender msg fresh core => obtain ⟨_, _, _, _, _, _, _, rfl, _⟩ := apply_instantiate.mp h; rfl
  | execute sender msg fresh core =>
    cases msg with
    | createChannel o => obtain ⟨_, _, _, _, _, _, _, _, rfl, _⟩ := apply_create.mp h; rfl
    | closeChannel => obtain ⟨_, _, _, _, _, _, _, _, _, rfl, _⟩ := apply_close.mp h; rfl
    | updateCallbackAddress a => obtain ⟨_, _, _, st, hst, rfl, _⟩ := apply_callback.mp h; rfl
    | sendCosmosMsgs ms qs memo t =>
      obtain ⟨_, _, _, st, info, anys, cqs, c, ts, p, _, _, _, _, _, _, _, _, _, _, rfl, _⟩ := apply_send.mp h
      unfold storeAfterSend
      by_cases hq : qs = []
      · rw [if_pos hq]; rfl
      · rw [if_neg hq]; rfl
    | updateOwnership a =>
      cases a with
      | transferOwnership n e => obtain ⟨_, _, _, _, _, rfl, _⟩ := apply_transfer.mp h; rfl
      | acceptOwnership => obtain ⟨_, _, _, _, rfl, _⟩ := apply_accept.mp h; rfl
      | renounceOwnership => rw [apply_renounce] at h; cases h
  | migrate => obtain ⟨_, _, rfl, _⟩ := apply_migrate.mp h; rfl
  | relayOpenInit m fresh =>
    simp only [apply, applyWith] at h
    split at h
    · cases h
    · unfold coreOpenInit at h
      split at h
      · cases h
      · split at h
        · split at h
          · dsimp only at h
            split at h
            · next s v he =>
              obtain ⟨_, _, _, rfl, _⟩ := channelOpenInit_eq_ok.mp he
              obtain ⟨rfl, _⟩ := Prod.mk.inj (Option.some.inj h)
              rfl
            · cases h
            · cases h
          · cases h
        · cases h
  | relayOpenTry ch v => rw [apply_openTry] at h; cases h
  | relayOpenAck id cpId v =>
    obtain ⟨c, st, m, _, _, hst, _, _, hm, _, rfl, _⟩ := apply_openAck.mp h
    simp [callbackOf, hst, setsCallback]
  | relayOpenConfirm ch => rw [apply_openConfirm] at h; cases h
  | relayCloseInit id => obtain ⟨_, _, _, _, _, rfl, _⟩ := apply_relayCloseInit.mp h; rfl
  | relayCloseConfirm id => obtain ⟨_, _, _, _, rfl, _⟩ := apply_closeConfirm.mp h; rfl
  | relayRecv p => rw [apply_recv] at h; cases h
  | relayAck id seq ack relayer =>
    obtain ⟨_, _, _, _, _, _, _, ⟨_, _, _, _, rfl, _⟩ | ⟨_, _, rfl, _⟩⟩ := apply_ack.mp h <;> rfl
  | relayTimeout id seq relayer =>
    obtain ⟨_, _, _, _, _, _, _, _, rfl, _⟩ := apply_timeout.mp h; rfl

/-- **C53.** In every history, with callbacks that may call back into the contract: the callback address is the one set
last. -/
theorem C53_latest_wins {api : Api} {w0 w : World} {h : List (Op × List Obs)} (he : TxExec api w0 h w) :
    callbackOf w = latestCallback h (callbackOf w0) := by
  have he' := he.exec
  clear he
  induction he' with
  | nil => rfl
  | step _ ha ih => rw [latestCallback_append, callback_step ha, ih]

/-- **C53.** And it is the address every event uses: after any history from the start, an OpenAck, acknowledgement or
timeout calls the address set last, and nobody if that is none. -/
theorem C53_events_use_latest {api : Api} {env : Env} {h : List (Op × List Obs)} {w w' : World} {op : Op} {obs : List Obs}
    (he : TxExec api (World.genesis env) h w) (hc : Commits api w op w' obs) (hn : op.notifies = true) :
    match latestCallback h none with
    | some cb => ∃ bytes, callsOf obs = [(cb, bytes, [])]
    | none => callsOf obs = [] := by
  have hl := C53_latest_wins he
  rw [show callbackOf (World.genesis env) = none from rfl] at hl
  rw [← hl]
  cases hcb : callbackOf w with
  | none => exact C43_none_without_address hc hcb
  | some cb => exact C43_exactly_one hc hn hcb

/-- **C53.** Setting the callback address does not touch the ICA, the channel, the owner or anything on the chain. -/
theorem C53_update_touches_nothing_else {api : Api} {w w' : World} {sender fresh : String} {a : Option String}
    {core : Bool} {obs : List Obs} (h : Commits api w (.execute sender (.updateCallbackAddress a) fresh core) w' obs) :
    callbackOf w' = a ∧ icaOf w' = icaOf w ∧ obs = [] ∧
      w' = { w with store := { w.store with state := w'.store.state } } := by
  obtain ⟨_, _, _, st, hst, rfl, rfl⟩ := apply_callback.mp h
  exact ⟨rfl, by simp [icaOf, hst], rfl, rfl⟩

/-- **C53.** A handshake does not touch the callback address. -/
theorem C53_handshake_keeps {api : Api} {w w' : World} {id cpId v : String} {obs : List Obs}
    (h : Commits api w (.relayOpenAck id cpId v) w' obs) : callbackOf w' = callbackOf w := callback_step h

/-- In the scenario, the address is the one of the instantiation. -/
example : ∃ h, TxExec Ex.api (World.genesis Ex.env) h Ex.w2 ∧ latestCallback h none = some "cb" :=
  ⟨_, ((Exec.step .nil ((apply_iff_step (inv_genesis Ex.api Ex.env)).2 Ex.s1)).step
      ((apply_iff_step (inv_of_reachable Ex.r1)).2 Ex.s2)).txExec, rfl⟩

/-! ## C54 -/

/-- **C54.** The message `execute` builds goes to the wrapped address without funds, and the contract, run on its bytes,
does exactly what it does for the message that was passed. -/
theorem C54_execute (c : Helpers.Contract) (msg : ExecuteMsg) :
    ∃ bytes, c.execute msg = .wasm (.execute c.addr bytes []) ∧
      ∀ api env sender, Raw.vmExecute api env sender bytes = Raw.execute api env sender msg :=
  ⟨_, rfl, fun api env sender => by
    unfold Raw.vmExecute Raw.withMsg; rw [JC.ofBytes_toBytes ExecuteMsg.jc_law]⟩

/-- **C54.** Likewise `instantiate`: the wrapped code id, no funds, the given label and admin. -/
theorem C54_instantiate (c : Helpers.Code) (msg : InstantiateMsg) (label : String) (admin : Option String) :
    ∃ bytes, c.instantiate msg label admin = .wasm (.instantiate admin c.codeId bytes [] label) ∧
      ∀ api env sender, Raw.vmInstantiate api env sender bytes = Raw.instantiate api env sender msg :=
  ⟨_, rfl, fun api env sender => by
    unfold Raw.vmInstantiate Raw.withMsg; rw [JC.ofBytes_toBytes InstantiateMsg.jc_law]⟩

/-- **C54.** Likewise `instantiate2`, with the salt's bytes. -/
theorem C54_instantiate2 {c : Helpers.Code} {api : Helpers.AddrApi} {q : Helpers.Querier} {self label salt addr : String}
    {msg : InstantiateMsg} {admin : Option String} {m : CosmosMsg}
    (h : c.instantiate2 api q self msg label admin salt = some (m, addr)) :
    ∃ bytes, m = .wasm (.instantiate2 admin c.codeId label bytes [] (utf8 salt)) ∧
      ∀ api env sender, Raw.vmInstantiate api env sender bytes = Raw.instantiate api env sender msg := by
  unfold Helpers.Code.instantiate2 at h
  split at h
  · cases h
  split at h
  · cases h
  split at h
  · cases h
  split at h
  · cases h
  obtain ⟨rfl, _⟩ := Prod.mk.inj (Option.some.inj h)
  refine ⟨_, rfl, fun api env sender => ?_⟩
  unfold Raw.vmInstantiate Raw.withMsg
  rw [JC.ofBytes_toBytes InstantiateMsg.jc_law]

/-- **C54.** Likewise `migrate`, `update_admin` and `clear_admin`. -/
theorem C54_migrate (c : Helpers.Contract) (msg : MigrateMsg) (codeId : UInt64) :
    ∃ bytes, c.migrate msg codeId = .wasm (.migrate c.addr codeId bytes) ∧ Raw.vmMigrate bytes = Raw.migrate :=
  ⟨_, rfl, by unfold Raw.vmMigrate Raw.withMsg; rw [JC.ofBytes_toBytes MigrateMsg.jc_law]⟩

theorem C54_admin (c : Helpers.Contract) (admin : String) :
    c.updateAdmin admin = .wasm (.updateAdmin c.addr admin) ∧ c.clearAdmin = .wasm (.clearAdmin c.addr) := ⟨rfl, rfl⟩

/-! ## C55 -/

theorem be64_prefix (b : Bytes) : Wasmd.uint64LengthPrefix b = Helpers.be64 b.length ++ b := by
  unfold Wasmd.uint64LengthPrefix Helpers.be64
  simp [List.range, List.range.loop]

/-- The library's address and the chain's are computed differently, and agree. -/
theorem address_agrees {api : Helpers.AddrApi} {checksum creator salt a : Bytes}
    (h : Wasmd.predictable api.sha256 checksum creator salt = some a) :
    Helpers.instantiate2Address api checksum creator salt = some a := by
  unfold Wasmd.predictable at h
  split at h
  · next hc =>
    obtain ⟨h1, _, _, h4, h5⟩ := hc
    unfold Helpers.instantiate2Address
    rw [if_neg (by simpa using h1), if_neg]
    · rw [← Option.some.inj h]
      unfold Wasmd.moduleAddress
      simp only [be64_prefix, List.append_assoc, List.append_nil, List.length_nil]
    · rintro (rfl | h)
      · simp at h4
      · omega
  · cases h

/-- **C55.** If the caller sends the returned message and the chain, whose codes are as queried, executes it, then the new
contract has the returned address, the wrapped code and the given admin, label and message, and the caller as creator. -/
theorem C55_address_is_right {c : Helpers.Code} {api : Helpers.AddrApi} {q : Helpers.Querier}
    {self label salt addr : String} {msg : InstantiateMsg} {admin : Option String} {m : CosmosMsg} {codes : Wasmd.Codes}
    {taken : String → Bool} {created : Wasmd.Created}
    (h : c.instantiate2 api q self msg label admin salt = some (m, addr)) (hq : q.checksum c.codeId = codes c.codeId)
    (hc : Wasmd.instantiate2 api codes taken self m = some created) :
    created = ⟨addr, c.codeId, self, admin, label, InstantiateMsg.jc.toBytes msg, []⟩ := by
  unfold Helpers.Code.instantiate2 at h
  split at h
  · cases h
  next checksum hck =>
  split at h
  · cases h
  next creator hcr =>
  split at h
  · cases h
  next a ha =>
  split at h
  · cases h
  next ad had =>
  obtain ⟨rfl, rfl⟩ := Prod.mk.inj (Option.some.inj h)
  unfold Wasmd.instantiate2 at hc
  dsimp only at hc
  rw [← hq, hck, hcr] at hc
  dsimp only at hc
  split at hc
  · next a' ha' =>
    have := address_agrees ha'
    rw [ha] at this
    obtain rfl := Option.some.inj this
    rw [had] at hc
    dsimp only at hc
    split at hc
    · cases hc
    · exact (Option.some.inj hc).symm
  · cases hc

/-- **C55.** The chain does execute it, unless the address is taken already: the caller's address being one of 1 to 255
bytes, the salt is good whenever `instantiate2` returned. -/
theorem C55_chain_accepts {c : Helpers.Code} {api : Helpers.AddrApi} {q : Helpers.Querier}
    {self label salt addr : String} {msg : InstantiateMsg} {admin : Option String} {m : CosmosMsg} {codes : Wasmd.Codes}
    {taken : String → Bool} (h : c.instantiate2 api q self msg label admin salt = some (m, addr))
    (hq : q.checksum c.codeId = codes c.codeId)
    (hl : ∀ b, api.canonicalize self = some b → b ≠ [] ∧ b.length ≤ 255) (hf : taken addr = false) :
    Wasmd.instantiate2 api codes taken self m =
      some ⟨addr, c.codeId, self, admin, label, InstantiateMsg.jc.toBytes msg, []⟩ := by
  unfold Helpers.Code.instantiate2 at h
  split at h
  · cases h
  next checksum hck =>
  split at h
  · cases h
  next creator hcr =>
  split at h
  · cases h
  next a ha =>
  split at h
  · cases h
  next ad had =>
  obtain ⟨rfl, rfl⟩ := Prod.mk.inj (Option.some.inj h)
  unfold Wasmd.instantiate2
  dsimp only
  rw [← hq, hck, hcr]
  dsimp only
  have hp : Wasmd.predictable api.sha256 checksum creator (utf8 salt) = some a := by
    have hx : ∃ b, Wasmd.predictable api.sha256 checksum creator (utf8 salt) = some b := by
      unfold Helpers.instantiate2Address at ha
      split at ha
      · cases ha
      next h1 =>
      split at ha
      · cases ha
      next h2 =>
      unfold Wasmd.predictable
      rw [if_pos]
      · exact ⟨_, rfl⟩
      · obtain ⟨h3, h4⟩ := hl _ hcr
        refine ⟨not_not.mp h1, h3, h4, ?_, by omega⟩
        rw [Nat.one_le_iff_ne_zero]
        intro h5
        exact h2 (.inl (List.length_eq_zero_iff.mp h5))
    obtain ⟨b, hb⟩ := hx
    rw [address_agrees hb] at ha
    rw [hb, ha]
  rw [hp]
  dsimp only
  rw [had]
  dsimp only
  rw [hf]
  rfl

theorem be64_len_inj {a b : Nat} (ha : a < 18446744073709551616) (hb : b < 18446744073709551616)
    (h : Helpers.be64 a = Helpers.be64 b) : a = b := by
  unfold Helpers.be64 at h
  simp only [List.cons.injEq, and_true] at h
  obtain ⟨h7, h6, h5, h4, h3, h2, h1, h0⟩ := h
  have e0 := Raw.ofNat8_eq h0
  have e1 := Raw.ofNat8_eq h1
  have e2 := Raw.ofNat8_eq h2
  have e3 := Raw.ofNat8_eq h3
  have e4 := Raw.ofNat8_eq h4
  have e5 := Raw.ofNat8_eq h5
  have e6 := Raw.ofNat8_eq h6
  have e7 := Raw.ofNat8_eq h7
  omega

theorem framed_inj {x y r s : Bytes} (hx : x.length < 18446744073709551616) (hy : y.length < 18446744073709551616)
    (h : Helpers.be64 x.length ++ (x ++ r) = Helpers.be64 y.length ++ (y ++ s)) : x = y ∧ r = s := by
  obtain ⟨h1, h2⟩ := List.append_inj h rfl
  exact List.append_inj h2 (be64_len_inj hx hy h1)

/-- **C55.** The address is the hash of a text from which the checksum, the creator and the salt can be read back: two
different requests never hash the same text, so they get the same address only if the hash function collides on their two
texts. -/
theorem C55_different_salts_differ (api : Helpers.AddrApi) :
    ∃ text : Bytes → Bytes → Bytes → Bytes,
      (∀ k c s a, Helpers.instantiate2Address api k c s = some a → a = api.sha256 (text k c s)) ∧
      ∀ k c s k' c' s' a a', Helpers.instantiate2Address api k c s = some a →
        Helpers.instantiate2Address api k' c' s' = some a' → c.length ≤ 255 → c'.length ≤ 255 →
        text k c s = text k' c' s' → k = k' ∧ c = c' ∧ s = s' := by
  refine ⟨fun k c s => api.sha256 (utf8 "module") ++ (utf8 "wasm" ++ [0] ++ Helpers.be64 k.length ++ k ++
    Helpers.be64 c.length ++ c ++ Helpers.be64 s.length ++ s ++ Helpers.be64 0), ?_, ?_⟩
  · intro k c s a h
    unfold Helpers.instantiate2Address at h
    split at h
    · cases h
    split at h
    · cases h
    exact (Option.some.inj h).symm
  · intro k c s k' c' s' a a' h h' hc hc' e2
    unfold Helpers.instantiate2Address at h h'
    split at h
    · cases h
    next k32 =>
    split at h
    · cases h
    next s64 =>
    split at h'
    · cases h'
    next k32' =>
    split at h'
    · cases h'
    next s64' =>
    have e3 := List.append_cancel_left e2
    simp only [List.append_assoc] at e3
    have e4 := List.append_cancel_left (List.append_cancel_left e3)
    have lk := not_not.mp k32
    have lk' := not_not.mp k32'
    obtain ⟨rfl, e5⟩ := framed_inj (by omega) (by omega) e4
    obtain ⟨rfl, e6⟩ := framed_inj (by omega) (by omega) e5
    have ls : s.length ≤ 64 := by
      by_contra hh; exact s64 (.inr (by omega))
    have ls' : s'.length ≤ 64 := by
      by_contra hh; exact s64' (.inr (by omega))
    obtain ⟨rfl, _⟩ := framed_inj (by omega) (by omega) e6
    exact ⟨rfl, rfl, rfl⟩

/-- An address codec and a code for the example. -/
def Ex.addrApi : Helpers.AddrApi := ⟨fun s => some (utf8 s), fun b => some (String.ofList (b.map fun x => Char.ofNat x.toNat)),
  fun b => b.take 20⟩
/-- A chain with one code. -/
def Ex.querier : Helpers.Querier := ⟨fun _ _ => none, fun n => if n = 7 then some (List.replicate 32 1) else none⟩

example : ∃ m addr, (Helpers.Code.mk 7).instantiate2 Ex.addrApi Ex.querier "wasm1caller" Ex.inst "label" none "salt" =
    some (m, addr) := by
  unfold Helpers.Code.instantiate2
  exact ⟨_, _, rfl⟩

end Ica
