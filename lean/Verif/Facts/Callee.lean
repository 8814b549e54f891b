import Verif.Facts.Tx
import Verif.Spec.Observe

/-!
# What a called contract can do to an operation

For every called contract: an operation that calls nobody does not depend on it; an operation that calls it does
everything else first, then the call runs, and if the call fails the operation fails.
-/
namespace Ica
open Spec

/-- An operation followed by the call it makes. -/
def afterCall (callee : Callee) (r : Option (World × List Obs)) : Option (World × List Obs) :=
  match r with
  | none => none
  | some (w, obs) =>
    match callsOf obs with
    | [] => some (w, obs)
    | (a, m, f) :: _ =>
      match callee w a m f with
      | none => none
      | some w' => some (w', obs)

/-- Messages that call no contract and never lead to one. -/
inductive Plain : List SubMsg → Prop where
  | none : Plain []
  | stargate (u : String) (v : Bytes) : Plain [.new (.stargate u v)]
  | close (id : String) : Plain [.new (.ibc (.closeChannel id))]
  | send (qs : List QueryRequest) (id : String) (d : Bytes) (t : IbcTimeout) : Plain [sendSubMsg qs (.sendPacket id d t)]

theorem finish_close {one two : World → SubMsg → Option (World × List Obs)} {w : World} {m : CloseMsg} :
    finish one w (ibcChannelClose w.store m) = finish two w (ibcChannelClose w.store m) := by
  cases h : ibcChannelClose w.store m with
  | ok p => obtain ⟨s, x⟩ := p; rw [ibcChannelClose_empty h]; rfl
  | err e => rfl
  | panic e => rfl

theorem coreCloseInit_any (one two : World → SubMsg → Option (World × List Obs)) (w : World) (id : String)
    (core : Bool) : coreCloseInit one w id core = coreCloseInit two w id core := by
  unfold coreCloseInit
  cases w.chans id with
  | none => rfl
  | some c => dsimp only; rw [finish_close (one := one) (two := two)]

theorem reply_empty {s s' : Store} {id : UInt64} {d : Option Bytes} {x : Response}
    (h : reply s id (.ok d) = .ok (s', x)) : x = .empty := by
  unfold reply at h
  split at h
  · obtain ⟨_, _, _, _, _, _, _, _, _, h⟩ := replySendQueryPacket_eq_ok.1 h
    exact h
  · cases h

theorem dispatchList_congr {one two : World → SubMsg → Option (World × List Obs)} {w : World} {m : SubMsg}
    (h : one w m = two w m) : dispatchList one w [m] = dispatchList two w [m] := by
  unfold dispatchList
  rw [h]
  cases two w m with
  | none => rfl
  | some p => rfl

theorem dispatch_new (callee : Callee) (api : Api) (fresh : String) (core : Bool) (n : Nat) (w : World) (m : CosmosMsg) :
    dispatch callee api fresh core (n + 1) w (.new m) =
      match execMsg callee api (dispatch callee api fresh core n) fresh core w m with
      | some (w', _, obs) => some (w', obs)
      | none => none := by
  rw [dispatch.eq_2]
  simp only [SubMsg.new]
  cases execMsg callee api (dispatch callee api fresh core n) fresh core w m with
  | none => rfl
  | some p => rfl

theorem execMsg_stargate (callee : Callee) (api : Api) (one two : World → SubMsg → Option (World × List Obs))
    (fresh : String) (core : Bool) (w : World) (u : String) (v : Bytes) :
    execMsg callee api one fresh core w (.stargate u v) = execMsg quiet api two fresh core w (.stargate u v) := by
  rw [execMsg.eq_1, execMsg.eq_1]

theorem execMsg_close (callee : Callee) (api : Api) (one two : World → SubMsg → Option (World × List Obs))
    (fresh : String) (core : Bool) (w : World) (id : String) :
    execMsg callee api one fresh core w (.ibc (.closeChannel id)) =
      execMsg quiet api two fresh core w (.ibc (.closeChannel id)) := by
  rw [execMsg.eq_2, execMsg.eq_2, coreCloseInit_any one two]

theorem execMsg_send (callee : Callee) (api : Api) (one two : World → SubMsg → Option (World × List Obs))
    (fresh : String) (core : Bool) (w : World) (id : String) (d : Bytes) (t : IbcTimeout) :
    execMsg callee api one fresh core w (.ibc (.sendPacket id d t)) =
      execMsg quiet api two fresh core w (.ibc (.sendPacket id d t)) := by
  rw [execMsg.eq_3, execMsg.eq_3]

theorem finish_reply (one two : World → SubMsg → Option (World × List Obs)) (w : World) (id : UInt64) (d : Option Bytes) :
    finish one w (reply w.store id (.ok d)) = finish two w (reply w.store id (.ok d)) := by
  cases h : reply w.store id (.ok d) with
  | ok p => obtain ⟨s, x⟩ := p; rw [reply_empty h]; rfl
  | err e => rfl
  | panic e => rfl

theorem dispatch_plain (callee : Callee) (api : Api) (fresh : String) (core : Bool) (n : Nat) (w : World)
    {l : List SubMsg} (h : Plain l) : dispatchList (dispatch callee api fresh core (n + 1)) w l =
      dispatchList (dispatch quiet api fresh core (n + 1)) w l := by
  cases h with
  | none => rfl
  | stargate u v =>
    apply dispatchList_congr
    rw [dispatch_new, dispatch_new, execMsg_stargate callee api _ (dispatch quiet api fresh core n)]
  | close id =>
    apply dispatchList_congr
    rw [dispatch_new, dispatch_new, execMsg_close callee api _ (dispatch quiet api fresh core n)]
  | send qs id d t =>
    apply dispatchList_congr
    unfold sendSubMsg
    split
    · rw [dispatch_new, dispatch_new, execMsg_send callee api _ (dispatch quiet api fresh core n)]
    · rw [dispatch.eq_2, dispatch.eq_2]
      dsimp only
      rw [execMsg_send callee api _ (dispatch quiet api fresh core n)]
      cases execMsg quiet api (dispatch quiet api fresh core n) fresh core w (.ibc (.sendPacket id d t)) with
      | none => rfl
      | some p =>
        obtain ⟨w', r, obs⟩ := p
        dsimp only
        rw [finish_reply (dispatch callee api fresh core n) (dispatch quiet api fresh core n)]

theorem finish_congr {one two : World → SubMsg → Option (World × List Obs)} {w : World} {r : Res (Store × Response)}
    (h : ∀ s x, r = .ok (s, x) → dispatchList one { w with store := s } x.messages =
      dispatchList two { w with store := s } x.messages) : finish one w r = finish two w r := by
  cases r with
  | ok p =>
    obtain ⟨s, x⟩ := p
    unfold finish
    dsimp only
    rw [h s x rfl]
  | err e => rfl
  | panic e => rfl

theorem maxDepth_eq : maxDepth = 7 + 1 := rfl

theorem finish_plain (callee : Callee) (api : Api) (fresh : String) (core : Bool) (w : World)
    {r : Res (Store × Response)} (h : ∀ s x, r = .ok (s, x) → Plain x.messages) :
    finish (dispatch callee api fresh core maxDepth) w r = finish (dispatch quiet api fresh core maxDepth) w r := by
  rw [maxDepth_eq]
  generalize 7 = k
  exact finish_congr fun s x hx => dispatch_plain callee api fresh core k _ (h s x hx)

theorem dispatch_callee (callee : Callee) (api : Api) (fresh : String) (core : Bool) (n : Nat) (w : World) (a : String)
    (m : Bytes) (f : List Coin) :
    dispatch callee api fresh core (n + 1) w (.new (.wasm (.execute a m f))) =
      match callee w a m f with
      | some w' => some (w', [.call a m f])
      | none => none := by
  rw [dispatch_new]
  unfold execMsg
  dsimp only
  cases callee w a m f <;> rfl

theorem finish_event (callee : Callee) (api : Api) (w : World) {r : Res (Store × Response)}
    (h : ∀ s x, r = .ok (s, x) → x.messages = [] ∨ ∃ a m f, x.messages = [.new (.wasm (.execute a m f))]) :
    finish (dispatch callee api "" false maxDepth) w r =
      afterCall callee (finish (dispatch quiet api "" false maxDepth) w r) := by
  rw [maxDepth_eq]
  generalize 7 = k
  cases r with
  | err e => rfl
  | panic e => rfl
  | ok p =>
    obtain ⟨s, x⟩ := p
    have hev : ∀ l : List Event, callsOf (l.map Obs.event) = [] := by
      intro l; induction l with
      | nil => rfl
      | cons e l ih => exact ih
    rcases h s x rfl with h | ⟨a, m, f, h⟩
    · simp [finish, h, dispatchList, afterCall, hev]
    · have hc : callsOf (x.events.map Obs.event ++ [.call a m f]) = [(a, m, f)] := by
        simp only [callsOf, List.filterMap_append]
        have := hev x.events
        unfold callsOf at this
        rw [this]
        rfl
      simp only [finish, h, dispatchList, dispatch_callee, quiet, afterCall, List.append_nil, hc]
      cases callee { w with store := s } a m f <;> rfl

theorem plain_empty {r : Res (Store × Response)} (h : ∀ s x, r = .ok (s, x) → x = .empty) :
    ∀ s x, r = .ok (s, x) → Plain x.messages := by
  intro s x hx; rw [h s x hx]; exact .none

/-- The messages of every successful execute. -/
theorem plain_execute {api : Api} {env : Env} {st : Store} {sender : String} {msg : ExecuteMsg} :
    ∀ s x, execute api env st sender msg = .ok (s, x) → Plain x.messages := by
  intro s x h
  cases msg with
  | createChannel o =>
    obtain ⟨_, o', _, _, rfl⟩ := createChannel_eq_ok.1 h
    exact .stargate _ _
  | closeChannel =>
    obtain ⟨_, c, _, _, _, rfl⟩ := closeChannel_eq_ok.1 h
    exact .close _
  | sendCosmosMsgs ms qs memo t =>
    obtain ⟨_, _, _, _, _, _, _, _, _, _, _, _, _, rfl⟩ := sendCosmosMsgs_eq_ok.1 h
    exact .send _ _ _ _
  | updateCallbackAddress a =>
    obtain ⟨_, _, _, _, _, rfl⟩ := updateCallbackAddress_eq_ok.1 h
    exact .none
  | updateOwnership a =>
    cases a with
    | transferOwnership n e => obtain ⟨_, _, _, _, _, rfl⟩ := transfer_eq_ok.1 h; exact .none
    | acceptOwnership => obtain ⟨_, _, _, _, rfl⟩ := accept_eq_ok.1 h; exact .none
    | renounceOwnership => simp only [execute, renounce_err] at h; cases h

theorem calls_coreOpenInit {api : Api} {w w' : World} {m : P.MsgChannelOpenInit} {fresh : String} {core : Bool}
    {obs : List Obs} (h : coreOpenInit api w m fresh core = some (w', obs)) : callsOf obs = [] := by
  unfold coreOpenInit at h
  split at h
  · cases h
  · split at h
    · split at h
      · dsimp only at h
        split at h
        · injection h with h; injection h with _ h; rw [← h]; rfl
        · cases h
        · cases h
      · cases h
    · cases h

theorem no_calls {api : Api} {w w' : World} {op : Op} {obs : List Obs} (h : apply api w op = some (w', obs))
    (hn : op.notifies = false) : callsOf obs = [] := by
  cases op with
  | block a b => obtain ⟨_, _, _, rfl⟩ := apply_block.1 h; rfl
  | instantiate a b c d => obtain ⟨_, _, _, _, _, _, _, _, rfl⟩ := apply_instantiate.1 h; rfl
  | migrate => obtain ⟨_, _, _, rfl⟩ := apply_migrate.1 h; rfl
  | execute sender msg fresh core =>
    cases msg with
    | createChannel o => obtain ⟨_, _, _, _, _, _, _, _, _, rfl⟩ := apply_create.1 h; rfl
    | closeChannel => obtain ⟨_, _, _, _, _, _, _, _, _, _, rfl⟩ := apply_close.1 h; rfl
    | sendCosmosMsgs ms qs memo t =>
      obtain ⟨_, _, _, _, _, _, _, _, _, p, _, _, _, _, _, _, _, _, _, _, _, rfl⟩ := apply_send.1 h; rfl
    | updateCallbackAddress a => obtain ⟨_, _, _, _, _, _, rfl⟩ := apply_callback.1 h; rfl
    | updateOwnership a =>
      cases a with
      | transferOwnership n e => obtain ⟨_, _, _, _, _, _, rfl⟩ := apply_transfer.1 h; rfl
      | acceptOwnership => obtain ⟨_, _, _, _, _, rfl⟩ := apply_accept.1 h; rfl
      | renounceOwnership => rw [apply_renounce] at h; cases h
  | relayOpenInit m fresh =>
    simp only [apply, applyWith] at h
    split at h
    · cases h
    · exact calls_coreOpenInit h
  | relayOpenTry a b => cases h
  | relayOpenConfirm a => cases h
  | relayCloseInit id => obtain ⟨_, _, _, _, _, _, rfl⟩ := apply_relayCloseInit.1 h; rfl
  | relayCloseConfirm id => obtain ⟨_, _, _, _, _, rfl⟩ := apply_closeConfirm.1 h; rfl
  | relayRecv p => cases h
  | relayOpenAck a b c => cases hn
  | relayAck a b c d => cases hn
  | relayTimeout a b c => cases hn

theorem afterCall_none {callee : Callee} {api : Api} {w : World} {op : Op} (hn : op.notifies = false) :
    afterCall callee (apply api w op) = apply api w op := by
  cases h : apply api w op with
  | none => rfl
  | some r =>
    obtain ⟨w', obs⟩ := r
    simp [afterCall, no_calls h hn]

attribute [local irreducible] dispatch

/-- Every operation with every called contract. -/
theorem applyWith_eq (callee : Callee) (api : Api) (w : World) (op : Op) :
    applyWith callee api w op = afterCall callee (apply api w op) := by
  cases op with
  | block a b => rw [afterCall_none rfl]; rfl
  | instantiate sender msg fresh core =>
    rw [afterCall_none rfl]
    simp only [apply, applyWith]
    rw [finish_plain callee]
    intro s x h
    obtain ⟨_, _, _, rfl⟩ := instantiate_eq_ok.1 h
    exact .stargate _ _
  | execute sender msg fresh core =>
    rw [afterCall_none rfl]
    simp only [apply, applyWith]
    rw [finish_plain callee _ _ _ _ plain_execute]
  | migrate =>
    rw [afterCall_none rfl]
    simp only [apply, applyWith]
    rw [finish_plain callee]
    exact plain_empty fun s x hx => (migrate_eq_ok.1 hx).2.2.2
  | relayOpenInit m fresh => rw [afterCall_none rfl]; rfl
  | relayOpenTry a b => rfl
  | relayOpenConfirm a => rfl
  | relayRecv p => rfl
  | relayCloseInit id =>
    rw [afterCall_none rfl]
    exact coreCloseInit_any _ _ _ _ _
  | relayCloseConfirm id =>
    rw [afterCall_none rfl]
    simp only [apply, applyWith]
    cases w.chans id with
    | none => rfl
    | some c => dsimp only; rw [finish_close (two := dispatch quiet api "" false maxDepth)]
  | relayOpenAck id cpId v =>
    simp only [apply, applyWith]
    cases w.chans id with
    | none => rfl
    | some c =>
      dsimp only
      split
      · refine finish_event callee api _ fun s x h => ?_
        obtain ⟨st, m, _, _, _, _, _, _, rfl⟩ := channelOpenAck_eq_ok.1 h
        unfold openAckResponse
        split
        · exact .inr ⟨_, _, _, rfl⟩
        · exact .inl rfl
      · rfl
  | relayAck id n ack relayer =>
    simp only [apply, applyWith]
    split
    · split
      · refine finish_event callee api _ fun s x h => ?_
        rcases ibcPacketAck_eq_ok.1 h with ⟨_, _, _, _, _, _, _, rfl⟩ | ⟨_, _, _, _, _, rfl⟩
        · unfold ackResponse
          split
          · exact .inr ⟨_, _, _, rfl⟩
          · exact .inl rfl
        · unfold ackResponse
          split
          · exact .inr ⟨_, _, _, rfl⟩
          · exact .inl rfl
      · rfl
    · rfl
  | relayTimeout id n relayer =>
    simp only [apply, applyWith]
    split
    · refine finish_event callee api _ fun s x h => ?_
      obtain ⟨_, _, _, _, _, rfl⟩ := ibcPacketTimeout_eq_ok.1 h
      unfold timeoutResponse
      split
      · exact .inr ⟨_, _, _, rfl⟩
      · exact .inl rfl
    · rfl

end Ica
