import Verif.Props.Misc
import Verif.Spec.OwnerWorld

/-!
# Contracts that receive the callbacks (C61-C65)
-/
namespace Ica
open Spec

/-! ## C61 -/

theorem snake_callback : snakeCase "ReceiveIcaCallback" = "receive_ica_callback" := by decide +kernel

theorem find_map {ρ σ : Type} {f : Variant ρ → Variant σ} (hf : ∀ x, (f x).ident = x.ident) (k : String)
    (vs : List (Variant ρ)) :
    (vs.map f).find? (fun x => snakeCase x.ident = k) = (vs.find? fun x => snakeCase x.ident = k).map f := by
  induction vs with
  | nil => rfl
  | cons v vs ih =>
    rw [List.map_cons, List.find?_cons, List.find?_cons, hf]
    split <;> first | rfl | exact ih

theorem merge_find {ρ σ : Type} {vs : List (Variant ρ)} {dec : Json → Option σ} {new : List (Variant (ρ ⊕ σ))}
    (h : mergeVariants [] (.enum vs) [⟨"ReceiveIcaCallback", dec⟩] = some new) (j : Json) :
    (∀ v, j = .obj [("receive_ica_callback", v)] → (∀ x ∈ vs, snakeCase x.ident ≠ "receive_ica_callback") →
      decodeEnum new j = (dec v).map .inr) ∧
    ((∀ v, j ≠ .obj [("receive_ica_callback", v)]) → decodeEnum new j = (decodeEnum vs j).map .inl) := by
  obtain rfl := Option.some.inj h
  constructor
  · rintro v rfl hn
    unfold decodeEnum
    dsimp only
    rw [List.find?_append, find_map (f := fun x => ⟨x.ident, fun j => (x.dec j).map Sum.inl⟩) (fun x => rfl),
      List.find?_eq_none.mpr (fun x hx => by simpa using hn x hx)]
    simp [snake_callback]
  · intro hj
    unfold decodeEnum
    split
    · next k v =>
      have hk : k ≠ "receive_ica_callback" := fun e => hj v (by rw [e])
      rw [List.find?_append, find_map (f := fun x => ⟨x.ident, fun j => (x.dec j).map Sum.inl⟩) (fun x => rfl)]
      cases hf : vs.find? (fun x => snakeCase x.ident = k) with
      | none => simp [snake_callback, hk.symm]
      | some x => simp
    · rfl

/-- **C61.** The macro on any enum without a variant that would clash: the extended enum reads every callback the
controller sends, whatever it is about, as the new variant holding that callback. -/
theorem C61_reads_callbacks {ρ : Type} {vs : List (Variant ρ)} {new : List (Variant (ρ ⊕ CallbackMsg))}
    (h : icaCallbackExecute [] (.enum vs) = some new)
    (hn : ∀ x ∈ vs, snakeCase x.ident ≠ "receive_ica_callback") (m : CallbackMsg) :
    (jsonOfBytes m.intoJsonBinary).bind (decodeEnum new) = some (.inr m) := by
  rw [show m.intoJsonBinary = jsonToBytes (.obj [("receive_ica_callback", CallbackMsg.jc.enc m)]) from rfl,
    jsonOfBytes_toBytes]
  rw [Option.bind_some, (merge_find h _).1 _ rfl hn, CallbackMsg.jc_law]
  rfl

/-- **C61.** And in a history: every call the controller makes is read that way by a contract using the macro. -/
theorem C61_reads_every_call {ρ : Type} {vs : List (Variant ρ)} {new : List (Variant (ρ ⊕ CallbackMsg))}
    (h : icaCallbackExecute [] (.enum vs) = some new) (hn : ∀ x ∈ vs, snakeCase x.ident ≠ "receive_ica_callback")
    {api : Api} {w w' : World} {op : Op} {obs : List Obs} (hc : Commits api w op w' obs)
    {c : String × Bytes × List Coin} (hm : c ∈ callsOf obs) :
    ∃ m, (jsonOfBytes c.2.1).bind (decodeEnum new) = some (.inr m) := by
  cases ho : op.notifies with
  | false => rw [C43_no_other hc ho] at hm; cases hm
  | true =>
    obtain ⟨m, e⟩ := notify_calls hc ho
    rw [e, callsOf_callObs] at hm
    cases hcb : callbackOf w with
    | none => rw [hcb] at hm; cases hm
    | some a =>
      rw [hcb] at hm
      rw [List.mem_singleton.mp hm]
      exact ⟨m, C61_reads_callbacks h hn m⟩

/-- **C61.** Everything else is read as without the macro. -/
theorem C61_others_unchanged {ρ : Type} {vs : List (Variant ρ)} {new : List (Variant (ρ ⊕ CallbackMsg))}
    (h : icaCallbackExecute [] (.enum vs) = some new) (j : Json) (hj : ∀ v, j ≠ .obj [("receive_ica_callback", v)]) :
    decodeEnum new j = (decodeEnum vs j).map .inl := (merge_find h j).2 hj

/-- **C61.** It takes no arguments and enums only. -/
theorem C61_enums_only {ρ : Type} (args : List String) (input : DeriveInput ρ) :
    (∃ new, icaCallbackExecute args input = some new) ↔ args = [] ∧ ∃ vs, input = .enum vs := by
  unfold icaCallbackExecute mergeVariants
  split
  · exact ⟨fun _ => ⟨rfl, _, rfl⟩, fun _ => ⟨_, rfl⟩⟩
  · next hx =>
    constructor
    · rintro ⟨_, h⟩; cases h
    · rintro ⟨rfl, vs, rfl⟩; exact absurd rfl (hx vs rfl)

/-- The owner contract's enum has no clashing variant. -/
example : ∀ x ∈ Owner.ownVariants, snakeCase x.ident ≠ "receive_ica_callback" := by
  intro x hx
  simp only [Owner.ownVariants, List.mem_cons, List.not_mem_nil, or_false] at hx
  rcases hx with rfl | rfl <;> decide +kernel

/-! ## C62 -/

/-- A callback as a receiver without the `query` feature sees it: the same without the query result. -/
def Spec.withoutQueryResult : CallbackMsg → CallbackMsg
  | .onAcknowledgementPacketCallback a p r _ => .onAcknowledgementPacketCallback a p r none
  | m => m

/-- **C62.** A receiver built without the `query` feature understands every callback, and sees all of it but the query
result. -/
theorem C62_plain_receiver (m : CallbackMsg) :
    CallbackMsg.decPlain (CallbackMsg.jc.enc m) = some (withoutQueryResult m) := by
  cases m with
  | onAcknowledgementPacketCallback a p r q =>
    rcases q with _ | q <;>
      simp [CallbackMsg.decPlain, CallbackMsg.jc, withoutQueryResult, getObj, countKey, lookupKey, reqF, skipNone,
        AckData.jc_law _, IbcPacket.jc_law _, jcStr_law _]
  | onTimeoutPacketCallback p r => exact CallbackMsg.jc_law (.onTimeoutPacketCallback p r)
  | onChannelOpenAckCallback c a e => exact CallbackMsg.jc_law (.onChannelOpenAckCallback c a e)

/-- **C62.** A client built without the `query` feature is understood by the contract: its `SendCosmosMsgs` is run as the
same message without queries. -/
theorem C62_plain_client (ms : List CosmosMsg) (memo : Option String) (timeout : Option UInt64) (api : Api) (env : Env)
    (sender : String) :
    Raw.vmExecute api env sender (jsonToBytes (sendCosmosMsgsPlain ms memo timeout)) =
      Raw.execute api env sender (.sendCosmosMsgs ms [] memo timeout) := by
  have : sendCosmosMsgsPlain ms memo timeout = ExecuteMsg.jc.enc (.sendCosmosMsgs ms [] memo timeout) := by
    simp [sendCosmosMsgsPlain, ExecuteMsg.jc, skipEmpty]
  rw [this]
  unfold Raw.vmExecute Raw.withMsg
  rw [show jsonToBytes (ExecuteMsg.jc.enc (.sendCosmosMsgs ms [] memo timeout)) =
    ExecuteMsg.jc.toBytes (.sendCosmosMsgs ms [] memo timeout) from rfl, JC.ofBytes_toBytes ExecuteMsg.jc_law]

/-- The feature makes a difference on the wire: with it the callback has one more field. -/
example : CallbackMsg.jc.dec (CallbackMsg.jc.enc (.onAcknowledgementPacketCallback (.error "e") Ex.pkt "r" (some (.error "e")))) ≠
    CallbackMsg.decPlain (CallbackMsg.jc.enc (.onAcknowledgementPacketCallback (.error "e") Ex.pkt "r" (some (.error "e")))) := by
  rw [C62_plain_receiver, CallbackMsg.jc_law]
  simp [withoutQueryResult]

/-! ## C63 -/

/-- The callback counter called with each message in turn; `none` if one of the calls fails. -/
def Spec.feed (raw : Raw.RawStore) : List Bytes → Option Raw.RawStore
  | [] => some raw
  | b :: bs =>
    match Counter.execute b raw with
    | (.ok _, raw') => feed raw' bs
    | _ => none

/-- The messages by which the controller called the address, in order. -/
def Spec.deliveries (addr : String) (h : List (Op × List Obs)) : List Bytes :=
  (h.flatMap fun x => callsOf x.2).filterMap fun c => if c.1 = addr then some c.2.1 else none

/-- About a packet that was executed. -/
def Spec.isSuccess : CallbackMsg → Bool
  | .onAcknowledgementPacketCallback (.result _) _ _ _ => true
  | _ => false
/-- About a packet that was refused. -/
def Spec.isError : CallbackMsg → Bool
  | .onAcknowledgementPacketCallback (.error _) _ _ _ => true
  | _ => false
/-- About a packet that timed out. -/
def Spec.isTimeout : CallbackMsg → Bool
  | .onTimeoutPacketCallback _ _ => true
  | _ => false

/-- The acknowledgement or the timeout of a packet. -/
def Op.isSettling : Op → Bool
  | .relayAck .. | .relayTimeout .. => true
  | _ => false

/-- How many packets were settled in the history while the address was the callback address. -/
def Spec.settledFor (addr : String) : List (Op × List Obs) → Option String → Nat
  | [], _ => 0
  | x :: h, cur =>
    (if x.1.isSettling = true ∧ cur = some addr then 1 else 0) + settledFor addr h ((setsCallback x.1).getD cur)

theorem CallbackCounter.jc_law : CallbackCounter.jc.Law := by
  intro x
  cases x
  simp [CallbackCounter.jc, getObj, countKey, lookupKey, reqF, jcList_law CallbackMsg.jc_law _]

/-- The counter after being told the messages. -/
def CallbackCounter.told (c : CallbackCounter) (ms : List CallbackMsg) : CallbackCounter :=
  ⟨c.success ++ ms.filter isSuccess, c.error ++ ms.filter isError, c.timeout ++ ms.filter isTimeout⟩

/-- The list a message goes to. -/
theorem told_one (c : CallbackCounter) (m : CallbackMsg) : c.told [m] =
    match m with
    | .onAcknowledgementPacketCallback (.result _) _ _ _ => { c with success := c.success ++ [m] }
    | .onAcknowledgementPacketCallback (.error _) _ _ _ => { c with error := c.error ++ [m] }
    | .onTimeoutPacketCallback _ _ => { c with timeout := c.timeout ++ [m] }
    | .onChannelOpenAckCallback _ _ _ => c := by
  rcases m with ⟨_ | _, _, _, _⟩ | ⟨_, _⟩ | ⟨_, _, _⟩ <;>
    simp [CallbackCounter.told, isSuccess, isError, isTimeout, List.filter_cons]

theorem Counter.exec_one {raw : Raw.RawStore} {c : CallbackCounter} (h : Counter.CALLBACK_COUNTER.Holds raw (some c))
    (m : CallbackMsg) : ∃ raw', Counter.execute m.intoJsonBinary raw = (.ok .empty, raw') ∧
      Counter.CALLBACK_COUNTER.Holds raw' (some (c.told [m])) := by
  have hd : (jsonOfBytes m.intoJsonBinary).bind (decodeEnum Counter.execVariants) = some (.inr m) :=
    C61_reads_callbacks (vs := []) rfl (fun x hx => by cases hx) m
  unfold Counter.execute
  rw [hd]
  dsimp only
  have hl : Counter.CALLBACK_COUNTER.load raw = (.ok c, raw) := by rw [Raw.Item.load_of_holds h]; rfl
  have hu : ∀ f : CallbackCounter → CallbackCounter, Counter.update f raw =
      (.ok (), Raw.setKey raw (utf8 Counter.CALLBACK_COUNTER.key) (some (CallbackCounter.jc.toBytes (f c)))) := by
    intro f
    unfold Counter.update
    rw [Raw.bind_eq, hl]
    rfl
  have hs : ∀ f : CallbackCounter → CallbackCounter, ∃ raw',
      (Counter.update f >>= fun _ => (pure Response.empty : Raw.RM Response)) raw = (.ok .empty, raw') ∧
        Counter.CALLBACK_COUNTER.Holds raw' (some (f c)) := fun f =>
    ⟨_, by rw [Raw.bind_eq, hu]; rfl,
      Raw.Item.holds_set (i := Counter.CALLBACK_COUNTER) CallbackCounter.jc_law raw (f c)⟩
  rw [told_one]
  rcases m with ⟨_ | _, _, _, _⟩ | ⟨_, _⟩ | ⟨_, _, _⟩
  · exact hs fun c => { c with success := c.success ++ [_] }
  · exact hs fun c => { c with error := c.error ++ [_] }
  · exact hs fun c => { c with timeout := c.timeout ++ [_] }
  · exact ⟨raw, rfl, h⟩

theorem Counter.feed_told : ∀ (ms : List CallbackMsg) {raw : Raw.RawStore} {c : CallbackCounter},
    Counter.CALLBACK_COUNTER.Holds raw (some c) → ∃ raw', feed raw (ms.map CallbackMsg.intoJsonBinary) = some raw' ∧
      Counter.CALLBACK_COUNTER.Holds raw' (some (c.told ms))
  | [], raw, c, h => ⟨raw, rfl, by simpa [CallbackCounter.told] using h⟩
  | m :: ms, raw, c, h => by
    obtain ⟨r1, h1, h2⟩ := Counter.exec_one h m
    obtain ⟨r2, h3, h4⟩ := Counter.feed_told ms h2
    refine ⟨r2, by rw [List.map_cons, feed, h1]; exact h3, ?_⟩
    have : (c.told [m]).told ms = c.told (m :: ms) := by
      simp only [CallbackCounter.told, List.append_assoc, ← List.filter_append, List.singleton_append]
    rwa [this] at h4

theorem deliveries_append (addr : String) (h h' : List (Op × List Obs)) :
    deliveries addr (h ++ h') = deliveries addr h ++ deliveries addr h' := by
  simp [deliveries, List.flatMap_append, List.filterMap_append]

theorem settledFor_append (addr : String) (x : Op × List Obs) : ∀ (h : List (Op × List Obs)) (cur : Option String),
    settledFor addr (h ++ [x]) cur = settledFor addr h cur + settledFor addr [x] (latestCallback h cur)
  | [], cur => (Nat.zero_add _).symm
  | y :: h, cur => by
    rw [List.cons_append, settledFor, settledFor_append addr x h, latestCallback]
    exact (Nat.add_assoc _ _ _).symm

/-- What one operation delivers. -/
theorem deliver_step {api : Api} {w w' : World} {op : Op} {obs : List Obs} (h : apply api w op = some (w', obs))
    (addr : String) : ∃ ms : List CallbackMsg, deliveries addr [(op, obs)] = ms.map CallbackMsg.intoJsonBinary ∧
      (ms.filter isSuccess).length + (ms.filter isError).length + (ms.filter isTimeout).length =
        settledFor addr [(op, obs)] (callbackOf w) := by
  have hd : deliveries addr [(op, obs)] = (callsOf obs).filterMap fun c => if c.1 = addr then some c.2.1 else none := by
    simp [deliveries]
  rw [hd]
  cases ho : op.notifies with
  | false =>
    rw [C43_no_other h ho]
    refine ⟨[], rfl, ?_⟩
    cases op <;> first | rfl | cases ho
  | true =>
    cases hcb : callbackOf w with
    | none =>
      rw [C43_none_without_address h hcb]
      refine ⟨[], rfl, ?_⟩
      simp [settledFor]
    | some a =>
      have key : ∀ m : CallbackMsg, CalledBack obs a m → ∃ ms : List CallbackMsg,
          ((callsOf obs).filterMap fun c => if c.1 = addr then some c.2.1 else none) =
            ms.map CallbackMsg.intoJsonBinary ∧ ms = if a = addr then [m] else [] := by
        intro m hm
        obtain ⟨m2, e⟩ := notify_calls h ho
        rw [callsOf_callObs, hcb] at e
        obtain ⟨b, hb, hm⟩ := hm
        rw [e] at hb
        simp only [List.cons.injEq, Prod.mk.injEq, true_and, and_true] at hb
        subst hb
        rw [show ReceiverExecuteMsg.jc.ofBytes m2.intoJsonBinary = some (.receiveIcaCallback m2) from
          JC.ofBytes_toBytes ReceiverExecuteMsg.jc_law _] at hm
        obtain rfl : m2 = m := by simpa using hm
        refine ⟨_, ?_, rfl⟩
        rw [e]
        by_cases ha : a = addr <;> simp [ha]
      cases op with
      | relayOpenAck id cpId v =>
        obtain ⟨ch, ica, _, _, _, hc⟩ := C44_open_ack h hcb
        obtain ⟨ms, e1, e2⟩ := key _ hc
        refine ⟨ms, e1, ?_⟩
        rw [e2]
        by_cases ha : a = addr <;> simp [ha, settledFor, Op.isSettling, isSuccess, isError, isTimeout, List.filter_cons]
      | relayAck id n ack r =>
        obtain ⟨x, p, q, _, _, hc⟩ := C44_ack h hcb
        obtain ⟨ms, e1, e2⟩ := key _ hc
        refine ⟨ms, e1, ?_⟩
        rw [e2]
        by_cases ha : a = addr <;> cases x <;> simp [ha, settledFor, Op.isSettling, isSuccess, isError, isTimeout, List.filter_cons]
      | relayTimeout id n r =>
        obtain ⟨p, _, hc⟩ := C44_timeout h hcb
        obtain ⟨ms, e1, e2⟩ := key _ hc
        refine ⟨ms, e1, ?_⟩
        rw [e2]
        by_cases ha : a = addr <;> simp [ha, settledFor, Op.isSettling, isSuccess, isError, isTimeout, List.filter_cons]
      | _ => cases ho

theorem deliver_all {api : Api} {w0 w : World} {h : List (Op × List Obs)} (he : Exec api w0 h w) (addr : String) :
    ∃ ms : List CallbackMsg, deliveries addr h = ms.map CallbackMsg.intoJsonBinary ∧
      (ms.filter isSuccess).length + (ms.filter isError).length + (ms.filter isTimeout).length =
        settledFor addr h (callbackOf w0) := by
  induction he with
  | nil => exact ⟨[], rfl, rfl⟩
  | @step h w w' op obs he ha ih =>
    obtain ⟨ms, e1, e2⟩ := ih
    obtain ⟨ms', e3, e4⟩ := deliver_step ha addr
    refine ⟨ms ++ ms', by rw [deliveries_append, e1, e3, List.map_append], ?_⟩
    rw [settledFor_append, ← C53_latest_wins he.txExec, ← e4, ← e2]
    simp only [List.filter_append, List.length_append]
    omega

/-- **C63.** The callback counter, freshly instantiated, and any history of the controller: no call fails, and in the end
the counter shows exactly the callbacks it was sent, in order, each under its outcome. -/
theorem C63_counter_records {api : Api} {env : Env} {h : List (Op × List Obs)} {w : World}
    (he : TxExec api (World.genesis env) h w) (addr : String) {raw0 raw1 : Raw.RawStore} {r : Response}
    (hi : Counter.instantiate raw0 = (.ok r, raw1)) :
    ∃ (raw2 : Raw.RawStore) (c : CallbackCounter) (ms : List CallbackMsg), feed raw1 (deliveries addr h) = some raw2 ∧
      (deliveries addr h).map ReceiverExecuteMsg.jc.ofBytes = ms.map (fun m => some (.receiveIcaCallback m)) ∧
      Counter.query raw2 = (.ok (CallbackCounter.jc.toBytes c), raw2) ∧
      c.success = ms.filter isSuccess ∧ c.error = ms.filter isError ∧ c.timeout = ms.filter isTimeout := by
  have h1 : Counter.CALLBACK_COUNTER.Holds raw1 (some ⟨[], [], []⟩) := by
    unfold Counter.instantiate at hi
    rw [Raw.bind_eq] at hi
    obtain ⟨_, rfl⟩ := Prod.mk.inj hi
    exact Raw.Item.holds_set (i := Counter.CALLBACK_COUNTER) CallbackCounter.jc_law raw0 _
  obtain ⟨ms, e1, _⟩ := deliver_all he.exec addr
  obtain ⟨raw2, h2, h3⟩ := Counter.feed_told ms h1
  refine ⟨raw2, CallbackCounter.told ⟨[], [], []⟩ ms, ms, by rw [e1]; exact h2, ?_, ?_, ?_, ?_, ?_⟩
  · rw [e1, List.map_map]
    refine List.map_congr_left fun m _ => ?_
    exact JC.ofBytes_toBytes ReceiverExecuteMsg.jc_law _
  · unfold Counter.query
    rw [Raw.bind_eq, Raw.Item.load_of_holds h3]
    rfl
  all_goals rfl

/-- **C63.** So it counts: the three lists together have one entry for each packet that was acknowledged or timed out while
the counter was the callback address. -/
theorem C63_counter_counts {api : Api} {env : Env} {h : List (Op × List Obs)} {w : World}
    (he : TxExec api (World.genesis env) h w) (addr : String) {raw0 raw1 : Raw.RawStore} {r : Response}
    (hi : Counter.instantiate raw0 = (.ok r, raw1)) :
    ∃ raw2 c, feed raw1 (deliveries addr h) = some raw2 ∧
      Counter.query raw2 = (.ok (CallbackCounter.jc.toBytes c), raw2) ∧
      c.success.length + c.error.length + c.timeout.length = settledFor addr h none := by
  obtain ⟨raw2, c, ms, h1, h2, h3, h4, h5, h6⟩ := C63_counter_records he addr hi
  refine ⟨raw2, c, h1, h3, ?_⟩
  obtain ⟨ms', e1, e2⟩ := deliver_all he.exec addr
  have : ms' = ms := by
    rw [e1, List.map_map] at h2
    have : (ms'.map fun m => some (ReceiverExecuteMsg.receiveIcaCallback m)) =
        ms.map fun m => some (ReceiverExecuteMsg.receiveIcaCallback m) := by
      rw [← h2]
      exact List.map_congr_left fun m _ => (JC.ofBytes_toBytes ReceiverExecuteMsg.jc_law _).symm
    exact List.map_injective_iff.mpr (fun a b e => by simpa using e) this
  subst this
  rw [h4, h5, h6, e2]
  rfl

end Ica
