import Verif.Spec.Interchain
import Verif.Facts.History

/-!
# The joint system of controller chain and host chains

What never goes back, and the invariant of the joint system.
-/
namespace Ica
open Spec

/-! ## The controller's channels -/

/-- How a channel end may change: its identity stays, and once it has been opened its channel stays as it is. -/
structure ChanLe (c c' : ChainChan) : Prop where
  endpoint : c'.chan.endpoint = c.chan.endpoint
  connection : c'.chan.connectionId = c.chan.connectionId
  order : c'.chan.order = c.chan.order
  kept : c.status ≠ .init → c'.status ≠ .init ∧ c'.chan = c.chan

theorem ChanLe.refl (c : ChainChan) : ChanLe c c := ⟨rfl, rfl, rfl, fun h => ⟨h, rfl⟩⟩

theorem chan_step {api : Api} {w w' : World} {op : Op} {obs : List Obs} (hv : Inv api w) (hs : Step api w op w' obs)
    {id : String} {c : ChainChan} (hc : w.chans id = some c) : ∃ c', w'.chans id = some c' ∧ ChanLe c c' := by
  have set_new : ∀ (fresh : String) (x : ChainChan), w.chans fresh = none →
      ∃ c', setChan w.chans fresh x id = some c' ∧ ChanLe c c' := by
    intro fresh x hf
    have hne : id ≠ fresh := by rintro rfl; rw [hf] at hc; cases hc
    exact ⟨c, by simp [setChan, hne, hc], .refl c⟩
  have set_closed : ∀ (i : String) (x : ChainChan), w.chans i = some x → x.status = .opened →
      ∃ c', setChan w.chans i ⟨x.chan, .closed⟩ id = some c' ∧ ChanLe c c' := by
    intro i x hx hst
    by_cases e : id = i
    · subst e
      rw [hc] at hx
      injection hx with hx
      subst hx
      exact ⟨_, setChan_same _ _ _, ⟨rfl, rfl, rfl, fun _ => ⟨(by decide : ChainStatus.closed ≠ .init), rfl⟩⟩⟩
    · exact ⟨c, by simp [setChan, e, hc], .refl c⟩
  cases hs with
  | instantiate sender msg fresh hl hf => exact set_new _ _ hf
  | create sender o fresh o' hl ho hf => exact set_new _ _ hf
  | close sender fresh x hl ho ht hx hst => exact set_closed _ _ hx hst
  | closeConfirm i x hx hst => exact set_closed _ _ hx hst
  | openAck i cpId v x st m hx hst =>
    by_cases e : id = i
    · subst e
      rw [hc] at hx
      injection hx with hx
      subst hx
      exact ⟨_, setChan_same _ _ _, ⟨rfl, rfl, rfl, fun h => absurd hst h⟩⟩
    · exact ⟨c, by simp [setChan, e, hc], .refl c⟩
  | timeout i seq r p x st cs hp hx =>
    dsimp only
    split
    · by_cases e : id = i
      · subst e
        rw [hc] at hx
        injection hx with hx
        subst hx
        exact ⟨_, setChan_same _ _ _, ⟨rfl, rfl, rfl, fun _ => ⟨(by decide : ChainStatus.closed ≠ .init), rfl⟩⟩⟩
      · exact ⟨c, by simp [setChan, e, hc], .refl c⟩
    · exact ⟨c, hc, .refl c⟩
  | _ => exact ⟨c, hc, .refl c⟩

/-- A channel that has left INIT had left it before, or has just been acknowledged. -/
theorem chan_origin {api : Api} {w w' : World} {op : Op} {obs : List Obs} (hv : Inv api w) (hs : Step api w op w' obs)
    (hcm : ∀ id n p, w.commits id n = some p → ∃ c, w.chans id = some c ∧ c.status ≠ .init)
    {id : String} {c' : ChainChan} (hc : w'.chans id = some c') (hst : c'.status ≠ .init) :
    (∃ c, w.chans id = some c ∧ c.status ≠ .init ∧ c.chan = c'.chan) ∨
      ∃ cpId v c, op = .relayOpenAck id cpId v ∧ w.chans id = some c ∧ c'.chan = ackedChan c.chan cpId v := by
  have same : w'.chans = w.chans → ∃ c, w.chans id = some c ∧ c.status ≠ .init ∧ c.chan = c'.chan := by
    intro e; exact ⟨c', by rw [← e]; exact hc, hst, rfl⟩
  have set_new : ∀ (fresh : String) (ch : IbcChannel), setChan w.chans fresh ⟨ch, .init⟩ id = some c' →
      ∃ c, w.chans id = some c ∧ c.status ≠ .init ∧ c.chan = c'.chan := by
    intro fresh ch hx
    rcases setChan_eq_some.1 hx with ⟨-, rfl⟩ | ⟨-, h⟩
    · exact absurd rfl hst
    · exact ⟨c', h, hst, rfl⟩
  have set_closed : ∀ (i : String) (x : ChainChan), w.chans i = some x → x.status ≠ .init →
      setChan w.chans i ⟨x.chan, .closed⟩ id = some c' → ∃ c, w.chans id = some c ∧ c.status ≠ .init ∧ c.chan = c'.chan := by
    intro i x hx hne h
    rcases setChan_eq_some.1 h with ⟨rfl, rfl⟩ | ⟨-, h⟩
    · exact ⟨x, hx, hne, rfl⟩
    · exact ⟨c', h, hst, rfl⟩
  cases hs with
  | instantiate sender msg fresh hl hf => exact .inl (set_new _ _ hc)
  | create sender o fresh o' hl ho hf => exact .inl (set_new _ _ hc)
  | close sender fresh x hl ho ht hx hs => exact .inl (set_closed _ _ hx (by rw [hs]; decide) hc)
  | closeConfirm i x hx hs => exact .inl (set_closed _ _ hx (by rw [hs]; decide) hc)
  | openAck i cpId v x st m hx hs =>
    rcases setChan_eq_some.1 hc with ⟨rfl, rfl⟩ | ⟨-, h⟩
    · exact .inr ⟨cpId, v, x, rfl, hx, rfl⟩
    · exact .inl ⟨c', h, hst, rfl⟩
  | timeout i seq r p x st cs hp hx =>
    dsimp only at hc
    split at hc
    · obtain ⟨y, hy, hne⟩ := hcm _ _ _ hp
      rw [hx] at hy
      injection hy with hy
      subst hy
      exact .inl (set_closed _ _ hx hne hc)
    · exact .inl ⟨c', hc, hst, rfl⟩
  | _ => exact .inl (same rfl)

theorem sentPackets_one {op : Op} {obs : List Obs} {p : IbcPacket} : p ∈ sentPackets [(op, obs)] ↔ Obs.packetSent p ∈ obs := by
  unfold sentPackets
  simp only [List.flatMap_cons, List.flatMap_nil, List.append_nil, List.mem_filterMap]
  constructor
  · rintro ⟨o, ho, he⟩
    cases o <;> simp at he
    subst he
    exact ho
  · intro h
    exact ⟨_, h, rfl⟩

theorem no_packet_callObs {p : IbcPacket} {cb : Option String} {m : CallbackMsg} : Obs.packetSent p ∉ callObs cb m := by
  cases cb <;> simp [callObs]

/-- Only a send puts a packet on its way. -/
theorem packet_step {api : Api} {w w' : World} {op : Op} {obs : List Obs} (hs : Step api w op w' obs)
    {p : IbcPacket} (hp : Obs.packetSent p ∈ obs) : ∃ sender ms qs memo t fresh core,
      op = .execute sender (.sendCosmosMsgs ms qs memo t) fresh core ∧ obs = [.packetSent p] := by
  cases hs with
  | send sender ms qs memo t fresh st info anys cqs c ts p' =>
    simp only [List.mem_singleton, Obs.packetSent.injEq] at hp
    subst hp
    exact ⟨_, _, _, _, _, _, _, rfl, rfl⟩
  | openAck => exact absurd hp no_packet_callObs
  | timeout => exact absurd hp no_packet_callObs
  | ackOk =>
    rcases List.mem_cons.1 hp with h | h
    · cases h
    · exact absurd h no_packet_callObs
  | ackErr =>
    rcases List.mem_cons.1 hp with h | h
    · cases h
    · exact absurd h no_packet_callObs
  | _ => simp at hp

theorem no_created_callObs {id : String} {cb : Option String} {m : CallbackMsg} :
    Obs.channelCreated id ∉ callObs cb m := by
  cases cb <;> simp [callObs]

/-- What an operation proposes. -/
theorem newChans_step {api : Api} {w w' : World} {op : Op} {obs : List Obs} (hs : Step api w op w' obs)
    {ch : IbcChannel} (h : ch ∈ newChans w' obs) :
    ∃ c, w'.chans ch.endpoint.channelId = some c ∧ c.chan = ch ∧
      ∃ addr o, ch = proposalChannel addr ch.endpoint.channelId o := by
  unfold newChans at h
  rw [List.mem_filterMap] at h
  obtain ⟨o, ho, he⟩ := h
  cases o with
  | channelCreated id =>
    dsimp only at he
    cases hs with
    | instantiate sender msg fresh =>
      simp only [List.mem_singleton, Obs.channelCreated.injEq] at ho
      subst ho
      simp only [setChan, if_true, Option.map_some, Option.some.injEq] at he
      subst he
      exact ⟨_, setChan_same _ _ _, rfl, _, _, rfl⟩
    | create sender o fresh =>
      simp only [List.mem_singleton, Obs.channelCreated.injEq] at ho
      subst ho
      simp only [setChan, if_true, Option.map_some, Option.some.injEq] at he
      subst he
      exact ⟨_, setChan_same _ _ _, rfl, _, _, rfl⟩
    | openAck => exact absurd ho no_created_callObs
    | timeout => exact absurd ho no_created_callObs
    | ackOk =>
      rcases List.mem_cons.1 ho with h | h
      · cases h
      · exact absurd h no_created_callObs
    | ackErr =>
      rcases List.mem_cons.1 ho with h | h
      · cases h
      · exact absurd h no_created_callObs
    | _ => simp at ho
  | _ => simp at he

/-- A channel in INIT was in INIT before, or has just been proposed. -/
theorem init_origin {api : Api} {w w' : World} {op : Op} {obs : List Obs} (hs : Step api w op w' obs)
    {id : String} {c : ChainChan} (hc : w'.chans id = some c) (hst : c.status = .init) :
    w.chans id = some c ∨ c.chan ∈ newChans w' obs := by
  have set_new : ∀ (fresh : String) (ch : IbcChannel), w'.chans = setChan w.chans fresh ⟨ch, .init⟩ →
      obs = [.channelCreated fresh] → w.chans id = some c ∨ c.chan ∈ newChans w' obs := by
    intro fresh ch e1 e2
    have hx := hc
    rw [e1] at hx
    rcases setChan_eq_some.1 hx with ⟨rfl, rfl⟩ | ⟨-, h⟩
    · right
      rw [e2]
      unfold newChans
      rw [List.mem_filterMap]
      exact ⟨_, List.mem_singleton.2 rfl, by simp [e1, setChan]⟩
    · exact .inl h
  have set_other : ∀ (i : String) (ch : IbcChannel) (s : ChainStatus), s ≠ .init →
      setChan w.chans i ⟨ch, s⟩ id = some c → w.chans id = some c := by
    intro i ch s hne h
    rcases setChan_eq_some.1 h with ⟨rfl, rfl⟩ | ⟨-, h⟩
    · exact absurd hst hne
    · exact h
  cases hs with
  | instantiate => exact set_new _ _ rfl rfl
  | create => exact set_new _ _ rfl rfl
  | close => exact .inl (set_other _ _ .closed (by decide) hc)
  | closeConfirm => exact .inl (set_other _ _ .closed (by decide) hc)
  | openAck => exact .inl (set_other _ _ .opened (by decide) hc)
  | timeout =>
    dsimp only at hc
    split at hc
    · exact .inl (set_other _ _ .closed (by decide) hc)
    · exact .inl hc
  | _ => exact .inl hc

/-! ## The hosts -/

/-- How a channel end on a host may change. -/
structure HostChanLe (c c' : HostChan) : Prop where
  controller : c'.controller = c.controller
  order : c'.order = c.order
  version : c'.version = c.version
  closed : c.status = .closed → c'.status = .closed
  acks : ∀ k a, c.acks k = some a → c'.acks k = some a
  next : c.nextRecv ≤ c'.nextRecv

theorem HostChanLe.refl (c : HostChan) : HostChanLe c c := ⟨rfl, rfl, rfl, id, fun _ _ h => h, Nat.le_refl _⟩

/-- How a host may change. -/
structure HostLe (s s' : HostSide) : Prop where
  connection : s'.connection = s.connection
  account : ∀ a, s.account = some a → s'.account = some a
  height : s.height ≤ s'.height
  time : s.time ≤ s'.time
  chans : ∀ hid c, s.chans hid = some c → ∃ c', s'.chans hid = some c' ∧ HostChanLe c c'

theorem HostLe.refl (s : HostSide) : HostLe s s :=
  ⟨rfl, fun _ h => h, UInt64.le_refl _, UInt64.le_refl _, fun _ c h => ⟨c, h, .refl c⟩⟩

theorem HostLe.set {s : HostSide} {hid : String} {c c' : HostChan} (hc : s.chans hid = some c) (hle : HostChanLe c c') :
    HostLe s (s.setChan hid c') := by
  refine ⟨rfl, fun _ h => h, UInt64.le_refl _, UInt64.le_refl _, ?_⟩
  intro x d hd
  by_cases e : x = hid
  · subst e
    rw [hc] at hd
    injection hd with hd
    subst hd
    exact ⟨c', by simp [HostSide.setChan], hle⟩
  · exact ⟨d, by simp [HostSide.setChan, e, hd], .refl d⟩

theorem elapsed_mono {s s' : HostSide} (h : HostLe s s') {t : IbcTimeout} (he : Elapsed s t) : Elapsed s' t := by
  rcases he with ⟨ts, a, b, c⟩ | ⟨bl, a, b, c⟩
  · exact .inl ⟨ts, a, b, UInt64.le_trans c h.time⟩
  · exact .inr ⟨bl, a, b, UInt64.le_trans c h.height⟩

theorem setHost_same (f : String → HostSide) (conn : String) (s : HostSide) : setHost f conn s conn = s := by
  simp [setHost]

theorem setHost_ne (f : String → HostSide) {conn c : String} (s : HostSide) (h : c ≠ conn) : setHost f conn s c = f c := by
  simp [setHost, h]

theorem hostLe_setHost {f : String → HostSide} {conn : String} {s : HostSide} (h : HostLe (f conn) s) (c : String) :
    HostLe (f c) (setHost f conn s c) := by
  by_cases e : c = conn
  · subst e; rw [setHost_same]; exact h
  · rw [setHost_ne _ _ e]; exact .refl _

theorem receive_le {c : HostChan} {n : UInt64} {ack : Bytes} (h : c.acks n = none) : HostChanLe c (c.receive n ack) := by
  refine ⟨rfl, rfl, rfl, id, ?_, Nat.le_succ _⟩
  intro k a hk
  have : k ≠ n := by rintro rfl; rw [h] at hk; cases hk
  simp [HostChan.receive, this, hk]

theorem tried_le {s : HostSide} {hid a : String} {c : HostChan} (hc : s.chans hid = none)
    (ha : s.account = none ∨ s.account = some a) : HostLe s ((s.setAccount a).setChan hid c) := by
  refine ⟨rfl, ?_, UInt64.le_refl _, UInt64.le_refl _, ?_⟩
  · intro x hx
    rcases ha with ha | ha
    · rw [ha] at hx; cases hx
    · rw [ha] at hx; exact hx
  · intro x d hd
    have e : x ≠ hid := by rintro rfl; rw [hc] at hd; cases hd
    exact ⟨d, by simp [HostSide.setChan, HostSide.setAccount, e, hd], .refl d⟩

/-- Hosts never go back. -/
theorem hosts_step {api : Api} {n n' : Net} {op : NetOp} {obs : List Obs} (hs : NetStep api n op n' obs) (conn : String) :
    HostLe (n.hosts conn) (n'.hosts conn) := by
  cases hs with
  | ctrl => exact .refl _
  | hostBlock c ht t a b =>
    refine hostLe_setHost ?_ _
    exact ⟨rfl, fun _ h => h, a, b, fun _ c h => ⟨c, h, .refl c⟩⟩
  | hostOpenTry c hid ch v a _ _ _ h4 _ _ _ h8 => exact hostLe_setHost (tried_le h4 h8) _
  | hostOpenConfirm c hid hc cc h1 h2 =>
    refine hostLe_setHost (HostLe.set (c' := { hc with status := .opened }) h1 ⟨rfl, rfl, rfl, ?_, fun _ _ h => h, Nat.le_refl _⟩) _
    intro h; rw [h2] at h; cases h
  | hostCloseConfirm c hid hc cc h1 h2 =>
    exact hostLe_setHost (HostLe.set (c' := { hc with status := .closed }) h1 ⟨rfl, rfl, rfl, fun _ => rfl, fun _ _ h => h, Nat.le_refl _⟩) _
  | execute c hid hc p ack a memo ms rs h1 _ _ _ _ _ h7 => exact hostLe_setHost (HostLe.set h1 (receive_le h7)) _
  | fail c hid hc p ack e h1 _ _ _ _ _ h7 => exact hostLe_setHost (HostLe.set h1 (receive_le h7)) _

/-! ## Metadata -/

theorem parse_answered {v conn hconn a : String} (h : jsonOfString v = some (answeredMetadata conn hconn a)) :
    IcaMetadata.parse v = some ⟨"ics27-1", conn, hconn, a, .protobuf, "sdk_multi_msg"⟩ := by
  have e : jsonOfString (IcaMetadata.display ⟨"ics27-1", conn, hconn, a, .protobuf, "sdk_multi_msg"⟩) =
      some (answeredMetadata conn hconn a) := by
    unfold IcaMetadata.display JC.toStr
    rw [jsonOfString_toString]
    rfl
  have p := parse_display ⟨"ics27-1", conn, hconn, a, .protobuf, "sdk_multi_msg"⟩
  unfold IcaMetadata.parse JC.ofStr at p ⊢
  rw [h]
  rw [e] at p
  exact p

/-! ## What holds of each part, and goes on to hold -/

/-- The joint system has moved on. -/
structure Keeps (n n' : Net) : Prop where
  chans : ∀ id c, n.w.chans id = some c → ∃ c', n'.w.chans id = some c' ∧ ChanLe c c'
  hosts : ∀ conn, HostLe (n.hosts conn) (n'.hosts conn)
  sent : ∀ p ∈ n.sent, p ∈ n'.sent

/-- A proposal is of a channel of the controller. -/
def PropOk (n : Net) (ch : IbcChannel) : Prop :=
  ∃ c, n.w.chans ch.endpoint.channelId = some c ∧ c.chan.endpoint = ch.endpoint ∧
    c.chan.connectionId = ch.connectionId ∧ c.chan.order = ch.order ∧
    ∃ addr o, ch = proposalChannel addr ch.endpoint.channelId o

/-- A host channel belongs to a channel of the controller, and names the account. -/
def HostOk (n : Net) (conn : String) (controller : IbcEndpoint) (order : IbcOrder) (version : String) : Prop :=
  ∃ a c, (n.hosts conn).account = some a ∧
    jsonOfString version = some (answeredMetadata conn (n.hosts conn).connection a) ∧
    n.w.chans controller.channelId = some c ∧ c.chan.endpoint = controller ∧ c.chan.connectionId = conn ∧
    c.chan.order = order

/-- The other end of a channel. -/
def LinkOk (n : Net) (ch : IbcChannel) : Prop :=
  ∃ hc, (n.hosts ch.connectionId).chans ch.counterpartyEndpoint.channelId = some hc ∧ hc.controller = ch.endpoint ∧
    hc.version = ch.version

/-- A packet went out on a channel, for the account. -/
def PacketOk (h : List (Op × List Obs)) (n : Net) (p : IbcPacket) : Prop :=
  ∃ c a memo ms, n.w.chans p.src.channelId = some c ∧ c.status ≠ .init ∧ p.src = c.chan.endpoint ∧
    p.dest = c.chan.counterpartyEndpoint ∧ (n.hosts c.chan.connectionId).account = some a ∧
    readPacket p.data = some ⟨1, memo, ms⟩ ∧ AskedFor h p a ms ∧ 1 ≤ p.sequence.toNat

/-- An executed packet was sent, and is acknowledged. -/
def LogOk (n : Net) (e : Executed) : Prop :=
  e.packet ∈ n.sent ∧ e.packet.dest.channelId = e.channel ∧ (n.hosts e.connection).account = some e.account ∧
    ((∃ memo, readPacket e.packet.data = some ⟨1, memo, e.messages⟩) ∧
      List.Forall₂ (Responds e.height) e.messages e.responses) ∧
    ∃ hc ack, (n.hosts e.connection).chans e.channel = some hc ∧ hc.controller = e.packet.src ∧
      hc.acks e.packet.sequence = some ack ∧ AckSays ack (.ok e.responses)

/-- The acknowledgement is the one the host wrote for this packet. -/
def AckOk (n : Net) (id : String) (k : UInt64) (ack : Bytes) : Prop :=
  ∃ c p hc, n.w.chans id = some c ∧ p ∈ n.sent ∧ p.src.channelId = id ∧ p.sequence = k ∧
    (n.hosts c.chan.connectionId).chans p.dest.channelId = some hc ∧ hc.acks k = some ack

/-- The packet has not been received and never will be. -/
def TimeoutOk (n : Net) (id : String) (k : UInt64) : Prop :=
  ∃ c p hc, n.w.chans id = some c ∧ p ∈ n.sent ∧ p.src.channelId = id ∧ p.sequence = k ∧
    (n.hosts c.chan.connectionId).chans p.dest.channelId = some hc ∧ hc.acks k = none ∧
    (Elapsed (n.hosts c.chan.connectionId) p.timeout ∨ hc.status = .closed)

theorem PropOk.keeps {n n' : Net} (k : Keeps n n') {ch : IbcChannel} (h : PropOk n ch) : PropOk n' ch := by
  obtain ⟨c, h1, h2, h3, h4, h5⟩ := h
  obtain ⟨c', k1, k2⟩ := k.chans _ _ h1
  exact ⟨c', k1, k2.endpoint.trans h2, k2.connection.trans h3, k2.order.trans h4, h5⟩

theorem HostOk.keeps {n n' : Net} (k : Keeps n n') {conn : String} {e : IbcEndpoint} {o : IbcOrder} {v : String}
    (h : HostOk n conn e o v) : HostOk n' conn e o v := by
  obtain ⟨a, c, h1, h2, h3, h4, h5, h6⟩ := h
  obtain ⟨c', k1, k2⟩ := k.chans _ _ h3
  exact ⟨a, c', (k.hosts conn).account _ h1, by rw [(k.hosts conn).connection]; exact h2, k1, k2.endpoint.trans h4,
    k2.connection.trans h5, k2.order.trans h6⟩

theorem LinkOk.keeps {n n' : Net} (k : Keeps n n') {ch : IbcChannel} (h : LinkOk n ch) : LinkOk n' ch := by
  obtain ⟨hc, h1, h2, h3⟩ := h
  obtain ⟨hc', k1, k2⟩ := (k.hosts _).chans _ _ h1
  exact ⟨hc', k1, k2.controller.trans h2, k2.version.trans h3⟩

theorem askedFor_more {h : List (Op × List Obs)} {x : List (Op × List Obs)} {p : IbcPacket} {a : String}
    {ms : List (String × Bytes)} (hh : AskedFor h p a ms) : AskedFor (h ++ x) p a ms := by
  obtain ⟨s, m, q, me, t, f, co, h1, h2⟩ := hh
  exact ⟨s, m, q, me, t, f, co, List.mem_append_left _ h1, h2⟩

theorem PacketOk.keeps {h x : List (Op × List Obs)} {n n' : Net} (k : Keeps n n') {p : IbcPacket} (hp : PacketOk h n p) :
    PacketOk (h ++ x) n' p := by
  obtain ⟨c, a, memo, ms, h1, h2, h3, h4, h5, h6, h7, h8⟩ := hp
  obtain ⟨c', k1, k2⟩ := k.chans _ _ h1
  obtain ⟨k3, k4⟩ := k2.kept h2
  exact ⟨c', a, memo, ms, k1, k3, by rw [k4]; exact h3, by rw [k4]; exact h4,
    by rw [k4]; exact (k.hosts _).account _ h5, h6, askedFor_more h7, h8⟩

theorem LogOk.keeps {n n' : Net} (k : Keeps n n') {e : Executed} (h : LogOk n e) : LogOk n' e := by
  obtain ⟨h1, h2, h3, h4, hc, ack, h5, h6, h7, h8⟩ := h
  obtain ⟨hc', k1, k2⟩ := (k.hosts _).chans _ _ h5
  exact ⟨k.sent _ h1, h2, (k.hosts _).account _ h3, h4, hc', ack, k1, k2.controller.trans h6, k2.acks _ _ h7, h8⟩

theorem AckOk.keeps {n n' : Net} (k : Keeps n n') {id : String} {s : UInt64} {ack : Bytes} (h : AckOk n id s ack) :
    AckOk n' id s ack := by
  obtain ⟨c, p, hc, h1, h2, h3, h4, h5, h6⟩ := h
  obtain ⟨c', k1, k2⟩ := k.chans _ _ h1
  obtain ⟨hc', k3, k4⟩ := (k.hosts _).chans _ _ h5
  exact ⟨c', p, hc', k1, k.sent _ h2, h3, h4, by rw [k2.connection]; exact k3, k4.acks _ _ h6⟩

/-! ## The invariant -/

/-- What holds in every state of the joint system. -/
structure NInv (api : Api) (env : Env) (h : List (NetOp × List Obs)) (n : Net) : Prop where
  exec : Exec api (World.genesis env) (onController h) n.w
  sentIff : ∀ p, p ∈ n.sent ↔ ∃ qs, Sent (onController h) p qs
  proposed : ∀ ch ∈ n.proposed, PropOk n ch
  waiting : ∀ id c, n.w.chans id = some c → c.status = .init → c.chan ∈ n.proposed
  host : ∀ conn hid hc, (n.hosts conn).chans hid = some hc → HostOk n conn hc.controller hc.order hc.version
  linked : ∀ id c, n.w.chans id = some c → c.status ≠ .init → LinkOk n c.chan
  packets : ∀ p ∈ n.sent, PacketOk (onController h) n p
  logged : ∀ e ∈ n.log, LogOk n e
  acked : ∀ conn hid hc k ack, (n.hosts conn).chans hid = some hc → hc.acks k = some ack →
    ∃ p ∈ n.sent, p.src = hc.controller ∧ p.sequence = k ∧ p.dest.channelId = hid ∧
      ((∃ e ∈ n.log, e.packet = p ∧ e.connection = conn ∧ e.channel = hid) ∨ ∃ err, AckSays ack (.fail err))
  once : n.log.Pairwise fun a b => a.packet ≠ b.packet
  ordered : ∀ conn hid hc, (n.hosts conn).chans hid = some hc → 1 ≤ hc.nextRecv ∧
    (hc.order = .ordered → ∀ k, (∃ ack, hc.acks k = some ack) ↔ 1 ≤ k.toNat ∧ k.toNat < hc.nextRecv)
  sorted : n.log.Pairwise fun a b => a.connection = b.connection → a.channel = b.channel →
    ∀ hc, (n.hosts a.connection).chans a.channel = some hc → hc.order = .ordered →
      a.packet.sequence.toNat < b.packet.sequence.toNat
  acks : ∀ x ∈ onController h, ∀ id k ack r, x.1 = .relayAck id k ack r → AckOk n id k ack
  timeouts : ∀ x ∈ onController h, ∀ id k r, x.1 = .relayTimeout id k r → TimeoutOk n id k

theorem NInv.inv {api : Api} {env : Env} {h : List (NetOp × List Obs)} {n : Net} (hi : NInv api env h n) :
    Inv api n.w := inv_exec (inv_genesis api env) hi.exec

theorem NInv.unique {api : Api} {env : Env} {h : List (NetOp × List Obs)} {n : Net} (hi : NInv api env h n)
    {p q : IbcPacket} (hp : p ∈ n.sent) (hq : q ∈ n.sent) (h1 : p.src.channelId = q.src.channelId)
    (h2 : p.sequence = q.sequence) : p = q := by
  obtain ⟨_, a⟩ := (hi.sentIff p).1 hp
  obtain ⟨_, b⟩ := (hi.sentIff q).1 hq
  exact (sent_unique hi.exec _ _ _ _ a b h1 h2).1

/-- The address the contract knows is the account on the connection of its channel. -/
theorem NInv.account {api : Api} {env : Env} {h : List (NetOp × List Obs)} {n : Net} (hi : NInv api env h n)
    {cs : ChannelState} (hc : n.w.store.channel = some cs) :
    ∃ info, icaOf n.w = some info ∧ info.channelId = cs.channel.endpoint.channelId ∧
      (n.hosts cs.channel.connectionId).account = some info.icaAddress ∧
      ∃ m, IcaMetadata.parse cs.channel.version = some m ∧
        m.hostConnectionId = (n.hosts cs.channel.connectionId).connection := by
  obtain ⟨m, h1, -, h3⟩ := tracked_version ⟨env, _, hi.exec⟩ hc
  obtain ⟨-, c, k1, k2, k3, -⟩ := hi.inv.tracked _ hc
  obtain ⟨hcn, l1, l2, l3⟩ := hi.linked _ _ k1 k3
  rw [k2] at l1 l2 l3
  obtain ⟨a, c', m1, m2, -⟩ := hi.host _ _ _ l1
  rw [l3] at m2
  have := parse_answered m2
  rw [h1] at this
  injection this with this
  refine ⟨_, h3, rfl, ?_, m, h1, ?_⟩
  · rw [m1, this]
  · rw [this]

theorem onController_ctrl (h : List (NetOp × List Obs)) (op : Op) (obs : List Obs) :
    onController (h ++ [(.ctrl op, obs)]) = onController h ++ [(op, obs)] := by
  simp [onController]

theorem onController_host (h : List (NetOp × List Obs)) {x : NetOp × List Obs} (hx : ∀ op, x.1 ≠ .ctrl op) :
    onController (h ++ [x]) = onController h := by
  obtain ⟨o, obs⟩ := x
  unfold onController
  rw [List.filterMap_append]
  cases o with
  | ctrl op => exact absurd rfl (hx op)
  | _ => simp

/-! ## The controller moves -/

theorem ninv_initial {api : Api} {env : Env} {n : Net} (hi : n.Initial env) : NInv api env [] n where
  exec := by rw [hi.w]; exact .nil
  sentIff p := by
    rw [hi.sent]
    constructor
    · intro h; cases h
    · rintro ⟨qs, _, _, _, _, _, _, h⟩; cases h
  proposed ch h := by rw [hi.proposed] at h; cases h
  waiting id c h := by rw [hi.w] at h; cases h
  host conn hid hc h := by rw [hi.chans] at h; cases h
  linked id c h := by rw [hi.w] at h; cases h
  packets p h := by rw [hi.sent] at h; cases h
  logged e h := by rw [hi.log] at h; cases h
  acked conn hid hc k ack h := by rw [hi.chans] at h; cases h
  once := by rw [hi.log]; exact .nil
  ordered conn hid hc h := by rw [hi.chans] at h; cases h
  sorted := by rw [hi.log]; exact .nil
  acks x h := by cases h
  timeouts x h := by cases h

theorem commits_chan {api : Api} {env : Env} {h : List (NetOp × List Obs)} {n : Net} (hi : NInv api env h n)
    {id : String} {k : UInt64} {p : IbcPacket} (hp : n.w.commits id k = some p) :
    p ∈ n.sent ∧ p.src.channelId = id ∧ p.sequence = k := by
  obtain ⟨a, b, c, -⟩ := (commits_iff hi.exec _ _ _).1 hp
  exact ⟨(hi.sentIff p).2 c, a, b⟩

/-- Sequence numbers start at one, so the first packet is always next. -/
theorem turn_one {api : Api} {env : Env} {h : List (NetOp × List Obs)} {n : Net} (hi : NInv api env h n) {id : String} :
    ∀ k < 1, n.w.commits id k = none := by
  intro k hk
  cases hp : n.w.commits id k with
  | none => rfl
  | some p =>
    obtain ⟨s1, -, s3⟩ := commits_chan hi hp
    obtain ⟨_, _, _, _, _, _, _, _, _, _, _, q⟩ := hi.packets p s1
    rw [s3] at q
    have := UInt64.lt_iff_toNat_lt.1 hk
    simp at this
    omega

theorem ninv_ctrl {api : Api} {env : Env} {h : List (NetOp × List Obs)} {n : Net} (hi : NInv api env h n)
    {op : Op} {w' : World} {obs : List Obs} (hpr : Proven n op) (ha : apply api n.w op = some (w', obs)) :
    NInv api env (h ++ [(.ctrl op, obs)])
      (n.moved op w' obs) := by
  have hs := step_of_apply hi.inv ha
  have hex : Exec api (World.genesis env) (onController h ++ [(op, obs)]) w' := .step hi.exec ha
  have hk : Keeps n (n.moved op w' obs) :=
    ⟨fun id c hc => chan_step hi.inv hs hc, fun _ => .refl _, fun p hp => List.mem_append_left _ hp⟩
  have hcm : ∀ id k p, n.w.commits id k = some p → ∃ c, n.w.chans id = some c ∧ c.status ≠ .init := by
    intro id k p hp
    obtain ⟨a, b, -⟩ := commits_chan hi hp
    obtain ⟨c, _, _, _, h1, h2, _⟩ := hi.packets p a
    rw [b] at h1
    exact ⟨c, h1, h2⟩
  constructor
  case exec => rw [onController_ctrl]; exact hex
  case sentIff =>
    intro p
    rw [onController_ctrl]
    change p ∈ n.sent ++ sentPackets [(op, obs)] ↔ _
    rw [List.mem_append, hi.sentIff]
    constructor
    · rintro (⟨qs, hq⟩ | hq)
      · exact ⟨qs, sent_snoc.2 (.inl hq)⟩
      · obtain ⟨s, ms, qs, me, t, f, co, rfl, rfl⟩ := packet_step hs (sentPackets_one.1 hq)
        exact ⟨qs, sent_snoc.2 (.inr ⟨s, ms, me, t, f, co, List.mem_singleton.2 rfl⟩)⟩
    · rintro ⟨qs, hq⟩
      rcases sent_snoc.1 hq with hq | hq
      · exact .inl ⟨qs, hq⟩
      · obtain ⟨_, _, _, _, _, _, -, rfl⟩ := sent_one hq
        exact .inr (sentPackets_one.2 (List.mem_singleton.2 rfl))
  case proposed =>
    intro ch hch
    rcases List.mem_append.1 hch with hch | hch
    · exact (hi.proposed ch hch).keeps hk
    · obtain ⟨c, h1, h2, h3⟩ := newChans_step hs hch
      exact ⟨c, h1, by rw [h2], by rw [h2], by rw [h2], h3⟩
  case waiting =>
    intro id c hc hst
    rcases init_origin hs hc hst with hc | hc
    · exact List.mem_append_left _ (hi.waiting id c hc hst)
    · exact List.mem_append_right _ hc
  case host =>
    intro conn hid hc hh
    exact (hi.host conn hid hc hh).keeps hk
  case linked =>
    intro id c' hc' hst
    rcases chan_origin hi.inv hs hcm hc' hst with ⟨c, h1, h2, h3⟩ | ⟨cpId, v, c, rfl, h1, h2⟩
    · rw [← h3]
      exact (hi.linked id c h1 h2).keeps hk
    · obtain ⟨c2, hc, k1, k2, k3, k4, k5⟩ := hpr
      rw [h1] at k1
      injection k1 with k1
      subst k1
      rw [h2]
      exact ⟨hc, k2, k3, k5⟩
  case packets =>
    intro p hp
    rw [onController_ctrl]
    rcases List.mem_append.1 hp with hp | hp
    · exact (hi.packets p hp).keeps hk
    · obtain ⟨s, ms, qs, me, t, f, co, rfl, rfl⟩ := packet_step hs (sentPackets_one.1 hp)
      obtain ⟨info, p2, h1, h2, l, last, h3, h4, h5⟩ := send_packet ha
      simp only [List.cons.injEq, Obs.packetSent.injEq, and_true] at h2
      subst h2
      obtain ⟨info', _, _, c, ts, p2, g1, _, _, _, g5, g6, g7, g8, g9, g10⟩ := send_inv ha
      simp only [List.cons.injEq, Obs.packetSent.injEq, and_true] at g10
      subst g10
      rw [h1] at g1
      injection g1 with g1
      subst g1
      obtain ⟨e1, -⟩ := hi.inv.chans _ _ g5
      have hsrc : p.src = c.chan.endpoint := by subst g8; rfl
      have hid : p.src.channelId = info.channelId := by rw [hsrc, e1]
      obtain ⟨st, hst⟩ : ∃ st, n.w.store.state = some st ∧ st.icaInfo = some info := by
        unfold icaOf at h1
        cases hx : n.w.store.state with
        | none => rw [hx] at h1; cases h1
        | some st => rw [hx] at h1; exact ⟨st, rfl, h1⟩
      obtain ⟨cs, hcs⟩ : ∃ cs, n.w.store.channel = some cs := by
        cases hx : n.w.store.channel with
        | none =>
          have := (hi.inv.icaChannel _ hst.1).2 hx
          rw [hst.2] at this; cases this
        | some cs => exact ⟨cs, rfl⟩
      obtain ⟨info2, i1, i2, i3, -⟩ := hi.account hcs
      rw [h1] at i1
      injection i1 with i1
      subst i1
      obtain ⟨-, c2, t1, t2, -⟩ := hi.inv.tracked _ hcs
      rw [← i2, g5] at t1
      injection t1 with t1
      subst t1
      rw [← t2] at i3
      have hc' : w'.chans = n.w.chans := by rw [g9]
      refine ⟨c, info.icaAddress, me, l ++ last, ?_, ?_, hsrc, ?_, i3, h3, ?_, ?_⟩
      · rw [hid]; change w'.chans _ = _; rw [hc']; exact g5
      · rw [g6]; decide
      · subst g8; rfl
      · exact ⟨s, ms, qs, me, t, f, co, List.mem_append_right _ (List.mem_singleton.2 rfl), l, last, rfl, h4, h5⟩
      · have : p.sequence.toNat = n.w.nextSeq info.channelId := by subst g8; exact ofNat_toNat g7
        rw [this]
        exact hi.inv.seqs _
  case logged =>
    intro e he
    exact (hi.logged e he).keeps hk
  case acked =>
    intro conn hid hc k ack h1 h2
    obtain ⟨p, a, b⟩ := hi.acked conn hid hc k ack h1 h2
    exact ⟨p, List.mem_append_left _ a, b⟩
  case once => exact hi.once
  case ordered => exact hi.ordered
  case sorted => exact hi.sorted
  case acks =>
    intro x hx id k ack r hop
    rw [onController_ctrl, List.mem_append, List.mem_singleton] at hx
    rcases hx with hx | rfl
    · exact (hi.acks x hx id k ack r hop).keeps hk
    · dsimp only at hop
      subst hop
      obtain ⟨c, p, hc, h1, h2, h3, h4, -⟩ := hpr
      obtain ⟨a, b, d⟩ := commits_chan hi h2
      exact AckOk.keeps hk ⟨c, p, hc, h1, a, b, d, h3, h4⟩
  case timeouts =>
    have keep : ∀ id k, TimeoutOk n id k → TimeoutOk (n.moved op w' obs) id k := by
      rintro id k ⟨c, p, hc, h1, h2, h3, h4, h5, h6, h7⟩
      obtain ⟨c', k1, k2⟩ := hk.chans _ _ h1
      exact ⟨c', p, hc, k1, hk.sent _ h2, h3, h4, by rw [k2.connection]; exact h5, h6, by rw [k2.connection]; exact h7⟩
    intro x hx id k r hop
    rw [onController_ctrl, List.mem_append, List.mem_singleton] at hx
    rcases hx with hx | rfl
    · exact keep _ _ (hi.timeouts x hx id k r hop)
    · dsimp only at hop
      subst hop
      obtain ⟨c, p, hc, h1, h2, h3, h4, h5, h6⟩ := hpr
      obtain ⟨a, b, d⟩ := commits_chan hi h2
      exact keep _ _ ⟨c, p, hc, h1, a, b, d, h3, h4, h6⟩

/-! ## A host moves -/

theorem chans_set {f : String → HostSide} {conn hid : String} {d : HostChan} {conn' hid' : String} {x : HostChan}
    (h : (setHost f conn ((f conn).setChan hid d) conn').chans hid' = some x) :
    (conn' = conn ∧ hid' = hid ∧ x = d) ∨ (¬ (conn' = conn ∧ hid' = hid) ∧ (f conn').chans hid' = some x) := by
  by_cases e : conn' = conn
  · subst e
    rw [setHost_same] at h
    by_cases e2 : hid' = hid
    · subst e2
      simp only [HostSide.setChan, if_true, Option.some.injEq] at h
      exact .inl ⟨rfl, rfl, h.symm⟩
    · simp only [HostSide.setChan, e2, if_false] at h
      exact .inr ⟨fun x => e2 x.2, h⟩
  · rw [setHost_ne _ _ e] at h
    exact .inr ⟨fun x => e x.1, h⟩

/-- A host writes to one of its channels, and may have executed something. -/
theorem ninv_host {api : Api} {env : Env} {h : List (NetOp × List Obs)} {n n' : Net} (hi : NInv api env h n)
    {x : NetOp × List Obs} (hx : ∀ op, x.1 ≠ .ctrl op) {conn hid : String} {hc d : HostChan} {L : List Executed}
    (hn : n' = { n with hosts := setHost n.hosts conn ((n.hosts conn).setChan hid d), log := n.log ++ L })
    (hch : (n.hosts conn).chans hid = some hc) (hle : HostChanLe hc d)
    (hacks : ∀ k ack, d.acks k = some ack → hc.acks k = some ack ∨ hc.acks k = none ∧ hc.status ≠ .closed ∧
      ∃ p ∈ n.sent, p.src = hc.controller ∧ p.sequence = k ∧ p.dest.channelId = hid ∧
        ¬ Elapsed (n.hosts conn) p.timeout ∧
        ((∃ e ∈ L, e.packet = p ∧ e.connection = conn ∧ e.channel = hid) ∨ ∃ err, AckSays ack (.fail err)))
    (hord : 1 ≤ d.nextRecv ∧
      (d.order = .ordered → ∀ k, (∃ ack, d.acks k = some ack) ↔ 1 ≤ k.toNat ∧ k.toNat < d.nextRecv))
    (hlog : ∀ e ∈ L, LogOk n' e)
    (hL : L = [] ∨ ∃ e, L = [e] ∧ hc.acks e.packet.sequence = none ∧ e.packet.src = hc.controller ∧
      e.connection = conn ∧ e.channel = hid ∧ (hc.order = .ordered → e.packet.sequence.toNat = hc.nextRecv)) :
    NInv api env (h ++ [x]) n' := by
  have hk : Keeps n n' := by
    rw [hn]
    exact ⟨fun id c hc => ⟨c, hc, .refl c⟩, hostLe_setHost (HostLe.set hch hle), fun p hp => hp⟩
  have hw : n'.w = n.w := by rw [hn]
  have hsent : n'.sent = n.sent := by rw [hn]
  have hhosts : n'.hosts = setHost n.hosts conn ((n.hosts conn).setChan hid d) := by rw [hn]
  have hlg : n'.log = n.log ++ L := by rw [hn]
  have hoc := onController_host h hx
  -- an executed packet of this channel has been acknowledged before
  have old : ∀ a ∈ n.log, a.connection = conn → a.channel = hid →
      ∃ ack, hc.acks a.packet.sequence = some ack := by
    intro a ha h1 h2
    obtain ⟨-, -, -, -, hc', ack, k1, -, k3, -⟩ := hi.logged a ha
    rw [h1, h2, hch] at k1
    injection k1 with k1
    subst k1
    exact ⟨ack, k3⟩
  constructor
  case exec => rw [hoc, hw]; exact hi.exec
  case sentIff => intro p; rw [hoc, hsent]; exact hi.sentIff p
  case proposed =>
    intro ch hc'
    have : n'.proposed = n.proposed := by rw [hn]
    rw [this] at hc'
    exact (hi.proposed ch hc').keeps hk
  case waiting =>
    intro id c hc hst
    have : n'.proposed = n.proposed := by rw [hn]
    rw [this]
    rw [hw] at hc
    exact hi.waiting id c hc hst
  case host =>
    intro c i y hy
    rw [hhosts] at hy
    rcases chans_set hy with ⟨rfl, rfl, rfl⟩ | ⟨-, hy⟩
    · rw [hle.controller, hle.order, hle.version]
      exact (hi.host _ _ _ hch).keeps hk
    · exact (hi.host _ _ _ hy).keeps hk
  case linked =>
    intro id c hc' hst
    rw [hw] at hc'
    exact (hi.linked id c hc' hst).keeps hk
  case packets =>
    intro p hp
    rw [hsent] at hp
    rw [hoc]
    have := (hi.packets p hp).keeps (x := []) hk
    rwa [List.append_nil] at this
  case logged =>
    intro e he
    rw [hlg] at he
    rcases List.mem_append.1 he with he | he
    · exact (hi.logged e he).keeps hk
    · exact hlog e he
  case acked =>
    intro c i y k ack hy hack
    rw [hhosts] at hy
    rw [hsent, hlg]
    rcases chans_set hy with ⟨rfl, rfl, rfl⟩ | ⟨-, hy⟩
    · rw [hle.controller]
      rcases hacks k ack hack with ho | ⟨-, -, p, h1, h2, h3, h4, -, h5⟩
      · obtain ⟨p, h1, h2, h3, h4, h5⟩ := hi.acked _ _ _ _ _ hch ho
        refine ⟨p, h1, h2, h3, h4, ?_⟩
        rcases h5 with ⟨e, h5, h6⟩ | h5
        · exact .inl ⟨e, List.mem_append_left _ h5, h6⟩
        · exact .inr h5
      · refine ⟨p, h1, h2, h3, h4, ?_⟩
        rcases h5 with ⟨e, h5, h6⟩ | h5
        · exact .inl ⟨e, List.mem_append_right _ h5, h6⟩
        · exact .inr h5
    · obtain ⟨p, h1, h2, h3, h4, h5⟩ := hi.acked _ _ _ _ _ hy hack
      refine ⟨p, h1, h2, h3, h4, ?_⟩
      rcases h5 with ⟨e, h5, h6⟩ | h5
      · exact .inl ⟨e, List.mem_append_left _ h5, h6⟩
      · exact .inr h5
  case once =>
    rw [hlg]
    rcases hL with rfl | ⟨e, rfl, h1, h2, h3, h4, -⟩
    · rw [List.append_nil]; exact hi.once
    · rw [List.pairwise_append]
      refine ⟨hi.once, List.pairwise_singleton _ _, ?_⟩
      intro a ha b hb hab
      rw [List.mem_singleton] at hb
      subst hb
      obtain ⟨k0, k1, -, -, hc', ack, k2, k3, k4, -⟩ := hi.logged a ha
      -- the same packet belongs to the same channel
      obtain ⟨-, c1, -, -, m1, m2, m3, -⟩ := hi.host _ _ _ k2
      obtain ⟨-, c2, -, -, m1', m2', m3', -⟩ := hi.host _ _ _ hch
      have e1 : hc'.controller = hc.controller := by rw [k3, hab, h2]
      rw [e1, m1'] at m1
      injection m1 with m1
      subst m1
      have hcn : a.connection = conn := by rw [← m3, ← m3']
      have hbk := hlog b (List.mem_singleton.2 rfl)
      have hhid : a.channel = hid := by rw [← k1, hab, hbk.2.1, h4]
      obtain ⟨ack', hold⟩ := old a ha hcn hhid
      rw [hab, h1] at hold
      cases hold
  case ordered =>
    intro c i y hy
    rw [hhosts] at hy
    rcases chans_set hy with ⟨rfl, rfl, rfl⟩ | ⟨-, hy⟩
    · exact hord
    · exact hi.ordered _ _ _ hy
  case sorted =>
    have base : n.log.Pairwise fun a b => a.connection = b.connection → a.channel = b.channel →
        ∀ hc, (n'.hosts a.connection).chans a.channel = some hc → hc.order = .ordered →
          a.packet.sequence.toNat < b.packet.sequence.toNat := by
      refine hi.sorted.imp ?_
      intro a b hab h1 h2 y hy ho
      rw [hhosts] at hy
      rcases chans_set hy with ⟨e1, e2, rfl⟩ | ⟨-, hy⟩
      · exact hab h1 h2 hc (by rw [e1, e2]; exact hch) (by rw [← hle.order]; exact ho)
      · exact hab h1 h2 y hy ho
    rw [hlg]
    rcases hL with rfl | ⟨e, rfl, h1, h2, h3, h4, h5⟩
    · rw [List.append_nil]; exact base
    · rw [List.pairwise_append]
      refine ⟨base, List.pairwise_singleton _ _, ?_⟩
      intro a ha b hb e1 e2 y hy ho
      rw [List.mem_singleton] at hb
      subst hb
      have hcn : a.connection = conn := e1.trans h3
      have hhid : a.channel = hid := e2.trans h4
      rw [hhosts, hcn, hhid] at hy
      rcases chans_set hy with ⟨-, -, rfl⟩ | ⟨hne, -⟩
      · obtain ⟨ack, hold⟩ := old a ha hcn hhid
        have hoo : hc.order = .ordered := by rw [← hle.order]; exact ho
        have := ((hi.ordered _ _ _ hch).2 hoo _).1 ⟨ack, hold⟩
        rw [h5 hoo]
        exact this.2
      · exact absurd ⟨rfl, rfl⟩ hne
  case acks =>
    intro y hy id k ack r hop
    rw [hoc] at hy
    exact (hi.acks y hy id k ack r hop).keeps hk
  case timeouts =>
    intro y hy id k r hop
    rw [hoc] at hy
    obtain ⟨c, p, z, h1, h2, h3, h4, h5, h6, h7⟩ := hi.timeouts y hy id k r hop
    obtain ⟨z', k1, k2⟩ := (hk.hosts _).chans _ _ h5
    refine ⟨c, p, z', by rw [hw]; exact h1, by rw [hsent]; exact h2, h3, h4, k1, ?_, ?_⟩
    · cases hz : z'.acks k with
      | none => rfl
      | some ack =>
        exfalso
        have k1' := k1
        rw [hhosts] at k1
        rcases chans_set k1 with ⟨e1, e2, rfl⟩ | ⟨-, hy⟩
        · rw [e1, e2, hch] at h5
          injection h5 with h5
          subst h5
          rcases hacks k ack hz with ho | ⟨-, q1, p2, q2, q3, q4, q5, q6, -⟩
          · rw [h6] at ho; cases ho
          · -- the same packet
            obtain ⟨-, c2, -, -, m1, m2, m3, -⟩ := hi.host _ _ _ hch
            obtain ⟨c3, -, -, -, p1, -, p3, p4, -⟩ := hi.packets p h2
            rw [h3, h1] at p1
            injection p1 with p1
            subst p1
            obtain ⟨hc3, l1, l2, -⟩ := hi.linked _ _ h1 (by
              obtain ⟨c4, -, -, -, r1, r2, -⟩ := hi.packets p h2
              rw [h3, h1] at r1
              injection r1 with r1
              subst r1
              exact r2)
            rw [← p4, e1, e2, hch] at l1
            injection l1 with l1
            subst l1
            have : p2 = p := by
              refine hi.unique q2 h2 ?_ (q4.trans h4.symm)
              rw [q3, l2, ← p3]
            subst this
            rcases h7 with h7 | h7
            · rw [e1] at h7; exact q6 h7
            · exact q1 h7
        · rw [h5] at hy
          injection hy with hy
          subst hy
          rw [h6] at hz
          cases hz
    · rcases h7 with h7 | h7
      · exact .inl (elapsed_mono (hk.hosts _) h7)
      · exact .inr (k2.closed h7)

/-- A host moves without touching any of its channels' packets: a new block, or a new channel. -/
theorem ninv_quiet {api : Api} {env : Env} {h : List (NetOp × List Obs)} {n n' : Net} (hi : NInv api env h n)
    {x : NetOp × List Obs} (hx : ∀ op, x.1 ≠ .ctrl op) {hs : String → HostSide} (hn : n' = { n with hosts := hs })
    (hle : ∀ conn, HostLe (n.hosts conn) (hs conn))
    (hch : ∀ conn hid hc, (hs conn).chans hid = some hc → (n.hosts conn).chans hid = some hc ∨
      (n.hosts conn).chans hid = none ∧ hc.nextRecv = 1 ∧ (∀ k, hc.acks k = none) ∧
      HostOk n' conn hc.controller hc.order hc.version) : NInv api env (h ++ [x]) n' := by
  have hw : n'.w = n.w := by rw [hn]
  have hsent : n'.sent = n.sent := by rw [hn]
  have hhosts : n'.hosts = hs := by rw [hn]
  have hlg : n'.log = n.log := by rw [hn]
  have hoc := onController_host h hx
  have hk : Keeps n n' := by
    refine ⟨fun id c hc => ⟨c, by rw [hw]; exact hc, .refl c⟩, by rw [hhosts]; exact hle, fun p hp => by rw [hsent]; exact hp⟩
  have kept : ∀ conn hid hc, (n.hosts conn).chans hid = some hc → (n'.hosts conn).chans hid = some hc := by
    intro conn hid hc h1
    obtain ⟨c', k1, -⟩ := (hle conn).chans _ _ h1
    rcases hch _ _ _ k1 with k2 | ⟨k2, -⟩
    · rw [h1] at k2; injection k2 with k2; subst k2; rw [hhosts]; exact k1
    · rw [h1] at k2; cases k2
  constructor
  case exec => rw [hoc, hw]; exact hi.exec
  case sentIff => intro p; rw [hoc, hsent]; exact hi.sentIff p
  case proposed =>
    intro ch hc'
    have : n'.proposed = n.proposed := by rw [hn]
    rw [this] at hc'
    exact (hi.proposed ch hc').keeps hk
  case waiting =>
    intro id c hc hst
    have : n'.proposed = n.proposed := by rw [hn]
    rw [this]
    rw [hw] at hc
    exact hi.waiting id c hc hst
  case host =>
    intro c i y hy
    rw [hhosts] at hy
    rcases hch _ _ _ hy with hy | ⟨-, -, -, hy⟩
    · exact (hi.host _ _ _ hy).keeps hk
    · exact hy
  case linked =>
    intro id c hc' hst
    rw [hw] at hc'
    exact (hi.linked id c hc' hst).keeps hk
  case packets =>
    intro p hp
    rw [hsent] at hp
    rw [hoc]
    have := (hi.packets p hp).keeps (x := []) hk
    rwa [List.append_nil] at this
  case logged =>
    intro e he
    rw [hlg] at he
    exact (hi.logged e he).keeps hk
  case acked =>
    intro c i y k ack hy hack
    rw [hhosts] at hy
    rw [hsent, hlg]
    rcases hch _ _ _ hy with hy | ⟨-, -, hn, -⟩
    · exact hi.acked _ _ _ _ _ hy hack
    · rw [hn] at hack; cases hack
  case once => rw [hlg]; exact hi.once
  case ordered =>
    intro c i y hy
    rw [hhosts] at hy
    rcases hch _ _ _ hy with hy | ⟨-, h1, hn, -⟩
    · exact hi.ordered _ _ _ hy
    · refine ⟨by omega, fun _ k => ⟨?_, fun h => by omega⟩⟩
      rintro ⟨ack, h⟩
      rw [hn] at h; cases h
  case sorted =>
    rw [hlg]
    refine List.Pairwise.imp_of_mem ?_ hi.sorted
    intro a b ha _ hab h1 h2 y hy ho
    refine hab h1 h2 y ?_ ho
    obtain ⟨-, -, -, -, hc', ack, k2, -⟩ := hi.logged a ha
    have := kept _ _ _ k2
    rw [hy] at this
    injection this with this
    rw [this]; exact k2
  case acks =>
    intro y hy id k ack r hop
    rw [hoc] at hy
    exact (hi.acks y hy id k ack r hop).keeps hk
  case timeouts =>
    intro y hy id k r hop
    rw [hoc] at hy
    obtain ⟨c, p, z, h1, h2, h3, h4, h5, h6, h7⟩ := hi.timeouts y hy id k r hop
    refine ⟨c, p, z, by rw [hw]; exact h1, by rw [hsent]; exact h2, h3, h4, kept _ _ _ h5, h6, ?_⟩
    exact h7.imp (elapsed_mono (hk.hosts _)) _root_.id

/-- Ordered channels: receiving the next packet keeps received and passed sequence numbers the same. -/
theorem ordered_receive {hc : HostChan} {s : UInt64} {ack : Bytes}
    (h : 1 ≤ hc.nextRecv ∧ (hc.order = .ordered → ∀ k, (∃ ack, hc.acks k = some ack) ↔ 1 ≤ k.toNat ∧ k.toNat < hc.nextRecv))
    (hs : hc.order = .ordered → s.toNat = hc.nextRecv) :
    1 ≤ (hc.receive s ack).nextRecv ∧ ((hc.receive s ack).order = .ordered →
      ∀ k, (∃ a, (hc.receive s ack).acks k = some a) ↔ 1 ≤ k.toNat ∧ k.toNat < (hc.receive s ack).nextRecv) := by
  obtain ⟨h1, h2⟩ := h
  refine ⟨by show 1 ≤ hc.nextRecv + 1; omega, ?_⟩
  intro ho k
  have ho : hc.order = .ordered := ho
  have hn : (hc.receive s ack).nextRecv = hc.nextRecv + 1 := rfl
  rw [hn]
  by_cases e : k = s
  · subst e
    have := hs ho
    exact ⟨fun _ => by omega, fun _ => ⟨ack, by simp [HostChan.receive]⟩⟩
  · have e' : k.toNat ≠ s.toNat := fun h => e (UInt64.toNat_inj.1 h)
    have := hs ho
    have : (hc.receive s ack).acks k = hc.acks k := by simp [HostChan.receive, e]
    rw [this, h2 ho k]
    omega

/-- **The invariant of the joint system.** -/
theorem ninv_step {api : Api} {env : Env} {h : List (NetOp × List Obs)} {n n' : Net} {op : NetOp} {obs : List Obs}
    (hi : NInv api env h n) (hs : NetStep api n op n' obs) : NInv api env (h ++ [(op, obs)]) n' := by
  have hle := hosts_step hs
  cases hs with
  | ctrl o w' _ hp ha => exact ninv_ctrl hi hp ha
  | hostBlock conn ht t h1 h2 =>
    refine ninv_quiet hi (by simp) rfl hle ?_
    intro c i y hy
    refine .inl ?_
    by_cases e : c = conn
    · subst e; rw [setHost_same] at hy; exact hy
    · rw [setHost_ne _ _ e] at hy; exact hy
  | hostOpenTry conn hid ch v a h1 h2 h3 h4 h5 h6 h7 h8 =>
    refine ninv_quiet hi (by simp) rfl hle ?_
    intro c i y hy
    by_cases e : c = conn
    · subst e
      rw [setHost_same] at hy
      by_cases e2 : i = hid
      · subst e2
        simp only [HostSide.setChan, if_true, Option.some.injEq] at hy
        subst hy
        refine .inr ⟨h4, rfl, fun _ => rfl, ?_⟩
        obtain ⟨cc, k1, k2, k3, k4, -⟩ := hi.proposed ch h1
        refine ⟨a, cc, ?_, ?_, k1, k2, k3.trans h2, k4⟩
        · dsimp only; rw [setHost_same]; rfl
        · dsimp only; rw [setHost_same]; exact h6
      · simp only [HostSide.setChan, e2, if_false] at hy
        exact .inl hy
    · rw [setHost_ne _ _ e] at hy; exact .inl hy
  | hostOpenConfirm conn hid hc cc h1 h2 =>
    have ho := hi.ordered _ _ _ h1
    refine ninv_host hi (by simp) (d := { hc with status := .opened }) (L := []) (by simp) h1 ?_ ?_ ho (by simp) (.inl rfl)
    · exact ⟨rfl, rfl, rfl, fun h => (by rw [h2] at h; cases h), fun _ _ h => h, Nat.le_refl _⟩
    · exact fun _ _ h => .inl h
  | hostCloseConfirm conn hid hc cc h1 h2 =>
    have ho := hi.ordered _ _ _ h1
    refine ninv_host hi (by simp) (d := { hc with status := .closed }) (L := []) (by simp) h1 ?_ ?_ ho (by simp) (.inl rfl)
    · exact ⟨rfl, rfl, rfl, fun _ => rfl, fun _ _ h => h, Nat.le_refl _⟩
    · exact fun _ _ h => .inl h
  | execute conn hid hc p ack a memo ms rs h1 h2 h3 h4 h5 h6 h7 h8 h9 h10 h11 h12 h13 =>
    refine ninv_host hi (by simp) rfl h1 (receive_le h7) ?_ (ordered_receive (hi.ordered _ _ _ h1) h8) ?_
      (.inr ⟨_, rfl, h7, h4, rfl, rfl, h8⟩)
    · intro k b hb
      by_cases e : k = p.sequence
      · subst e
        refine .inr ⟨h7, by rw [h2]; decide, p, h3, h4, rfl, by rw [h5], h6, .inl ⟨_, List.mem_singleton.2 rfl, rfl, rfl, rfl⟩⟩
      · exact .inl (by simpa [HostChan.receive, e] using hb)
    · intro e he
      rw [List.mem_singleton] at he
      subst he
      refine ⟨h3, by rw [h5], ?_, ⟨⟨memo, h10⟩, h12⟩, hc.receive p.sequence ack, ack, ?_, h4.symm, ?_, h13⟩
      · dsimp only; rw [setHost_same]; exact h9
      · dsimp only; rw [setHost_same]; simp [HostSide.setChan]
      · simp [HostChan.receive]
  | fail conn hid hc p ack er h1 h2 h3 h4 h5 h6 h7 h8 h9 =>
    refine ninv_host hi (by simp) (d := hc.receive p.sequence ack) (L := []) (by simp) h1 (receive_le h7) ?_ (ordered_receive (hi.ordered _ _ _ h1) h8)
      (by simp) (.inl rfl)
    intro k b hb
    by_cases e : k = p.sequence
    · subst e
      refine .inr ⟨h7, by rw [h2]; decide, p, h3, h4, rfl, by rw [h5], h6, .inr ⟨er, ?_⟩⟩
      have : b = ack := by simpa [HostChan.receive] using hb.symm
      subst this
      exact h9
    · exact .inl (by simpa [HostChan.receive, e] using hb)

theorem ninv_exec {api : Api} {env : Env} {n0 n : Net} {h : List (NetOp × List Obs)} (h0 : n0.Initial env)
    (he : NetExec api n0 h n) : NInv api env h n := by
  induction he with
  | nil => exact ninv_initial h0
  | step _ hs ih => exact ninv_step ih hs

end Ica
