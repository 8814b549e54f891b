import Verif.Facts.Host
import Verif.Props.Channel
import Verif.Spec.Admission

/-!
# Sending messages and queries (C25-C33)
-/
namespace Ica
open Spec

/-- What a committed send looks like, for the proofs below. -/
theorem send_inv {api : Api} {w w' : World} {sender : String} {ms : List CosmosMsg} {qs : List QueryRequest}
    {memo : Option String} {t : Option UInt64} {fresh : String} {core : Bool} {obs : List Obs}
    (hc : Commits api w (.execute sender (.sendCosmosMsgs ms qs memo t) fresh core) w' obs) :
    ∃ info anys cqs c, ∃ ts : UInt64, ∃ p : IbcPacket, icaOf w = some info ∧
      List.Forall₂ (fun m a => convertToProtoAny m info.icaAddress = .ok a) ms anys ∧
      List.Forall₂ (fun q a => queryToProtobuf q = .ok a) qs cqs ∧
      ts.toNat = w.env.time.toNat + ((t.map (·.toNat)).getD 600) * 1000000000 ∧
      w.chans info.channelId = some c ∧ c.status = .opened ∧ w.nextSeq info.channelId < 18446744073709551616 ∧
      p = ⟨IcaPacketData.jc.toBytes (.fromProtoAnys (packetAnys info.icaAddress anys cqs) memo),
          c.chan.endpoint, c.chan.counterpartyEndpoint, UInt64.ofNat (w.nextSeq info.channelId),
          ⟨none, some ts⟩⟩ ∧
      w' = { w with
          store := storeAfterSend w.store info.channelId (UInt64.ofNat (w.nextSeq info.channelId)) qs cqs
          nextSeq := setSeq w.nextSeq info.channelId (w.nextSeq info.channelId + 1)
          commits := setCommit w.commits info.channelId (UInt64.ofNat (w.nextSeq info.channelId)) (some p) } ∧
      obs = [.packetSent p] := by
  obtain ⟨_, _, _, st, info, anys, cqs, c, ts, p, h1, h2, _, h3, h4, h5, h6, h7, h8, h9, h10, h11⟩ := apply_send.1 hc
  exact ⟨info, anys, cqs, c, ts, p, by simp [icaOf, h1, h2], mapRes_eq_ok.1 h3, mapRes_eq_ok.1 h4, h5, h6, h7, h8, h9,
    h10, h11⟩

/-- **C25.** A committed `SendCosmosMsgs` sends exactly one packet: from the contract's port on the channel of the
ICA info, to that channel's counterparty, with the channel's next sequence number. The contract changes nothing but
its pending-query records, and of these only the one of this packet, and none if there are no queries. -/
theorem C25_one_packet {api : Api} {w w' : World} {sender : String} {ms : List CosmosMsg} {qs : List QueryRequest}
    {memo : Option String} {t : Option UInt64} {fresh : String} {core : Bool} {obs : List Obs} (h : Reachable api w)
    (hc : Commits api w (.execute sender (.sendCosmosMsgs ms qs memo t) fresh core) w' obs) :
    ∃ info p ch, icaOf w = some info ∧ ChainOpen w info.channelId ch ∧ obs = [.packetSent p] ∧
      p.src = ⟨"wasm." ++ w.env.contractAddr, info.channelId⟩ ∧ p.dest = ch.counterpartyEndpoint ∧
      p.sequence.toNat = w.nextSeq info.channelId ∧ w'.nextSeq info.channelId = w.nextSeq info.channelId + 1 ∧
      (∀ id, id ≠ info.channelId → w'.nextSeq id = w.nextSeq id) ∧
      w'.commits info.channelId p.sequence = some p ∧
      (∀ id n, (id, n) ≠ (info.channelId, p.sequence) → w'.commits id n = w.commits id n) ∧
      w'.chans = w.chans ∧ w'.env = w.env ∧ w'.live = w.live ∧
      w'.store = { w.store with pending := w'.store.pending } ∧
      (∀ id n, (id, n) ≠ (info.channelId, p.sequence) → w'.store.pending id n = w.store.pending id n) ∧
      (qs = [] → w'.store = w.store) := by
  have hv := inv_of_reachable h
  obtain ⟨info, anys, cqs, c, ts, p, h1, _, _, _, h5, h6, h7, h8, rfl, rfl⟩ := send_inv hc
  obtain ⟨ch, s⟩ := c
  cases h6
  have hseq : p.sequence.toNat = w.nextSeq info.channelId := by
    subst h8
    show (UInt64.ofNat _).toNat = _
    rw [UInt64.toNat_ofNat']; exact Nat.mod_eq_of_lt h7
  have hpe : p.sequence = UInt64.ofNat (w.nextSeq info.channelId) := by subst h8; rfl
  obtain ⟨he, _⟩ := hv.chans _ _ h5
  have f := storeAfterSend_fields w.store info.channelId (UInt64.ofNat (w.nextSeq info.channelId)) qs cqs
  have fq := storeAfterSend_query hv.noScratch info.channelId (UInt64.ofNat (w.nextSeq info.channelId)) qs cqs
  refine ⟨info, p, ch, h1, h5, rfl, by subst h8; exact he, by subst h8; rfl, hseq, by simp [setSeq],
    fun id hid => by simp [setSeq, hid], by simp [setCommit, hpe], ?_, rfl, rfl, rfl, ?_, ?_, ?_⟩
  · intro id n hne
    simp only [setCommit]
    rw [if_neg]
    rintro ⟨rfl, rfl⟩
    exact hne (by rw [hpe])
  · obtain ⟨f1, f2, f3, f4, f5, f6, f7⟩ := f
    have hs := hv.noScratch
    revert fq f1 f2 f3 f4 f5 f6 f7
    generalize storeAfterSend w.store info.channelId (UInt64.ofNat (w.nextSeq info.channelId)) qs cqs = s'
    generalize w.store = s at hs ⊢
    intro fq f1 f2 f3 f4 f5 f6 f7
    cases s
    cases s'
    simp_all
  · intro id n hne
    simp only [storeAfterSend]
    split
    · rfl
    · simp only [setPending]
      rw [if_neg]
      rintro ⟨rfl, rfl⟩
      exact hne (by rw [hpe])
  · intro hq
    simp [storeAfterSend, hq]

/-- A send with messages and queries commits in the scenario. -/
example : ∃ obs, Commits Ex.api Ex.w2 (.execute "alice" (.sendCosmosMsgs Ex.msgs Ex.qs (some "hi") none) "" true) Ex.w3
    obs ∧ obs = [.packetSent Ex.pkt] ∧ Ex.pkt.src = ⟨"wasm.wasm1controller", "channel-0"⟩ :=
  ⟨_, (apply_iff_step (inv_of_reachable Ex.r2)).2 Ex.s3, rfl, rfl⟩

/-- **C26.** As long as no OpenAck has been committed, every `SendCosmosMsgs` fails. -/
theorem C26_no_packet_before_handshake {api : Api} {env : Env} {h : List (Op × List Obs)} {w : World}
    (he : Exec api (World.genesis env) h w) (hn : ∀ x ∈ h, ∀ id cpId v, x.1 ≠ .relayOpenAck id cpId v)
    (sender : String) (ms : List CosmosMsg) (qs : List QueryRequest) (memo : Option String) (t : Option UInt64)
    (fresh : String) (core : Bool) :
    Refused api w (.execute sender (.sendCosmosMsgs ms qs memo t) fresh core) := by
  have hi := (C16_nothing_before_open_ack he hn).2
  cases ha : apply api w (.execute sender (.sendCosmosMsgs ms qs memo t) fresh core) with
  | none => exact ha
  | some r =>
    obtain ⟨w', obs⟩ := r
    obtain ⟨info, _, _, _, _, _, h1, _⟩ := send_inv ha
    rw [hi] at h1
    cases h1

/-- **C26**, over histories: the history before any packet contains an OpenAck. -/
theorem C26_packets_after_handshake {api : Api} {env : Env} {h : List (Op × List Obs)} {w : World}
    (he : Exec api (World.genesis env) h w) (hn : ∀ x ∈ h, ∀ id cpId v, x.1 ≠ .relayOpenAck id cpId v) :
    sentPackets h = [] := by
  revert hn
  refine exec_induction (C := fun h _ => (∀ x ∈ h, ∀ id cpId v, x.1 ≠ .relayOpenAck id cpId v) →
    sentPackets h = []) (fun _ => rfl) ?_ he
  intro h w op w' obs he hv ih hs hn
  have i := ih (fun x hx => hn x (List.mem_append_left _ hx))
  have i2 := (C16_nothing_before_open_ack he (fun x hx => hn x (List.mem_append_left _ hx))).2
  have hop := hn (op, obs) (by simp)
  have happ : sentPackets (h ++ [(op, obs)]) = sentPackets [(op, obs)] := by
    unfold sentPackets at i ⊢
    simp only [List.flatMap_append, List.filterMap_append, i, List.nil_append]
  rw [happ]
  cases hs with
  | openAck id cpId v => exact absurd rfl (hop id cpId v)
  | send _ _ _ _ _ _ st info _ _ _ _ _ _ _ h1 h2 => simp [icaOf, h1, h2] at i2
  | ackOk _ _ _ _ _ _ st =>
    cases hcb : st.callbackAddress <;> simp [sentPackets, callObs, hcb]
  | ackErr _ _ _ _ _ _ st =>
    cases hcb : st.callbackAddress <;> simp [sentPackets, callObs, hcb]
  | timeout _ _ _ _ _ st =>
    cases hcb : st.callbackAddress <;> simp [sentPackets, callObs, hcb]
  | _ => rfl

/-- After the instantiation alone, nothing can be sent. -/
example : Refused Ex.api Ex.w1 (.execute "alice" (.sendCosmosMsgs Ex.msgs Ex.qs none none) "" true) :=
  C26_no_packet_before_handshake (env := Ex.env)
    (h := [(.instantiate "deployer" Ex.inst "channel-0" true, [.channelCreated "channel-0"])])
    (.step .nil ((apply_iff_step (inv_of_reachable Ex.r0)).2 Ex.s1)) (by simp) _ _ _ _ _ _ _

/-- The packet of a committed send as the host reads it. -/
theorem send_packet {api : Api} {w w' : World} {sender : String} {ms : List CosmosMsg} {qs : List QueryRequest}
    {memo : Option String} {t : Option UInt64} {fresh : String} {core : Bool} {obs : List Obs}
    (hc : Commits api w (.execute sender (.sendCosmosMsgs ms qs memo t) fresh core) w' obs) :
    ∃ info p, icaOf w = some info ∧ obs = [.packetSent p] ∧ ∃ l last, readPacket p.data = some ⟨1, memo, l ++ last⟩ ∧
      List.Forall₂ (HostReads info.icaAddress) ms l ∧
      (qs = [] ∧ last = [] ∨ qs ≠ [] ∧ ∃ url value reqs, last = [(url, value)] ∧
        readHostMsg url value = some (.moduleQuerySafe info.icaAddress reqs) ∧ List.Forall₂ QueryReads qs reqs) := by
  obtain ⟨info, anys, cqs, c, ts, p, h1, h2, h3, _, _, _, _, h8, _, h10⟩ := send_inv hc
  refine ⟨info, p, h1, h10, anys.map (fun a => (a.typeUrl, a.value)), ?_⟩
  have hp : readPacket p.data =
      some ⟨1, memo, (packetAnys info.icaAddress anys cqs).map fun a => (a.typeUrl, a.value)⟩ := by
    subst h8; exact readPacket_toBytes _ _
  have hm : List.Forall₂ (HostReads info.icaAddress) ms (anys.map fun a => (a.typeUrl, a.value)) := by
    clear hp h8 hc h10
    induction h2 with
    | nil => exact .nil
    | cons a _ ih => exact .cons (hostReads_convert a) ih
  by_cases hq : qs = []
  · subst hq
    cases h3
    exact ⟨[], by simpa [packetAnys] using hp, hm, .inl ⟨rfl, rfl⟩⟩
  · have hcq : cqs ≠ [] := by
      rintro rfl
      cases h3
      exact hq rfl
    refine ⟨_, by simpa [packetAnys, hcq] using hp, hm, .inr ⟨hq, _, _, _, rfl, readHostMsg_querySafe _ _, ?_⟩⟩
    rw [List.map_map]
    clear hp h8 hc h10 hcq hq
    clear * - h3
    induction h3 with
    | nil => exact .nil
    | cons a _ ih => exact .cons (queryReads_convert a) ih

/-- **C27.** The host, reading the bytes of the packet, finds type 1 (`EXECUTE_TX`), the memo given, and one message
for each message given, in order, each exactly what the owner asked for; then, if and only if queries were given,
one last message: the safe module query, with one request per query, in order, each exactly what was asked. -/
theorem C27_host_reads {api : Api} {w w' : World} {sender : String} {ms : List CosmosMsg} {qs : List QueryRequest}
    {memo : Option String} {t : Option UInt64} {fresh : String} {core : Bool} {obs : List Obs}
    (hc : Commits api w (.execute sender (.sendCosmosMsgs ms qs memo t) fresh core) w' obs) :
    ∃ info p, icaOf w = some info ∧ obs = [.packetSent p] ∧ ∃ l last, readPacket p.data = some ⟨1, memo, l ++ last⟩ ∧
      List.Forall₂ (HostReads info.icaAddress) ms l ∧
      (qs = [] ∧ last = [] ∨ qs ≠ [] ∧ ∃ url value reqs, last = [(url, value)] ∧
        readHostMsg url value = some (.moduleQuerySafe info.icaAddress reqs) ∧ List.Forall₂ QueryReads qs reqs) :=
  send_packet hc

/-- What a user can conclude about the send in the scenario: the host executes a bank send of 5 uatom from the ICA. -/
example : ∃ l last, readPacket Ex.pkt.data = some ⟨1, some "hi", l ++ last⟩ ∧ ∃ a b, l = [a, ("/x.Y", [1, 2])] ∧
    readHostMsg a.1 a.2 = some (.send "cosmos1ica" "cosmos1bob" [("uatom", 5)]) ∧ last = [b] := by
  obtain ⟨info, p, h1, h2, l, last, h3, h4, h5⟩ := C27_host_reads ((apply_iff_step (inv_of_reachable Ex.r2)).2 Ex.s3)
  have e1 : info = Ex.info "channel-0" := by injection h1 with h1; exact h1.symm
  have e2 : p = Ex.pkt := by simp at h2; exact h2.symm
  subst e1 e2
  rcases h5 with ⟨h5, _⟩ | ⟨_, u, v, rs, h5, h6, h7⟩
  · cases h5
  · refine ⟨l, last, h3, ?_⟩
    cases h4 with
    | cons ha hb =>
      cases hb with
      | cons hb hd =>
        cases hd
        obtain ⟨h, hh, hr⟩ := ha
        injection hh with hh
        subst hh
        exact ⟨_, _, by rw [show _ = _ from hb], hr, h5⟩

theorem denotes_signer {ica : String} {m : CosmosMsg} {h : HostMsg} (hd : denotes ica m = some h) : h.signer = ica := by
  revert hd
  cases m with
  | stargate u v => intro h; cases h
  | custom c => intro h; cases h
  | bank b => cases b <;> (intro h; cases h <;> rfl)
  | ibc b => cases b <;> (intro h; cases h <;> rfl)
  | wasm b => cases b <;> (intro h; cases h <;> rfl)
  | gov b => cases b <;> (intro h; cases h <;> rfl)
  | staking b => cases b <;> (intro h; cases h <;> rfl)
  | distribution b => cases b <;> (intro h; cases h <;> rfl)

/-- **C28.** Every message the contract makes out of a message that is not stargate, and the query message, has the
ICA address as its signer. -/
theorem C28_signed_by_ica {api : Api} {w w' : World} {sender : String} {ms : List CosmosMsg} {qs : List QueryRequest}
    {memo : Option String} {t : Option UInt64} {fresh : String} {core : Bool} {obs : List Obs}
    (hc : Commits api w (.execute sender (.sendCosmosMsgs ms qs memo t) fresh core) w' obs) :
    ∃ info p P, icaOf w = some info ∧ obs = [.packetSent p] ∧ readPacket p.data = some P ∧
      P.messages.length = ms.length + (if qs = [] then 0 else 1) ∧
      (∀ (i : Nat) (m : CosmosMsg), ms[i]? = some m → (∀ url value, m ≠ .stargate url value) →
        ∃ a h, P.messages[i]? = some a ∧ readHostMsg a.1 a.2 = some h ∧ h.signer = info.icaAddress) ∧
      (qs ≠ [] → ∃ a h, P.messages[ms.length]? = some a ∧ readHostMsg a.1 a.2 = some h ∧
        h.signer = info.icaAddress) := by
  obtain ⟨info, p, h1, h2, l, last, h3, h4, h5⟩ := send_packet hc
  have hl := h4.length_eq
  refine ⟨info, p, _, h1, h2, h3, ?_, ?_, ?_⟩
  · rcases h5 with ⟨a, b⟩ | ⟨a, _, _, _, b, _⟩ <;> simp [a, b, hl]
  · intro i m hm hs
    have : ∃ a, l[i]? = some a ∧ HostReads info.icaAddress m a := by
      clear h3 h5 hl hc h2
      induction h4 generalizing i with
      | nil => simp at hm
      | cons x _ ih =>
        cases i with
        | zero => simp at hm ⊢; exact hm ▸ x
        | succ i => simpa using ih i (by simpa using hm)
    obtain ⟨a, ha, hr⟩ := this
    have hr' : ∃ h, denotes info.icaAddress m = some h ∧ readHostMsg a.1 a.2 = some h := by
      cases m with
      | stargate u v => exact absurd rfl (hs u v)
      | _ => exact hr
    obtain ⟨h, hd, hr'⟩ := hr'
    refine ⟨a, h, ?_, hr', ?_⟩
    · have : i < l.length := by
        rcases Nat.lt_or_ge i l.length with h | h
        · exact h
        · rw [List.getElem?_eq_none h] at ha; cases ha
      simp [List.getElem?_append_left this, ha]
    · exact denotes_signer hd
  · intro hq
    rcases h5 with ⟨a, _⟩ | ⟨_, u, v, rs, b, c, _⟩
    · exact absurd a hq
    · exact ⟨(u, v), _, by simp [b, hl], c, rfl⟩

/-- The send of the scenario: its bank message is signed by the ICA. -/
example : ∃ P a h, readPacket Ex.pkt.data = some P ∧ P.messages[0]? = some a ∧ readHostMsg a.1 a.2 = some h ∧
    h.signer = "cosmos1ica" := by
  obtain ⟨info, p, P, h1, h2, h3, _, h4, _⟩ := C28_signed_by_ica ((apply_iff_step (inv_of_reachable Ex.r2)).2 Ex.s3)
  have e1 : info = Ex.info "channel-0" := by injection h1 with h1; exact h1.symm
  have e2 : p = Ex.pkt := by simp at h2; exact h2.symm
  subst e1 e2
  obtain ⟨a, h, x⟩ := h4 0 _ rfl (by intro u v; simp)
  exact ⟨P, a, h, h3, x⟩

/-- **C29.** The `i`-th message, if stargate, is passed on with exactly its type URL and bytes; a stargate query is
the corresponding request with exactly its path and bytes. -/
theorem C29_stargate_verbatim {api : Api} {w w' : World} {sender : String} {ms : List CosmosMsg}
    {qs : List QueryRequest} {memo : Option String} {t : Option UInt64} {fresh : String} {core : Bool} {obs : List Obs}
    (hc : Commits api w (.execute sender (.sendCosmosMsgs ms qs memo t) fresh core) w' obs) :
    ∃ p P, obs = [.packetSent p] ∧ readPacket p.data = some P ∧
      (∀ (i : Nat) url value, ms[i]? = some (.stargate url value) → P.messages[i]? = some (url, value)) ∧
      (∀ (j : Nat) path data, qs[j]? = some (.stargate path data) → ∃ a signer reqs, P.messages.getLast? = some a ∧
        readHostMsg a.1 a.2 = some (.moduleQuerySafe signer reqs) ∧ reqs[j]? = some (path, data)) := by
  obtain ⟨info, p, h1, h2, l, last, h3, h4, h5⟩ := send_packet hc
  refine ⟨p, _, h2, h3, ?_, ?_⟩
  · intro i u v hm
    have ha : l[i]? = some (u, v) := by
      clear h3 h5 hc h2
      induction h4 generalizing i with
      | nil => simp at hm
      | cons x _ ih =>
        cases i with
        | zero =>
          simp at hm ⊢
          rw [hm] at x
          exact x
        | succ i => simpa using ih i (by simpa using hm)
    have : i < l.length := by
      rcases Nat.lt_or_ge i l.length with h | h
      · exact h
      · rw [List.getElem?_eq_none h] at ha; cases ha
    simp [List.getElem?_append_left this, ha]
  · intro j u v hm
    rcases h5 with ⟨a, _⟩ | ⟨_, x, y, rs, b, c, d⟩
    · subst a; simp at hm
    · refine ⟨(x, y), _, rs, by simp [b], c, ?_⟩
      clear * - d hm
      induction d generalizing j with
      | nil => simp at hm
      | cons x _ ih =>
        cases j with
        | zero =>
          simp at hm ⊢
          rw [hm] at x
          exact x
        | succ i => simpa using ih i (by simpa using hm)

/-- The scenario's stargate message and query. -/
example : ∃ P, readPacket Ex.pkt.data = some P ∧ P.messages[1]? = some ("/x.Y", [1, 2]) ∧
    ∃ a signer reqs, P.messages.getLast? = some a ∧ readHostMsg a.1 a.2 = some (.moduleQuerySafe signer reqs) ∧
      reqs[1]? = some ("/z.Q/W", [7]) := by
  obtain ⟨p, P, h2, h3, h4, h5⟩ := C29_stargate_verbatim ((apply_iff_step (inv_of_reachable Ex.r2)).2 Ex.s3)
  have e2 : p = Ex.pkt := by simp at h2; exact h2.symm
  subst e2
  exact ⟨P, h3, h4 1 _ _ rfl, h5 1 _ _ rfl⟩

theorem allowedSeconds_eq (t : Option UInt64) : (t.map (·.toNat)).getD 600 = allowedSeconds t := by
  cases t <;> rfl

/-- **C30.** The packet of a committed send has no timeout height, and its timeout timestamp is exactly the block time
plus the time allowed, in nanoseconds. -/
theorem C30_timeout_exact {api : Api} {w w' : World} {sender : String} {ms : List CosmosMsg}
    {qs : List QueryRequest} {memo : Option String} {t : Option UInt64} {fresh : String} {core : Bool} {obs : List Obs}
    (hc : Commits api w (.execute sender (.sendCosmosMsgs ms qs memo t) fresh core) w' obs) :
    ∃ p ts, obs = [.packetSent p] ∧ p.timeout = ⟨none, some ts⟩ ∧
      ts.toNat = w.env.time.toNat + allowedSeconds t * 1000000000 := by
  obtain ⟨info, anys, cqs, c, ts, p, _, _, _, h4, _, _, _, h8, _, h10⟩ := send_inv hc
  exact ⟨p, ts, h10, by subst h8; rfl, by rw [h4, allowedSeconds_eq]⟩

/-- **C30** (no wrap-around): if the sum does not fit 64 bits the send fails. -/
theorem C30_overflow_refused {api : Api} {w : World} {t : Option UInt64}
    (hover : 2 ^ 64 ≤ w.env.time.toNat + allowedSeconds t * 1000000000)
    (sender : String) (ms : List CosmosMsg) (qs : List QueryRequest) (memo : Option String) (fresh : String)
    (core : Bool) : Refused api w (.execute sender (.sendCosmosMsgs ms qs memo t) fresh core) := by
  cases ha : apply api w (.execute sender (.sendCosmosMsgs ms qs memo t) fresh core) with
  | none => exact ha
  | some r =>
    obtain ⟨w', obs⟩ := r
    obtain ⟨p, ts, _, _, h⟩ := C30_timeout_exact ha
    have := ts.toNat_lt
    omega

example : Ex.pkt.timeout = ⟨none, some 1700000600000000000⟩ ∧
    Refused Ex.api Ex.w2 (.execute "alice" (.sendCosmosMsgs Ex.msgs [] none (some 18446744073709551615)) "" true) :=
  ⟨rfl, C30_overflow_refused (by decide +kernel) _ _ _ _ _ _⟩

theorem forall₂_exists {α β : Type} {R : α → β → Prop} {l : List α} (h : ∀ x ∈ l, ∃ y, R x y) :
    ∃ l', List.Forall₂ R l l' := by
  induction l with
  | nil => exact ⟨[], .nil⟩
  | cons a l ih =>
    obtain ⟨y, hy⟩ := h a (by simp)
    obtain ⟨l', hl⟩ := ih (fun x hx => h x (by simp [hx]))
    exact ⟨y :: l', .cons hy hl⟩

theorem forall₂_left {α β : Type} {R : α → β → Prop} {l : List α} {l' : List β} (h : List.Forall₂ R l l') :
    ∀ x ∈ l, ∃ y, R x y := by
  induction h with
  | nil => simp
  | cons a _ ih =>
    intro x hx
    rcases List.mem_cons.1 hx with rfl | hx
    · exact ⟨_, a⟩
    · exact ih x hx

/-- **C31.** If any message or query is of an unsupported kind, at whatever position, the execution fails. -/
theorem C31_unsupported_refused {api : Api} (w : World) (sender : String) (ms : List CosmosMsg)
    (qs : List QueryRequest) (memo : Option String) (t : Option UInt64) (fresh : String) (core : Bool)
    (hu : (∃ m ∈ ms, ¬ Supported m) ∨ ∃ q ∈ qs, ¬ SupportedQuery q) :
    Refused api w (.execute sender (.sendCosmosMsgs ms qs memo t) fresh core) := by
  cases ha : apply api w (.execute sender (.sendCosmosMsgs ms qs memo t) fresh core) with
  | none => exact ha
  | some r =>
    obtain ⟨w', obs⟩ := r
    obtain ⟨info, anys, cqs, _, _, _, _, h2, h3, _⟩ := send_inv ha
    rcases hu with ⟨m, hm, hn⟩ | ⟨q, hq, hn⟩
    · obtain ⟨a, hx⟩ := forall₂_left h2 m hm
      obtain ⟨e, he⟩ := not_convert hn info.icaAddress
      rw [he] at hx; cases hx
    · obtain ⟨a, hx⟩ := forall₂_left h3 q hq
      obtain ⟨e, he⟩ := not_convertQuery hn
      rw [he] at hx; cases hx

/-- **C31** (what is accepted): in a reachable state a `SendCosmosMsgs` is committed exactly when the sender is the
owner, the ICA is known and its channel open on the chain with a sequence number left, every message and query is of a
supported kind and the timeout fits 64 bits. -/
theorem C31_send_iff {api : Api} {w : World} (h : Reachable api w) (sender : String) (ms : List CosmosMsg)
    (qs : List QueryRequest) (memo : Option String) (t : Option UInt64) (fresh : String) :
    (∃ w' obs, Commits api w (.execute sender (.sendCosmosMsgs ms qs memo t) fresh true) w' obs) ↔
      ownerOf w = some sender ∧
      (∃ info ch, icaOf w = some info ∧ ChainOpen w info.channelId ch ∧ w.nextSeq info.channelId < 2 ^ 64) ∧
      (∀ m ∈ ms, Supported m) ∧ (∀ q ∈ qs, SupportedQuery q) ∧
      w.env.time.toNat + allowedSeconds t * 1000000000 < 2 ^ 64 := by
  have hv := inv_of_reachable h
  constructor
  · rintro ⟨w', obs, hc⟩
    have ho : ownerOf w = some sender := by
      obtain ⟨_, ⟨ow, h1, h2⟩, _⟩ := apply_send.1 hc
      simp [ownerOf, h1, h2]
    obtain ⟨info, p, ch, h1, h2, _⟩ := C25_one_packet h hc
    obtain ⟨_, _, _, _, _, _, h1', _, _, _, _, _, hsq, _⟩ := send_inv hc
    rw [h1] at h1'
    injection h1' with h1'
    refine ⟨ho, ⟨info, ch, h1, h2, h1' ▸ hsq⟩, ?_, ?_, ?_⟩
    · intro m hm
      by_cases hs : Supported m
      · exact hs
      · have := C31_unsupported_refused (api := api) w sender ms qs memo t fresh true (.inl ⟨m, hm, hs⟩)
        unfold Refused at this; rw [show apply api w _ = _ from hc] at this; cases this
    · intro m hm
      by_cases hs : SupportedQuery m
      · exact hs
      · have := C31_unsupported_refused (api := api) w sender ms qs memo t fresh true (.inr ⟨m, hm, hs⟩)
        unfold Refused at this; rw [show apply api w _ = _ from hc] at this; cases this
    · obtain ⟨_, ts, _, _, hts⟩ := C30_timeout_exact hc
      rw [← hts]; exact ts.toNat_lt
  · rintro ⟨ho, ⟨info, ch, hi, hch, hsq⟩, hms, hqs, ht⟩
    unfold icaOf at hi
    unfold ownerOf at ho
    cases hst : w.store.state with
    | none => rw [hst] at hi; cases hi
    | some st =>
    rw [hst] at hi
    cases how : w.store.ownership with
    | none => rw [how] at ho; cases ho
    | some ow =>
    rw [how] at ho
    obtain ⟨anys, ha⟩ := forall₂_exists (R := fun m a => convertToProtoAny m info.icaAddress = .ok a)
      (fun m hm => convert_of_supported (hms m hm) info.icaAddress)
    obtain ⟨cqs, hq⟩ := forall₂_exists (R := fun q a => queryToProtobuf q = .ok a)
      (fun m hm => convert_of_supportedQuery (hqs m hm))
    obtain ⟨_, henc, _⟩ := hv.icaInfo st info hst hi
    have hl : w.live = true := hv.live_of_state hst
    exact ⟨_, _, apply_send.2 ⟨hl, ⟨ow, how, ho⟩, rfl, st, info, anys, cqs, ⟨ch, .opened⟩,
      UInt64.ofNat (w.env.time.toNat + allowedSeconds t * 1000000000), _, hst, hi, henc, mapRes_eq_ok.2 ha,
      mapRes_eq_ok.2 hq, by rw [allowedSeconds_eq, UInt64.toNat_ofNat']; exact Nat.mod_eq_of_lt ht, hch, rfl, hsq, rfl,
      rfl, rfl⟩⟩

/-- A burn among supported messages: refused although everything else is fine. -/
example : ¬ Supported (.bank (.burn [])) ∧ Supported (.bank (.send "a" [])) ∧
    Refused Ex.api Ex.w2 (.execute "alice" (.sendCosmosMsgs (Ex.msgs ++ [.bank (.burn [])]) [] none none) "" true) := by
  have hb : ¬ Supported (.bank (.burn [])) := by
    rintro (⟨u, v, h⟩ | ⟨h, hh⟩)
    · cases h
    · cases hh
  exact ⟨hb, .inr ⟨_, rfl⟩, C31_unsupported_refused _ _ _ _ _ _ _ _ (.inl ⟨_, by simp, hb⟩)⟩

/-- **C32** fails (1): after the owner has closed the channel the contract itself still accepts a send and asks the
chain to send a packet; only the chain stops it. -/
theorem C32_contract_accepts_after_close :
    Reachable Ex.api Ex.w5 ∧ Reports Ex.w5 (Ex.chan "channel-0" Ex.opts) .closed ∧
    ∃ s' r, sendCosmosMsgs Ex.env Ex.w5.store "alice" Ex.msgs [] none none = .ok (s', r) ∧
      ∃ data timeout, r.messages = [⟨0, .ibc (.sendPacket "channel-0" data timeout), .never⟩] := by
  refine ⟨Ex.r5, rfl, ?_⟩
  refine ⟨_, _, sendCosmosMsgs_eq_ok.2 ⟨⟨_, rfl, rfl⟩, _, _, Ex.anys, [], 1700000600000000000, rfl, rfl, rfl, rfl, rfl,
    rfl, rfl, rfl⟩, _, _, rfl⟩

/-- **C32** fails (2): the contract may report its channel CLOSED and still a packet is sent on it (the timeout of a
packet of an earlier channel makes the contract report the current channel as closed although it is open). -/
theorem C32_packet_on_reported_closed :
    Reachable Ex.api Ex.x4 ∧ Reports Ex.x4 (Ex.chan "channel-1" Ex.opts) .closed ∧
    ∃ w' p, Commits Ex.api Ex.x4 (.execute "alice" (.sendCosmosMsgs Ex.msgs [] none none) "" true) w' [.packetSent p] ∧
      p.src.channelId = "channel-1" := by
  refine ⟨Ex.rx4, rfl, ?_⟩
  have hch : Ex.x4.chans "channel-1" = some ⟨Ex.chan "channel-1" Ex.opts, .opened⟩ := by
    simp [Ex.x4, Ex.eTimeout, Ex.x3, Ex.eAck, setChan]
    rfl
  obtain ⟨w', obs, hc⟩ := (C31_send_iff Ex.rx4 "alice" Ex.msgs [] none none "").2
    ⟨by
      have : Ex.x4.store.ownership = some ⟨some "alice", none, none⟩ := Ex.storeOwner3
      simp [ownerOf, this],
     ⟨_, _, rfl, hch, by decide +kernel⟩, by
      intro m hm
      simp only [Ex.msgs, List.mem_cons, List.not_mem_nil, or_false] at hm
      rcases hm with rfl | rfl
      · exact .inr ⟨_, rfl⟩
      · exact .inl ⟨_, _, rfl⟩, by simp, by decide +kernel⟩
  obtain ⟨info, p, ch, h1, _, rfl, h2, _⟩ := C25_one_packet Ex.rx4 hc
  refine ⟨w', p, hc, ?_⟩
  injection h1 with h1
  rw [h2, ← h1]
  rfl

/-- **C32** (partial). While the ICA's channel is not open on the chain, every send fails and nothing is sent.
Missing: the contract's own check, and the case where the contract reports CLOSED a channel the chain has open. -/
theorem C32_no_packet_on_closed_partial {api : Api} {w : World} {info : IcaInfo} (hi : icaOf w = some info)
    (hn : ∀ ch, ¬ ChainOpen w info.channelId ch) (sender : String) (ms : List CosmosMsg) (qs : List QueryRequest)
    (memo : Option String) (t : Option UInt64) (fresh : String) (core : Bool) :
    Refused api w (.execute sender (.sendCosmosMsgs ms qs memo t) fresh core) := by
  cases ha : apply api w (.execute sender (.sendCosmosMsgs ms qs memo t) fresh core) with
  | none => exact ha
  | some r =>
    obtain ⟨w', obs⟩ := r
    obtain ⟨info', _, _, c, _, _, h1, _, _, _, h5, h6, _⟩ := send_inv ha
    rw [hi] at h1
    injection h1 with h1
    subst h1
    obtain ⟨ch, s⟩ := c
    cases h6
    exact absurd h5 (hn ch)

/-- **C32** (partial), in the contract's terms: after the owner has closed the channel, or the counterparty has, every
send fails as long as no OpenAck is committed. -/
theorem C32_no_packet_after_close_partial {api : Api} {w w1 w2 : World} {op : Op} {obs : List Obs}
    {h : List (Op × List Obs)} (hr : Reachable api w)
    (hop : (∃ s f, op = .execute s .closeChannel f true) ∨ ∃ id, op = .relayCloseConfirm id)
    (hc : Commits api w op w1 obs) (he : Exec api w1 h w2)
    (hn : ∀ x ∈ h, ∀ id cpId v, x.1 ≠ .relayOpenAck id cpId v) (sender : String) (ms : List CosmosMsg)
    (qs : List QueryRequest) (memo : Option String) (t : Option UInt64) (fresh : String) (core : Bool) :
    Refused api w2 (.execute sender (.sendCosmosMsgs ms qs memo t) fresh core) := by
  have hv := inv_of_reachable hr
  have hr1 : Reachable api w1 := hr.step hc
  have key : ∃ info ch, icaOf w1 = some info ∧ w1.chans info.channelId = some ⟨ch, .closed⟩ := by
    have hs := step_of_apply hv hc
    have hv1 := inv_of_reachable hr1
    have hcl : ∃ ch, w1.store.channel = some ⟨ch, .closed⟩ ∧ w1.chans ch.endpoint.channelId = some ⟨ch, .closed⟩ := by
      rcases hop with ⟨s, f, rfl⟩ | ⟨id, rfl⟩
      · cases hs with
        | close _ _ c _ _ _ h4 => exact ⟨c.chan, rfl, setChan_same _ _ _⟩
      · cases hs with
        | closeConfirm _ c h1 =>
          refine ⟨c.chan, rfl, ?_⟩
          rw [hv.chan_id h1]
          exact setChan_same _ _ _
    obtain ⟨ch, e1, e2⟩ := hcl
    obtain ⟨st, hst⟩ := hv1.state (hv1.live_of_channel e1)
    cases hi : st.icaInfo with
    | none => rw [(hv1.icaChannel st hst).1 hi] at e1; cases e1
    | some info =>
      have := (hv1.icaInfo st info hst hi).2.2 _ e1
      exact ⟨info, ch, by simp [icaOf, hst, hi], by rw [← this]; exact e2⟩
  obtain ⟨info, ch, k1, k2⟩ := key
  have fin : icaOf w2 = some info ∧ w2.chans info.channelId = some ⟨ch, .closed⟩ := by
    revert hn
    refine exec_induction' (C := fun h w => (∀ x ∈ h, ∀ id cpId v, x.1 ≠ .relayOpenAck id cpId v) →
      icaOf w = some info ∧ w.chans info.channelId = some ⟨ch, .closed⟩) (inv_of_reachable hr1) (fun _ => ⟨k1, k2⟩) ?_ he
    intro h w op w' obs _ hv ih hs hn
    obtain ⟨i1, i2⟩ := ih (fun x hx => hn x (List.mem_append_left _ hx))
    have hop := hn (op, obs) (by simp)
    have hne : ∀ {id c}, w.chans id = some c → c.status ≠ .closed → info.channelId ≠ id := by
      intro id c h1 h2 e
      rw [← e, i2] at h1
      injection h1 with h1
      subst h1
      exact h2 rfl
    cases hs with
    | openAck id cpId v => exact absurd rfl (hop id cpId v)
    | instantiate _ _ _ hl => rw [((hv.dead hl).2.1)] at i2; cases i2
    | block => exact ⟨i1, i2⟩
    | create _ _ fresh _ _ _ hf =>
      refine ⟨i1, ?_⟩
      dsimp only
      rw [setChan_ne _ (by rintro e; rw [e, hf] at i2; cases i2)]
      exact i2
    | close _ _ c _ _ _ h4 h5 =>
      refine ⟨i1, ?_⟩
      dsimp only
      rw [setChan_ne _ (hne h4 (by rw [h5]; simp))]
      exact i2
    | closeConfirm id c h4 h5 =>
      refine ⟨i1, ?_⟩
      dsimp only
      rw [setChan_ne _ (hne h4 (by rw [h5]; simp))]
      exact i2
    | send _ _ _ _ _ _ st info' =>
      refine ⟨?_, i2⟩
      unfold icaOf at i1 ⊢
      dsimp only
      rw [(storeAfterSend_fields _ _ _ _ _).2.2.1]
      exact i1
    | callback _ _ _ _ st _ _ _ h4 =>
      refine ⟨?_, i2⟩
      unfold icaOf at i1 ⊢
      rw [h4] at i1
      exact i1
    | transfer => exact ⟨i1, i2⟩
    | accept => exact ⟨i1, i2⟩
    | ackOk => exact ⟨i1, i2⟩
    | ackErr => exact ⟨i1, i2⟩
    | timeout id _ _ _ c _ _ _ h4 =>
      refine ⟨i1, ?_⟩
      dsimp only
      split
      · by_cases e : info.channelId = id
        · subst e
          rw [i2] at h4
          injection h4 with h4
          subst h4
          exact setChan_same _ _ _
        · rw [setChan_ne _ e]; exact i2
      · exact i2
  obtain ⟨f1, f2⟩ := fin
  exact C32_no_packet_on_closed_partial f1 (fun ch' h => by unfold ChainOpen at h; rw [f2] at h; cases h) _ _ _ _ _ _ _

/-- After the owner closes the channel of the scenario. -/
example : Refused Ex.api Ex.w5 (.execute "alice" (.sendCosmosMsgs Ex.msgs [] none none) "" true) :=
  C32_no_packet_after_close_partial Ex.r2 (.inl ⟨_, _, rfl⟩) ((apply_iff_step (inv_of_reachable Ex.r2)).2 Ex.s5) .nil
    (by simp) _ _ _ _ _ _ _

/-- **C33.** At every transaction boundary the scratch record is empty. -/
theorem C33_no_scratch {api : Api} {w : World} (h : Reachable api w) : w.store.query = none :=
  (inv_of_reachable h).noScratch

/-- **C33.** A committed send with queries creates the record of exactly the packet sent, holding for each query, in
order, its path and whether it is a stargate query; a send without queries creates none. -/
theorem C33_record_exact {api : Api} {w w' : World} {sender : String} {ms : List CosmosMsg} {qs : List QueryRequest}
    {memo : Option String} {t : Option UInt64} {fresh : String} {core : Bool} {obs : List Obs} (h : Reachable api w)
    (hc : Commits api w (.execute sender (.sendCosmosMsgs ms qs memo t) fresh core) w' obs) :
    ∃ p, obs = [.packetSent p] ∧ w.store.pending p.src.channelId p.sequence = none ∧
      (qs = [] → w'.store.pending p.src.channelId p.sequence = none) ∧
      (qs ≠ [] → ∃ paths, w'.store.pending p.src.channelId p.sequence = some paths ∧
        List.Forall₂ RecordedAs qs paths) := by
  have hv := inv_of_reachable h
  obtain ⟨info, anys, cqs, c, ts, p, h1, _, h3, _, h5, h6, h7, h8, h9, rfl⟩ := send_inv hc
  obtain ⟨he, _⟩ := hv.chans _ _ h5
  have hsrc : p.src.channelId = info.channelId := by subst h8; dsimp only; rw [he]
  have hseq : p.sequence = UInt64.ofNat (w.nextSeq info.channelId) := by subst h8; rfl
  have hnone : w.store.pending p.src.channelId p.sequence = none := by
    cases hp : w.store.pending p.src.channelId p.sequence with
    | none => rfl
    | some q =>
      have := hv.pending _ _ _ hp
      rw [hsrc, hseq, UInt64.toNat_ofNat', Nat.mod_eq_of_lt h7] at this
      omega
  refine ⟨p, rfl, hnone, ?_, ?_⟩
  · intro hq
    rw [h9]
    simp only [storeAfterSend, hq, if_true]
    exact hnone
  · intro hq
    refine ⟨queryPaths cqs, ?_, ?_⟩
    · rw [h9]
      simp only [storeAfterSend, if_neg hq, hsrc, hseq]
      simp [setPending]
    · unfold queryPaths
      clear h8 h9 hc hq hsrc hseq hnone
      induction h3 with
      | nil => exact .nil
      | cons a _ ih => exact .cons (recordedAs_convert a) ih

/-- The record of the scenario's packet. -/
example : Ex.w3.store.pending Ex.pkt.src.channelId Ex.pkt.sequence =
    some [("/cosmos.bank.v1beta1.Query/Balance", false), ("/z.Q/W", true)] := Ex.pending3

end Ica
