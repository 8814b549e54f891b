import Verif.Spec.Stored
import Verif.Props.Storage
import Verif.Props.Queries
import Mathlib.Data.List.Perm.Subperm

/-!
# What is in the storage: C114
-/
namespace Ica.Stored
open Spec

variable {api : Api} {env : Env}

/-! ## The single values, in terms of the history -/

theorem started {h : List (Op × List Obs)} {w : World} (he : Exec api (World.genesis env) h w) :
    (w.live = true ↔ ∃ s m f c o, (Op.instantiate s m f c, o) ∈ h) ∧ (w.live = true → w.store.allowOpenInit ≠ none) := by
  refine exec_induction (C := fun h w => (w.live = true ↔ ∃ s m f c o, (Op.instantiate s m f c, o) ∈ h) ∧
    (w.live = true → w.store.allowOpenInit ≠ none)) ?_ ?_ he
  · exact ⟨by simp [World.genesis], by simp [World.genesis]⟩
  intro h w op w' obs he hv ih hs
  cases hs with
  | instantiate sender msg fresh => exact ⟨⟨fun _ => ⟨sender, msg, fresh, true, _, List.mem_append_right _ (List.mem_singleton.2 rfl)⟩, fun _ => rfl⟩, by simp⟩
  | create => simpa using ih.1
  | send =>
    unfold storeAfterSend
    split <;> simpa using ih
  | _ => simpa using ih

theorem opened {h : List (Op × List Obs)} {w : World} (he : Exec api (World.genesis env) h w) :
    w.store.channel ≠ none ↔ ∃ a b c o, (Op.relayOpenAck a b c, o) ∈ h := by
  refine exec_induction (C := fun h w => w.store.channel ≠ none ↔ ∃ a b c o, (Op.relayOpenAck a b c, o) ∈ h) ?_ ?_ he
  · simp [World.genesis, Store.empty]
  intro h w op w' obs he hv ih hs
  cases hs with
  | openAck id cpId v => exact ⟨fun _ => ⟨id, cpId, v, _, List.mem_append_right _ (List.mem_singleton.2 rfl)⟩, fun _ => by simp⟩
  | close sender fresh c h1 h2 h3 => rw [h3] at ih; simpa using ih
  | closeConfirm id c h1 h2 h3 => rw [h3] at ih; simpa using ih
  | timeout id seq relayer p c st cs h1 h2 h3 h4 => rw [h4] at ih; simpa using ih
  | send =>
    unfold storeAfterSend
    split <;> simpa using ih
  | _ => simpa using ih

theorem closed {h : List (Op × List Obs)} {w : World} (he : Exec api (World.genesis env) h w) :
    w.store.allowCloseInit ≠ none ↔ ∃ s f c o, (Op.execute s .closeChannel f c, o) ∈ h := by
  refine exec_induction (C := fun h w => w.store.allowCloseInit ≠ none ↔
    ∃ s f c o, (Op.execute s .closeChannel f c, o) ∈ h) ?_ ?_ he
  · simp [World.genesis, Store.empty]
  intro h w op w' obs he hv ih hs
  cases hs with
  | close sender fresh c => exact ⟨fun _ => ⟨sender, fresh, true, _, List.mem_append_right _ (List.mem_singleton.2 rfl)⟩, fun _ => by simp⟩
  | send =>
    unfold storeAfterSend
    split <;> simpa using ih
  | _ => simpa using ih

theorem sent_recorded {h : List (Op × List Obs)} {w : World} (he : Exec api (World.genesis env) h w) {p : IbcPacket}
    {qs : List QueryRequest} (hs : Sent h p qs) (hq : qs ≠ []) : ∃ paths, List.Forall₂ RecordedAs qs paths := by
  obtain ⟨sender, ms, memo, t, fresh, core, hx⟩ := hs
  obtain ⟨l1, l2, hl⟩ := List.append_of_mem hx
  obtain ⟨w1, e1, _⟩ := he.split (l1 ++ [_]) l2 (by rw [hl, List.append_assoc]; rfl)
  obtain ⟨w2, e2, e3⟩ := Exec.concat_inv e1
  obtain ⟨_, _, _, _, g3⟩ := C33_record_exact ⟨env, l1, e2⟩ e3
  obtain ⟨ps, _, g5⟩ := g3 hq
  exact ⟨ps, g5⟩

theorem sent_pending {h : List (Op × List Obs)} {w : World} (he : Exec api (World.genesis env) h w) {p : IbcPacket}
    {qs : List QueryRequest} (hs : Sent h p qs) (hq : qs ≠ [])
    (hc : ∀ x ∈ h, ¬ Clears p.src.channelId p.sequence x.1) :
    w.store.pending p.src.channelId p.sequence ≠ none := by
  obtain ⟨paths, hp⟩ := sent_recorded he hs hq
  rw [(pending_iff he _ _ paths).2 ⟨p, qs, hs, rfl, rfl, hq, hp, hc⟩]
  simp

/-! ## Keys -/

theorem bigEndian_two (n : Nat) : bigEndian 2 n = Raw.be16 n := by simp [bigEndian, Raw.be16]

theorem bigEndian_eight (n : UInt64) : bigEndian 8 n.toNat = Raw.be64 n := by
  simp [bigEndian, Raw.be64, Nat.div_div_eq_div_mul]

theorem mapKey_record {c : String} {n : UInt64} (h : Raw.Short c) :
    Raw.mapKey "pending_queries" c n = .ok (recordKey c n) := by
  unfold Raw.mapKey
  have h1 : ¬ (utf8 "pending_queries").length > 65535 := by decide +kernel
  have h2 : ¬ (utf8 c).length > 65535 := Nat.not_lt.2 h
  rw [if_neg (by simp [h1, h2])]
  simp only [recordKey, keyPart, bigEndian_two, bigEndian_eight, Raw.prefixed]

theorem item_iff {α : Type} {i : Raw.Item α} {raw : Raw.RawStore} {o : Option α} (h : i.Holds raw o) :
    raw (utf8 i.key) ≠ none ↔ o ≠ none := by
  unfold Raw.Item.Holds at h
  cases hr : raw (utf8 i.key) <;> cases o <;> rw [hr] at h <;> simp_all

theorem map_iff {α : Type} {m : Raw.Map2 α} {raw : Raw.RawStore} {c : String} {n : UInt64} {o : Option α}
    (h : m.Holds raw c n o) {k : Bytes} (hk : Raw.mapKey m.ns c n = .ok k) : raw k ≠ none ↔ o ≠ none := by
  have h' := h k hk
  cases hr : raw k <;> cases o <;> rw [hr] at h' <;> simp_all

/-! ## C114 -/

/-- **C114.** Whatever bytes users send and whatever relayers do, the keys in the storage of the contract are exactly
these: five that are there since the instantiation, the channel once one has been opened, a flag once the owner has closed
one, and one record for each packet that was sent with queries and has met neither a success acknowledgement nor its
timeout. -/
theorem C114_keys {h : List (Raw.ROp × List Obs)} {w : Raw.RWorld} (he : Raw.RExec api (.genesis env) h w)
    (hs : ∀ x ∈ h, x.1.Short) :
    ∃ h', List.Forall₂ (fun x y => x.1.decode = some y.1 ∧ x.2 = y.2) h h' ∧
      ∀ k, w.raw k ≠ none ↔ Stored h' k := by
  obtain ⟨h', s, ht, hr, hd⟩ := C58_bytes_histories he hs
  refine ⟨h', hd, fun k => ?_⟩
  have hi := inv_exec (inv_genesis api env) ht
  obtain ⟨hl, hopen⟩ := started ht
  have hchan := opened ht
  have hclose := closed ht
  have hp := pending_iff ht
  have live_of : ∀ {α : Type} (o : Option α) (f : Store → Option α), o = f s → f Store.empty = none → o ≠ none →
      w.live = true := by
    intro α o f ho hf hne
    cases hw : w.live with
    | true => rfl
    | false => exact absurd (ho.trans ((congrArg f (hi.dead hw).1).trans hf)) hne
  have base : ∀ {α : Type} (i : Raw.Item α) (f : Store → Option α), i.Holds w.raw (f s) → f Store.empty = none →
      i.key ∈ alwaysStored → w.raw (utf8 i.key) ≠ none → Stored h' (utf8 i.key) := by
    intro α i f hh hf hm hne
    obtain ⟨a, b, c, d, e, hmem⟩ := hl.1 (live_of _ f rfl hf ((item_iff hh).1 hne))
    exact .always hmem hm
  constructor
  · intro hne
    by_cases hk : Raw.OwnKey k
    · rcases hk with rfl | ⟨key, hkey, rfl⟩ | ⟨c, n, hk⟩
      · exact base Raw.STATE Store.state hr.state rfl (by decide) hne
      · simp only [Raw.itemKeys, List.mem_cons, List.not_mem_nil, or_false] at hkey
        rcases hkey with rfl | rfl | rfl | rfl | rfl | rfl | rfl
        · obtain ⟨a, b, c, d, hm⟩ := hchan.1 ((item_iff (i := Raw.CHANNEL_STATE) hr.channel).1 hne)
          exact .channel hm
        · exact base Raw.CHANNEL_OPEN_INIT_OPTIONS Store.options hr.options rfl (by decide) hne
        · exact base Raw.ALLOW_CHANNEL_OPEN_INIT Store.allowOpenInit hr.allowOpenInit rfl (by decide) hne
        · obtain ⟨a, b, c, d, hm⟩ := hclose.1 ((item_iff (i := Raw.ALLOW_CHANNEL_CLOSE_INIT) hr.allowCloseInit).1 hne)
          exact .closing hm
        · exact absurd hi.noScratch ((item_iff (i := Raw.QUERY) hr.query).1 hne)
        · exact base Raw.CONTRACT Store.version hr.version rfl (by decide) hne
        · exact base Raw.OWNERSHIP Store.ownership hr.ownership rfl (by decide) hne
      · obtain ⟨_, hsh, _⟩ := Raw.mapKey_ok hk
        have hx := (map_iff (hr.pending c n hsh) hk).1 hne
        obtain ⟨paths, hx⟩ := Option.ne_none_iff_exists'.1 hx
        obtain ⟨p, qs, h1, rfl, rfl, h4, _, h6⟩ := (hp c n paths).1 hx
        have e : k = recordKey p.src.channelId p.sequence := by
          have := hk.symm.trans (mapKey_record hsh)
          cases this; rfl
        rw [e]
        exact .record h1 h4 h6
    · have := Raw.exec_keeps (Raw.own_frame (fun _ => none)) (fun _ _ => rfl) he k hk
      exact absurd this hne
  · intro hst
    cases hst with
    | @always _ _ _ _ _ name hm hn =>
      have hlive : w.live = true := hl.2 ⟨_, _, _, _, _, hm⟩
      simp only [alwaysStored, List.mem_cons, List.not_mem_nil, or_false] at hn
      rcases hn with rfl | rfl | rfl | rfl | rfl
      · refine (item_iff (i := Raw.CONTRACT) hr.version).2 ?_
        have := hi.version hlive
        intro e; exact absurd (this.symm.trans e) (by simp)
      · refine (item_iff (i := Raw.OWNERSHIP) hr.ownership).2 ?_
        obtain ⟨_, _, h1, _⟩ := hi.owner hlive
        intro e; exact absurd (h1.symm.trans e) (by simp)
      · refine (item_iff (i := Raw.STATE) hr.state).2 ?_
        obtain ⟨_, h1⟩ := hi.state hlive
        intro e; exact absurd (h1.symm.trans e) (by simp)
      · refine (item_iff (i := Raw.CHANNEL_OPEN_INIT_OPTIONS) hr.options).2 ?_
        obtain ⟨_, h1⟩ := hi.options hlive
        intro e; exact absurd (h1.symm.trans e) (by simp)
      · exact (item_iff (i := Raw.ALLOW_CHANNEL_OPEN_INIT) hr.allowOpenInit).2 (hopen hlive)
    | channel hm => exact (item_iff (i := Raw.CHANNEL_STATE) hr.channel).2 (hchan.2 ⟨_, _, _, _, hm⟩)
    | closing hm => exact (item_iff (i := Raw.ALLOW_CHANNEL_CLOSE_INIT) hr.allowCloseInit).2 (hclose.2 ⟨_, _, _, _, hm⟩)
    | @record p qs h1 h2 h3 =>
      have hsome := sent_pending ht h1 h2 h3
      have hsh : Raw.Short p.src.channelId := by
        by_contra hc
        exact hsome (hr.long _ _ hc)
      exact (map_iff (hr.pending _ _ hsh) (mapKey_record hsh)).2 hsome

/-- The keys that can be there after a history. -/
def candidates (h : List (Op × List Obs)) : List Bytes :=
  (alwaysStored ++ ["ica_channel", "allow_channel_close_init"]).map utf8 ++
    (h.filter fun x => SendsQueries x.1).flatMap fun x =>
      match x.2 with
      | [.packetSent p] => [recordKey p.src.channelId p.sequence]
      | _ => []

theorem stored_candidates {h : List (Op × List Obs)} {k : Bytes} (hk : Stored h k) : k ∈ candidates h := by
  cases hk with
  | always _ hn => exact List.mem_append_left _ (List.mem_map_of_mem (List.mem_append_left _ hn))
  | channel _ => exact List.mem_append_left _ (List.mem_map_of_mem (by simp))
  | closing _ => exact List.mem_append_left _ (List.mem_map_of_mem (by simp))
  | record hs hq _ =>
    obtain ⟨_, _, _, _, _, _, hx⟩ := hs
    refine List.mem_append_right _ (List.mem_flatMap.2 ⟨_, List.mem_filter.2 ⟨hx, ?_⟩, by simp⟩)
    simpa [SendsQueries] using hq

theorem candidates_length (h : List (Op × List Obs)) :
    (candidates h).length ≤ 7 + (h.filter fun x => SendsQueries x.1).length := by
  unfold candidates
  rw [List.length_append]
  refine Nat.add_le_add (by decide) ?_
  generalize h.filter _ = l
  induction l with
  | nil => simp
  | cons x l ih =>
    rw [List.flatMap_cons, List.length_append, List.length_cons]
    have : (match x.2 with
      | [.packetSent p] => [recordKey p.src.channelId p.sequence]
      | _ => []).length ≤ 1 := by split <;> simp
    omega

/-- **C114.** The storage grows only by the packets sent with queries: however long the history, the contract never has
more than seven keys and one for each of them. -/
theorem C114_bounded {h : List (Raw.ROp × List Obs)} {w : Raw.RWorld} (he : Raw.RExec api (.genesis env) h w)
    (hs : ∀ x ∈ h, x.1.Short) {ks : List Bytes} (hn : ks.Nodup) (hk : ∀ k ∈ ks, w.raw k ≠ none) :
    ks.length ≤ 7 + (h.filter fun x => x.1.decode.any SendsQueries).length := by
  obtain ⟨h', hd, hall⟩ := C114_keys he hs
  have e : (h.filter fun x => x.1.decode.any SendsQueries).length = (h'.filter fun x => SendsQueries x.1).length := by
    clear hall he hs
    induction hd with
    | nil => rfl
    | @cons a b l l' hab _ ih =>
      simp only [List.filter_cons, hab.1, Option.any_some]
      split <;> simp [ih]
  rw [e]
  refine Nat.le_trans (List.Subperm.length_le (hn.subperm fun k hk' => stored_candidates ((hall k).1 (hk k hk'))))
    (candidates_length h')

theorem decode_chain {x : Raw.ROp} {id : String} {n : UInt64} {ack : Bytes} {relayer : String}
    (h : x.decode = some (.relayAck id n ack relayer)) : x = .chain (.relayAck id n ack relayer) := by
  cases x with
  | instantiate a b c d => simp [Raw.ROp.decode] at h
  | execute a b c d => simp [Raw.ROp.decode] at h
  | migrate a => simp [Raw.ROp.decode] at h
  | chain op =>
    cases op <;> simp [Raw.ROp.decode] at h ⊢
    exact h

/-- **C114.** The record of a packet is there only while the packet is in flight, or after its error acknowledgement (the
leak of C35): where no acknowledgement reports an error, what is settled leaves nothing behind. -/
theorem C114_left_behind {h : List (Raw.ROp × List Obs)} {w : Raw.RWorld}
    (he : Raw.RExec api (.genesis env) h w) (hs : ∀ x ∈ h, x.1.Short)
    {id : String} {n : UInt64} (hid : Raw.Short id) (hr : w.raw (recordKey id n) ≠ none) :
    (∃ p, w.commits id n = some p) ∨
      ∃ ack relayer obs e, (Raw.ROp.chain (.relayAck id n ack relayer), obs) ∈ h ∧ readAck ack = some (.error e) := by
  obtain ⟨h', s, ht, hrep, hd⟩ := C58_bytes_histories he hs
  obtain ⟨paths, hp⟩ := Option.ne_none_iff_exists'.1 ((map_iff (hrep.pending id n hid) (mapKey_record hid)).1 hr)
  by_cases hx : ∃ x ∈ h', x.1.settles id n = true
  · obtain ⟨x, hx, hset⟩ := hx
    obtain ⟨ack, relayer, e, h1, h2⟩ := C35_only_error_acks_leak_partial ht hp hx hset
    right
    obtain ⟨i, hi, rfl⟩ := List.mem_iff_getElem.1 hx
    have hlen := hd.length_eq
    have hget := List.Forall₂.get hd (i := i) (by omega) hi
    simp only [List.get_eq_getElem] at hget
    have := decode_chain (hget.1.trans (congrArg some h1))
    refine ⟨ack, relayer, (h[i]'(by omega)).2, e, ?_, h2⟩
    rw [← this]
    exact List.getElem_mem (by omega)
  · left
    obtain ⟨p, qs, h1, h2, h3, _⟩ := (pending_iff ht id n paths).1 hp
    refine ⟨p, (commits_iff ht id n p).2 ⟨h2, h3, ⟨qs, h1⟩, fun x hx' => ?_⟩⟩
    cases hb : x.1.settles id n with
    | false => rfl
    | true => exact absurd ⟨x, hx', hb⟩ hx

/-- The scenario whose packet with two queries is answered with an error, in bytes: the storage has six single values, not
the flag of closing, and the record of the packet. -/
example : ∃ h w, Raw.RExec Ex.api (.genesis Ex.env) h w ∧ (∀ x ∈ h, x.1.Short) ∧ h.length = 4 ∧
    w.raw (recordKey "channel-0" 1) ≠ none ∧ w.raw (utf8 "ica_channel") ≠ none ∧ w.raw (utf8 "state") ≠ none ∧
    w.raw (utf8 "allow_channel_close_init") = none ∧ w.commits "channel-0" 1 = none := by
  have hsh : ∀ x ∈ Ex.h4e, (asBytes x.1).Short := by
    intro x hx
    simp only [Ex.h4e, Ex.h3, Ex.h2, List.nil_append, List.cons_append, List.mem_cons, List.not_mem_nil,
      or_false] at hx
    rcases hx with rfl | rfl | rfl | rfl
    · show Raw.Short "channel-0"; decide +kernel
    · trivial
    · show Raw.Short _; decide +kernel
    · trivial
  obtain ⟨w', h1, h2, h3⟩ := C58_every_history_in_bytes Ex.e4e hsh
  have hs : Raw.Short "channel-0" := by decide +kernel
  refine ⟨_, w', h1, ?_, rfl, ?_, ?_, ?_, ?_, ?_⟩
  · intro x hx
    obtain ⟨y, hy, rfl⟩ := List.mem_map.1 hx
    exact hsh y hy
  · refine (map_iff (h2.pending "channel-0" 1 hs) (mapKey_record hs)).2 ?_
    rw [show Ex.w4e.store.pending "channel-0" 1 = Ex.w3.store.pending "channel-0" 1 from rfl, Ex.pending3]
    simp
  · exact (item_iff (i := Raw.CHANNEL_STATE) h2.channel).2 ((opened Ex.e4e).2 ⟨"channel-0", "channel-5", Ex.ver, _,
      List.mem_append_left _ (List.mem_append_left _ (List.mem_cons_of_mem _ (List.mem_singleton.2 rfl)))⟩)
  · obtain ⟨_, hst⟩ := (inv_exec (inv_genesis _ _) Ex.e4e).state rfl
    exact (item_iff (i := Raw.STATE) h2.state).2 (by rw [hst]; simp)
  · by_contra hc
    obtain ⟨_, _, _, _, hm⟩ := (closed Ex.e4e).1 ((item_iff (i := Raw.ALLOW_CHANNEL_CLOSE_INIT) h2.allowCloseInit).1 hc)
    simp [Ex.h4e, Ex.h3, Ex.h2] at hm
  · have : w'.commits = Ex.w4e.commits := by rw [h3]; rfl
    rw [this]
    simp [Ex.w4e, Ex.eAckErr, setCommit]

end Ica.Stored
