import Verif.Model.RawWorld
import Verif.Facts.RawStore
import Verif.Facts.World

/-!
# Histories on raw storage are histories on typed storage

Helper lemmas: the transition system of `Model/RawWorld.lean` and the one of `Model/World.lean` do the same.
-/
namespace Ica.Raw

/-- The ICA's channel id is short. -/
def IcaShort (s : Store) : Prop := ∀ st i, s.state = some st → st.icaInfo = some i → Short i.channelId

/-- Channel ids are short wherever they occur. -/
structure Rel (w : RWorld) (s : Store) : Prop where
  rep : Rep w.raw s
  ica : IcaShort s
  chans : ∀ id c, w.chans id = some c → Short id ∧ Short c.chan.endpoint.channelId
  commits : ∀ id n p, w.commits id n = some p → Short p.src.channelId

/-- The outcomes of an operation in the two systems. -/
def Matches {α : Type} (t : Option (World × α)) (r : Option (RWorld × α)) : Prop :=
  match t with
  | none => r = none
  | some (w', a) => ∃ rw', r = some (rw', a) ∧ w' = rw'.typed w'.store ∧ Rel rw' w'.store

theorem matches_none {α : Type} : Matches (α := α) none none := rfl

theorem matches_some {α : Type} {w : RWorld} {s : Store} {a : α} (h : Rel w s) :
    Matches (some (w.typed s, a)) (some (w, a)) := ⟨w, rfl, rfl, h⟩

/-! ## Which handlers set the ICA's channel -/

theorem icaShort_congr {s s' : Store} (h : IcaShort s) (e : s'.state = s.state) : IcaShort s' := by
  intro st i hst hi
  rw [e] at hst
  exact h st i hst hi

theorem icaShort_execute {api : Api} {env : Env} {s s' : Store} {sender : String} {msg : ExecuteMsg} {r : Response}
    (h : IcaShort s) (ho : Ica.execute api env s sender msg = .ok (s', r)) : IcaShort s' := by
  cases msg with
  | createChannel o =>
    obtain ⟨_, _, _, rfl, _⟩ := createChannel_eq_ok.1 ho; exact icaShort_congr h rfl
  | closeChannel =>
    obtain ⟨_, _, _, _, rfl, _⟩ := closeChannel_eq_ok.1 ho; exact icaShort_congr h rfl
  | updateCallbackAddress a =>
    obtain ⟨_, _, st, hst, rfl, _⟩ := updateCallbackAddress_eq_ok.1 ho
    intro st' i hst' hi
    cases hst'
    exact h st i hst hi
  | sendCosmosMsgs ms qs memo t =>
    obtain ⟨_, _, _, _, _, _, _, _, _, _, _, _, rfl, _⟩ := sendCosmosMsgs_eq_ok.1 ho
    refine icaShort_congr h ?_
    split <;> rfl
  | updateOwnership a =>
    cases a with
    | transferOwnership n e => obtain ⟨_, _, _, _, rfl, _⟩ := transfer_eq_ok.1 ho; exact icaShort_congr h rfl
    | acceptOwnership => obtain ⟨_, _, _, rfl, _⟩ := accept_eq_ok.1 ho; exact icaShort_congr h rfl
    | renounceOwnership => cases ho

theorem icaShort_instantiate {api : Api} {env : Env} {s s' : Store} {sender : String} {msg : InstantiateMsg}
    {r : Response} (ho : Ica.instantiate api env s sender msg = .ok (s', r)) : IcaShort s' := by
  obtain ⟨_, _, rfl, _⟩ := instantiate_eq_ok.1 ho
  intro st i hst hi
  cases hst
  cases hi

theorem icaShort_reply {s s' : Store} {id : UInt64} {x : SubMsgResult} {r : Response}
    (h : IcaShort s) (ho : Ica.reply s id x = .ok (s', r)) : IcaShort s' := by
  unfold Ica.reply at ho
  split at ho
  · cases x with
    | ok d => obtain ⟨_, _, _, _, _, _, _, _, rfl, _⟩ := replySendQueryPacket_eq_ok.1 ho; exact icaShort_congr h rfl
    | err e => cases ho
  · cases ho

theorem icaShort_close {s s' : Store} {m : CloseMsg} {r : Response} (h : IcaShort s)
    (ho : Ica.ibcChannelClose s m = .ok (s', r)) : IcaShort s' := by
  cases m with
  | closeInit ch => obtain ⟨_, _, rfl, _⟩ := channelCloseInit_eq_ok.1 ho; exact icaShort_congr h rfl
  | closeConfirm ch => obtain ⟨_, rfl, _⟩ := channelCloseConfirm_eq_ok.1 ho; exact icaShort_congr h rfl

theorem icaShort_migrate {s s' : Store} {r : Response} (h : IcaShort s) (ho : Ica.migrate s = .ok (s', r)) :
    IcaShort s' := by
  have : s'.state = s.state := by
    simp only [Ica.migrate, Res.bind_eq_ok', Res.ok.injEq, Prod.mk.injEq] at ho
    obtain ⟨_, _, _, _, rfl, _⟩ := ho
    rfl
  exact icaShort_congr h this

theorem icaShort_ack {s s' : Store} {ack : Bytes} {p : IbcPacket} {relayer : String} {r : Response} (h : IcaShort s)
    (ho : Ica.ibcPacketAck s ack p relayer = .ok (s', r)) : IcaShort s' := by
  rcases ibcPacketAck_eq_ok.1 ho with ⟨_, _, _, _, _, _, rfl, _⟩ | ⟨_, _, _, _, rfl, _⟩
  · exact icaShort_congr h rfl
  · exact h

theorem icaShort_timeout {s s' : Store} {p : IbcPacket} {relayer : String} {r : Response} (h : IcaShort s)
    (ho : Ica.ibcPacketTimeout s p relayer = .ok (s', r)) : IcaShort s' := by
  obtain ⟨_, _, _, _, rfl, _⟩ := ibcPacketTimeout_eq_ok.1 ho
  exact icaShort_congr h rfl

/-! ## Dispatch -/

/-- Two ways of running a submessage that match. -/
def OneMatches (one : World → SubMsg → Option (World × List Obs)) (rone : RWorld → SubMsg → Option (RWorld × List Obs)) :
    Prop := ∀ w s sm, Rel w s → Matches (one (w.typed s) sm) (rone w sm)

theorem dispatchList_matches {one : World → SubMsg → Option (World × List Obs)}
    {rone : RWorld → SubMsg → Option (RWorld × List Obs)} (h1 : OneMatches one rone) :
    ∀ (ms : List SubMsg) (w : RWorld) (s : Store), Rel w s →
      Matches (Ica.dispatchList one (w.typed s) ms) (dispatchList rone w ms)
  | [], w, s, h => matches_some h
  | m :: ms, w, s, h => by
    have hm := h1 w s m h
    unfold Ica.dispatchList dispatchList
    revert hm
    cases one (w.typed s) m with
    | none => intro hm; rw [show rone w m = none from hm]; rfl
    | some p =>
      obtain ⟨w1, o1⟩ := p
      rintro ⟨rw1, e, e', h'⟩
      rw [e]
      dsimp only
      rw [e']
      have hms := dispatchList_matches h1 ms rw1 _ h'
      revert hms
      cases Ica.dispatchList one (rw1.typed w1.store) ms with
      | none => intro hms; rw [show dispatchList rone rw1 ms = none from hms]; rfl
      | some q =>
        obtain ⟨w2, o2⟩ := q
        rintro ⟨rw2, e2, e2', h2⟩
        rw [e2]
        exact ⟨rw2, rfl, e2', h2⟩

theorem finish_matches {one : World → SubMsg → Option (World × List Obs)}
    {rone : RWorld → SubMsg → Option (RWorld × List Obs)} (h1 : OneMatches one rone) {w : RWorld}
    {m : RM Response} {s0 : Store} {t : Res (Store × Response)} (ha : Agrees (m w.raw) t)
    (hr : ∀ s' raw' x, t = .ok (s', x) → Rep raw' s' → Rel { w with raw := raw' } s') :
    Matches (Ica.finish one (w.typed s0) t) (finish rone w m) := by
  unfold Ica.finish finish
  revert ha
  cases hm : m w.raw with
  | mk r raw' =>
    cases t with
    | err e => intro ha; cases ha; rfl
    | panic e => intro ha; cases ha; rfl
    | ok p =>
      obtain ⟨s', x⟩ := p
      rintro ⟨e, hrep⟩
      cases e
      dsimp only
      have hl := dispatchList_matches h1 x.messages { w with raw := raw' } s' (hr s' raw' x rfl hrep)
      have ew : { w.typed s0 with store := s' } = ({ w with raw := raw' } : RWorld).typed s' := rfl
      rw [ew]
      revert hl
      cases Ica.dispatchList one (({ w with raw := raw' } : RWorld).typed s') x.messages with
      | none => intro hl; rw [show dispatchList rone { w with raw := raw' } x.messages = none from hl]; rfl
      | some q =>
        obtain ⟨w2, o2⟩ := q
        rintro ⟨rw2, e2, e2', h2⟩
        rw [e2]
        exact ⟨rw2, rfl, e2', h2⟩

theorem rel_chan {w : RWorld} {s : Store} (h : Rel w s) {id : String} (hid : Short id) {c : ChainChan}
    (hc : Short c.chan.endpoint.channelId) : Rel { w with chans := setChan w.chans id c } s := by
  refine ⟨h.rep, h.ica, ?_, h.commits⟩
  intro id' c' he
  dsimp only [setChan] at he
  split at he
  · rename_i e; cases he; exact ⟨e ▸ hid, hc⟩
  · exact h.chans id' c' he

theorem coreOpenInit_matches {w : RWorld} {s : Store} (h : Rel w s) (api : Api) (m : P.MsgChannelOpenInit)
    (fresh : String) (core : Bool) (hf : Short fresh) :
    Matches (Ica.coreOpenInit api (w.typed s) m fresh core) (coreOpenInit api w m fresh core) := by
  unfold Ica.coreOpenInit coreOpenInit
  cases m.channel with
  | none => rfl
  | some c =>
    dsimp only
    split
    · rename_i cp conn order h1 h2 h3
      rw [h1, h2, h3]
      dsimp only
      have ec : (core = true ∧ (w.typed s).live = true ∧ c.state = 1 ∧ cp.channelId = "" ∧
          m.portId = portOf (w.typed s).env.contractAddr ∧ (w.typed s).chans fresh = none) ↔
        (core = true ∧ w.live = true ∧ c.state = 1 ∧ cp.channelId = "" ∧
          m.portId = portOf w.env.contractAddr ∧ w.chans fresh = none) := Iff.rfl
      by_cases hc : core = true ∧ w.live = true ∧ c.state = 1 ∧ cp.channelId = "" ∧
          m.portId = portOf w.env.contractAddr ∧ w.chans fresh = none
      · rw [if_pos hc, if_pos (ec.2 hc)]
        have hag := ibcChannelOpen_ag h.rep api
          (.openInit ⟨⟨m.portId, fresh⟩, ⟨cp.portId, ""⟩, order, c.version, conn⟩)
        revert hag
        have hs : (w.typed s).store = s := rfl
        rw [hs]
        cases hr : ibcChannelOpen api (.openInit ⟨⟨m.portId, fresh⟩, ⟨cp.portId, ""⟩, order, c.version, conn⟩) w.raw with
        | mk r raw' =>
          cases ht : Ica.ibcChannelOpen api s (.openInit ⟨⟨m.portId, fresh⟩, ⟨cp.portId, ""⟩, order, c.version, conn⟩) with
          | err e => intro ha; cases ha; rfl
          | panic e => intro ha; cases ha; rfl
          | ok p =>
            obtain ⟨s', v⟩ := p
            rintro ⟨e, hrep⟩
            cases e
            obtain ⟨_, _, _, hs', _⟩ := channelOpenInit_eq_ok.1 ht
            have h1 : Rel { w with raw := raw' } s' :=
              ⟨hrep, icaShort_congr h.ica (by rw [hs']), h.chans, h.commits⟩
            exact matches_some (rel_chan h1 hf hf)
      · rw [if_neg hc, if_neg (fun x => hc (ec.1 x))]; rfl
    · rename_i hno
      split
      · rename_i h1 h2 h3
        exact (hno _ _ _ h1 h2 h3).elim
      · rfl

theorem coreCloseInit_matches {one : World → SubMsg → Option (World × List Obs)}
    {rone : RWorld → SubMsg → Option (RWorld × List Obs)} (h1 : OneMatches one rone) {w : RWorld} {s : Store}
    (h : Rel w s) (id : String) (core : Bool) :
    Matches (Ica.coreCloseInit one (w.typed s) id core) (coreCloseInit rone w id core) := by
  unfold Ica.coreCloseInit coreCloseInit
  have ec : (w.typed s).chans id = w.chans id := rfl
  rw [ec]
  cases hc : w.chans id with
  | none => rfl
  | some c =>
    dsimp only
    split
    · have hf := finish_matches h1 (s0 := s) (ibcChannelClose_ag h.rep (.closeInit c.chan))
        fun s' raw' x ht hrep => ⟨hrep, icaShort_close h.ica ht, h.chans, h.commits⟩
      revert hf
      have hs : (w.typed s).store = s := rfl
      rw [hs]
      cases Ica.finish one (w.typed s) (Ica.ibcChannelClose s (.closeInit c.chan)) with
      | none => intro hf; rw [show finish rone w (ibcChannelClose (.closeInit c.chan)) = none from hf]; rfl
      | some p =>
        obtain ⟨w', obs⟩ := p
        rintro ⟨rw', e, e', h'⟩
        rw [e]
        refine ⟨_, rfl, ?_, rel_chan h' (h.chans id c hc).1 (h.chans id c hc).2⟩
        rw [e']; rfl
    · rfl

theorem execMsg_matches {one : World → SubMsg → Option (World × List Obs)}
    {rone : RWorld → SubMsg → Option (RWorld × List Obs)} (h1 : OneMatches one rone) {w : RWorld} {s : Store}
    (h : Rel w s) (api : Api) (fresh : String) (core : Bool) (hf : Short fresh) (m : CosmosMsg) :
    Matches (Ica.execMsg quiet api one fresh core (w.typed s) m) (execMsg api rone fresh core w m) := by
  have other : ∀ m : CosmosMsg, Matches (α := Option Bytes × List Obs) (some (w.typed s, none, [.other m]))
      (some (w, none, [.other m])) := fun m => matches_some h
  cases m with
  | stargate url value =>
    rw [Ica.execMsg.eq_1, execMsg.eq_1]
    split
    · cases P.MsgChannelOpenInit.ofBytes value with
      | none => rfl
      | some m =>
        dsimp only
        have : (w.typed s).env = w.env := rfl
        rw [this]
        split
        · have ho := coreOpenInit_matches h api m fresh core hf
          revert ho
          cases Ica.coreOpenInit api (w.typed s) m fresh core with
          | none => intro ho; rw [show coreOpenInit api w m fresh core = none from ho]; rfl
          | some p =>
            rintro ⟨rw', e, e', h'⟩
            rw [e]
            exact ⟨rw', rfl, e', h'⟩
        · rfl
    · exact other _
  | ibc m =>
    cases m with
    | closeChannel id =>
      rw [Ica.execMsg.eq_2, execMsg.eq_2]
      have ho := coreCloseInit_matches h1 h id core
      revert ho
      cases Ica.coreCloseInit one (w.typed s) id core with
      | none => intro ho; rw [show coreCloseInit rone w id core = none from ho]; rfl
      | some p =>
        rintro ⟨rw', e, e', h'⟩
        rw [e]
        exact ⟨rw', rfl, e', h'⟩
    | sendPacket id d t =>
      rw [Ica.execMsg.eq_3, execMsg.eq_3]
      unfold Ica.coreSendPacket coreSendPacket
      have e1 : (w.typed s).chans = w.chans := rfl
      have e2 : (w.typed s).nextSeq = w.nextSeq := rfl
      rw [e1, e2]
      cases hc : w.chans id with
      | none => rfl
      | some c =>
        dsimp only
        by_cases hcond : core = true ∧ c.status = .opened ∧ w.nextSeq id < 18446744073709551616
        · rw [if_pos hcond, if_pos hcond]
          refine ⟨_, rfl, rfl, h.rep, h.ica, h.chans, ?_⟩
          intro id' n' p he
          dsimp only [setCommit] at he
          split at he
          · cases he; exact (h.chans id c hc).2
          · exact h.commits id' n' p he
        · rw [if_neg hcond, if_neg hcond]; rfl
    | _ => exact other _
  | wasm m =>
    cases m with
    | execute a m f => exact matches_some h
    | _ => exact other _
  | _ => exact other _

theorem dispatch_matches (api : Api) (fresh : String) (core : Bool) (hf : Short fresh) :
    ∀ n, OneMatches (Ica.dispatch quiet api fresh core n) (dispatch api fresh core n)
  | 0 => by
    intro w s sm _
    rw [Ica.dispatch.eq_1, dispatch.eq_1]
    exact matches_none
  | n + 1 => by
    intro w s sm h
    have ih := dispatch_matches api fresh core hf n
    rw [Ica.dispatch.eq_2, dispatch.eq_2]
    have hm := execMsg_matches ih h api fresh core hf sm.msg
    revert hm
    cases Ica.execMsg quiet api (Ica.dispatch quiet api fresh core n) fresh core (w.typed s) sm.msg with
    | none =>
      intro hm
      rw [show execMsg api (dispatch api fresh core n) fresh core w sm.msg = none from hm]
      dsimp only
      split
      · exact finish_matches ih (s0 := s) (reply_ag h.rep _ _ h.ica)
          fun s' raw' x ht hrep => ⟨hrep, icaShort_reply h.ica ht, h.chans, h.commits⟩
      · rfl
    | some p =>
      obtain ⟨w', d, obs⟩ := p
      rintro ⟨rw', e, e', h'⟩
      rw [e]
      dsimp only
      split
      · have hfin := finish_matches ih (s0 := w'.store) (reply_ag h'.rep sm.id (.ok d) h'.ica)
          fun s' raw' x ht hrep => ⟨hrep, icaShort_reply h'.ica ht, h'.chans, h'.commits⟩
        rw [← e'] at hfin
        revert hfin
        cases Ica.finish (Ica.dispatch quiet api fresh core n) w' (Ica.reply w'.store sm.id (.ok d)) with
        | none =>
          intro hfin
          rw [show finish (dispatch api fresh core n) rw' (reply sm.id (.ok d)) = none from hfin]
          rfl
        | some q =>
          rintro ⟨rw2, e2, e2', h2⟩
          rw [e2]
          exact ⟨rw2, rfl, e2', h2⟩
      · exact ⟨rw', rfl, e', h'⟩

/-! ## Operations -/

/-- What the bytes of an operation say; `none` if they are not a message of the contract. -/
def ROp.decode : ROp → Option Op
  | .instantiate sender msg fresh core => (InstantiateMsg.jc.ofBytes msg).map fun m => .instantiate sender m fresh core
  | .execute sender msg fresh core => (ExecuteMsg.jc.ofBytes msg).map fun m => .execute sender m fresh core
  | .migrate msg => (MigrateMsg.jc.ofBytes msg).map fun _ => .migrate
  | .chain (.instantiate _ _ _ _) => none
  | .chain (.execute _ _ _ _) => none
  | .chain .migrate => none
  | .chain op => some op

/-- The channel id the chain would assign in this operation is short. -/
def ROp.Short : ROp → Prop
  | .instantiate _ _ fresh _ => Raw.Short fresh
  | .execute _ _ fresh _ => Raw.Short fresh
  | .chain (.relayOpenInit _ fresh) => Raw.Short fresh
  | _ => True

theorem short_empty : Short "" := by simp [Short]

attribute [local irreducible] Ica.dispatch dispatch in
theorem apply_matches {w : RWorld} {s : Store} (h : Rel w s) (api : Api) (op : ROp) (hs : op.Short) :
    Matches (op.decode.bind fun o => Ica.apply api (w.typed s) o) (apply api w op) := by
  have hd := fun fresh core (hf : Short fresh) => dispatch_matches api fresh core hf maxDepth
  have bad : ∀ {one : RWorld → SubMsg → Option (RWorld × List Obs)} {w : RWorld} {e : Err},
      finish one w (fail e) = none := rfl
  cases op with
  | instantiate sender msg fresh core =>
    unfold apply vmInstantiate withMsg ROp.decode
    dsimp only
    cases InstantiateMsg.jc.ofBytes msg with
    | none =>
      rw [bad]
      split <;> rfl
    | some m =>
      simp only [Option.map_some, Option.bind_some, Ica.apply, applyWith]
      have e1 : (w.typed s).live = w.live := rfl
      rw [e1]
      split
      · rfl
      · exact finish_matches (hd fresh core hs) (w := { w with live := true }) (s0 := s)
          (instantiate_ag h.rep api w.env sender m)
          fun s' raw' x ht hrep => ⟨hrep, icaShort_instantiate ht, h.chans, h.commits⟩
  | execute sender msg fresh core =>
    unfold apply vmExecute withMsg ROp.decode
    dsimp only
    cases ExecuteMsg.jc.ofBytes msg with
    | none =>
      rw [bad]
      split <;> rfl
    | some m =>
      simp only [Option.map_some, Option.bind_some, Ica.apply, applyWith]
      have e1 : (w.typed s).live = w.live := rfl
      rw [e1]
      split
      · exact finish_matches (hd fresh core hs) (s0 := s)
          (execute_ag h.rep api w.env sender m)
          fun s' raw' x ht hrep => ⟨hrep, icaShort_execute h.ica ht, h.chans, h.commits⟩
      · rfl
  | migrate msg =>
    unfold apply vmMigrate withMsg ROp.decode
    dsimp only
    cases MigrateMsg.jc.ofBytes msg with
    | none =>
      rw [bad]
      split <;> rfl
    | some m =>
      simp only [Option.map_some, Option.bind_some, Ica.apply, applyWith]
      have e1 : (w.typed s).live = w.live := rfl
      rw [e1]
      split
      · exact finish_matches (hd "" false short_empty) (s0 := s) (migrate_ag h.rep)
          fun s' raw' x ht hrep => ⟨hrep, icaShort_migrate h.ica ht, h.chans, h.commits⟩
      · rfl
  | chain op =>
    cases op with
    | instantiate => rfl
    | execute => rfl
    | migrate => rfl
    | block ht t =>
      simp only [ROp.decode, Option.bind_some, Ica.apply, applyWith, apply]
      have e1 : (w.typed s).env = w.env := rfl
      rw [e1]
      split
      · exact ⟨_, rfl, rfl, h.rep, h.ica, h.chans, h.commits⟩
      · rfl
    | relayOpenInit m fresh =>
      simp only [ROp.decode, Option.bind_some, Ica.apply, applyWith, apply]
      have e1 : (w.typed s).env = w.env := rfl
      rw [e1]
      split
      · rfl
      · exact coreOpenInit_matches h api m fresh true hs
    | relayOpenTry ch v => rfl
    | relayOpenAck id cpId v =>
      simp only [ROp.decode, Option.bind_some, Ica.apply, applyWith, apply]
      have e1 : (w.typed s).chans = w.chans := rfl
      rw [e1]
      cases hc : w.chans id with
      | none => rfl
      | some c =>
        dsimp only
        split
        · refine finish_matches (hd "" false short_empty)
            (w := { w with chans := setChan w.chans id ⟨_, .opened⟩ }) (s0 := s)
            (ibcChannelConnect_ag h.rep api _) fun s' raw' x ht hrep => ?_
          obtain ⟨st, m, _, _, _, _, _, rfl, _⟩ := channelOpenAck_eq_ok.1 ht
          have hrel := rel_chan h (h.chans id c hc).1
            (c := ⟨{ c.chan with
              version := v
              counterpartyEndpoint := { c.chan.counterpartyEndpoint with channelId := cpId } }, .opened⟩)
            (h.chans id c hc).2
          refine ⟨hrep, ?_, hrel.chans, hrel.commits⟩
          intro st' i hst' hi
          cases hst'
          cases hi
          exact (h.chans id c hc).2
        · rfl
    | relayOpenConfirm ch => rfl
    | relayCloseInit id =>
      simp only [ROp.decode, Option.bind_some, Ica.apply, applyWith, apply]
      exact coreCloseInit_matches (hd "" false short_empty) h id true
    | relayCloseConfirm id =>
      simp only [ROp.decode, Option.bind_some, Ica.apply, applyWith, apply]
      have e1 : (w.typed s).chans = w.chans := rfl
      rw [e1]
      cases hc : w.chans id with
      | none => rfl
      | some c =>
        dsimp only
        split
        · have hf := finish_matches (hd "" false short_empty) (s0 := s) (ibcChannelClose_ag h.rep (.closeConfirm c.chan))
            fun s' raw' x ht hrep => ⟨hrep, icaShort_close h.ica ht, h.chans, h.commits⟩
          revert hf
          have hs' : (w.typed s).store = s := rfl
          rw [hs']
          cases Ica.finish (Ica.dispatch quiet api "" false maxDepth) (w.typed s)
              (Ica.ibcChannelClose s (.closeConfirm c.chan)) with
          | none =>
            intro hf
            rw [show finish (dispatch api "" false maxDepth) w (ibcChannelClose (.closeConfirm c.chan)) = none from hf]
            rfl
          | some p =>
            obtain ⟨w', obs⟩ := p
            rintro ⟨rw', e, e', h'⟩
            rw [e]
            refine ⟨_, rfl, ?_, rel_chan h' (h.chans id c hc).1 (h.chans id c hc).2⟩
            rw [e']; rfl
        · rfl
    | relayRecv p => rfl
    | relayAck id seq ack relayer =>
      simp only [ROp.decode, Option.bind_some, Ica.apply, applyWith, apply]
      have e1 : (w.typed s).chans = w.chans := rfl
      have e2 : (w.typed s).commits = w.commits := rfl
      rw [e1, e2]
      cases hp : w.commits id seq with
      | none => rfl
      | some p =>
        cases hc : w.chans id with
        | none => rfl
        | some c =>
          dsimp only
          split
          · refine finish_matches (hd "" false short_empty)
              (w := { w with commits := setCommit w.commits id seq none }) (s0 := s)
              (ibcPacketAck_ag h.rep ack p relayer (h.commits id seq p hp)) fun s' raw' x ht hrep => ?_
            refine ⟨hrep, icaShort_ack h.ica ht, h.chans, ?_⟩
            intro id' n' p' he
            dsimp only [setCommit] at he
            split at he
            · cases he
            · exact h.commits id' n' p' he
          · rfl
    | relayTimeout id seq relayer =>
      simp only [ROp.decode, Option.bind_some, Ica.apply, applyWith, apply]
      have e1 : (w.typed s).chans = w.chans := rfl
      have e2 : (w.typed s).commits = w.commits := rfl
      rw [e1, e2]
      cases hp : w.commits id seq with
      | none => rfl
      | some p =>
        cases hc : w.chans id with
        | none => rfl
        | some c =>
          dsimp only
          refine finish_matches (hd "" false short_empty)
            (w := { w with
              commits := setCommit w.commits id seq none
              chans := if c.chan.order = .ordered then setChan w.chans id ⟨c.chan, .closed⟩ else w.chans }) (s0 := s)
            (ibcPacketTimeout_ag h.rep p relayer (h.commits id seq p hp)) fun s' raw' x ht hrep => ?_
          refine ⟨hrep, icaShort_timeout h.ica ht, ?_, ?_⟩
          · dsimp only
            split
            · exact (rel_chan h (h.chans id c hc).1 (c := ⟨c.chan, .closed⟩) (h.chans id c hc).2).chans
            · exact h.chans
          · intro id' n' p' he
            dsimp only [setCommit] at he
            split at he
            · cases he
            · exact h.commits id' n' p' he

theorem rel_genesis (env : Env) : Rel (.genesis env) Store.empty where
  rep := rep_empty
  ica st i h := by cases h
  chans id c h := by cases h
  commits id n p h := by cases h

end Ica.Raw
