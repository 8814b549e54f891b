import Verif.Props.Api
import Verif.Props.Migrate
import Verif.Props.Ownership
import Verif.Props.Queries
import Verif.Spec.Admission

/-!
# Exactly the allowed transactions are accepted (C92)
-/
namespace Ica
open Spec Format

variable {api : Api} {env : Env} {h : List (Op × List Obs)} {w : World}

theorem askedOwner_eq (sender : String) (msg : InstantiateMsg) : msg.owner.getD sender = askedOwner sender msg := by
  unfold askedOwner
  cases msg.owner <;> rfl

theorem askedPort_eq (o : ChannelOpenInitOptions) : o.counterpartyPortId.getD "icahost" = askedPort o := by
  unfold askedPort
  cases o.counterpartyPortId <;> rfl

theorem isOwner_iff {sender : String} : IsOwner w.store sender ↔ ownerOf w = some sender := ownerOf_eq.symm

theorem not_reportsOpen : (∀ c, w.store.channel = some c → c.channelStatus ≠ .opened) ↔ ¬ ReportsOpen w := by
  constructor
  · rintro h ⟨ch, hr⟩
    exact h _ hr rfl
  · intro h c hc hs
    exact h ⟨c.channel, by cases c; cases hs; exact hc⟩

theorem live_of_owner (hv : Inv api w) {o : String} (ho : ownerOf w = some o) : w.live = true := by
  cases hl : w.live with
  | true => rfl
  | false => simp [ownerOf, (hv.dead hl).1, Store.empty] at ho

theorem live_of_nominee (hv : Inv api w) {o} (ho : nominee w = some o) : w.live = true := by
  cases hl : w.live with
  | true => rfl
  | false => simp [nominee, (hv.dead hl).1, Store.empty] at ho

/-- A packet is in flight only after a handshake. -/
theorem tracked_of_commit (he : Exec api (World.genesis env) h w) {id : String} {k : UInt64} {p : IbcPacket}
    (hp : w.commits id k = some p) : ∃ ch s, Reports w ch s := by
  obtain ⟨-, -, ⟨qs, s, ms, memo, t, f, co, hm⟩, -⟩ := (commits_iff he _ _ _).1 hp
  obtain ⟨l1, l2, e1⟩ := List.append_of_mem hm
  obtain ⟨w1, f1, f2⟩ := he.split l1 _ e1
  obtain ⟨w2, f3, f4⟩ := f2.split [_] l2 rfl
  obtain ⟨w3, f5, f6⟩ := Exec.concat_inv (h := []) f3
  obtain ⟨info, _, g1, -⟩ := C27_host_reads f6
  obtain ⟨i, hi⟩ := C15_ica_never_unset ⟨env, _, f1.append f5⟩ ((Exec.step (h := []) .nil f6).append f4) ⟨_, g1⟩
  exact (C15_ica_iff_channel ⟨env, _, he⟩).1 ⟨_, hi⟩

theorem execAdmitted_iff (he : Exec api (World.genesis env) h w) (sender : String) (msg : ExecuteMsg) (fresh : String)
    (core : Bool) :
    (∃ w' obs, Commits api w (.execute sender msg fresh core) w' obs) ↔ ExecAdmitted h api w sender fresh core msg := by
  have hr : Reachable api w := ⟨env, h, he⟩
  have hv := inv_of_reachable hr
  cases msg with
  | createChannel o =>
    constructor
    · rintro ⟨w', obs, hc⟩
      obtain ⟨-, a, b, c, d, o', e, f, -⟩ := apply_create.1 hc
      refine ⟨isOwner_iff.1 a, not_reportsOpen.1 d, ⟨o', ?_, askedPort_eq o' ▸ f⟩, b, c⟩
      rw [← options_history he]; exact e
    · rintro ⟨a, b, ⟨o', e, f⟩, c, d⟩
      rw [← options_history he] at e
      exact ⟨_, _, apply_create.2 ⟨live_of_owner hv a, isOwner_iff.2 a, c, d, not_reportsOpen.2 b, o', e,
        (askedPort_eq o').trans f, rfl, rfl⟩⟩
  | closeChannel =>
    constructor
    · rintro ⟨w', obs, hc⟩
      obtain ⟨-, a, b, ch, c, d, -⟩ := apply_close.1 hc
      exact ⟨isOwner_iff.1 a, ⟨ch, d⟩, b⟩
    · rintro ⟨a, ⟨ch, b⟩, rfl⟩
      obtain ⟨w', hw, -⟩ := C19_owner_can_close hr b a fresh
      exact ⟨w', _, hw⟩
  | sendCosmosMsgs ms qs memo t =>
    cases core with
    | true =>
      rw [C31_send_iff hr]
      simp only [ExecAdmitted, and_true]
    | false =>
      constructor
      · rintro ⟨w', obs, hc⟩
        exact absurd (apply_send.1 hc).2.2.1 (by decide)
      · rintro ⟨-, -, -, -, -, x⟩
        cases x
  | updateCallbackAddress a =>
    constructor
    · rintro ⟨w', obs, hc⟩
      obtain ⟨-, b, c, -⟩ := apply_callback.1 hc
      exact ⟨isOwner_iff.1 b, c⟩
    · rintro ⟨b, c⟩
      obtain ⟨st, hst⟩ := hv.state (live_of_owner hv b)
      exact ⟨_, _, apply_callback.2 ⟨live_of_owner hv b, isOwner_iff.2 b, c, st, hst, rfl, rfl⟩⟩
  | updateOwnership a =>
    cases a with
    | transferOwnership p e =>
      constructor
      · rintro ⟨w', obs, hc⟩
        obtain ⟨-, ow, b, c, d, -⟩ := apply_transfer.1 hc
        exact ⟨isOwner_iff.1 ⟨ow, b, c⟩, d⟩
      · rintro ⟨b, c⟩
        obtain ⟨ow, d, f⟩ := isOwner_iff.2 b
        exact ⟨_, _, apply_transfer.2 ⟨live_of_owner hv b, ow, d, f, c, rfl, rfl⟩⟩
    | acceptOwnership =>
      constructor
      · rintro ⟨w', obs, hc⟩
        obtain ⟨hl, ow, b, c, -⟩ := apply_accept.1 hc
        have hn : nominee w = some (sender, ow.pendingExpiry) := by
          obtain ⟨o, p, e⟩ := ow
          obtain ⟨c1, -⟩ := c
          simp only at c1
          subst c1
          simp [nominee, b]
        exact ⟨_, hn, (C04_accept_iff_unexpired hl hn fresh core).1 ⟨w', obs, hc⟩⟩
      · rintro ⟨e, hn, hu⟩
        exact (C04_accept_iff_unexpired (live_of_nominee hv hn) hn fresh core).2 hu
    | renounceOwnership =>
      constructor
      · rintro ⟨w', obs, hc⟩
        have := apply_renounce (api := api) (w := w) (sender := sender) (fresh := fresh) (core := core)
        rw [show apply api w _ = _ from hc] at this
        cases this
      · exact False.elim

/-- **C92.** In every reachable state an operation is committed exactly if it is one of those admitted: the contract
accepts nothing else, and never gets into a state in which it would refuse something it should accept. -/
theorem C92_admitted_iff (he : Exec api (World.genesis env) h w) (op : Op) :
    (∃ w' obs, Commits api w op w' obs) ↔ Admitted h api w op := by
  have hr : Reachable api w := ⟨env, h, he⟩
  have hv := inv_of_reachable hr
  have hno : ∀ {op}, Refused api w op → ¬ ∃ w' obs, Commits api w op w' obs := by
    rintro op hx ⟨w', obs, hc⟩
    unfold Refused at hx
    rw [show apply api w op = _ from hc] at hx
    cases hx
  cases op with
  | block a b =>
    constructor
    · rintro ⟨w', obs, hc⟩
      obtain ⟨x, y, -⟩ := apply_block.1 hc
      exact ⟨x, y⟩
    · rintro ⟨x, y⟩
      exact ⟨_, _, apply_block.2 ⟨x, y, rfl, rfl⟩⟩
  | instantiate sender msg fresh core =>
    constructor
    · rintro ⟨w', obs, hc⟩
      obtain ⟨a, b, c, d, e, f, -⟩ := apply_instantiate.1 hc
      exact ⟨a, askedOwner_eq sender msg ▸ d, e, askedPort_eq _ ▸ f, b, c⟩
    · rintro ⟨a, b, c, d, e, f⟩
      exact ⟨_, _, apply_instantiate.2 ⟨a, e, f, askedOwner_eq sender msg ▸ b, c, (askedPort_eq _).trans d,
        (fun x hx => by simp [(hv.dead a).1, Store.empty] at hx), rfl, rfl⟩⟩
  | execute sender msg fresh core => exact execAdmitted_iff he sender msg fresh core
  | migrate =>
    refine iff_of_false ?_ id
    rintro ⟨w', obs, hc⟩
    obtain ⟨hl, ⟨⟨s, r⟩, hm⟩, -⟩ := apply_migrate.1 hc
    obtain ⟨⟨prev, p, v, h3, -, h4, h5, h6⟩, -⟩ := migrate_eq_ok.1 hm
    rw [hv.version hl] at h3
    obtain rfl := Option.some.inj h3
    rw [h4] at h5
    obtain rfl := Option.some.inj h5
    exact semver_irrefl _ h6
  | relayOpenInit m fresh => exact iff_of_false (hno (C06_relayer_cannot_open hr m fresh)) id
  | relayOpenTry ch v => exact iff_of_false (hno rfl) id
  | relayOpenConfirm ch => exact iff_of_false (hno rfl) id
  | relayCloseInit x => exact iff_of_false (hno (C07_relayer_cannot_close hr x)) id
  | relayRecv p => exact iff_of_false (hno rfl) id
  | relayOpenAck x cp v =>
    constructor
    · rintro ⟨w', obs, hc⟩
      obtain ⟨c, st, m, a, b, -, -, d, e, f, -⟩ := apply_openAck.1 hc
      obtain ⟨ch, s⟩ := c
      cases b
      exact ⟨ch, m, a, C69_metadata.1 d, metaOk_iff.1 e, f⟩
    · rintro ⟨ch, m, a, b, c, d⟩
      obtain ⟨st, hst⟩ := hv.state (hv.live_of_chan a)
      refine ⟨_, _, apply_openAck.2 ⟨_, st, m, a, rfl, hst, ?_, C69_metadata.2 b, metaOk_iff.2 c, d, rfl, rfl⟩⟩
      rw [(hv.chans _ _ a).1]
      exact portOf_ne_icahost _
  | relayCloseConfirm x =>
    constructor
    · rintro ⟨w', obs, hc⟩
      obtain ⟨c, a, -, b, -⟩ := apply_closeConfirm.1 hc
      exact ⟨c.chan, b, by rw [(hv.chans _ _ a).1]⟩
    · rintro ⟨ch, a, rfl⟩
      exact ⟨_, _, apply_closeConfirm.2 ⟨_, C17_reported_open_is_open hr a, by simp, a, rfl, rfl⟩⟩
  | relayAck x n ack relayer =>
    constructor
    · rintro ⟨w', obs, hc⟩
      obtain ⟨p, c, st, a, b, d, -⟩ := apply_ack.1 hc
      obtain ⟨ch, s⟩ := c
      cases d
      obtain ⟨-, -, ⟨qs, hs⟩, -⟩ := (commits_iff he _ _ _).1 a
      obtain ⟨y, e, f⟩ := (C42_processed_iff he a b hs ack relayer).1 ⟨w', obs, hc⟩
      exact ⟨p, ch, qs, y, a, b, hs, e, f⟩
    · rintro ⟨p, ch, qs, y, a, b, hs, e, f⟩
      exact (C42_processed_iff he a b hs ack relayer).2 ⟨y, e, f⟩
  | relayTimeout x n relayer =>
    constructor
    · rintro ⟨w', obs, hc⟩
      obtain ⟨p, c, st, cs, a, -⟩ := apply_timeout.1 hc
      exact ⟨p, a⟩
    · rintro ⟨p, a⟩
      obtain ⟨ch, s, hrep⟩ := tracked_of_commit he a
      obtain ⟨-, -, -, c, hc⟩ := hv.commits _ _ _ a
      obtain ⟨st, hst⟩ := hv.state (hv.live_of_chan hc)
      exact ⟨_, _, apply_timeout.2 ⟨p, c, st, _, a, hc, hst, hrep, rfl, rfl⟩⟩

/-- With an open channel (`w2`): closing it is admitted, by the owner only; a second one is not. -/
example : Admitted Ex.h2 Ex.api Ex.w2 (.execute "alice" .closeChannel "" true) ∧
    ¬ Admitted Ex.h2 Ex.api Ex.w2 (.execute "mallory" .closeChannel "" true) ∧
    ¬ Admitted Ex.h2 Ex.api Ex.w2 (.execute "alice" (.createChannel none) "channel-1" true) := by
  have hr : ReportsOpen Ex.w2 := ⟨Ex.chan "channel-0" Ex.opts, rfl⟩
  refine ⟨⟨rfl, hr, rfl⟩, fun h => ?_, fun h => h.2.1 hr⟩
  exact absurd (Option.some.inj h.1) (by decide)

end Ica
