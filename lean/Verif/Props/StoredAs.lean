import Verif.Spec.StoredAs
import Verif.Props.Stored
import Verif.Props.Machine

/-!
# What is stored under the keys: C117
-/
namespace Ica.StoredAs
open Spec Stored

variable {api : Api} {env : Env}

theorem item_get {α : Type} {i : Raw.Item α} {raw : Raw.RawStore} {o : Option α} (h : i.Holds raw o) {r : Api.Shape α}
    (hr : Reads i.jc r) {b : Bytes} (hb : raw (utf8 i.key) = some b) : ∃ x, o = some x ∧ Spells r b x := by
  unfold Raw.Item.Holds at h
  rw [hb] at h
  cases o with
  | none => exact h.elim
  | some x => exact ⟨x, rfl, (ofBytes_iff hr).1 h⟩

theorem item_put {α : Type} {i : Raw.Item α} {raw : Raw.RawStore} {o : Option α} (h : i.Holds raw o) {r : Api.Shape α}
    (hr : Reads i.jc r) {x : α} (hx : o = some x) : ∃ b, raw (utf8 i.key) = some b ∧ Spells r b x := by
  unfold Raw.Item.Holds at h
  subst hx
  cases hb : raw (utf8 i.key) with
  | none => rw [hb] at h; exact h.elim
  | some b => rw [hb] at h; exact ⟨b, rfl, (ofBytes_iff hr).1 h⟩

theorem paths_reads : Reads Raw.QueryPaths.jc (Api.Many (Api.Two Api.Text Api.Truth)) := by
  refine reads_many fun j x => ?_
  cases j with
  | arr js =>
    rcases js with _ | ⟨a, _ | ⟨b, _ | ⟨c, js⟩⟩⟩
    · simp [jcPair, Api.Two]
    · simp [jcPair, Api.Two]
    · have h1 := fun y => reads_text a y
      have h2 := fun y => reads_truth b y
      obtain ⟨y, z⟩ := x
      simp only [jcPair, Api.Two]
      constructor
      · intro h
        cases ha : jcStr.dec a with
        | none => rw [ha] at h; cases h
        | some u =>
          cases hb : jcBool.dec b with
          | none => rw [ha, hb] at h; cases h
          | some w =>
            rw [ha, hb] at h
            cases h
            exact ⟨a, b, rfl, (h1 _).1 ha, (h2 _).1 hb⟩
      · rintro ⟨a', b', e, ha, hb⟩
        cases e
        rw [(h1 _).2 ha, (h2 _).2 hb]
    · simp [jcPair, Api.Two]
  | _ => simp [jcPair, Api.Two]

/-- **C117.** Whatever bytes users send and whatever relayers do, the storage of the contract is a function of what has
been seen: under each key of C114 there is a JSON text for what the machine of C111 shows, and nothing is anywhere else. -/
theorem C117_values {h : List (Raw.ROp × List Obs)} {w : Raw.RWorld} (he : Raw.RExec api (.genesis env) h w)
    (hs : ∀ x ∈ h, x.1.Short) :
    ∃ h' v, List.Forall₂ (fun x y => Says x.1 y.1 ∧ x.2 = y.2) h h' ∧ Runs api (View.start env) h' v ∧
      (∀ k b, w.raw k = some b → ∃ P, StoredAs h' v k P ∧ P b) ∧
      ∀ k P, StoredAs h' v k P → ∃ b, w.raw k = some b ∧ P b := by
  obtain ⟨h', s, ht, hrel, hd⟩ := rel_exec he hs
  have hr := hrel.rep
  obtain ⟨v, hv, hsim⟩ := sim_exec ht
  have hi := inv_exec (inv_genesis api env) ht
  have hlive : w.live = v.live := hsim.live
  obtain ⟨hl, hopen⟩ := started ht
  have hclose := closed ht
  have hp := pending_iff ht
  have alive : ∀ {α : Type} (f : Store → Option α) {x : α}, f s = some x → f Store.empty = none → v.live = true := by
    intro α f x hf h0
    rw [← hlive]
    cases hw : w.live with
    | true => rfl
    | false =>
      have := congrArg f (hi.dead hw).1
      exact absurd (hf.symm.trans (this.trans h0)) (by simp)
  have flag1 : ∀ x, s.allowOpenInit = some x → x = false := fun x hx => by
    have := hi.noOpenFlag
    cases x with
    | false => rfl
    | true => exact absurd hx this
  have flag2 : ∀ x, s.allowCloseInit = some x → x = false := fun x hx => by
    have := hi.noCloseFlag
    cases x with
    | false => rfl
    | true => exact absurd hx this
  refine ⟨h', v, hd, hv, fun k b hb => ?_, fun k P hk => ?_⟩
  · by_cases hk : Raw.OwnKey k
    · rcases hk with rfl | ⟨key, hkey, rfl⟩ | ⟨c, n, hk⟩
      · obtain ⟨x, hx, hy⟩ := item_get (i := Raw.STATE) hr.state ContractState_reads hb
        have hlv := alive Store.state hx rfl
        have := hsim.state
        rw [hlv, if_pos rfl] at this
        obtain rfl := Option.some.inj (hx.symm.trans this)
        exact ⟨_, .state hlv, hy⟩
      · simp only [Raw.itemKeys, List.mem_cons, List.not_mem_nil, or_false] at hkey
        rcases hkey with rfl | rfl | rfl | rfl | rfl | rfl | rfl
        · obtain ⟨x, hx, hy⟩ := item_get (i := Raw.CHANNEL_STATE) hr.channel ChannelState_reads hb
          exact ⟨_, .channel (hsim.channel.symm.trans hx), hy⟩
        · obtain ⟨x, hx, hy⟩ := item_get (i := Raw.CHANNEL_OPEN_INIT_OPTIONS) hr.options ChannelOpenInitOptions_reads hb
          exact ⟨_, .options (hsim.options.symm.trans hx), hy⟩
        · obtain ⟨x, hx, hy⟩ := item_get (i := Raw.ALLOW_CHANNEL_OPEN_INIT) hr.allowOpenInit reads_truth hb
          obtain rfl := flag1 x hx
          exact ⟨_, .mayOpen (alive Store.allowOpenInit hx rfl), hy⟩
        · obtain ⟨x, hx, hy⟩ := item_get (i := Raw.ALLOW_CHANNEL_CLOSE_INIT) hr.allowCloseInit reads_truth hb
          obtain rfl := flag2 x hx
          obtain ⟨_, _, _, _, hm⟩ := hclose.1 (by intro e; exact absurd (hx.symm.trans e) (by simp))
          exact ⟨_, .mayClose hm, hy⟩
        · obtain ⟨x, hx, _⟩ := item_get (i := Raw.QUERY) hr.query paths_reads hb
          exact absurd (hx.symm.trans hi.noScratch) (by simp)
        · obtain ⟨x, hx, hy⟩ := item_get (i := Raw.CONTRACT) hr.version ContractVersion_reads hb
          have hlv := alive Store.version hx rfl
          obtain rfl := Option.some.inj (hx.symm.trans (hi.version (hlive.trans hlv)))
          exact ⟨_, .version hlv, hy⟩
        · obtain ⟨x, hx, hy⟩ := item_get (i := Raw.OWNERSHIP) hr.ownership Ownership_reads hb
          have hlv := alive Store.ownership hx rfl
          have := hsim.ownership
          rw [hlv, if_pos rfl] at this
          obtain rfl := Option.some.inj (hx.symm.trans this)
          exact ⟨_, .ownership hlv, hy⟩
      · obtain ⟨_, hsh, _⟩ := Raw.mapKey_ok hk
        have hh := hr.pending c n hsh k hk
        rw [hb] at hh
        cases hx : s.pending c n with
        | none => rw [hx] at hh; exact hh.elim
        | some paths =>
        rw [hx] at hh
        obtain ⟨p, qs, h1, rfl, rfl, h4, h5, h6⟩ := (hp c n paths).1 hx
        have e : k = recordKey p.src.channelId p.sequence := by
          have := hk.symm.trans (mapKey_record hsh)
          cases this; rfl
        rw [e]
        exact ⟨_, .record h1 h4 h6, paths, h5, (ofBytes_iff paths_reads).1 hh⟩
    · have := Raw.exec_keeps (Raw.own_frame (fun _ => none)) (fun _ _ => rfl) he k hk
      exact absurd (hb.symm.trans this) (by simp)
  · cases hk with
    | version hlv => exact item_put (i := Raw.CONTRACT) hr.version ContractVersion_reads (hi.version (hlive.trans hlv))
    | ownership hlv =>
      have := hsim.ownership
      rw [hlv, if_pos rfl] at this
      exact item_put (i := Raw.OWNERSHIP) hr.ownership Ownership_reads this
    | state hlv =>
      have := hsim.state
      rw [hlv, if_pos rfl] at this
      exact item_put (i := Raw.STATE) hr.state ContractState_reads this
    | options ho =>
      exact item_put (i := Raw.CHANNEL_OPEN_INIT_OPTIONS) hr.options ChannelOpenInitOptions_reads (hsim.options.trans ho)
    | mayOpen hlv =>
      obtain ⟨x, hx⟩ := Option.ne_none_iff_exists'.1 (hopen (hlive.trans hlv))
      obtain rfl := flag1 x hx
      exact item_put (i := Raw.ALLOW_CHANNEL_OPEN_INIT) hr.allowOpenInit reads_truth hx
    | channel hc => exact item_put (i := Raw.CHANNEL_STATE) hr.channel ChannelState_reads (hsim.channel.trans hc)
    | mayClose hm =>
      obtain ⟨x, hx⟩ := Option.ne_none_iff_exists'.1 (hclose.2 ⟨_, _, _, _, hm⟩)
      obtain rfl := flag2 x hx
      exact item_put (i := Raw.ALLOW_CHANNEL_CLOSE_INIT) hr.allowCloseInit reads_truth hx
    | @record p qs h1 h2 h3 =>
      obtain ⟨paths, hpaths⟩ := sent_recorded ht h1 h2
      have hx : s.pending p.src.channelId p.sequence = some paths :=
        (hp _ _ paths).2 ⟨p, qs, h1, rfl, rfl, h2, hpaths, h3⟩
      have hsh : Raw.Short p.src.channelId := by
        by_contra hc
        have := hr.long p.src.channelId p.sequence hc
        exact absurd (hx.symm.trans this) (by simp)
      have hh := hr.pending _ p.sequence hsh _ (mapKey_record hsh)
      rw [hx] at hh
      cases hb : w.raw (recordKey p.src.channelId p.sequence) with
      | none => rw [hb] at hh; exact hh.elim
      | some b =>
        rw [hb] at hh
        exact ⟨b, rfl, paths, hpaths, (ofBytes_iff paths_reads).1 hh⟩

/-- A history in bytes with the four steps of `Ex.h4e`: the handshake, a packet with two queries and its error
acknowledgement. Both queries are still recorded, the second as a `Stargate` one, and no channel may be proposed. -/
example : ∃ h w, Raw.RExec Ex.api (.genesis Ex.env) h w ∧ (∀ x ∈ h, x.1.Short) ∧ h.length = 4 ∧
    (∃ b, w.raw (recordKey "channel-0" 1) = some b ∧
      Spells (Api.Many (Api.Two Api.Text Api.Truth)) b [(Path.balance, false), ("/z.Q/W", true)]) ∧
    ∃ b, w.raw (utf8 "allow_channel_open_init") = some b ∧ Spells Api.Truth b false := by
  have hsh : ∀ x ∈ Ex.h4e, (asBytes x.1).Short := by
    intro x hx
    simp only [Ex.h4e, Ex.h3, Ex.h2, List.nil_append, List.cons_append, List.mem_cons, List.not_mem_nil,
      or_false] at hx
    rcases hx with rfl | rfl | rfl | rfl
    · show Raw.Short "channel-0"; decide +kernel
    · trivial
    · show Raw.Short _; decide +kernel
    · trivial
  obtain ⟨w', h1, h2, -⟩ := C58_every_history_in_bytes Ex.e4e hsh
  have hs : Raw.Short "channel-0" := by decide +kernel
  refine ⟨_, w', h1, ?_, rfl, ?_, item_put (i := Raw.ALLOW_CHANNEL_OPEN_INIT) h2.allowOpenInit reads_truth rfl⟩
  · intro x hx
    obtain ⟨y, hy, rfl⟩ := List.mem_map.1 hx
    exact hsh y hy
  · have hh := h2.pending "channel-0" 1 hs _ (mapKey_record hs)
    rw [show Ex.w4e.store.pending "channel-0" 1 = Ex.w3.store.pending "channel-0" 1 from rfl, Ex.pending3] at hh
    cases hb : w'.raw (recordKey "channel-0" 1) with
    | none => rw [hb] at hh; exact hh.elim
    | some b => rw [hb] at hh; exact ⟨b, rfl, (ofBytes_iff paths_reads).1 hh⟩

end Ica.StoredAs
