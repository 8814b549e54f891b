import Verif.Props.Handshake

/-!
# C22: the two comments on `CreateChannel`

src/types/msg.rs documents `CreateChannel` twice. Lines 29 to 32 say that without options those of the instantiation
are used; lines 34 and 35 say that those of the last channel creation are. `C22_repeats_last_options` proves the
second. Here the first is refuted.
-/
namespace Ica
open Spec

namespace Comments.Ex
open Ica.Ex

/-- After channel-1 was proposed as unordered, the owner proposes once more, without options. -/
def z1 : World := eCreate w6 "channel-2" opts'

theorem again : Step api w6 (.execute "alice" (.createChannel none) "channel-2" true) z1
    [.channelCreated "channel-2"] :=
  .create _ _ _ opts' rfl ⟨_, rfl, rfl⟩ (by simp [w6, eCreate, w5, eClose, setChan, chan, prop, ackedChan,
    proposalChannel, w2, eAck, w1, eInst, w0, World.genesis]) (by simp [w6, eCreate, w5, eClose]) rfl rfl

theorem commits {w w' : World} {op : Op} {obs : List Obs} (hr : Reachable api w) (h : Step api w op w' obs) :
    apply api w op = some (w', obs) := (apply_iff_step (inv_of_reachable hr)).2 h

end Comments.Ex

/-- **C22** (the first comment is wrong). There is a history that instantiates the contract asking for one ordering, and
in which a `CreateChannel` without options is committed, after one with options, that proposes a channel with another
ordering than the one the instantiation asked for. -/
theorem C22_not_those_of_instantiation : ∃ (api : Api) (env : Env) (h : List (Op × List Obs)) (w w' : World)
    (deployer : String) (msg : InstantiateMsg) (first : String) (sender fresh : String) (obs : List Obs)
    (ch : IbcChannel), Exec api (World.genesis env) h w ∧
      (h.map (·.1)).head? = some (.instantiate deployer msg first true) ∧
      Commits api w (.execute sender (.createChannel none) fresh true) w' obs ∧
      w'.chans fresh = some ⟨ch, .init⟩ ∧ ch.order ≠ askedOrder msg.channelOpenInitOptions := by
  refine ⟨Ex.api, Ex.env, _, Ex.w6, Comments.Ex.z1, "deployer", Ex.inst, "channel-0", "alice", "channel-2", _,
    proposalChannel Ex.w6.env.contractAddr "channel-2" Ex.opts',
    (((Exec.nil.step (Comments.Ex.commits Ex.r0 Ex.s1)).step (Comments.Ex.commits Ex.r1 Ex.s2)).step
      (Comments.Ex.commits Ex.r2 Ex.s5)).step (Comments.Ex.commits Ex.r5 Ex.s6), rfl,
    Comments.Ex.commits (Ex.toStep Ex.r5 Ex.s6) Comments.Ex.again, ?_, ?_⟩
  · exact setChan_same Ex.w6.chans "channel-2" _
  · decide

end Ica
