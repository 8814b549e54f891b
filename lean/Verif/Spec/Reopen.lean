import Verif.Spec.Interchain

/-!
# Reaching the account again

ibc-go's host module remembers one *active channel* for each connection and controller port: the channel whose handshake
it completed last (`SetActiveChannelID` in `OnChanOpenConfirm`). It takes up a new proposal only if there is no active
channel or the active channel is closed (`OnChanOpenTry`, `ErrActiveChannelAlreadySet`). `Net` leaves this rule out, as
hosts may refuse anything; here it is stated, so that properties can ask what is possible under it. None of this is code
of `/repo`.
-/
namespace Ica.Spec

/-- The channel whose handshake the host of this connection completed last. -/
def activeChannel (h : List (NetOp × List Obs)) (connection : String) : Option String :=
  h.foldl (fun active x =>
    match x.1 with
    | .hostOpenConfirm conn channel => if conn = connection then some channel else active
    | _ => active) none

/-- The host's rule: no new handshake while the active channel is not closed. -/
def Permitted (h : List (NetOp × List Obs)) (n : Net) : NetOp → Prop
  | .hostOpenTry conn _ _ _ _ => ∀ active, activeChannel h conn = some active →
      ∃ hc, (n.hosts conn).chans active = some hc ∧ hc.status = .closed
  | _ => True

/-- A history that goes on from `n`, reached by the history `h`, with hosts that keep to the rule. -/
inductive Continues (api : Api) (h : List (NetOp × List Obs)) (n : Net) : List (NetOp × List Obs) → Net → Prop where
  | nil : Continues api h n [] n
  | step {l : List (NetOp × List Obs)} {n1 n2 : Net} {op : NetOp} {obs : List Obs} :
      Continues api h n l n1 → NetStep api n1 op n2 obs → Permitted (h ++ l) n1 op → Continues api h n (l ++ [(op, obs)]) n2

/-- What the owner and relayers can do on their own: the owner sends, closes and creates; relayers bring handshakes,
closings and timeouts to the other side; hosts make blocks. -/
def ByOwnerAndRelayers (owner : String) : NetOp → Prop
  | .ctrl (.execute sender (.createChannel _) _ _) => sender = owner
  | .ctrl (.execute sender .closeChannel _ _) => sender = owner
  | .ctrl (.execute sender (.sendCosmosMsgs ..) _ _) => sender = owner
  | .ctrl (.relayOpenAck ..) => True
  | .ctrl (.relayTimeout ..) => True
  | .hostBlock .. => True
  | .hostOpenTry .. => True
  | .hostOpenConfirm .. => True
  | .hostCloseConfirm .. => True
  | _ => False

/-- What relayers can do on their own: they bring handshakes, also of closings, to the other side. -/
def ByRelayers : NetOp → Prop
  | .ctrl (.relayOpenAck ..) => True
  | .hostBlock .. => True
  | .hostOpenTry .. => True
  | .hostOpenConfirm .. => True
  | .hostCloseConfirm .. => True
  | _ => False

/-- The account `a` on a connection can be used: the contract reports this channel open, it is open at both ends, and it is
the channel of the account. -/
def Working (n : Net) (ch : IbcChannel) (a : String) : Prop :=
  Reports n.w ch .opened ∧ ChainOpen n.w ch.endpoint.channelId ch ∧
    icaOf n.w = some ⟨a, ch.endpoint.channelId, .protobuf⟩ ∧ (n.hosts ch.connectionId).account = some a ∧
    ∃ hc, (n.hosts ch.connectionId).chans ch.counterpartyEndpoint.channelId = some hc ∧ hc.controller = ch.endpoint ∧
      hc.status = .opened

/-- No packet of the channel is on its way. -/
def Idle (n : Net) (id : String) : Prop := ∀ k, n.w.commits id k = none

end Ica.Spec
