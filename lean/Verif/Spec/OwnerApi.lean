import Verif.Spec.ApiStored
import Verif.Model.RawOwner

/-!
# The JSON interface of the owner contract

Written from `/repo/testing/contracts/cw-ica-owner/src/msg.rs` and `state.rs`, in the vocabulary of `Spec/Api.lean`; only the data types are
shared with the model.
-/
namespace Ica.Api

/-- The calls of the owner contract, besides the callbacks. -/
def OwnerCall : Shape Owner.OwnMsg := fun j m => match m with
  | .createIcaContract salt o => Variant "create_ica_contract" (Closed ["salt", "channel_open_init_options"] fun fs =>
      May Text fs "salt" salt ∧ Has Options fs "channel_open_init_options" o) j
  | .sendPredefinedAction i a => Variant "send_predefined_action" (Closed ["ica_id", "to_address"] fun fs =>
      Has Num64 fs "ica_id" i ∧ Has Text fs "to_address" a) j

/-- A callback to the owner contract, which is built without the `query` feature. -/
def OwnerCallback : Shape CallbackMsg := fun j m => Variant "receive_ica_callback" (PlainCallback · m) j

/-- The message that instantiates the owner contract. -/
def OwnerInstantiate : Shape Owner.InstantiateMsg := fun j m => Closed ["admin", "ica_controller_code_id"] (fun fs =>
  May Text fs "admin" m.admin ∧ Has Num64 fs "ica_controller_code_id" m.codeId) j

/-- The queries of the owner contract. -/
def OwnerQuery : Shape Owner.QueryMsg := fun j m => match m with
  | .getContractState => Variant "get_contract_state" (Closed [] fun _ => True) j
  | .getIcaContractState i => Variant "get_ica_contract_state" (Closed ["ica_id"] fun fs => Has Num64 fs "ica_id" i) j
  | .getIcaCount => Variant "get_ica_count" (Closed [] fun _ => True) j

/-- The answer to `get_contract_state`. -/
def ownerStateJson (admin : String) (code : UInt64) : Json :=
  .obj [("admin", .str admin), ("ica_controller_code_id", .num code.toNat)]

/-- The answer to `get_ica_contract_state`: the address of the controller and, once it told the owner contract about an open
channel, what it told. -/
def registryJson (addr : String) (id : UInt64) (told : Option (IbcChannel × String × TxEncoding)) : Json :=
  .obj [("contract_addr", .str addr), ("ica_state", orNull (fun (t : IbcChannel × String × TxEncoding) =>
    .obj [("ica_id", .num id.toNat), ("ica_addr", .str t.2.1), ("tx_encoding", .str (encodingName t.2.2)),
      ("channel_state", .obj [("channel", channelJson t.1), ("channel_status", .str "STATE_OPEN")])]) told)]

/-! ## The callback counter (`/repo/testing/contracts/callback-counter/src/msg.rs`, `state.rs`) -/

/-- The message that instantiates it. -/
def CounterInstantiate : Shape PUnit := fun j _ => Closed [] (fun _ => True) j

/-- Its query. -/
def CounterQuery : Shape PUnit := fun j _ => Variant "get_callback_counter" (Closed [] fun _ => True) j

/-- The answer: the callbacks about packets that were executed, that were refused and that timed out, each in order. A
callback is written as in the call that carries it. -/
def WritesCounter (success error timeout : List CallbackMsg) (j : Json) : Prop :=
  let one := fun m x => WritesCallback m (.obj [("receive_ica_callback", x)])
  ∃ a b c, j = .obj [("success", .arr a), ("error", .arr b), ("timeout", .arr c)] ∧
    List.Forall₂ one success a ∧ List.Forall₂ one error b ∧ List.Forall₂ one timeout c

end Ica.Api
