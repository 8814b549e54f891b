import Verif.Spec.Stored
import Verif.Spec.Machine

/-!
# What is stored under the keys of the contract

The values, as JSON, from what the machine of `Spec/Machine` shows.
-/
namespace Ica.Api

/-- A pair is an array of two. -/
def Two {α β : Type} (r : Shape α) (s : Shape β) : Shape (α × β) := fun j p => ∃ a b, j = .arr [a, b] ∧ r a p.1 ∧ s b p.2

end Ica.Api

namespace Ica.Spec

/-- Under this key there are bytes like this. -/
inductive StoredAs (h : List (Op × List Obs)) (v : View) : Bytes → (Bytes → Prop) → Prop where
  | version : v.live = true → StoredAs h v (utf8 "contract_info")
      (Spells Api.VersionRecord · ⟨"crates.io:cw-ica-controller", "0.20.0"⟩)
  | ownership : v.live = true → StoredAs h v (utf8 "ownership")
      (Spells Api.OwnershipRecord · ⟨v.owner, v.offer.map (·.1), v.offer.bind (·.2)⟩)
  | state : v.live = true → StoredAs h v (utf8 "state")
      (Spells Api.ControllerState · ⟨v.account.map fun x => ⟨x.1, x.2, .protobuf⟩, v.callback⟩)
  | options {o} : v.options = some o → StoredAs h v (utf8 "channel_open_init_options") (Spells Api.Options · o)
  /-- between transactions nobody may propose a channel -/
  | mayOpen : v.live = true → StoredAs h v (utf8 "allow_channel_open_init") (Spells Api.Truth · false)
  | channel {c} : v.channel = some c → StoredAs h v (utf8 "ica_channel") (Spells Api.TrackedChannel · c)
  /-- nor close one; the flag is there once the owner has closed one -/
  | mayClose {sender fresh core obs} : (Op.execute sender .closeChannel fresh core, obs) ∈ h →
      StoredAs h v (utf8 "allow_channel_close_init") (Spells Api.Truth · false)
  /-- the paths of the queries of a packet that has met neither a success acknowledgement nor its timeout -/
  | record {p qs} : Sent h p qs → qs ≠ [] → (∀ x ∈ h, ¬ Clears p.src.channelId p.sequence x.1) →
      StoredAs h v (recordKey p.src.channelId p.sequence)
        (fun b => ∃ paths, List.Forall₂ RecordedAs qs paths ∧ Spells (Api.Many (Api.Two Api.Text Api.Truth)) b paths)

end Ica.Spec
