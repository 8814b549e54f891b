import Verif.Spec.RawOwnerWorld
import Verif.Spec.Api
import Mathlib.Logic.Function.Basic

/-!
# The owner contract on one page

A machine that says everything the owner contract of `/repo/testing/contracts/cw-ica-owner` does: its state is a `Register`,
and `Does` lists which transactions are carried out, what they change and which messages the contract sends. Transactions
carry texts; where texts go out, the rule says what a reader finds in them. It shares the transactions (`ROOp`), the address
functions of the chain and the data types with the model, nothing else.
-/
namespace Ica.Spec
open Function (update)
open RawOwner (ROOp ROWorld)

/-- What there is to see of the owner contract and its chain. -/
structure Register where
  /-- the admin and the code of the controllers, once the contract exists -/
  admin : Option (String × UInt64)
  /-- the controllers in the order of their ids, with the account they reported last -/
  entries : List (String × Option (IbcChannel × String × TxEncoding))
  /-- the address of the owner contract -/
  self : String
  time : UInt64
  addr : Helpers.AddrApi
  codes : Wasmd.Codes
  /-- addresses at which there is a contract -/
  taken : String → Bool

/-- Before the contract exists. -/
def Register.start (self : String) (time : UInt64) (addr : Helpers.AddrApi) (codes : Wasmd.Codes) (taken : String → Bool) :
    Register := ⟨none, [], self, time, addr, codes, taken⟩

/-- The salt that is used: the given one, or the time in seconds. -/
def Register.salt (r : Register) (given : Option String) : Bytes := utf8 (given.getD (decString (r.time.toNat / 1000000000)))

/-- The chain gives a contract of this code made with this salt this address. -/
def Register.Next (r : Register) (code : UInt64) (salt : Option String) (a : String) : Prop :=
  ∃ checksum creator canonical, r.codes code = some checksum ∧ r.addr.canonicalize r.self = some creator ∧
    Wasmd.predictable r.addr.sha256 checksum creator (r.salt salt) = some canonical ∧ r.addr.humanize canonical = some a

/-- What the owner contract does with a transaction: the new state and the messages that it sends. -/
inductive Does (api : Api) (r : Register) : ROOp → Register → List CosmosMsg → Prop where
  /-- A block passes. -/
  | block (t) : Does api r (.block t) { r with time := t } []
  /-- Somebody else creates a contract. -/
  | elsewhere (a) : Does api r (.elsewhere a) { r with taken := update r.taken a true } []
  /-- Somebody uploads a code, under a number not used before. -/
  | upload {c} (k) (new : r.codes c = none) : Does api r (.upload c k) { r with codes := update r.codes c (some k) } []
  /-- Once, anybody: names the admin, or becomes it. -/
  | instantiate {sender text m} (once : r.admin = none) (spelled : Spells Api.OwnerInstantiate text m)
      (valid : ∀ a, m.admin = some a → api.validAddr a = true) :
      Does api r (.instantiate sender text) { r with admin := some (m.admin.getD sender, m.codeId) } []
  /-- The admin: a new controller at a free address, owned and administered by and reporting to the owner contract. -/
  | create {sender text salt o code a first} (spelled : Spells Api.OwnerCall text (.createIcaContract salt o))
      (admin : r.admin = some (sender, code)) (next : r.Next code salt a) (free : r.taken a = false)
      (room : r.entries.length + 1 < 2 ^ 64)
      (first_spelled : Spells Api.Instantiate first ⟨some r.self, o, some r.self⟩) :
      Does api r (.execute sender text true)
        { r with entries := r.entries ++ [(a, none)], taken := update r.taken a true }
        [.wasm (.instantiate2 (some r.self) code ("icacontroller-" ++ r.self ++ "-" ++ decString r.entries.length) first []
          (r.salt salt))]
  /-- The admin: asks a controller to send 100 stake, if the controller agrees. Nothing is recorded. -/
  | send {sender text i dst code a told ask} (spelled : Spells Api.OwnerCall text (.sendPredefinedAction i dst))
      (admin : r.admin = some (sender, code)) (entry : r.entries[i.toNat]? = some (a, told))
      (ask_spelled : Spells Api.Execute ask
        (.sendCosmosMsgs [.bank (.send dst [⟨"stake", ⟨100, by decide⟩⟩])] [] none none)) :
      Does api r (.execute sender text true) r [.wasm (.execute a ask [])]
  /-- A listed controller: reports its account. -/
  | account {n : Nat} {sender text told ch a e ok} (spelled : Spells Api.OwnerCallback text (.onChannelOpenAckCallback ch a e))
      (entry : r.entries[n]? = some (sender, told)) :
      Does api r (.execute sender text ok) { r with entries := r.entries.set n (sender, some (ch, a, e)) } []
  /-- A listed controller: anything else it tells is taken note of without effect. -/
  | outcome {n : Nat} {sender text told m ok} (spelled : Spells Api.OwnerCallback text m)
      (other : ∀ ch a e, m ≠ .onChannelOpenAckCallback ch a e) (entry : r.entries[n]? = some (sender, told)) :
      Does api r (.execute sender text ok) r []

/-- Histories of the machine. -/
inductive Goes (api : Api) (r0 : Register) : List (ROOp × List CosmosMsg) → Register → Prop where
  | nil : Goes api r0 [] r0
  | step {h r r' op ms} : Goes api r0 h r → Does api r op r' ms → Goes api r0 (h ++ [(op, ms)]) r'

/-- A query of the owner contract, as text, is answered: with this JSON, or refused if there is nothing. -/
def RepliedBy (raw : Raw.RawStore) (q : Owner.QueryMsg) (json : Option Json) : Prop :=
  ∀ text, Spells Api.OwnerQuery text q →
    match json with
    | some j => ∃ answer, RawOwner.vmQuery text raw = .ok answer ∧ Written (· = j) answer
    | none => ∃ e, RawOwner.vmQuery text raw = .err e

/-- The owner contract as the VM runs it, with its chain, shows this: by its answers to queries. -/
structure Replying (w : ROWorld) (r : Register) : Prop where
  live : w.live = r.admin.isSome
  self : w.self = r.self
  time : w.time = r.time
  addr : w.addr = r.addr
  codes : w.codes = r.codes
  taken : w.taken = r.taken
  state : RepliedBy w.raw .getContractState (r.admin.map fun x => Api.ownerStateJson x.1 x.2)
  count : RepliedBy w.raw .getIcaCount (if r.entries = [] then none else some (.num r.entries.length))
  entry : ∀ i, RepliedBy w.raw (.getIcaContractState i) ((r.entries[i.toNat]?).map fun x => Api.registryJson x.1 i x.2)

end Ica.Spec
