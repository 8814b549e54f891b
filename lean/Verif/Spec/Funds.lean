import Verif.Spec.Observe
import Verif.Spec.OwnerWorld

/-!
# Tokens held by the contracts

The bank of the chain, as far as one contract is concerned: how much it holds of each denomination. Tokens can be attached
to a call that instantiates or executes a contract (wasmd moves them before the contract runs, and back if the call fails)
and can be sent to the contract by anybody. They leave with the funds of a message the contract has executed. Of messages
whose effect on the account is not described here nothing is assumed: after such a message the contract may hold anything.
-/
namespace Ica
open Spec

/-- How much is held of each denomination. -/
abbrev Purse := String → Nat

/-- How much of a denomination is in a list of coins. -/
def amountIn (d : String) : List Coin → Nat
  | [] => 0
  | c :: cs => (if c.denom = d then c.amount.val else 0) + amountIn d cs

/-- With coins added. -/
def Purse.plus (b : Purse) (cs : List Coin) : Purse := fun d => b d + amountIn d cs

/-- What something the controller does on its chain does to its tokens. -/
inductive Pays : Purse → Obs → Purse → Prop where
  | event {b : Purse} {e : Event} : Pays b (.event e) b
  | created {b : Purse} {id : String} : Pays b (.channelCreated id) b
  | closed {b : Purse} {id : String} : Pays b (.channelClosed id) b
  | packet {b : Purse} {p : IbcPacket} : Pays b (.packetSent p) b
  | call {b b' : Purse} {a : String} {m : Bytes} {funds : List Coin} (h : b = b'.plus funds) : Pays b (.call a m funds) b'
  | other {b b' : Purse} {m : CosmosMsg} : Pays b (.other m) b'

/-- One after the other. -/
inductive PaysAll {α : Type} (R : Purse → α → Purse → Prop) : Purse → List α → Purse → Prop where
  | nil {b : Purse} : PaysAll R b [] b
  | cons {b b' b'' : Purse} {x : α} {xs : List α} : R b x b' → PaysAll R b' xs b'' → PaysAll R b (x :: xs) b''

/-- The transactions tokens can be attached to. -/
def Op.payable : Op → Bool
  | .instantiate .. => true
  | .execute .. => true
  | _ => false

/-- A transaction, with the coins attached to it; or somebody sends coins to the contract. -/
inductive PayOp (Op : Type) where
  | transaction (op : Op) (attached : List Coin)
  | deposit (coins : List Coin)

/-- The coins handed to the contract in one step. -/
def PayOp.given {Op : Type} : PayOp Op → List Coin
  | .transaction _ cs => cs
  | .deposit cs => cs

/-- One step of the controller and its tokens. -/
inductive PayStep (api : Api) : World → Purse → PayOp Op → World → Purse → Prop where
  | transaction {w w' : World} {b b' : Purse} {op : Op} {cs : List Coin} {obs : List Obs}
      (hc : op.payable = true ∨ cs = []) (h : Commits api w op w' obs) (hp : PaysAll Pays (b.plus cs) obs b') :
      PayStep api w b (.transaction op cs) w' b'
  | deposit {w : World} {b : Purse} {cs : List Coin} : PayStep api w b (.deposit cs) w (b.plus cs)

/-- Histories. -/
inductive PayExec (api : Api) (w0 : World) (b0 : Purse) : List (PayOp Op) → World → Purse → Prop where
  | nil : PayExec api w0 b0 [] w0 b0
  | step {h : List (PayOp Op)} {w w' : World} {b b' : Purse} {op : PayOp Op} :
      PayExec api w0 b0 h w b → PayStep api w b op w' b' → PayExec api w0 b0 (h ++ [op]) w' b'

namespace Owner

/-- What a message the owner contract has executed does to its tokens. -/
inductive PaysMsg : Purse → CosmosMsg → Purse → Prop where
  | execute {b b' : Purse} {a : String} {m : Bytes} {funds : List Coin} (h : b = b'.plus funds) :
      PaysMsg b (.wasm (.execute a m funds)) b'
  | instantiate2 {b b' : Purse} {admin : Option String} {code : UInt64} {label : String} {m salt : Bytes} {funds : List Coin}
      (h : b = b'.plus funds) : PaysMsg b (.wasm (.instantiate2 admin code label m funds salt)) b'
  | other {b b' : Purse} {m : CosmosMsg} (h1 : ∀ a x f, m ≠ .wasm (.execute a x f))
      (h2 : ∀ a c l x f s, m ≠ .wasm (.instantiate2 a c l x f s)) : PaysMsg b m b'

/-- The transactions of the owner contract tokens can be attached to. -/
def OOp.payable : OOp → Bool
  | .instantiate .. => true
  | .execute .. => true
  | _ => false

/-- One step of the owner contract and its tokens. -/
inductive OPayStep (api : Api) : OWorld → Purse → PayOp OOp → OWorld → Purse → Prop where
  | transaction {w w' : OWorld} {b b' : Purse} {op : OOp} {cs : List Coin} {ms : List CosmosMsg}
      (hc : op.payable = true ∨ cs = []) (h : applyO api w op = some (w', ms)) (hp : PaysAll PaysMsg (b.plus cs) ms b') :
      OPayStep api w b (.transaction op cs) w' b'
  | deposit {w : OWorld} {b : Purse} {cs : List Coin} : OPayStep api w b (.deposit cs) w (b.plus cs)

/-- Histories. -/
inductive OPayExec (api : Api) (w0 : OWorld) (b0 : Purse) : List (PayOp OOp) → OWorld → Purse → Prop where
  | nil : OPayExec api w0 b0 [] w0 b0
  | step {h : List (PayOp OOp)} {w w' : OWorld} {b b' : Purse} {op : PayOp OOp} :
      OPayExec api w0 b0 h w b → OPayStep api w b op w' b' → OPayExec api w0 b0 (h ++ [op]) w' b'

end Owner

end Ica
