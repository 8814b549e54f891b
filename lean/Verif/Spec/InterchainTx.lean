import Verif.Model.Tx
import Verif.Spec.Interchain

/-!
# The chains together, with callback contracts that run

In the histories of `Spec/Interchain` a call of the callback contract is only observed. Here it runs, as in `Model/Tx`: it may fail,
and then nothing of the transaction happens; or it performs transactions of its own, which may call this contract again, before the
outer one is committed. The host chains stand still meanwhile.
-/
namespace Ica.Spec

/-- The operations in transactions, however deep. -/
def innerOps : List Tx → List Op
  | [] => []
  | .mk op none :: ts => op :: innerOps ts
  | .mk op (some us) :: ts => op :: (innerOps us ++ innerOps ts)

/-- What is left of transactions made one after the other within one block of the controller chain. Each has, if the contract calls its
callback contract in it, what that contract does then. A transaction may come to nothing. -/
inductive Ran (api : Api) : Net → List Tx → Net → List (Op × List Obs) → Prop where
  | nil (n : Net) : Ran api n [] n []
  /-- it comes to nothing -/
  | undone {n n' : Net} {t : Tx} {ts : List Tx} {log : List (Op × List Obs)} :
      Ran api n ts n' log → Ran api n (t :: ts) n' log
  /-- nobody is called -/
  | quiet {n n' : Net} {op : Op} {callee : Option (List Tx)} {w' : World} {obs : List Obs} {ts : List Tx}
      {log : List (Op × List Obs)} :
      Proven n op → apply api n.w op = some (w', obs) → obs.any Obs.isCall = false → Ran api (n.moved op w' obs) ts n' log →
      Ran api n (.mk op callee :: ts) n' ((op, obs) :: log)
  /-- the callback contract is called, and does what it does -/
  | called {n n' n'' : Net} {op : Op} {us : List Tx} {w' : World} {obs : List Obs} {ts : List Tx}
      {inner log : List (Op × List Obs)} :
      Proven n op → apply api n.w op = some (w', obs) → obs.any Obs.isCall = true → Ran api (n.moved op w' obs) us n' inner →
      Ran api n' ts n'' log → Ran api n (.mk op (some us) :: ts) n'' ((op, obs) :: (inner ++ log))

/-- A history of the joint system in which callback contracts run. What happened within a transaction stands in the order in which it
happened. -/
inductive NetTxExec (api : Api) (n0 : Net) : List (NetOp × List Obs) → Net → Prop where
  | nil : NetTxExec api n0 [] n0
  /-- a transaction on the controller chain -/
  | tx {h : List (NetOp × List Obs)} {n n' : Net} {t : Tx} {log : List (Op × List Obs)} :
      NetTxExec api n0 h n → Ran api n [t] n' log → NetTxExec api n0 (h ++ log.map fun x => (.ctrl x.1, x.2)) n'
  /-- something happens on a host chain -/
  | host {h : List (NetOp × List Obs)} {n n' : Net} {op : NetOp} {obs : List Obs} :
      NetTxExec api n0 h n → (∀ o, op ≠ .ctrl o) → NetStep api n op n' obs → NetTxExec api n0 (h ++ [(op, obs)]) n'

end Ica.Spec
