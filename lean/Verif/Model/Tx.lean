import Verif.Model.World

/-!
# Transactions with callback contracts

In `Op` histories a call of the callback contract is only observed. Here the callee runs: it may fail, which
fails the whole transaction, or perform any transactions of its own before the outer one commits (it may call
this contract again, and use the chain in every way open to anybody). A nested transaction that fails is
undone on its own if the callee catches the failure; if the callee does not catch it, the callee fails.

In wasmd all state changes of an operation that calls the callback contract (OpenAck, acknowledgement, timeout)
are made before the callback is dispatched, so the callee runs in the world after the operation. None of this is code of
`/repo`.
-/
namespace Ica

/-- An operation together with what the callback contract does if it is called: `none` it fails, `some l` it
performs `l` and succeeds. -/
inductive Tx where
  | mk (op : Op) (callee : Option (List Tx))

/-- Whether an observation is a call of another contract. -/
def Obs.isCall : Obs → Bool
  | .call _ _ _ => true
  | _ => false

mutual
/-- Run a transaction; `none`: it fails and nothing happens. -/
def applyTx (api : Api) (w : World) : Tx → Option (World × List (Op × List Obs))
  | .mk op callee =>
    match apply api w op with
    | none => none
    | some (w', obs) =>
      if obs.any Obs.isCall then
        match callee with
        | none => none
        | some ts =>
          match applyTxs api w' ts with
          | (w'', log) => some (w'', (op, obs) :: log)
      else some (w', [(op, obs)])
/-- The callee's transactions, one after the other; failing ones are undone. -/
def applyTxs (api : Api) (w : World) : List Tx → World × List (Op × List Obs)
  | [] => (w, [])
  | t :: ts =>
    match applyTx api w t with
    | none => applyTxs api w ts
    | some (w', log) =>
      match applyTxs api w' ts with
      | (w'', log') => (w'', log ++ log')
end

/-- Histories of such transactions, as they are committed. -/
inductive TxExec (api : Api) (w0 : World) : List (Op × List Obs) → World → Prop where
  | nil : TxExec api w0 [] w0
  | step {h log : List (Op × List Obs)} {w w' : World} {t : Tx} :
      TxExec api w0 h w → applyTx api w t = some (w', log) → TxExec api w0 (h ++ log) w'

end Ica
