import Verif.Model.Tx
import Verif.Facts.Step

/-!
# Transactions with callbacks linearise

Every committed transaction tree is a sequence of committed operations, so what holds in all `Op` histories
holds in all histories with re-entrant or failing callback contracts, also in the middle of a transaction.
-/
namespace Ica

mutual
theorem applyTx_exec {api : Api} {w w' : World} {log : List (Op × List Obs)} :
    (t : Tx) → applyTx api w t = some (w', log) → Exec api w log w'
  | .mk op callee, h => by
    rw [applyTx] at h
    split at h
    · cases h
    · rename_i w1 obs ha
      split at h
      · cases callee with
        | none => cases h
        | some ts =>
          simp only [Option.some.injEq, Prod.mk.injEq] at h
          obtain ⟨rfl, rfl⟩ := h
          have h2 := applyTxs_exec (api := api) (w := w1) ts
          have h1 : Exec api w [(op, obs)] w1 := by
            have := Exec.step (api := api) (w0 := w) .nil ha
            simpa using this
          have := h1.append h2
          simpa using this
      · cases h
        have := Exec.step (api := api) (w0 := w) .nil ha
        simpa using this
theorem applyTxs_exec {api : Api} {w : World} :
    (ts : List Tx) → Exec api w (applyTxs api w ts).2 (applyTxs api w ts).1
  | [] => by rw [applyTxs]; exact .nil
  | t :: ts => by
    rw [applyTxs]
    split
    · exact applyTxs_exec ts
    · rename_i w1 log ha
      exact (applyTx_exec t ha).append (applyTxs_exec ts)
end

/-- Histories of transactions are histories of operations. -/
theorem TxExec.exec {api : Api} {w0 w : World} {h : List (Op × List Obs)} (he : TxExec api w0 h w) :
    Exec api w0 h w := by
  induction he with
  | nil => exact .nil
  | step _ ha ih => exact ih.append (applyTx_exec _ ha)

/-- And the other way round: an operation alone is a transaction whose callee does nothing. -/
theorem Exec.txExec {api : Api} {w0 w : World} {h : List (Op × List Obs)} (he : Exec api w0 h w) :
    TxExec api w0 h w := by
  induction he with
  | nil => exact .nil
  | @step l w1 w2 op obs a b ih =>
    refine .step (t := .mk op (some [])) ih ?_
    rw [applyTx, b]
    simp [applyTxs]

end Ica
