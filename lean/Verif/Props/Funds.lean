import Verif.Spec.Funds
import Verif.Props.Storage
import Verif.Props.Owner
import Verif.Facts.System

/-!
# Properties: tokens handed to the contracts
-/
namespace Ica
open Spec

theorem amountIn_append (d : String) (xs ys : List Coin) : amountIn d (xs ++ ys) = amountIn d xs + amountIn d ys := by
  induction xs with
  | nil => simp [amountIn]
  | cons x xs ih => simp only [List.cons_append, amountIn, ih]; omega

theorem Purse.plus_nil (b : Purse) : b.plus [] = b := by funext d; simp [Purse.plus, amountIn]

/-- Nothing but events, channels, packets and calls without funds: the tokens stay. -/
theorem pays_nothing : ∀ {obs : List Obs} {b b' : Purse}, (∀ o ∈ obs, (∃ e, o = .event e) ∨
      (∃ id, o = .channelCreated id) ∨ (∃ id, o = .channelClosed id) ∨ (∃ p, o = .packetSent p) ∨ ∃ a m, o = .call a m []) →
    (PaysAll Pays b obs b' ↔ b' = b)
  | [], b, b', _ => ⟨fun h => by cases h; rfl, fun h => h ▸ .nil⟩
  | o :: obs, b, b', h => by
    have ht := fun {b b' : Purse} => pays_nothing (obs := obs) (b := b) (b' := b') fun x hx => h x (.tail _ hx)
    have h1 : ∀ x, Pays b o x ↔ x = b := by
      intro x
      rcases h o (.head _) with ⟨e, rfl⟩ | ⟨e, rfl⟩ | ⟨e, rfl⟩ | ⟨e, rfl⟩ | ⟨a, m, rfl⟩
      · exact ⟨fun h => (by cases h; rfl), fun h => h ▸ .event⟩
      · exact ⟨fun h => (by cases h; rfl), fun h => h ▸ .created⟩
      · exact ⟨fun h => (by cases h; rfl), fun h => h ▸ .closed⟩
      · exact ⟨fun h => (by cases h; rfl), fun h => h ▸ .packet⟩
      · refine ⟨fun h => ?_, fun h => .call (by rw [h, Purse.plus_nil])⟩
        cases h with
        | call h => rw [h, Purse.plus_nil]
    constructor
    · intro hp
      cases hp with
      | cons ho hr => rw [ht.mp hr, (h1 _).mp ho]
    · intro e
      exact .cons ((h1 b).mpr rfl) (ht.mpr e)

/-- A committed transaction leaves the contract with what it had and what was attached. -/
theorem commits_pays {api : Api} {w w' : World} {op : Op} {obs : List Obs} (h : Commits api w op w' obs) {b b' : Purse} :
    PaysAll Pays b obs b' ↔ b' = b :=
  pays_nothing fun o ho => by
    rcases C60_nothing_else h o ho with e | e | e | e | ⟨a, m, _, rfl⟩
    · exact .inl e
    · exact .inr (.inl e)
    · exact .inr (.inr (.inl e))
    · exact .inr (.inr (.inr (.inl e)))
    · exact .inr (.inr (.inr (.inr ⟨a, m, rfl⟩)))

/-- **C101.** Over any history, from any state: the controller holds exactly what it held and what it was given. Nothing
anybody does (the owner included) ever takes a token out of it. -/
theorem C101_kept {api : Api} {w0 w : World} {b0 b : Purse} {h : List (PayOp Op)} (he : PayExec api w0 b0 h w b) (d : String) :
    b d = b0 d + amountIn d (h.flatMap PayOp.given) := by
  induction he with
  | nil => simp [amountIn]
  | step _ hs ih =>
    rw [List.flatMap_append, amountIn_append, List.flatMap_singleton]
    cases hs with
    | transaction hc hx hp => rw [(commits_pays hx).mp hp, Purse.plus, ih]; simp only [PayOp.given]; omega
    | deposit => rw [Purse.plus, ih]; simp only [PayOp.given]; omega

/-- **C101.** Tokens attached to a call are never refused: a call that commits without them commits with them, does the
same, and the controller then holds them. -/
theorem C101_taken {api : Api} {w w' : World} {op : Op} {obs : List Obs} (h : Commits api w op w' obs)
    (hp : op.payable = true) (b : Purse) (cs : List Coin) : PayStep api w b (.transaction op cs) w' (b.plus cs) :=
  .transaction (.inl hp) h ((commits_pays h).mpr rfl)

/-- **C101.** Every history of the controller is one of these, whatever coins come with its calls; so nothing above is about
histories that do not exist. -/
theorem C101_every_history {api : Api} {w0 w : World} {h : List (Op × List Obs)} (he : Exec api w0 h w) (b0 : Purse)
    (f : Nat → List Coin) : ∃ b l, PayExec api w0 b0 l w b ∧
      l = h.mapIdx fun k x => .transaction x.1 (if x.1.payable then f k else []) := by
  induction he with
  | nil => exact ⟨b0, [], .nil, rfl⟩
  | @step h w w' op obs _ hx ih =>
    obtain ⟨b, l, hl, rfl⟩ := ih
    refine ⟨b.plus (if op.payable then f h.length else []), _,
      .step hl (.transaction (op := op) ?_ hx ((commits_pays hx).mpr rfl)), ?_⟩
    · cases op.payable
      · exact .inr (by simp)
      · exact .inl rfl
    · rw [List.mapIdx_concat]

namespace Owner

/-- The messages of the owner contract carry no tokens. -/
theorem owner_pays {api : Api} {w w' : OWorld} {op : OOp} {ms : List CosmosMsg} (h : applyO api w op = some (w', ms))
    {b b' : Purse} : PaysAll PaysMsg b ms b' ↔ b' = b := by
  have hone : ∀ {m : CosmosMsg}, (∀ x, PaysMsg b m x ↔ x = b) → (PaysAll PaysMsg b [m] b' ↔ b' = b) := by
    intro m hm
    constructor
    · intro hp
      cases hp with
      | cons h1 h2 => cases h2; exact (hm _).mp h1
    · intro e; rw [e]; exact .cons ((hm b).mpr rfl) .nil
  have hnil : PaysAll PaysMsg b [] b' ↔ b' = b := ⟨fun h => (by cases h; rfl), fun h => h ▸ .nil⟩
  by_cases hq : ∀ s b ok, op ≠ .execute s b ok
  · obtain ⟨_, _, _, _, _, rfl⟩ := System.quiet_owner h hq
    exact hnil
  · simp only [ne_eq, Classical.not_forall, Classical.not_not] at hq
    obtain ⟨s, x, ok, rfl⟩ := hq
    rcases exec_ok h with ⟨st, m, addr, o, label, salt, _, _, _, hi, _, _, rfl, _⟩ | ⟨_, _, _, _, _, _, _, _, _, rfl⟩ |
      ⟨_, _, _, _, _, _, rfl, _⟩
    · obtain ⟨y, rfl, _⟩ := C54_instantiate2 hi
      refine hone fun x => ⟨fun hp => ?_, fun e => .instantiate2 (by rw [e, Purse.plus_nil])⟩
      cases hp with
      | instantiate2 h => rw [h, Purse.plus_nil]
      | other _ h2 => exact absurd rfl (h2 _ _ _ _ _ _)
    · refine hone fun x => ⟨fun hp => ?_, fun e => .execute (by rw [e, Purse.plus_nil])⟩
      cases hp with
      | execute h => rw [h, Purse.plus_nil]
      | other h1 _ => exact absurd rfl (h1 _ _ _)
    · exact hnil

end Owner

open Owner in
/-- **C101.** The same for the owner contract. -/
theorem C101_owner_kept {api : Api} {w0 w : OWorld} {b0 b : Purse} {h : List (PayOp OOp)} (he : OPayExec api w0 b0 h w b)
    (d : String) : b d = b0 d + amountIn d (h.flatMap PayOp.given) := by
  induction he with
  | nil => simp [amountIn]
  | step _ hs ih =>
    rw [List.flatMap_append, amountIn_append, List.flatMap_singleton]
    cases hs with
    | transaction hc hx hp => rw [(owner_pays hx).mp hp, Purse.plus, ih]; simp only [PayOp.given]; omega
    | deposit => rw [Purse.plus, ih]; simp only [PayOp.given]; omega

open Owner in
/-- **C101.** The same for the owner contract: tokens are never refused. -/
theorem C101_owner_taken {api : Api} {w w' : OWorld} {op : OOp} {ms : List CosmosMsg} (h : applyO api w op = some (w', ms))
    (hp : op.payable = true) (b : Purse) (cs : List Coin) : OPayStep api w b (.transaction op cs) w' (b.plus cs) :=
  .transaction (.inl hp) h ((owner_pays h).mpr rfl)

/-- Seven tokens attached to the instantiation and three to a send, two sent by a stranger: the controller of the scenario
holds twelve, whatever comes next. -/
example : ∃ b, PayExec Ex.api Ex.w0 (fun _ => 0)
      [.transaction (.instantiate "deployer" Ex.inst "channel-0" true) [⟨"stake", ⟨7, by decide⟩⟩],
       .deposit [⟨"stake", ⟨2, by decide⟩⟩], .transaction (.relayOpenAck "channel-0" "channel-5" Ex.ver) [],
       .transaction (.execute "alice" (.sendCosmosMsgs Ex.msgs Ex.qs (some "hi") none) "" true)
         [⟨"stake", ⟨3, by decide⟩⟩]] Ex.w3 b ∧ b "stake" = 12 ∧
    ∀ l w b', PayExec Ex.api Ex.w3 b l w b' → 12 ≤ b' "stake" := by
  have c1 := (apply_iff_step (inv_of_reachable Ex.r0)).mpr Ex.s1
  have c2 := (apply_iff_step (inv_of_reachable Ex.r1)).mpr Ex.s2
  have c3 := (apply_iff_step (inv_of_reachable Ex.r2)).mpr Ex.s3
  have e := PayExec.step (PayExec.step (PayExec.step (PayExec.step (.nil (api := Ex.api) (w0 := Ex.w0) (b0 := fun _ => 0))
    (C101_taken c1 rfl _ [⟨"stake", ⟨7, by decide⟩⟩])) (.deposit (cs := [⟨"stake", ⟨2, by decide⟩⟩])))
    (.transaction (cs := []) (.inr rfl) c2 ((commits_pays c2).mpr rfl))) (C101_taken c3 rfl _ [⟨"stake", ⟨3, by decide⟩⟩])
  refine ⟨_, e, C101_kept e _, fun l w b' h => ?_⟩
  rw [C101_kept h, C101_kept e]
  exact Nat.le_add_right _ _

open Owner in
/-- The owner contract takes coins with its instantiation and keeps them. -/
example : ∃ b', OPayExec Ex.api (OWorld.genesis "wasm1owner" 1700000000000000000 Ex.addrApi
      (fun n => if n = 7 then some (List.replicate 32 1) else none) (fun _ => false)) (fun _ => 1)
      [.transaction (.instantiate "boss" ⟨none, 7⟩) [⟨"stake", ⟨5, by decide⟩⟩]] Ex.o0 b' ∧ b' "stake" = 6 :=
  ⟨_, .step .nil (C101_owner_taken (op := .instantiate "boss" ⟨none, 7⟩) (w' := Ex.o0) (ms := []) rfl rfl _ _), rfl⟩

end Ica
