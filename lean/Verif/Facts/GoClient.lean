import Verif.Spec.GoClient
import Verif.Model.GoClient
import Verif.Facts.ApiBase
import Verif.Facts.FormatJson

/-!
# The text of the Go client means what the Go values mean (for C100)
-/
namespace Ica
open Format GoClient

/-! ## The text of a tree -/

theorem isHex_hexDigit {d : Nat} (h : d < 16) : IsHex d (hexDigit d) := by
  have : d = 0 ∨ d = 1 ∨ d = 2 ∨ d = 3 ∨ d = 4 ∨ d = 5 ∨ d = 6 ∨ d = 7 ∨ d = 8 ∨ d = 9 ∨ d = 10 ∨ d = 11 ∨ d = 12 ∨
    d = 13 ∨ d = 14 ∨ d = 15 := by omega
  rcases this with rfl | rfl | rfl | rfl | rfl | rfl | rfl | rfl | rfl | rfl | rfl | rfl | rfl | rfl | rfl | rfl <;>
    exact .inl (by decide)

theorem isChar_unicodeEsc {c : Char} (h : c.toNat < 65536) : IsChar c (unicodeEsc c.toNat) := by
  refine IsChar.unicode c _ ⟨_, _, _, _, _, _, _, _, rfl, isHex_hexDigit (Nat.mod_lt _ (by decide)),
    isHex_hexDigit (Nat.mod_lt _ (by decide)), isHex_hexDigit (Nat.mod_lt _ (by decide)), isHex_hexDigit (Nat.mod_lt _ (by decide)), ?_⟩
  omega

theorem char_eq_of_toNat {c : Char} {n : Nat} (h : c.toNat = n) : c = Char.ofNat n := by
  subst h; exact (Char.ofNat_toNat c).symm

theorem isChar_escape (c : Char) : IsChar c (escape c) := by
  unfold escape
  split
  · subst_vars; exact .short _ _ (by decide)
  split
  · subst_vars; exact .short _ _ (by decide)
  split
  · rename_i h; rw [char_eq_of_toNat h]; exact .short _ _ (by decide)
  split
  · rename_i h; rw [char_eq_of_toNat h]; exact .short _ _ (by decide)
  split
  · rename_i h; rw [char_eq_of_toNat h]; exact .short _ _ (by decide)
  split
  · rename_i h; rw [char_eq_of_toNat h]; exact .short _ _ (by decide)
  split
  · rename_i h; rw [char_eq_of_toNat h]; exact .short _ _ (by decide)
  split
  · rename_i h
    refine isChar_unicodeEsc ?_
    rcases h with h | rfl | rfl | rfl | h | h
    · omega
    · decide
    · decide
    · decide
    · omega
    · omega
  · rename_i h1 h2 _ _ _ _ _ h
    exact .plain c (by omega) h2 h1

theorem isChars_escape : ∀ l : List Char, IsChars l (l.flatMap escape)
  | [] => .nil
  | c :: l => by rw [List.flatMap_cons]; exact .cons (isChar_escape c) (isChars_escape l)

theorem isString_quote (s : String) : IsString s (quote s) := ⟨_, isChars_escape _, rfl⟩

theorem ws_nil : Ws [] := fun _ h => by cases h

mutual
theorem isJson_text : ∀ j : Json, IsJson j (text j)
  | .null => .null
  | .bool true => .true
  | .bool false => .false
  | .num n => .num (isNatural_decChars n)
  | .str s => .str (isString_quote s)
  | .arr [] => .arrEmpty ws_nil
  | .arr (x :: xs) => by
    obtain ⟨u, h1, h2⟩ := isElements_text xs x (isJson_text x)
    rw [text, h1]; exact .arr h2
  | .obj [] => .objEmpty ws_nil
  | .obj ((k, v) :: fs) => by
    obtain ⟨u, h1, h2⟩ := isMembers_text fs k v (isJson_text v)
    rw [text, h1]; exact .obj h2
theorem isElements_text : ∀ (xs : List Json) (x : Json) {t : List Char}, IsJson x t →
    ∃ u, t ++ elements xs = u ++ [']'] ∧ IsElements (x :: xs) u
  | [], x, t, h => ⟨t, rfl, by simpa using IsElements.one ws_nil h ws_nil⟩
  | y :: ys, x, t, h => by
    obtain ⟨u, h1, h2⟩ := isElements_text ys y (isJson_text y)
    refine ⟨t ++ ',' :: u, ?_, by simpa using IsElements.cons ws_nil h ws_nil h2⟩
    rw [elements, h1]; simp
theorem isMembers_text : ∀ (fs : List (String × Json)) (k : String) (v : Json) {t : List Char}, IsJson v t →
    ∃ u, quote k ++ ':' :: (t ++ members fs) = u ++ ['}'] ∧ IsMembers ((k, v) :: fs) u
  | [], k, v, t, h => ⟨quote k ++ ':' :: t, by simp [members],
      by simpa using IsMembers.one ws_nil (isString_quote k) ws_nil ws_nil h ws_nil⟩
  | (l, w) :: fs, k, v, t, h => by
    obtain ⟨u, h1, h2⟩ := isMembers_text fs l w (isJson_text w)
    refine ⟨quote k ++ ':' :: (t ++ ',' :: u), ?_,
      by simpa using IsMembers.cons ws_nil (isString_quote k) ws_nil ws_nil h ws_nil h2⟩
    rw [members, h1]; simp
end

theorem isDocument_text (j : Json) : IsDocument j (text j) := ⟨[], _, [], ws_nil, isJson_text j, ws_nil, by simp⟩

/-! ## Members -/

namespace Go
open Api GoMeans

/-- The only member is `tag`. -/
def OneOf (tag : String) (l : List (String × Option Json)) (Q : Json → Prop) : Prop := ∃ v, present l = [(tag, v)] ∧ Q v
/-- No member. -/
def AllNone : List (String × Option Json) → Prop
  | [] => True
  | (_, o) :: l => o = none ∧ AllNone l
theorem present_nil_iff : ∀ l, present l = [] ↔ AllNone l
  | [] => by simp [present, AllNone]
  | (k, none) :: l => by simp [present, AllNone, present_nil_iff l]
  | (k, some j) :: l => by simp [present, AllNone]

theorem variant_present {tag : String} {Q : Json → Prop} {l} : Api.Variant tag Q (.obj (present l)) ↔ OneOf tag l Q := by
  unfold Api.Variant OneOf; simp

theorem oneOf_ne {k tag : String} (h : k ≠ tag) {o l Q} : OneOf tag ((k, o) :: l) Q ↔ o = none ∧ OneOf tag l Q := by
  cases o <;> simp [OneOf, present, h]

theorem oneOf_eq {α : Type} {tag : String} {o : Option α} {f : α → Json} {l} {Q : Json → Prop} :
    OneOf tag ((tag, o.map f) :: l) Q ↔ (∃ x, o = some x ∧ AllNone l ∧ Q (f x)) ∨ (o = none ∧ OneOf tag l Q) := by
  cases o with
  | none => simp [OneOf, present]
  | some x => simp [OneOf, present, present_nil_iff, and_comm, eq_comm]
theorem oneOf_nil {tag : String} {Q : Json → Prop} : OneOf tag [] Q ↔ False := by simp [OneOf, present]

theorem open_iff {Q : Members → Prop} {fs : Members} : Open Q (.obj fs) ↔ Q fs := by simp [Open]

theorem closed_iff {keys : List String} {Q : Members → Prop} {l} :
    Closed keys Q (.obj (present l)) ↔ (∀ p ∈ present l, p.1 ∈ keys) ∧ Q (present l) := by
  unfold Closed
  constructor
  · rintro ⟨fs, e, hk, hq⟩
    cases e; exact ⟨hk, hq⟩
  · exact fun hq => ⟨_, rfl, hq⟩
theorem keys_nil {keys : List String} : (∀ p ∈ present [], p.1 ∈ keys) ↔ True := by simp [present]
theorem keys_cons {keys : List String} {k : String} {o l} (h : k ∈ keys) :
    (∀ p ∈ present ((k, o) :: l), p.1 ∈ keys) ↔ ∀ p ∈ present l, p.1 ∈ keys := by
  cases o with
  | none => rfl
  | some j => simp [present, h]

theorem member_ne {k k' : String} (h : k' ≠ k) {o l j} : Member (present ((k', o) :: l)) k j ↔ Member (present l) k j := by
  cases o with
  | none => rfl
  | some x => unfold Member; simp only [present]; rw [List.filter_cons_of_neg (by simpa using h)]
theorem absent_ne {k k' : String} (h : k' ≠ k) {o l} : Absent (present ((k', o) :: l)) k ↔ Absent (present l) k := by
  cases o with
  | none => rfl
  | some x => unfold Absent; simp only [present]; rw [List.filter_cons_of_neg (by simpa using h)]
theorem absent_nil {k : String} : Absent (present []) k ↔ True := by simp [Absent, present]
theorem member_eq {k : String} {o l j} (h : Absent (present l) k) : Member (present ((k, o) :: l)) k j ↔ o = some j := by
  unfold Absent at h
  cases o with
  | none => unfold Member; simp only [present]; rw [h]; simp
  | some x => unfold Member; simp only [present]; rw [List.filter_cons_of_pos (by simp), h]; simp
theorem absent_eq {k : String} {o l} (h : Absent (present l) k) : Absent (present ((k, o) :: l)) k ↔ o = none := by
  unfold Absent at h
  cases o with
  | none => unfold Absent; simp only [present]; rw [h]; simp
  | some x => unfold Absent; simp only [present]; rw [List.filter_cons_of_pos (by simp)]; simp

theorem has_ne {α : Type} {r : Shape α} {k k' : String} (h : k' ≠ k) {o l x} :
    Has r (present ((k', o) :: l)) k x ↔ Has r (present l) k x := by unfold Has; simp only [member_ne h]
theorem has_eq {α : Type} {r : Shape α} {k : String} {j l x} (h : Absent (present l) k) :
    Has r (present ((k, some j) :: l)) k x ↔ r j x := by
  unfold Has; simp only [member_eq h, Option.some.injEq, exists_eq_left']
theorem may_ne {α : Type} {r : Shape α} {k k' : String} (h : k' ≠ k) {o l x} :
    May r (present ((k', o) :: l)) k x ↔ May r (present l) k x := by unfold May; simp only [has_ne h, absent_ne h]
theorem may_eq {α β : Type} {r : Shape β} {k : String} {o : Option α} {f : α → Json} {l x} (h : Absent (present l) k)
    (hf : ∀ a, f a ≠ .null) : May r (present ((k, o.map f) :: l)) k x ↔ Pointer (fun a b => r (f a) b) o x := by
  unfold May Has Nullable Pointer
  simp only [member_eq h, absent_eq h]
  cases o with
  | none => simp
  | some a => simp [hf a, and_comm]
theorem hasArray_ne {α : Type} {r : Shape α} {k k' : String} (h : k' ≠ k) {o l x} :
    HasArray r (present ((k', o) :: l)) k x ↔ HasArray r (present l) k x := by unfold HasArray; simp only [has_ne h]
theorem mayArray_ne {α : Type} {r : Shape α} {k k' : String} (h : k' ≠ k) {o l x} :
    MayArray r (present ((k', o) :: l)) k x ↔ MayArray r (present l) k x := by unfold MayArray; simp only [may_ne h]

theorem many_iff {α β : Type} {r : Shape β} {f : α → Json} {o : Option (List α)} {x : List β} :
    Many r (sliceJson f o) x ↔ Slice (fun a b => r (f a) b) o x := by
  unfold Many Slice sliceJson
  cases o with
  | none => simp
  | some l => simp [List.forall₂_map_left_iff]

theorem hasArray_eq {α β : Type} {r : Shape β} {k : String} {f : α → Json} {o : Option (List α)} {l} {x : List β} (h : Absent (present l) k) :
    HasArray r (present ((k, some (sliceJson f o)) :: l)) k x ↔ SliceOrNil (fun a b => r (f a) b) o x := by
  unfold HasArray SliceOrNil Nullable
  simp only [has_eq h, many_iff]
  cases o with
  | none => simp [sliceJson, Slice]
  | some l => simp [sliceJson, Slice]
theorem mayArray_eq {α β : Type} {r : Shape β} {k : String} {f : α → Json} {o : Option (List α)} {l} {x : List β} (h : Absent (present l) k) :
    MayArray r (present ((k, some (sliceJson f o)) :: l)) k x ↔ SliceOrNil (fun a b => r (f a) b) o x := by
  rw [← hasArray_eq h]
  unfold MayArray HasArray May
  simp [absent_eq h]

theorem pointer_eq {α : Type} {o x : Option α} : Pointer (fun a b => a = b) o x ↔ o = x := by
  cases o <;> cases x <;> simp [Pointer]
theorem text_iff {s x : String} : Text (.str s) x ↔ s = x := by simp [Text]
theorem num_iff {i : Nat} {n : UInt64} : Num64 (.num i) n ↔ Num i n := by simp [Num64, Num]
theorem num32_iff {i : Nat} {n : UInt32} : Num32 (.num i) n ↔ i = n.toNat := by simp [Num32]
theorem truth_iff {a b : Bool} : Truth (.bool a) b ↔ a = b := by simp [Truth]

/-! ## Types -/

/-- The members of unions and structures. -/
macro "go_members" "[" ls:Lean.Parser.Tactic.simpLemma,* "]" : tactic => `(tactic|
  simp +decide only [variant_present, oneOf_ne, oneOf_eq, oneOf_nil, AllNone, absent_nil, absent_ne, keys_nil, keys_cons,  open_iff, closed_iff, has_ne, has_eq, may_ne, may_eq, hasArray_ne,
    hasArray_eq, mayArray_ne, mayArray_eq, many_iff, text_iff, num_iff, num32_iff, truth_iff, pointer_eq, Option.map_eq_none_iff, ne_eq,
    not_false_eq_true, and_true, true_and, and_false, or_false, implies_true, reduceCtorEq, $ls,*])

theorem coin_iff (g : GoController.Coin) (c : Ica.Coin) : Api.Coin g.json c ↔ Coins g c := by
  unfold Api.Coin GoController.Coin.json Coins Spelled
  go_members []

theorem bank_iff (g : GoController.BankMsg) (m : Ica.BankMsg) : Api.Bank g.json m ↔ GoMeans.Bank g m := by
  cases g; cases m
  all_goals
    unfold Api.Bank GoController.BankMsg.json GoMeans.Bank
    try unfold GoController.BankMsg_Send.json
    try unfold GoController.BankMsg_Burn.json
    go_members [coin_iff]
    try simp only [GoController.BankMsg.mk.injEq, and_assoc, exists_and_left]

theorem staking_iff (g : GoController.StakingMsg) (m : Ica.StakingMsg) : Api.Staking g.json m ↔ GoMeans.Staking g m := by
  cases g; cases m
  all_goals
    unfold Api.Staking GoController.StakingMsg.json GoMeans.Staking
    try unfold GoController.StakingMsg_Delegate.json
    try unfold GoController.StakingMsg_Undelegate.json
    try unfold GoController.StakingMsg_Redelegate.json
    go_members [coin_iff]
    try simp only [GoController.StakingMsg.mk.injEq, and_assoc, exists_and_left]

theorem distribution_iff (g : GoController.DistributionMsg) (m : Ica.DistributionMsg) : Api.Distribution g.json m ↔ GoMeans.Distribution g m := by
  cases g; cases m
  all_goals
    unfold Api.Distribution GoController.DistributionMsg.json GoMeans.Distribution
    try unfold GoController.DistributionMsg_SetWithdrawAddress.json
    try unfold GoController.DistributionMsg_WithdrawDelegatorReward.json
    try unfold GoController.DistributionMsg_FundCommunityPool.json
    go_members [coin_iff]
    try simp only [GoController.DistributionMsg.mk.injEq, and_assoc, exists_and_left]

theorem timeout_iff (g : GoController.IbcTimeout) (t : Ica.IbcTimeout) : Api.Timeout g.json t ↔ GoMeans.Timeout g t := by
  unfold Api.Timeout Api.TimeoutBlock GoController.IbcTimeout.json GoMeans.Timeout GoController.IbcTimeoutBlock.json Spelled
  go_members []

theorem ibc_iff (g : GoController.IbcMsg) (m : Ica.IbcMsg) : Api.Ibc g.json m ↔ GoMeans.Ibc g m := by
  cases g; cases m
  all_goals
    unfold Api.Ibc GoController.IbcMsg.json GoMeans.Ibc
    try unfold GoController.IbcMsg_Transfer.json
    try unfold GoController.IbcMsg_SendPacket.json
    try unfold GoController.IbcMsg_CloseChannel.json
    go_members [coin_iff, timeout_iff, Spelled]
    try simp only [GoController.IbcMsg.mk.injEq, and_assoc, exists_and_left]

theorem wasm_iff (g : GoController.WasmMsg) (m : Ica.WasmMsg) : Api.Wasm g.json m ↔ GoMeans.Wasm g m := by
  cases g; cases m
  all_goals
    unfold Api.Wasm GoController.WasmMsg.json GoMeans.Wasm
    try unfold GoController.WasmMsg_Execute.json
    try unfold GoController.WasmMsg_Instantiate.json
    try unfold GoController.WasmMsg_Instantiate2.json
    try unfold GoController.WasmMsg_Migrate.json
    try unfold GoController.WasmMsg_UpdateAdmin.json
    try unfold GoController.WasmMsg_ClearAdmin.json
    go_members [coin_iff, Spelled]
    try simp only [GoController.WasmMsg.mk.injEq, and_assoc, exists_and_left]

theorem vote_iff (s : String) (v : Ica.VoteOption) : Api.Vote (.str s) v ↔ GoMeans.Vote s v := by
  cases v <;> simp [Api.Vote, GoMeans.Vote]

theorem gov_iff (g : GoController.GovMsg) (m : Ica.GovMsg) : Api.Gov g.json m ↔ GoMeans.Gov g m := by
  cases g; cases m
  all_goals
    unfold Api.Gov GoController.GovMsg.json GoMeans.Gov
    try unfold GoController.GovMsg_Vote.json
    try unfold GoController.GovMsg_VoteWeighted.json
    try unfold GoController.WeightedVoteOption.json
    go_members [vote_iff, Spelled, Api.WeightedVote]
    try simp only [GoController.GovMsg.mk.injEq, and_assoc, exists_and_left]

theorem anything_iff (g : GoController.Empty) (x : Ica.Empty) : Api.Anything g.json x ↔ True := by
  simp [Api.Anything, GoController.Empty.json, Open]

theorem cosmos_iff (g : GoController.CosmosMsg_for_Empty) (m : Ica.CosmosMsg) : Api.Cosmos g.json m ↔ GoMeans.Cosmos g m := by
  cases g; cases m
  all_goals
    unfold Api.Cosmos GoController.CosmosMsg_for_Empty.json GoMeans.Cosmos
    try unfold GoController.CosmosMsg_for_Empty_Stargate.json
    go_members [bank_iff, staking_iff, distribution_iff, ibc_iff, wasm_iff, gov_iff, Spelled, anything_iff]
    try simp only [GoController.CosmosMsg_for_Empty.mk.injEq, and_assoc, exists_and_left]

theorem page_iff (g : GoController.PageRequest) (p : Ica.PageRequest) : Api.Page g.json p ↔
    Pointer (Spelled Api.Base64) g.Key p.key ∧ g.Limit = p.limit.toNat ∧ g.Reverse = p.reverse := by
  unfold Api.Page GoController.PageRequest.json
  go_members []
  exact Iff.rfl

theorem page_nn (g : GoController.PageRequest) : g.json = .null ↔ False := by simp [GoController.PageRequest.json]
theorem options_nn (g : GoController.ChannelOpenInitOptions) : g.json = .null ↔ False := by
  simp [GoController.ChannelOpenInitOptions.json]

theorem bankQ_iff (g : GoController.BankQuery) (m : Ica.BankQuery) : Api.BankQ g.json m ↔ GoMeans.BankQ g m := by
  cases g; cases m
  all_goals
    unfold Api.BankQ GoController.BankQuery.json GoMeans.BankQ
    try unfold GoController.BankQuery_Supply.json
    try unfold GoController.BankQuery_Balance.json
    try unfold GoController.BankQuery_AllBalances.json
    try unfold GoController.BankQuery_DenomMetadata.json
    try unfold GoController.BankQuery_AllDenomMetadata.json
    go_members [page_iff, page_nn]
    try simp only [GoController.BankQuery.mk.injEq, and_assoc, exists_and_left]

theorem stakingQ_iff (g : GoController.StakingQuery) (m : Ica.StakingQuery) : Api.StakingQ g.json m ↔ GoMeans.StakingQ g m := by
  cases g; cases m
  all_goals
    unfold Api.StakingQ GoController.StakingQuery.json GoMeans.StakingQ
    try unfold GoController.StakingQuery_BondedDenom.json
    try unfold GoController.StakingQuery_AllDelegations.json
    try unfold GoController.StakingQuery_Delegation.json
    try unfold GoController.StakingQuery_AllValidators.json
    try unfold GoController.StakingQuery_Validator.json
    go_members []
    try simp only [GoController.StakingQuery.mk.injEq, and_assoc, exists_and_left]

theorem distributionQ_iff (g : GoController.DistributionQuery) (m : Ica.DistributionQuery) : Api.DistributionQ g.json m ↔ GoMeans.DistributionQ g m := by
  cases g; cases m
  all_goals
    unfold Api.DistributionQ GoController.DistributionQuery.json GoMeans.DistributionQ
    try unfold GoController.DistributionQuery_DelegatorWithdrawAddress.json
    try unfold GoController.DistributionQuery_DelegationRewards.json
    try unfold GoController.DistributionQuery_DelegationTotalRewards.json
    try unfold GoController.DistributionQuery_DelegatorValidators.json
    go_members []
    try simp only [GoController.DistributionQuery.mk.injEq, and_assoc, exists_and_left]

theorem ibcQ_iff (g : GoController.IbcQuery) (m : Ica.IbcQuery) : Api.IbcQ g.json m ↔ GoMeans.IbcQ g m := by
  cases g; cases m
  all_goals
    unfold Api.IbcQ GoController.IbcQuery.json GoMeans.IbcQ
    try unfold GoController.IbcQuery_PortId.json
    try unfold GoController.IbcQuery_ListChannels.json
    try unfold GoController.IbcQuery_Channel.json
    go_members []
    try simp only [GoController.IbcQuery.mk.injEq, and_assoc, exists_and_left]

theorem wasmQ_iff (g : GoController.WasmQuery) (m : Ica.WasmQuery) : Api.WasmQ g.json m ↔ GoMeans.WasmQ g m := by
  cases g; cases m
  all_goals
    unfold Api.WasmQ GoController.WasmQuery.json GoMeans.WasmQ
    try unfold GoController.WasmQuery_Smart.json
    try unfold GoController.WasmQuery_Raw.json
    try unfold GoController.WasmQuery_ContractInfo.json
    try unfold GoController.WasmQuery_CodeInfo.json
    go_members [Spelled]
    try simp only [GoController.WasmQuery.mk.injEq, and_assoc, exists_and_left]

theorem query_iff (g : GoController.QueryRequest_for_Empty) (m : Ica.QueryRequest) : Api.Query g.json m ↔ GoMeans.Query g m := by
  cases g; cases m
  all_goals
    unfold Api.Query GoController.QueryRequest_for_Empty.json GoMeans.Query
    try unfold GoController.QueryRequest_for_Empty_Stargate.json
    go_members [bankQ_iff, stakingQ_iff, distributionQ_iff, ibcQ_iff, wasmQ_iff, Spelled, anything_iff]
    try simp only [GoController.QueryRequest_for_Empty.mk.injEq, and_assoc, exists_and_left]

theorem order_iff (s : String) (o : Ica.IbcOrder) : Api.Order (.str s) o ↔ GoMeans.Order s o := by
  cases o <;> simp [Api.Order, GoMeans.Order]

theorem options_iff (g : GoController.ChannelOpenInitOptions) (o : Ica.ChannelOpenInitOptions) :
    Api.Options g.json o ↔ GoMeans.Options g o := by
  unfold Api.Options GoController.ChannelOpenInitOptions.json GoMeans.Options
  go_members [order_iff]

theorem instantiate_iff (g : GoController.InstantiateMsg) (m : Ica.InstantiateMsg) :
    Api.Instantiate g.json m ↔ GoMeans.Instantiate g m := by
  unfold Api.Instantiate GoController.InstantiateMsg.json GoMeans.Instantiate
  go_members [options_iff]

theorem queryMessage_iff (g : GoController.QueryMsg) (m : Ica.QueryMsg) : Api.QueryMessage g.json m ↔ GoMeans.QueryMessage g m := by
  cases g; cases m
  all_goals
    unfold Api.QueryMessage GoController.QueryMsg.json GoMeans.QueryMessage
    try unfold GoController.QueryMsg_GetChannel.json
    try unfold GoController.QueryMsg_GetContractState.json
    try unfold GoController.QueryMsg_Ownership.json
    go_members []
    try simp only [GoController.QueryMsg.mk.injEq, exists_and_left]

theorem expiry_iff (g : GoController.Expiration) (e : Ica.Expiration) : Api.Expiry g.json e ↔ GoMeans.Expiry g e := by
  cases g; cases e
  all_goals
    unfold Api.Expiry GoController.Expiration.json GoMeans.Expiry
    try unfold GoController.Expiration_Never.json
    go_members [Spelled]
    try simp only [GoController.Expiration.mk.injEq, and_assoc, exists_and_left]

/-- The only member is not what an offer is called. -/
theorem offer_unread (x : GoController.Action_TransferOwnership) (a : Ica.Action) : ¬ Api.OwnershipAction x.json a := by
  obtain ⟨o, e⟩ := x
  cases a
  · simp only [Api.OwnershipAction, GoController.Action_TransferOwnership.json, variant_present, OneOf]
    simp [present]
  · simp [Api.OwnershipAction, GoController.Action_TransferOwnership.json]
  · simp [Api.OwnershipAction, GoController.Action_TransferOwnership.json]

theorem ownership_iff (g : GoController.Action) (a : Ica.Action) :
    Api.OwnershipAction g.json a ↔ GoMeans.Ownership g a ∧ ¬ ∃ x, g = .transferOwnership x := by
  cases g with
  | transferOwnership x => simp [GoController.Action.json, offer_unread]
  | nil => cases a <;> simp [GoController.Action.json, Api.OwnershipAction, GoMeans.Ownership, Api.Variant]
  | acceptOwnership s => cases a <;> simp [GoController.Action.json, Api.OwnershipAction, GoMeans.Ownership, Api.Variant]
  | renounceOwnership s => cases a <;> simp [GoController.Action.json, Api.OwnershipAction, GoMeans.Ownership, Api.Variant]

theorem execute_iff (g : GoController.ExecuteMsg) (m : Ica.ExecuteMsg) :
    Api.Execute g.json m ↔ GoMeans.Execute g m ∧ ¬ Offers g := by
  obtain ⟨a, b, c, d, u⟩ := g
  cases m
  all_goals
    unfold Api.Execute GoController.ExecuteMsg.json GoMeans.Execute Offers
    try unfold GoController.ExecuteMsg_CreateChannel.json
    try unfold GoController.ExecuteMsg_CloseChannel.json
    try unfold GoController.ExecuteMsg_SendCosmosMsgs.json
    try unfold GoController.ExecuteMsg_UpdateCallbackAddress.json
    go_members [options_iff, options_nn, cosmos_iff, query_iff, ownership_iff]
    try simp only [GoController.ExecuteMsg.mk.injEq, and_assoc, exists_and_left]
  all_goals cases u <;> simp

theorem ownerOptions_iff (g : GoOwner.ChannelOpenInitOptions) (o : Ica.ChannelOpenInitOptions) :
    Api.Options g.json o ↔ GoMeans.OwnerOptions g o := by
  unfold Api.Options GoOwner.ChannelOpenInitOptions.json GoMeans.OwnerOptions
  go_members [order_iff]

theorem ownerInstantiate_iff (g : GoOwner.InstantiateMsg) (m : Owner.InstantiateMsg) :
    Api.OwnerInstantiate g.json m ↔ GoMeans.OwnerInstantiate g m := by
  unfold Api.OwnerInstantiate GoOwner.InstantiateMsg.json GoMeans.OwnerInstantiate
  go_members []

theorem ownerCall_iff (g : GoOwner.ExecuteMsg) (m : Owner.OwnMsg) : Api.OwnerCall g.json m ↔ GoMeans.OwnerCall g m := by
  cases g; cases m
  all_goals
    unfold Api.OwnerCall GoOwner.ExecuteMsg.json GoMeans.OwnerCall
    try unfold GoOwner.ExecuteMsg_CreateIcaContract.json
    try unfold GoOwner.ExecuteMsg_SendPredefinedAction.json
    go_members [ownerOptions_iff]
    try simp only [GoOwner.ExecuteMsg.mk.injEq, and_assoc, exists_and_left]

theorem ownerQuery_iff (g : GoOwner.QueryMsg) (m : Owner.QueryMsg) : Api.OwnerQuery g.json m ↔ GoMeans.OwnerQuery g m := by
  cases g; cases m
  all_goals
    unfold Api.OwnerQuery GoOwner.QueryMsg.json GoMeans.OwnerQuery
    try unfold GoOwner.QueryMsg_GetContractState.json
    try unfold GoOwner.QueryMsg_GetIcaContractState.json
    try unfold GoOwner.QueryMsg_GetIcaCount.json
    go_members []
    try simp only [GoOwner.QueryMsg.mk.injEq, and_assoc, exists_and_left]

end Go
end Ica
