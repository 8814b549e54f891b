import Verif.Facts.ApiBase

/-!
# The codecs read the interface (helper lemmas for C69)

Generated by `tools/gen_api.py`; the shapes are those of `Verif/Spec/Api.lean`.
-/
set_option linter.unusedSimpArgs false
set_option linter.unusedVariables false
namespace Ica
open Api Lean Meta

/-- A match that passes `none` on is a bind. -/
simproc_decl matchToBind (_) := fun e => do
  let some m ← matchMatcherApp? e | return .continue
  unless m.discrs.size = 1 && m.alts.size = 2 && m.remaining.size = 0 do return .continue
  let d := m.discrs[0]!
  let t ← whnfR (← inferType d)
  unless t.isAppOfArity ``Option 1 do return .continue
  let r ← whnfR (← inferType e)
  unless r.isAppOfArity ``Option 1 do return .continue
  let e' ← mkAppM ``Option.bind #[d, m.alts[1]!]
  return .visit { expr := e', proof? := none }

theorem Coin_reads : Reads Coin.jc Api.Coin := by
  intro j m
  constructor
  · intro h
    simp only [Coin.jc, matchToBind] at h
    obtain ⟨fs, hg, g0⟩ := Option.bind_eq_some_iff.mp h
    obtain ⟨rfl, hk⟩ := getObj_open.mp hg
    obtain ⟨x0, h0, g1⟩ := Option.bind_eq_some_iff.mp g0
    obtain ⟨x1, h1, g2⟩ := Option.bind_eq_some_iff.mp g1
    cases g2
    exact ⟨fs, rfl, (reqF_iff reads_text (hk _ (by simp))).mp h0, (reqF_iff reads_quoted128 (hk _ (by simp))).mp h1⟩
  · rintro ⟨fs, rfl, h0, h1⟩
    have c0 := has_count h0
    replace h0 := (reqF_iff reads_text c0).mpr h0
    have c1 := has_count h1
    replace h1 := (reqF_iff reads_quoted128 c1).mpr h1
    have hg : getObj false ["denom", "amount"] (.obj fs) = some fs := getObj_open.mpr ⟨rfl, by simp [c0, c1]⟩
    simp [Coin.jc, hg, h0, h1]

theorem IbcOrder_reads : Reads IbcOrder.jc Api.Order := by
  intro j m
  constructor
  · intro h
    simp only [IbcOrder.jc, matchToBind] at h
    split at h
    · split at h
      · next hk => subst hk; cases h; rfl
      · split at h
        · next hk => subst hk; cases h; rfl
        · cases h
    · cases h
  · cases m with
    | unordered => rintro rfl; simp [IbcOrder.jc]
    | ordered => rintro rfl; simp [IbcOrder.jc]

theorem IbcTimeoutBlock_reads : Reads IbcTimeoutBlock.jc Api.TimeoutBlock := by
  intro j m
  constructor
  · intro h
    simp only [IbcTimeoutBlock.jc, matchToBind] at h
    obtain ⟨fs, hg, g0⟩ := Option.bind_eq_some_iff.mp h
    obtain ⟨rfl, hk⟩ := getObj_open.mp hg
    obtain ⟨x0, h0, g1⟩ := Option.bind_eq_some_iff.mp g0
    obtain ⟨x1, h1, g2⟩ := Option.bind_eq_some_iff.mp g1
    cases g2
    exact ⟨fs, rfl, (reqF_iff reads_num64 (hk _ (by simp))).mp h0, (reqF_iff reads_num64 (hk _ (by simp))).mp h1⟩
  · rintro ⟨fs, rfl, h0, h1⟩
    have c0 := has_count h0
    replace h0 := (reqF_iff reads_num64 c0).mpr h0
    have c1 := has_count h1
    replace h1 := (reqF_iff reads_num64 c1).mpr h1
    have hg : getObj false ["revision", "height"] (.obj fs) = some fs := getObj_open.mpr ⟨rfl, by simp [c0, c1]⟩
    simp [IbcTimeoutBlock.jc, hg, h0, h1]

theorem IbcTimeout_reads : Reads IbcTimeout.jc Api.Timeout := by
  intro j m
  constructor
  · intro h
    simp only [IbcTimeout.jc, matchToBind] at h
    obtain ⟨fs, hg, g0⟩ := Option.bind_eq_some_iff.mp h
    obtain ⟨rfl, hk⟩ := getObj_open.mp hg
    obtain ⟨x0, h0, g1⟩ := Option.bind_eq_some_iff.mp g0
    obtain ⟨x1, h1, g2⟩ := Option.bind_eq_some_iff.mp g1
    cases g2
    exact ⟨fs, rfl, (optF_iff IbcTimeoutBlock_reads (hk _ (by simp))).mp h0, (optF_iff reads_quoted64 (hk _ (by simp))).mp h1⟩
  · rintro ⟨fs, rfl, h0, h1⟩
    have c0 := may_count h0
    replace h0 := (optF_iff IbcTimeoutBlock_reads c0).mpr h0
    have c1 := may_count h1
    replace h1 := (optF_iff reads_quoted64 c1).mpr h1
    have hg : getObj false ["block", "timestamp"] (.obj fs) = some fs := getObj_open.mpr ⟨rfl, by simp [c0, c1]⟩
    simp [IbcTimeout.jc, hg, h0, h1]

theorem BankMsg_reads : Reads BankMsg.jc Api.Bank := by
  intro j m
  constructor
  · intro h
    simp only [BankMsg.jc, matchToBind] at h
    split at h
    · split at h
      · next hk =>
        subst hk
        obtain ⟨fs, hg, g0⟩ := Option.bind_eq_some_iff.mp h
        obtain ⟨rfl, hk⟩ := getObj_open.mp hg
        obtain ⟨x0, h0, g1⟩ := Option.bind_eq_some_iff.mp g0
        obtain ⟨x1, h1, g2⟩ := Option.bind_eq_some_iff.mp g1
        cases g2
        exact ⟨_, rfl, fs, rfl, (reqF_iff reads_text (hk _ (by simp))).mp h0, (reqF_iff (reads_many Coin_reads) (hk _ (by simp))).mp h1⟩
      · split at h
        · next hk =>
          subst hk
          obtain ⟨fs, hg, g0⟩ := Option.bind_eq_some_iff.mp h
          obtain ⟨rfl, hk⟩ := getObj_open.mp hg
          obtain ⟨x0, h0, g1⟩ := Option.bind_eq_some_iff.mp g0
          cases g1
          exact ⟨_, rfl, fs, rfl, (reqF_iff (reads_many Coin_reads) (hk _ (by simp))).mp h0⟩
        · cases h
    · cases h
  · cases m with
    | send y0 y1 =>
      rintro ⟨v, rfl, fs, rfl, h0, h1⟩
      have c0 := has_count h0
      replace h0 := (reqF_iff reads_text c0).mpr h0
      have c1 := has_count h1
      replace h1 := (reqF_iff (reads_many Coin_reads) c1).mpr h1
      have hg : getObj false ["to_address", "amount"] (.obj fs) = some fs := getObj_open.mpr ⟨rfl, by simp [c0, c1]⟩
      simp [BankMsg.jc, hg, h0, h1]
    | burn y0 =>
      rintro ⟨v, rfl, fs, rfl, h0⟩
      have c0 := has_count h0
      replace h0 := (reqF_iff (reads_many Coin_reads) c0).mpr h0
      have hg : getObj false ["amount"] (.obj fs) = some fs := getObj_open.mpr ⟨rfl, by simp [c0]⟩
      simp [BankMsg.jc, hg, h0]

theorem StakingMsg_reads : Reads StakingMsg.jc Api.Staking := by
  intro j m
  constructor
  · intro h
    simp only [StakingMsg.jc, matchToBind] at h
    split at h
    · split at h
      · next hk =>
        subst hk
        obtain ⟨fs, hg, g0⟩ := Option.bind_eq_some_iff.mp h
        obtain ⟨rfl, hk⟩ := getObj_open.mp hg
        obtain ⟨x0, h0, g1⟩ := Option.bind_eq_some_iff.mp g0
        obtain ⟨x1, h1, g2⟩ := Option.bind_eq_some_iff.mp g1
        cases g2
        exact ⟨_, rfl, fs, rfl, (reqF_iff reads_text (hk _ (by simp))).mp h0, (reqF_iff Coin_reads (hk _ (by simp))).mp h1⟩
      · split at h
        · next hk =>
          subst hk
          obtain ⟨fs, hg, g0⟩ := Option.bind_eq_some_iff.mp h
          obtain ⟨rfl, hk⟩ := getObj_open.mp hg
          obtain ⟨x0, h0, g1⟩ := Option.bind_eq_some_iff.mp g0
          obtain ⟨x1, h1, g2⟩ := Option.bind_eq_some_iff.mp g1
          cases g2
          exact ⟨_, rfl, fs, rfl, (reqF_iff reads_text (hk _ (by simp))).mp h0, (reqF_iff Coin_reads (hk _ (by simp))).mp h1⟩
        · split at h
          · next hk =>
            subst hk
            obtain ⟨fs, hg, g0⟩ := Option.bind_eq_some_iff.mp h
            obtain ⟨rfl, hk⟩ := getObj_open.mp hg
            obtain ⟨x0, h0, g1⟩ := Option.bind_eq_some_iff.mp g0
            obtain ⟨x1, h1, g2⟩ := Option.bind_eq_some_iff.mp g1
            obtain ⟨x2, h2, g3⟩ := Option.bind_eq_some_iff.mp g2
            cases g3
            exact ⟨_, rfl, fs, rfl, (reqF_iff reads_text (hk _ (by simp))).mp h0, (reqF_iff reads_text (hk _ (by simp))).mp h1, (reqF_iff Coin_reads (hk _ (by simp))).mp h2⟩
          · cases h
    · cases h
  · cases m with
    | delegate y0 y1 =>
      rintro ⟨v, rfl, fs, rfl, h0, h1⟩
      have c0 := has_count h0
      replace h0 := (reqF_iff reads_text c0).mpr h0
      have c1 := has_count h1
      replace h1 := (reqF_iff Coin_reads c1).mpr h1
      have hg : getObj false ["validator", "amount"] (.obj fs) = some fs := getObj_open.mpr ⟨rfl, by simp [c0, c1]⟩
      simp [StakingMsg.jc, hg, h0, h1]
    | undelegate y0 y1 =>
      rintro ⟨v, rfl, fs, rfl, h0, h1⟩
      have c0 := has_count h0
      replace h0 := (reqF_iff reads_text c0).mpr h0
      have c1 := has_count h1
      replace h1 := (reqF_iff Coin_reads c1).mpr h1
      have hg : getObj false ["validator", "amount"] (.obj fs) = some fs := getObj_open.mpr ⟨rfl, by simp [c0, c1]⟩
      simp [StakingMsg.jc, hg, h0, h1]
    | redelegate y0 y1 y2 =>
      rintro ⟨v, rfl, fs, rfl, h0, h1, h2⟩
      have c0 := has_count h0
      replace h0 := (reqF_iff reads_text c0).mpr h0
      have c1 := has_count h1
      replace h1 := (reqF_iff reads_text c1).mpr h1
      have c2 := has_count h2
      replace h2 := (reqF_iff Coin_reads c2).mpr h2
      have hg : getObj false ["src_validator", "dst_validator", "amount"] (.obj fs) = some fs := getObj_open.mpr ⟨rfl, by simp [c0, c1, c2]⟩
      simp [StakingMsg.jc, hg, h0, h1, h2]

theorem DistributionMsg_reads : Reads DistributionMsg.jc Api.Distribution := by
  intro j m
  constructor
  · intro h
    simp only [DistributionMsg.jc, matchToBind] at h
    split at h
    · split at h
      · next hk =>
        subst hk
        obtain ⟨fs, hg, g0⟩ := Option.bind_eq_some_iff.mp h
        obtain ⟨rfl, hk⟩ := getObj_open.mp hg
        obtain ⟨x0, h0, g1⟩ := Option.bind_eq_some_iff.mp g0
        cases g1
        exact ⟨_, rfl, fs, rfl, (reqF_iff reads_text (hk _ (by simp))).mp h0⟩
      · split at h
        · next hk =>
          subst hk
          obtain ⟨fs, hg, g0⟩ := Option.bind_eq_some_iff.mp h
          obtain ⟨rfl, hk⟩ := getObj_open.mp hg
          obtain ⟨x0, h0, g1⟩ := Option.bind_eq_some_iff.mp g0
          cases g1
          exact ⟨_, rfl, fs, rfl, (reqF_iff reads_text (hk _ (by simp))).mp h0⟩
        · split at h
          · next hk =>
            subst hk
            obtain ⟨fs, hg, g0⟩ := Option.bind_eq_some_iff.mp h
            obtain ⟨rfl, hk⟩ := getObj_open.mp hg
            obtain ⟨x0, h0, g1⟩ := Option.bind_eq_some_iff.mp g0
            cases g1
            exact ⟨_, rfl, fs, rfl, (reqF_iff (reads_many Coin_reads) (hk _ (by simp))).mp h0⟩
          · cases h
    · cases h
  · cases m with
    | setWithdrawAddress y0 =>
      rintro ⟨v, rfl, fs, rfl, h0⟩
      have c0 := has_count h0
      replace h0 := (reqF_iff reads_text c0).mpr h0
      have hg : getObj false ["address"] (.obj fs) = some fs := getObj_open.mpr ⟨rfl, by simp [c0]⟩
      simp [DistributionMsg.jc, hg, h0]
    | withdrawDelegatorReward y0 =>
      rintro ⟨v, rfl, fs, rfl, h0⟩
      have c0 := has_count h0
      replace h0 := (reqF_iff reads_text c0).mpr h0
      have hg : getObj false ["validator"] (.obj fs) = some fs := getObj_open.mpr ⟨rfl, by simp [c0]⟩
      simp [DistributionMsg.jc, hg, h0]
    | fundCommunityPool y0 =>
      rintro ⟨v, rfl, fs, rfl, h0⟩
      have c0 := has_count h0
      replace h0 := (reqF_iff (reads_many Coin_reads) c0).mpr h0
      have hg : getObj false ["amount"] (.obj fs) = some fs := getObj_open.mpr ⟨rfl, by simp [c0]⟩
      simp [DistributionMsg.jc, hg, h0]

theorem IbcMsg_reads : Reads IbcMsg.jc Api.Ibc := by
  intro j m
  constructor
  · intro h
    simp only [IbcMsg.jc, matchToBind] at h
    split at h
    · split at h
      · next hk =>
        subst hk
        obtain ⟨fs, hg, g0⟩ := Option.bind_eq_some_iff.mp h
        obtain ⟨rfl, hk⟩ := getObj_open.mp hg
        obtain ⟨x0, h0, g1⟩ := Option.bind_eq_some_iff.mp g0
        obtain ⟨x1, h1, g2⟩ := Option.bind_eq_some_iff.mp g1
        obtain ⟨x2, h2, g3⟩ := Option.bind_eq_some_iff.mp g2
        obtain ⟨x3, h3, g4⟩ := Option.bind_eq_some_iff.mp g3
        obtain ⟨x4, h4, g5⟩ := Option.bind_eq_some_iff.mp g4
        cases g5
        exact ⟨_, rfl, fs, rfl, (reqF_iff reads_text (hk _ (by simp))).mp h0, (reqF_iff reads_text (hk _ (by simp))).mp h1, (reqF_iff Coin_reads (hk _ (by simp))).mp h2, (reqF_iff IbcTimeout_reads (hk _ (by simp))).mp h3, (optF_iff reads_text (hk _ (by simp))).mp h4⟩
      · split at h
        · next hk =>
          subst hk
          obtain ⟨fs, hg, g0⟩ := Option.bind_eq_some_iff.mp h
          obtain ⟨rfl, hk⟩ := getObj_open.mp hg
          obtain ⟨x0, h0, g1⟩ := Option.bind_eq_some_iff.mp g0
          obtain ⟨x1, h1, g2⟩ := Option.bind_eq_some_iff.mp g1
          obtain ⟨x2, h2, g3⟩ := Option.bind_eq_some_iff.mp g2
          cases g3
          exact ⟨_, rfl, fs, rfl, (reqF_iff reads_text (hk _ (by simp))).mp h0, (reqF_iff reads_base64 (hk _ (by simp))).mp h1, (reqF_iff IbcTimeout_reads (hk _ (by simp))).mp h2⟩
        · split at h
          · next hk =>
            subst hk
            obtain ⟨fs, hg, g0⟩ := Option.bind_eq_some_iff.mp h
            obtain ⟨rfl, hk⟩ := getObj_open.mp hg
            obtain ⟨x0, h0, g1⟩ := Option.bind_eq_some_iff.mp g0
            cases g1
            exact ⟨_, rfl, fs, rfl, (reqF_iff reads_text (hk _ (by simp))).mp h0⟩
          · cases h
    · cases h
  · cases m with
    | transfer y0 y1 y2 y3 y4 =>
      rintro ⟨v, rfl, fs, rfl, h0, h1, h2, h3, h4⟩
      have c0 := has_count h0
      replace h0 := (reqF_iff reads_text c0).mpr h0
      have c1 := has_count h1
      replace h1 := (reqF_iff reads_text c1).mpr h1
      have c2 := has_count h2
      replace h2 := (reqF_iff Coin_reads c2).mpr h2
      have c3 := has_count h3
      replace h3 := (reqF_iff IbcTimeout_reads c3).mpr h3
      have c4 := may_count h4
      replace h4 := (optF_iff reads_text c4).mpr h4
      have hg : getObj false ["channel_id", "to_address", "amount", "timeout", "memo"] (.obj fs) = some fs := getObj_open.mpr ⟨rfl, by simp [c0, c1, c2, c3, c4]⟩
      simp [IbcMsg.jc, hg, h0, h1, h2, h3, h4]
    | sendPacket y0 y1 y2 =>
      rintro ⟨v, rfl, fs, rfl, h0, h1, h2⟩
      have c0 := has_count h0
      replace h0 := (reqF_iff reads_text c0).mpr h0
      have c1 := has_count h1
      replace h1 := (reqF_iff reads_base64 c1).mpr h1
      have c2 := has_count h2
      replace h2 := (reqF_iff IbcTimeout_reads c2).mpr h2
      have hg : getObj false ["channel_id", "data", "timeout"] (.obj fs) = some fs := getObj_open.mpr ⟨rfl, by simp [c0, c1, c2]⟩
      simp [IbcMsg.jc, hg, h0, h1, h2]
    | closeChannel y0 =>
      rintro ⟨v, rfl, fs, rfl, h0⟩
      have c0 := has_count h0
      replace h0 := (reqF_iff reads_text c0).mpr h0
      have hg : getObj false ["channel_id"] (.obj fs) = some fs := getObj_open.mpr ⟨rfl, by simp [c0]⟩
      simp [IbcMsg.jc, hg, h0]

theorem WasmMsg_reads : Reads WasmMsg.jc Api.Wasm := by
  intro j m
  constructor
  · intro h
    simp only [WasmMsg.jc, matchToBind] at h
    split at h
    · split at h
      · next hk =>
        subst hk
        obtain ⟨fs, hg, g0⟩ := Option.bind_eq_some_iff.mp h
        obtain ⟨rfl, hk⟩ := getObj_open.mp hg
        obtain ⟨x0, h0, g1⟩ := Option.bind_eq_some_iff.mp g0
        obtain ⟨x1, h1, g2⟩ := Option.bind_eq_some_iff.mp g1
        obtain ⟨x2, h2, g3⟩ := Option.bind_eq_some_iff.mp g2
        cases g3
        exact ⟨_, rfl, fs, rfl, (reqF_iff reads_text (hk _ (by simp))).mp h0, (reqF_iff reads_base64 (hk _ (by simp))).mp h1, (reqF_iff (reads_many Coin_reads) (hk _ (by simp))).mp h2⟩
      · split at h
        · next hk =>
          subst hk
          obtain ⟨fs, hg, g0⟩ := Option.bind_eq_some_iff.mp h
          obtain ⟨rfl, hk⟩ := getObj_open.mp hg
          obtain ⟨x0, h0, g1⟩ := Option.bind_eq_some_iff.mp g0
          obtain ⟨x1, h1, g2⟩ := Option.bind_eq_some_iff.mp g1
          obtain ⟨x2, h2, g3⟩ := Option.bind_eq_some_iff.mp g2
          obtain ⟨x3, h3, g4⟩ := Option.bind_eq_some_iff.mp g3
          obtain ⟨x4, h4, g5⟩ := Option.bind_eq_some_iff.mp g4
          cases g5
          exact ⟨_, rfl, fs, rfl, (optF_iff reads_text (hk _ (by simp))).mp h0, (reqF_iff reads_num64 (hk _ (by simp))).mp h1, (reqF_iff reads_base64 (hk _ (by simp))).mp h2, (reqF_iff (reads_many Coin_reads) (hk _ (by simp))).mp h3, (reqF_iff reads_text (hk _ (by simp))).mp h4⟩
        · split at h
          · next hk =>
            subst hk
            obtain ⟨fs, hg, g0⟩ := Option.bind_eq_some_iff.mp h
            obtain ⟨rfl, hk⟩ := getObj_open.mp hg
            obtain ⟨x0, h0, g1⟩ := Option.bind_eq_some_iff.mp g0
            obtain ⟨x1, h1, g2⟩ := Option.bind_eq_some_iff.mp g1
            obtain ⟨x2, h2, g3⟩ := Option.bind_eq_some_iff.mp g2
            obtain ⟨x3, h3, g4⟩ := Option.bind_eq_some_iff.mp g3
            obtain ⟨x4, h4, g5⟩ := Option.bind_eq_some_iff.mp g4
            obtain ⟨x5, h5, g6⟩ := Option.bind_eq_some_iff.mp g5
            cases g6
            exact ⟨_, rfl, fs, rfl, (optF_iff reads_text (hk _ (by simp))).mp h0, (reqF_iff reads_num64 (hk _ (by simp))).mp h1, (reqF_iff reads_text (hk _ (by simp))).mp h2, (reqF_iff reads_base64 (hk _ (by simp))).mp h3, (reqF_iff (reads_many Coin_reads) (hk _ (by simp))).mp h4, (reqF_iff reads_base64 (hk _ (by simp))).mp h5⟩
          · split at h
            · next hk =>
              subst hk
              obtain ⟨fs, hg, g0⟩ := Option.bind_eq_some_iff.mp h
              obtain ⟨rfl, hk⟩ := getObj_open.mp hg
              obtain ⟨x0, h0, g1⟩ := Option.bind_eq_some_iff.mp g0
              obtain ⟨x1, h1, g2⟩ := Option.bind_eq_some_iff.mp g1
              obtain ⟨x2, h2, g3⟩ := Option.bind_eq_some_iff.mp g2
              cases g3
              exact ⟨_, rfl, fs, rfl, (reqF_iff reads_text (hk _ (by simp))).mp h0, (reqF_iff reads_num64 (hk _ (by simp))).mp h1, (reqF_iff reads_base64 (hk _ (by simp))).mp h2⟩
            · split at h
              · next hk =>
                subst hk
                obtain ⟨fs, hg, g0⟩ := Option.bind_eq_some_iff.mp h
                obtain ⟨rfl, hk⟩ := getObj_open.mp hg
                obtain ⟨x0, h0, g1⟩ := Option.bind_eq_some_iff.mp g0
                obtain ⟨x1, h1, g2⟩ := Option.bind_eq_some_iff.mp g1
                cases g2
                exact ⟨_, rfl, fs, rfl, (reqF_iff reads_text (hk _ (by simp))).mp h0, (reqF_iff reads_text (hk _ (by simp))).mp h1⟩
              · split at h
                · next hk =>
                  subst hk
                  obtain ⟨fs, hg, g0⟩ := Option.bind_eq_some_iff.mp h
                  obtain ⟨rfl, hk⟩ := getObj_open.mp hg
                  obtain ⟨x0, h0, g1⟩ := Option.bind_eq_some_iff.mp g0
                  cases g1
                  exact ⟨_, rfl, fs, rfl, (reqF_iff reads_text (hk _ (by simp))).mp h0⟩
                · cases h
    · cases h
  · cases m with
    | execute y0 y1 y2 =>
      rintro ⟨v, rfl, fs, rfl, h0, h1, h2⟩
      have c0 := has_count h0
      replace h0 := (reqF_iff reads_text c0).mpr h0
      have c1 := has_count h1
      replace h1 := (reqF_iff reads_base64 c1).mpr h1
      have c2 := has_count h2
      replace h2 := (reqF_iff (reads_many Coin_reads) c2).mpr h2
      have hg : getObj false ["contract_addr", "msg", "funds"] (.obj fs) = some fs := getObj_open.mpr ⟨rfl, by simp [c0, c1, c2]⟩
      simp [WasmMsg.jc, hg, h0, h1, h2]
    | instantiate y0 y1 y2 y3 y4 =>
      rintro ⟨v, rfl, fs, rfl, h0, h1, h2, h3, h4⟩
      have c0 := may_count h0
      replace h0 := (optF_iff reads_text c0).mpr h0
      have c1 := has_count h1
      replace h1 := (reqF_iff reads_num64 c1).mpr h1
      have c2 := has_count h2
      replace h2 := (reqF_iff reads_base64 c2).mpr h2
      have c3 := has_count h3
      replace h3 := (reqF_iff (reads_many Coin_reads) c3).mpr h3
      have c4 := has_count h4
      replace h4 := (reqF_iff reads_text c4).mpr h4
      have hg : getObj false ["admin", "code_id", "msg", "funds", "label"] (.obj fs) = some fs := getObj_open.mpr ⟨rfl, by simp [c0, c1, c2, c3, c4]⟩
      simp [WasmMsg.jc, hg, h0, h1, h2, h3, h4]
    | instantiate2 y0 y1 y2 y3 y4 y5 =>
      rintro ⟨v, rfl, fs, rfl, h0, h1, h2, h3, h4, h5⟩
      have c0 := may_count h0
      replace h0 := (optF_iff reads_text c0).mpr h0
      have c1 := has_count h1
      replace h1 := (reqF_iff reads_num64 c1).mpr h1
      have c2 := has_count h2
      replace h2 := (reqF_iff reads_text c2).mpr h2
      have c3 := has_count h3
      replace h3 := (reqF_iff reads_base64 c3).mpr h3
      have c4 := has_count h4
      replace h4 := (reqF_iff (reads_many Coin_reads) c4).mpr h4
      have c5 := has_count h5
      replace h5 := (reqF_iff reads_base64 c5).mpr h5
      have hg : getObj false ["admin", "code_id", "label", "msg", "funds", "salt"] (.obj fs) = some fs := getObj_open.mpr ⟨rfl, by simp [c0, c1, c2, c3, c4, c5]⟩
      simp [WasmMsg.jc, hg, h0, h1, h2, h3, h4, h5]
    | migrate y0 y1 y2 =>
      rintro ⟨v, rfl, fs, rfl, h0, h1, h2⟩
      have c0 := has_count h0
      replace h0 := (reqF_iff reads_text c0).mpr h0
      have c1 := has_count h1
      replace h1 := (reqF_iff reads_num64 c1).mpr h1
      have c2 := has_count h2
      replace h2 := (reqF_iff reads_base64 c2).mpr h2
      have hg : getObj false ["contract_addr", "new_code_id", "msg"] (.obj fs) = some fs := getObj_open.mpr ⟨rfl, by simp [c0, c1, c2]⟩
      simp [WasmMsg.jc, hg, h0, h1, h2]
    | updateAdmin y0 y1 =>
      rintro ⟨v, rfl, fs, rfl, h0, h1⟩
      have c0 := has_count h0
      replace h0 := (reqF_iff reads_text c0).mpr h0
      have c1 := has_count h1
      replace h1 := (reqF_iff reads_text c1).mpr h1
      have hg : getObj false ["contract_addr", "admin"] (.obj fs) = some fs := getObj_open.mpr ⟨rfl, by simp [c0, c1]⟩
      simp [WasmMsg.jc, hg, h0, h1]
    | clearAdmin y0 =>
      rintro ⟨v, rfl, fs, rfl, h0⟩
      have c0 := has_count h0
      replace h0 := (reqF_iff reads_text c0).mpr h0
      have hg : getObj false ["contract_addr"] (.obj fs) = some fs := getObj_open.mpr ⟨rfl, by simp [c0]⟩
      simp [WasmMsg.jc, hg, h0]

theorem VoteOption_reads : Reads VoteOption.jc Api.Vote := by
  intro j m
  constructor
  · intro h
    simp only [VoteOption.jc, matchToBind] at h
    split at h
    · split at h
      · next hk => subst hk; cases h; rfl
      · split at h
        · next hk => subst hk; cases h; rfl
        · split at h
          · next hk => subst hk; cases h; rfl
          · split at h
            · next hk => subst hk; cases h; rfl
            · cases h
    · cases h
  · cases m with
    | yes => rintro rfl; simp [VoteOption.jc]
    | no => rintro rfl; simp [VoteOption.jc]
    | abstain => rintro rfl; simp [VoteOption.jc]
    | noWithVeto => rintro rfl; simp [VoteOption.jc]

theorem WeightedVoteOption_reads : Reads WeightedVoteOption.jc Api.WeightedVote := by
  intro j m
  constructor
  · intro h
    simp only [WeightedVoteOption.jc, matchToBind] at h
    obtain ⟨fs, hg, g0⟩ := Option.bind_eq_some_iff.mp h
    obtain ⟨rfl, hk⟩ := getObj_open.mp hg
    obtain ⟨x0, h0, g1⟩ := Option.bind_eq_some_iff.mp g0
    obtain ⟨x1, h1, g2⟩ := Option.bind_eq_some_iff.mp g1
    cases g2
    exact ⟨fs, rfl, (reqF_iff VoteOption_reads (hk _ (by simp))).mp h0, (reqF_iff reads_decimal (hk _ (by simp))).mp h1⟩
  · rintro ⟨fs, rfl, h0, h1⟩
    have c0 := has_count h0
    replace h0 := (reqF_iff VoteOption_reads c0).mpr h0
    have c1 := has_count h1
    replace h1 := (reqF_iff reads_decimal c1).mpr h1
    have hg : getObj false ["option", "weight"] (.obj fs) = some fs := getObj_open.mpr ⟨rfl, by simp [c0, c1]⟩
    simp [WeightedVoteOption.jc, hg, h0, h1]

theorem GovMsg_reads : Reads GovMsg.jc Api.Gov := by
  intro j m
  constructor
  · intro h
    simp only [GovMsg.jc, matchToBind] at h
    split at h
    · split at h
      · next hk =>
        subst hk
        obtain ⟨fs, hg, g0⟩ := Option.bind_eq_some_iff.mp h
        obtain ⟨rfl, hk⟩ := getObj_open.mp hg
        obtain ⟨x0, h0, g1⟩ := Option.bind_eq_some_iff.mp g0
        obtain ⟨x1, h1, g2⟩ := Option.bind_eq_some_iff.mp g1
        cases g2
        exact ⟨_, rfl, fs, rfl, (reqF_iff reads_num64 (hk _ (by simp))).mp h0, (reqF_iff VoteOption_reads (hk _ (by simp))).mp h1⟩
      · split at h
        · next hk =>
          subst hk
          obtain ⟨fs, hg, g0⟩ := Option.bind_eq_some_iff.mp h
          obtain ⟨rfl, hk⟩ := getObj_open.mp hg
          obtain ⟨x0, h0, g1⟩ := Option.bind_eq_some_iff.mp g0
          obtain ⟨x1, h1, g2⟩ := Option.bind_eq_some_iff.mp g1
          cases g2
          exact ⟨_, rfl, fs, rfl, (reqF_iff reads_num64 (hk _ (by simp))).mp h0, (reqF_iff (reads_many WeightedVoteOption_reads) (hk _ (by simp))).mp h1⟩
        · cases h
    · cases h
  · cases m with
    | vote y0 y1 =>
      rintro ⟨v, rfl, fs, rfl, h0, h1⟩
      have c0 := has_count h0
      replace h0 := (reqF_iff reads_num64 c0).mpr h0
      have c1 := has_count h1
      replace h1 := (reqF_iff VoteOption_reads c1).mpr h1
      have hg : getObj false ["proposal_id", "option"] (.obj fs) = some fs := getObj_open.mpr ⟨rfl, by simp [c0, c1]⟩
      simp [GovMsg.jc, hg, h0, h1]
    | voteWeighted y0 y1 =>
      rintro ⟨v, rfl, fs, rfl, h0, h1⟩
      have c0 := has_count h0
      replace h0 := (reqF_iff reads_num64 c0).mpr h0
      have c1 := has_count h1
      replace h1 := (reqF_iff (reads_many WeightedVoteOption_reads) c1).mpr h1
      have hg : getObj false ["proposal_id", "options"] (.obj fs) = some fs := getObj_open.mpr ⟨rfl, by simp [c0, c1]⟩
      simp [GovMsg.jc, hg, h0, h1]

theorem Empty_reads : Reads Empty.jc Api.Anything := by
  intro j m
  constructor
  · intro h
    simp only [Empty.jc, matchToBind] at h
    obtain ⟨fs, hg, g0⟩ := Option.bind_eq_some_iff.mp h
    obtain ⟨rfl, hk⟩ := getObj_open.mp hg
    cases g0
    exact ⟨fs, rfl, trivial⟩
  · rintro ⟨fs, rfl, -⟩
    have hg : getObj false [] (.obj fs) = some fs := getObj_open.mpr ⟨rfl, by simp []⟩
    simp [Empty.jc, hg]

theorem CosmosMsg_reads : Reads CosmosMsg.jc Api.Cosmos := by
  intro j m
  constructor
  · intro h
    simp only [CosmosMsg.jc, matchToBind] at h
    split at h
    · split at h
      · next hk =>
        subst hk
        obtain ⟨x, hx, rfl⟩ := Option.map_eq_some_iff.mp h
        exact ⟨_, rfl, (BankMsg_reads _ _).mp hx⟩
      · split at h
        · next hk =>
          subst hk
          obtain ⟨x, hx, rfl⟩ := Option.map_eq_some_iff.mp h
          exact ⟨_, rfl, (Empty_reads _ _).mp hx⟩
        · split at h
          · next hk =>
            subst hk
            obtain ⟨x, hx, rfl⟩ := Option.map_eq_some_iff.mp h
            exact ⟨_, rfl, (StakingMsg_reads _ _).mp hx⟩
          · split at h
            · next hk =>
              subst hk
              obtain ⟨x, hx, rfl⟩ := Option.map_eq_some_iff.mp h
              exact ⟨_, rfl, (DistributionMsg_reads _ _).mp hx⟩
            · split at h
              · next hk =>
                subst hk
                obtain ⟨fs, hg, g0⟩ := Option.bind_eq_some_iff.mp h
                obtain ⟨rfl, hk⟩ := getObj_open.mp hg
                obtain ⟨x0, h0, g1⟩ := Option.bind_eq_some_iff.mp g0
                obtain ⟨x1, h1, g2⟩ := Option.bind_eq_some_iff.mp g1
                cases g2
                exact ⟨_, rfl, fs, rfl, (reqF_iff reads_text (hk _ (by simp))).mp h0, (reqF_iff reads_base64 (hk _ (by simp))).mp h1⟩
              · split at h
                · next hk =>
                  subst hk
                  obtain ⟨x, hx, rfl⟩ := Option.map_eq_some_iff.mp h
                  exact ⟨_, rfl, (IbcMsg_reads _ _).mp hx⟩
                · split at h
                  · next hk =>
                    subst hk
                    obtain ⟨x, hx, rfl⟩ := Option.map_eq_some_iff.mp h
                    exact ⟨_, rfl, (WasmMsg_reads _ _).mp hx⟩
                  · split at h
                    · next hk =>
                      subst hk
                      obtain ⟨x, hx, rfl⟩ := Option.map_eq_some_iff.mp h
                      exact ⟨_, rfl, (GovMsg_reads _ _).mp hx⟩
                    · cases h
    · cases h
  · cases m with
    | bank x =>
      rintro ⟨v, rfl, hv⟩
      replace hv := (BankMsg_reads _ _).mpr hv
      simp [CosmosMsg.jc, hv]
    | custom x =>
      rintro ⟨v, rfl, hv⟩
      replace hv := (Empty_reads _ _).mpr hv
      simp [CosmosMsg.jc, hv]
    | staking x =>
      rintro ⟨v, rfl, hv⟩
      replace hv := (StakingMsg_reads _ _).mpr hv
      simp [CosmosMsg.jc, hv]
    | distribution x =>
      rintro ⟨v, rfl, hv⟩
      replace hv := (DistributionMsg_reads _ _).mpr hv
      simp [CosmosMsg.jc, hv]
    | stargate y0 y1 =>
      rintro ⟨v, rfl, fs, rfl, h0, h1⟩
      have c0 := has_count h0
      replace h0 := (reqF_iff reads_text c0).mpr h0
      have c1 := has_count h1
      replace h1 := (reqF_iff reads_base64 c1).mpr h1
      have hg : getObj false ["type_url", "value"] (.obj fs) = some fs := getObj_open.mpr ⟨rfl, by simp [c0, c1]⟩
      simp [CosmosMsg.jc, hg, h0, h1]
    | ibc x =>
      rintro ⟨v, rfl, hv⟩
      replace hv := (IbcMsg_reads _ _).mpr hv
      simp [CosmosMsg.jc, hv]
    | wasm x =>
      rintro ⟨v, rfl, hv⟩
      replace hv := (WasmMsg_reads _ _).mpr hv
      simp [CosmosMsg.jc, hv]
    | gov x =>
      rintro ⟨v, rfl, hv⟩
      replace hv := (GovMsg_reads _ _).mpr hv
      simp [CosmosMsg.jc, hv]

theorem PageRequest_reads : Reads PageRequest.jc Api.Page := by
  intro j m
  constructor
  · intro h
    simp only [PageRequest.jc, matchToBind] at h
    obtain ⟨fs, hg, g0⟩ := Option.bind_eq_some_iff.mp h
    obtain ⟨rfl, hk⟩ := getObj_open.mp hg
    obtain ⟨x0, h0, g1⟩ := Option.bind_eq_some_iff.mp g0
    obtain ⟨x1, h1, g2⟩ := Option.bind_eq_some_iff.mp g1
    obtain ⟨x2, h2, g3⟩ := Option.bind_eq_some_iff.mp g2
    cases g3
    exact ⟨fs, rfl, (optF_iff reads_base64 (hk _ (by simp))).mp h0, (reqF_iff reads_num32 (hk _ (by simp))).mp h1, (reqF_iff reads_truth (hk _ (by simp))).mp h2⟩
  · rintro ⟨fs, rfl, h0, h1, h2⟩
    have c0 := may_count h0
    replace h0 := (optF_iff reads_base64 c0).mpr h0
    have c1 := has_count h1
    replace h1 := (reqF_iff reads_num32 c1).mpr h1
    have c2 := has_count h2
    replace h2 := (reqF_iff reads_truth c2).mpr h2
    have hg : getObj false ["key", "limit", "reverse"] (.obj fs) = some fs := getObj_open.mpr ⟨rfl, by simp [c0, c1, c2]⟩
    simp [PageRequest.jc, hg, h0, h1, h2]

theorem BankQuery_reads : Reads BankQuery.jc Api.BankQ := by
  intro j m
  constructor
  · intro h
    simp only [BankQuery.jc, matchToBind] at h
    split at h
    · split at h
      · next hk =>
        subst hk
        obtain ⟨fs, hg, g0⟩ := Option.bind_eq_some_iff.mp h
        obtain ⟨rfl, hk⟩ := getObj_open.mp hg
        obtain ⟨x0, h0, g1⟩ := Option.bind_eq_some_iff.mp g0
        cases g1
        exact ⟨_, rfl, fs, rfl, (reqF_iff reads_text (hk _ (by simp))).mp h0⟩
      · split at h
        · next hk =>
          subst hk
          obtain ⟨fs, hg, g0⟩ := Option.bind_eq_some_iff.mp h
          obtain ⟨rfl, hk⟩ := getObj_open.mp hg
          obtain ⟨x0, h0, g1⟩ := Option.bind_eq_some_iff.mp g0
          obtain ⟨x1, h1, g2⟩ := Option.bind_eq_some_iff.mp g1
          cases g2
          exact ⟨_, rfl, fs, rfl, (reqF_iff reads_text (hk _ (by simp))).mp h0, (reqF_iff reads_text (hk _ (by simp))).mp h1⟩
        · split at h
          · next hk =>
            subst hk
            obtain ⟨fs, hg, g0⟩ := Option.bind_eq_some_iff.mp h
            obtain ⟨rfl, hk⟩ := getObj_open.mp hg
            obtain ⟨x0, h0, g1⟩ := Option.bind_eq_some_iff.mp g0
            cases g1
            exact ⟨_, rfl, fs, rfl, (reqF_iff reads_text (hk _ (by simp))).mp h0⟩
          · split at h
            · next hk =>
              subst hk
              obtain ⟨fs, hg, g0⟩ := Option.bind_eq_some_iff.mp h
              obtain ⟨rfl, hk⟩ := getObj_open.mp hg
              obtain ⟨x0, h0, g1⟩ := Option.bind_eq_some_iff.mp g0
              cases g1
              exact ⟨_, rfl, fs, rfl, (reqF_iff reads_text (hk _ (by simp))).mp h0⟩
            · split at h
              · next hk =>
                subst hk
                obtain ⟨fs, hg, g0⟩ := Option.bind_eq_some_iff.mp h
                obtain ⟨rfl, hk⟩ := getObj_open.mp hg
                obtain ⟨x0, h0, g1⟩ := Option.bind_eq_some_iff.mp g0
                cases g1
                exact ⟨_, rfl, fs, rfl, (optF_iff PageRequest_reads (hk _ (by simp))).mp h0⟩
              · cases h
    · cases h
  · cases m with
    | supply y0 =>
      rintro ⟨v, rfl, fs, rfl, h0⟩
      have c0 := has_count h0
      replace h0 := (reqF_iff reads_text c0).mpr h0
      have hg : getObj false ["denom"] (.obj fs) = some fs := getObj_open.mpr ⟨rfl, by simp [c0]⟩
      simp [BankQuery.jc, hg, h0]
    | balance y0 y1 =>
      rintro ⟨v, rfl, fs, rfl, h0, h1⟩
      have c0 := has_count h0
      replace h0 := (reqF_iff reads_text c0).mpr h0
      have c1 := has_count h1
      replace h1 := (reqF_iff reads_text c1).mpr h1
      have hg : getObj false ["address", "denom"] (.obj fs) = some fs := getObj_open.mpr ⟨rfl, by simp [c0, c1]⟩
      simp [BankQuery.jc, hg, h0, h1]
    | allBalances y0 =>
      rintro ⟨v, rfl, fs, rfl, h0⟩
      have c0 := has_count h0
      replace h0 := (reqF_iff reads_text c0).mpr h0
      have hg : getObj false ["address"] (.obj fs) = some fs := getObj_open.mpr ⟨rfl, by simp [c0]⟩
      simp [BankQuery.jc, hg, h0]
    | denomMetadata y0 =>
      rintro ⟨v, rfl, fs, rfl, h0⟩
      have c0 := has_count h0
      replace h0 := (reqF_iff reads_text c0).mpr h0
      have hg : getObj false ["denom"] (.obj fs) = some fs := getObj_open.mpr ⟨rfl, by simp [c0]⟩
      simp [BankQuery.jc, hg, h0]
    | allDenomMetadata y0 =>
      rintro ⟨v, rfl, fs, rfl, h0⟩
      have c0 := may_count h0
      replace h0 := (optF_iff PageRequest_reads c0).mpr h0
      have hg : getObj false ["pagination"] (.obj fs) = some fs := getObj_open.mpr ⟨rfl, by simp [c0]⟩
      simp [BankQuery.jc, hg, h0]

theorem StakingQuery_reads : Reads StakingQuery.jc Api.StakingQ := by
  intro j m
  constructor
  · intro h
    simp only [StakingQuery.jc, matchToBind] at h
    split at h
    · split at h
      · next hk =>
        subst hk
        obtain ⟨fs, hg, g0⟩ := Option.bind_eq_some_iff.mp h
        obtain ⟨rfl, hk⟩ := getObj_open.mp hg
        cases g0
        exact ⟨_, rfl, fs, rfl, trivial⟩
      · split at h
        · next hk =>
          subst hk
          obtain ⟨fs, hg, g0⟩ := Option.bind_eq_some_iff.mp h
          obtain ⟨rfl, hk⟩ := getObj_open.mp hg
          obtain ⟨x0, h0, g1⟩ := Option.bind_eq_some_iff.mp g0
          cases g1
          exact ⟨_, rfl, fs, rfl, (reqF_iff reads_text (hk _ (by simp))).mp h0⟩
        · split at h
          · next hk =>
            subst hk
            obtain ⟨fs, hg, g0⟩ := Option.bind_eq_some_iff.mp h
            obtain ⟨rfl, hk⟩ := getObj_open.mp hg
            obtain ⟨x0, h0, g1⟩ := Option.bind_eq_some_iff.mp g0
            obtain ⟨x1, h1, g2⟩ := Option.bind_eq_some_iff.mp g1
            cases g2
            exact ⟨_, rfl, fs, rfl, (reqF_iff reads_text (hk _ (by simp))).mp h0, (reqF_iff reads_text (hk _ (by simp))).mp h1⟩
          · split at h
            · next hk =>
              subst hk
              obtain ⟨fs, hg, g0⟩ := Option.bind_eq_some_iff.mp h
              obtain ⟨rfl, hk⟩ := getObj_open.mp hg
              cases g0
              exact ⟨_, rfl, fs, rfl, trivial⟩
            · split at h
              · next hk =>
                subst hk
                obtain ⟨fs, hg, g0⟩ := Option.bind_eq_some_iff.mp h
                obtain ⟨rfl, hk⟩ := getObj_open.mp hg
                obtain ⟨x0, h0, g1⟩ := Option.bind_eq_some_iff.mp g0
                cases g1
                exact ⟨_, rfl, fs, rfl, (reqF_iff reads_text (hk _ (by simp))).mp h0⟩
              · cases h
    · cases h
  · cases m with
    | bondedDenom =>
      rintro ⟨v, rfl, fs, rfl, -⟩
      have hg : getObj false [] (.obj fs) = some fs := getObj_open.mpr ⟨rfl, by simp []⟩
      simp [StakingQuery.jc, hg]
    | allDelegations y0 =>
      rintro ⟨v, rfl, fs, rfl, h0⟩
      have c0 := has_count h0
      replace h0 := (reqF_iff reads_text c0).mpr h0
      have hg : getObj false ["delegator"] (.obj fs) = some fs := getObj_open.mpr ⟨rfl, by simp [c0]⟩
      simp [StakingQuery.jc, hg, h0]
    | delegation y0 y1 =>
      rintro ⟨v, rfl, fs, rfl, h0, h1⟩
      have c0 := has_count h0
      replace h0 := (reqF_iff reads_text c0).mpr h0
      have c1 := has_count h1
      replace h1 := (reqF_iff reads_text c1).mpr h1
      have hg : getObj false ["delegator", "validator"] (.obj fs) = some fs := getObj_open.mpr ⟨rfl, by simp [c0, c1]⟩
      simp [StakingQuery.jc, hg, h0, h1]
    | allValidators =>
      rintro ⟨v, rfl, fs, rfl, -⟩
      have hg : getObj false [] (.obj fs) = some fs := getObj_open.mpr ⟨rfl, by simp []⟩
      simp [StakingQuery.jc, hg]
    | validator y0 =>
      rintro ⟨v, rfl, fs, rfl, h0⟩
      have c0 := has_count h0
      replace h0 := (reqF_iff reads_text c0).mpr h0
      have hg : getObj false ["address"] (.obj fs) = some fs := getObj_open.mpr ⟨rfl, by simp [c0]⟩
      simp [StakingQuery.jc, hg, h0]

theorem DistributionQuery_reads : Reads DistributionQuery.jc Api.DistributionQ := by
  intro j m
  constructor
  · intro h
    simp only [DistributionQuery.jc, matchToBind] at h
    split at h
    · split at h
      · next hk =>
        subst hk
        obtain ⟨fs, hg, g0⟩ := Option.bind_eq_some_iff.mp h
        obtain ⟨rfl, hk⟩ := getObj_open.mp hg
        obtain ⟨x0, h0, g1⟩ := Option.bind_eq_some_iff.mp g0
        cases g1
        exact ⟨_, rfl, fs, rfl, (reqF_iff reads_text (hk _ (by simp))).mp h0⟩
      · split at h
        · next hk =>
          subst hk
          obtain ⟨fs, hg, g0⟩ := Option.bind_eq_some_iff.mp h
          obtain ⟨rfl, hk⟩ := getObj_open.mp hg
          obtain ⟨x0, h0, g1⟩ := Option.bind_eq_some_iff.mp g0
          obtain ⟨x1, h1, g2⟩ := Option.bind_eq_some_iff.mp g1
          cases g2
          exact ⟨_, rfl, fs, rfl, (reqF_iff reads_text (hk _ (by simp))).mp h0, (reqF_iff reads_text (hk _ (by simp))).mp h1⟩
        · split at h
          · next hk =>
            subst hk
            obtain ⟨fs, hg, g0⟩ := Option.bind_eq_some_iff.mp h
            obtain ⟨rfl, hk⟩ := getObj_open.mp hg
            obtain ⟨x0, h0, g1⟩ := Option.bind_eq_some_iff.mp g0
            cases g1
            exact ⟨_, rfl, fs, rfl, (reqF_iff reads_text (hk _ (by simp))).mp h0⟩
          · split at h
            · next hk =>
              subst hk
              obtain ⟨fs, hg, g0⟩ := Option.bind_eq_some_iff.mp h
              obtain ⟨rfl, hk⟩ := getObj_open.mp hg
              obtain ⟨x0, h0, g1⟩ := Option.bind_eq_some_iff.mp g0
              cases g1
              exact ⟨_, rfl, fs, rfl, (reqF_iff reads_text (hk _ (by simp))).mp h0⟩
            · cases h
    · cases h
  · cases m with
    | delegatorWithdrawAddress y0 =>
      rintro ⟨v, rfl, fs, rfl, h0⟩
      have c0 := has_count h0
      replace h0 := (reqF_iff reads_text c0).mpr h0
      have hg : getObj false ["delegator_address"] (.obj fs) = some fs := getObj_open.mpr ⟨rfl, by simp [c0]⟩
      simp [DistributionQuery.jc, hg, h0]
    | delegationRewards y0 y1 =>
      rintro ⟨v, rfl, fs, rfl, h0, h1⟩
      have c0 := has_count h0
      replace h0 := (reqF_iff reads_text c0).mpr h0
      have c1 := has_count h1
      replace h1 := (reqF_iff reads_text c1).mpr h1
      have hg : getObj false ["delegator_address", "validator_address"] (.obj fs) = some fs := getObj_open.mpr ⟨rfl, by simp [c0, c1]⟩
      simp [DistributionQuery.jc, hg, h0, h1]
    | delegationTotalRewards y0 =>
      rintro ⟨v, rfl, fs, rfl, h0⟩
      have c0 := has_count h0
      replace h0 := (reqF_iff reads_text c0).mpr h0
      have hg : getObj false ["delegator_address"] (.obj fs) = some fs := getObj_open.mpr ⟨rfl, by simp [c0]⟩
      simp [DistributionQuery.jc, hg, h0]
    | delegatorValidators y0 =>
      rintro ⟨v, rfl, fs, rfl, h0⟩
      have c0 := has_count h0
      replace h0 := (reqF_iff reads_text c0).mpr h0
      have hg : getObj false ["delegator_address"] (.obj fs) = some fs := getObj_open.mpr ⟨rfl, by simp [c0]⟩
      simp [DistributionQuery.jc, hg, h0]

theorem IbcQuery_reads : Reads IbcQuery.jc Api.IbcQ := by
  intro j m
  constructor
  · intro h
    simp only [IbcQuery.jc, matchToBind] at h
    split at h
    · split at h
      · next hk =>
        subst hk
        obtain ⟨fs, hg, g0⟩ := Option.bind_eq_some_iff.mp h
        obtain ⟨rfl, hk⟩ := getObj_open.mp hg
        cases g0
        exact ⟨_, rfl, fs, rfl, trivial⟩
      · split at h
        · next hk =>
          subst hk
          obtain ⟨fs, hg, g0⟩ := Option.bind_eq_some_iff.mp h
          obtain ⟨rfl, hk⟩ := getObj_open.mp hg
          obtain ⟨x0, h0, g1⟩ := Option.bind_eq_some_iff.mp g0
          cases g1
          exact ⟨_, rfl, fs, rfl, (optF_iff reads_text (hk _ (by simp))).mp h0⟩
        · split at h
          · next hk =>
            subst hk
            obtain ⟨fs, hg, g0⟩ := Option.bind_eq_some_iff.mp h
            obtain ⟨rfl, hk⟩ := getObj_open.mp hg
            obtain ⟨x0, h0, g1⟩ := Option.bind_eq_some_iff.mp g0
            obtain ⟨x1, h1, g2⟩ := Option.bind_eq_some_iff.mp g1
            cases g2
            exact ⟨_, rfl, fs, rfl, (reqF_iff reads_text (hk _ (by simp))).mp h0, (optF_iff reads_text (hk _ (by simp))).mp h1⟩
          · cases h
    · cases h
  · cases m with
    | portId =>
      rintro ⟨v, rfl, fs, rfl, -⟩
      have hg : getObj false [] (.obj fs) = some fs := getObj_open.mpr ⟨rfl, by simp []⟩
      simp [IbcQuery.jc, hg]
    | listChannels y0 =>
      rintro ⟨v, rfl, fs, rfl, h0⟩
      have c0 := may_count h0
      replace h0 := (optF_iff reads_text c0).mpr h0
      have hg : getObj false ["port_id"] (.obj fs) = some fs := getObj_open.mpr ⟨rfl, by simp [c0]⟩
      simp [IbcQuery.jc, hg, h0]
    | channel y0 y1 =>
      rintro ⟨v, rfl, fs, rfl, h0, h1⟩
      have c0 := has_count h0
      replace h0 := (reqF_iff reads_text c0).mpr h0
      have c1 := may_count h1
      replace h1 := (optF_iff reads_text c1).mpr h1
      have hg : getObj false ["channel_id", "port_id"] (.obj fs) = some fs := getObj_open.mpr ⟨rfl, by simp [c0, c1]⟩
      simp [IbcQuery.jc, hg, h0, h1]

theorem WasmQuery_reads : Reads WasmQuery.jc Api.WasmQ := by
  intro j m
  constructor
  · intro h
    simp only [WasmQuery.jc, matchToBind] at h
    split at h
    · split at h
      · next hk =>
        subst hk
        obtain ⟨fs, hg, g0⟩ := Option.bind_eq_some_iff.mp h
        obtain ⟨rfl, hk⟩ := getObj_open.mp hg
        obtain ⟨x0, h0, g1⟩ := Option.bind_eq_some_iff.mp g0
        obtain ⟨x1, h1, g2⟩ := Option.bind_eq_some_iff.mp g1
        cases g2
        exact ⟨_, rfl, fs, rfl, (reqF_iff reads_text (hk _ (by simp))).mp h0, (reqF_iff reads_base64 (hk _ (by simp))).mp h1⟩
      · split at h
        · next hk =>
          subst hk
          obtain ⟨fs, hg, g0⟩ := Option.bind_eq_some_iff.mp h
          obtain ⟨rfl, hk⟩ := getObj_open.mp hg
          obtain ⟨x0, h0, g1⟩ := Option.bind_eq_some_iff.mp g0
          obtain ⟨x1, h1, g2⟩ := Option.bind_eq_some_iff.mp g1
          cases g2
          exact ⟨_, rfl, fs, rfl, (reqF_iff reads_text (hk _ (by simp))).mp h0, (reqF_iff reads_base64 (hk _ (by simp))).mp h1⟩
        · split at h
          · next hk =>
            subst hk
            obtain ⟨fs, hg, g0⟩ := Option.bind_eq_some_iff.mp h
            obtain ⟨rfl, hk⟩ := getObj_open.mp hg
            obtain ⟨x0, h0, g1⟩ := Option.bind_eq_some_iff.mp g0
            cases g1
            exact ⟨_, rfl, fs, rfl, (reqF_iff reads_text (hk _ (by simp))).mp h0⟩
          · split at h
            · next hk =>
              subst hk
              obtain ⟨fs, hg, g0⟩ := Option.bind_eq_some_iff.mp h
              obtain ⟨rfl, hk⟩ := getObj_open.mp hg
              obtain ⟨x0, h0, g1⟩ := Option.bind_eq_some_iff.mp g0
              cases g1
              exact ⟨_, rfl, fs, rfl, (reqF_iff reads_num64 (hk _ (by simp))).mp h0⟩
            · cases h
    · cases h
  · cases m with
    | smart y0 y1 =>
      rintro ⟨v, rfl, fs, rfl, h0, h1⟩
      have c0 := has_count h0
      replace h0 := (reqF_iff reads_text c0).mpr h0
      have c1 := has_count h1
      replace h1 := (reqF_iff reads_base64 c1).mpr h1
      have hg : getObj false ["contract_addr", "msg"] (.obj fs) = some fs := getObj_open.mpr ⟨rfl, by simp [c0, c1]⟩
      simp [WasmQuery.jc, hg, h0, h1]
    | raw y0 y1 =>
      rintro ⟨v, rfl, fs, rfl, h0, h1⟩
      have c0 := has_count h0
      replace h0 := (reqF_iff reads_text c0).mpr h0
      have c1 := has_count h1
      replace h1 := (reqF_iff reads_base64 c1).mpr h1
      have hg : getObj false ["contract_addr", "key"] (.obj fs) = some fs := getObj_open.mpr ⟨rfl, by simp [c0, c1]⟩
      simp [WasmQuery.jc, hg, h0, h1]
    | contractInfo y0 =>
      rintro ⟨v, rfl, fs, rfl, h0⟩
      have c0 := has_count h0
      replace h0 := (reqF_iff reads_text c0).mpr h0
      have hg : getObj false ["contract_addr"] (.obj fs) = some fs := getObj_open.mpr ⟨rfl, by simp [c0]⟩
      simp [WasmQuery.jc, hg, h0]
    | codeInfo y0 =>
      rintro ⟨v, rfl, fs, rfl, h0⟩
      have c0 := has_count h0
      replace h0 := (reqF_iff reads_num64 c0).mpr h0
      have hg : getObj false ["code_id"] (.obj fs) = some fs := getObj_open.mpr ⟨rfl, by simp [c0]⟩
      simp [WasmQuery.jc, hg, h0]

theorem QueryRequest_reads : Reads QueryRequest.jc Api.Query := by
  intro j m
  constructor
  · intro h
    simp only [QueryRequest.jc, matchToBind] at h
    split at h
    · split at h
      · next hk =>
        subst hk
        obtain ⟨x, hx, rfl⟩ := Option.map_eq_some_iff.mp h
        exact ⟨_, rfl, (BankQuery_reads _ _).mp hx⟩
      · split at h
        · next hk =>
          subst hk
          obtain ⟨x, hx, rfl⟩ := Option.map_eq_some_iff.mp h
          exact ⟨_, rfl, (Empty_reads _ _).mp hx⟩
        · split at h
          · next hk =>
            subst hk
            obtain ⟨x, hx, rfl⟩ := Option.map_eq_some_iff.mp h
            exact ⟨_, rfl, (StakingQuery_reads _ _).mp hx⟩
          · split at h
            · next hk =>
              subst hk
              obtain ⟨x, hx, rfl⟩ := Option.map_eq_some_iff.mp h
              exact ⟨_, rfl, (DistributionQuery_reads _ _).mp hx⟩
            · split at h
              · next hk =>
                subst hk
                obtain ⟨fs, hg, g0⟩ := Option.bind_eq_some_iff.mp h
                obtain ⟨rfl, hk⟩ := getObj_open.mp hg
                obtain ⟨x0, h0, g1⟩ := Option.bind_eq_some_iff.mp g0
                obtain ⟨x1, h1, g2⟩ := Option.bind_eq_some_iff.mp g1
                cases g2
                exact ⟨_, rfl, fs, rfl, (reqF_iff reads_text (hk _ (by simp))).mp h0, (reqF_iff reads_base64 (hk _ (by simp))).mp h1⟩
              · split at h
                · next hk =>
                  subst hk
                  obtain ⟨x, hx, rfl⟩ := Option.map_eq_some_iff.mp h
                  exact ⟨_, rfl, (IbcQuery_reads _ _).mp hx⟩
                · split at h
                  · next hk =>
                    subst hk
                    obtain ⟨x, hx, rfl⟩ := Option.map_eq_some_iff.mp h
                    exact ⟨_, rfl, (WasmQuery_reads _ _).mp hx⟩
                  · cases h
    · cases h
  · cases m with
    | bank x =>
      rintro ⟨v, rfl, hv⟩
      replace hv := (BankQuery_reads _ _).mpr hv
      simp [QueryRequest.jc, hv]
    | custom x =>
      rintro ⟨v, rfl, hv⟩
      replace hv := (Empty_reads _ _).mpr hv
      simp [QueryRequest.jc, hv]
    | staking x =>
      rintro ⟨v, rfl, hv⟩
      replace hv := (StakingQuery_reads _ _).mpr hv
      simp [QueryRequest.jc, hv]
    | distribution x =>
      rintro ⟨v, rfl, hv⟩
      replace hv := (DistributionQuery_reads _ _).mpr hv
      simp [QueryRequest.jc, hv]
    | stargate y0 y1 =>
      rintro ⟨v, rfl, fs, rfl, h0, h1⟩
      have c0 := has_count h0
      replace h0 := (reqF_iff reads_text c0).mpr h0
      have c1 := has_count h1
      replace h1 := (reqF_iff reads_base64 c1).mpr h1
      have hg : getObj false ["path", "data"] (.obj fs) = some fs := getObj_open.mpr ⟨rfl, by simp [c0, c1]⟩
      simp [QueryRequest.jc, hg, h0, h1]
    | ibc x =>
      rintro ⟨v, rfl, hv⟩
      replace hv := (IbcQuery_reads _ _).mpr hv
      simp [QueryRequest.jc, hv]
    | wasm x =>
      rintro ⟨v, rfl, hv⟩
      replace hv := (WasmQuery_reads _ _).mpr hv
      simp [QueryRequest.jc, hv]

theorem ChannelOpenInitOptions_reads : Reads ChannelOpenInitOptions.jc Api.Options := by
  intro j m
  constructor
  · intro h
    simp only [ChannelOpenInitOptions.jc, matchToBind] at h
    obtain ⟨fs, hg, g0⟩ := Option.bind_eq_some_iff.mp h
    obtain ⟨rfl, hk⟩ := getObj_open.mp hg
    obtain ⟨x0, h0, g1⟩ := Option.bind_eq_some_iff.mp g0
    obtain ⟨x1, h1, g2⟩ := Option.bind_eq_some_iff.mp g1
    obtain ⟨x2, h2, g3⟩ := Option.bind_eq_some_iff.mp g2
    obtain ⟨x3, h3, g4⟩ := Option.bind_eq_some_iff.mp g3
    cases g4
    exact ⟨fs, rfl, (reqF_iff reads_text (hk _ (by simp))).mp h0, (reqF_iff reads_text (hk _ (by simp))).mp h1, (optF_iff reads_text (hk _ (by simp))).mp h2, (optF_iff IbcOrder_reads (hk _ (by simp))).mp h3⟩
  · rintro ⟨fs, rfl, h0, h1, h2, h3⟩
    have c0 := has_count h0
    replace h0 := (reqF_iff reads_text c0).mpr h0
    have c1 := has_count h1
    replace h1 := (reqF_iff reads_text c1).mpr h1
    have c2 := may_count h2
    replace h2 := (optF_iff reads_text c2).mpr h2
    have c3 := may_count h3
    replace h3 := (optF_iff IbcOrder_reads c3).mpr h3
    have hg : getObj false ["connection_id", "counterparty_connection_id", "counterparty_port_id", "channel_ordering"] (.obj fs) = some fs := getObj_open.mpr ⟨rfl, by simp [c0, c1, c2, c3]⟩
    simp [ChannelOpenInitOptions.jc, hg, h0, h1, h2, h3]

theorem TxEncoding_reads : Reads TxEncoding.jc Api.Encoding := by
  intro j m
  constructor
  · intro h
    simp only [TxEncoding.jc, matchToBind] at h
    split at h
    · split at h
      · next hk => subst hk; cases h; rfl
      · split at h
        · next hk => subst hk; cases h; rfl
        · cases h
    · cases h
  · cases m with
    | protobuf => rintro rfl; simp [TxEncoding.jc]
    | proto3Json => rintro rfl; simp [TxEncoding.jc]

theorem Expiration_reads : Reads Expiration.jc Api.Expiry := by
  intro j m
  constructor
  · intro h
    simp only [Expiration.jc, matchToBind] at h
    split at h
    · split at h
      · next hk =>
        subst hk
        obtain ⟨x, hx, rfl⟩ := Option.map_eq_some_iff.mp h
        exact ⟨_, rfl, (reads_num64 _ _).mp hx⟩
      · split at h
        · next hk =>
          subst hk
          obtain ⟨x, hx, rfl⟩ := Option.map_eq_some_iff.mp h
          exact ⟨_, rfl, (reads_quoted64 _ _).mp hx⟩
        · split at h
          · next hk =>
            subst hk
            obtain ⟨fs, hg, g0⟩ := Option.bind_eq_some_iff.mp h
            obtain ⟨rfl, ho, hk⟩ := getObj_closed.mp hg
            cases g0
            exact ⟨_, rfl, fs, rfl, ho, trivial⟩
          · cases h
    · cases h
  · cases m with
    | atHeight x =>
      rintro ⟨v, rfl, hv⟩
      replace hv := (reads_num64 _ _).mpr hv
      simp [Expiration.jc, hv]
    | atTime x =>
      rintro ⟨v, rfl, hv⟩
      replace hv := (reads_quoted64 _ _).mpr hv
      simp [Expiration.jc, hv]
    | never =>
      rintro ⟨v, rfl, fs, rfl, ho, -⟩
      have hg : getObj true [] (.obj fs) = some fs := getObj_closed.mpr ⟨rfl, ho, by simp []⟩
      simp [Expiration.jc, hg]

theorem Action_reads : Reads Action.jc Api.OwnershipAction := by
  intro j m
  constructor
  · intro h
    simp only [Action.jc, matchToBind] at h
    split at h
    · split at h
      · next hk => subst hk; cases h; rfl
      · split at h
        · next hk => subst hk; cases h; rfl
        · cases h
    · split at h
      · next hk =>
        subst hk
        obtain ⟨fs, hg, g0⟩ := Option.bind_eq_some_iff.mp h
        obtain ⟨rfl, ho, hk⟩ := getObj_closed.mp hg
        obtain ⟨x0, h0, g1⟩ := Option.bind_eq_some_iff.mp g0
        obtain ⟨x1, h1, g2⟩ := Option.bind_eq_some_iff.mp g1
        cases g2
        exact ⟨_, rfl, fs, rfl, ho, (reqF_iff reads_text (hk _ (by simp))).mp h0, (optF_iff Expiration_reads (hk _ (by simp))).mp h1⟩
      · cases h
    · cases h
  · cases m with
    | transferOwnership y0 y1 =>
      rintro ⟨v, rfl, fs, rfl, ho, h0, h1⟩
      have c0 := has_count h0
      replace h0 := (reqF_iff reads_text c0).mpr h0
      have c1 := may_count h1
      replace h1 := (optF_iff Expiration_reads c1).mpr h1
      have hg : getObj true ["new_owner", "expiry"] (.obj fs) = some fs := getObj_closed.mpr ⟨rfl, ho, by simp [c0, c1]⟩
      simp [Action.jc, hg, h0, h1]
    | acceptOwnership => rintro rfl; simp [Action.jc]
    | renounceOwnership => rintro rfl; simp [Action.jc]

theorem InstantiateMsg_reads : Reads InstantiateMsg.jc Api.Instantiate := by
  intro j m
  constructor
  · intro h
    simp only [InstantiateMsg.jc, matchToBind] at h
    obtain ⟨fs, hg, g0⟩ := Option.bind_eq_some_iff.mp h
    obtain ⟨rfl, ho, hk⟩ := getObj_closed.mp hg
    obtain ⟨x0, h0, g1⟩ := Option.bind_eq_some_iff.mp g0
    obtain ⟨x1, h1, g2⟩ := Option.bind_eq_some_iff.mp g1
    obtain ⟨x2, h2, g3⟩ := Option.bind_eq_some_iff.mp g2
    cases g3
    exact ⟨fs, rfl, ho, (optF_iff reads_text (hk _ (by simp))).mp h0, (reqF_iff ChannelOpenInitOptions_reads (hk _ (by simp))).mp h1, (optF_iff reads_text (hk _ (by simp))).mp h2⟩
  · rintro ⟨fs, rfl, ho, h0, h1, h2⟩
    have c0 := may_count h0
    replace h0 := (optF_iff reads_text c0).mpr h0
    have c1 := has_count h1
    replace h1 := (reqF_iff ChannelOpenInitOptions_reads c1).mpr h1
    have c2 := may_count h2
    replace h2 := (optF_iff reads_text c2).mpr h2
    have hg : getObj true ["owner", "channel_open_init_options", "send_callbacks_to"] (.obj fs) = some fs := getObj_closed.mpr ⟨rfl, ho, by simp [c0, c1, c2]⟩
    simp [InstantiateMsg.jc, hg, h0, h1, h2]

theorem ExecuteMsg_reads : Reads ExecuteMsg.jc Api.Execute := by
  intro j m
  constructor
  · intro h
    simp only [ExecuteMsg.jc, matchToBind] at h
    split at h
    · split at h
      · next hk =>
        subst hk
        obtain ⟨fs, hg, g0⟩ := Option.bind_eq_some_iff.mp h
        obtain ⟨rfl, ho, hk⟩ := getObj_closed.mp hg
        obtain ⟨x0, h0, g1⟩ := Option.bind_eq_some_iff.mp g0
        cases g1
        exact ⟨_, rfl, fs, rfl, ho, (optF_iff ChannelOpenInitOptions_reads (hk _ (by simp))).mp h0⟩
      · split at h
        · next hk =>
          subst hk
          obtain ⟨fs, hg, g0⟩ := Option.bind_eq_some_iff.mp h
          obtain ⟨rfl, ho, hk⟩ := getObj_closed.mp hg
          cases g0
          exact ⟨_, rfl, fs, rfl, ho, trivial⟩
        · split at h
          · next hk =>
            subst hk
            obtain ⟨fs, hg, g0⟩ := Option.bind_eq_some_iff.mp h
            obtain ⟨rfl, ho, hk⟩ := getObj_closed.mp hg
            obtain ⟨x0, h0, g1⟩ := Option.bind_eq_some_iff.mp g0
            obtain ⟨x1, h1, g2⟩ := Option.bind_eq_some_iff.mp g1
            obtain ⟨x2, h2, g3⟩ := Option.bind_eq_some_iff.mp g2
            obtain ⟨x3, h3, g4⟩ := Option.bind_eq_some_iff.mp g3
            cases g4
            exact ⟨_, rfl, fs, rfl, ho, (nullListF_iff CosmosMsg_reads (hk _ (by simp))).mp h0, (defListF_iff QueryRequest_reads (hk _ (by simp))).mp h1, (optF_iff reads_text (hk _ (by simp))).mp h2, (optF_iff reads_num64 (hk _ (by simp))).mp h3⟩
          · split at h
            · next hk =>
              subst hk
              obtain ⟨fs, hg, g0⟩ := Option.bind_eq_some_iff.mp h
              obtain ⟨rfl, ho, hk⟩ := getObj_closed.mp hg
              obtain ⟨x0, h0, g1⟩ := Option.bind_eq_some_iff.mp g0
              cases g1
              exact ⟨_, rfl, fs, rfl, ho, (optF_iff reads_text (hk _ (by simp))).mp h0⟩
            · split at h
              · next hk =>
                subst hk
                obtain ⟨x, hx, rfl⟩ := Option.map_eq_some_iff.mp h
                exact ⟨_, rfl, (Action_reads _ _).mp hx⟩
              · cases h
    · cases h
  · cases m with
    | createChannel y0 =>
      rintro ⟨v, rfl, fs, rfl, ho, h0⟩
      have c0 := may_count h0
      replace h0 := (optF_iff ChannelOpenInitOptions_reads c0).mpr h0
      have hg : getObj true ["channel_open_init_options"] (.obj fs) = some fs := getObj_closed.mpr ⟨rfl, ho, by simp [c0]⟩
      simp [ExecuteMsg.jc, hg, h0]
    | closeChannel =>
      rintro ⟨v, rfl, fs, rfl, ho, -⟩
      have hg : getObj true [] (.obj fs) = some fs := getObj_closed.mpr ⟨rfl, ho, by simp []⟩
      simp [ExecuteMsg.jc, hg]
    | sendCosmosMsgs y0 y1 y2 y3 =>
      rintro ⟨v, rfl, fs, rfl, ho, h0, h1, h2, h3⟩
      have c0 := hasArray_count h0
      replace h0 := (nullListF_iff CosmosMsg_reads c0).mpr h0
      have c1 := mayArray_count h1
      replace h1 := (defListF_iff QueryRequest_reads c1).mpr h1
      have c2 := may_count h2
      replace h2 := (optF_iff reads_text c2).mpr h2
      have c3 := may_count h3
      replace h3 := (optF_iff reads_num64 c3).mpr h3
      have hg : getObj true ["messages", "queries", "packet_memo", "timeout_seconds"] (.obj fs) = some fs := getObj_closed.mpr ⟨rfl, ho, by simp [c0, c1, c2, c3]⟩
      simp [ExecuteMsg.jc, hg, h0, h1, h2, h3]
    | updateCallbackAddress y0 =>
      rintro ⟨v, rfl, fs, rfl, ho, h0⟩
      have c0 := may_count h0
      replace h0 := (optF_iff reads_text c0).mpr h0
      have hg : getObj true ["callback_address"] (.obj fs) = some fs := getObj_closed.mpr ⟨rfl, ho, by simp [c0]⟩
      simp [ExecuteMsg.jc, hg, h0]
    | updateOwnership x =>
      rintro ⟨v, rfl, hv⟩
      replace hv := (Action_reads _ _).mpr hv
      simp [ExecuteMsg.jc, hv]

theorem QueryMsg_reads : Reads QueryMsg.jc Api.QueryMessage := by
  intro j m
  constructor
  · intro h
    simp only [QueryMsg.jc, matchToBind] at h
    split at h
    · split at h
      · next hk =>
        subst hk
        obtain ⟨fs, hg, g0⟩ := Option.bind_eq_some_iff.mp h
        obtain ⟨rfl, ho, hk⟩ := getObj_closed.mp hg
        cases g0
        exact ⟨_, rfl, fs, rfl, ho, trivial⟩
      · split at h
        · next hk =>
          subst hk
          obtain ⟨fs, hg, g0⟩ := Option.bind_eq_some_iff.mp h
          obtain ⟨rfl, ho, hk⟩ := getObj_closed.mp hg
          cases g0
          exact ⟨_, rfl, fs, rfl, ho, trivial⟩
        · split at h
          · next hk =>
            subst hk
            obtain ⟨fs, hg, g0⟩ := Option.bind_eq_some_iff.mp h
            obtain ⟨rfl, ho, hk⟩ := getObj_closed.mp hg
            cases g0
            exact ⟨_, rfl, fs, rfl, ho, trivial⟩
          · cases h
    · cases h
  · cases m with
    | getChannel =>
      rintro ⟨v, rfl, fs, rfl, ho, -⟩
      have hg : getObj true [] (.obj fs) = some fs := getObj_closed.mpr ⟨rfl, ho, by simp []⟩
      simp [QueryMsg.jc, hg]
    | getContractState =>
      rintro ⟨v, rfl, fs, rfl, ho, -⟩
      have hg : getObj true [] (.obj fs) = some fs := getObj_closed.mpr ⟨rfl, ho, by simp []⟩
      simp [QueryMsg.jc, hg]
    | ownership =>
      rintro ⟨v, rfl, fs, rfl, ho, -⟩
      have hg : getObj true [] (.obj fs) = some fs := getObj_closed.mpr ⟨rfl, ho, by simp []⟩
      simp [QueryMsg.jc, hg]

theorem MigrateMsg_reads : Reads MigrateMsg.jc Api.Migrate := by
  intro j m
  constructor
  · intro h
    simp only [MigrateMsg.jc, matchToBind] at h
    obtain ⟨fs, hg, g0⟩ := Option.bind_eq_some_iff.mp h
    obtain ⟨rfl, ho, hk⟩ := getObj_closed.mp hg
    cases g0
    exact ⟨fs, rfl, ho, trivial⟩
  · rintro ⟨fs, rfl, ho, -⟩
    have hg : getObj true [] (.obj fs) = some fs := getObj_closed.mpr ⟨rfl, ho, by simp []⟩
    simp [MigrateMsg.jc, hg]

theorem IcaMetadata_reads : Reads IcaMetadata.jc Api.Metadata := by
  intro j m
  constructor
  · intro h
    simp only [IcaMetadata.jc, matchToBind] at h
    obtain ⟨fs, hg, g0⟩ := Option.bind_eq_some_iff.mp h
    obtain ⟨rfl, ho, hk⟩ := getObj_closed.mp hg
    obtain ⟨x0, h0, g1⟩ := Option.bind_eq_some_iff.mp g0
    obtain ⟨x1, h1, g2⟩ := Option.bind_eq_some_iff.mp g1
    obtain ⟨x2, h2, g3⟩ := Option.bind_eq_some_iff.mp g2
    obtain ⟨x3, h3, g4⟩ := Option.bind_eq_some_iff.mp g3
    obtain ⟨x4, h4, g5⟩ := Option.bind_eq_some_iff.mp g4
    obtain ⟨x5, h5, g6⟩ := Option.bind_eq_some_iff.mp g5
    cases g6
    exact ⟨fs, rfl, ho, (reqF_iff reads_text (hk _ (by simp))).mp h0, (reqF_iff reads_text (hk _ (by simp))).mp h1, (reqF_iff reads_text (hk _ (by simp))).mp h2, (reqF_iff reads_text (hk _ (by simp))).mp h3, (reqF_iff TxEncoding_reads (hk _ (by simp))).mp h4, (reqF_iff reads_text (hk _ (by simp))).mp h5⟩
  · rintro ⟨fs, rfl, ho, h0, h1, h2, h3, h4, h5⟩
    have c0 := has_count h0
    replace h0 := (reqF_iff reads_text c0).mpr h0
    have c1 := has_count h1
    replace h1 := (reqF_iff reads_text c1).mpr h1
    have c2 := has_count h2
    replace h2 := (reqF_iff reads_text c2).mpr h2
    have c3 := has_count h3
    replace h3 := (reqF_iff reads_text c3).mpr h3
    have c4 := has_count h4
    replace h4 := (reqF_iff TxEncoding_reads c4).mpr h4
    have c5 := has_count h5
    replace h5 := (reqF_iff reads_text c5).mpr h5
    have hg : getObj true ["version", "controller_connection_id", "host_connection_id", "address", "encoding", "tx_type"] (.obj fs) = some fs := getObj_closed.mpr ⟨rfl, ho, by simp [c0, c1, c2, c3, c4, c5]⟩
    simp [IcaMetadata.jc, hg, h0, h1, h2, h3, h4, h5]

theorem AckData_reads : Reads AckData.jc Api.Acknowledgement := by
  intro j m
  constructor
  · intro h
    simp only [AckData.jc, matchToBind] at h
    split at h
    · split at h
      · next hk =>
        subst hk
        obtain ⟨x, hx, rfl⟩ := Option.map_eq_some_iff.mp h
        exact ⟨_, rfl, (reads_base64 _ _).mp hx⟩
      · split at h
        · next hk =>
          subst hk
          obtain ⟨x, hx, rfl⟩ := Option.map_eq_some_iff.mp h
          exact ⟨_, rfl, (reads_text _ _).mp hx⟩
        · cases h
    · cases h
  · cases m with
    | result x =>
      rintro ⟨v, rfl, hv⟩
      replace hv := (reads_base64 _ _).mpr hv
      simp [AckData.jc, hv]
    | error x =>
      rintro ⟨v, rfl, hv⟩
      replace hv := (reads_text _ _).mpr hv
      simp [AckData.jc, hv]

end Ica
