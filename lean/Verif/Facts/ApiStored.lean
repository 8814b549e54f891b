import Verif.Facts.Api
import Verif.Spec.ApiStored
import Verif.Facts.Hex

/-!
# The codecs read callbacks and stored values (helper lemmas)

Generated by `tools/gen_api.py`; the shapes are those of `Verif/Spec/ApiStored.lean`.
-/
set_option linter.unusedSimpArgs false
set_option linter.unusedVariables false
namespace Ica
open Api

theorem IbcEndpoint_reads : Reads IbcEndpoint.jc Api.Endpoint := by
  intro j m
  constructor
  · intro h
    simp only [IbcEndpoint.jc, matchToBind] at h
    obtain ⟨fs, hg, g0⟩ := Option.bind_eq_some_iff.mp h
    obtain ⟨rfl, hk⟩ := getObj_open.mp hg
    obtain ⟨x0, h0, g1⟩ := Option.bind_eq_some_iff.mp g0
    obtain ⟨x1, h1, g2⟩ := Option.bind_eq_some_iff.mp g1
    cases g2
    exact ⟨fs, rfl, (reqF_iff reads_text (hk _ (by simp))).mp h0, (reqF_iff reads_text (hk _ (by simp))).mp h1⟩
  · rintro ⟨fs, rfl, h0, h1⟩
    have c0 := has_count h0
    replace h0 := (reqF_iff reads_text c0).mpr h0
    have c1 := has_count h1
    replace h1 := (reqF_iff reads_text c1).mpr h1
    have hg : getObj false ["port_id", "channel_id"] (.obj fs) = some fs := getObj_open.mpr ⟨rfl, by simp [c0, c1]⟩
    simp [IbcEndpoint.jc, hg, h0, h1]

theorem IbcChannel_reads : Reads IbcChannel.jc Api.Channel := by
  intro j m
  constructor
  · intro h
    simp only [IbcChannel.jc, matchToBind] at h
    obtain ⟨fs, hg, g0⟩ := Option.bind_eq_some_iff.mp h
    obtain ⟨rfl, hk⟩ := getObj_open.mp hg
    obtain ⟨x0, h0, g1⟩ := Option.bind_eq_some_iff.mp g0
    obtain ⟨x1, h1, g2⟩ := Option.bind_eq_some_iff.mp g1
    obtain ⟨x2, h2, g3⟩ := Option.bind_eq_some_iff.mp g2
    obtain ⟨x3, h3, g4⟩ := Option.bind_eq_some_iff.mp g3
    obtain ⟨x4, h4, g5⟩ := Option.bind_eq_some_iff.mp g4
    cases g5
    exact ⟨fs, rfl, (reqF_iff IbcEndpoint_reads (hk _ (by simp))).mp h0, (reqF_iff IbcEndpoint_reads (hk _ (by simp))).mp h1, (reqF_iff IbcOrder_reads (hk _ (by simp))).mp h2, (reqF_iff reads_text (hk _ (by simp))).mp h3, (reqF_iff reads_text (hk _ (by simp))).mp h4⟩
  · rintro ⟨fs, rfl, h0, h1, h2, h3, h4⟩
    have c0 := has_count h0
    replace h0 := (reqF_iff IbcEndpoint_reads c0).mpr h0
    have c1 := has_count h1
    replace h1 := (reqF_iff IbcEndpoint_reads c1).mpr h1
    have c2 := has_count h2
    replace h2 := (reqF_iff IbcOrder_reads c2).mpr h2
    have c3 := has_count h3
    replace h3 := (reqF_iff reads_text c3).mpr h3
    have c4 := has_count h4
    replace h4 := (reqF_iff reads_text c4).mpr h4
    have hg : getObj false ["endpoint", "counterparty_endpoint", "order", "version", "connection_id"] (.obj fs) = some fs := getObj_open.mpr ⟨rfl, by simp [c0, c1, c2, c3, c4]⟩
    simp [IbcChannel.jc, hg, h0, h1, h2, h3, h4]

theorem IbcPacket_reads : Reads IbcPacket.jc Api.Packet := by
  intro j m
  constructor
  · intro h
    simp only [IbcPacket.jc, matchToBind] at h
    obtain ⟨fs, hg, g0⟩ := Option.bind_eq_some_iff.mp h
    obtain ⟨rfl, hk⟩ := getObj_open.mp hg
    obtain ⟨x0, h0, g1⟩ := Option.bind_eq_some_iff.mp g0
    obtain ⟨x1, h1, g2⟩ := Option.bind_eq_some_iff.mp g1
    obtain ⟨x2, h2, g3⟩ := Option.bind_eq_some_iff.mp g2
    obtain ⟨x3, h3, g4⟩ := Option.bind_eq_some_iff.mp g3
    obtain ⟨x4, h4, g5⟩ := Option.bind_eq_some_iff.mp g4
    cases g5
    exact ⟨fs, rfl, (reqF_iff reads_base64 (hk _ (by simp))).mp h0, (reqF_iff IbcEndpoint_reads (hk _ (by simp))).mp h1, (reqF_iff IbcEndpoint_reads (hk _ (by simp))).mp h2, (reqF_iff reads_num64 (hk _ (by simp))).mp h3, (reqF_iff IbcTimeout_reads (hk _ (by simp))).mp h4⟩
  · rintro ⟨fs, rfl, h0, h1, h2, h3, h4⟩
    have c0 := has_count h0
    replace h0 := (reqF_iff reads_base64 c0).mpr h0
    have c1 := has_count h1
    replace h1 := (reqF_iff IbcEndpoint_reads c1).mpr h1
    have c2 := has_count h2
    replace h2 := (reqF_iff IbcEndpoint_reads c2).mpr h2
    have c3 := has_count h3
    replace h3 := (reqF_iff reads_num64 c3).mpr h3
    have c4 := has_count h4
    replace h4 := (reqF_iff IbcTimeout_reads c4).mpr h4
    have hg : getObj false ["data", "src", "dest", "sequence", "timeout"] (.obj fs) = some fs := getObj_open.mpr ⟨rfl, by simp [c0, c1, c2, c3, c4]⟩
    simp [IbcPacket.jc, hg, h0, h1, h2, h3, h4]

theorem IcaInfo_reads : Reads IcaInfo.jc Api.Account := by
  intro j m
  constructor
  · intro h
    simp only [IcaInfo.jc, matchToBind] at h
    obtain ⟨fs, hg, g0⟩ := Option.bind_eq_some_iff.mp h
    obtain ⟨rfl, ho, hk⟩ := getObj_closed.mp hg
    obtain ⟨x0, h0, g1⟩ := Option.bind_eq_some_iff.mp g0
    obtain ⟨x1, h1, g2⟩ := Option.bind_eq_some_iff.mp g1
    obtain ⟨x2, h2, g3⟩ := Option.bind_eq_some_iff.mp g2
    cases g3
    exact ⟨fs, rfl, ho, (reqF_iff reads_text (hk _ (by simp))).mp h0, (reqF_iff reads_text (hk _ (by simp))).mp h1, (reqF_iff TxEncoding_reads (hk _ (by simp))).mp h2⟩
  · rintro ⟨fs, rfl, ho, h0, h1, h2⟩
    have c0 := has_count h0
    replace h0 := (reqF_iff reads_text c0).mpr h0
    have c1 := has_count h1
    replace h1 := (reqF_iff reads_text c1).mpr h1
    have c2 := has_count h2
    replace h2 := (reqF_iff TxEncoding_reads c2).mpr h2
    have hg : getObj true ["ica_address", "channel_id", "encoding"] (.obj fs) = some fs := getObj_closed.mpr ⟨rfl, ho, by simp [c0, c1, c2]⟩
    simp [IcaInfo.jc, hg, h0, h1, h2]

theorem ContractState_reads : Reads ContractState.jc Api.ControllerState := by
  intro j m
  constructor
  · intro h
    simp only [ContractState.jc, matchToBind] at h
    obtain ⟨fs, hg, g0⟩ := Option.bind_eq_some_iff.mp h
    obtain ⟨rfl, hk⟩ := getObj_open.mp hg
    obtain ⟨x0, h0, g1⟩ := Option.bind_eq_some_iff.mp g0
    obtain ⟨x1, h1, g2⟩ := Option.bind_eq_some_iff.mp g1
    cases g2
    exact ⟨fs, rfl, (optF_iff IcaInfo_reads (hk _ (by simp))).mp h0, (optF_iff reads_text (hk _ (by simp))).mp h1⟩
  · rintro ⟨fs, rfl, h0, h1⟩
    have c0 := may_count h0
    replace h0 := (optF_iff IcaInfo_reads c0).mpr h0
    have c1 := may_count h1
    replace h1 := (optF_iff reads_text c1).mpr h1
    have hg : getObj false ["ica_info", "callback_address"] (.obj fs) = some fs := getObj_open.mpr ⟨rfl, by simp [c0, c1]⟩
    simp [ContractState.jc, hg, h0, h1]

theorem ChannelStatus_reads : Reads ChannelStatus.jc Api.Status := by
  intro j m
  constructor
  · intro h
    simp only [ChannelStatus.jc, matchToBind] at h
    split at h
    · split at h
      · next hk => subst hk; cases h; rfl
      · split at h
        · next hk => subst hk; cases h; rfl
        · split at h
          · next hk => subst hk; cases h; rfl
          · split at h
            · next hk => subst hk; cases h; rfl
            · split at h
              · next hk => subst hk; cases h; rfl
              · split at h
                · next hk => subst hk; cases h; rfl
                · split at h
                  · next hk => subst hk; cases h; rfl
                  · cases h
    · cases h
  · cases m with
    | uninitialized => rintro rfl; simp [ChannelStatus.jc, statusName]
    | init => rintro rfl; simp [ChannelStatus.jc, statusName]
    | tryOpen => rintro rfl; simp [ChannelStatus.jc, statusName]
    | opened => rintro rfl; simp [ChannelStatus.jc, statusName]
    | closed => rintro rfl; simp [ChannelStatus.jc, statusName]
    | flushing => rintro rfl; simp [ChannelStatus.jc, statusName]
    | flushComplete => rintro rfl; simp [ChannelStatus.jc, statusName]

theorem ChannelState_reads : Reads ChannelState.jc Api.TrackedChannel := by
  intro j m
  constructor
  · intro h
    simp only [ChannelState.jc, matchToBind] at h
    obtain ⟨fs, hg, g0⟩ := Option.bind_eq_some_iff.mp h
    obtain ⟨rfl, ho, hk⟩ := getObj_closed.mp hg
    obtain ⟨x0, h0, g1⟩ := Option.bind_eq_some_iff.mp g0
    obtain ⟨x1, h1, g2⟩ := Option.bind_eq_some_iff.mp g1
    cases g2
    exact ⟨fs, rfl, ho, (reqF_iff IbcChannel_reads (hk _ (by simp))).mp h0, (reqF_iff ChannelStatus_reads (hk _ (by simp))).mp h1⟩
  · rintro ⟨fs, rfl, ho, h0, h1⟩
    have c0 := has_count h0
    replace h0 := (reqF_iff IbcChannel_reads c0).mpr h0
    have c1 := has_count h1
    replace h1 := (reqF_iff ChannelStatus_reads c1).mpr h1
    have hg : getObj true ["channel", "channel_status"] (.obj fs) = some fs := getObj_closed.mpr ⟨rfl, ho, by simp [c0, c1]⟩
    simp [ChannelState.jc, hg, h0, h1]

theorem Ownership_reads : Reads Ownership.jc Api.OwnershipRecord := by
  intro j m
  constructor
  · intro h
    simp only [Ownership.jc, matchToBind] at h
    obtain ⟨fs, hg, g0⟩ := Option.bind_eq_some_iff.mp h
    obtain ⟨rfl, ho, hk⟩ := getObj_closed.mp hg
    obtain ⟨x0, h0, g1⟩ := Option.bind_eq_some_iff.mp g0
    obtain ⟨x1, h1, g2⟩ := Option.bind_eq_some_iff.mp g1
    obtain ⟨x2, h2, g3⟩ := Option.bind_eq_some_iff.mp g2
    cases g3
    exact ⟨fs, rfl, ho, (optF_iff reads_text (hk _ (by simp))).mp h0, (optF_iff reads_text (hk _ (by simp))).mp h1, (optF_iff Expiration_reads (hk _ (by simp))).mp h2⟩
  · rintro ⟨fs, rfl, ho, h0, h1, h2⟩
    have c0 := may_count h0
    replace h0 := (optF_iff reads_text c0).mpr h0
    have c1 := may_count h1
    replace h1 := (optF_iff reads_text c1).mpr h1
    have c2 := may_count h2
    replace h2 := (optF_iff Expiration_reads c2).mpr h2
    have hg : getObj true ["owner", "pending_owner", "pending_expiry"] (.obj fs) = some fs := getObj_closed.mpr ⟨rfl, ho, by simp [c0, c1, c2]⟩
    simp [Ownership.jc, hg, h0, h1, h2]

theorem ContractVersion_reads : Reads ContractVersion.jc Api.VersionRecord := by
  intro j m
  constructor
  · intro h
    simp only [ContractVersion.jc, matchToBind] at h
    obtain ⟨fs, hg, g0⟩ := Option.bind_eq_some_iff.mp h
    obtain ⟨rfl, ho, hk⟩ := getObj_closed.mp hg
    obtain ⟨x0, h0, g1⟩ := Option.bind_eq_some_iff.mp g0
    obtain ⟨x1, h1, g2⟩ := Option.bind_eq_some_iff.mp g1
    cases g2
    exact ⟨fs, rfl, ho, (reqF_iff reads_text (hk _ (by simp))).mp h0, (reqF_iff reads_text (hk _ (by simp))).mp h1⟩
  · rintro ⟨fs, rfl, ho, h0, h1⟩
    have c0 := has_count h0
    replace h0 := (reqF_iff reads_text c0).mpr h0
    have c1 := has_count h1
    replace h1 := (reqF_iff reads_text c1).mpr h1
    have hg : getObj true ["contract", "version"] (.obj fs) = some fs := getObj_closed.mpr ⟨rfl, ho, by simp [c0, c1]⟩
    simp [ContractVersion.jc, hg, h0, h1]

theorem DenomUnit_reads : Reads DenomUnit.jc Api.Unit := by
  intro j m
  constructor
  · intro h
    simp only [DenomUnit.jc, matchToBind] at h
    obtain ⟨fs, hg, g0⟩ := Option.bind_eq_some_iff.mp h
    obtain ⟨rfl, hk⟩ := getObj_open.mp hg
    obtain ⟨x0, h0, g1⟩ := Option.bind_eq_some_iff.mp g0
    obtain ⟨x1, h1, g2⟩ := Option.bind_eq_some_iff.mp g1
    obtain ⟨x2, h2, g3⟩ := Option.bind_eq_some_iff.mp g2
    cases g3
    exact ⟨fs, rfl, (reqF_iff reads_text (hk _ (by simp))).mp h0, (reqF_iff reads_num32 (hk _ (by simp))).mp h1, (reqF_iff (reads_many reads_text) (hk _ (by simp))).mp h2⟩
  · rintro ⟨fs, rfl, h0, h1, h2⟩
    have c0 := has_count h0
    replace h0 := (reqF_iff reads_text c0).mpr h0
    have c1 := has_count h1
    replace h1 := (reqF_iff reads_num32 c1).mpr h1
    have c2 := has_count h2
    replace h2 := (reqF_iff (reads_many reads_text) c2).mpr h2
    have hg : getObj false ["denom", "exponent", "aliases"] (.obj fs) = some fs := getObj_open.mpr ⟨rfl, by simp [c0, c1, c2]⟩
    simp [DenomUnit.jc, hg, h0, h1, h2]

theorem DenomMetadata_reads : Reads DenomMetadata.jc Api.Denomination := by
  intro j m
  constructor
  · intro h
    simp only [DenomMetadata.jc, matchToBind] at h
    obtain ⟨fs, hg, g0⟩ := Option.bind_eq_some_iff.mp h
    obtain ⟨rfl, hk⟩ := getObj_open.mp hg
    obtain ⟨x0, h0, g1⟩ := Option.bind_eq_some_iff.mp g0
    obtain ⟨x1, h1, g2⟩ := Option.bind_eq_some_iff.mp g1
    obtain ⟨x2, h2, g3⟩ := Option.bind_eq_some_iff.mp g2
    obtain ⟨x3, h3, g4⟩ := Option.bind_eq_some_iff.mp g3
    obtain ⟨x4, h4, g5⟩ := Option.bind_eq_some_iff.mp g4
    obtain ⟨x5, h5, g6⟩ := Option.bind_eq_some_iff.mp g5
    obtain ⟨x6, h6, g7⟩ := Option.bind_eq_some_iff.mp g6
    obtain ⟨x7, h7, g8⟩ := Option.bind_eq_some_iff.mp g7
    cases g8
    exact ⟨fs, rfl, (reqF_iff reads_text (hk _ (by simp))).mp h0, (reqF_iff (reads_many DenomUnit_reads) (hk _ (by simp))).mp h1, (reqF_iff reads_text (hk _ (by simp))).mp h2, (reqF_iff reads_text (hk _ (by simp))).mp h3, (reqF_iff reads_text (hk _ (by simp))).mp h4, (reqF_iff reads_text (hk _ (by simp))).mp h5, (reqF_iff reads_text (hk _ (by simp))).mp h6, (reqF_iff reads_text (hk _ (by simp))).mp h7⟩
  · rintro ⟨fs, rfl, h0, h1, h2, h3, h4, h5, h6, h7⟩
    have c0 := has_count h0
    replace h0 := (reqF_iff reads_text c0).mpr h0
    have c1 := has_count h1
    replace h1 := (reqF_iff (reads_many DenomUnit_reads) c1).mpr h1
    have c2 := has_count h2
    replace h2 := (reqF_iff reads_text c2).mpr h2
    have c3 := has_count h3
    replace h3 := (reqF_iff reads_text c3).mpr h3
    have c4 := has_count h4
    replace h4 := (reqF_iff reads_text c4).mpr h4
    have c5 := has_count h5
    replace h5 := (reqF_iff reads_text c5).mpr h5
    have c6 := has_count h6
    replace h6 := (reqF_iff reads_text c6).mpr h6
    have c7 := has_count h7
    replace h7 := (reqF_iff reads_text c7).mpr h7
    have hg : getObj false ["description", "denom_units", "base", "display", "name", "symbol", "uri", "uri_hash"] (.obj fs) = some fs := getObj_open.mpr ⟨rfl, by simp [c0, c1, c2, c3, c4, c5, c6, c7]⟩
    simp [DenomMetadata.jc, hg, h0, h1, h2, h3, h4, h5, h6, h7]

theorem CoinResponse_reads : Reads CoinResponse.jc Api.OneCoin := by
  intro j m
  constructor
  · intro h
    simp only [CoinResponse.jc, matchToBind] at h
    obtain ⟨fs, hg, g0⟩ := Option.bind_eq_some_iff.mp h
    obtain ⟨rfl, hk⟩ := getObj_open.mp hg
    obtain ⟨x0, h0, g1⟩ := Option.bind_eq_some_iff.mp g0
    cases g1
    exact ⟨fs, rfl, (reqF_iff Coin_reads (hk _ (by simp))).mp h0⟩
  · rintro ⟨fs, rfl, h0⟩
    have c0 := has_count h0
    replace h0 := (reqF_iff Coin_reads c0).mpr h0
    have hg : getObj false ["amount"] (.obj fs) = some fs := getObj_open.mpr ⟨rfl, by simp [c0]⟩
    simp [CoinResponse.jc, hg, h0]

theorem AllBalanceResponse_reads : Reads AllBalanceResponse.jc Api.AllCoins := by
  intro j m
  constructor
  · intro h
    simp only [AllBalanceResponse.jc, matchToBind] at h
    obtain ⟨fs, hg, g0⟩ := Option.bind_eq_some_iff.mp h
    obtain ⟨rfl, hk⟩ := getObj_open.mp hg
    obtain ⟨x0, h0, g1⟩ := Option.bind_eq_some_iff.mp g0
    cases g1
    exact ⟨fs, rfl, (reqF_iff (reads_many Coin_reads) (hk _ (by simp))).mp h0⟩
  · rintro ⟨fs, rfl, h0⟩
    have c0 := has_count h0
    replace h0 := (reqF_iff (reads_many Coin_reads) c0).mpr h0
    have hg : getObj false ["amount"] (.obj fs) = some fs := getObj_open.mpr ⟨rfl, by simp [c0]⟩
    simp [AllBalanceResponse.jc, hg, h0]

theorem DenomMetadataResponse_reads : Reads DenomMetadataResponse.jc Api.OneDenomination := by
  intro j m
  constructor
  · intro h
    simp only [DenomMetadataResponse.jc, matchToBind] at h
    obtain ⟨fs, hg, g0⟩ := Option.bind_eq_some_iff.mp h
    obtain ⟨rfl, hk⟩ := getObj_open.mp hg
    obtain ⟨x0, h0, g1⟩ := Option.bind_eq_some_iff.mp g0
    cases g1
    exact ⟨fs, rfl, (reqF_iff DenomMetadata_reads (hk _ (by simp))).mp h0⟩
  · rintro ⟨fs, rfl, h0⟩
    have c0 := has_count h0
    replace h0 := (reqF_iff DenomMetadata_reads c0).mpr h0
    have hg : getObj false ["metadata"] (.obj fs) = some fs := getObj_open.mpr ⟨rfl, by simp [c0]⟩
    simp [DenomMetadataResponse.jc, hg, h0]

theorem AllDenomMetadataResponse_reads : Reads AllDenomMetadataResponse.jc Api.AllDenominations := by
  intro j m
  constructor
  · intro h
    simp only [AllDenomMetadataResponse.jc, matchToBind] at h
    obtain ⟨fs, hg, g0⟩ := Option.bind_eq_some_iff.mp h
    obtain ⟨rfl, hk⟩ := getObj_open.mp hg
    obtain ⟨x0, h0, g1⟩ := Option.bind_eq_some_iff.mp g0
    obtain ⟨x1, h1, g2⟩ := Option.bind_eq_some_iff.mp g1
    cases g2
    exact ⟨fs, rfl, (reqF_iff (reads_many DenomMetadata_reads) (hk _ (by simp))).mp h0, (optF_iff reads_base64 (hk _ (by simp))).mp h1⟩
  · rintro ⟨fs, rfl, h0, h1⟩
    have c0 := has_count h0
    replace h0 := (reqF_iff (reads_many DenomMetadata_reads) c0).mpr h0
    have c1 := may_count h1
    replace h1 := (optF_iff reads_base64 c1).mpr h1
    have hg : getObj false ["metadata", "next_key"] (.obj fs) = some fs := getObj_open.mpr ⟨rfl, by simp [c0, c1]⟩
    simp [AllDenomMetadataResponse.jc, hg, h0, h1]

theorem BankQueryResponse_reads : Reads BankQueryResponse.jc Api.BankAnswer := by
  intro j m
  constructor
  · intro h
    simp only [BankQueryResponse.jc, matchToBind] at h
    split at h
    · split at h
      · next hk =>
        subst hk
        obtain ⟨x, hx, rfl⟩ := Option.map_eq_some_iff.mp h
        exact ⟨_, rfl, (CoinResponse_reads _ _).mp hx⟩
      · split at h
        · next hk =>
          subst hk
          obtain ⟨x, hx, rfl⟩ := Option.map_eq_some_iff.mp h
          exact ⟨_, rfl, (CoinResponse_reads _ _).mp hx⟩
        · split at h
          · next hk =>
            subst hk
            obtain ⟨x, hx, rfl⟩ := Option.map_eq_some_iff.mp h
            exact ⟨_, rfl, (AllBalanceResponse_reads _ _).mp hx⟩
          · split at h
            · next hk =>
              subst hk
              obtain ⟨x, hx, rfl⟩ := Option.map_eq_some_iff.mp h
              exact ⟨_, rfl, (DenomMetadataResponse_reads _ _).mp hx⟩
            · split at h
              · next hk =>
                subst hk
                obtain ⟨x, hx, rfl⟩ := Option.map_eq_some_iff.mp h
                exact ⟨_, rfl, (AllDenomMetadataResponse_reads _ _).mp hx⟩
              · cases h
    · cases h
  · cases m with
    | supply x =>
      rintro ⟨v, rfl, hv⟩
      replace hv := (CoinResponse_reads _ _).mpr hv
      simp [BankQueryResponse.jc, hv]
    | balance x =>
      rintro ⟨v, rfl, hv⟩
      replace hv := (CoinResponse_reads _ _).mpr hv
      simp [BankQueryResponse.jc, hv]
    | allBalances x =>
      rintro ⟨v, rfl, hv⟩
      replace hv := (AllBalanceResponse_reads _ _).mpr hv
      simp [BankQueryResponse.jc, hv]
    | denomMetadata x =>
      rintro ⟨v, rfl, hv⟩
      replace hv := (DenomMetadataResponse_reads _ _).mpr hv
      simp [BankQueryResponse.jc, hv]
    | allDenomMetadata x =>
      rintro ⟨v, rfl, hv⟩
      replace hv := (AllDenomMetadataResponse_reads _ _).mpr hv
      simp [BankQueryResponse.jc, hv]

theorem ContractInfoResponse_reads : Reads ContractInfoResponse.jc Api.ContractInfo := by
  intro j m
  constructor
  · intro h
    simp only [ContractInfoResponse.jc, matchToBind] at h
    obtain ⟨fs, hg, g0⟩ := Option.bind_eq_some_iff.mp h
    obtain ⟨rfl, hk⟩ := getObj_open.mp hg
    obtain ⟨x0, h0, g1⟩ := Option.bind_eq_some_iff.mp g0
    obtain ⟨x1, h1, g2⟩ := Option.bind_eq_some_iff.mp g1
    obtain ⟨x2, h2, g3⟩ := Option.bind_eq_some_iff.mp g2
    obtain ⟨x3, h3, g4⟩ := Option.bind_eq_some_iff.mp g3
    obtain ⟨x4, h4, g5⟩ := Option.bind_eq_some_iff.mp g4
    cases g5
    exact ⟨fs, rfl, (reqF_iff reads_num64 (hk _ (by simp))).mp h0, (reqF_iff reads_text (hk _ (by simp))).mp h1, (optF_iff reads_text (hk _ (by simp))).mp h2, (reqF_iff reads_truth (hk _ (by simp))).mp h3, (optF_iff reads_text (hk _ (by simp))).mp h4⟩
  · rintro ⟨fs, rfl, h0, h1, h2, h3, h4⟩
    have c0 := has_count h0
    replace h0 := (reqF_iff reads_num64 c0).mpr h0
    have c1 := has_count h1
    replace h1 := (reqF_iff reads_text c1).mpr h1
    have c2 := may_count h2
    replace h2 := (optF_iff reads_text c2).mpr h2
    have c3 := has_count h3
    replace h3 := (reqF_iff reads_truth c3).mpr h3
    have c4 := may_count h4
    replace h4 := (optF_iff reads_text c4).mpr h4
    have hg : getObj false ["code_id", "creator", "admin", "pinned", "ibc_port"] (.obj fs) = some fs := getObj_open.mpr ⟨rfl, by simp [c0, c1, c2, c3, c4]⟩
    simp [ContractInfoResponse.jc, hg, h0, h1, h2, h3, h4]

theorem CodeInfoResponse_reads : Reads CodeInfoResponse.jc Api.CodeInfo := by
  intro j m
  constructor
  · intro h
    simp only [CodeInfoResponse.jc, matchToBind] at h
    obtain ⟨fs, hg, g0⟩ := Option.bind_eq_some_iff.mp h
    obtain ⟨rfl, hk⟩ := getObj_open.mp hg
    obtain ⟨x0, h0, g1⟩ := Option.bind_eq_some_iff.mp g0
    obtain ⟨x1, h1, g2⟩ := Option.bind_eq_some_iff.mp g1
    obtain ⟨x2, h2, g3⟩ := Option.bind_eq_some_iff.mp g2
    cases g3
    exact ⟨fs, rfl, (reqF_iff reads_num64 (hk _ (by simp))).mp h0, (reqF_iff reads_text (hk _ (by simp))).mp h1, (reqF_iff reads_hex32 (hk _ (by simp))).mp h2⟩
  · rintro ⟨fs, rfl, h0, h1, h2⟩
    have c0 := has_count h0
    replace h0 := (reqF_iff reads_num64 c0).mpr h0
    have c1 := has_count h1
    replace h1 := (reqF_iff reads_text c1).mpr h1
    have c2 := has_count h2
    replace h2 := (reqF_iff reads_hex32 c2).mpr h2
    have hg : getObj false ["code_id", "creator", "checksum"] (.obj fs) = some fs := getObj_open.mpr ⟨rfl, by simp [c0, c1, c2]⟩
    simp [CodeInfoResponse.jc, hg, h0, h1, h2]

theorem WasmQueryResponse_reads : Reads WasmQueryResponse.jc Api.WasmAnswer := by
  intro j m
  constructor
  · intro h
    simp only [WasmQueryResponse.jc, matchToBind] at h
    split at h
    · split at h
      · next hk =>
        subst hk
        obtain ⟨x, hx, rfl⟩ := Option.map_eq_some_iff.mp h
        exact ⟨_, rfl, (reads_nullable ContractInfoResponse_reads _ _).mp hx⟩
      · split at h
        · next hk =>
          subst hk
          obtain ⟨x, hx, rfl⟩ := Option.map_eq_some_iff.mp h
          exact ⟨_, rfl, (reads_nullable CodeInfoResponse_reads _ _).mp hx⟩
        · split at h
          · next hk =>
            subst hk
            obtain ⟨x, hx, rfl⟩ := Option.map_eq_some_iff.mp h
            exact ⟨_, rfl, (reads_nullable reads_base64 _ _).mp hx⟩
          · split at h
            · next hk =>
              subst hk
              obtain ⟨x, hx, rfl⟩ := Option.map_eq_some_iff.mp h
              exact ⟨_, rfl, (reads_base64 _ _).mp hx⟩
            · cases h
    · cases h
  · cases m with
    | contractInfo x =>
      rintro ⟨v, rfl, hv⟩
      replace hv := (reads_nullable ContractInfoResponse_reads _ _).mpr hv
      simp [WasmQueryResponse.jc, hv]
    | codeInfo x =>
      rintro ⟨v, rfl, hv⟩
      replace hv := (reads_nullable CodeInfoResponse_reads _ _).mpr hv
      simp [WasmQueryResponse.jc, hv]
    | rawContractState x =>
      rintro ⟨v, rfl, hv⟩
      replace hv := (reads_nullable reads_base64 _ _).mpr hv
      simp [WasmQueryResponse.jc, hv]
    | smartContractState x =>
      rintro ⟨v, rfl, hv⟩
      replace hv := (reads_base64 _ _).mpr hv
      simp [WasmQueryResponse.jc, hv]

theorem Delegation_reads : Reads Delegation.jc Api.OneDelegation := by
  intro j m
  constructor
  · intro h
    simp only [Delegation.jc, matchToBind] at h
    obtain ⟨fs, hg, g0⟩ := Option.bind_eq_some_iff.mp h
    obtain ⟨rfl, ho, hk⟩ := getObj_closed.mp hg
    obtain ⟨x0, h0, g1⟩ := Option.bind_eq_some_iff.mp g0
    obtain ⟨x1, h1, g2⟩ := Option.bind_eq_some_iff.mp g1
    obtain ⟨x2, h2, g3⟩ := Option.bind_eq_some_iff.mp g2
    cases g3
    exact ⟨fs, rfl, ho, (reqF_iff reads_text (hk _ (by simp))).mp h0, (reqF_iff reads_text (hk _ (by simp))).mp h1, (reqF_iff Coin_reads (hk _ (by simp))).mp h2⟩
  · rintro ⟨fs, rfl, ho, h0, h1, h2⟩
    have c0 := has_count h0
    replace h0 := (reqF_iff reads_text c0).mpr h0
    have c1 := has_count h1
    replace h1 := (reqF_iff reads_text c1).mpr h1
    have c2 := has_count h2
    replace h2 := (reqF_iff Coin_reads c2).mpr h2
    have hg : getObj true ["delegator", "validator", "amount"] (.obj fs) = some fs := getObj_closed.mpr ⟨rfl, ho, by simp [c0, c1, c2]⟩
    simp [Delegation.jc, hg, h0, h1, h2]

theorem IcaDelegationResponse_reads : Reads IcaDelegationResponse.jc Api.MaybeDelegation := by
  intro j m
  constructor
  · intro h
    simp only [IcaDelegationResponse.jc, matchToBind] at h
    obtain ⟨fs, hg, g0⟩ := Option.bind_eq_some_iff.mp h
    obtain ⟨rfl, ho, hk⟩ := getObj_closed.mp hg
    obtain ⟨x0, h0, g1⟩ := Option.bind_eq_some_iff.mp g0
    cases g1
    exact ⟨fs, rfl, ho, (optF_iff Delegation_reads (hk _ (by simp))).mp h0⟩
  · rintro ⟨fs, rfl, ho, h0⟩
    have c0 := may_count h0
    replace h0 := (optF_iff Delegation_reads c0).mpr h0
    have hg : getObj true ["delegation"] (.obj fs) = some fs := getObj_closed.mpr ⟨rfl, ho, by simp [c0]⟩
    simp [IcaDelegationResponse.jc, hg, h0]

theorem IcaAllDelegationsResponse_reads : Reads IcaAllDelegationsResponse.jc Api.AllDelegations := by
  intro j m
  constructor
  · intro h
    simp only [IcaAllDelegationsResponse.jc, matchToBind] at h
    obtain ⟨fs, hg, g0⟩ := Option.bind_eq_some_iff.mp h
    obtain ⟨rfl, ho, hk⟩ := getObj_closed.mp hg
    obtain ⟨x0, h0, g1⟩ := Option.bind_eq_some_iff.mp g0
    cases g1
    exact ⟨fs, rfl, ho, (reqF_iff (reads_many Delegation_reads) (hk _ (by simp))).mp h0⟩
  · rintro ⟨fs, rfl, ho, h0⟩
    have c0 := has_count h0
    replace h0 := (reqF_iff (reads_many Delegation_reads) c0).mpr h0
    have hg : getObj true ["delegations"] (.obj fs) = some fs := getObj_closed.mpr ⟨rfl, ho, by simp [c0]⟩
    simp [IcaAllDelegationsResponse.jc, hg, h0]

theorem Validator_reads : Reads Validator.jc Api.OneValidator := by
  intro j m
  constructor
  · intro h
    simp only [Validator.jc, matchToBind] at h
    obtain ⟨fs, hg, g0⟩ := Option.bind_eq_some_iff.mp h
    obtain ⟨rfl, hk⟩ := getObj_open.mp hg
    obtain ⟨x0, h0, g1⟩ := Option.bind_eq_some_iff.mp g0
    obtain ⟨x1, h1, g2⟩ := Option.bind_eq_some_iff.mp g1
    obtain ⟨x2, h2, g3⟩ := Option.bind_eq_some_iff.mp g2
    obtain ⟨x3, h3, g4⟩ := Option.bind_eq_some_iff.mp g3
    cases g4
    exact ⟨fs, rfl, (reqF_iff reads_text (hk _ (by simp))).mp h0, (reqF_iff reads_decimal (hk _ (by simp))).mp h1, (reqF_iff reads_decimal (hk _ (by simp))).mp h2, (reqF_iff reads_decimal (hk _ (by simp))).mp h3⟩
  · rintro ⟨fs, rfl, h0, h1, h2, h3⟩
    have c0 := has_count h0
    replace h0 := (reqF_iff reads_text c0).mpr h0
    have c1 := has_count h1
    replace h1 := (reqF_iff reads_decimal c1).mpr h1
    have c2 := has_count h2
    replace h2 := (reqF_iff reads_decimal c2).mpr h2
    have c3 := has_count h3
    replace h3 := (reqF_iff reads_decimal c3).mpr h3
    have hg : getObj false ["address", "commission", "max_commission", "max_change_rate"] (.obj fs) = some fs := getObj_open.mpr ⟨rfl, by simp [c0, c1, c2, c3]⟩
    simp [Validator.jc, hg, h0, h1, h2, h3]

theorem AllValidatorsResponse_reads : Reads AllValidatorsResponse.jc Api.AllValidators := by
  intro j m
  constructor
  · intro h
    simp only [AllValidatorsResponse.jc, matchToBind] at h
    obtain ⟨fs, hg, g0⟩ := Option.bind_eq_some_iff.mp h
    obtain ⟨rfl, hk⟩ := getObj_open.mp hg
    obtain ⟨x0, h0, g1⟩ := Option.bind_eq_some_iff.mp g0
    cases g1
    exact ⟨fs, rfl, (reqF_iff (reads_many Validator_reads) (hk _ (by simp))).mp h0⟩
  · rintro ⟨fs, rfl, h0⟩
    have c0 := has_count h0
    replace h0 := (reqF_iff (reads_many Validator_reads) c0).mpr h0
    have hg : getObj false ["validators"] (.obj fs) = some fs := getObj_open.mpr ⟨rfl, by simp [c0]⟩
    simp [AllValidatorsResponse.jc, hg, h0]

theorem ValidatorResponse_reads : Reads ValidatorResponse.jc Api.MaybeValidator := by
  intro j m
  constructor
  · intro h
    simp only [ValidatorResponse.jc, matchToBind] at h
    obtain ⟨fs, hg, g0⟩ := Option.bind_eq_some_iff.mp h
    obtain ⟨rfl, hk⟩ := getObj_open.mp hg
    obtain ⟨x0, h0, g1⟩ := Option.bind_eq_some_iff.mp g0
    cases g1
    exact ⟨fs, rfl, (optF_iff Validator_reads (hk _ (by simp))).mp h0⟩
  · rintro ⟨fs, rfl, h0⟩
    have c0 := may_count h0
    replace h0 := (optF_iff Validator_reads c0).mpr h0
    have hg : getObj false ["validator"] (.obj fs) = some fs := getObj_open.mpr ⟨rfl, by simp [c0]⟩
    simp [ValidatorResponse.jc, hg, h0]

theorem BondedDenomResponse_reads : Reads BondedDenomResponse.jc Api.StakeDenom := by
  intro j m
  constructor
  · intro h
    simp only [BondedDenomResponse.jc, matchToBind] at h
    obtain ⟨fs, hg, g0⟩ := Option.bind_eq_some_iff.mp h
    obtain ⟨rfl, hk⟩ := getObj_open.mp hg
    obtain ⟨x0, h0, g1⟩ := Option.bind_eq_some_iff.mp g0
    cases g1
    exact ⟨fs, rfl, (reqF_iff reads_text (hk _ (by simp))).mp h0⟩
  · rintro ⟨fs, rfl, h0⟩
    have c0 := has_count h0
    replace h0 := (reqF_iff reads_text c0).mpr h0
    have hg : getObj false ["denom"] (.obj fs) = some fs := getObj_open.mpr ⟨rfl, by simp [c0]⟩
    simp [BondedDenomResponse.jc, hg, h0]

theorem StakingQueryResponse_reads : Reads StakingQueryResponse.jc Api.StakingAnswer := by
  intro j m
  constructor
  · intro h
    simp only [StakingQueryResponse.jc, matchToBind] at h
    split at h
    · split at h
      · next hk =>
        subst hk
        obtain ⟨x, hx, rfl⟩ := Option.map_eq_some_iff.mp h
        exact ⟨_, rfl, (BondedDenomResponse_reads _ _).mp hx⟩
      · split at h
        · next hk =>
          subst hk
          obtain ⟨x, hx, rfl⟩ := Option.map_eq_some_iff.mp h
          exact ⟨_, rfl, (IcaAllDelegationsResponse_reads _ _).mp hx⟩
        · split at h
          · next hk =>
            subst hk
            obtain ⟨x, hx, rfl⟩ := Option.map_eq_some_iff.mp h
            exact ⟨_, rfl, (IcaDelegationResponse_reads _ _).mp hx⟩
          · split at h
            · next hk =>
              subst hk
              obtain ⟨x, hx, rfl⟩ := Option.map_eq_some_iff.mp h
              exact ⟨_, rfl, (AllValidatorsResponse_reads _ _).mp hx⟩
            · split at h
              · next hk =>
                subst hk
                obtain ⟨x, hx, rfl⟩ := Option.map_eq_some_iff.mp h
                exact ⟨_, rfl, (ValidatorResponse_reads _ _).mp hx⟩
              · cases h
    · cases h
  · cases m with
    | bondedDenom x =>
      rintro ⟨v, rfl, hv⟩
      replace hv := (BondedDenomResponse_reads _ _).mpr hv
      simp [StakingQueryResponse.jc, hv]
    | allDelegations x =>
      rintro ⟨v, rfl, hv⟩
      replace hv := (IcaAllDelegationsResponse_reads _ _).mpr hv
      simp [StakingQueryResponse.jc, hv]
    | delegation x =>
      rintro ⟨v, rfl, hv⟩
      replace hv := (IcaDelegationResponse_reads _ _).mpr hv
      simp [StakingQueryResponse.jc, hv]
    | allValidators x =>
      rintro ⟨v, rfl, hv⟩
      replace hv := (AllValidatorsResponse_reads _ _).mpr hv
      simp [StakingQueryResponse.jc, hv]
    | validator x =>
      rintro ⟨v, rfl, hv⟩
      replace hv := (ValidatorResponse_reads _ _).mpr hv
      simp [StakingQueryResponse.jc, hv]

theorem IcaQueryResponse_reads : Reads IcaQueryResponse.jc Api.Answer := by
  intro j m
  constructor
  · intro h
    simp only [IcaQueryResponse.jc, matchToBind] at h
    split at h
    · split at h
      · next hk =>
        subst hk
        obtain ⟨x, hx, rfl⟩ := Option.map_eq_some_iff.mp h
        exact ⟨_, rfl, (BankQueryResponse_reads _ _).mp hx⟩
      · split at h
        · next hk =>
          subst hk
          obtain ⟨fs, hg, g0⟩ := Option.bind_eq_some_iff.mp h
          obtain ⟨rfl, ho, hk⟩ := getObj_closed.mp hg
          obtain ⟨x0, h0, g1⟩ := Option.bind_eq_some_iff.mp g0
          obtain ⟨x1, h1, g2⟩ := Option.bind_eq_some_iff.mp g1
          cases g2
          exact ⟨_, rfl, fs, rfl, ho, (reqF_iff reads_base64 (hk _ (by simp))).mp h0, (reqF_iff reads_text (hk _ (by simp))).mp h1⟩
        · split at h
          · next hk =>
            subst hk
            obtain ⟨x, hx, rfl⟩ := Option.map_eq_some_iff.mp h
            exact ⟨_, rfl, (WasmQueryResponse_reads _ _).mp hx⟩
          · split at h
            · next hk =>
              subst hk
              obtain ⟨x, hx, rfl⟩ := Option.map_eq_some_iff.mp h
              exact ⟨_, rfl, (StakingQueryResponse_reads _ _).mp hx⟩
            · cases h
    · cases h
  · cases m with
    | bank x =>
      rintro ⟨v, rfl, hv⟩
      replace hv := (BankQueryResponse_reads _ _).mpr hv
      simp [IcaQueryResponse.jc, hv]
    | stargate y0 y1 =>
      rintro ⟨v, rfl, fs, rfl, ho, h0, h1⟩
      have c0 := has_count h0
      replace h0 := (reqF_iff reads_base64 c0).mpr h0
      have c1 := has_count h1
      replace h1 := (reqF_iff reads_text c1).mpr h1
      have hg : getObj true ["data", "path"] (.obj fs) = some fs := getObj_closed.mpr ⟨rfl, ho, by simp [c0, c1]⟩
      simp [IcaQueryResponse.jc, hg, h0, h1]
    | wasm x =>
      rintro ⟨v, rfl, hv⟩
      replace hv := (WasmQueryResponse_reads _ _).mpr hv
      simp [IcaQueryResponse.jc, hv]
    | staking x =>
      rintro ⟨v, rfl, hv⟩
      replace hv := (StakingQueryResponse_reads _ _).mpr hv
      simp [IcaQueryResponse.jc, hv]

theorem IcaQueryResult_reads : Reads IcaQueryResult.jc Api.QueryOutcome := by
  intro j m
  constructor
  · intro h
    simp only [IcaQueryResult.jc, matchToBind] at h
    split at h
    · split at h
      · next hk =>
        subst hk
        obtain ⟨fs, hg, g0⟩ := Option.bind_eq_some_iff.mp h
        obtain ⟨rfl, ho, hk⟩ := getObj_closed.mp hg
        obtain ⟨x0, h0, g1⟩ := Option.bind_eq_some_iff.mp g0
        obtain ⟨x1, h1, g2⟩ := Option.bind_eq_some_iff.mp g1
        cases g2
        exact ⟨_, rfl, fs, rfl, ho, (reqF_iff reads_num64 (hk _ (by simp))).mp h0, (reqF_iff (reads_many IcaQueryResponse_reads) (hk _ (by simp))).mp h1⟩
      · split at h
        · next hk =>
          subst hk
          obtain ⟨x, hx, rfl⟩ := Option.map_eq_some_iff.mp h
          exact ⟨_, rfl, (reads_text _ _).mp hx⟩
        · cases h
    · cases h
  · cases m with
    | success y0 y1 =>
      rintro ⟨v, rfl, fs, rfl, ho, h0, h1⟩
      have c0 := has_count h0
      replace h0 := (reqF_iff reads_num64 c0).mpr h0
      have c1 := has_count h1
      replace h1 := (reqF_iff (reads_many IcaQueryResponse_reads) c1).mpr h1
      have hg : getObj true ["height", "responses"] (.obj fs) = some fs := getObj_closed.mpr ⟨rfl, ho, by simp [c0, c1]⟩
      simp [IcaQueryResult.jc, hg, h0, h1]
    | error x =>
      rintro ⟨v, rfl, hv⟩
      replace hv := (reads_text _ _).mpr hv
      simp [IcaQueryResult.jc, hv]

theorem CallbackMsg_reads : Reads CallbackMsg.jc Api.Callback := by
  intro j m
  constructor
  · intro h
    simp only [CallbackMsg.jc, matchToBind] at h
    split at h
    · split at h
      · next hk =>
        subst hk
        obtain ⟨fs, hg, g0⟩ := Option.bind_eq_some_iff.mp h
        obtain ⟨rfl, hk⟩ := getObj_open.mp hg
        obtain ⟨x0, h0, g1⟩ := Option.bind_eq_some_iff.mp g0
        obtain ⟨x1, h1, g2⟩ := Option.bind_eq_some_iff.mp g1
        obtain ⟨x2, h2, g3⟩ := Option.bind_eq_some_iff.mp g2
        obtain ⟨x3, h3, g4⟩ := Option.bind_eq_some_iff.mp g3
        cases g4
        exact ⟨_, rfl, fs, rfl, (reqF_iff AckData_reads (hk _ (by simp))).mp h0, (reqF_iff IbcPacket_reads (hk _ (by simp))).mp h1, (reqF_iff reads_text (hk _ (by simp))).mp h2, (optF_iff IcaQueryResult_reads (hk _ (by simp))).mp h3⟩
      · split at h
        · next hk =>
          subst hk
          obtain ⟨fs, hg, g0⟩ := Option.bind_eq_some_iff.mp h
          obtain ⟨rfl, hk⟩ := getObj_open.mp hg
          obtain ⟨x0, h0, g1⟩ := Option.bind_eq_some_iff.mp g0
          obtain ⟨x1, h1, g2⟩ := Option.bind_eq_some_iff.mp g1
          cases g2
          exact ⟨_, rfl, fs, rfl, (reqF_iff IbcPacket_reads (hk _ (by simp))).mp h0, (reqF_iff reads_text (hk _ (by simp))).mp h1⟩
        · split at h
          · next hk =>
            subst hk
            obtain ⟨fs, hg, g0⟩ := Option.bind_eq_some_iff.mp h
            obtain ⟨rfl, hk⟩ := getObj_open.mp hg
            obtain ⟨x0, h0, g1⟩ := Option.bind_eq_some_iff.mp g0
            obtain ⟨x1, h1, g2⟩ := Option.bind_eq_some_iff.mp g1
            obtain ⟨x2, h2, g3⟩ := Option.bind_eq_some_iff.mp g2
            cases g3
            exact ⟨_, rfl, fs, rfl, (reqF_iff IbcChannel_reads (hk _ (by simp))).mp h0, (reqF_iff reads_text (hk _ (by simp))).mp h1, (reqF_iff TxEncoding_reads (hk _ (by simp))).mp h2⟩
          · cases h
    · cases h
  · cases m with
    | onAcknowledgementPacketCallback y0 y1 y2 y3 =>
      rintro ⟨v, rfl, fs, rfl, h0, h1, h2, h3⟩
      have c0 := has_count h0
      replace h0 := (reqF_iff AckData_reads c0).mpr h0
      have c1 := has_count h1
      replace h1 := (reqF_iff IbcPacket_reads c1).mpr h1
      have c2 := has_count h2
      replace h2 := (reqF_iff reads_text c2).mpr h2
      have c3 := may_count h3
      replace h3 := (optF_iff IcaQueryResult_reads c3).mpr h3
      have hg : getObj false ["ica_acknowledgement", "original_packet", "relayer", "query_result"] (.obj fs) = some fs := getObj_open.mpr ⟨rfl, by simp [c0, c1, c2, c3]⟩
      simp [CallbackMsg.jc, hg, h0, h1, h2, h3]
    | onTimeoutPacketCallback y0 y1 =>
      rintro ⟨v, rfl, fs, rfl, h0, h1⟩
      have c0 := has_count h0
      replace h0 := (reqF_iff IbcPacket_reads c0).mpr h0
      have c1 := has_count h1
      replace h1 := (reqF_iff reads_text c1).mpr h1
      have hg : getObj false ["original_packet", "relayer"] (.obj fs) = some fs := getObj_open.mpr ⟨rfl, by simp [c0, c1]⟩
      simp [CallbackMsg.jc, hg, h0, h1]
    | onChannelOpenAckCallback y0 y1 y2 =>
      rintro ⟨v, rfl, fs, rfl, h0, h1, h2⟩
      have c0 := has_count h0
      replace h0 := (reqF_iff IbcChannel_reads c0).mpr h0
      have c1 := has_count h1
      replace h1 := (reqF_iff reads_text c1).mpr h1
      have c2 := has_count h2
      replace h2 := (reqF_iff TxEncoding_reads c2).mpr h2
      have hg : getObj false ["channel", "ica_address", "tx_encoding"] (.obj fs) = some fs := getObj_open.mpr ⟨rfl, by simp [c0, c1, c2]⟩
      simp [CallbackMsg.jc, hg, h0, h1, h2]

theorem ReceiverExecuteMsg_reads : Reads ReceiverExecuteMsg.jc Api.CallbackCall := by
  intro j m
  constructor
  · intro h
    simp only [ReceiverExecuteMsg.jc, matchToBind] at h
    split at h
    · split at h
      · next hk =>
        subst hk
        obtain ⟨x, hx, rfl⟩ := Option.map_eq_some_iff.mp h
        exact ⟨_, rfl, (CallbackMsg_reads _ _).mp hx⟩
      · cases h
    · cases h
  · cases m with
    | receiveIcaCallback x =>
      rintro ⟨v, rfl, hv⟩
      replace hv := (CallbackMsg_reads _ _).mpr hv
      simp [ReceiverExecuteMsg.jc, hv]

end Ica
