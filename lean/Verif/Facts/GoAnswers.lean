import Verif.Spec.GoAnswers
import Verif.Model.GoReader
import Verif.Facts.FormatBase64
import Verif.Props.Formats

/-!
# Lemmas for the answers that the Go client reads (C103)
-/
namespace Ica.GoMeans
open Format Api

/-! ## Numbers that fit -/

theorem fits_num {n : Nat} : Fits (.num n) ↔ n < 9223372036854775808 :=
  ⟨fun h => h n .here, fun h m hm => by cases hm; exact h⟩
theorem fits_null : Fits .null := fun _ h => by cases h
theorem fits_str {s : String} : Fits (.str s) := fun _ h => by cases h
theorem fits_bool {b : Bool} : Fits (.bool b) := fun _ h => by cases h
theorem fits_arr {l : List Json} : Fits (.arr l) ↔ ∀ x ∈ l, Fits x :=
  ⟨fun h x hx n hn => h n (.element hx hn), fun h n hn => by cases hn with | element hx hn => exact h _ hx n hn⟩
theorem fits_obj {fs : List (String × Json)} : Fits (.obj fs) ↔ ∀ p ∈ fs, Fits p.2 :=
  ⟨fun h p hp n hn => h n (.member (k := p.1) hp hn), fun h n hn => by cases hn with | member hx hn => exact h _ hx n hn⟩

/-! ## Reading -/

/-- A reading succeeds exactly if the numbers fit, and then gives the right value. -/
def Good {α : Type} (o : Option α) (F : Prop) (M : α → Prop) : Prop := (F ∧ ∃ g, o = some g ∧ M g) ∨ (¬ F ∧ o = none)

theorem Good.congr {α : Type} {o : Option α} {F F' : Prop} {M M' : α → Prop} (h : Good o F M) (hf : F ↔ F') (hm : ∀ g, M g → M' g) :
    Good o F' M' := by
  rcases h with ⟨f, g, e, m⟩ | ⟨f, e⟩
  · exact .inl ⟨hf.mp f, g, e, hm _ m⟩
  · exact .inr ⟨fun h => f (hf.mpr h), e⟩

theorem Good.pure {α : Type} {x : α} {M : α → Prop} (h : M x) : Good (some x) True M := .inl ⟨trivial, x, rfl, h⟩

theorem Good.bind {α β : Type} {o : Option α} {F F' : Prop} {M : α → Prop} {M' : β → Prop} {f : α → Option β} (h : Good o F M)
    (hf : ∀ x, M x → Good (f x) F' M') : Good (o.bind f) (F ∧ F') M' := by
  rcases h with ⟨a, g, rfl, m⟩ | ⟨a, rfl⟩
  · exact (hf g m).congr (by simp [a]) fun _ h => h
  · exact .inr ⟨fun h => a h.1, rfl⟩

theorem Good.map {α β : Type} {o : Option α} {F : Prop} {M : α → Prop} {M' : β → Prop} {f : α → β} (h : Good o F M)
    (hf : ∀ x, M x → M' (f x)) : Good (o.map f) F M' := by
  rcases h with ⟨a, g, rfl, m⟩ | ⟨a, rfl⟩
  · exact .inl ⟨a, _, rfl, hf g m⟩
  · exact .inr ⟨a, rfl⟩

/-- What is written is read. -/
def Reads {α β : Type} (dec : Json → Option β) (W : α → Json → Prop) (M : β → α → Prop) : Prop :=
  ∀ x j, W x j → Good (dec j) (Fits j) (M · x)

theorem reads_int {n : Nat} : Good (goInt (.num n)) (Fits (.num n)) (· = n) := by
  rw [fits_num]
  by_cases h : n < 9223372036854775808
  · exact .inl ⟨h, n, by simp [goInt, h], rfl⟩
  · exact .inr ⟨h, by simp [goInt, h]⟩

theorem reads_str {s : String} : Good (goString (.str s)) (Fits (.str s)) (· = s) := .inl ⟨fits_str, s, rfl, rfl⟩
theorem reads_bool {b : Bool} : Good (goBool (.bool b)) (Fits (.bool b)) (· = b) := .inl ⟨fits_bool, b, rfl, rfl⟩

theorem reads_nat {n : Nat} {j : Json} (h : QuotedNatural n j) : Good (goString j) (Fits j) (fun s => QuotedNatural n (.str s)) := by
  obtain ⟨s, rfl, h⟩ := h; exact reads_str.congr .rfl fun _ e => e ▸ ⟨s, rfl, h⟩
theorem reads_base64 {b : Bytes} {j : Json} (h : QuotedBase64 b j) : Good (goString j) (Fits j) (ShownBytes · b) := by
  obtain ⟨s, rfl, h⟩ := h; exact reads_str.congr .rfl fun _ e => e ▸ ⟨s, rfl, h⟩
theorem reads_decimal {d : Decimal} {j : Json} (h : WritesDecimal d j) : Good (goString j) (Fits j) (Shown WritesDecimal · d) := by
  obtain ⟨s, w, rfl, h⟩ := h; exact reads_str.congr .rfl fun _ e => e ▸ ⟨s, w, rfl, h⟩
theorem reads_checksum {d : Checksum} {j : Json} (h : WritesChecksum d j) : Good (goString j) (Fits j) (Shown WritesChecksum · d) := by
  obtain ⟨s, rfl, h⟩ := h; exact reads_str.congr .rfl fun _ e => e ▸ ⟨s, rfl, h⟩

theorem reads_pointer {α β : Type} {dec : Json → Option β} {W : α → Json → Prop} {M : β → α → Prop} (h : Reads dec W M)
    (hn : ∀ x, ¬ W x .null) {o : Option α} {j : Json} (hj : NullOr W o j) :
    Good (goPointer dec j) (Fits j) (Pointer M · o) := by
  cases o with
  | none => cases hj; exact .inl ⟨fits_null, _, rfl, .inl ⟨rfl, rfl⟩⟩
  | some x =>
    have : goPointer dec j = (dec j).map some := by
      cases j <;> first | rfl | exact absurd hj (hn x)
    rw [this]
    exact (h x j hj).map fun g hg => .inr ⟨g, x, rfl, rfl, hg⟩

theorem reads_text {o : Option String} : Good (goPointer goString (textOrNull o)) (Fits (textOrNull o)) (· = o) := by
  cases o with
  | none => exact .inl ⟨fits_null, _, rfl, rfl⟩
  | some s => exact .inl ⟨fits_str, _, rfl, rfl⟩

theorem reads_elements {α β : Type} {dec : Json → Option β} {W : α → Json → Prop} {M : β → α → Prop} (h : Reads dec W M) :
    ∀ {l : List α} {js : List Json}, List.Forall₂ W l js →
      Good (goElements dec js) (∀ x ∈ js, Fits x) (fun g => List.Forall₂ M g l) := by
  intro l js hl
  induction hl with
  | nil => exact .inl ⟨by simp, [], rfl, .nil⟩
  | @cons x j l js h1 _ ih =>
    refine ((h x j h1).bind (f := fun x => (goElements dec js).map (x :: ·)) fun g hg => ih.map fun gs hgs => ?_).congr
      (by simp) fun _ h => h
    exact .cons hg hgs

theorem reads_slice {α β : Type} {dec : Json → Option β} {W : α → Json → Prop} {M : β → α → Prop} (h : Reads dec W M)
    {l : List α} {j : Json} (hj : WritesMany W l j) : Good (goSlice dec j) (Fits j) (Slice M · l) := by
  obtain ⟨js, rfl, hl⟩ := hj
  rw [fits_arr]
  exact (reads_elements h hl).map fun g hg => ⟨g, rfl, hg⟩

/-! ## Looking up fields -/

theorem goField_nil {names : List String} {k : String} : goField names k [] = .null := rfl

macro "fields" : tactic => `(tactic| simp +decide only [goField, goStruct, List.filter_cons, List.filter_nil, ite_true, ite_false,
  List.getLast?_singleton, List.getLast?_nil, Option.map_some, Option.map_none, Option.getD_some, Option.getD_none])

theorem reads_order {o : IbcOrder} : Good (goString (.str (orderName o))) (Fits (.str (orderName o))) (Order · o) :=
  reads_str.congr .rfl fun _ h => by subst h; cases o <;> rfl
theorem reads_encoding {o : TxEncoding} : Good (goString (.str (encodingName o))) (Fits (.str (encodingName o))) (Encoding · o) :=
  reads_str.congr .rfl fun _ h => by subst h; cases o <;> rfl
theorem reads_status {o : ChannelStatus} : Good (goString (.str (statusName o))) (Fits (.str (statusName o))) (Status · o) :=
  reads_str.congr .rfl fun _ h => by subst h; cases o <;> rfl

/-- The numbers of an object fit if those of its members do. -/
macro "fitted" : tactic => `(tactic| (simp only [fits_obj, List.forall_mem_cons, List.forall_mem_nil, List.not_mem_nil, fits_str, fits_null,
  fits_bool, true_and, and_true, IsEmpty.forall_iff, implies_true]; try tauto))

/-- A pointer that is not set. -/
theorem pointer_null {β : Type} {dec : Json → Option β} : goPointer dec .null = some none := rfl

/-! ## The controller -/

theorem reads_endpoint (e : IbcEndpoint) :
    Good (GoController.IbcEndpoint.ofJson (endpointJson e)) (Fits (endpointJson e)) (ReadEndpoint · e) := by
  unfold GoController.IbcEndpoint.ofJson endpointJson
  fields
  refine (reads_str.bind fun _ h0 => reads_str.bind fun _ h1 => .pure ?_).congr ?_ fun _ h => h
  · exact ⟨h1, h0⟩
  · fitted

theorem reads_channel (c : IbcChannel) :
    Good (GoController.IbcChannel.ofJson (channelJson c)) (Fits (channelJson c)) (ReadIbcChannel · c) := by
  unfold GoController.IbcChannel.ofJson channelJson
  fields
  refine (reads_order.bind fun _ h0 => reads_str.bind fun _ h1 => reads_str.bind fun _ h2 => (reads_endpoint _).bind fun _ h3 => (reads_endpoint _).bind fun _ h4 => .pure ?_).congr ?_ fun _ h => h
  · exact ⟨h4, h3, h0, h1, h2⟩
  · fitted

theorem reads_channelState (c : ChannelState) :
    Good (GoController.ChannelState.ofJson (channelStateJson c)) (Fits (channelStateJson c)) (ReadChannel · c) := by
  unfold GoController.ChannelState.ofJson channelStateJson
  fields
  refine ((reads_channel _).bind fun _ h0 => reads_status.bind fun _ h1 => .pure ?_).congr ?_ fun _ h => h
  · exact ⟨h0, h1⟩
  · fitted

theorem reads_info : Reads GoController.IcaInfo.ofJson (fun (i : IcaInfo) j => j = .obj [("ica_address", .str i.icaAddress), ("channel_id", .str i.channelId),
    ("encoding", .str (encodingName i.encoding))])
    (fun (a : GoController.IcaInfo) (b : Ica.IcaInfo) => a.IcaAddress = b.icaAddress ∧ a.ChannelId = b.channelId ∧
    Encoding a.Encoding b.encoding) := by
  rintro i _ rfl
  unfold GoController.IcaInfo.ofJson
  fields
  refine (reads_str.bind fun _ h0 => reads_encoding.bind fun _ h1 => reads_str.bind fun _ h2 => .pure ?_).congr ?_ fun _ h => h
  · exact ⟨h2, h0, h1⟩
  · fitted

theorem nullOr_orNull {α : Type} {f : α → Json} {o : Option α} : NullOr (fun x j => j = f x) o (orNull f o) := by
  cases o <;> rfl

theorem reads_state (c : ContractState) :
    Good (GoController.State.ofJson (contractStateJson c)) (Fits (contractStateJson c)) (ReadState · c) := by
  unfold GoController.State.ofJson contractStateJson
  fields
  refine (reads_text.bind fun _ h0 => (reads_pointer reads_info (fun x h => by cases h) nullOr_orNull).bind fun _ h1 => .pure ?_).congr ?_ fun _ h => h
  · exact ⟨h0, h1⟩
  · fitted

theorem reads_expiry : Reads GoController.Expiration.ofJson WritesExpiry ReadExpiry := by
  intro e j h
  unfold GoController.Expiration.ofJson
  cases e with
  | atHeight n =>
    cases h
    fields
    refine ((reads_int.map (f := some) (M' := fun o => ∃ x, o = some x ∧ Num x n) fun x h => ⟨x, rfl, h⟩).bind fun _ h0 => .pure ?_).congr ?_ fun _ h => h
    · obtain ⟨x, rfl, h⟩ := h0
      exact ⟨x, rfl, h⟩
    · fitted
  | atTime n =>
    obtain ⟨q, hq, rfl⟩ := h
    obtain ⟨s, rfl, hs⟩ := hq
    fields
    exact .inl ⟨by fitted, _, rfl, s, rfl, s, rfl, hs⟩
  | never =>
    cases h
    exact .inl ⟨by fitted, _, rfl, _, rfl⟩

theorem reads_ownership : Reads GoController.Ownership_for_String.ofJson WritesOwnership ReadOwnership := by
  rintro o _ ⟨e, he, rfl⟩
  unfold GoController.Ownership_for_String.ofJson
  fields
  refine (reads_text.bind fun _ h0 => reads_text.bind fun _ h1 =>
    (reads_pointer reads_expiry (fun x h => by cases x <;> simp [WritesExpiry] at h) he).bind fun _ h2 => .pure ?_).congr ?_ fun _ h => h
  · exact ⟨h1, h0, h2⟩
  · fitted

/-! ## The owner contract -/

theorem oreads_endpoint (e : IbcEndpoint) :
    Good (GoOwner.IbcEndpoint.ofJson (endpointJson e)) (Fits (endpointJson e)) (OReadEndpoint · e) := by
  unfold GoOwner.IbcEndpoint.ofJson endpointJson
  fields
  refine (reads_str.bind fun _ h0 => reads_str.bind fun _ h1 => .pure ?_).congr ?_ fun _ h => h
  · exact ⟨h1, h0⟩
  · fitted

theorem oreads_channel (c : IbcChannel) :
    Good (GoOwner.IbcChannel.ofJson (channelJson c)) (Fits (channelJson c)) (OReadIbcChannel · c) := by
  unfold GoOwner.IbcChannel.ofJson channelJson
  fields
  refine (reads_str.bind fun _ h0 => reads_str.bind fun _ h1 => (oreads_endpoint _).bind fun _ h2 => (oreads_endpoint _).bind fun _ h3 => reads_order.bind fun _ h4 => .pure ?_).congr ?_ fun _ h => h
  · exact ⟨h3, h2, h4, h0, h1⟩
  · fitted

theorem reads_ownerState (admin : String) (code : UInt64) :
    Good (GoOwner.ContractState.ofJson (ownerStateJson admin code)) (Fits (ownerStateJson admin code)) (ReadOwnerState · admin code) := by
  unfold GoOwner.ContractState.ofJson ownerStateJson
  fields
  refine (reads_str.bind fun _ h0 => reads_int.bind fun _ h1 => .pure ?_).congr ?_ fun _ h => h
  · exact ⟨h0, h1⟩
  · fitted

theorem reads_ownerChannelState (c : IbcChannel) :
    Good (GoOwner.ChannelState.ofJson (.obj [("channel", channelJson c), ("channel_status", .str "STATE_OPEN")]))
      (Fits (.obj [("channel", channelJson c), ("channel_status", .str "STATE_OPEN")]))
      (fun g => OReadIbcChannel g.Channel c ∧ Status g.ChannelStatus .opened) := by
  unfold GoOwner.ChannelState.ofJson
  fields
  refine (reads_str.bind fun _ h0 => (oreads_channel _).bind fun _ h1 => .pure ?_).congr ?_ fun _ h => h
  · exact ⟨h1, h0⟩
  · fitted

theorem reads_registry (addr : String) (id : UInt64) (told : Option (IbcChannel × String × TxEncoding)) :
    Good (GoOwner.IcaContractState.ofJson (registryJson addr id told)) (Fits (registryJson addr id told)) (ReadRegistry · addr id told) := by
  unfold GoOwner.IcaContractState.ofJson registryJson
  fields
  refine ((reads_pointer (W := fun (t : IbcChannel × String × TxEncoding) j => j = .obj [("ica_id", .num id.toNat), ("ica_addr", .str t.2.1),
      ("tx_encoding", .str (encodingName t.2.2)), ("channel_state", .obj [("channel", channelJson t.1), ("channel_status", .str "STATE_OPEN")])])
      (M := fun (a : GoOwner.IcaState) (t : Ica.IbcChannel × String × Ica.TxEncoding) => Num a.IcaId id ∧ a.IcaAddr = t.2.1 ∧
    Encoding a.TxEncoding t.2.2 ∧ OReadIbcChannel a.ChannelState.Channel t.1 ∧ Status a.ChannelState.ChannelStatus .opened) ?_
      (fun x h => by cases h) nullOr_orNull).bind fun _ h0 => reads_str.bind fun _ h1 => .pure ?_).congr ?_ fun _ h => h
  · rintro t _ rfl
    unfold GoOwner.IcaState.ofJson
    fields
    refine (reads_encoding.bind fun _ h0 => (reads_ownerChannelState _).bind fun _ h1 => reads_str.bind fun _ h2 => reads_int.bind fun _ h3 => .pure ?_).congr ?_ fun _ h => h
    · exact ⟨h3, h2, h0, h1⟩
    · fitted
  · exact ⟨h1, h0⟩
  · fitted

/-! ## The callback counter -/

theorem creads_endpoint (e : IbcEndpoint) :
    Good (GoCounter.IbcEndpoint.ofJson (endpointJson e)) (Fits (endpointJson e)) (CReadEndpoint · e) := by
  unfold GoCounter.IbcEndpoint.ofJson endpointJson
  fields
  refine (reads_str.bind fun _ h0 => reads_str.bind fun _ h1 => .pure ?_).congr ?_ fun _ h => h
  · exact ⟨h1, h0⟩
  · fitted

theorem creads_channel (c : IbcChannel) :
    Good (GoCounter.IbcChannel.ofJson (channelJson c)) (Fits (channelJson c)) (CReadIbcChannel · c) := by
  unfold GoCounter.IbcChannel.ofJson channelJson
  fields
  refine (reads_str.bind fun _ h0 => (creads_endpoint _).bind fun _ h1 => (creads_endpoint _).bind fun _ h2 => reads_order.bind fun _ h3 => reads_str.bind fun _ h4 => .pure ?_).congr ?_ fun _ h => h
  · exact ⟨h2, h1, h3, h4, h0⟩
  · fitted


theorem reads_timeoutBlock : Reads GoCounter.IbcTimeoutBlock.ofJson
    (fun (b : IbcTimeoutBlock) j => j = .obj [("revision", .num b.revision.toNat), ("height", .num b.height.toNat)])
    (fun (a : GoCounter.IbcTimeoutBlock) (b : Ica.IbcTimeoutBlock) => Num a.Revision b.revision ∧ Num a.Height b.height) := by
  rintro b _ rfl
  unfold GoCounter.IbcTimeoutBlock.ofJson
  fields
  refine (reads_int.bind fun _ h0 => reads_int.bind fun _ h1 => .pure ?_).congr ?_ fun _ h => h
  · exact ⟨h0, h1⟩
  · fitted

theorem quotedNatural_null {n : Nat} : ¬ QuotedNatural n .null := by rintro ⟨s, h, -⟩; cases h
theorem quotedBase64_null {n : Bytes} : ¬ QuotedBase64 n .null := by rintro ⟨s, h, -⟩; cases h

theorem reads_quoted64 : Reads goString (fun n : UInt64 => QuotedNatural n.toNat) Shown64 := fun _ _ h => reads_nat h
theorem reads_quotedBytes : Reads goString QuotedBase64 ShownBytes := fun _ _ h => reads_base64 h

theorem reads_timeout : Reads GoCounter.IbcTimeout.ofJson WritesTimeout CReadTimeout := by
  rintro t _ ⟨s, hs, rfl⟩
  unfold GoCounter.IbcTimeout.ofJson
  fields
  refine ((reads_pointer reads_timeoutBlock (fun x h => by cases h) nullOr_orNull).bind fun _ h0 =>
    (reads_pointer reads_quoted64 (fun _ => quotedNatural_null) hs).bind fun _ h1 => .pure ?_).congr ?_ fun _ h => h
  · exact ⟨h0, h1⟩
  · fitted

theorem reads_packet : Reads GoCounter.IbcPacket.ofJson WritesPacket CReadPacket := by
  rintro p _ ⟨d, t, hd, ht, rfl⟩
  unfold GoCounter.IbcPacket.ofJson
  fields
  refine (reads_int.bind fun _ h0 => (creads_endpoint _).bind fun _ h1 => (reads_timeout _ _ ht).bind fun _ h2 =>
    (reads_base64 hd).bind fun _ h3 => (creads_endpoint _).bind fun _ h4 => .pure ?_).congr ?_ fun _ h => h
  · exact ⟨h3, h1, h4, h0, h2⟩
  · fitted

theorem reads_ack : Reads GoCounter.Data.ofJson WritesAck CReadAck := by
  intro a j h
  unfold GoCounter.Data.ofJson
  cases a with
  | result b =>
    obtain ⟨_, ⟨s, rfl, hs⟩, rfl⟩ := h
    fields
    exact .inl ⟨by fitted, _, rfl, s, rfl, s, rfl, hs⟩
  | error e =>
    cases h
    fields
    exact .inl ⟨by fitted, _, rfl, rfl⟩

theorem reads_coin : Reads GoCounter.Coin.ofJson WritesCoin CReadCoin := by
  rintro c _ ⟨a, ha, rfl⟩
  unfold GoCounter.Coin.ofJson
  fields
  refine ((reads_nat ha).bind fun _ h0 => reads_str.bind fun _ h1 => .pure ?_).congr ?_ fun _ h => h
  · exact ⟨h1, h0⟩
  · fitted

theorem reads_strings {l : List String} : Good (goSlice goString (.arr (l.map .str))) (Fits (.arr (l.map .str))) (· = some l) := by
  have h : goElements goString (l.map .str) = some l := by
    induction l with
    | nil => rfl
    | cons x l ih => simp [goElements, goString, ih]
  refine .inl ⟨?_, some l, by simp [goSlice, h], rfl⟩
  rw [fits_arr]
  intro x hx
  obtain ⟨s, -, rfl⟩ := List.mem_map.mp hx
  exact fits_str

theorem reads_unit : Reads GoCounter.DenomUnit.ofJson (fun (u : DenomUnit) j => j = .obj [("denom", .str u.denom), ("exponent", .num u.exponent.toNat),
    ("aliases", .arr (u.aliases.map .str))])
    (fun (a : GoCounter.DenomUnit) (b : Ica.DenomUnit) => a.Denom = b.denom ∧ a.Exponent = b.exponent.toNat ∧
    a.Aliases = some b.aliases) := by
  rintro u _ rfl
  unfold GoCounter.DenomUnit.ofJson
  fields
  refine (reads_str.bind fun _ h0 => reads_int.bind fun _ h1 => reads_strings.bind fun _ h2 => .pure ?_).congr ?_ fun _ h => h
  · exact ⟨h0, h1, h2⟩
  · fitted

theorem writesMany_map {α : Type} {f : α → Json} {l : List α} : WritesMany (fun x j => j = f x) l (.arr (l.map f)) :=
  ⟨_, rfl, by rw [List.forall₂_map_right_iff]; exact List.forall₂_same.mpr fun _ _ => rfl⟩

theorem reads_metadata : Reads GoCounter.DenomMetadata.ofJson (fun m j => j = denomMetadataJson m) CReadMetadata := by
  rintro m _ rfl
  unfold GoCounter.DenomMetadata.ofJson denomMetadataJson
  fields
  refine (reads_str.bind fun _ h0 => reads_str.bind fun _ h1 => reads_str.bind fun _ h2 => reads_str.bind fun _ h3 =>
    reads_str.bind fun _ h4 => (reads_slice reads_unit writesMany_map).bind fun _ h5 => reads_str.bind fun _ h6 =>
    reads_str.bind fun _ h7 => .pure ?_).congr ?_ fun _ h => h
  · exact ⟨h6, h4, h7, h0, h1, h2, h3, h5⟩
  · fitted

/-- A union: reading the pointer that is set. -/
theorem Good.pointer {α β : Type} {dec : Json → Option β} {j : Json} (hj : j ≠ .null) {F : Prop} {M : β → α → Prop} {x : α}
    (h : Good (dec j) F (M · x)) : Good (goPointer dec j) F (fun o => ∃ y, o = some y ∧ M y x) := by
  have : goPointer dec j = (dec j).map some := by
    cases j <;> first | rfl | exact absurd rfl hj
  rw [this]
  exact h.map fun g hg => ⟨g, rfl, hg⟩

theorem reads_bank : Reads GoCounter.BankQueryResponse.ofJson WritesBank CReadBank := by
  intro r j h
  unfold GoCounter.BankQueryResponse.ofJson
  cases r with
  | supply x =>
    obtain ⟨c, hc, rfl⟩ := h
    fields
    simp only [pointer_null, Option.bind_some]
    refine ((Good.pointer (M := fun (y : GoCounter.SupplyResponse) (x : Coin) => CReadCoin y.Amount x) (x := x.amount) (by simp) (F := Fits c)
      ?_).bind fun _ h0 => .pure ?_).congr ?_ fun _ h => h
    · unfold GoCounter.BankQueryResponse_Supply.ofJson GoCounter.SupplyResponse.ofJson
      fields
      exact ((reads_coin _ _ hc).bind fun _ h => .pure h).congr (and_iff_left trivial) fun _ h => h
    · obtain ⟨y, rfl, hy⟩ := h0
      exact ⟨y, rfl, hy⟩
    · fitted
  | balance x =>
    obtain ⟨c, hc, rfl⟩ := h
    fields
    simp only [pointer_null, Option.bind_some]
    refine ((Good.pointer (M := fun (y : GoCounter.BalanceResponse) (x : Coin) => CReadCoin y.Amount x) (x := x.amount) (by simp) (F := Fits c)
      ?_).bind fun _ h0 => .pure ?_).congr ?_ fun _ h => h
    · unfold GoCounter.BankQueryResponse_Balance.ofJson GoCounter.BalanceResponse.ofJson
      fields
      exact ((reads_coin _ _ hc).bind fun _ h => .pure h).congr (and_iff_left trivial) fun _ h => h
    · obtain ⟨y, rfl, hy⟩ := h0
      exact ⟨y, rfl, hy⟩
    · fitted
  | allBalances x =>
    obtain ⟨c, hc, rfl⟩ := h
    fields
    simp only [pointer_null, Option.bind_some]
    refine ((Good.pointer (M := fun (y : GoCounter.AllBalanceResponse) (x : List Coin) => Slice CReadCoin y.Amount x) (x := x.amount) (by simp) (F := Fits c)
      ?_).bind fun _ h0 => .pure ?_).congr ?_ fun _ h => h
    · unfold GoCounter.BankQueryResponse_AllBalances.ofJson GoCounter.AllBalanceResponse.ofJson
      fields
      exact ((reads_slice reads_coin hc).bind (M' := fun (y : GoCounter.AllBalanceResponse) => Slice CReadCoin y.Amount x.amount) fun _ h => .pure h).congr (and_iff_left trivial) fun _ h => h
    · obtain ⟨y, rfl, hy⟩ := h0
      exact ⟨y, rfl, hy⟩
    · fitted
  | denomMetadata x =>
    cases h
    fields
    simp only [pointer_null, Option.bind_some]
    refine ((Good.pointer (M := fun (y : GoCounter.DenomMetadataResponse) (x : DenomMetadata) => CReadMetadata y.Metadata x) (x := x.metadata) (by simp)
      (F := Fits (denomMetadataJson x.metadata)) ?_).bind fun _ h0 => .pure ?_).congr ?_ fun _ h => h
    · unfold GoCounter.BankQueryResponse_DenomMetadata.ofJson GoCounter.DenomMetadataResponse.ofJson
      fields
      exact ((reads_metadata _ _ rfl).bind fun _ h => .pure h).congr (and_iff_left trivial) fun _ h => h
    · obtain ⟨y, rfl, hy⟩ := h0
      exact ⟨y, rfl, hy⟩
    · fitted
  | allDenomMetadata x =>
    obtain ⟨k, hk, rfl⟩ := h
    fields
    simp only [pointer_null, Option.bind_some]
    refine ((Good.pointer (M := fun (y : GoCounter.AllDenomMetadataResponse) (x : AllDenomMetadataResponse) =>
      Slice CReadMetadata y.Metadata x.metadata ∧ Pointer ShownBytes y.NextKey x.nextKey) (x := x) (by simp)
      (F := Fits (.arr (x.metadata.map denomMetadataJson)) ∧ Fits k) ?_).bind fun _ h0 => .pure ?_).congr ?_ fun _ h => h
    · unfold GoCounter.BankQueryResponse_AllDenomMetadata.ofJson GoCounter.AllDenomMetadataResponse.ofJson
      fields
      exact ((reads_slice reads_metadata writesMany_map).bind fun _ h0 =>
        (reads_pointer reads_quotedBytes (fun _ => quotedBase64_null) hk).bind fun _ h1 => .pure ⟨h0, h1⟩).congr (by simp) fun _ h => h
    · obtain ⟨y, rfl, hy⟩ := h0
      exact ⟨y, rfl, hy⟩
    · fitted

theorem reads_wasm : Reads GoCounter.WasmQueryResponse.ofJson WritesWasm CReadWasm := by
  intro r j h
  unfold GoCounter.WasmQueryResponse.ofJson
  cases r with
  | contractInfo o =>
    cases h
    cases o with
    | none =>
      simp only [orNull]
      fields
      exact .inl ⟨by fitted, _, rfl, rfl⟩
    | some x =>
      simp only [orNull]
      fields
      simp only [pointer_null, Option.bind_some]
      refine ((Good.pointer (M := fun (y : GoCounter.ContractInfoResponse) (x : ContractInfoResponse) =>
        Num y.CodeId x.codeId ∧ y.Creator = x.creator ∧ y.Admin = x.admin ∧ y.Pinned = x.pinned ∧ y.IbcPort = x.ibcPort) (x := x) (by simp)
        (F := Fits (.num x.codeId.toNat) ∧ Fits (textOrNull x.admin) ∧ Fits (textOrNull x.ibcPort)) ?_).bind fun _ h0 => .pure ?_).congr ?_ fun _ h => h
      · unfold GoCounter.ContractInfoResponse.ofJson
        fields
        exact (reads_str.bind fun _ h0 => reads_text.bind fun _ h1 => reads_bool.bind fun _ h2 => reads_text.bind fun _ h3 =>
          reads_int.bind fun _ h4 => .pure ⟨h4, h0, h3, h2, h1⟩).congr (by fitted) fun _ h => h
      · obtain ⟨y, rfl, hy⟩ := h0
        exact ⟨y, rfl, hy⟩
      · fitted
  | codeInfo o =>
    obtain ⟨v, hv, rfl⟩ := h
    cases o with
    | none =>
      cases hv
      fields
      exact .inl ⟨by fitted, _, rfl, rfl⟩
    | some x =>
      obtain ⟨c, hc, rfl⟩ := hv
      fields
      simp only [pointer_null, Option.bind_some]
      refine ((Good.pointer (M := fun (y : GoCounter.CodeInfoResponse) (x : CodeInfoResponse) =>
        Num y.CodeId x.codeId ∧ y.Creator = x.creator ∧ Shown Api.WritesChecksum y.Checksum x.checksum) (x := x) (by simp)
        (F := Fits (.num x.codeId.toNat) ∧ Fits c) ?_).bind fun _ h0 => .pure ?_).congr ?_ fun _ h => h
      · unfold GoCounter.CodeInfoResponse.ofJson
        fields
        exact ((reads_checksum hc).bind fun _ h0 => reads_int.bind fun _ h1 => reads_str.bind fun _ h2 =>
          .pure ⟨h1, h2, h0⟩).congr (by fitted) fun _ h => h
      · obtain ⟨y, rfl, hy⟩ := h0
        exact ⟨y, rfl, hy⟩
      · fitted
  | rawContractState o =>
    obtain ⟨v, hv, rfl⟩ := h
    cases o with
    | none =>
      cases hv
      fields
      exact .inl ⟨by fitted, _, rfl, rfl⟩
    | some x =>
      obtain ⟨s, rfl, hs⟩ := hv
      fields
      exact .inl ⟨by fitted, _, rfl, s, rfl, s, rfl, hs⟩
  | smartContractState x =>
    obtain ⟨_, ⟨s, rfl, hs⟩, rfl⟩ := h
    fields
    exact .inl ⟨by fitted, _, rfl, s, rfl, s, rfl, hs⟩

theorem reads_delegation : Reads GoCounter.Delegation.ofJson WritesDelegation CReadDelegation := by
  rintro d _ ⟨c, hc, rfl⟩
  unfold GoCounter.Delegation.ofJson
  fields
  refine ((reads_coin _ _ hc).bind fun _ h0 => reads_str.bind fun _ h1 => reads_str.bind fun _ h2 => .pure ?_).congr ?_ fun _ h => h
  · exact ⟨h1, h2, h0⟩
  · fitted

theorem reads_validator : Reads GoCounter.Validator.ofJson WritesValidator CReadValidator := by
  rintro d _ ⟨a, b, c, ha, hb, hc, rfl⟩
  unfold GoCounter.Validator.ofJson
  fields
  refine (reads_str.bind fun _ h0 => (reads_decimal ha).bind fun _ h1 => (reads_decimal hc).bind fun _ h2 =>
    (reads_decimal hb).bind fun _ h3 => .pure ?_).congr ?_ fun _ h => h
  · exact ⟨h0, h1, h3, h2⟩
  · fitted

theorem reads_staking : Reads GoCounter.StakingQueryResponse.ofJson WritesStaking CReadStaking := by
  intro r j h
  unfold GoCounter.StakingQueryResponse.ofJson
  cases r with
  | bondedDenom x =>
    cases h
    fields
    exact .inl ⟨by fitted, _, rfl, _, rfl, rfl⟩
  | allDelegations x =>
    obtain ⟨c, hc, rfl⟩ := h
    fields
    simp only [pointer_null, Option.bind_some]
    refine ((Good.pointer (M := fun (y : GoCounter.IcaAllDelegationsResponse) (x : List Delegation) => Slice CReadDelegation y.Delegations x)
      (x := x.delegations) (by simp) (F := Fits c) ?_).bind fun _ h0 => .pure ?_).congr ?_ fun _ h => h
    · unfold GoCounter.StakingQueryResponse_AllDelegations.ofJson GoCounter.IcaAllDelegationsResponse.ofJson
      fields
      exact ((reads_slice reads_delegation hc).bind (M' := fun (y : GoCounter.IcaAllDelegationsResponse) => Slice CReadDelegation y.Delegations x.delegations) fun _ h => .pure h).congr (and_iff_left trivial) fun _ h => h
    · obtain ⟨y, rfl, hy⟩ := h0
      exact ⟨y, rfl, hy⟩
    · fitted
  | delegation x =>
    obtain ⟨c, hc, rfl⟩ := h
    fields
    simp only [pointer_null, Option.bind_some]
    refine ((Good.pointer (M := fun (y : GoCounter.IcaDelegationResponse) (x : Option Delegation) => Pointer CReadDelegation y.Delegation x)
      (x := x.delegation) (by simp) (F := Fits c) ?_).bind fun _ h0 => .pure ?_).congr ?_ fun _ h => h
    · unfold GoCounter.StakingQueryResponse_Delegation.ofJson GoCounter.IcaDelegationResponse.ofJson
      fields
      exact ((reads_pointer reads_delegation (by rintro x ⟨c, -, h⟩; cases h) hc).bind fun _ h => .pure h).congr (and_iff_left trivial) fun _ h => h
    · obtain ⟨y, rfl, hy⟩ := h0
      exact ⟨y, rfl, hy⟩
    · fitted
  | allValidators x =>
    obtain ⟨c, hc, rfl⟩ := h
    fields
    simp only [pointer_null, Option.bind_some]
    refine ((Good.pointer (M := fun (y : GoCounter.AllValidatorsResponse) (x : List Validator) => Slice CReadValidator y.Validators x)
      (x := x.validators) (by simp) (F := Fits c) ?_).bind fun _ h0 => .pure ?_).congr ?_ fun _ h => h
    · unfold GoCounter.StakingQueryResponse_AllValidators.ofJson GoCounter.AllValidatorsResponse.ofJson
      fields
      exact ((reads_slice reads_validator hc).bind (M' := fun (y : GoCounter.AllValidatorsResponse) => Slice CReadValidator y.Validators x.validators) fun _ h => .pure h).congr (and_iff_left trivial) fun _ h => h
    · obtain ⟨y, rfl, hy⟩ := h0
      exact ⟨y, rfl, hy⟩
    · fitted
  | validator x =>
    obtain ⟨c, hc, rfl⟩ := h
    fields
    simp only [pointer_null, Option.bind_some]
    refine ((Good.pointer (M := fun (y : GoCounter.ValidatorResponse) (x : Option Validator) => Pointer CReadValidator y.Validator x)
      (x := x.validator) (by simp) (F := Fits c) ?_).bind fun _ h0 => .pure ?_).congr ?_ fun _ h => h
    · unfold GoCounter.StakingQueryResponse_Validator.ofJson GoCounter.ValidatorResponse.ofJson
      fields
      exact ((reads_pointer reads_validator (by rintro x ⟨_, _, _, -, -, -, h⟩; cases h) hc).bind fun _ h => .pure h).congr (and_iff_left trivial) fun _ h => h
    · obtain ⟨y, rfl, hy⟩ := h0
      exact ⟨y, rfl, hy⟩
    · fitted

theorem reads_response : Reads GoCounter.IcaQueryResponse.ofJson WritesResponse CReadResponse := by
  intro r j h
  unfold GoCounter.IcaQueryResponse.ofJson
  cases r with
  | bank x =>
    obtain ⟨c, hc, rfl⟩ := h
    have hn : c ≠ .null := by
      rintro rfl
      cases x <;> simp [WritesBank] at hc
    fields
    simp only [pointer_null, Option.bind_some]
    refine (((reads_bank _ _ hc).pointer (M := CReadBank) (x := x) hn).bind fun _ h0 => .pure ?_).congr ?_ fun _ h => h
    · obtain ⟨y, rfl, hy⟩ := h0
      exact ⟨y, rfl, hy⟩
    · fitted
  | stargate data path =>
    obtain ⟨_, ⟨s, rfl, hs⟩, rfl⟩ := h
    fields
    exact .inl ⟨by fitted, _, rfl, _, rfl, rfl, s, rfl, hs⟩
  | wasm x =>
    obtain ⟨c, hc, rfl⟩ := h
    have hn : c ≠ .null := by
      rintro rfl
      cases x <;> simp [WritesWasm] at hc
    fields
    simp only [pointer_null, Option.bind_some]
    refine (((reads_wasm _ _ hc).pointer (M := CReadWasm) (x := x) hn).bind fun _ h0 => .pure ?_).congr ?_ fun _ h => h
    · obtain ⟨y, rfl, hy⟩ := h0
      exact ⟨y, rfl, hy⟩
    · fitted
  | staking x =>
    obtain ⟨c, hc, rfl⟩ := h
    have hn : c ≠ .null := by
      rintro rfl
      cases x <;> simp [WritesStaking] at hc
    fields
    simp only [pointer_null, Option.bind_some]
    refine (((reads_staking _ _ hc).pointer (M := CReadStaking) (x := x) hn).bind fun _ h0 => .pure ?_).congr ?_ fun _ h => h
    · obtain ⟨y, rfl, hy⟩ := h0
      exact ⟨y, rfl, hy⟩
    · fitted

theorem reads_result : Reads GoCounter.IcaQueryResult.ofJson WritesResult CReadResult := by
  intro r j h
  unfold GoCounter.IcaQueryResult.ofJson
  cases r with
  | success n rs =>
    obtain ⟨l, hl, rfl⟩ := h
    fields
    simp only [pointer_null, Option.bind_some]
    refine ((Good.pointer (M := fun (y : GoCounter.IcaQueryResult_Success) (x : UInt64 × List IcaQueryResponse) => Num y.Height x.1 ∧
      Slice CReadResponse y.Responses x.2) (x := (n, rs)) (by simp) (F := Fits (.num n.toNat) ∧ Fits l) ?_).bind fun _ h0 => .pure ?_).congr ?_ fun _ h => h
    · unfold GoCounter.IcaQueryResult_Success.ofJson
      fields
      exact (reads_int.bind fun _ h0 => (reads_slice reads_response hl).bind fun _ h1 => .pure ⟨h0, h1⟩).congr (by simp) fun _ h => h
    · obtain ⟨y, rfl, hy⟩ := h0
      exact ⟨y, rfl, hy⟩
    · fitted
  | error e =>
    cases h
    fields
    exact .inl ⟨by fitted, _, rfl, rfl⟩

theorem reads_callback : Reads GoCounter.IcaControllerCallbackMsg.ofJson
    (fun m x => WritesCallback m (.obj [("receive_ica_callback", x)])) CReadCallback := by
  rintro m j ⟨v, hv, h⟩
  cases hv
  unfold GoCounter.IcaControllerCallbackMsg.ofJson
  cases m with
  | onAcknowledgementPacketCallback ack p relayer result =>
    obtain ⟨a, q, ha, hq, more, hm, rfl⟩ := h
    fields
    simp only [pointer_null, Option.bind_some]
    refine ((Good.pointer (M := fun (y : GoCounter.IcaControllerCallbackMsg_OnAcknowledgementPacketCallback) (_ : Unit) =>
      CReadAck y.IcaAcknowledgement ack ∧ CReadPacket y.OriginalPacket p ∧ y.Relayer = relayer ∧
      Pointer CReadResult y.QueryResult result) (x := ()) (by simp) (F := Fits a ∧ Fits q ∧ ∀ z ∈ more, Fits z.2) ?_).bind fun _ h0 => .pure ?_).congr ?_ fun _ h => h
    · unfold GoCounter.IcaControllerCallbackMsg_OnAcknowledgementPacketCallback.ofJson
      cases result with
      | none =>
        cases hm
        simp only [List.append_nil]
        fields
        exact ((reads_ack _ _ ha).bind fun _ h0 => (reads_packet _ _ hq).bind fun _ h1 =>
          (reads_pointer reads_result (o := none) (by rintro x h; cases x <;> simp [WritesResult] at h) rfl).bind fun _ h2 =>
          reads_str.bind fun _ h3 => .pure ⟨h0, h1, h3, h2⟩).congr (by fitted) fun _ h => h
      | some r =>
        obtain ⟨t, ht, rfl⟩ := hm
        simp only [List.cons_append, List.nil_append]
        fields
        exact ((reads_ack _ _ ha).bind fun _ h0 => (reads_packet _ _ hq).bind fun _ h1 =>
          (reads_pointer reads_result (o := some r) (by rintro x h; cases x <;> simp [WritesResult] at h) ht).bind fun _ h2 =>
          reads_str.bind fun _ h3 => .pure ⟨h0, h1, h3, h2⟩).congr (by fitted) fun _ h => h
    · obtain ⟨y, rfl, hy⟩ := h0
      exact ⟨y, rfl, hy⟩
    · simp only [fits_obj, List.forall_mem_append, List.forall_mem_cons, List.not_mem_nil, fits_str, and_true, IsEmpty.forall_iff,
        implies_true, and_assoc]
  | onTimeoutPacketCallback p relayer =>
    obtain ⟨q, hq, rfl⟩ := h
    fields
    simp only [pointer_null, Option.bind_some]
    refine ((Good.pointer (M := fun (y : GoCounter.IcaControllerCallbackMsg_OnTimeoutPacketCallback) (_ : Unit) =>
      CReadPacket y.OriginalPacket p ∧ y.Relayer = relayer) (x := ()) (by simp) (F := Fits q) ?_).bind fun _ h0 => .pure ?_).congr ?_ fun _ h => h
    · unfold GoCounter.IcaControllerCallbackMsg_OnTimeoutPacketCallback.ofJson
      fields
      exact ((reads_packet _ _ hq).bind fun _ h1 => reads_str.bind fun _ h3 => .pure ⟨h1, h3⟩).congr (by fitted) fun _ h => h
    · obtain ⟨y, rfl, hy⟩ := h0
      exact ⟨y, rfl, hy⟩
    · fitted
  | onChannelOpenAckCallback c addr e =>
    cases h
    fields
    simp only [pointer_null, Option.bind_some]
    refine ((Good.pointer (M := fun (y : GoCounter.IcaControllerCallbackMsg_OnChannelOpenAckCallback) (_ : Unit) =>
      CReadIbcChannel y.Channel c ∧ y.IcaAddress = addr ∧ Encoding y.TxEncoding e) (x := ()) (by simp) (F := Fits (channelJson c)) ?_).bind
      fun _ h0 => .pure ?_).congr ?_ fun _ h => h
    · unfold GoCounter.IcaControllerCallbackMsg_OnChannelOpenAckCallback.ofJson
      fields
      exact (reads_encoding.bind fun _ h0 => (creads_channel _).bind fun _ h1 => reads_str.bind fun _ h3 => .pure ⟨h1, h3, h0⟩).congr (by fitted) fun _ h => h
    · obtain ⟨y, rfl, hy⟩ := h0
      exact ⟨y, rfl, hy⟩
    · fitted

theorem reads_counter {a b c : List CallbackMsg} {j : Json} (h : WritesCounter a b c j) :
    Good (GoCounter.CallbackCounter.ofJson j) (Fits j) (CReadCounter · a b c) := by
  obtain ⟨x, y, z, rfl, hx, hy, hz⟩ := h
  unfold GoCounter.CallbackCounter.ofJson
  fields
  refine ((reads_slice reads_callback ⟨y, rfl, hy⟩).bind fun _ h0 => (reads_slice reads_callback ⟨x, rfl, hx⟩).bind fun _ h1 =>
    (reads_slice reads_callback ⟨z, rfl, hz⟩).bind fun _ h2 => .pure ?_).congr ?_ fun _ h => h
  · exact ⟨h1, h0, h2⟩
  · fitted

/-! ## The Go value determines the answer -/

theorem order_inj {s : String} {a b : IbcOrder} (ha : Order s a) (hb : Order s b) : a = b := by
  cases a <;> cases b <;> simp_all [Order]
theorem encoding_inj {s : String} {a b : TxEncoding} (ha : Encoding s a) (hb : Encoding s b) : a = b := by
  cases a <;> cases b <;> simp_all [Encoding]
theorem status_inj {s : String} {a b : ChannelStatus} (ha : Status s a) (hb : Status s b) : a = b := by
  cases a <;> cases b <;> simp_all [Status]
theorem pointer_inj {α β : Type} {r : α → β → Prop} (h : ∀ x a b, r x a → r x b → a = b) {o : Option α} {a b : Option β}
    (ha : Pointer r o a) (hb : Pointer r o b) : a = b := by
  rcases ha with ⟨rfl, rfl⟩ | ⟨x, y, rfl, rfl, h1⟩
  · rcases hb with ⟨-, rfl⟩ | ⟨x, y, h2, -⟩
    · rfl
    · cases h2
  · rcases hb with ⟨h2, -⟩ | ⟨x', y', h2, rfl, h3⟩
    · cases h2
    · cases h2
      rw [h _ _ _ h1 h3]
theorem shown64_inj {s : String} {a b : UInt64} (ha : Shown64 s a) (hb : Shown64 s b) : a = b := by
  obtain ⟨x, e, -, -, -, h1⟩ := ha
  obtain ⟨y, e', -, -, -, h2⟩ := hb
  cases e
  cases e'
  exact UInt64.toNat_inj.mp (h1.symm.trans h2)
theorem readExpiry_inj {g : GoController.Expiration} {a b : Expiration} (ha : ReadExpiry g a) (hb : ReadExpiry g b) : a = b := by
  cases a <;> cases b <;> simp only [ReadExpiry] at ha hb
  case atHeight.atHeight =>
    obtain ⟨x, rfl, h1⟩ := ha
    obtain ⟨y, e, h2⟩ := hb
    cases e
    rw [UInt64.toNat_inj.mp (h1.symm.trans h2)]
  case atTime.atTime =>
    obtain ⟨x, rfl, h1⟩ := ha
    obtain ⟨y, e, h2⟩ := hb
    cases e
    rw [shown64_inj h1 h2]
  case never.never => rfl
  all_goals first
    | (obtain ⟨x, rfl, -⟩ := ha; obtain ⟨y, e, -⟩ := hb; cases e; done)
    | (obtain ⟨x, rfl, -⟩ := ha; obtain ⟨y, e⟩ := hb; cases e; done)
    | (obtain ⟨x, rfl⟩ := ha; obtain ⟨y, e, -⟩ := hb; cases e; done)
    | (obtain ⟨x, e1⟩ := ha; subst e1; obtain ⟨y, e⟩ := hb; cases e.1; done)
    | (obtain ⟨x, e1⟩ := hb; subst e1; obtain ⟨y, e⟩ := ha; cases e.1; done)
theorem endpoint_inj {g : GoController.IbcEndpoint} {a b : IbcEndpoint} (ha : ReadEndpoint g a) (hb : ReadEndpoint g b) : a = b := by
  obtain ⟨p, c⟩ := a
  obtain ⟨p', c'⟩ := b
  obtain ⟨rfl, rfl⟩ := ha
  obtain ⟨rfl, rfl⟩ := hb
  rfl
theorem ibcChannel_inj {g : GoController.IbcChannel} {a b : IbcChannel} (ha : ReadIbcChannel g a) (hb : ReadIbcChannel g b) : a = b := by
  obtain ⟨a1, a2, a3, a4, a5⟩ := a
  obtain ⟨b1, b2, b3, b4, b5⟩ := b
  obtain ⟨h1, h2, h3, rfl, rfl⟩ := ha
  obtain ⟨k1, k2, k3, rfl, rfl⟩ := hb
  cases endpoint_inj h1 k1
  cases endpoint_inj h2 k2
  cases order_inj h3 k3
  rfl
theorem oendpoint_inj {g : GoOwner.IbcEndpoint} {a b : IbcEndpoint} (ha : OReadEndpoint g a) (hb : OReadEndpoint g b) : a = b := by
  obtain ⟨p, c⟩ := a
  obtain ⟨p', c'⟩ := b
  obtain ⟨rfl, rfl⟩ := ha
  obtain ⟨rfl, rfl⟩ := hb
  rfl
theorem oibcChannel_inj {g : GoOwner.IbcChannel} {a b : IbcChannel} (ha : OReadIbcChannel g a) (hb : OReadIbcChannel g b) : a = b := by
  obtain ⟨a1, a2, a3, a4, a5⟩ := a
  obtain ⟨b1, b2, b3, b4, b5⟩ := b
  obtain ⟨h1, h2, h3, rfl, rfl⟩ := ha
  obtain ⟨k1, k2, k3, rfl, rfl⟩ := hb
  cases oendpoint_inj h1 k1
  cases oendpoint_inj h2 k2
  cases order_inj h3 k3
  rfl

end Ica.GoMeans
