import Verif.Spec.Readme
import Verif.Props.Earlier
import Verif.Props.Use
import Verif.Props.Api

/-!
# The example of the README (C128)

The README shows one message and says that it delegates and votes. The contract refuses it: the member that holds the vote is called
`option` since the crate uses CosmWasm 2 (v0.20.0), and the README still has the name of before, `vote`.
-/
namespace Ica
open Spec

/-- **C128** (the README's claim is false). The message of the README is refused, whoever sends it, in every state, and nothing
changes. -/
theorem C128_readme_refused (api : Api) (env : Env) (sender : String) (raw : Raw.RawStore) :
    Raw.vmExecute api env sender (utf8 readmeExample) raw = (.err (.std "Error parsing into type"), raw) := by
  have h : ExecuteMsg.jc.ofBytes (utf8 readmeExample) = none := by decide +kernel
  unfold Raw.vmExecute Raw.withMsg
  rw [h]
  rfl

/-- It is a delegation and a vote all right, but for the name of one member. -/
theorem C128_readme_means : jsonOfBytes (utf8 readmeExample) =
    some (delegateAndVote "vote" "validatorAddress" "uatom" "10000000" 1 "yes") := by
  have h : (jsonOfBytes (utf8 readmeExample)).map jsonToBytes =
      some (jsonToBytes (delegateAndVote "vote" "validatorAddress" "uatom" "10000000" 1 "yes")) := by decide +kernel
  obtain ⟨j, hj, he⟩ := Option.map_eq_some_iff.1 h
  have h2 := congrArg jsonOfBytes he
  rw [jsonOfBytes_toBytes, jsonOfBytes_toBytes] at h2
  rw [hj, h2]

theorem member_unique {fs : Api.Members} {k : String} {j x : Json} (h : Api.Member fs k j) (hx : (k, x) ∈ fs) : x = j := by
  have : (k, x) ∈ fs.filter fun p => p.1 = k := List.mem_filter.2 ⟨hx, by simp⟩
  rw [h] at this
  simpa using this

theorem no_member {fs : Api.Members} {k : String} {j : Json} (h : Api.Member fs k j) : ∃ f ∈ fs, f.1 = k := by
  have : (k, j) ∈ fs.filter fun p => p.1 = k := by rw [h]; simp
  exact ⟨_, (List.mem_filter.1 this).1, rfl⟩

theorem forall₂_some {α β : Type} {R : α → β → Prop} {l : List α} {k : List β} (h : List.Forall₂ R l k) {x : α} (hx : x ∈ l) :
    ∃ y, R x y := by
  induction h with
  | nil => cases hx
  | cons hr _ ih =>
    rcases List.mem_cons.1 hx with rfl | hx
    · exact ⟨_, hr⟩
    · exact ih hx

/-- **C128**, in general: a request with a vote that has no member `option` among its messages is refused, whatever else is in it,
whoever sends it, in every state, and nothing changes. -/
theorem C128_vote_needs_option {api : Api} {env : Env} {sender : String} {a : Bytes} {fs g : List (String × Json)} {ms : List Json}
    (ha : jsonOfBytes a = some (.obj [("send_cosmos_msgs", .obj fs)])) (hm : ("messages", .arr ms) ∈ fs)
    (hv : .obj [("gov", .obj [("vote", .obj g)])] ∈ ms) (hg : ∀ f ∈ g, f.1 ≠ "option") (raw : Raw.RawStore) :
    Raw.vmExecute api env sender a raw = (.err (.std "Error parsing into type"), raw) := by
  refine refused_call ha ?_ raw
  cases hd : ExecuteMsg.jc.dec (.obj [("send_cosmos_msgs", .obj fs)]) with
  | none => rfl
  | some m =>
    exfalso
    have h := (ExecuteMsg_reads _ _).1 hd
    cases m with
    | sendCosmosMsgs l qs memo t =>
      obtain ⟨v, h1, fs', h2, -, ⟨o, ⟨j, h3, h4⟩, h5⟩, -⟩ := h
      cases h1
      cases h2
      have e := member_unique h3 hm
      subst e
      rcases h4 with ⟨h4, -⟩ | ⟨x, -, ⟨js, h4, h6⟩, -⟩
      · cases h4
      · cases h4
        obtain ⟨c, hc⟩ := forall₂_some h6 hv
        cases c with
        | gov x =>
          obtain ⟨v, h7, h8⟩ := hc
          cases h7
          cases x with
          | vote p o =>
            obtain ⟨v, h9, fs', h10, -, ⟨j, h11, -⟩⟩ := h8
            cases h9
            cases h10
            obtain ⟨f, hf, e⟩ := no_member h11
            exact hg f hf e
          | voteWeighted p os =>
            obtain ⟨v, h9, -⟩ := h8
            simp at h9
        | _ =>
          obtain ⟨v, h7, -⟩ := hc
          simp at h7
    | _ =>
      obtain ⟨v, h1, -⟩ := h
      simp at h1

/-- **C128** (partial: with `option` for `vote`). A message of this form, with whatever validator, coin, proposal and vote and however
it is written as a text, is understood; and while the channel works and the timeout fits, the owner can send it, and the packet holds
the delegation and the vote by the account, in this order and nothing else. -/
theorem C128_delegate_and_vote_partial {api : Api} {env : Env} {n0 n : Net} {h : List (NetOp × List Obs)} (h0 : n0.Initial env)
    (he : NetExec api n0 h n) {owner : String} (ho : ownerOf n.w = some owner) {ch : IbcChannel} {a : String} (hw : Working n ch a)
    (hidle : ch.order = .ordered → Idle n ch.endpoint.channelId) (hq : n.w.nextSeq ch.endpoint.channelId < 2 ^ 64)
    (fits : n.w.env.time.toNat + allowedSeconds none * 1000000000 < 2 ^ 64)
    (later : (n.hosts ch.connectionId).time.toNat < n.w.env.time.toNat + allowedSeconds none * 1000000000)
    {text : Bytes} {validator denom digits vote : String} {amount : U128} {proposal : UInt64} {option : VoteOption}
    (ht : jsonOfBytes text = some (delegateAndVote "option" validator denom digits proposal.toNat vote))
    (ha : Api.Numeral digits.toList amount.val) (hv : voteNamed vote option) :
    ∃ m p n1 x y, Spells Api.Execute text m ∧ NetStep api n (.ctrl (.execute owner m "" true)) n1 [.packetSent p] ∧
      readPacket p.data = some ⟨1, none, [x, y]⟩ ∧
      readHostMsg x.1 x.2 = some (.delegate a validator (denom, amount.val)) ∧
      readHostMsg y.1 y.2 = some (.vote a proposal.toNat option) := by
  have hd : ExecuteMsg.jc.ofBytes text = some (.sendCosmosMsgs
      [.staking (.delegate validator ⟨denom, amount⟩), .gov (.vote proposal option)] [] none none) := by
    unfold JC.ofBytes
    rw [ht, Option.bind_some]
    refine (ExecuteMsg_reads _ _).2 ⟨_, rfl, _, rfl, by simp, ⟨some _, ⟨_, rfl, .inr ⟨_, by simp, ⟨_, rfl, ?_⟩, rfl⟩⟩, rfl⟩,
      ⟨none, .inl ⟨rfl, rfl⟩, rfl⟩, .inl ⟨rfl, rfl⟩, .inl ⟨rfl, rfl⟩⟩
    refine .cons ⟨_, rfl, _, rfl, _, rfl, ⟨_, rfl, rfl⟩, ⟨_, rfl, _, rfl, ⟨_, rfl, rfl⟩, ⟨_, rfl, _, rfl, ha⟩⟩⟩
      (.cons ⟨_, rfl, _, rfl, _, rfl, ⟨_, rfl, rfl⟩, ⟨_, rfl, ?_⟩⟩ .nil)
    simp only [voteNamed, List.mem_cons, Prod.mk.injEq, List.not_mem_nil, or_false] at hv
    rcases hv with ⟨rfl, rfl⟩ | ⟨rfl, rfl⟩ | ⟨rfl, rfl⟩ | ⟨rfl, rfl⟩ <;> rfl
  have hr : Request.Fine ⟨[.staking (.delegate validator ⟨denom, amount⟩), .gov (.vote proposal option)], [], none, none⟩ n ch a := by
    refine ⟨?_, fun q hq => (by cases hq), ?_, fits, later⟩
    · intro m hm
      simp only [List.mem_cons, List.not_mem_nil, or_false] at hm
      rcases hm with rfl | rfl <;> exact .inr ⟨_, rfl⟩
    · intro url value hm
      simp at hm
  obtain ⟨p, n1, -, st, -⟩ := C97_request_answered h0 he ho hw hidle hq hr
  have hc : ∃ w', Commits api n.w (.execute owner (.sendCosmosMsgs
      [.staking (.delegate validator ⟨denom, amount⟩), .gov (.vote proposal option)] [] none none) "" true) w' [.packetSent p] := by
    cases st with
    | ctrl _ w' _ _ ha => exact ⟨w', ha⟩
  obtain ⟨w', hc⟩ := hc
  obtain ⟨info, p', h1, h2, l, last, h3, h4, h5⟩ := C27_host_reads hc
  have h2 : p = p' := by simpa using h2
  subst h2
  have hi : info.icaAddress = a := by
    rw [hw.2.2.1] at h1
    cases h1
    rfl
  subst hi
  rcases h5 with ⟨-, rfl⟩ | ⟨h5, -⟩
  · cases h4 with
    | cons hx h4 =>
      cases h4 with
      | cons hy h4 =>
        cases h4
        obtain ⟨_, e1, k1⟩ := hx
        obtain ⟨_, e2, k2⟩ := hy
        cases e1
        cases e2
        exact ⟨_, p, n1, _, _, (ofBytes_iff ExecuteMsg_reads).1 hd, st, h3, k1, k2⟩
  · exact absurd rfl h5

/-- The example of the README, corrected: a text with `option`. -/
def Readme.Ex.corrected : String := "{\"send_cosmos_msgs\":{\"messages\":[{\"staking\":{\"delegate\":{\"validator\":\"validatorAddress\",\"amount\":{\"denom\":\"uatom\",\"amount\":\"10000000\"}}}},{\"gov\":{\"vote\":{\"proposal_id\":1,\"option\":\"yes\"}}}]}}"

/-- In the scenario, with its account `cosmos1ica`, the corrected message is sent and delegates and votes. -/
example : ∃ m p n1 x y, Spells Api.Execute (utf8 Readme.Ex.corrected) m ∧
    NetStep Ex.api Ex.net4 (.ctrl (.execute "alice" m "" true)) n1 [.packetSent p] ∧
    readPacket p.data = some ⟨1, none, [x, y]⟩ ∧
    readHostMsg x.1 x.2 = some (.delegate "cosmos1ica" "validatorAddress" ("uatom", 10000000)) ∧
    readHostMsg y.1 y.2 = some (.vote "cosmos1ica" 1 .yes) := by
  obtain ⟨h1, h2, h3⟩ := Ex.usable
  have he : NetExec Ex.api Ex.net0 _ Ex.net4 := (((NetExec.nil.step Ex.ns1).step Ex.ns2).step Ex.ns3).step Ex.ns4
  exact C128_delegate_and_vote_partial (digits := "10000000") (vote := "yes") (amount := ⟨10000000, by decide⟩) (proposal := 1)
    Ex.initial0 he (owner := "alice") rfl h1 (fun _ => h2) (by decide +kernel) h3.fits h3.later
    (Earlier.Ex.text (by decide +kernel)) (parseU128Chars_iff.1 (by decide +kernel)) (by simp [voteNamed])

/-- The message of the README is an instance of the general refusal, too. -/
example (api : Api) (env : Env) (sender : String) (raw : Raw.RawStore) :
    Raw.vmExecute api env sender (utf8 readmeExample) raw = (.err (.std "Error parsing into type"), raw) :=
  C128_vote_needs_option (g := [("proposal_id", .num 1), ("vote", .str "yes")]) C128_readme_means (List.mem_singleton.2 rfl)
    (by simp) (by decide) raw

end Ica
