import Verif.Spec.Api

/-!
# The example of the README

`/repo/README.md` shows one message to the contract and says what it does.
-/
namespace Ica.Spec

/-- The message as printed (`/repo/README.md` 150-175): "an example execute message that delegates tokens to a validator on the
host chain and then votes on a proposal (atomically)". -/
def readmeExample : String :=
"{
  \"send_cosmos_msgs\":{
    \"messages\":[
      {
        \"staking\":{
          \"delegate\":{
            \"validator\":\"validatorAddress\",
            \"amount\":{
              \"denom\":\"uatom\",
              \"amount\":\"10000000\"
            }
          }
        }
      },
      {
        \"gov\":{
          \"vote\":{
            \"proposal_id\":1,
            \"vote\":\"yes\"
          }
        }
      }
    ]
  }
}"

/-- A message of that form: a delegation and a vote. `votes` is the name of the member that holds the vote. -/
def delegateAndVote (votes validator denom amount : String) (proposal : Nat) (vote : String) : Json :=
  .obj [("send_cosmos_msgs", .obj [("messages", .arr [
    .obj [("staking", .obj [("delegate", .obj [("validator", .str validator),
      ("amount", .obj [("denom", .str denom), ("amount", .str amount)])])])],
    .obj [("gov", .obj [("vote", .obj [("proposal_id", .num proposal), (votes, .str vote)])])]])])]

/-- The names of the votes. -/
def voteNamed (s : String) (o : VoteOption) : Prop :=
  (s, o) ∈ [("yes", VoteOption.yes), ("no", .no), ("abstain", .abstain), ("no_with_veto", .noWithVeto)]

end Ica.Spec
