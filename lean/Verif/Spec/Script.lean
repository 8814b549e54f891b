import Verif.Spec.Accounts

/-!
# Scripts

The end-to-end tests of the repository (`/repo/e2e/interchaintestv8/contract_test.go`) each play one script: set up a
contract with the callback counter, make requests of which some succeed, some fail and some time out, close the channel,
reopen it, perhaps with another ordering, and at the end compare what the contract and the counter show with what was
played. Here scripts are lists of scenes, and what is expected after each scene is written down.
-/
namespace Ica.Spec

/-- One scene of a script. -/
inductive Scene where
  /-- a request that the host executes -/
  | done (r : Request)
  /-- a request that the host fails, with this error -/
  | failed (r : Request) (error : String)
  /-- a request that no relayer brings to the host in time -/
  | late (r : Request)
  /-- the owner closes the channel -/
  | close
  /-- the owner asks for a channel again, with these options or with the ones used last -/
  | reopen (options : Option ChannelOpenInitOptions)

/-- Who plays: the owner, the callback counter, the connection with the name the host has for it, and the account. -/
structure Cast where
  owner : String
  counter : String
  connection : String
  hostConnection : String
  account : String

/-- The account has an address the contract accepts. -/
structure Cast.Fine (c : Cast) : Prop where
  named : c.account ≠ ""
  short : (utf8 c.account).length ≤ 128
  plain : ∀ x ∈ c.account.toList, ('0' ≤ x ∧ x ≤ '9') ∨ ('A' ≤ x ∧ x ≤ 'Z') ∨ ('a' ≤ x ∧ x ≤ 'z')

/-- The options are for the connection of the cast. -/
structure Cast.Fits (c : Cast) (o : ChannelOpenInitOptions) : Prop where
  connection : o.connectionId = c.connection
  host : o.counterpartyConnectionId = c.hostConnection
  port : o.counterpartyPortId = none ∨ o.counterpartyPortId = some "icahost"

/-- What is expected between scenes. -/
structure Stage where
  /-- options used last -/
  options : ChannelOpenInitOptions
  /-- whether the contract shows an open channel -/
  isOpen : Bool
  /-- time on the controller chain, in nanoseconds -/
  clock : Nat
  /-- the sequence number the next packet gets -/
  sequence : Nat
  /-- how many successes the counter shows -/
  success : Nat
  /-- the errors the counter shows, in order -/
  errors : List String
  /-- how many timeouts the counter shows -/
  timeout : Nat
  /-- what the host has executed, in order -/
  executed : List Request

/-- The stage when the handshake is complete. -/
def Stage.start (options : ChannelOpenInitOptions) (clock : Nat) : Stage := ⟨options, true, clock, 1, 0, [], 0, []⟩

/-- The request can be made: a channel is open, everything in the request is of a supported kind, its stargate messages are
signed by the account, and its timeout is a timestamp in the future. -/
structure Stage.Takes (s : Stage) (c : Cast) (r : Request) : Prop where
  isOpen : s.isOpen = true
  messages : ∀ m ∈ r.messages, Supported m
  queries : ∀ q ∈ r.queries, SupportedQuery q
  signed : ∀ url value, CosmosMsg.stargate url value ∈ r.messages → Authentic c.account [(url, value)]
  future : 0 < allowedSeconds r.timeout
  fits : s.clock + allowedSeconds r.timeout * 1000000000 < 2 ^ 64
  sequence : s.sequence < 2 ^ 64

/-- What is expected of a scene. -/
inductive Played (c : Cast) : Stage → Scene → Stage → Prop where
  | done {s : Stage} {r : Request} : s.Takes c r →
      Played c s (.done r)
        { s with sequence := s.sequence + 1, success := s.success + 1, executed := s.executed ++ [r] }
  | failed {s : Stage} {r : Request} {e : String} : s.Takes c r →
      Played c s (.failed r e) { s with sequence := s.sequence + 1, errors := s.errors ++ [e] }
  /-- an ordered channel is closed by a timeout, an unordered one stays open -/
  | late {s : Stage} {r : Request} : s.Takes c r →
      Played c s (.late r)
        { s with
          isOpen := decide (askedOrder s.options = .unordered)
          clock := s.clock + allowedSeconds r.timeout * 1000000000
          sequence := s.sequence + 1
          timeout := s.timeout + 1 }
  | close {s : Stage} : s.isOpen = true → Played c s .close { s with isOpen := false }
  | reopen {s : Stage} {o : Option ChannelOpenInitOptions} : s.isOpen = false → c.Fits (o.getD s.options) →
      Played c s (.reopen o) { s with options := o.getD s.options, isOpen := true, sequence := 1 }

/-- What is expected of a script. -/
inductive PlayedAll (c : Cast) : Stage → List Scene → Stage → Prop where
  | nil {s : Stage} : PlayedAll c s [] s
  | cons {s s1 s2 : Stage} {x : Scene} {xs : List Scene} : Played c s x s1 → PlayedAll c s1 xs s2 →
      PlayedAll c s (x :: xs) s2

/-- What it takes to play: the owner creates, closes and sends; relayers and hosts do their part; blocks are made. -/
def Staged (owner : String) : NetOp → Prop
  | .ctrl (.block ..) => True
  | op => Planned owner op

end Ica.Spec
